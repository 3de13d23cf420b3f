import Verif.Proofs.DictSpec
/-!
# C16-C21, C41: `struct_to_dict`
-/

namespace Atop
open Spec

set_option maxRecDepth 100000

/-- `struct_to_dict` of a `t` with memory `mem`, if it does not raise. -/
def converted (t : CType) (mem : Bytes) : Option JVal := (structToDict ⟨t, mem⟩).toOption

/-! ## C16 -/

/-- **C16** For every structure class and every memory: `struct_to_dict` succeeds and its keys are the declared field
names in declaration order, without the non-structure fields whose name contains "future", and without duplicates. -/
theorem C16_keys {t : CType} (ht : t ∈ classes) (mem : Bytes) :
    ∃ d, structToDict ⟨t, mem⟩ = .ok (.dict d) ∧
      d.map Prod.fst = ((fieldsOf t).filter fun p => isShown p.1 p.2).map Prod.fst ∧ (d.map Prod.fst).Nodup := by
  obtain ⟨c, fs, lims, G⟩ := class_Good ht
  refine ⟨_, G.toDict mem, ?_, ?_⟩
  · rw [vals_keys, G.eq]; rfl
  · rw [vals_keys]; exact filter_nodup G.nodup

set_option maxRecDepth 100000 in
theorem classes_closed : classes.all (fun t => (fieldsOf t).all fun p =>
    match p.2 with
    | .struct c fs l => decide (CType.struct c fs l ∈ classes)
    | .array (.struct c fs l) _ => decide (CType.struct c fs l ∈ classes)
    | _ => true) = true := by decide +kernel

theorem place_mem {t : CType} {n : PyStr} {o : Nat} {ft : CType} (h : place t n = some (o, ft)) : (n, ft) ∈ fieldsOf t := by
  cases t with
  | struct c fs l =>
    have h' : fs.lookup n 0 = some (o, ft) := h
    rw [lookup_layout] at h'
    have := lookup_mem h'
    show (n, ft) ∈ fs.toList
    rw [← layout_toList fs 0]
    exact List.mem_map.mpr ⟨_, this, rfl⟩
  | _ => simp [place] at h

theorem nested_class {t : CType} (ht : t ∈ classes) {n : PyStr} {o : Nat} {ft : CType} (hp : place t n = some (o, ft))
    (hs : isStructure ft = true) : ft ∈ classes := by
  have := List.all_eq_true.mp (List.all_eq_true.mp classes_closed t ht) _ (place_mem hp)
  cases ft with
  | struct c fs l => simpa using this
  | _ => simp [isStructure] at hs

theorem element_class {t : CType} (ht : t ∈ classes) {n : PyStr} {o k : Nat} {e : CType}
    (hp : place t n = some (o, .array e k)) (hs : isStructure e = true) : e ∈ classes := by
  have := List.all_eq_true.mp (List.all_eq_true.mp classes_closed t ht) _ (place_mem hp)
  cases e with
  | struct c fs l => simpa using this
  | _ => simp [isStructure] at hs

/-- **C16** Recursively: the entry of a nested structure is the conversion of the memory of that field, and the
nested structure is again one of the classes. -/
theorem C16_nested {t : CType} (ht : t ∈ classes) (mem : Bytes) {d} (hd : structToDict ⟨t, mem⟩ = .ok (.dict d))
    {n : PyStr} {o : Nat} {ft : CType} (hp : place t n = some (o, ft)) (hs : isStructure ft = true) :
    ft ∈ classes ∧ ∃ v, structToDict ⟨ft, slot mem o ft⟩ = .ok v ∧ d.lookup n = some v := by
  have hc := nested_class ht hp hs
  obtain ⟨c, fs, lims, G⟩ := class_Good ht
  obtain ⟨c', fs', lims', G'⟩ := class_Good hc
  rw [G.toDict] at hd; cases hd
  refine ⟨hc, _, G'.toDict _, ?_⟩
  rw [vals_lookup G.nodup lims mem (G.field hp).2.2.2 (by simp [isShown, hs])]
  rw [G'.eq, fieldVal]

/-! ## C17 -/

theorem item_val {e : CType} (hg : e.good = true) (hna : isArray e = false) (hnc : e ≠ .char) {b : Bytes}
    (hb : b.length = e.size) : ShowsItem converted e b (e.val b) := by
  cases e with
  | array => simp [isArray] at hna
  | char => exact absurd rfl hnc
  | int w s =>
    rw [CType.val]
    have := (leInt_iff (w := w) hb (good_int_pos hg) s _).mp rfl
    exact .int this.1 this.2
  | float =>
    rw [CType.val]
    have h4 : b.length = 4 := hb
    have h := (leInt_iff (w := 4) h4 (by decide) false (leNat b)).mp (leInt_false b)
    exact .float h.1 h.2
  | struct c fs lims =>
    refine .struct rfl ?_
    unfold converted
    rw [(good_inv hg).toDict, CType.val]; rfl

theorem array_elem_good {e : CType} {k : Nat} (h : (CType.array e k).good = true) : e.good = true ∧ isArray e = false := by
  simp only [CType.good, Bool.and_eq_true, Bool.not_eq_true'] at h
  refine ⟨h.2, ?_⟩
  cases e <;> first | rfl | simp [CType.isArray] at h

theorem list_entry {t c fs lims} (G : Good t c fs lims) {mem : Bytes} (hl : mem.length = t.size) {n : PyStr} {o k : Nat} {e : CType}
    (hp : place t n = some (o, .array e k)) (he : e ≠ .char) (hf : ¬ mentionsFuture n) :
    ∃ vs, (fs.vals fs lims mem 0).lookup n = some (.list vs) ∧ vs.length = shownCount fs mem lims n k ∧
      ∀ (j : Nat) v, vs[j]? = some v → ShowsItem converted e (slot mem (o + j * e.size) e) v := by
  obtain ⟨-, hg, hin, hlook⟩ := G.field hp
  have hle := shownCount_le fs mem lims n k
  refine ⟨(List.range (shownCount fs mem lims n k)).map (fun j => e.val (slot mem (o + j * e.size) e)), ?_, ?_, ?_⟩
  · rw [vals_lookup G.nodup lims mem hlook (by simp [isShown, hf]), ← chunks_map _ _ _ _ _ hle]
    cases e <;> first | rfl | exact absurd rfl he
  · simp
  · intro j v hv
    rw [List.getElem?_map, Option.map_eq_some_iff] at hv
    obtain ⟨i, hi, rfl⟩ := hv
    have hi' := List.getElem?_eq_some_iff.mp hi
    obtain ⟨hj, he'⟩ := hi'
    simp at hj he'
    subst he'
    obtain ⟨h1, h2⟩ := array_elem_good hg
    exact item_val h1 h2 he (slot_length (by have := entry_inside (show j < k by omega) hin; omega))

set_option maxRecDepth 100000 in
theorem limiters_ok : classes.all (fun t => decide ((limitersOf t).map Prod.fst).Nodup &&
    (limitersOf t).all fun p => decide (¬ mentionsFuture p.1)) = true := by decide +kernel

/-- **C17** A list with a limiter: the dictionary shows the count `c` under the limiter's name, and the list has as many
entries as the count says (`kept`: the first `c`, at most the capacity, and all but the last `k` for `c = -k`); its
`j`-th entry shows the `j`-th entry in memory. -/
theorem C17_limited {t : CType} (ht : t ∈ classes) {mem : Bytes} (hl : mem.length = t.size) {d}
    (hd : structToDict ⟨t, mem⟩ = .ok (.dict d)) {arr lim : PyStr} (hL : (arr, lim) ∈ limitersOf t) :
    ∃ o e cap c vs, place t arr = some (o, .array e cap) ∧ d.lookup lim = some (.int c) ∧
      d.lookup arr = some (.list vs) ∧ vs.length = kept c cap ∧
      ∀ (j : Nat) v, vs[j]? = some v → ShowsItem converted e (slot mem (o + j * e.size) e) v := by
  have h1 := List.all_eq_true.mp limiters_ok t ht
  simp only [Bool.and_eq_true, decide_eq_true_eq] at h1
  have hfut : ¬ mentionsFuture arr := by simpa using List.all_eq_true.mp h1.2 _ hL
  obtain ⟨⟨o, e, cap, hp, he⟩, -⟩ := C40_limiters ht hL
  obtain ⟨c, fs, lims, G⟩ := class_Good ht
  rw [G.toDict] at hd; cases hd
  have hlim : limitersOf t = lims := by rw [G.eq]; rfl
  have hlook : lims.lookup arr = some lim := by rw [← hlim]; exact lookup_of_mem h1.1 hL
  obtain ⟨vs, hv1, hv2, hv3⟩ := list_entry G hl hp he hfut
  obtain ⟨lo, w, s, hpl, hnf, hw, -, hval⟩ := count_exists G hl hlook
  refine ⟨o, e, cap, intField fs mem lim, vs, hp, ?_, hv1, ?_, hv3⟩
  · rw [vals_lookup G.nodup lims mem (G.field hpl).2.2.2 (by simp [isShown, hnf]), hval]; rfl
  · rw [hv2, shownCount, hlook, kept_keep]; rfl

/-- An array type that is not a text. -/
def isList : CType → Bool
  | .array .char _ => false
  | .array _ _ => true
  | _ => false

/-- **C17** Every list that is shown has a limiter (so `C17_limited` speaks about all of them): a declared array that is
not a text and not a placeholder. -/
theorem C17_every_list {t : CType} (ht : t ∈ classes) {n : PyStr} {e : CType} {cap : Nat} (h : (n, .array e cap) ∈ fieldsOf t)
    (he : e ≠ .char) (hf : ¬ mentionsFuture n) : ∃ lim, (n, lim) ∈ limitersOf t := by
  have key : ∀ t ∈ classes, ∀ p ∈ fieldsOf t, isList p.2 = true → ¬ mentionsFuture p.1 →
      ∃ q ∈ limitersOf t, q.1 = p.1 := by decide +kernel
  have hl : isList (.array e cap) = true := by
    cases e <;> first | rfl | exact absurd rfl he
  obtain ⟨⟨a, lim⟩, hq, rfl⟩ := key t ht _ h hl hf
  exact ⟨lim, hq⟩

/-- **C17** The number of entries shown, in words: the count itself when it lies between 0 and the capacity, the
capacity when the count exceeds it, and for `-k` the capacity less `k`, but not less than 0. -/
theorem C17_kept (cap : Nat) : (∀ n : Nat, n ≤ cap → kept n cap = n) ∧ (∀ n : Nat, cap ≤ n → kept n cap = cap) ∧
    (∀ k : Nat, 0 < k → k ≤ cap → kept (-(k : Int)) cap = cap - k) ∧ (∀ k : Nat, cap ≤ k → 0 < k → kept (-(k : Int)) cap = 0) := by
  refine ⟨?_, ?_, ?_, ?_⟩ <;> intros <;> unfold kept <;> split <;> omega

/-! ## C18 -/

/-- **C18** An integer field is shown with the value `k` if and only if `k` is a value of its C type and the memory
of the field is the encoding of `k`; and some integer is always shown. -/
theorem C18_int {t : CType} (ht : t ∈ classes) {mem : Bytes} (hl : mem.length = t.size) {d}
    (hd : structToDict ⟨t, mem⟩ = .ok (.dict d)) {n : PyStr} {o w : Nat} {s : Bool} (hp : place t n = some (o, .int w s))
    (hf : ¬ mentionsFuture n) :
    (∃ k, d.lookup n = some (.int k)) ∧
    ∀ k, d.lookup n = some (.int k) ↔ inRange w s k ∧ (mem.drop o).take w = encodeInt w k := by
  obtain ⟨c, fs, lims, G⟩ := class_Good ht
  rw [G.toDict] at hd; cases hd
  obtain ⟨-, hg, hin, hlook⟩ := G.field hp
  have hlen : (slot mem o (.int w s)).length = w := slot_length (t := .int w s) (by omega)
  have hv := vals_lookup G.nodup lims mem hlook (by simp [isShown, hf])
  rw [show fieldVal fs lims mem n (.int w s) (slot mem o (.int w s)) = .int (leInt s (slot mem o (.int w s))) from rfl] at hv
  refine ⟨⟨_, hv⟩, ?_⟩
  intro k
  rw [hv]
  have := leInt_iff hlen (good_int_pos hg) s k
  rw [show (mem.drop o).take w = slot mem o (.int w s) from rfl, ← this]
  simp

/-- **C18** A float field is shown as the float whose 4-byte pattern is stored. -/
theorem C18_float {t : CType} (ht : t ∈ classes) {mem : Bytes} (hl : mem.length = t.size) {d}
    (hd : structToDict ⟨t, mem⟩ = .ok (.dict d)) {n : PyStr} {o : Nat} (hp : place t n = some (o, .float))
    (hf : ¬ mentionsFuture n) :
    ∀ k : Nat, d.lookup n = some (.float k) ↔ k < 2 ^ 32 ∧ (mem.drop o).take 4 = encodeInt 4 k := by
  obtain ⟨c, fs, lims, G⟩ := class_Good ht
  rw [G.toDict] at hd; cases hd
  obtain ⟨-, hg, hin, hlook⟩ := G.field hp
  have hlen : (slot mem o .float).length = 4 := slot_length (t := .float) (by omega)
  have hv := vals_lookup G.nodup lims mem hlook (by simp [isShown, hf])
  rw [show fieldVal fs lims mem n .float (slot mem o .float) = .float (leNat (slot mem o .float)) from rfl] at hv
  intro k
  rw [hv]
  have := leInt_iff hlen (by decide) false (k : Int)
  rw [leInt_false] at this
  rw [show (mem.drop o).take 4 = slot mem o .float from rfl]
  have hr : inRange 4 false (k : Int) ↔ k < 2 ^ 32 := by
    unfold inRange; simp only [Bool.false_eq_true, if_false]
    constructor
    · intro h; omega
    · intro h; omega
  rw [hr] at this
  rw [← this]
  simp only [Option.some.injEq, JVal.float.injEq]
  omega

/-- **C18** Each value of a C integer type has exactly one encoding, and distinct values have distinct encodings. -/
theorem C18_encoding (w : Nat) (hw : 0 < w) (s : Bool) :
    (∀ b : Bytes, b.length = w → ∃ k, inRange w s k ∧ b = encodeInt w k) ∧
    (∀ k k', inRange w s k → inRange w s k' → encodeInt w k = encodeInt w k' → k = k') := by
  refine ⟨fun b hb => ⟨_, (leInt_iff hb hw s _).mp rfl⟩, ?_⟩
  intro k k' h h' he
  have h1 := (leInt_iff (encodeInt_length w k) hw s k).mpr ⟨h, rfl⟩
  have h2 := (leInt_iff (encodeInt_length w k) hw s k').mpr ⟨h', he⟩
  rw [← h1, h2]

/-! ## C19 -/

/-- **C19** A character-array field is shown as a text: the bytes before the first NUL (all of them when there is none),
decoded as UTF-8 by dropping every byte at which no character starts.  Only Unicode scalar values are shown. -/
theorem C19_text {t : CType} (ht : t ∈ classes) (mem : Bytes) {d} (hd : structToDict ⟨t, mem⟩ = .ok (.dict d))
    {n : PyStr} {o k : Nat} (hp : place t n = some (o, .array .char k)) (hf : ¬ mentionsFuture n) :
    ∃ s, d.lookup n = some (.str s) ∧ Decodes (beforeNul ((mem.drop o).take k)) s ∧ (∀ c ∈ s, scalar c) := by
  obtain ⟨c, fs, lims, G⟩ := class_Good ht
  rw [G.toDict] at hd; cases hd
  obtain ⟨-, hg, hin, hlook⟩ := G.field hp
  have hv := vals_lookup G.nodup lims mem hlook (by simp [isShown, hf])
  refine ⟨_, hv, ?_⟩
  have hz : slot mem o (.array .char k) = (mem.drop o).take k := by simp [slot, CType.size]
  rw [hz, cstr_eq]
  have := (decodeIgnore_iff (beforeNul ((mem.drop o).take k)) _).mp rfl
  exact ⟨this, (decodes_scalar this).1⟩

/-- **C19** The text shown is determined: `Decodes` is a function of the bytes. -/
theorem C19_deterministic {b : Bytes} {s s' : PyStr} (h : Decodes b s) (h' : Decodes b s') : s = s' := by
  rw [← decodeIgnore_iff] at h h'; rw [← h, ← h']

/-- **C19** Any text without NUL whose UTF-8 form fits into the field is shown unchanged, whether it is
terminated by a NUL (whatever follows) or fills the field. -/
theorem C19_round_trip {t : CType} (ht : t ∈ classes) (mem : Bytes) {d} (hd : structToDict ⟨t, mem⟩ = .ok (.dict d))
    {n : PyStr} {o k : Nat} (hp : place t n = some (o, .array .char k)) (hf : ¬ mentionsFuture n)
    {s : PyStr} (hs : ∀ c ∈ s, scalar c) (h0 : 0 ∉ s)
    (hm : (mem.drop o).take k = encodeText s ∨ ∃ junk, (mem.drop o).take k = encodeText s ++ 0 :: junk) :
    d.lookup n = some (.str s) := by
  obtain ⟨s', h1, h2, -⟩ := C19_text ht mem hd hp hf
  rw [h1]
  have hb : beforeNul ((mem.drop o).take k) = encodeText s := by
    rcases hm with hm | ⟨junk, hm⟩
    · rw [hm]; exact beforeNul_nonul (encodeText_nonul hs h0)
    · rw [hm]; exact beforeNul_nul _ _ (encodeText_nonul hs h0)
  rw [hb, ← decodeIgnore_iff, decodeIgnore_encodeText s hs] at h2
  rw [h2]

/-- **C19** Nothing is invented: the encoding of the text shown is what remains of the bytes after deleting some. -/
theorem C19_sublist {t : CType} (ht : t ∈ classes) (mem : Bytes) {d} (hd : structToDict ⟨t, mem⟩ = .ok (.dict d))
    {n : PyStr} {o k : Nat} (hp : place t n = some (o, .array .char k)) (hf : ¬ mentionsFuture n) :
    ∃ s, d.lookup n = some (.str s) ∧ (encodeText s).Sublist (beforeNul ((mem.drop o).take k)) := by
  obtain ⟨s, h1, h2, -⟩ := C19_text ht mem hd hp hf
  exact ⟨s, h1, (decodes_scalar h2).2⟩

/-- **C19** A single-character field is shown as the text of its byte: the character when it is ASCII (also NUL),
the empty text otherwise. -/
theorem C19_char {t : CType} (ht : t ∈ classes) {mem : Bytes} (hl : mem.length = t.size) {d}
    (hd : structToDict ⟨t, mem⟩ = .ok (.dict d)) {n : PyStr} {o : Nat} (hp : place t n = some (o, .char))
    (hf : ¬ mentionsFuture n) :
    ∃ x : UInt8, mem[o]? = some x ∧ d.lookup n = some (.str (if x.toNat < 128 then [x.toNat] else [])) := by
  obtain ⟨c, fs, lims, G⟩ := class_Good ht
  rw [G.toDict] at hd; cases hd
  obtain ⟨-, hg, hin, hlook⟩ := G.field hp
  simp only [CType.size] at hin
  have hv := vals_lookup G.nodup lims mem hlook (by simp [isShown, hf])
  have ho : o < mem.length := by omega
  refine ⟨mem[o], List.getElem?_eq_getElem ho, ?_⟩
  rw [hv]
  have hz : slot mem o .char = [mem[o]] := by
    unfold slot; rw [CType.size, List.drop_eq_getElem_cons ho]; rfl
  rw [hz, fieldVal]
  generalize mem[o] = x
  congr 2
  by_cases hx : x.toNat < 128
  · rw [if_pos hx, decodeIgnore, ev1 x [] hx]; rfl
  · rw [if_neg hx, decodeIgnore]
    rcases events_step x [] with ⟨c, r, hc, he, -⟩ | ⟨cs, r, h, -, he⟩
    · exfalso
      have hr : r = [] ∧ (encodeCp c).length = 1 := by
        have := congrArg List.length he
        simp only [List.length_cons, List.length_nil, List.length_append] at this
        have := encodeCp_pos c
        exact ⟨List.length_eq_zero_iff.mp (by omega), by omega⟩
      rw [hr.1, List.append_nil] at he
      have h2 := hr.2
      unfold encodeCp at he h2
      by_cases hc1 : c < 0x80
      · rw [if_pos hc1] at he
        injection he with he _
        rw [he, toNat_ofNat (by omega)] at hx; omega
      · rw [if_neg hc1] at h2
        (repeat' split at h2) <;> simp at h2
    · have hr : r = [] := by
        cases cs with
        | nil => exact h.symm
        | cons => cases h
      rw [he, hr]; rfl

/-! ## C20 -/

theorem text_ignore (b : Bytes) : Text (decodeIgnore b) := by
  have : ∀ {b s}, Decodes b s → Text s := by
    intro b s h
    induction h with
    | nil => intro c hc; cases hc
    | char hc _ ih => intro d hd; exact (List.mem_cons.mp hd).elim (fun e => e ▸ hc) (ih d)
    | drop _ _ ih => exact ih
  exact this ((decodeIgnore_iff b _).mp rfl)

mutual
/-- Every field name is ASCII. -/
def CType.named : CType → Bool
  | .array e _ => e.named
  | .struct _ fs _ => fs.named
  | _ => true
def Fields.named : Fields → Bool
  | .nil => true
  | .cons n t r => n.all (fun c => decide (c < 128)) && t.named && r.named
end

theorem classes_named : classes.all CType.named = true := by decide +kernel

theorem ascii_text {n : PyStr} (h : n.all (fun c => decide (c < 128)) = true) : Text n := by
  intro c hc
  have := List.all_eq_true.mp h c hc
  rw [decide_eq_true_eq] at this
  exact .inl (by omega)

theorem vals_text : ∀ (fs : Fields), fs.named = true → ∀ (all : Fields) lims full off,
    ∀ p ∈ fs.vals all lims full off, Text p.1
  | .nil, _, all, lims, full, off => by simp [Fields.vals]
  | .cons n t r, h, all, lims, full, off => by
    simp only [Fields.named, Bool.and_eq_true] at h
    have ih := vals_text r h.2 all lims full
    have hn := ascii_text h.1.1
    have hd : ∀ (v : JVal) tl, (∀ p ∈ tl, Text p.1) → ∀ p ∈ (n, v) :: tl, Text p.1 := by
      intro v tl h2 p hp
      rcases List.mem_cons.mp hp with rfl | hp
      · exact hn
      · exact h2 p hp
    match t with
    | .struct c fs l => simp only [Fields.vals]; exact hd _ _ (ih _)
    | .int w s => simp only [Fields.vals]; split <;> first | exact ih _ | exact hd _ _ (ih _)
    | .float => simp only [Fields.vals]; split <;> first | exact ih _ | exact hd _ _ (ih _)
    | .char => simp only [Fields.vals]; split <;> first | exact ih _ | exact hd _ _ (ih _)
    | .array .char k => simp only [Fields.vals]; split <;> first | exact ih _ | exact hd _ _ (ih _)
    | .array (.int _ _) k => simp only [Fields.vals]; split <;> first | exact ih _ | exact hd _ _ (ih _)
    | .array .float k => simp only [Fields.vals]; split <;> first | exact ih _ | exact hd _ _ (ih _)
    | .array (.array _ _) k => simp only [Fields.vals]; split <;> first | exact ih _ | exact hd _ _ (ih _)
    | .array (.struct _ _ _) k => simp only [Fields.vals]; split <;> first | exact ih _ | exact hd _ _ (ih _)

theorem leNat_float {b : Bytes} (h : b.length ≤ 4) : leNat b < 2 ^ 32 :=
  Nat.lt_of_lt_of_le (leNat_lt b) (Nat.le_trans (Nat.pow_le_pow_right (by omega) h) (by decide))

mutual
theorem json_val : ∀ (t : CType), t.good = true → t.named = true → isArray t = false → t ≠ .char → ∀ b, b.length ≤ t.size → Json Text (t.val b)
  | .int _ _, _, _, _, _, b, _ => by rw [CType.val]; exact .int _
  | .float, _, _, _, _, b, hb => by rw [CType.val]; exact .float (leNat_float hb)
  | .char, _, _, _, h, _, _ => absurd rfl h
  | .array _ _, _, _, h, _, _, _ => by simp [isArray] at h
  | .struct c fs lims, h, hn, _, _, b, _ => by
    have G := good_inv h
    rw [CType.named] at hn
    rw [CType.val]
    refine .dict ?_ (vals_text fs hn fs lims b 0) (json_vals fs G.fields hn fs lims b 0)
    rw [vals_keys]; exact filter_nodup G.nodup
theorem json_vals : ∀ (fs : Fields), fs.good = true → fs.named = true → ∀ (all : Fields) lims full off,
    ∀ p ∈ fs.vals all lims full off, Json Text p.2
  | .nil, _, _, all, lims, full, off => by simp [Fields.vals]
  | .cons n t r, h, hn, all, lims, full, off => by
    simp only [Fields.good, Bool.and_eq_true] at h
    simp only [Fields.named, Bool.and_eq_true] at hn
    have ih := json_vals r h.2 hn.2 all lims full
    have hd : ∀ (v : JVal) tl, Json Text v → (∀ p ∈ tl, Json Text p.2) → ∀ p ∈ (n, v) :: tl, Json Text p.2 := by
      intro v tl h1 h2 p hp
      rcases List.mem_cons.mp hp with rfl | hp
      · exact h1
      · exact h2 p hp
    match t, h.1, hn.1.2 with
    | .struct c fs l, ht, hnt =>
      simp only [Fields.vals]
      refine hd _ _ ?_ (ih _)
      have := json_val (.struct c fs l) ht hnt rfl (by simp) (List.take (CType.struct c fs l).size
        (List.drop (roundUp off (CType.struct c fs l).align) full)) (List.length_take_le _ _)
      rwa [CType.val] at this
    | .int w s, ht, _ => simp only [Fields.vals]; split <;> first | exact ih _ | exact hd _ _ (.int _) (ih _)
    | .float, ht, _ =>
      simp only [Fields.vals]; split <;> first | exact ih _ | exact hd _ _ (.float (leNat_float (List.length_take_le _ _))) (ih _)
    | .char, ht, _ => simp only [Fields.vals]; split <;> first | exact ih _ | exact hd _ _ (.str (text_ignore _)) (ih _)
    | .array .char k, ht, _ => simp only [Fields.vals]; split <;> first | exact ih _ | exact hd _ _ (.str (text_ignore _)) (ih _)
    | .array (.int w s) k, ht, _ =>
      simp only [Fields.vals]; split
      · exact ih _
      · refine hd _ _ (.list ?_) (ih _)
        intro v hv
        obtain ⟨b, -, rfl⟩ := List.mem_map.mp hv
        rw [CType.val]; exact .int _
    | .array .float k, ht, _ =>
      simp only [Fields.vals]; split
      · exact ih _
      · refine hd _ _ (.list ?_) (ih _)
        intro v hv
        obtain ⟨b, hb, rfl⟩ := List.mem_map.mp hv
        rw [CType.val]
        obtain ⟨i, -, rfl⟩ := List.mem_map.mp (List.mem_of_mem_take hb)
        exact .float (leNat_float (List.length_take_le _ _))
    | .array (.array _ _) k, ht, _ => simp [CType.good, CType.isArray] at ht
    | .array (.struct c fs l) k, ht, hnt =>
      simp only [CType.good, Bool.and_eq_true] at ht
      rw [CType.named] at hnt
      have he : (CType.struct c fs l).good = true := by simpa [CType.good] using ht.2
      simp only [Fields.vals]; split
      · exact ih _
      · refine hd _ _ (.list ?_) (ih _)
        intro v hv
        obtain ⟨b, hb, rfl⟩ := List.mem_map.mp hv
        obtain ⟨i, -, rfl⟩ := List.mem_map.mp (List.mem_of_mem_take hb)
        exact json_val (.struct c fs l) he hnt rfl (by simp) _ (List.length_take_le _ _)
end

/-- **C20** For every structure class of every version and every memory content, `struct_to_dict` succeeds and
its result consists only of integers, floats (32 bits), texts (no lone surrogates), lists and dictionaries (with
distinct keys, which are texts). -/
theorem C20_json {t : CType} (ht : t ∈ classes) (mem : Bytes) : ∃ v, structToDict ⟨t, mem⟩ = .ok v ∧ Json Text v := by
  obtain ⟨c, fs, lims, G⟩ := class_Good ht
  have hn : fs.named = true := by
    have := List.all_eq_true.mp classes_named t ht
    rwa [G.eq, CType.named] at this
  refine ⟨_, G.toDict mem, ?_⟩
  refine .dict ?_ (vals_text fs hn fs lims mem 0) (json_vals fs G.fields hn fs lims mem 0)
  rw [vals_keys]; exact filter_nodup G.nodup

/-- **C20** The same for a cgroup: its statistics and its process list, which has one integer per four bytes. -/
theorem C20_cgroup {t : CType} (ht : t ∈ classes) (mem pids : Bytes) (n : Nat) :
    ∃ v ps, CGroup.toDict ⟨⟨t, mem⟩, ⟨.array pid_t n, pids⟩⟩ = .ok v ∧ Json Text v ∧
      structToDict ⟨t, mem⟩ = .ok ps ∧
      v = .dict [(py!"cstat", ps), (py!"proclist", .list ((List.range n).map fun i => .int (leInt true ((pids.drop (i * 4)).take 4))))] := by
  obtain ⟨v, hv, hj⟩ := C20_json ht mem
  have hm : (chunks pids pid_t.size n).mapM (fun b => pid_t.toDictElem b) =
      .ok ((List.range n).map fun i => JVal.int (leInt true ((pids.drop (i * 4)).take 4))) := by
    have : (fun b => pid_t.toDictElem b) = fun b => .ok (JVal.int (leInt true b)) := rfl
    rw [this, mapM_ok, chunks, List.map_map]; rfl
  refine ⟨_, v, ?_, ?_, hv, rfl⟩
  · unfold CGroup.toDict
    simp only [hv, hm, bind, Except.bind, pure, Except.pure]
  · refine .dict (by show List.Nodup [py!"cstat", py!"proclist"]; decide) ?_ ?_ <;>
    · intro p hp
      simp only [List.mem_cons, List.not_mem_nil, or_false] at hp
      rcases hp with rfl | rfl
      · first | exact hj | exact ascii_text rfl
      · first
        | exact ascii_text rfl
        | refine .list ?_
          intro x hx
          obtain ⟨i, -, rfl⟩ := List.mem_map.mp hx
          exact .int _

/-! Non-vacuity: a 1.26 record full of 7s.  `flags` (bytes 8-9) shows 7 + 256·7 and the `future` fields are not among the
keys; the node name of a 2.12 header is a 65-byte text, its `sfuture` is hidden; an encoder example. -/
example : ∃ d, structToDict ⟨V1_26.Record, List.replicate 80 7⟩ = .ok (.dict d) ∧ d.lookup py!"flags" = some (.int 1799) ∧
    py!"sfuture" ∉ d.map Prod.fst ∧ (d.map Prod.fst).length = 12 := by
  obtain ⟨d, hd, hk, -⟩ := C16_keys (t := V1_26.Record) (by decide +kernel) (List.replicate 80 7)
  refine ⟨d, hd, ?_, ?_, ?_⟩
  · refine ((C18_int (o := 8) (w := 2) (s := false) (by decide +kernel) (by decide +kernel) hd (by decide +kernel)
      (by decide +kernel)).2 1799).mpr ⟨by simp [inRange], by decide +kernel⟩
  · rw [hk]; decide +kernel
  · rw [hk]; decide +kernel
example : place Shared.UTSName py!"nodename" = some (65, .array .char 65) ∧ ¬ mentionsFuture py!"nodename" ∧
    Shared.UTSName ∈ classes := by decide +kernel
example : encodeText py!"né€😀" = [0x6E, 0xC3, 0xA9, 0xE2, 0x82, 0xAC, 0xF0, 0x9F, 0x98, 0x80] := by decide
example : encodeInt 4 (-2) = [0xFE, 0xFF, 0xFF, 0xFF] ∧ encodeInt 2 0x1234 = [0x34, 0x12] := by decide
example : Decodes [0x41, 0xE2, 0x82, 0x42, 0xFF, 0x43] py!"ABC" := (decodeIgnore_iff _ _).mp (by decide)
example : limitersOf V2_12.SStat = [] ∧ (limitersOf V1_26.DSKStat).length = 3 := by decide +kernel

end Atop
