import Verif.Proofs.Dict
import Verif.Proofs.Log
/-!
# C39, C40: layout and schema
-/

namespace Atop
open Spec

theorem roundUp_spec (n a : Nat) (ha : 0 < a) : n ≤ roundUp n a ∧ roundUp n a < n + a ∧ roundUp n a % a = 0 := by
  unfold roundUp
  have h1 := Nat.div_add_mod (n + a - 1) a
  have h2 := Nat.mod_lt (n + a - 1) ha
  rw [Nat.mul_comm] at h1
  refine ⟨by omega, by omega, Nat.mul_mod_left _ _⟩

mutual
theorem align_pos : ∀ (t : CType), t.good = true → 0 < t.align
  | .int n _, h => by simp [CType.good] at h; simp only [CType.align]; omega
  | .float, _ => by simp [CType.align]
  | .char, _ => by simp [CType.align]
  | .array e _, h => by
    simp only [CType.good, Bool.and_eq_true] at h
    simp only [CType.align]; exact align_pos e h.2
  | .struct _ fs _, _ => by simp only [CType.align]; exact falign_pos fs
theorem falign_pos : ∀ (fs : Fields), 0 < fs.align
  | .nil => by simp [Fields.align]
  | .cons _ t r => by have := falign_pos r; simp only [Fields.align]; omega
end

mutual
theorem align_pow : ∀ (t : CType), t.good = true → t.align = 1 ∨ t.align = 2 ∨ t.align = 4 ∨ t.align = 8
  | .int n _, h => by simp [CType.good] at h; simp only [CType.align]; omega
  | .float, _ => by simp [CType.align]
  | .char, _ => by simp [CType.align]
  | .array e _, h => by
    simp only [CType.good, Bool.and_eq_true] at h
    simp only [CType.align]; exact align_pow e h.2
  | .struct _ fs _, h => by
    simp only [CType.good, Bool.and_eq_true] at h
    simp only [CType.align]; exact falign_pow fs h.1.1
theorem falign_pow : ∀ (fs : Fields), fs.good = true → fs.align = 1 ∨ fs.align = 2 ∨ fs.align = 4 ∨ fs.align = 8
  | .nil, _ => by simp [Fields.align]
  | .cons _ t r, h => by
    simp only [Fields.good, Bool.and_eq_true] at h
    have h1 := align_pow t h.1
    have h2 := falign_pow r h.2
    simp only [Fields.align]; omega
end

theorem layout_length : ∀ (fs : Fields) (off : Nat), (fs.layout off).length = fs.toList.length
  | .nil, _ => rfl
  | .cons _ _ r, off => by simp [Fields.layout, Fields.toList, layout_length r]

theorem layout_toList : ∀ (fs : Fields) (off : Nat), (fs.layout off).map (fun p => (p.1, p.2.2)) = fs.toList
  | .nil, _ => rfl
  | .cons _ _ r, off => by simp [Fields.layout, Fields.toList, layout_toList r]

theorem layout_end : ∀ (fs : Fields) (off : Nat), fs.good = true → off ≤ fs.endOff off ∧
    ∀ p ∈ fs.layout off, off ≤ p.2.1 ∧ p.2.1 + p.2.2.size ≤ fs.endOff off ∧ p.2.1 % p.2.2.align = 0
  | .nil, off, _ => ⟨Nat.le_refl _, by simp [Fields.layout]⟩
  | .cons n t r, off, h => by
    simp only [Fields.good, Bool.and_eq_true] at h
    have hr := roundUp_spec off t.align (align_pos t h.1)
    have ih := layout_end r (roundUp off t.align + t.size) h.2
    simp only [Fields.endOff, Fields.layout, List.mem_cons]
    refine ⟨by omega, ?_⟩
    rintro p (rfl | hp)
    · exact ⟨hr.1, ih.1, hr.2.2⟩
    · have := ih.2 p hp; exact ⟨by omega, this.2⟩

theorem layout_next : ∀ (fs : Fields) (off : Nat), fs.good = true → ∀ (i : Nat) p q, (fs.layout off)[i]? = some p →
    (fs.layout off)[i + 1]? = some q → p.2.1 + p.2.2.size ≤ q.2.1 ∧ q.2.1 < p.2.1 + p.2.2.size + q.2.2.align
  | .nil, off, _, i, p, q, hp, hq => by simp [Fields.layout] at hp
  | .cons n t r, off, h, i, p, q, hp, hq => by
    simp only [Fields.good, Bool.and_eq_true] at h
    simp only [Fields.layout] at hp hq
    cases i with
    | succ i => exact layout_next r _ h.2 i p q hp hq
    | zero =>
      simp at hp; subst hp
      cases r with
      | nil => simp [Fields.layout] at hq
      | cons n' t' r' =>
        simp [Fields.layout] at hq; subst hq
        simp only [Fields.good, Bool.and_eq_true] at h
        have := roundUp_spec (roundUp off t.align + t.size) t'.align (align_pos t' h.2.1)
        exact ⟨this.1, this.2.1⟩

theorem layout_last : ∀ (fs : Fields) (off : Nat) (p), (fs.layout off)[fs.toList.length - 1]? = some p →
    fs.endOff off = p.2.1 + p.2.2.size
  | .nil, off, p, hp => by simp [Fields.layout] at hp
  | .cons n t .nil, off, p, hp => by
    simp [Fields.layout, Fields.toList] at hp; subst hp; simp [Fields.endOff]
  | .cons n t (.cons n' t' r'), off, p, hp => by
    rw [Fields.endOff]
    refine layout_last (.cons n' t' r') _ p ?_
    simpa [Fields.layout, Fields.toList] using hp

theorem lookup_layout : ∀ (fs : Fields) (off : Nat) (name : PyStr),
    fs.lookup name off = (fs.layout off).lookup name
  | .nil, _, _ => rfl
  | .cons n t r, off, name => by
    rw [Fields.lookup, Fields.layout, List.lookup_cons, lookup_layout r]
    by_cases h : n = name
    · subst h; simp
    · have : (name == n) = false := by simpa using Ne.symm h
      rw [if_neg h, this]

theorem lookup_of_mem {α β} [BEq α] [LawfulBEq α] {l : List (α × β)} (hn : (l.map Prod.fst).Nodup) {a : α} {b : β} (h : (a, b) ∈ l) :
    l.lookup a = some b := by
  induction l with
  | nil => cases h
  | cons p r ih =>
    obtain ⟨x, y⟩ := p
    simp only [List.map_cons, List.nodup_cons] at hn
    rw [List.lookup_cons]
    rcases List.mem_cons.mp h with h | h
    · injection h with h1 h2; subst h1 h2; simp
    · have : (a == x) = false := by
        simp only [beq_eq_false_iff_ne, ne_eq]
        rintro rfl
        exact hn.1 (List.mem_map.mpr ⟨_, ‹(a, b) ∈ r›, rfl⟩)
      rw [this]
      exact ih hn.2 h

theorem names_layout (fs : Fields) (off : Nat) : (fs.layout off).map Prod.fst = fs.toList.map Prod.fst := by
  rw [← layout_toList fs off]; simp

theorem falign_dvd : ∀ (fs : Fields), fs.good = true → ∀ p ∈ fs.toList, p.2.align ∣ fs.align
  | .nil, _, p, hp => by simp [Fields.toList] at hp
  | .cons n t r, h, p, hp => by
    have hg := h
    simp only [Fields.good, Bool.and_eq_true] at h
    have h0 := falign_pow _ hg
    simp only [Fields.align] at h0 ⊢
    simp only [Fields.toList, List.mem_cons] at hp
    have h1 := align_pow t h.1
    have h2 := falign_pow r h.2
    rcases hp with rfl | hp
    · rcases h1 with h1 | h1 | h1 | h1 <;> rcases h2 with h2 | h2 | h2 | h2 <;> rw [h1, h2] <;> decide
    · have h3 := falign_dvd r h.2 p hp
      refine Nat.dvd_trans h3 ?_
      rcases h1 with h1 | h1 | h1 | h1 <;> rcases h2 with h2 | h2 | h2 | h2 <;> rw [h1, h2] <;> decide

theorem falign_max : ∀ (fs : Fields), fs.good = true → fs.toList ≠ [] → ∃ p ∈ fs.toList, p.2.align = fs.align
  | .nil, _, h => absurd rfl h
  | .cons n t .nil, h, _ => by
    refine ⟨(n, t), by simp [Fields.toList], ?_⟩
    simp only [Fields.good, Bool.and_eq_true] at h
    have := align_pos t h.1
    simp only [Fields.align]; omega
  | .cons n t (.cons n' t' r'), h, _ => by
    simp only [Fields.good, Bool.and_eq_true] at h
    obtain ⟨p, hp, he⟩ := falign_max (.cons n' t' r') (by simp [Fields.good, h.2]) (by simp [Fields.toList])
    rw [Fields.align]
    rcases Nat.le_total t.align (Fields.cons n' t' r').align with hle | hle
    · exact ⟨p, by simp only [Fields.toList, List.mem_cons] at hp ⊢; exact .inr hp, by rw [he, Nat.max_eq_right hle]⟩
    · exact ⟨(n, t), by simp [Fields.toList], by rw [Nat.max_eq_left hle]⟩

theorem class_good {t : CType} (h : t ∈ classes) : t.good = true := List.all_eq_true.mp allClasses_good t h

set_option maxRecDepth 100000 in
theorem classes_struct : classes.all (fun t => t.isStruct && !(fieldsOf t).isEmpty) = true := by decide +kernel

theorem class_struct {t : CType} (h : t ∈ classes) : ∃ c fs lims, t = .struct c fs lims ∧ fs.toList ≠ [] := by
  have := List.all_eq_true.mp classes_struct t h
  cases t with
  | struct c fs lims => exact ⟨c, fs, lims, rfl, by simpa [CType.isStruct, fieldsOf] using this⟩
  | _ => simp [CType.isStruct] at this

/-- **C39** In every structure class of every version: attribute `n` is read at the offset and with the type the
C compiler gives field `n`; the layout is the C layout; the structure is aligned like its most demanding field;
field names are unique. -/
theorem C39_layout {t : CType} (ht : t ∈ classes) :
    ((fieldsOf t).map Prod.fst).Nodup ∧ CAlign (fieldsOf t) t.align ∧
    ∃ offs : List Nat, CLayout (fieldsOf t) offs t.size t.align ∧
      ∀ (i o : Nat) n ft, offs[i]? = some o → (fieldsOf t)[i]? = some (n, ft) → place t n = some (o, ft) := by
  have hg := class_good ht
  obtain ⟨c, fs, lims, rfl, hne⟩ := class_struct ht
  simp only [CType.good, Bool.and_eq_true, decide_eq_true_eq] at hg
  obtain ⟨⟨hg, hnd⟩, -⟩ := hg
  have hal := falign_pos fs
  have hsz := roundUp_spec (fs.endOff 0) fs.align hal
  have hle := layout_end fs 0 hg
  refine ⟨hnd, ⟨falign_dvd fs hg, falign_max fs hg hne⟩, (fs.layout 0).map (fun p => p.2.1), ?_, ?_⟩
  · have key : ∀ (i o : Nat) n t, ((fs.layout 0).map (fun p => p.2.1))[i]? = some o → fs.toList[i]? = some (n, t) →
        (fs.layout 0)[i]? = some (n, o, t) := by
      intro i o n t h1 h2
      rw [← layout_toList fs 0] at h2
      simp only [List.getElem?_map, Option.map_eq_some_iff] at h1 h2
      obtain ⟨p, hp, rfl⟩ := h1
      obtain ⟨q, hq, hq'⟩ := h2
      rw [hp] at hq
      injection hq with hq; subst hq
      rw [hp, ← (Prod.mk.inj hq').1, ← (Prod.mk.inj hq').2]
    simp only [CType.size, CType.align, fieldsOf]
    constructor
    · simp [layout_length]
    · intro o ho
      cases fs with
      | nil => exact absurd rfl hne
      | cons n t r => simp [Fields.layout, roundUp] at ho; simp only [Fields.good, Bool.and_eq_true] at hg
                      have := align_pos t hg.1; rw [← ho, Nat.div_eq_of_lt (by omega)]; simp
    · intro i o n t h1 h2; exact (hle.2 _ (List.mem_of_getElem? (key i o n t h1 h2))).2.2
    · intro i o o' n t n' t' h1 h2 h3 h4
      exact layout_next fs 0 hg i _ _ (key i o n t h1 h2) (key _ o' n' t' h3 h4)
    · intro i o n t h1 h2
      have := (hle.2 _ (List.mem_of_getElem? (key i o n t h1 h2))).2.1
      dsimp only at this; omega
    · intro i o n t h1 h2 h3
      have := layout_last fs 0 (n, o, t) (by rw [← h3]; exact key i o n t h1 h2)
      dsimp only at this; omega
    · exact hsz.2.2
  · intro i o n ft h1 h2
    simp only [place, lookup_layout]
    refine lookup_of_mem (by rw [names_layout fs 0]; exact hnd) ?_
    simp only [fieldsOf] at h2
    rw [← layout_toList fs 0] at h2
    simp only [List.getElem?_map, Option.map_eq_some_iff] at h1 h2
    obtain ⟨p, hp, rfl⟩ := h1
    obtain ⟨q, hq, hq'⟩ := h2
    rw [hp] at hq
    injection hq with hq; subst hq
    rw [← (Prod.mk.inj hq').1, ← (Prod.mk.inj hq').2]
    exact List.mem_of_getElem? hp

/-- **C39** Reading a list attribute and indexing it: element `i` is read from the element-size bytes at the
field's offset plus `i` element sizes. -/
theorem C39_elements {t : CType} (ht : t ∈ classes) {n : PyStr} {o k : Nat} {e : CType} (he : e ≠ .char)
    (hp : place t n = some (o, .array e k)) (mem : Bytes) (i : Nat) (hi : i < k) :
    ∃ items, getItems (Inst.obj ⟨t, mem⟩) [n] = .ok items ∧ items.length = k ∧
      items[i]? = some (pyItem e ((mem.drop (o + i * e.size)).take e.size)) := by
  obtain ⟨c, fs, lims, rfl, -⟩ := class_struct ht
  have hp' : fs.lookup n 0 = some (o, .array e k) := hp
  refine ⟨(chunks ((mem.drop o).take (k * e.size)) e.size k).map (pyItem e), ?_, by simp [chunks], ?_⟩
  · have : pyField (.array e k) ((mem.drop o).take (k * e.size)) = .array e k ((mem.drop o).take (k * e.size)) := by
      cases e <;> first | rfl | exact absurd rfl he
    simp only [getItems, PyObj.path, Inst.obj, pyItem, PyObj.attr, Fields.getattr, hp', bind, Except.bind,
      CType.size, this, pure, Except.pure]
  · simp only [chunks, List.map_map, List.getElem?_map, List.getElem?_range hi, Option.map_some, Function.comp, chunk]
    have hle : i * e.size + e.size ≤ k * e.size := by
      have := Nat.mul_le_mul_right e.size (show i + 1 ≤ k from hi)
      rwa [Nat.add_mul, Nat.one_mul] at this
    rw [List.drop_take, List.drop_drop, List.take_take, Nat.min_eq_left (by omega)]

/-- **C40** Every limiter of every structure class names a list field and an integer field of the same structure;
neither is a hidden ("future") field. -/
theorem C40_limiters {t : CType} (ht : t ∈ classes) {arr lim : PyStr} (h : (arr, lim) ∈ limitersOf t) :
    (∃ o e cap, place t arr = some (o, .array e cap) ∧ e ≠ .char) ∧
    (∃ o w s, place t lim = some (o, .int w s) ∧ ¬ isFuture lim = true) := by
  have hg := class_good ht
  obtain ⟨c, fs, lims, rfl, -⟩ := class_struct ht
  simp only [CType.good, Bool.and_eq_true, decide_eq_true_eq] at hg
  have := List.all_eq_true.mp hg.2 _ h
  simp only [Bool.and_eq_true] at this
  obtain ⟨h1, h2⟩ := this
  constructor
  · split at h1
    · rename_i o e cap hl; exact ⟨o, e, cap, hl, by simpa using h1⟩
    · cases h1
  · split at h2
    · rename_i o w s hl; exact ⟨o, w, s, hl, by simp at h2 ⊢; exact h2.1⟩
    · cases h2

/-- **C40** In every version the record carries, at the positions the file format fixes: the time stamp (0), the
compressed lengths of the system (16) and task statistics (20), the interval (24) and the task count (28);
from 2.11 on also the cgroup count (10), the compressed lengths of cgroups (72) and pids (84). -/
theorem C40_record_positions {c : HeaderClass} (hc : c ∈ versions) :
    c.Record ∈ classes ∧
    place c.Record py!"curtime" = some (0, .int 8 true) ∧
    place c.Record py!"scomplen" = some (16, .int 4 false) ∧
    place c.Record py!"pcomplen" = some (20, .int 4 false) ∧
    place c.Record py!"interval" = some (24, .int 4 false) ∧
    place c.Record (if c.supportedVersion = py!"1.26" then py!"nlist" else py!"ndeviat") = some (28, .int 4 false) ∧
    (c.supportedVersion ∈ [py!"2.11", py!"2.12"] →
      place c.Record py!"ncgroups" = some (10, .int 2 false) ∧
      place c.Record py!"ccomplen" = some (72, .int 4 false) ∧
      place c.Record py!"icomplen" = some (84, .int 4 false)) := by
  revert hc c
  decide +kernel

/-- **C40** The header of every version carries the magic number, the version and the recorded lengths at the
positions the file format fixes, and the page size and clock rate used by the reports. -/
theorem C40_header_positions {c : HeaderClass} (hc : c ∈ versions) :
    let H := CType.struct (py!"Header:" ++ c.supportedVersion) c.fields []
    H ∈ classes ∧ H.size = 480 ∧
    place H py!"magic" = some (0, .int 4 false) ∧
    place H py!"aversion" = some (4, .int 2 false) ∧
    place H py!"rawheadlen" = some (10, .int 2 false) ∧
    place H py!"rawreclen" = some (12, .int 2 false) ∧
    place H py!"hertz" = some (14, .int 2 false) ∧
    place H py!"sstatlen" = some (28, .int 4 false) ∧
    place H (if c.supportedVersion = py!"1.26" then py!"pstatlen" else py!"tstatlen") = some (32, .int 4 false) ∧
    place H py!"pagesize" = some (436, .int 4 false) ∧
    place H py!"supportflags" = some (440, .int 4 true) ∧
    (c.supportedVersion ∈ [py!"2.11", py!"2.12"] → place H py!"cstatlen" = some (456, .int 4 true)) := by
  revert hc c
  decide +kernel

/-- **C39/C40** The cgroup statistics used by the reader of every version are classes of the list; a class is
used for records, system, task and cgroup statistics. -/
theorem C39_classes_used {c : HeaderClass} (hc : c ∈ versions) :
    c.Record ∈ classes ∧ c.SStat ∈ classes ∧ c.TStat ∈ classes ∧ ∀ t, c.CStat = some t → t ∈ classes := by
  revert hc c
  decide +kernel

/-! Non-vacuity: the list of classes is the whole library; a 2.12 system statistics class has nested limiters. -/
example : classes.length = 134 := by decide +kernel
example : V2_12.SStat ∈ classes := by decide +kernel
example : (py!"cpu", py!"nrcpu") ∈ limitersOf V1_26.CPUStat ∧
    place V1_26.CPUStat py!"nrcpu" = some (0, .int 8 true) := by decide +kernel
example : ∃ offs, CLayout (fieldsOf V1_26.Record) offs 80 8 :=
  (C39_layout (t := V1_26.Record) (by decide +kernel)).2.2.imp fun _ h => h.1

end Atop
