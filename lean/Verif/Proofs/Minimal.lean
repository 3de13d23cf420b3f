import Verif.Spec.Minimal
import Verif.Proofs.Says
import Verif.Proofs.Repr
/-!
# The printed text, character for character: proofs for C77
-/

namespace Atop
open Spec

/-! ## String literals -/

theorem lowerHex_eq : ∀ d < 16, lowerHex d = hexDigit d := by decide

theorem writtenUnit_eq {u : Nat} (h : u < 0x10000) : writtenUnit u = escapeChar u := by
  unfold writtenUnit escapeChar
  by_cases h1 : u = 34
  · subst h1; rfl
  by_cases h2 : u = 92
  · subst h2; rfl
  by_cases h3 : u = 10
  · subst h3; rfl
  by_cases h4 : u = 13
  · subst h4; rfl
  by_cases h5 : u = 9
  · subst h5; rfl
  by_cases h6 : u = 12
  · subst h6; rfl
  by_cases h7 : u = 8
  · subst h7; rfl
  have b : ∀ {x y : Nat}, ¬ x = y → (x == y) = false := fun h => beq_false_of_ne h
  simp only [List.lookup, b h1, b h2, b h3, b h4, b h5, b h6, b h7]
  rw [if_neg h1, if_neg h2, if_neg h3, if_neg h4, if_neg h5, if_neg h6, if_neg h7]
  by_cases h8 : 32 ≤ u ∧ u ≤ 126
  · rw [if_pos h8, if_pos (by omega)]
  rw [if_neg h8, if_neg (by omega), if_pos h]
  unfold uEscape
  rw [lowerHex_eq _ (by omega), lowerHex_eq _ (by omega), lowerHex_eq _ (by omega), lowerHex_eq _ (by omega)]
  rfl

theorem writtenUnit_u {u : Nat} (h : u < 0x10000) (h' : 126 < u) : writtenUnit u = uEscape u := by
  rw [writtenUnit_eq h]
  unfold escapeChar
  rw [if_neg (by omega), if_neg (by omega), if_neg (by omega), if_neg (by omega), if_neg (by omega), if_neg (by omega),
    if_neg (by omega), if_neg (by omega), if_pos h]

theorem written_char (c : Nat) : (utf16 c).flatMap writtenUnit = escapeChar c := by
  unfold utf16
  by_cases h : c < 0x10000
  · rw [if_pos h, List.flatMap_singleton, writtenUnit_eq h]
  · rw [if_neg h, List.flatMap_cons, List.flatMap_singleton, writtenUnit_u (by omega) (by omega),
      writtenUnit_u (by omega) (by omega)]
    unfold escapeChar
    rw [if_neg (by omega), if_neg (by omega), if_neg (by omega), if_neg (by omega), if_neg (by omega), if_neg (by omega),
      if_neg (by omega), if_neg (by omega), if_neg h]

theorem literal_eq (s : PyStr) : literal s = encodeStr s := by
  unfold literal encodeStr utf16s
  congr 2
  induction s with
  | nil => rfl
  | cons c s ih => rw [List.flatMap_cons, List.flatMap_append, ih, written_char, List.flatMap_cons]

/-! ## The text without white space, as a function -/

mutual
/-- The text of a value without white space. -/
def mini : JVal → PyStr
  | .int i => intRepr i
  | .float b => floatStr b
  | .str s => literal s
  | .bytes _ => []
  | .other => []
  | .list vs => py!"[" ++ [44].intercalate (minis vs) ++ py!"]"
  | .dict kvs => py!"{" ++ [44].intercalate (miniMembers kvs) ++ py!"}"
/-- Those of a list. -/
def minis : List JVal → List PyStr
  | [] => []
  | v :: vs => mini v :: minis vs
/-- Those of the members of a dictionary. -/
def miniMembers : List (PyStr × JVal) → List PyStr
  | [] => []
  | (k, v) :: kvs => (literal k ++ py!":" ++ mini v) :: miniMembers kvs
end

theorem minis_eq (vs : List JVal) : minis vs = vs.map mini := by
  induction vs with
  | nil => rfl
  | cons v vs ih => rw [minis, ih]; rfl

theorem miniMembers_eq (kvs : List (PyStr × JVal)) : miniMembers kvs = kvs.map fun p => literal p.1 ++ py!":" ++ mini p.2 := by
  induction kvs with
  | nil => rfl
  | cons v vs ih => rw [miniMembers, ih]; rfl

theorem intRepr_text (i : Int) : ∃ n : Num, n.Valid ∧ n.frac = none ∧ n.exp = none ∧ n.value = i ∧ (n.neg = true → i ≠ 0) ∧
    intRepr i = n.text := by
  obtain ⟨n, h1, h2, h3, h4, h5, h6⟩ := intRepr_spec i
  refine ⟨n, h1, h3, h4, h5, h6, ?_⟩
  obtain ⟨l, -, e⟩ := numText_eq h2
  rw [e, Num.text, h3, h4]
  simp [fracText, expText]

theorem int_unique {n n' : Num} (hv : n.Valid) (hv' : n'.Valid) (hf : n.frac = none) (hf' : n'.frac = none)
    (he : n.exp = none) (he' : n'.exp = none) {i : Int} (h : n.value = i) (h' : n'.value = i) (hn : n.neg = true → i ≠ 0)
    (hn' : n'.neg = true → i ≠ 0) : n = n' := by
  have hd : digitsNat n.int = digitsNat n'.int := by
    have e := Num.abs_value n
    have e' := Num.abs_value n'
    rw [h, hf] at e
    rw [h', hf'] at e'
    rw [e'] at e
    simpa [Num.exponent, he, he'] using e.symm
  have hi : n.int = n'.int := digitsNat_inj' hv.int hv'.int hv.noLeadingZero hv'.noLeadingZero hd
  have hs : n.neg = n'.neg := by
    have e := h.trans h'.symm
    unfold Num.value Num.exponent at e
    have nz : i ≠ 0 → digitsNat n.int ≠ 0 := fun hi h0 => by
      have := Num.abs_value n
      rw [h, hf] at this
      simp [h0, hi] at this
    cases h1 : n.neg <;> cases h2 : n'.neg
    · rfl
    · have := nz (hn' h2)
      simp [hf, hf', he, he', h1, h2, hd] at e
      exact absurd e (hd ▸ this)
    · have := nz (hn h1)
      simp [hf, hf', he, he', h1, h2, hd] at e
      exact absurd e (hd ▸ this)
    · rfl
  cases n; cases n'
  simp_all

theorem floatStr_special {b : Nat} (hb : b / 2 ^ 23 % 256 = 255) : floatStr b = specialWord b := by
  unfold floatStr f32ExpField
  rw [if_pos hb]
  unfold specialWord f32Frac f32Neg
  simp only [decide_eq_true_eq]

theorem floatStr_finite {b : Nat} (hb : b / 2 ^ 23 % 256 ≠ 255) : ∃ n : Num, n.Valid ∧ PythonFloat b n ∧ floatStr b = n.text := by
  obtain ⟨n, h1, h2, -, h4, -⟩ := floatRepr_spec hb
  refine ⟨n, h1, h4, ?_⟩
  unfold floatStr f32ExpField
  rw [if_neg hb, h2]

theorem zip_members (kvs : List (PyStr × JVal)) :
    (kvs.zip (kvs.map fun p => mini p.2)).map (fun p => literal p.1.1 ++ py!":" ++ p.2) =
      kvs.map fun p => literal p.1 ++ py!":" ++ mini p.2 := by
  induction kvs with
  | nil => rfl
  | cons p kvs ih => rw [List.map_cons, List.zip_cons_cons, List.map_cons, ih, List.map_cons]

theorem minimal_mini {T : PyStr → Prop} {v : JVal} (h : Json T v) : Minimal v (mini v) := by
  induction h with
  | int i =>
    obtain ⟨n, h1, h2, h3, h4, h5, h6⟩ := intRepr_text i
    rw [mini, h6]
    exact .int h1 h2 h3 h4 h5
  | @float b _ =>
    rw [mini]
    by_cases hb : b / 2 ^ 23 % 256 = 255
    · rw [floatStr_special hb]; exact .special hb
    · obtain ⟨n, h1, h2, e⟩ := floatStr_finite hb
      rw [e]; exact .float hb h1 h2
  | @str s _ => rw [mini]; exact .str s
  | @list vs _ ih =>
    rw [mini, minis_eq]
    refine .list (by simp) fun i v t hv ht => ?_
    rw [List.getElem?_map, hv] at ht
    injection ht with ht
    exact ht ▸ ih v (List.mem_of_getElem? hv)
  | @dict kvs _ _ _ ih =>
    rw [mini, miniMembers_eq]
    have := Minimal.dict (kvs := kvs) (ts := kvs.map fun p => mini p.2) (by simp) fun i k v t hv ht => by
      rw [List.getElem?_map, hv] at ht
      injection ht with ht
      exact ht ▸ ih (k, v) (List.mem_of_getElem? hv)
    have e : (kvs.zip (kvs.map fun p => mini p.2)).map (fun p => literal p.1.1 ++ py!":" ++ p.2) =
        kvs.map fun p => literal p.1 ++ py!":" ++ mini p.2 := by
      exact zip_members kvs
    rw [e] at this
    exact this

theorem minimal_unique {v : JVal} {t : PyStr} (h : Minimal v t) : t = mini v := by
  induction h with
  | @int i n h1 h2 h3 h4 h5 =>
    obtain ⟨n', h1', h2', h3', h4', h5', h6⟩ := intRepr_text i
    rw [mini, h6, int_unique h1 h1' h2 h2' h3 h3' h4 h4' h5 h5']
  | @float b n hb h1 h2 =>
    obtain ⟨n', h1', h2', e⟩ := floatStr_finite hb
    rw [mini, e, pythonFloat_unique h1 h1' h2 h2']
  | special hb => rw [mini, floatStr_special hb]
  | str s => rw [mini]
  | @list vs ts hl _ ih =>
    rw [mini, minis_eq]
    have : ts = vs.map mini := List.ext_getElem? fun i => by
      rw [List.getElem?_map]
      by_cases hi : i < vs.length
      · have h1 := List.getElem?_eq_getElem hi
        have h2 := List.getElem?_eq_getElem (hl ▸ hi : i < ts.length)
        rw [h1, h2, ih i _ _ h1 h2]; rfl
      · rw [List.getElem?_eq_none (by omega), List.getElem?_eq_none (by omega)]; rfl
    rw [this]
  | @dict kvs ts hl _ ih =>
    rw [mini, miniMembers_eq]
    have : ts = kvs.map fun p => mini p.2 := List.ext_getElem? fun i => by
      rw [List.getElem?_map]
      by_cases hi : i < kvs.length
      · have h1 := List.getElem?_eq_getElem hi
        have h2 := List.getElem?_eq_getElem (hl ▸ hi : i < ts.length)
        rw [h1, h2, ih i _ _ _ h1 h2]; rfl
      · rw [List.getElem?_eq_none (by omega), List.getElem?_eq_none (by omega)]; rfl
    rw [this, zip_members]

/-! ## Laying out -/

/-- A character that is copied outside strings. -/
def PlainChar (c : Nat) : Prop := c ≠ 34 ∧ c ≠ 44 ∧ c ≠ 58 ∧ c ≠ 91 ∧ c ≠ 93 ∧ c ≠ 123 ∧ c ≠ 125

theorem layOut_plain (p : Bool) (d : Nat) (rest : PyStr) : ∀ w : PyStr, (∀ c ∈ w, PlainChar c) →
    layOut p d .outside (w ++ rest) = w ++ layOut p d .outside rest
  | [], _ => rfl
  | c :: w, h => by
    obtain ⟨h1, h2, h3, h4, h5, h6, h7⟩ := h c (by simp)
    rw [List.cons_append, layOut, if_neg h1, if_neg h2, if_neg h3, if_neg (by omega), if_neg (by omega),
      layOut_plain p d rest w (fun c hc => h c (by simp [hc]))]
    rfl

theorem layOut_in (p : Bool) (d : Nat) (rest : PyStr) : ∀ w : PyStr, (∀ c ∈ w, c ≠ 34 ∧ c ≠ 92) →
    layOut p d .inside (w ++ rest) = w ++ layOut p d .inside rest
  | [], _ => rfl
  | c :: w, h => by
    obtain ⟨h1, h2⟩ := h c (by simp)
    rw [List.cons_append, layOut, if_neg h1, if_neg h2, layOut_in p d rest w (fun c hc => h c (by simp [hc]))]
    rfl

theorem layOut_uEscape (p : Bool) (d : Nat) (rest : PyStr) (u : Nat) :
    layOut p d .inside (uEscape u ++ rest) = uEscape u ++ layOut p d .inside rest := by
  have hx : ∀ x < 16, hexDigit x ≠ 34 ∧ hexDigit x ≠ 92 := by decide
  have hw : ∀ c ∈ [hexDigit (u / 4096 % 16), hexDigit (u / 256 % 16), hexDigit (u / 16 % 16), hexDigit (u % 16)],
      c ≠ 34 ∧ c ≠ 92 := by
    intro c hc
    simp only [List.mem_cons, List.not_mem_nil, or_false] at hc
    rcases hc with rfl | rfl | rfl | rfl <;> exact hx _ (by omega)
  have := layOut_in p d rest _ hw
  unfold uEscape
  rw [List.append_assoc]
  exact congrArg (fun x => 92 :: 117 :: x) this

theorem layOut_escapeChar (p : Bool) (d : Nat) (rest : PyStr) (c : Nat) :
    layOut p d .inside (escapeChar c ++ rest) = escapeChar c ++ layOut p d .inside rest := by
  unfold escapeChar
  split
  · rfl
  split
  · rfl
  split
  · rfl
  split
  · rfl
  split
  · rfl
  split
  · rfl
  split
  · rfl
  split
  · exact layOut_in p d rest [c] (fun x hx => by rw [List.mem_singleton.mp hx]; omega)
  split
  · exact layOut_uEscape p d rest c
  · rw [List.append_assoc, layOut_uEscape, layOut_uEscape, List.append_assoc]

theorem layOut_literal (p : Bool) (d : Nat) (rest : PyStr) (s : PyStr) :
    layOut p d .outside (literal s ++ rest) = literal s ++ layOut p d .outside rest := by
  rw [literal_eq]
  unfold encodeStr
  have : ∀ s : PyStr, layOut p d .inside (s.flatMap escapeChar ++ ([34] ++ rest)) =
      s.flatMap escapeChar ++ ([34] ++ layOut p d .outside rest) := by
    intro s
    induction s with
    | nil => rfl
    | cons c s ih => rw [List.flatMap_cons, List.append_assoc, layOut_escapeChar, ih, List.append_assoc]
  have h := congrArg (fun x => 34 :: x) (this s)
  have e : py!"\"" ++ s.flatMap escapeChar ++ py!"\"" ++ rest = 34 :: (s.flatMap escapeChar ++ ([34] ++ rest)) := by simp
  rw [e]
  refine Eq.trans (show _ = 34 :: layOut p d .inside (s.flatMap escapeChar ++ ([34] ++ rest)) from rfl) (h.trans ?_)
  simp

theorem num_plain {n : Num} (hv : n.Valid) : ∀ c ∈ n.text, PlainChar c := by
  have dig : ∀ {ds : PyStr}, Digits ds → ∀ c ∈ ds, PlainChar c := fun h c hc => by
    have := h.2 c hc; unfold isDigit at this; unfold PlainChar; omega
  intro c hc
  unfold Num.text at hc
  rcases List.mem_append.mp hc with hc | hc
  rcases List.mem_append.mp hc with hc | hc
  rcases List.mem_append.mp hc with hc | hc
  · split at hc
    · rw [List.mem_singleton.mp hc]; unfold PlainChar; omega
    · cases hc
  · exact dig hv.int c hc
  · cases hf : n.frac with
    | none => rw [hf] at hc; cases hc
    | some f =>
      rw [hf] at hc
      rcases List.mem_cons.mp hc with rfl | hc
      · unfold PlainChar; omega
      · exact dig (hv.frac f hf) c hc
  · cases he : n.exp with
    | none => rw [he] at hc; cases hc
    | some x =>
      obtain ⟨s, ds⟩ := x
      rw [he] at hc
      obtain ⟨h1, h2⟩ := hv.exp s ds he
      rcases List.mem_cons.mp hc with rfl | hc
      · unfold PlainChar; omega
      · rcases List.mem_append.mp hc with hc | hc
        · rcases h2 with rfl | rfl | rfl
          · cases hc
          · rw [List.mem_singleton.mp hc]; unfold PlainChar; omega
          · rw [List.mem_singleton.mp hc]; unfold PlainChar; omega
        · exact dig h1 c hc

theorem intRepr_plain (i : Int) : ∀ c ∈ intRepr i, PlainChar c := by
  obtain ⟨n, h1, -, -, -, -, e⟩ := intRepr_text i
  rw [e]; exact num_plain h1

theorem floatStr_plain (b : Nat) : ∀ c ∈ floatStr b, PlainChar c := by
  by_cases hb : b / 2 ^ 23 % 256 = 255
  · rw [floatStr_special hb]
    unfold specialWord PlainChar
    split
    · decide
    · split <;> decide
  · obtain ⟨n, h1, -, e⟩ := floatStr_finite hb
    rw [e]; exact num_plain h1

theorem text_ne {n : Num} (hv : n.Valid) : n.text ≠ [] := by
  have := hv.int.1
  unfold Num.text
  simp [this]

theorem mini_head {T : PyStr → Prop} {v : JVal} (h : Json T v) (rest : PyStr) : (mini v ++ rest).head? ≠ some 93 := by
  have pl : ∀ w : PyStr, w ≠ [] → (∀ c ∈ w, PlainChar c) → (w ++ rest).head? ≠ some 93 := fun w hn hw he => by
    cases w with
    | nil => exact hn rfl
    | cons c w => injection he with he; exact (hw c (by simp)).2.2.2.2.1 he
  cases h with
  | int i =>
    rw [mini]
    refine pl _ ?_ (intRepr_plain i)
    obtain ⟨n, h1, -, -, -, -, e⟩ := intRepr_text i
    rw [e]; exact text_ne h1
  | @float b _ =>
    rw [mini]
    refine pl _ ?_ (floatStr_plain b)
    by_cases hb : b / 2 ^ 23 % 256 = 255
    · rw [floatStr_special hb]
      unfold specialWord
      split
      · decide
      · split <;> decide
    · obtain ⟨n, h1, -, e⟩ := floatStr_finite hb
      rw [e]; exact text_ne h1
  | str _ => rw [mini]; unfold literal; simp
  | list _ => rw [mini]; simp
  | dict _ _ _ => rw [mini]; simp

/-- `v` is laid out as it is printed. -/
def Laid (p : Bool) (v : JVal) : Prop := ∀ (d : Nat) (rest : PyStr), ∃ t, dumpsAt p d v = .ok t ∧
  layOut p d .outside (mini v ++ rest) = t ++ layOut p d .outside rest

/-- What follows the first item. -/
def tailOf (ts : List PyStr) : PyStr := ts.flatMap fun t => 44 :: t

theorem intercalate_cons (t : PyStr) (ts : List PyStr) : [44].intercalate (t :: ts) = t ++ tailOf ts := by
  induction ts generalizing t with
  | nil => simp [List.intercalate, tailOf]
  | cons u us ih =>
    have : [44].intercalate (t :: u :: us) = t ++ 44 :: [44].intercalate (u :: us) := by
      simp [List.intercalate, List.intersperse]
    rw [this, ih, tailOf, tailOf, List.flatMap_cons]; rfl

theorem layOut_comma (p : Bool) (d : Nat) (m : PyStr) : layOut p d .outside (44 :: m) = itemSep p d ++ layOut p d .outside m := by
  rw [layOut, if_neg (by decide), if_pos rfl]
  cases p <;> rfl

theorem laid_items {p : Bool} : ∀ vs : List JVal, (∀ v ∈ vs, Laid p v) → ∀ (d : Nat) (rest : PyStr), ∃ t,
    dumpsItems p d vs = .ok t ∧ layOut p d .outside (tailOf (minis vs) ++ rest) = t ++ layOut p d .outside rest
  | [], _, d, rest => ⟨[], by rw [dumpsItems], by rw [minis]; rfl⟩
  | v :: vs, h, d, rest => by
    obtain ⟨s, h1, h2⟩ := laid_items vs (fun v hv => h v (by simp [hv])) d rest
    obtain ⟨t, h3, h4⟩ := h v (by simp) d (tailOf (minis vs) ++ rest)
    refine ⟨itemSep p d ++ t ++ s, by rw [dumpsItems, h1, h3]; rfl, ?_⟩
    rw [minis, tailOf, List.flatMap_cons, List.cons_append, List.cons_append, layOut_comma, List.append_assoc]
    rw [show (minis vs).flatMap (fun t => 44 :: t) = tailOf (minis vs) from rfl, h4, h2]
    simp

theorem layOut_colon (p : Bool) (d : Nat) (m : PyStr) : layOut p d .outside (58 :: m) = py!": " ++ layOut p d .outside m := by
  rw [layOut, if_neg (by decide), if_neg (by decide), if_pos rfl]
  rfl

theorem laid_members {p : Bool} : ∀ kvs : List (PyStr × JVal), (∀ x ∈ kvs, Laid p x.2) → ∀ (d : Nat) (rest : PyStr), ∃ t,
    dumpsMembers p d kvs = .ok t ∧ layOut p d .outside (tailOf (miniMembers kvs) ++ rest) = t ++ layOut p d .outside rest
  | [], _, d, rest => ⟨[], by rw [dumpsMembers], by rw [miniMembers]; rfl⟩
  | (k, v) :: kvs, h, d, rest => by
    obtain ⟨s, h1, h2⟩ := laid_members kvs (fun v hv => h v (by simp [hv])) d rest
    obtain ⟨t, h3, h4⟩ := h (k, v) (by simp) d (tailOf (miniMembers kvs) ++ rest)
    refine ⟨itemSep p d ++ encodeStr k ++ py!": " ++ t ++ s, by rw [dumpsMembers, h1, h3]; rfl, ?_⟩
    rw [miniMembers, tailOf, List.flatMap_cons, List.cons_append, List.cons_append, layOut_comma]
    rw [show (miniMembers kvs).flatMap (fun t => 44 :: t) = tailOf (miniMembers kvs) from rfl]
    rw [List.append_assoc, List.append_assoc, List.append_assoc, layOut_literal,
      show py!":" ++ (mini v ++ (tailOf (miniMembers kvs) ++ rest)) = 58 :: (mini v ++ (tailOf (miniMembers kvs) ++ rest)) from rfl,
      layOut_colon, h4, h2, literal_eq]
    simp

theorem newline_eq (p : Bool) (d : Nat) : (if p then lineBreak d else []) = newline p d := by cases p <;> rfl

theorem layOut_open (p : Bool) (d c : Nat) (m : PyStr) (hc : c = 91 ∨ c = 123) (hm : m.head? ≠ some (c + 2)) :
    layOut p d .outside (c :: m) = c :: (newline p (d + 1) ++ layOut p (d + 1) .outside m) := by
  rw [layOut, if_neg (by omega), if_neg (by omega), if_neg (by omega), if_pos hc, if_neg hm, newline_eq]

theorem layOut_close (p : Bool) (d c : Nat) (m : PyStr) (hc : c = 93 ∨ c = 125) :
    layOut p (d + 1) .outside (c :: m) = newline p d ++ c :: layOut p d .outside m := by
  rw [layOut, if_neg (by omega), if_neg (by omega), if_neg (by omega), if_neg (by omega), if_pos hc, newline_eq]
  rfl

theorem laid {T : PyStr → Prop} (p : Bool) {v : JVal} (h : Json T v) : Laid p v := by
  induction h with
  | int i => exact fun d rest => ⟨_, by rw [dumpsAt], by rw [mini]; exact layOut_plain p d rest _ (intRepr_plain i)⟩
  | @float b _ => exact fun d rest => ⟨_, by rw [dumpsAt], by rw [mini]; exact layOut_plain p d rest _ (floatStr_plain b)⟩
  | @str s _ => exact fun d rest => ⟨_, by rw [dumpsAt], by rw [mini, layOut_literal, literal_eq]⟩
  | @list vs hj ih =>
    intro d rest
    cases vs with
    | nil => exact ⟨_, by rw [dumpsAt], by rw [mini, minis]; rfl⟩
    | cons v vs =>
      obtain ⟨s, h1, h2⟩ := laid_items vs (fun x hx => ih x (by simp [hx])) (d + 1) (93 :: rest)
      obtain ⟨t, h3, h4⟩ := ih v (by simp) (d + 1) (tailOf (minis vs) ++ 93 :: rest)
      refine ⟨_, by rw [dumpsAt, h1, h3]; rfl, ?_⟩
      rw [mini, minis, intercalate_cons]
      have e : py!"[" ++ (mini v ++ tailOf (minis vs)) ++ py!"]" ++ rest = 91 :: (mini v ++ (tailOf (minis vs) ++ 93 :: rest)) := by
        simp
      rw [e, layOut_open p d 91 _ (.inl rfl), h4, h2, layOut_close p d 93 _ (.inl rfl)]
      · simp
      · exact mini_head (hj v (by simp)) _
  | @dict kvs _ _ _ ih =>
    intro d rest
    cases kvs with
    | nil => exact ⟨_, by rw [dumpsAt], by rw [mini, miniMembers]; rfl⟩
    | cons x kvs =>
      obtain ⟨k, v⟩ := x
      obtain ⟨s, h1, h2⟩ := laid_members kvs (fun x hx => ih x (by simp [hx])) (d + 1) (125 :: rest)
      obtain ⟨t, h3, h4⟩ := ih (k, v) (by simp) (d + 1) (tailOf (miniMembers kvs) ++ 125 :: rest)
      refine ⟨_, by rw [dumpsAt, h1, h3]; rfl, ?_⟩
      rw [mini, miniMembers, intercalate_cons]
      have e : py!"{" ++ (literal k ++ py!":" ++ mini v ++ tailOf (miniMembers kvs)) ++ py!"}" ++ rest =
          123 :: (literal k ++ 58 :: (mini v ++ (tailOf (miniMembers kvs) ++ 125 :: rest))) := by
        simp
      rw [e, layOut_open p d 123 _ (.inr rfl), layOut_literal, layOut_colon, h4, h2, layOut_close p d 125 _ (.inr rfl), literal_eq]
      · simp
      · unfold literal; simp
end Atop
