import Verif.Spec.JsonText
import Mathlib.Tactic.Ring
import Mathlib.Tactic.NormNum
/-!
# The JSON grammar is unambiguous
-/

namespace Atop
open Spec

/-- Two splittings of a list at the first element outside `P` are equal. -/
theorem span_unique {α} {P : α → Prop} : ∀ {a b x y : List α}, (∀ c ∈ a, P c) → (∀ c ∈ b, P c) →
    (∀ c, x.head? = some c → ¬ P c) → (∀ c, y.head? = some c → ¬ P c) → a ++ x = b ++ y → a = b ∧ x = y
  | [], [], _, _, _, _, _, _, h => ⟨rfl, h⟩
  | [], c :: b, x, y, _, hb, hx, _, h => by
    rw [List.nil_append] at h
    exact absurd (hb c (by simp)) (hx c (by rw [h]; rfl))
  | c :: a, [], x, y, ha, _, _, hy, h => by
    rw [List.nil_append] at h
    exact absurd (ha c (by simp)) (hy c (by rw [← h]; rfl))
  | c :: a, d :: b, x, y, ha, hb, hx, hy, h => by
    rw [List.cons_append, List.cons_append] at h
    injection h with h1 h2
    obtain ⟨h3, h4⟩ := span_unique (fun c hc => ha c (by simp [hc])) (fun c hc => hb c (by simp [hc])) hx hy h2
    exact ⟨by rw [h1, h3], h4⟩

/-- White space characters. -/
def IsWs (c : Nat) : Prop := c = 32 ∨ c = 9 ∨ c = 10 ∨ c = 13

/-- What may follow a value inside a JSON text. -/
def Delim (r : PyStr) : Prop := ∀ c, r.head? = some c → IsWs c ∨ c = 44 ∨ c = 58 ∨ c = 93 ∨ c = 125

theorem delim_nil : Delim [] := fun c h => by cases h

theorem delim_ws {w x : PyStr} (hw : Ws w) (hx : Delim x) : Delim (w ++ x) := fun c h => by
  cases w with
  | nil => exact hx c h
  | cons d w => injection h with h; subst h; exact .inl (hw d (by simp))

theorem delim_cons {c : Nat} {x : PyStr} (h : c = 44 ∨ c = 58 ∨ c = 93 ∨ c = 125) : Delim (c :: x) := fun d hd => by
  injection hd with hd; subst hd; exact .inr h

theorem ws_unique {a b x y : PyStr} (ha : Ws a) (hb : Ws b) (hx : ∀ c, x.head? = some c → ¬ IsWs c)
    (hy : ∀ c, y.head? = some c → ¬ IsWs c) (h : a ++ x = b ++ y) : a = b ∧ x = y :=
  span_unique (P := IsWs) ha hb hx hy h

theorem digits_unique {a b x y : PyStr} (ha : ∀ c ∈ a, isDigit c) (hb : ∀ c ∈ b, isDigit c)
    (hx : ∀ c, x.head? = some c → ¬ isDigit c) (hy : ∀ c, y.head? = some c → ¬ isDigit c) (h : a ++ x = b ++ y) :
    a = b ∧ x = y :=
  span_unique (P := isDigit) ha hb hx hy h

theorem delim_notDigit {r : PyStr} (h : Delim r) : ∀ c, r.head? = some c → ¬ isDigit c := fun c hc hd => by
  have := h c hc
  unfold IsWs at this; unfold isDigit at hd
  omega

/-! ## Numbers -/

/-- The part of a number literal after the integer digits. -/
def expText (letter : Nat) (e : Option (Option Nat × PyStr)) : PyStr :=
  match e with | none => [] | some (s, ds) => letter :: (s.toList ++ ds)

def fracText (f : Option PyStr) : PyStr := match f with | none => [] | some f => 46 :: f

theorem digits_head {ds : PyStr} (h : Digits ds) : ∃ c r, ds = c :: r ∧ isDigit c := by
  cases ds with
  | nil => exact absurd rfl h.1
  | cons c r => exact ⟨c, r, rfl, h.2 c (by simp)⟩

theorem exp_unique {l l' : Nat} (hl : l = 101 ∨ l = 69) (hl' : l' = 101 ∨ l' = 69)
    {e e' : Option (Option Nat × PyStr)}
    (he : ∀ s ds, e = some (s, ds) → Digits ds ∧ (s = none ∨ s = some 43 ∨ s = some 45))
    (he' : ∀ s ds, e' = some (s, ds) → Digits ds ∧ (s = none ∨ s = some 43 ∨ s = some 45))
    {r r' : PyStr} (hr : Delim r) (hr' : Delim r') (h : expText l e ++ r = expText l' e' ++ r') :
    e = e' ∧ expText l e = expText l' e' ∧ r = r' := by
  match e, e', he, he' with
  | none, none, _, _ => exact ⟨rfl, rfl, h⟩
  | none, some (s, ds), _, _ =>
    exfalso
    change r = l' :: (s.toList ++ ds ++ r') at h
    have := hr l' (by rw [h]; rfl)
    unfold IsWs at this; omega
  | some (s, ds), none, _, _ =>
    exfalso
    change l :: (s.toList ++ ds ++ r) = r' at h
    have := hr' l (by rw [← h]; rfl)
    unfold IsWs at this; omega
  | some (s, ds), some (s', ds'), he, he' =>
    change l :: (s.toList ++ ds ++ r) = l' :: (s'.toList ++ ds' ++ r') at h
    injection h with h1 h2
    subst h1
    obtain ⟨hd, hs⟩ := he s ds rfl
    obtain ⟨hd', hs'⟩ := he' s' ds' rfl
    have key : s = s' ∧ ds ++ r = ds' ++ r' := by
      obtain ⟨c, x, rfl, hc⟩ := digits_head hd
      obtain ⟨c', x', rfl, hc'⟩ := digits_head hd'
      unfold isDigit at hc hc'
      rcases hs with rfl | rfl | rfl <;> rcases hs' with rfl | rfl | rfl <;>
        simp only [Option.toList_none, Option.toList_some, List.nil_append, List.cons_append, List.cons.injEq] at h2
      · exact ⟨rfl, by simpa using h2⟩
      · omega
      · omega
      · omega
      · exact ⟨rfl, by simpa using h2⟩
      · omega
      · omega
      · omega
      · exact ⟨rfl, by simpa using h2⟩
    obtain ⟨rfl, h3⟩ := key
    obtain ⟨rfl, h4⟩ := digits_unique hd.2 hd'.2 (delim_notDigit hr) (delim_notDigit hr') h3
    exact ⟨rfl, rfl, h4⟩

theorem expText_head {l : Nat} (hl : l = 101 ∨ l = 69) (e : Option (Option Nat × PyStr)) {r : PyStr} (hr : Delim r) :
    ∀ c, (expText l e ++ r).head? = some c → ¬ isDigit c ∧ c ≠ 46 := by
  intro c hc
  cases e with
  | none =>
    have := hr c hc
    unfold IsWs at this; unfold isDigit
    omega
  | some p =>
    injection hc with hc
    unfold isDigit
    omega

theorem frac_unique {f f' : Option PyStr} (hf : ∀ x, f = some x → Digits x) (hf' : ∀ x, f' = some x → Digits x)
    {x x' : PyStr} (hx : ∀ c, x.head? = some c → ¬ isDigit c ∧ c ≠ 46)
    (hx' : ∀ c, x'.head? = some c → ¬ isDigit c ∧ c ≠ 46) (h : fracText f ++ x = fracText f' ++ x') :
    f = f' ∧ x = x' := by
  match f, f', hf, hf' with
  | none, none, _, _ => exact ⟨rfl, h⟩
  | none, some y, _, _ =>
    change x = 46 :: (y ++ x') at h
    exact absurd rfl (hx 46 (by rw [h]; rfl)).2
  | some y, none, _, _ =>
    change 46 :: (y ++ x) = x' at h
    exact absurd rfl (hx' 46 (by rw [← h]; rfl)).2
  | some y, some y', hf, hf' =>
    change 46 :: (y ++ x) = 46 :: (y' ++ x') at h
    injection h with _ h
    obtain ⟨rfl, h'⟩ := digits_unique (hf y rfl).2 (hf' y' rfl).2 (fun c hc => (hx c hc).1) (fun c hc => (hx' c hc).1) h
    exact ⟨rfl, h'⟩

theorem numText_eq {n : Num} {t : PyStr} (h : NumText n t) : ∃ l, (l = 101 ∨ l = 69) ∧
    t = (if n.neg then [45] else []) ++ (n.int ++ (fracText n.frac ++ expText l n.exp)) := by
  cases h with
  | intro l hl => exact ⟨l, hl, by simp only [List.append_assoc]; rfl⟩

/-- The first character of a number. -/
theorem num_head {n : Num} {t : PyStr} (hv : n.Valid) (h : NumText n t) :
    ∃ c x, t = c :: x ∧ (isDigit c ∨ (c = 45 ∧ ∃ d y, x = d :: y ∧ isDigit d)) := by
  obtain ⟨l, -, rfl⟩ := numText_eq h
  obtain ⟨c, x, he, hc⟩ := digits_head hv.int
  rw [he]
  cases n.neg with
  | true => exact ⟨45, _, rfl, .inr ⟨rfl, c, _, rfl, hc⟩⟩
  | false => exact ⟨c, _, rfl, .inl hc⟩

theorem num_unique {n n' : Num} {t t' r r' : PyStr} (hv : n.Valid) (hv' : n'.Valid) (h : NumText n t)
    (h' : NumText n' t') (hr : Delim r) (hr' : Delim r') (he : t ++ r = t' ++ r') : n = n' ∧ t = t' ∧ r = r' := by
  obtain ⟨l, hl, rfl⟩ := numText_eq h
  obtain ⟨l', hl', rfl⟩ := numText_eq h'
  obtain ⟨c, x, hi, hc⟩ := digits_head hv.int
  obtain ⟨c', x', hi', hc'⟩ := digits_head hv'.int
  have hneg : n.neg = n'.neg ∧ n.int ++ (fracText n.frac ++ expText l n.exp) ++ r =
      n'.int ++ (fracText n'.frac ++ expText l' n'.exp) ++ r' := by
    rw [hi, hi'] at he ⊢
    unfold isDigit at hc hc'
    cases hn : n.neg <;> cases hn' : n'.neg <;> rw [hn, hn'] at he
    · exact ⟨rfl, he⟩
    · exfalso; injection he with h1 _; omega
    · exfalso; injection he with h1 _; omega
    · injection he with _ h2; exact ⟨rfl, h2⟩
  obtain ⟨hneg, h1⟩ := hneg
  have hx := expText_head hl n.exp hr
  have hx' := expText_head hl' n'.exp hr'
  have hfx : ∀ (f : Option PyStr) (y : PyStr), (∀ c, y.head? = some c → ¬ isDigit c ∧ c ≠ 46) →
      ∀ c, (fracText f ++ y).head? = some c → ¬ isDigit c := by
    intro f y hy c hc
    cases f with
    | none => exact (hy c hc).1
    | some f => injection hc with hc; unfold isDigit; omega
  rw [List.append_assoc, List.append_assoc, List.append_assoc, List.append_assoc] at h1
  obtain ⟨h2, h3⟩ := digits_unique hv.int.2 hv'.int.2 (hfx _ _ hx) (hfx _ _ hx') h1
  obtain ⟨h4, h5⟩ := frac_unique hv.frac hv'.frac hx hx' h3
  obtain ⟨h6, h7, h8⟩ := exp_unique hl hl' hv.exp hv'.exp hr hr' h5
  refine ⟨?_, ?_, h8⟩
  · cases n; cases n'; dsimp only at *; subst hneg h2 h4 h6; rfl
  · rw [hneg, h2, h4, h7]

/-! ## Strings -/

theorem hex_lt {c d : Nat} (h : Hex c d) : d < 16 ∧ 48 ≤ c ∧ c ≤ 102 := by cases h <;> omega

theorem hex_unique {c d d' : Nat} (h : Hex c d) (h' : Hex c d') : d = d' := by
  rcases h with h | ⟨h1, h2⟩ | ⟨h1, h2⟩ <;> generalize hc : _ + d = e at h' <;> cases h' <;> omega

theorem short_ne {c u : Nat} (h : (c, u) ∈ shortEscapes) : c ≠ 117 := by
  intro hc; subst hc; simp [shortEscapes] at h

theorem short_unique {c u u' : Nat} (h : (c, u) ∈ shortEscapes) (h' : (c, u') ∈ shortEscapes) : u = u' := by
  simp only [shortEscapes, List.mem_cons, Prod.mk.injEq, List.not_mem_nil, or_false] at h h'
  omega

theorem chars_unique {t : PyStr} {us : List Nat} (h : Chars t us) : ∀ {t' : PyStr} {us' : List Nat} {r r' : PyStr},
    Chars t' us' → t ++ 34 :: r = t' ++ 34 :: r' → t = t' ∧ us = us' ∧ r = r' := by
  induction h with
  | nil =>
    intro t' us' r r' h' he
    cases h' with
    | nil => injection he with _ he; exact ⟨rfl, rfl, he⟩
    | plain _ _ h3 => injection he with he; omega
    | short => injection he with he; omega
    | hex => injection he with he; omega
  | plain h1 h2 h3 h4 _ ih =>
    intro t' us' r r' h' he
    cases h' with
    | nil => injection he with he; omega
    | plain _ _ _ _ h' =>
      injection he with he1 he2
      subst he1
      obtain ⟨rfl, rfl, rfl⟩ := ih h' he2
      exact ⟨rfl, rfl, rfl⟩
    | short => injection he with he; omega
    | hex => injection he with he; omega
  | short hs _ ih =>
    intro t' us' r r' h' he
    cases h' with
    | nil => injection he with he; omega
    | plain _ _ _ h4 => injection he with he; omega
    | short hs' h' =>
      injection he with _ he
      injection he with he1 he2
      subst he1
      obtain ⟨rfl, rfl, rfl⟩ := ih h' he2
      exact ⟨rfl, by rw [short_unique hs hs'], rfl⟩
    | hex =>
      injection he with _ he
      injection he with he _
      exact absurd he (short_ne hs)
  | hex ha hb hc hd _ ih =>
    intro t' us' r r' h' he
    cases h' with
    | nil => injection he with he; omega
    | plain _ _ _ h4 => injection he with he; omega
    | short hs' h' =>
      injection he with _ he
      injection he with he _
      exact absurd he.symm (short_ne hs')
    | hex ha' hb' hc' hd' h' =>
      injection he with _ he
      injection he with _ he
      injection he with e1 he
      injection he with e2 he
      injection he with e3 he
      injection he with e4 he
      subst e1 e2 e3 e4
      obtain ⟨rfl, rfl, rfl⟩ := ih h' he
      exact ⟨rfl, by rw [hex_unique ha ha', hex_unique hb hb', hex_unique hc hc', hex_unique hd hd'], rfl⟩

theorem str_head {t : PyStr} {us : List Nat} (h : StrText t us) : ∃ x, t = 34 :: x := by
  cases h; exact ⟨_, rfl⟩

theorem str_unique {t t' r r' : PyStr} {us us' : List Nat} (h : StrText t us) (h' : StrText t' us')
    (he : t ++ r = t' ++ r') : t = t' ∧ us = us' ∧ r = r' := by
  cases h with
  | intro h =>
    cases h' with
    | intro h' =>
      injection he with _ he
      rw [List.append_eq, List.append_eq, List.append_assoc, List.append_assoc] at he
      obtain ⟨rfl, rfl, rfl⟩ := chars_unique h h' he
      exact ⟨rfl, rfl, rfl⟩

/-! ## Values -/

/-- How the text of a value starts. -/
def Starts (t : PyStr) : Ast → Prop
  | .null => ∃ x, t = 110 :: x
  | .bool true => ∃ x, t = 116 :: x
  | .bool false => ∃ x, t = 102 :: x
  | .num _ => ∃ c x, t = c :: x ∧ (isDigit c ∨ (c = 45 ∧ ∃ d y, x = d :: y ∧ isDigit d))
  | .str _ => ∃ x, t = 34 :: x
  | .arr _ => ∃ x, t = 91 :: x
  | .obj _ => ∃ x, t = 123 :: x
  | .special _ => (∃ x, t = 78 :: x) ∨ (∃ x, t = 73 :: x) ∨ ∃ x, t = 45 :: 73 :: x

theorem value_starts {p : Bool} {t : PyStr} {v : Ast} (h : ValueText p t v) : Starts t v := by
  cases h with
  | null => exact ⟨_, rfl⟩
  | true => exact ⟨_, rfl⟩
  | false => exact ⟨_, rfl⟩
  | num hv hn => exact num_head hv hn
  | str hs => exact str_head hs
  | arr0 => exact ⟨_, rfl⟩
  | arr => exact ⟨_, rfl⟩
  | obj0 => exact ⟨_, rfl⟩
  | obj => exact ⟨_, rfl⟩
  | special _ ht =>
    simp only [List.mem_cons, List.not_mem_nil, or_false] at ht
    rcases ht with rfl | rfl | rfl
    · exact .inl ⟨_, rfl⟩
    · exact .inr (.inl ⟨_, rfl⟩)
    · exact .inr (.inr ⟨_, rfl⟩)

/-- The first character of a value is neither white space nor a delimiter. -/
theorem value_head {p : Bool} {t : PyStr} {v : Ast} (h : ValueText p t v) :
    ∃ c x, t = c :: x ∧ ¬ IsWs c ∧ c ≠ 44 ∧ c ≠ 58 ∧ c ≠ 93 ∧ c ≠ 125 := by
  have := value_starts h
  unfold IsWs
  match v with
  | .null => obtain ⟨x, rfl⟩ := this; exact ⟨_, _, rfl, by omega, by omega, by omega, by omega, by omega⟩
  | .bool true => obtain ⟨x, rfl⟩ := this; exact ⟨_, _, rfl, by omega, by omega, by omega, by omega, by omega⟩
  | .bool false => obtain ⟨x, rfl⟩ := this; exact ⟨_, _, rfl, by omega, by omega, by omega, by omega, by omega⟩
  | .num _ =>
    obtain ⟨c, x, rfl, hc⟩ := this
    unfold isDigit at hc
    exact ⟨_, _, rfl, by omega, by omega, by omega, by omega, by omega⟩
  | .str _ => obtain ⟨x, rfl⟩ := this; exact ⟨_, _, rfl, by omega, by omega, by omega, by omega, by omega⟩
  | .arr _ => obtain ⟨x, rfl⟩ := this; exact ⟨_, _, rfl, by omega, by omega, by omega, by omega, by omega⟩
  | .obj _ => obtain ⟨x, rfl⟩ := this; exact ⟨_, _, rfl, by omega, by omega, by omega, by omega, by omega⟩
  | .special _ =>
    rcases this with ⟨x, rfl⟩ | ⟨x, rfl⟩ | ⟨x, rfl⟩ <;>
      exact ⟨_, _, rfl, by omega, by omega, by omega, by omega, by omega⟩

theorem value_notWs {p : Bool} {t : PyStr} {v : Ast} (h : ValueText p t v) (r : PyStr) :
    ∀ c, (t ++ r).head? = some c → ¬ IsWs c := by
  obtain ⟨c, x, rfl, hc, -⟩ := value_head h
  intro d hd
  injection hd with hd
  exact hd ▸ hc

theorem str_notWs {t : PyStr} {us : List Nat} (h : StrText t us) (r : PyStr) :
    ∀ c, (t ++ r).head? = some c → ¬ IsWs c := by
  obtain ⟨x, rfl⟩ := str_head h
  intro d hd
  injection hd with hd
  unfold IsWs; omega

theorem cons_notWs {c : Nat} (h : ¬ IsWs c) (r : PyStr) : ∀ d, (c :: r).head? = some d → ¬ IsWs d := by
  intro d hd
  injection hd with hd
  exact hd ▸ h

/-- Values are uniquely determined by a text they begin. -/
def UniqueUpTo (p : Bool) (n : Nat) : Prop := ∀ t v t' v' r r', t.length ≤ n → ValueText p t v → ValueText p t' v' →
  Delim r → Delim r' → t ++ r = t' ++ r' → t = t' ∧ v = v' ∧ r = r'

theorem items_head {p : Bool} {s : PyStr} {vs : List Ast} (h : ItemsText (ValueText p) s vs) :
    ∃ a x c y, Ws a ∧ s = a ++ x ∧ x = c :: y ∧ ¬ IsWs c ∧ c ≠ 93 := by
  cases h with
  | one ha ht hb =>
    obtain ⟨c, x, rfl, h1, -, -, h2, -⟩ := value_head ht
    exact ⟨_, _, c, _, ha, List.append_assoc _ _ _, rfl, h1, h2⟩
  | more ha ht hb hs =>
    obtain ⟨c, x, rfl, h1, -, -, h2, -⟩ := value_head ht
    exact ⟨_, _, c, _, ha, (by rw [List.append_assoc, List.append_assoc]; rfl), rfl, h1, h2⟩

theorem members_head {p : Bool} {s : PyStr} {ms : List (List Nat × Ast)} (h : MembersText (ValueText p) s ms) :
    ∃ a x y, Ws a ∧ s = a ++ x ∧ x = 34 :: y := by
  cases h with
  | one ha hk =>
    obtain ⟨x, rfl⟩ := str_head hk
    exact ⟨_, _, _, ha, (by rw [List.append_assoc, List.append_assoc]; rfl), rfl⟩
  | more ha hk =>
    obtain ⟨x, rfl⟩ := str_head hk
    exact ⟨_, _, _, ha, (by rw [List.append_assoc, List.append_assoc]; rfl), rfl⟩

theorem items_unique {p : Bool} {n : Nat} (hU : UniqueUpTo p n) {s : PyStr} {vs : List Ast}
    (h : ItemsText (ValueText p) s vs) : ∀ {s' : PyStr} {vs' : List Ast} {r r' : PyStr}, s.length ≤ n →
    ItemsText (ValueText p) s' vs' → s ++ 93 :: r = s' ++ 93 :: r' → s = s' ∧ vs = vs' ∧ r = r' := by
  induction h with
  | @one a t b v ha ht hb =>
    intro s' vs' r r' hn h' he
    have htn : t.length ≤ n := by simp only [List.length_append] at hn; omega
    cases h' with
    | one ha' ht' hb' =>
      simp only [List.append_assoc] at he
      obtain ⟨rfl, he1⟩ := ws_unique ha ha' (value_notWs ht _) (value_notWs ht' _) he
      obtain ⟨rfl, rfl, he2⟩ := hU _ _ _ _ _ _ htn ht ht' (delim_ws hb (delim_cons (by omega)))
        (delim_ws hb' (delim_cons (by omega))) he1
      obtain ⟨rfl, he3⟩ := ws_unique hb hb' (cons_notWs (by unfold IsWs; omega) _) (cons_notWs (by unfold IsWs; omega) _) he2
      injection he3 with _ he4
      exact ⟨rfl, rfl, he4⟩
    | more ha' ht' hb' hs' =>
      simp only [List.append_assoc, List.cons_append] at he
      obtain ⟨rfl, he1⟩ := ws_unique ha ha' (value_notWs ht _) (value_notWs ht' _) he
      obtain ⟨rfl, rfl, he2⟩ := hU _ _ _ _ _ _ htn ht ht' (delim_ws hb (delim_cons (by omega)))
        (delim_ws hb' (delim_cons (by omega))) he1
      obtain ⟨rfl, he3⟩ := ws_unique hb hb' (cons_notWs (by unfold IsWs; omega) _) (cons_notWs (by unfold IsWs; omega) _) he2
      injection he3 with he4 _
      omega
  | @more a t b v s vs ha ht hb hs ih =>
    intro s' vs' r r' hn h' he
    have htn : t.length ≤ n := by simp only [List.length_append] at hn; omega
    cases h' with
    | one ha' ht' hb' =>
      simp only [List.append_assoc, List.cons_append] at he
      obtain ⟨rfl, he1⟩ := ws_unique ha ha' (value_notWs ht _) (value_notWs ht' _) he
      obtain ⟨rfl, rfl, he2⟩ := hU _ _ _ _ _ _ htn ht ht' (delim_ws hb (delim_cons (by omega)))
        (delim_ws hb' (delim_cons (by omega))) he1
      obtain ⟨rfl, he3⟩ := ws_unique hb hb' (cons_notWs (by unfold IsWs; omega) _) (cons_notWs (by unfold IsWs; omega) _) he2
      injection he3 with he4 _
      omega
    | more ha' ht' hb' hs' =>
      simp only [List.append_assoc, List.cons_append] at he
      obtain ⟨rfl, he1⟩ := ws_unique ha ha' (value_notWs ht _) (value_notWs ht' _) he
      obtain ⟨rfl, rfl, he2⟩ := hU _ _ _ _ _ _ htn ht ht' (delim_ws hb (delim_cons (by omega)))
        (delim_ws hb' (delim_cons (by omega))) he1
      obtain ⟨rfl, he3⟩ := ws_unique hb hb' (cons_notWs (by unfold IsWs; omega) _) (cons_notWs (by unfold IsWs; omega) _) he2
      injection he3 with _ he4
      obtain ⟨rfl, rfl, rfl⟩ := ih (by simp only [List.length_append, List.length_cons] at hn; omega) hs' he4
      exact ⟨rfl, rfl, rfl⟩

theorem members_unique {p : Bool} {n : Nat} (hU : UniqueUpTo p n) {s : PyStr} {ms : List (List Nat × Ast)}
    (h : MembersText (ValueText p) s ms) : ∀ {s' : PyStr} {ms' : List (List Nat × Ast)} {r r' : PyStr}, s.length ≤ n →
    MembersText (ValueText p) s' ms' → s ++ 125 :: r = s' ++ 125 :: r' → s = s' ∧ ms = ms' ∧ r = r' := by
  have colon : ¬ IsWs 58 := by unfold IsWs; omega
  induction h with
  | @one a k us b c t d v ha hk hb hc ht hd =>
    intro s' vs' r r' hn h' he
    have htn : t.length ≤ n := by simp only [List.length_append, List.length_cons] at hn; omega
    cases h' with
    | one ha' hk' hb' hc' ht' hd' =>
      simp only [List.append_assoc, List.cons_append] at he
      obtain ⟨rfl, he1⟩ := ws_unique ha ha' (str_notWs hk _) (str_notWs hk' _) he
      obtain ⟨rfl, rfl, he2⟩ := str_unique hk hk' he1
      obtain ⟨rfl, he3⟩ := ws_unique hb hb' (cons_notWs colon _) (cons_notWs colon _) he2
      injection he3 with _ he4
      obtain ⟨rfl, he5⟩ := ws_unique hc hc' (value_notWs ht _) (value_notWs ht' _) he4
      obtain ⟨rfl, rfl, he6⟩ := hU _ _ _ _ _ _ htn ht ht' (delim_ws hd (delim_cons (by omega)))
        (delim_ws hd' (delim_cons (by omega))) he5
      obtain ⟨rfl, he7⟩ := ws_unique hd hd' (cons_notWs (by unfold IsWs; omega) _) (cons_notWs (by unfold IsWs; omega) _) he6
      injection he7 with _ he8
      exact ⟨rfl, rfl, he8⟩
    | more ha' hk' hb' hc' ht' hd' hs' =>
      simp only [List.append_assoc, List.cons_append] at he
      obtain ⟨rfl, he1⟩ := ws_unique ha ha' (str_notWs hk _) (str_notWs hk' _) he
      obtain ⟨rfl, rfl, he2⟩ := str_unique hk hk' he1
      obtain ⟨rfl, he3⟩ := ws_unique hb hb' (cons_notWs colon _) (cons_notWs colon _) he2
      injection he3 with _ he4
      obtain ⟨rfl, he5⟩ := ws_unique hc hc' (value_notWs ht _) (value_notWs ht' _) he4
      obtain ⟨rfl, rfl, he6⟩ := hU _ _ _ _ _ _ htn ht ht' (delim_ws hd (delim_cons (by omega)))
        (delim_ws hd' (delim_cons (by omega))) he5
      obtain ⟨rfl, he7⟩ := ws_unique hd hd' (cons_notWs (by unfold IsWs; omega) _) (cons_notWs (by unfold IsWs; omega) _) he6
      injection he7 with he8 _
      omega
  | @more a k us b c t d v s ms ha hk hb hc ht hd hs ih =>
    intro s' vs' r r' hn h' he
    have htn : t.length ≤ n := by simp only [List.length_append, List.length_cons] at hn; omega
    cases h' with
    | one ha' hk' hb' hc' ht' hd' =>
      simp only [List.append_assoc, List.cons_append] at he
      obtain ⟨rfl, he1⟩ := ws_unique ha ha' (str_notWs hk _) (str_notWs hk' _) he
      obtain ⟨rfl, rfl, he2⟩ := str_unique hk hk' he1
      obtain ⟨rfl, he3⟩ := ws_unique hb hb' (cons_notWs colon _) (cons_notWs colon _) he2
      injection he3 with _ he4
      obtain ⟨rfl, he5⟩ := ws_unique hc hc' (value_notWs ht _) (value_notWs ht' _) he4
      obtain ⟨rfl, rfl, he6⟩ := hU _ _ _ _ _ _ htn ht ht' (delim_ws hd (delim_cons (by omega)))
        (delim_ws hd' (delim_cons (by omega))) he5
      obtain ⟨rfl, he7⟩ := ws_unique hd hd' (cons_notWs (by unfold IsWs; omega) _) (cons_notWs (by unfold IsWs; omega) _) he6
      injection he7 with he8 _
      omega
    | more ha' hk' hb' hc' ht' hd' hs' =>
      simp only [List.append_assoc, List.cons_append] at he
      obtain ⟨rfl, he1⟩ := ws_unique ha ha' (str_notWs hk _) (str_notWs hk' _) he
      obtain ⟨rfl, rfl, he2⟩ := str_unique hk hk' he1
      obtain ⟨rfl, he3⟩ := ws_unique hb hb' (cons_notWs colon _) (cons_notWs colon _) he2
      injection he3 with _ he4
      obtain ⟨rfl, he5⟩ := ws_unique hc hc' (value_notWs ht _) (value_notWs ht' _) he4
      obtain ⟨rfl, rfl, he6⟩ := hU _ _ _ _ _ _ htn ht ht' (delim_ws hd (delim_cons (by omega)))
        (delim_ws hd' (delim_cons (by omega))) he5
      obtain ⟨rfl, he7⟩ := ws_unique hd hd' (cons_notWs (by unfold IsWs; omega) _) (cons_notWs (by unfold IsWs; omega) _) he6
      injection he7 with _ he8
      obtain ⟨rfl, rfl, rfl⟩ := ih (by simp only [List.length_append, List.length_cons] at hn; omega) hs' he8
      exact ⟨rfl, rfl, rfl⟩

theorem arr_inv {p : Bool} {t : PyStr} {vs : List Ast} (h : ValueText p t (.arr vs)) :
    (∃ w, Ws w ∧ t = 91 :: (w ++ [93]) ∧ vs = []) ∨ ∃ s, ItemsText (ValueText p) s vs ∧ t = 91 :: (s ++ [93]) := by
  cases h with
  | arr0 hw => exact .inl ⟨_, hw, rfl, rfl⟩
  | arr hi => exact .inr ⟨_, hi, rfl⟩

theorem obj_inv {p : Bool} {t : PyStr} {ms : List (List Nat × Ast)} (h : ValueText p t (.obj ms)) :
    (∃ w, Ws w ∧ t = 123 :: (w ++ [125]) ∧ ms = []) ∨ ∃ s, MembersText (ValueText p) s ms ∧ t = 123 :: (s ++ [125]) := by
  cases h with
  | obj0 hw => exact .inl ⟨_, hw, rfl, rfl⟩
  | obj hi => exact .inr ⟨_, hi, rfl⟩

theorem arr_unique {p : Bool} {n : Nat} (hU : UniqueUpTo p n) {t t' r r' : PyStr} {vs vs' : List Ast}
    (hn : t.length ≤ n + 1) (h : ValueText p t (.arr vs)) (h' : ValueText p t' (.arr vs')) (he : t ++ r = t' ++ r') :
    t = t' ∧ vs = vs' ∧ r = r' := by
  have cl : ¬ IsWs 93 := by unfold IsWs; omega
  rcases arr_inv h with ⟨w, hw, rfl, rfl⟩ | ⟨s, hs, rfl⟩ <;> rcases arr_inv h' with ⟨w', hw', rfl, rfl⟩ | ⟨s', hs', rfl⟩ <;>
    simp only [List.cons_append, List.append_assoc, List.nil_append, List.cons.injEq, true_and] at he
  · obtain ⟨rfl, he1⟩ := ws_unique hw hw' (cons_notWs cl _) (cons_notWs cl _) he
    injection he1 with _ he2
    exact ⟨rfl, rfl, he2⟩
  · obtain ⟨a, x, c, y, ha, rfl, rfl, hc, hc'⟩ := items_head hs'
    rw [List.append_assoc] at he
    obtain ⟨-, he4⟩ := ws_unique hw ha (cons_notWs cl _) (cons_notWs hc _) he
    injection he4 with he5 _
    exact absurd he5.symm hc'
  · obtain ⟨a, x, c, y, ha, rfl, rfl, hc, hc'⟩ := items_head hs
    rw [List.append_assoc] at he
    obtain ⟨-, he7⟩ := ws_unique ha hw' (cons_notWs hc _) (cons_notWs cl _) he
    injection he7 with he8 _
    exact absurd he8 hc'
  · obtain ⟨rfl, rfl, rfl⟩ := items_unique hU hs (by simp only [List.length_append, List.length_cons] at hn; omega) hs' he
    exact ⟨rfl, rfl, rfl⟩

theorem obj_unique {p : Bool} {n : Nat} (hU : UniqueUpTo p n) {t t' r r' : PyStr} {vs vs' : List (List Nat × Ast)}
    (hn : t.length ≤ n + 1) (h : ValueText p t (.obj vs)) (h' : ValueText p t' (.obj vs')) (he : t ++ r = t' ++ r') :
    t = t' ∧ vs = vs' ∧ r = r' := by
  have cl : ¬ IsWs 125 := by unfold IsWs; omega
  have qu : ¬ IsWs 34 := by unfold IsWs; omega
  rcases obj_inv h with ⟨w, hw, rfl, rfl⟩ | ⟨s, hs, rfl⟩ <;> rcases obj_inv h' with ⟨w', hw', rfl, rfl⟩ | ⟨s', hs', rfl⟩ <;>
    simp only [List.cons_append, List.append_assoc, List.nil_append, List.cons.injEq, true_and] at he
  · obtain ⟨rfl, he1⟩ := ws_unique hw hw' (cons_notWs cl _) (cons_notWs cl _) he
    injection he1 with _ he2
    exact ⟨rfl, rfl, he2⟩
  · obtain ⟨a, x, y, ha, rfl, rfl⟩ := members_head hs'
    rw [List.append_assoc] at he
    obtain ⟨-, he4⟩ := ws_unique hw ha (cons_notWs cl _) (cons_notWs qu _) he
    injection he4 with he5 _
    omega
  · obtain ⟨a, x, y, ha, rfl, rfl⟩ := members_head hs
    rw [List.append_assoc] at he
    obtain ⟨-, he7⟩ := ws_unique ha hw' (cons_notWs qu _) (cons_notWs cl _) he
    injection he7 with he8 _
    omega
  · obtain ⟨rfl, rfl, rfl⟩ := members_unique hU hs (by simp only [List.length_append, List.length_cons] at hn; omega) hs' he
    exact ⟨rfl, rfl, rfl⟩

/-- Texts that start alike start the same kind of value. -/
def kind : Ast → Nat
  | .null => 0 | .bool true => 1 | .bool false => 2 | .num _ => 3 | .str _ => 4 | .arr _ => 5 | .obj _ => 6 | .special _ => 7

/-- The kind that a text can start. -/
def startKind : PyStr → Nat
  | 110 :: _ => 0
  | 116 :: _ => 1
  | 102 :: _ => 2
  | 34 :: _ => 4
  | 91 :: _ => 5
  | 123 :: _ => 6
  | 78 :: _ => 7
  | 73 :: _ => 7
  | 45 :: 73 :: _ => 7
  | _ => 3

theorem starts_kind {t r : PyStr} {v : Ast} (h : Starts t v) : startKind (t ++ r) = kind v := by
  match v with
  | .null => obtain ⟨x, rfl⟩ := h; rfl
  | .bool true => obtain ⟨x, rfl⟩ := h; rfl
  | .bool false => obtain ⟨x, rfl⟩ := h; rfl
  | .num _ =>
    obtain ⟨c, x, rfl, hc⟩ := h
    rcases hc with hc | ⟨rfl, d, y, rfl, hd⟩
    · unfold isDigit at hc
      change startKind (c :: (x ++ r)) = 3
      unfold startKind
      split <;> first | rfl | (rename_i h; injection h with h _; omega)
    · unfold isDigit at hd
      change startKind (45 :: d :: (y ++ r)) = 3
      unfold startKind
      split <;> first | rfl | (rename_i h; injection h with h1 h; injection h with h _; omega) | (rename_i h; injection h with h _; omega)
  | .str _ => obtain ⟨x, rfl⟩ := h; rfl
  | .arr _ => obtain ⟨x, rfl⟩ := h; rfl
  | .obj _ => obtain ⟨x, rfl⟩ := h; rfl
  | .special _ => rcases h with ⟨x, rfl⟩ | ⟨x, rfl⟩ | ⟨x, rfl⟩ <;> rfl

theorem special_inv {p : Bool} {t w : PyStr} (h : ValueText p t (.special w)) :
    t = w ∧ w ∈ [py!"NaN", py!"Infinity", py!"-Infinity"] := by
  cases h with
  | special _ h => exact ⟨rfl, h⟩

theorem unique_all (p : Bool) : ∀ n, UniqueUpTo p n
  | 0 => by
    intro t v t' v' r r' hn h _ _ _ _
    obtain ⟨c, x, rfl, -⟩ := value_head h
    simp at hn
  | n + 1 => by
    have ih := unique_all p n
    intro t v t' v' r r' hn h h' hr hr' he
    have hk : kind v = kind v' := by
      rw [← starts_kind (r := r) (value_starts h), ← starts_kind (r := r') (value_starts h'), he]
    have fixed : ∀ w : PyStr, t = w → t' = w → t = t' ∧ r = r' := by
      rintro w rfl rfl
      exact ⟨rfl, List.append_cancel_left he⟩
    match v, v' with
    | .null, .null =>
      obtain ⟨h1, h2⟩ := fixed py!"null" (by cases h; rfl) (by cases h'; rfl)
      exact ⟨h1, rfl, h2⟩
    | .bool true, .bool true =>
      obtain ⟨h1, h2⟩ := fixed py!"true" (by cases h; rfl) (by cases h'; rfl)
      exact ⟨h1, rfl, h2⟩
    | .bool false, .bool false =>
      obtain ⟨h1, h2⟩ := fixed py!"false" (by cases h; rfl) (by cases h'; rfl)
      exact ⟨h1, rfl, h2⟩
    | .num m, .num m' =>
      cases h with
      | num hv ht =>
        cases h' with
        | num hv' ht' =>
          obtain ⟨rfl, h2, h3⟩ := num_unique hv hv' ht ht' hr hr' he
          exact ⟨h2, rfl, h3⟩
    | .str us, .str us' =>
      cases h with
      | str ht =>
        cases h' with
        | str ht' =>
          obtain ⟨h2, rfl, h3⟩ := str_unique ht ht' he
          exact ⟨h2, rfl, h3⟩
    | .arr vs, .arr vs' =>
      obtain ⟨h1, rfl, h3⟩ := arr_unique ih hn h h' he
      exact ⟨h1, rfl, h3⟩
    | .obj vs, .obj vs' =>
      obtain ⟨h1, rfl, h3⟩ := obj_unique ih hn h h' he
      exact ⟨h1, rfl, h3⟩
    | .special w, .special w' =>
      obtain ⟨rfl, h1⟩ := special_inv h
      obtain ⟨rfl, h2⟩ := special_inv h'
      have : t = t' := by
        simp only [List.mem_cons, List.not_mem_nil, or_false] at h1 h2
        rcases h1 with rfl | rfl | rfl <;> rcases h2 with rfl | rfl | rfl <;> first | rfl | (injection he with he; omega)
      subst this
      exact ⟨rfl, rfl, List.append_cancel_left he⟩
    | .null, .bool true | .null, .bool false | .null, .num _ | .null, .str _ | .null, .arr _ | .null, .obj _ | .null, .special _
    | .bool true, .null | .bool true, .bool false | .bool true, .num _ | .bool true, .str _ | .bool true, .arr _
    | .bool true, .obj _ | .bool true, .special _
    | .bool false, .null | .bool false, .bool true | .bool false, .num _ | .bool false, .str _ | .bool false, .arr _
    | .bool false, .obj _ | .bool false, .special _
    | .num _, .null | .num _, .bool true | .num _, .bool false | .num _, .str _ | .num _, .arr _ | .num _, .obj _ | .num _, .special _
    | .str _, .null | .str _, .bool true | .str _, .bool false | .str _, .num _ | .str _, .arr _ | .str _, .obj _ | .str _, .special _
    | .arr _, .null | .arr _, .bool true | .arr _, .bool false | .arr _, .num _ | .arr _, .str _ | .arr _, .obj _ | .arr _, .special _
    | .obj _, .null | .obj _, .bool true | .obj _, .bool false | .obj _, .num _ | .obj _, .str _ | .obj _, .arr _ | .obj _, .special _
    | .special _, .null | .special _, .bool true | .special _, .bool false | .special _, .num _ | .special _, .str _
    | .special _, .arr _ | .special _, .obj _ => exact absurd hk (by simp [kind])

/-- A value followed by a delimiter is determined by the text. -/
theorem value_unique {p : Bool} {t t' r r' : PyStr} {v v' : Ast} (h : ValueText p t v) (h' : ValueText p t' v')
    (hr : Delim r) (hr' : Delim r') (he : t ++ r = t' ++ r') : t = t' ∧ v = v' ∧ r = r' :=
  unique_all p t.length t v t' v' r r' (le_refl _) h h' hr hr' he

/-- A text denotes at most one value. -/
theorem jsonText_unique {p : Bool} {t : PyStr} {v v' : Ast} (h : JsonText p t v) (h' : JsonText p t v') : v = v' := by
  obtain ⟨a, b, u, ha, hb, hu, rfl⟩ := h
  obtain ⟨a', b', u', ha', hb', hu', he14⟩ := h'
  rw [List.append_assoc, List.append_assoc] at he14
  obtain ⟨-, he15⟩ := ws_unique ha ha' (value_notWs hu _) (value_notWs hu' _) he14
  have d : ∀ {w : PyStr}, Ws w → Delim w := fun hw c hc => .inl (hw c (List.mem_of_mem_head? (by rw [hc]; rfl)))
  exact (value_unique hu hu' (d hb) (d hb') he15).2.1

end Atop
