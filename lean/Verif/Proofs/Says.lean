import Verif.Proofs.Dumps
/-!
# The text determines the value
-/

namespace Atop
open Spec

/-! ## The two grammars -/

theorem valueText_python {t : PyStr} {a : Ast} (h : ValueText false t a) : ValueText true t a := by
  refine ValueText.rec (python := false) (motive_1 := fun t a _ => ValueText true t a)
    (motive_2 := fun t as _ => ItemsText (ValueText true) t as)
    (motive_3 := fun t ms _ => MembersText (ValueText true) t ms) .null .true .false (fun h h' => .num h h') (fun h => .str h)
    (fun h => .arr0 h) (fun _ ih => .arr ih) (fun h => .obj0 h) (fun _ ih => .obj ih) (fun h => nomatch h)
    (fun a _ b ih => .one a ih b) (fun a _ b _ ih ih' => .more a ih b ih')
    (fun a b c d _ e ih => .one a b c d ih e) (fun a b c d _ e _ ih ih' => .more a b c d ih e ih') h

theorem jsonText_python {t : PyStr} {a : Ast} : JsonText false t a → JsonText true t a
  | ⟨x, y, u, hx, hy, hu, e⟩ => ⟨x, y, u, hx, hy, valueText_python hu, e⟩

/-- What RFC 8259 allows has no infinity or NaN in it. -/
theorem rfc_finite {t : PyStr} {a : Ast} (h : ValueText false t a) : ∀ v, Says v a → AllFinite v := by
  refine ValueText.rec (motive_1 := fun t a _ => ∀ v, Says v a → AllFinite v)
    (motive_2 := fun t as _ => ∀ (i : Nat) v a, as[i]? = some a → Says v a → AllFinite v)
    (motive_3 := fun t ms _ => ∀ (i : Nat) v us a, ms[i]? = some (us, a) → Says v a → AllFinite v)
    ?_ ?_ ?_ ?_ ?_ ?_ ?_ ?_ ?_ ?_ ?_ ?_ ?_ ?_ h
  · intro v h; cases h
  · intro v h; cases h
  · intro v h; cases h
  · intro n t _ _ v h
    cases h with
    | int => exact .int _
    | float h => exact .float h
  · intro t us _ v h; cases h; exact .str _
  · intro w _ v h
    cases h with
    | list hl _ => 
      obtain rfl := List.length_eq_zero_iff.mp hl
      exact .list (fun v hv => nomatch hv)
  · intro t vs _ ih v h
    cases h with
    | list hl h =>
      refine .list fun v hv => ?_
      obtain ⟨i, hi⟩ := List.getElem?_of_mem hv
      have := (List.getElem?_eq_some_iff.mp hi).1
      have hj : i < vs.length := by omega
      exact ih i v _ (List.getElem?_eq_getElem hj) (h i v _ hi (List.getElem?_eq_getElem hj))
  · intro w _ v h
    cases h with
    | dict hl _ =>
      have := congrArg List.length hl
      rw [List.length_map, List.length_map] at this
      obtain rfl := List.length_eq_zero_iff.mp this.symm
      exact .dict (fun v hv => nomatch hv)
  · intro t ms _ ih v h
    cases h with
    | dict hl h =>
      refine .dict fun p hp => ?_
      obtain ⟨i, hi⟩ := List.getElem?_of_mem hp
      have h1 := (List.getElem?_eq_some_iff.mp hi).1
      have := congrArg List.length hl
      rw [List.length_map, List.length_map] at this
      have hj : i < ms.length := by omega
      exact ih i p.2 ms[i].1 ms[i].2 (List.getElem?_eq_getElem hj) (h i p.1 p.2 _ _ hi (List.getElem?_eq_getElem hj))
  · intro t h; cases h
  · intro a t b v _ _ _ ih i w c hc hs
    match i, hc with
    | 0, hc => injection hc with hc; exact ih w (hc ▸ hs)
  · intro a t b v s vs _ _ _ _ ih ih' i w c hc hs
    match i, hc with
    | 0, hc => injection hc with hc; exact ih w (hc ▸ hs)
    | i + 1, hc => exact ih' i w c hc hs
  · intro a k us b c t d v _ _ _ _ _ _ ih i w us' x hc hs
    match i, hc with
    | 0, hc => injection hc with hc; injection hc with _ hc; exact ih w (hc ▸ hs)
  · intro a k us b c t d v s ms _ _ _ _ _ _ _ ih ih' i w us' x hc hs
    match i, hc with
    | 0, hc => injection hc with hc; injection hc with _ hc; exact ih w (hc ▸ hs)
    | i + 1, hc => exact ih' i w us' x hc hs

/-! ## Numbers -/

/-- Between two different even doubles lies a third one. -/
theorem even_between {x y : ℚ} (hx : EvenDouble x) (hy : EvenDouble y) (h : x < y) : ∃ z, IsDouble z ∧ x < z ∧ z < y := by
  obtain ⟨m, e, hm, he, rfl⟩ := hx
  obtain ⟨n, f, hn, hf, rfl⟩ := hy
  rw [abs_lt] at hm hn
  have half : ∀ e : ℤ, (2 : ℚ) ^ e = 2 * 2 ^ (e - 1) := fun e => by
    rw [zpow_sub_one₀ (by norm_num)]; ring
  have pos : ∀ e : ℤ, (0 : ℚ) < 2 ^ e := fun e => by positivity
  rcases le_total e f with hef | hef
  · refine ⟨(2 * m + 1 : ℤ) * 2 ^ (e - 1), ⟨2 * m + 1, e - 1, abs_lt.mpr ⟨by omega, by omega⟩, by omega, rfl⟩, ?_, ?_⟩
    · rw [half e]; push_cast; nlinarith [pos (e - 1)]
    · obtain ⟨k, rfl⟩ : ∃ k : ℕ, f = e + k := ⟨(f - e).toNat, by omega⟩
      rw [zpow_add₀ (by norm_num), zpow_natCast] at h ⊢
      have h' : (m : ℚ) < n * 2 ^ k := by
        have : (m : ℚ) * 2 ^ e < n * 2 ^ k * 2 ^ e := by linarith
        exact lt_of_mul_lt_mul_right this (pos e).le
      have h2 : m + 1 ≤ n * 2 ^ k := by
        have : m < n * 2 ^ k := by exact_mod_cast h'
        omega
      have h3 : (m : ℚ) + 1 ≤ n * 2 ^ k := by exact_mod_cast h2
      have := pos (e - 1)
      rw [half e]
      push_cast
      nlinarith
  · refine ⟨(2 * n - 1 : ℤ) * 2 ^ (f - 1), ⟨2 * n - 1, f - 1, abs_lt.mpr ⟨by omega, by omega⟩, by omega, rfl⟩, ?_, ?_⟩
    · obtain ⟨k, rfl⟩ : ∃ k : ℕ, e = f + k := ⟨(e - f).toNat, by omega⟩
      rw [zpow_add₀ (by norm_num), zpow_natCast] at h ⊢
      have h' : (m : ℚ) * 2 ^ k < n := by
        have : (m : ℚ) * 2 ^ k * 2 ^ f < n * 2 ^ f := by linarith
        exact lt_of_mul_lt_mul_right this (pos f).le
      have h2 : m * 2 ^ k + 1 ≤ n := by
        have : m * 2 ^ k < n := by exact_mod_cast h'
        omega
      have h3 : (m : ℚ) * 2 ^ k + 1 ≤ n := by exact_mod_cast h2
      have := pos (f - 1)
      rw [half f]
      push_cast
      nlinarith
    · rw [half f]; push_cast; nlinarith [pos (f - 1)]

theorem readsAs_unique {q x y : ℚ} (hx : ReadsAs q x) (hy : ReadsAs q y) : x = y := by
  by_contra hne
  have key : ∀ {x y : ℚ}, ReadsAs q x → ReadsAs q y → x < y → False := by
    intro x y hx hy hlt
    have a := hx.2 y hy.1 (ne_of_gt hlt)
    have b := hy.2 x hx.1 (ne_of_lt hlt)
    have e : |q - x| = |q - y| ∧ EvenDouble x ∧ EvenDouble y := by
      rcases a with a | a <;> rcases b with b | b
      · linarith
      · linarith [b.1]
      · linarith [a.1]
      · exact ⟨a.1, a.2, b.2⟩
    obtain ⟨z, hz, h1, h2⟩ := even_between e.2.1 e.2.2 hlt
    have hq : q - x = y - q := by
      rcases abs_eq_abs.mp e.1 with h | h
      · linarith
      · linarith
    have hxq : |q - x| = q - x := abs_of_nonneg (by linarith)
    have hz' : |q - z| < q - x := abs_lt.mpr ⟨by linarith, by linarith⟩
    rcases hx.2 z hz (ne_of_gt h1) with h | h
    · linarith
    · linarith [h.1]
  rcases lt_or_gt_of_ne hne with h | h
  · exact key hx hy h
  · exact key hy hx h

/-- The magnitude of a finite float in units of 2^-149. -/
def units (b : Nat) : Nat :=
  if b / 2 ^ 23 % 256 = 0 then b % 2 ^ 23 else (2 ^ 23 + b % 2 ^ 23) * 2 ^ (b / 2 ^ 23 % 256 - 1)

theorem floatValue_units (b : Nat) :
    floatValue b = (if b / 2 ^ 31 % 2 = 1 then -1 else 1) * ((units b : ℚ) * 2 ^ (-149 : ℤ)) := by
  unfold floatValue units
  congr 1
  split
  · rfl
  · rename_i h
    generalize b / 2 ^ 23 % 256 = k at h
    generalize b % 2 ^ 23 = f
    obtain ⟨j, rfl⟩ : ∃ j, k = j + 1 := ⟨k - 1, by omega⟩
    rw [show ((j + 1 : ℕ) : ℤ) - 150 = (j : ℤ) + (-149) by push_cast; ring, zpow_add₀ (by norm_num), zpow_natCast,
      Nat.add_sub_cancel]
    push_cast
    ring

theorem units_inj {b b' : Nat} (h : units b = units b') :
    b / 2 ^ 23 % 256 = b' / 2 ^ 23 % 256 ∧ b % 2 ^ 23 = b' % 2 ^ 23 := by
  unfold units at h
  have hf : b % 2 ^ 23 < 2 ^ 23 := Nat.mod_lt _ (by norm_num)
  have hf' : b' % 2 ^ 23 < 2 ^ 23 := Nat.mod_lt _ (by norm_num)
  generalize b / 2 ^ 23 % 256 = k at *
  generalize b' / 2 ^ 23 % 256 = k' at *
  generalize b % 2 ^ 23 = f at *
  generalize b' % 2 ^ 23 = f' at *
  have big : ∀ (f j : Nat), 2 ^ 23 ≤ (2 ^ 23 + f) * 2 ^ j := fun f j =>
    le_trans (by omega) (Nat.le_mul_of_pos_right _ (by positivity))
  have key : ∀ {f f' j d : Nat}, f < 2 ^ 23 → (2 ^ 23 + f) * 2 ^ j ≠ (2 ^ 23 + f') * 2 ^ (j + d + 1) := by
    intro f f' j d hf h
    rw [show 2 ^ (j + d + 1) = 2 ^ (d + 1) * 2 ^ j by ring, ← mul_assoc] at h
    have := Nat.eq_of_mul_eq_mul_right (by positivity) h
    have h2 : 2 ≤ 2 ^ (d + 1) := by rw [pow_succ]; have : 1 ≤ 2 ^ d := Nat.one_le_two_pow; omega
    have h3 : (2 ^ 23 + f') * 2 ≤ (2 ^ 23 + f') * 2 ^ (d + 1) := Nat.mul_le_mul_left _ h2
    omega
  split at h <;> split at h
  · exact ⟨by omega, h⟩
  · have := big f' (k' - 1); omega
  · have := big f (k - 1); omega
  · rcases Nat.lt_trichotomy k k' with hk | hk | hk
    · refine absurd h ?_
      have := key (f := f) (f' := f') (j := k - 1) (d := k' - k - 1) hf
      rwa [show k - 1 + (k' - k - 1) + 1 = k' - 1 by omega] at this
    · subst hk
      have := Nat.eq_of_mul_eq_mul_right (by positivity) h
      exact ⟨rfl, by omega⟩
    · refine absurd h.symm ?_
      have := key (f := f') (f' := f) (j := k' - 1) (d := k - k' - 1) hf'
      rwa [show k' - 1 + (k - k' - 1) + 1 = k - 1 by omega] at this

theorem floatValue_inj {b b' : Nat} (hb : b < 2 ^ 32) (hb' : b' < 2 ^ 32) (hs : b / 2 ^ 31 % 2 = 1 ↔ b' / 2 ^ 31 % 2 = 1)
    (h : floatValue b = floatValue b') : b = b' := by
  rw [floatValue_units, floatValue_units] at h
  have hu : units b = units b' := by
    have p : (2 : ℚ) ^ (-149 : ℤ) ≠ 0 := by positivity
    have : (units b : ℚ) = units b' := by
      by_cases c : b / 2 ^ 31 % 2 = 1
      · rw [if_pos c, if_pos (hs.mp c)] at h
        exact mul_right_cancel₀ p (by linarith)
      · rw [if_neg c, if_neg (fun x => c (hs.mpr x))] at h
        exact mul_right_cancel₀ p (by linarith)
    exact_mod_cast this
  obtain ⟨h1, h2⟩ := units_inj hu
  omega

/-! ## Texts -/

theorem utf16_inj {c d : Nat} {r r' : List Nat} (hc : c < 0xD800 ∨ (0xDC00 ≤ c ∧ c < 0x110000))
    (hd : d < 0xD800 ∨ (0xDC00 ≤ d ∧ d < 0x110000)) (h : utf16 c ++ r = utf16 d ++ r') : c = d ∧ r = r' := by
  unfold utf16 at h
  split at h <;> split at h
  · injection h with h1 h2; exact ⟨h1, h2⟩
  · injection h with h1 h2; omega
  · injection h with h1 h2; omega
  · injection h with h1 h2; injection h2 with h2 h3; exact ⟨by omega, h3⟩

theorem utf16s_inj : ∀ {s s' : PyStr}, NoHigh s → NoHigh s' → utf16s s = utf16s s' → s = s'
  | [], [], _, _, _ => rfl
  | [], d :: s', _, _, h => by
    simp only [utf16s, List.flatMap_nil, List.flatMap_cons] at h
    have := congrArg List.length h
    unfold utf16 at this
    split at this <;> simp at this
  | c :: s, [], _, _, h => by
    simp only [utf16s, List.flatMap_nil, List.flatMap_cons] at h
    have := congrArg List.length h
    unfold utf16 at this
    split at this <;> simp at this
  | c :: s, d :: s', hs, hs', h => by
    simp only [utf16s, List.flatMap_cons] at h
    obtain ⟨rfl, h2⟩ := utf16_inj (hs c (by simp)) (hs' d (by simp)) h
    rw [utf16s_inj (fun x hx => hs x (by simp [hx])) (fun x hx => hs' x (by simp [hx])) h2]

/-! ## Values -/

theorem special_alike {b b' : Nat} (hb : b < 2 ^ 32) (hb' : b' < 2 ^ 32) (h : b / 2 ^ 23 % 256 = 255)
    (h' : b' / 2 ^ 23 % 256 = 255) (e : specialWord b = specialWord b') : Alike (.float b) (.float b') := by
  unfold specialWord at e
  by_cases c : b % 2 ^ 23 ≠ 0 <;> by_cases c' : b' % 2 ^ 23 ≠ 0
  · exact .nan ⟨h, c⟩ ⟨h', c'⟩
  · rw [if_pos c, if_neg c'] at e; split at e <;> cases e
  · rw [if_neg c, if_pos c'] at e; split at e <;> cases e
  · rw [if_neg c, if_neg c'] at e
    obtain rfl : b = b' := by
      split at e <;> split at e <;> first | omega | cases e
    exact .float b

theorem says_inj {T U : PyStr → Prop} (hT : ∀ s, T s → NoHigh s) (hU : ∀ s, U s → NoHigh s) {v : JVal} (jv : Json T v) :
    ∀ {w : JVal} {a : Ast}, Json U w → Says v a → Says w a → Alike v w := by
  induction jv with
  | int i =>
    intro w a jw h h'
    cases h with
    | int f e hv _ =>
      cases h' with
      | int _ _ hv' _ =>
        rw [hv] at hv'
        obtain rfl : i = _ := by exact_mod_cast hv'
        exact .int i
      | float _ x => exact absurd x (by simp [f, e])
  | @float b hb =>
    intro w a jw h h'
    cases h with
    | float _ x hs hv =>
      cases h' with
      | int f e => exact absurd x (by simp [f, e])
      | float _ _ hs' hv' =>
        cases jw with
        | float hb' =>
          obtain rfl := floatValue_inj hb hb' (hs.sign.symm.trans hs'.sign) (readsAs_unique hv hv')
          exact .float b
    | special hx =>
      generalize hw : specialWord b = word at h'
      cases h' with
      | special hx' =>
        cases jw with
        | float hb' => exact special_alike hb hb' hx hx' hw
  | @str s hs =>
    intro w a jw h h'
    cases h
    generalize hu : utf16s s = us at h'
    cases h' with
    | str =>
      cases jw with
      | str hs' =>
        obtain rfl := utf16s_inj (hT _ hs) (hU _ hs') hu
        exact .str s
  | @list vs _ ih =>
    intro w a jw h h'
    cases h with
    | @list _ as hl h =>
      cases h' with
      | @list ws _ hl' h' =>
        cases jw with
        | list jw =>
          refine .list (hl.trans hl'.symm) ?_
          intro i v w hv hw
          have hi : i < as.length := hl ▸ (List.getElem?_eq_some_iff.mp hv).1
          have ha := List.getElem?_eq_getElem hi
          exact ih v (List.mem_of_getElem? hv) (jw w (List.mem_of_getElem? hw)) (h i v _ hv ha) (h' i w _ hw ha)
  | @dict kvs _ hk _ ih =>
    intro w a jw h h'
    cases h with
    | @dict _ ms hl h =>
      cases h' with
      | @dict lws _ hl' h' =>
        cases jw with
        | dict _ hk' jw =>
          have e : kvs.map (utf16s ·.1) = lws.map (utf16s ·.1) := hl.symm.trans hl'
          refine .dict ?_ ?_
          · apply List.ext_getElem?
            intro i
            have := congrArg (·[i]?) e
            simp only [List.getElem?_map] at this ⊢
            cases h1 : kvs[i]? with
            | none => rw [h1] at this; cases h2 : lws[i]? with
              | none => rfl
              | some q => rw [h2] at this; cases this
            | some p => rw [h1] at this; cases h2 : lws[i]? with
              | none => rw [h2] at this; cases this
              | some q =>
                rw [h2] at this
                injection this with this
                rw [Option.map_some, Option.map_some, utf16s_inj (hT _ (hk p (List.mem_of_getElem? h1)))
                  (hU _ (hk' q (List.mem_of_getElem? h2))) this]
          · intro i k v l w hv hw
            have hi : i < ms.length := by
              have h1 := (List.getElem?_eq_some_iff.mp hv).1
              have := congrArg List.length hl
              rw [List.length_map, List.length_map] at this
              omega
            have ha := List.getElem?_eq_getElem hi
            exact ih (k, v) (List.mem_of_getElem? hv) (jw (l, w) (List.mem_of_getElem? hw)) (h i k v _ _ hv ha)
              (h' i l w _ _ hw ha)

end Atop
