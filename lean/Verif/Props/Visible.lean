import Verif.Props.Dict
/-!
# C21, C41: what `struct_to_dict` depends on, and what it determines
-/

namespace Atop
open Spec

theorem vals_cons (all : Fields) (lims : List (PyStr × PyStr)) (full : Bytes) (n : PyStr) (t : CType) (r : Fields) (off : Nat) :
    (Fields.cons n t r).vals all lims full off =
      (if isShown n t = true then [(n, fieldVal all lims full n t (slot full (roundUp off t.align) t))] else []) ++
        r.vals all lims full (roundUp off t.align + t.size) := by
  rw [vals_eq, vals_eq, Fields.layout, List.filterMap_cons]
  by_cases h : isShown n t = true
  · simp [h]
  · simp [h]

theorem slot_get (mem : Bytes) (o : Nat) (t : CType) (i : Nat) : (slot mem o t)[i]? = if i < t.size then mem[o + i]? else none := by
  unfold slot
  rw [List.getElem?_take, List.getElem?_drop]

theorem slot_ext {a b : Bytes} {o : Nat} {t : CType} (h : ∀ i, i < t.size → a[o + i]? = b[o + i]?) : slot a o t = slot b o t := by
  apply List.ext_getElem?
  intro i
  rw [slot_get, slot_get]
  split
  · exact h i ‹_›
  · rfl

theorem beforeNul_ext : ∀ (a b : Bytes), (∀ i : Nat, (∀ j : Nat, j < i → a[j]? ≠ some 0) → a[i]? = b[i]?) → beforeNul a = beforeNul b
  | [], [], _ => rfl
  | [], y :: b, h => by have := h 0 (by simp); simp at this
  | x :: a, [], h => by have := h 0 (by simp); simp at this
  | x :: a, y :: b, h => by
    have h0 := h 0 (by simp)
    simp at h0
    subst h0
    rw [beforeNul, beforeNul]
    by_cases hx : x = 0
    · rw [if_pos hx, if_pos hx]
    · rw [if_neg hx, if_neg hx]
      congr 1
      apply beforeNul_ext
      intro i hi
      have := h (i + 1) (by
        intro j hj
        cases j with
        | zero => simpa using hx
        | succ j => simpa using hi j (by omega))
      simpa using this

/-- The two memories agree on everything visible in the first. -/
def Agree (t : CType) (a b : Bytes) : Prop := ∀ i l, Visible t a i l → a[i]? = b[i]?

theorem Agree.slot {t ft : CType} {a b : Bytes} (h : Agree t a b) {n : PyStr} {o : Nat} (hp : place t n = some (o, ft))
    (hna : isArray ft = false) (hs : isShown n ft = true) : Agree ft (slot a o ft) (slot b o ft) := by
  intro i l hv
  rw [slot_get, slot_get]
  split
  · exact h _ _ (.field hp hna hs hv)
  · rfl

theorem Agree.elem {t e : CType} {a b : Bytes} (h : Agree t a b) {n : PyStr} {o k j : Nat} (hp : place t n = some (o, .array e k))
    (he : e ≠ .char) (hf : ¬ mentionsFuture n) (hj : entryShown t a n k j) :
    Agree e (Spec.slot a (o + j * e.size) e) (Spec.slot b (o + j * e.size) e) := by
  intro i l hv
  rw [slot_get, slot_get]
  split
  · exact h _ _ (.elem hp he hf hj hv)
  · rfl

theorem Agree.count {t c fs lims} (G : Good t c fs lims) {a b : Bytes} (ha : a.length = t.size)
    (h : Agree t a b) (n : PyStr) (k : Nat) : shownCount fs a lims n k = shownCount fs b lims n k := by
  unfold shownCount
  cases hL : lims.lookup n with
  | none => rfl
  | some lim =>
    obtain ⟨o, w, s, hp, hnf, hw, -, he⟩ := count_exists G ha hL
    dsimp only
    have : intField fs a lim = intField fs b lim := by
      rw [he]
      unfold intField
      rw [(G.field hp).2.2.2]
      dsimp only
      have : Spec.slot a o (.int w s) = Spec.slot b o (.int w s) := slot_ext (fun i hi =>
        h _ _ (.field hp rfl (by simp [isShown, hnf]) (.int hi)))
      rw [this]; rfl
    rw [this]

mutual
theorem agree_val : ∀ (t : CType), t.good = true → isArray t = false → ∀ a b : Bytes, a.length = t.size → b.length = t.size →
    Agree t a b → t.val a = t.val b
  | .int w s, _, _, a, b, ha, hb, h => by
    have : a = b := by
      apply List.ext_getElem?
      intro i
      simp only [CType.size] at ha hb
      by_cases hi : i < w
      · exact h i _ (.int hi)
      · rw [List.getElem?_eq_none (by omega), List.getElem?_eq_none (by omega)]
    rw [this]
  | .float, _, _, a, b, ha, hb, h => by
    have : a = b := by
      apply List.ext_getElem?
      intro i
      simp only [CType.size] at ha hb
      by_cases hi : i < 4
      · exact h i _ (.float hi)
      · rw [List.getElem?_eq_none (by omega), List.getElem?_eq_none (by omega)]
    rw [this]
  | .char, _, _, a, b, ha, hb, h => by
    have : a = b := by
      apply List.ext_getElem?
      intro i
      simp only [CType.size] at ha hb
      by_cases hi : i < 1
      · have : i = 0 := by omega
        subst this; exact h 0 _ .char
      · rw [List.getElem?_eq_none (by omega), List.getElem?_eq_none (by omega)]
    rw [this]
  | .array _ _, _, h, _, _, _, _, _ => by simp [isArray] at h
  | .struct c fs lims, hg, _, a, b, ha, hb, h => by
    have G := good_inv hg
    rw [CType.val, CType.val]
    congr 1
    refine agree_fields fs G.fields (.struct c fs lims) c fs lims G 0 ?_ a b ha hb h
    intro p hp
    show fs.lookup p.1 0 = some p.2
    rw [lookup_layout]
    exact lookup_of_mem (by rw [names_layout fs 0]; exact G.nodup) hp
theorem agree_fields : ∀ (fs : Fields), fs.good = true → ∀ (T : CType) (c : PyStr) (all : Fields) (lims : List (PyStr × PyStr)),
    Good T c all lims → ∀ (off : Nat), (∀ p ∈ fs.layout off, place T p.1 = some p.2) →
    ∀ a b : Bytes, a.length = T.size → b.length = T.size → Agree T a b → fs.vals all lims a off = fs.vals all lims b off
  | .nil, _, T, c, all, lims, G, off, hpl, a, b, ha, hb, h => rfl
  | .cons n t r, hg, T, c, all, lims, G, off, hpl, a, b, ha, hb, h => by
    simp only [Fields.good, Bool.and_eq_true] at hg
    rw [vals_cons, vals_cons]
    have ih := agree_fields r hg.2 T c all lims G (roundUp off t.align + t.size)
      (fun p hp => hpl p (by simp [Fields.layout, hp])) a b ha hb h
    rw [ih]
    congr 1
    by_cases hs : isShown n t = true
    · rw [if_pos hs, if_pos hs]
      have hp : place T n = some (roundUp off t.align, t) := hpl (n, roundUp off t.align, t) (by simp [Fields.layout])
      obtain ⟨-, -, hin, -⟩ := G.field hp
      generalize roundUp off t.align = o at *
      have hla : (Spec.slot a o t).length = t.size := slot_length (by omega)
      have hlb : (Spec.slot b o t).length = t.size := slot_length (by omega)
      congr 2
      match t, hg.1 with
      | .struct c' fs' l', ht =>
        have := agree_val (.struct c' fs' l') ht rfl _ _ hla hlb (h.slot hp rfl hs)
        rw [CType.val, CType.val] at this
        exact this
      | .int w s, ht => rw [fieldVal, fieldVal, slot_ext (t := .int w s) (fun i hi => h _ _ (.field hp rfl hs (.int hi)))]
      | .float, ht => rw [fieldVal, fieldVal, slot_ext (t := .float) (fun i hi => h _ _ (.field hp rfl hs (.float hi)))]
      | .char, ht =>
        rw [fieldVal, fieldVal, slot_ext (fun i hi => by
          have : i = 0 := by simp only [CType.size] at hi; omega
          subst this; exact h _ _ (.field hp rfl hs .char))]
      | .array .char k, ht =>
        rw [fieldVal, fieldVal, cstr_eq, cstr_eq]
        congr 2
        apply beforeNul_ext
        intro i hi
        rw [slot_get, slot_get]
        split
        · rename_i hik
          simp only [CType.size, Nat.mul_one] at hik
          refine h _ _ (.text hp (by simpa [isShown, isStructure] using hs) hik ?_)
          intro j hj
          have := hi j hj
          rwa [slot_get, if_pos (by simp [CType.size]; omega)] at this
        · rfl
      | .array (.int w s) k, ht =>
        have hf : ¬ mentionsFuture n := by simpa [isShown, isStructure] using hs
        rw [fieldVal, fieldVal, h.count G ha]
        · rw [chunks_map _ _ _ _ _ (shownCount_le ..), chunks_map _ _ _ _ _ (shownCount_le ..)]
          congr 1
          apply List.map_congr_left
          intro j hj
          have hj' := List.mem_range.mp hj
          rw [← h.count G ha] at hj'
          have hk := shownCount_le all a lims n k
          exact agree_val (.int w s) (array_elem_good ht).1 rfl _ _
            (slot_length (by have := entry_inside (show j < k by omega) hin; omega))
            (slot_length (by have := entry_inside (show j < k by omega) hin; omega))
            (h.elem hp (by simp) hf ((shown_iff G ha n k j).mpr hj'))
        all_goals simp
      | .array .float k, ht =>
        have hf : ¬ mentionsFuture n := by simpa [isShown, isStructure] using hs
        rw [fieldVal, fieldVal, h.count G ha]
        · rw [chunks_map _ _ _ _ _ (shownCount_le ..), chunks_map _ _ _ _ _ (shownCount_le ..)]
          congr 1
          apply List.map_congr_left
          intro j hj
          have hj' := List.mem_range.mp hj
          rw [← h.count G ha] at hj'
          have hk := shownCount_le all a lims n k
          exact agree_val .float (array_elem_good ht).1 rfl _ _
            (slot_length (by have := entry_inside (show j < k by omega) hin; omega))
            (slot_length (by have := entry_inside (show j < k by omega) hin; omega))
            (h.elem hp (by simp) hf ((shown_iff G ha n k j).mpr hj'))
        all_goals simp
      | .array (.array _ _) k, ht => simp [CType.good, CType.isArray] at ht
      | .array (.struct c' fs' l') k, ht =>
        have hf : ¬ mentionsFuture n := by simpa [isShown, isStructure] using hs
        rw [fieldVal, fieldVal, h.count G ha]
        · rw [chunks_map _ _ _ _ _ (shownCount_le ..), chunks_map _ _ _ _ _ (shownCount_le ..)]
          congr 1
          apply List.map_congr_left
          intro j hj
          have hj' := List.mem_range.mp hj
          rw [← h.count G ha] at hj'
          have hk := shownCount_le all a lims n k
          have he : (CType.struct c' fs' l').good = true := by
            simp only [CType.good, Bool.and_eq_true] at ht; simpa [CType.good] using ht.2
          exact agree_val (.struct c' fs' l') he rfl _ _
            (slot_length (by have := entry_inside (show j < k by omega) hin; omega))
            (slot_length (by have := entry_inside (show j < k by omega) hin; omega))
            (h.elem hp (by simp) hf ((shown_iff G ha n k j).mpr hj'))
        all_goals simp
    · rw [if_neg hs, if_neg hs]
end

/-- **C21** The result of `struct_to_dict` depends only on the visible bytes: two memories that agree on the bytes
visible in one of them are converted to the same dictionary. -/
theorem C21_visible {t : CType} (ht : t ∈ classes) {a b : Bytes} (ha : a.length = t.size) (hb : b.length = t.size)
    (h : ∀ i l, Visible t a i l → a[i]? = b[i]?) : structToDict ⟨t, a⟩ = structToDict ⟨t, b⟩ := by
  have hg := class_good ht
  obtain ⟨c, fs, lims, rfl, -⟩ := class_struct ht
  rw [(good_inv hg).toDict, (good_inv hg).toDict]
  have := agree_val (.struct c fs lims) hg rfl a b ha hb h
  rw [CType.val, CType.val] at this
  rw [this]

theorem layout_disjoint : ∀ (fs : Fields) (off : Nat), fs.good = true → ∀ p ∈ fs.layout off, ∀ q ∈ fs.layout off, p ≠ q →
    p.2.1 + p.2.2.size ≤ q.2.1 ∨ q.2.1 + q.2.2.size ≤ p.2.1
  | .nil, off, _, p, hp, _, _, _ => by simp [Fields.layout] at hp
  | .cons n t r, off, h, p, hp, q, hq, hne => by
    simp only [Fields.good, Bool.and_eq_true] at h
    simp only [Fields.layout, List.mem_cons] at hp hq
    have hle := layout_end r (roundUp off t.align + t.size) h.2
    rcases hp with rfl | hp <;> rcases hq with rfl | hq
    · exact absurd rfl hne
    · exact .inl (hle.2 q hq).1
    · exact .inr (hle.2 p hp).1
    · exact layout_disjoint r _ h.2 p hp q hq hne

theorem place_unique {t c fs lims} (G : Good t c fs lims) {n n' : PyStr} {o o' : Nat} {ft ft' : CType}
    (hp : place t n = some (o, ft)) (hp' : place t n' = some (o', ft')) {i : Nat} (h1 : o ≤ i) (h2 : i < o + ft.size)
    (h3 : o' ≤ i) (h4 : i < o' + ft'.size) : n = n' ∧ o = o' ∧ ft = ft' := by
  have hm := (G.field hp).1
  have hm' := (G.field hp').1
  by_cases he : (n, o, ft) = (n', o', ft')
  · injection he with h5 h6; injection h6 with h6 h7; exact ⟨h5, h6, h7⟩
  · rcases layout_disjoint fs 0 G.fields _ hm _ hm' he with h | h <;> dsimp only at h <;> omega

theorem place_isStruct {t : CType} {n : PyStr} {x} (h : place t n = some x) : ∃ c fs lims, t = .struct c fs lims := by
  cases t with
  | struct c fs lims => exact ⟨c, fs, lims, rfl⟩
  | _ => simp [place] at h

theorem visible_size : ∀ {t : CType} {mem : Bytes} {i : Nat} {l : Leaf}, Visible t mem i l → t.good = true → mem.length = t.size →
    i < t.size := by
  intro t mem i l h
  induction h with
  | int h => intro _ _; exact h
  | float h => intro _ _; exact h
  | char => intro _ _; simp [CType.size]
  | @field t mem n o ft i l hp hna hs hv ih =>
    intro hg hl
    obtain ⟨c, fs, lims, rfl⟩ := place_isStruct hp
    obtain ⟨-, hfg, hin, -⟩ := (good_inv hg).field hp
    have := ih hfg (slot_length (by omega))
    omega
  | @text t mem n o k i hp _ hi _ =>
    intro hg hl
    obtain ⟨c, fs, lims, rfl⟩ := place_isStruct hp
    obtain ⟨-, hfg, hin, -⟩ := (good_inv hg).field hp
    simp only [CType.size, Nat.mul_one] at hin ⊢
    omega
  | @elem t mem n o e k j i l hp he hf hj hv ih =>
    intro hg hl
    obtain ⟨c, fs, lims, rfl⟩ := place_isStruct hp
    have G := good_inv hg
    obtain ⟨-, hfg, hin, -⟩ := G.field hp
    have hjk : j < k := Nat.lt_of_lt_of_le ((shown_iff G hl n k j).mp hj) (shownCount_le ..)
    have hin' := entry_inside hjk hin
    have := ih (array_elem_good hfg).1 (slot_length (by omega))
    omega

theorem mul_pos_eq {j j' i i' w : Nat} (h : j * w + i = j' * w + i') (hi : i < w) (hi' : i' < w) : j = j' ∧ i = i' := by
  have h1 : (j * w + i) / w = j := by
    rw [Nat.mul_comm, Nat.mul_add_div (by omega), Nat.div_eq_of_lt hi]; rfl
  have h2 : (j' * w + i') / w = j' := by
    rw [Nat.mul_comm, Nat.mul_add_div (by omega), Nat.div_eq_of_lt hi']; rfl
  have : j = j' := by rw [← h1, ← h2, h]
  subst this
  exact ⟨rfl, by omega⟩

/-- A visible byte of a structure lies in a shown field, and is visible there. -/
theorem visible_inv {t c fs lims} (G : Good t c fs lims) {mem : Bytes} (hl : mem.length = t.size) {p : Nat} {l : Leaf}
    (h : Visible t mem p l) : ∃ n o ft i, place t n = some (o, ft) ∧ isShown n ft = true ∧ p = o + i ∧ i < ft.size ∧
      ((isArray ft = false ∧ Visible ft (slot mem o ft) i l) ∨
       (∃ k, ft = .array .char k ∧ ∀ j, j < i → mem[o + j]? ≠ some 0) ∨
       (∃ e k j i', ft = .array e k ∧ e ≠ .char ∧ i = j * e.size + i' ∧ i' < e.size ∧ entryShown t mem n k j ∧
          Visible e (slot mem (o + j * e.size) e) i' l)) := by
  have ht := G.eq
  cases h with
  | int h => cases ht
  | float h => cases ht
  | char => cases ht
  | @field _ _ n o ft i _ hp hna hs hv =>
    obtain ⟨-, hfg, hin, -⟩ := G.field hp
    exact ⟨n, o, ft, i, hp, hs, rfl, visible_size hv hfg (slot_length (by omega)), .inl ⟨hna, hv⟩⟩
  | @text _ _ n o k i hp hf hi hnz =>
    exact ⟨n, o, .array .char k, i, hp, by simp [isShown, hf], rfl, by simpa [CType.size] using hi, .inr (.inl ⟨k, rfl, hnz⟩)⟩
  | @elem _ _ n o e k j i _ hp he hf hj hv =>
    obtain ⟨-, hfg, hin, -⟩ := G.field hp
    have hjk : j < k := Nat.lt_of_lt_of_le ((shown_iff G hl n k j).mp hj) (shownCount_le ..)
    have hi := visible_size hv (array_elem_good hfg).1 (slot_length (by have := entry_inside hjk hin; omega))
    refine ⟨n, o, .array e k, j * e.size + i, hp, by simp [isShown, hf], by omega, ?_,
      .inr (.inr ⟨e, k, j, i, rfl, he, rfl, hi, hj, hv⟩)⟩
    have := entry_inside (e := e) (o := 0) (L := (CType.array e k).size) hjk (by omega)
    omega

theorem hidden_not_visible : ∀ {t : CType} {mem : Bytes} {i : Nat}, Hidden t mem i → t.good = true → mem.length = t.size →
    ∀ l, ¬ Visible t mem i l := by
  intro t mem i h
  induction h with
  | @padding t mem i hs hno =>
    intro hg hl l hv
    cases t with
    | struct c fs lims =>
      obtain ⟨n, o, ft, i', hp, -, rfl, hi, -⟩ := visible_inv (good_inv hg) hl hv
      exact hno n o ft hp ⟨by omega, by omega⟩
    | _ => simp [isStructure] at hs
  | @future t mem n o ft i hp hs h1 h2 =>
    intro hg hl l hv
    obtain ⟨c, fs, lims, rfl⟩ := place_isStruct hp
    obtain ⟨n', o', ft', i', hp', hs', rfl, hi, -⟩ := visible_inv (good_inv hg) hl hv
    obtain ⟨rfl, rfl, rfl⟩ := place_unique (good_inv hg) hp hp' h1 h2 (by omega) (by omega)
    rw [hs] at hs'; cases hs'
  | @afterNul t mem n o k i j hp hji hik hz =>
    intro hg hl l hv
    obtain ⟨c, fs, lims, rfl⟩ := place_isStruct hp
    obtain ⟨n', o', ft', i', hp', hs', he, hi, hcase⟩ := visible_inv (good_inv hg) hl hv
    obtain ⟨rfl, rfl, rfl⟩ := place_unique (good_inv hg) hp hp' (i := o + i) (by omega) (by simp [CType.size]; omega) (by omega) (by omega)
    have : i = i' := by omega
    subst this
    rcases hcase with ⟨h, -⟩ | ⟨k', -, hnz⟩ | ⟨e, k', j', i'', heq, hne, -⟩
    · simp [isArray] at h
    · exact hnz j hji hz
    · cases heq; exact hne rfl
  | @beyond t mem n o e k lim c j i hp hne hL hc hj hjk hi =>
    intro hg hl l hv
    obtain ⟨cl, fs, lims, rfl⟩ := place_isStruct hp
    have G := good_inv hg
    obtain ⟨n', o', ft', i', hp', hs', he, hi', hcase⟩ := visible_inv G hl hv
    obtain ⟨-, hfg, hin, -⟩ := G.field hp
    have hin' := entry_inside (e := e) (o := 0) (L := (CType.array e k).size) hjk (by omega)
    obtain ⟨rfl, rfl, rfl⟩ := place_unique G hp hp' (i := o + j * e.size + i) (by omega) (by omega) (by omega) (by omega)
    rcases hcase with ⟨h, -⟩ | ⟨k', heq, hnz⟩ | ⟨e', k', j', i'', heq, -, hii, hi'', hsh, -⟩
    · simp [isArray] at h
    · cases heq; exact hne rfl
    · cases heq
      obtain ⟨rfl, rfl⟩ := mul_pos_eq (show j * e.size + i = j' * e.size + i'' by omega) hi hi''
      unfold entryShown at hsh
      rw [hL] at hsh
      obtain ⟨c', hc', hlt⟩ := hsh
      rw [G.count_unique hl hc' hc] at hlt
      omega
  | @field t mem n o ft i hp hna hi hh ih =>
    intro hg hl l hv
    obtain ⟨c, fs, lims, rfl⟩ := place_isStruct hp
    have G := good_inv hg
    obtain ⟨-, hfg, hin, -⟩ := G.field hp
    obtain ⟨n', o', ft', i', hp', hs', he, hi', hcase⟩ := visible_inv G hl hv
    obtain ⟨rfl, rfl, rfl⟩ := place_unique G hp hp' (i := o + i) (by omega) (by omega) (by omega) (by omega)
    have : i = i' := by omega
    subst this
    rcases hcase with ⟨-, h⟩ | ⟨k', rfl, -⟩ | ⟨e', k', j', i'', rfl, -⟩
    · exact ih hfg (slot_length (by omega)) l h
    · simp [isArray] at hna
    · simp [isArray] at hna
  | @elem t mem n o e k j i hp hne hjk hi hh ih =>
    intro hg hl l hv
    obtain ⟨c, fs, lims, rfl⟩ := place_isStruct hp
    have G := good_inv hg
    obtain ⟨-, hfg, hin, -⟩ := G.field hp
    have hin' := entry_inside (e := e) (o := 0) (L := (CType.array e k).size) hjk (by omega)
    obtain ⟨n', o', ft', i', hp', hs', he, hi', hcase⟩ := visible_inv G hl hv
    obtain ⟨rfl, rfl, rfl⟩ := place_unique G hp hp' (i := o + j * e.size + i) (by omega) (by omega) (by omega) (by omega)
    rcases hcase with ⟨h, -⟩ | ⟨k', heq, hnz⟩ | ⟨e', k', j', i'', heq, -, hii, hi'', hsh, hv'⟩
    · simp [isArray] at h
    · cases heq; exact hne rfl
    · cases heq
      obtain ⟨rfl, rfl⟩ := mul_pos_eq (show j * e.size + i = j' * e.size + i'' by omega) hi hi''
      exact ih (array_elem_good hfg).1 (slot_length (by have := entry_inside hjk hin; omega)) l hv'

/-- **C21** Changing a hidden byte (padding, a "future" placeholder, a list entry beyond the count, text behind the
terminating NUL; at any nesting depth) does not change the result of `struct_to_dict`. -/
theorem C21_hidden {t : CType} (ht : t ∈ classes) {mem : Bytes} (hl : mem.length = t.size) {i : Nat} (h : Hidden t mem i)
    (x : UInt8) : structToDict ⟨t, mem.set i x⟩ = structToDict ⟨t, mem⟩ := by
  symm
  refine C21_visible ht hl (by rw [List.length_set]; exact hl) ?_
  intro j l hv
  by_cases hij : i = j
  · subst hij; exact absurd hv (hidden_not_visible h (class_good ht) hl l)
  · rw [List.getElem?_set_ne hij]

/-! ## C41 -/

theorem lookup_eq {t c fs lims} (G : Good t c fs lims) {a b : Bytes} (h : t.val a = t.val b) {n : PyStr} {o : Nat} {ft : CType}
    (hp : place t n = some (o, ft)) (hs : isShown n ft = true) :
    fieldVal fs lims a n ft (slot a o ft) = fieldVal fs lims b n ft (slot b o ft) := by
  have h1 := vals_lookup G.nodup lims a (G.field hp).2.2.2 hs
  have h2 := vals_lookup G.nodup lims b (G.field hp).2.2.2 hs
  rw [G.eq, CType.val, CType.val] at h
  injection h with h
  rw [h, h2] at h1
  injection h1 with h1
  exact h1.symm

theorem determined : ∀ {t : CType} {a : Bytes} {i : Nat} {l : Leaf}, Visible t a i l → l = .num → t.good = true →
    ∀ b : Bytes, a.length = t.size → b.length = t.size → t.val a = t.val b → a[i]? = b[i]? := by
  intro t a i l h
  induction h with
  | int hi =>
    intro _ _ b ha hb hv
    rw [CType.val, CType.val] at hv
    injection hv with hv
    rw [leInt_inj (by rw [ha, hb]) hv]
  | float hi =>
    intro _ _ b ha hb hv
    rw [CType.val, CType.val] at hv
    injection hv with hv
    rw [leNat_inj (by rw [ha, hb]) hv]
  | char => intro h; cases h
  | text => intro h; cases h
  | @field t a n o ft i l hp hna hs hvis ih =>
    intro hnum hg b ha hb hv
    obtain ⟨c, fs, lims, rfl⟩ := place_isStruct hp
    have G := good_inv hg
    obtain ⟨-, hfg, hin, -⟩ := G.field hp
    have hla : (slot a o ft).length = ft.size := slot_length (by omega)
    have hlb : (slot b o ft).length = ft.size := slot_length (by omega)
    have hi := visible_size hvis hfg hla
    have hf := lookup_eq G hv hp hs
    have hval : ft.val (slot a o ft) = ft.val (slot b o ft) := by
      cases ft with
      | array => simp [isArray] at hna
      | int w s => exact hf
      | float => exact hf
      | struct c' fs' l' => rw [CType.val, CType.val]; exact hf
      | char => cases hvis with
        | char => cases hnum
        | field hp' _ _ _ => simp [place] at hp'
        | text hp' _ _ _ => simp [place] at hp'
        | elem hp' _ _ _ _ => simp [place] at hp'
    have := ih hnum hfg _ hla hlb hval
    rwa [slot_get, slot_get, if_pos hi, if_pos hi] at this
  | @elem t a n o e k j i l hp he hf hj hvis ih =>
    intro hnum hg b ha hb hv
    obtain ⟨c, fs, lims, rfl⟩ := place_isStruct hp
    have G := good_inv hg
    obtain ⟨-, hfg, hin, -⟩ := G.field hp
    have hjs := (shown_iff G ha n k j).mp hj
    have hjk : j < k := Nat.lt_of_lt_of_le hjs (shownCount_le ..)
    have hin' := entry_inside hjk hin
    have hla : (slot a (o + j * e.size) e).length = e.size := slot_length (by omega)
    have hlb : (slot b (o + j * e.size) e).length = e.size := slot_length (by omega)
    have hi := visible_size hvis (array_elem_good hfg).1 hla
    have hfv := lookup_eq G hv hp (by simp [isShown, hf])
    have hlist : (List.range (shownCount fs a lims n k)).map (fun j => e.val (slot a (o + j * e.size) e)) =
        (List.range (shownCount fs b lims n k)).map (fun j => e.val (slot b (o + j * e.size) e)) := by
      rw [← chunks_map _ _ _ _ _ (shownCount_le ..), ← chunks_map _ _ _ _ _ (shownCount_le ..)]
      cases e with
      | char => exact absurd rfl he
      | _ => injection hfv
    have hjth := congrArg (fun l => l[j]?) hlist
    simp only [List.getElem?_map, List.getElem?_range hjs, Option.map_some] at hjth
    have hval : e.val (slot a (o + j * e.size) e) = e.val (slot b (o + j * e.size) e) := by
      symm at hjth
      rw [Option.map_eq_some_iff] at hjth
      obtain ⟨j', hj', he'⟩ := hjth
      obtain ⟨_, hr⟩ := List.getElem?_eq_some_iff.mp hj'
      simp at hr
      subst hr
      exact he'.symm
    have := ih hnum (array_elem_good hfg).1 _ hla hlb hval
    rwa [slot_get, slot_get, if_pos hi, if_pos hi] at this

/-- **C41** Equal results determine the data: when two structures of the same class convert to the same dictionary, they
agree on every byte of every number that is shown (integers and floats, at any nesting depth, in shown list entries). -/
theorem C41_determined {t : CType} (ht : t ∈ classes) {a b : Bytes} (ha : a.length = t.size) (hb : b.length = t.size)
    (h : structToDict ⟨t, a⟩ = structToDict ⟨t, b⟩) {i : Nat} (hv : Visible t a i .num) : a[i]? = b[i]? := by
  have hg := class_good ht
  obtain ⟨c, fs, lims, rfl, -⟩ := class_struct ht
  rw [(good_inv hg).toDict, (good_inv hg).toDict] at h
  injection h with h
  refine determined hv rfl hg b ha hb ?_
  rw [CType.val, CType.val]; exact h

/-! Non-vacuity: a record whose `sfuture` bytes 10-15 are hidden and whose interval is visible; an interface table
without interfaces, where the first entry is hidden, behind the count. -/
example : Hidden V1_26.Record (List.replicate 80 7) 12 :=
  .future (n := py!"sfuture") (o := 10) (ft := .array c_ushort 3) (by decide +kernel) (by decide +kernel) (by decide)
    (by decide +kernel)
example : Visible V1_26.Record (List.replicate 80 7) (24 + 1) .num :=
  .field (n := py!"interval") (ft := c_uint) (by decide +kernel) rfl (by decide +kernel) (.int (by decide))
example (x : UInt8) : structToDict ⟨V1_26.Record, (List.replicate 80 7).set 12 x⟩ = structToDict ⟨V1_26.Record, List.replicate 80 7⟩ :=
  C21_hidden (by decide +kernel) (by decide +kernel)
    (.future (n := py!"sfuture") (o := 10) (ft := .array c_ushort 3) (by decide +kernel) (by decide +kernel) (by decide)
      (by decide +kernel)) x
example : Hidden V1_26.IntfStat (List.replicate V1_26.IntfStat.size 0) (8 + 0 * V1_26.PerIntf.size + 3) := by
  refine .beyond (n := py!"intf") (e := V1_26.PerIntf) (k := 32) (lim := py!"nrintf") (c := 0) (j := 0)
    (by decide +kernel) (by decide +kernel) (by decide +kernel) ?_ (by decide) (by decide) (by decide +kernel)
  refine ⟨0, 4, true, by decide +kernel, by simp [inRange], ?_⟩
  have : 4 ≤ V1_26.IntfStat.size := by decide +kernel
  simp only [slot, CType.size, List.drop_replicate, List.take_replicate]
  rw [Nat.sub_zero, Nat.min_eq_left this]
  decide

end Atop
