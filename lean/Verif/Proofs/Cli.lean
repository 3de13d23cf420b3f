import Verif.Model.Cli
import Verif.Spec.Cli
/-!
# The argument parser accepts exactly the lines of the grammar
-/

namespace Atop
open Spec

/-! ## Short options -/

/-- The short options by their letter. -/
def shortOpt (c : Nat) : Option Opt :=
  if c = 104 then some .help else if c = 80 then some .parseables else if c = 112 then some .prettyPrint else none

theorem lookup_short (c : Nat) (cs : PyStr) (hc : c ≠ 45) :
    optionStrings.lookup (45 :: c :: cs) = if cs = [] then shortOpt c else none := by
  unfold optionStrings shortOpt
  simp only [List.lookup]
  cases cs with
  | nil =>
    by_cases h1 : c = 104
    · subst h1; rfl
    by_cases h2 : c = 80
    · subst h2; rfl
    by_cases h3 : c = 112
    · subst h3; rfl
    have e1 := beq_eq_false_iff_ne.mpr h1
    have e2 := beq_eq_false_iff_ne.mpr h2
    have e3 := beq_eq_false_iff_ne.mpr h3
    simp [h1, h2, h3, e1, e2, e3]
  | cons d ds =>
    have e := beq_eq_false_iff_ne.mpr hc
    simp [e]

theorem lookup_minus : optionStrings.lookup [45] = none := by decide

theorem shortOpt_minus : shortOpt 45 = none := rfl
theorem shortOpt_eq : shortOpt 61 = none := rfl

theorem lookup_letter (c : Nat) : optionStrings.lookup [45, c] = shortOpt c := by
  by_cases hc : c = 45
  · subst hc; decide
  · rw [lookup_short c [] hc, if_pos rfl]

/-- What a short option does with the rest of its word. -/
def consumeStep (F : List PyStr) (a : Opt) (c : Nat) : PyStr → Except Exit Consumed
  | [] => consumeFollowing F a
  | 61 :: e => consumeExplicit F a [45, c] py!"=" e
  | d :: ds => consumeExplicit F a [45, c] [] (d :: ds)

theorem consumeStep_other (F a c x xs) (h : x ≠ 61) :
    consumeStep F a c (x :: xs) = consumeExplicit F a [45, c] [] (x :: xs) := by
  unfold consumeStep
  split
  · simp_all
  · simp_all
  · rename_i h3; simp only [List.cons.injEq] at h3; obtain ⟨rfl, rfl⟩ := h3; rfl

theorem bind_actions (a : Opt) (q : Except Exit Consumed) : (do
    let r ← q
    pure { actions := (a, []) :: r.actions, extras := r.extras, taken := r.taken }) =
    (match q with
      | .error e => .error e
      | .ok r => .ok { actions := (a, []) :: r.actions, extras := r.extras, taken := r.taken } : Except Exit Consumed) := by
  cases q <;> rfl

/-- Short options in closed form. -/
def shortRun (F : List PyStr) : Opt → PyStr → Except Exit Consumed
  | .parseables, [] => consumeFollowing F .parseables
  | .parseables, 61 :: e => .ok { actions := [(.parseables, [e])] }
  | .parseables, d :: ds => .ok { actions := [(.parseables, [d :: ds])] }
  | a, [] => .ok { actions := [(a, [])] }
  | a, d :: ds =>
    if d = 61 ∨ d = 45 then .error .usage
    else
      match shortOpt d with
      | none => .ok { actions := [(a, [])], extras := [45 :: d :: ds] }
      | some a' =>
        match shortRun F a' ds with
        | .error e => .error e
        | .ok r => .ok { r with actions := (a, []) :: r.actions }

theorem consumeExplicit_parseables (F os sep e) :
    consumeExplicit F .parseables os sep e = .ok { actions := [(.parseables, [e])] } := by
  rw [consumeExplicit.eq_def]; simp [matchArgument]

theorem consumeExplicit_long (F a os sep e) (h : os[1]? = some 45) (ha : a ≠ .parseables) :
    consumeExplicit F a os sep e = .error .usage := by
  rw [consumeExplicit.eq_def]; cases a <;> simp_all [matchArgument]

theorem consumeStep_eq (F : List PyStr) (cs : PyStr) : ∀ (a : Opt) (c : Nat), shortOpt c = some a →
    consumeStep F a c cs = shortRun F a cs := by
  induction h : cs.length using Nat.strongRecOn generalizing cs with
  | ind n ih =>
    subst h
    intro a c hac
    have hc45 : c ≠ 45 := by rintro rfl; cases hac
    by_cases ha : a = .parseables
    · subst ha
      unfold consumeStep
      split
      · rfl
      · rw [consumeExplicit_parseables]; rfl
      · rename_i d ds hd
        rw [consumeExplicit_parseables]
        rw [shortRun]; exact hd
    have hcnt : matchArgument a 1 = some 0 := by cases a <;> first | rfl | exact absurd rfl ha
    have hF : consumeFollowing F a = .ok { actions := [(a, [])] } := by
      unfold consumeFollowing
      cases a <;> first | rfl | exact absurd rfl ha
    cases cs with
    | nil =>
      unfold consumeStep
      rw [hF]
      cases a <;> first | rfl | exact absurd rfl ha
    | cons d ds =>
      have hrun : shortRun F a (d :: ds) = if d = 61 ∨ d = 45 then .error .usage
          else match shortOpt d with
            | none => .ok { actions := [(a, [])], extras := [45 :: d :: ds] }
            | some a' =>
              match shortRun F a' ds with
              | .error e => .error e
              | .ok r => .ok { r with actions := (a, []) :: r.actions } := by
        cases a <;> first | exact absurd rfl ha | rfl
      rw [hrun]
      unfold consumeStep
      split
      · rename_i e; simp_all
      · rename_i e heq
        rw [List.cons.injEq] at heq
        obtain ⟨rfl, rfl⟩ := heq
        rw [if_pos (.inl rfl), consumeExplicit.eq_def]
        simp only [hcnt, true_and]
        cases ds with
        | nil => simp
        | cons x xs => simp [hc45]
      · rename_i d' ds' hne heq
        rw [List.cons.injEq] at heq
        obtain ⟨rfl, rfl⟩ := heq
        have hd61 : d ≠ 61 := hne
        rw [consumeExplicit.eq_def]
        simp only [hcnt, true_and]
        rw [if_pos (by simp [hc45])]
        by_cases hd : d = 45
        · simp [hd]
        · rw [if_neg (by simp [hd]), if_neg (by simp [hd, hd61]), lookup_letter]
          cases hs : shortOpt d with
          | none => rfl
          | some a' =>
            have := ih ds.length (by simp) ds rfl a' d hs
            dsimp only
            rw [← this]
            clear this hrun ih
            rcases ds with _ | ⟨x, xs⟩
            · exact bind_actions a _
            · by_cases hx : x = 61
              · subst hx
                exact bind_actions a _
              · rw [consumeStep_other _ _ _ _ _ hx]
                split
                · simp_all
                · simp_all
                · rename_i h1 h2 h3
                  simp only [List.cons.injEq] at h3
                  obtain ⟨rfl, rfl⟩ := h3
                  exact bind_actions a _

/-! ## `_parse_optional` -/

/-- A word that matches no option. -/
def fallThrough (U : Nat → Bool) (w : PyStr) : Option OptTuple :=
  if negativeNumber U w then none else if 32 ∈ w then none else some { action := none, optionString := w }

theorem fall_ite (U : Nat → Bool) (w : PyStr) :
    (if negativeNumber U w then .ok none else if 32 ∈ w then .ok none
      else .ok (some { action := none, optionString := w }) : Except Exit (Option OptTuple)) = .ok (fallThrough U w) := by
  unfold fallThrough
  split
  · rfl
  · split <;> rfl

theorem partitionEq_cons (c : Nat) (cs : PyStr) (h : c ≠ 61) :
    partitionEq (c :: cs) = (c :: (partitionEq cs).1, (partitionEq cs).2) := by
  rw [partitionEq, if_neg h]

theorem partitionEq_spec : ∀ (w : PyStr), 61 ∉ (partitionEq w).1 ∧
    (((partitionEq w).2 = none ∧ (partitionEq w).1 = w) ∨
      ∃ e, (partitionEq w).2 = some e ∧ w = (partitionEq w).1 ++ 61 :: e)
  | [] => by simp [partitionEq]
  | c :: cs => by
    by_cases h : c = 61
    · subst h; simp [partitionEq]
    · obtain ⟨h1, h2⟩ := partitionEq_spec cs
      rw [partitionEq_cons c cs h]
      refine ⟨by simp [h1]; omega, ?_⟩
      rcases h2 with ⟨a, b⟩ | ⟨e, a, b⟩
      · left; simp [a, b]
      · right; refine ⟨e, a, ?_⟩; dsimp only; rw [List.cons_append, ← b]

theorem partitionEq_append (a e : PyStr) (h : 61 ∉ a) : partitionEq (a ++ 61 :: e) = (a, some e) := by
  induction a with
  | nil => simp [partitionEq]
  | cons c cs ih =>
    simp only [List.mem_cons, not_or] at h
    rw [List.cons_append, partitionEq_cons _ _ (fun e => h.1 e.symm), ih h.2]

theorem partitionEq_none (a : PyStr) (h : 61 ∉ a) : partitionEq a = (a, none) := by
  induction a with
  | nil => rfl
  | cons c cs ih =>
    simp only [List.mem_cons, not_or] at h
    rw [partitionEq_cons _ _ (fun e => h.1 e.symm), ih h.2]

theorem tuples_short (c : Nat) (cs : PyStr) (hc : c ≠ 45) (hcs : cs ≠ []) : getOptionTuples (45 :: c :: cs) =
    match shortOpt c with
    | some a => [{ action := some a, optionString := [45, c], sep := some [], explicitArg := some cs }]
    | none => [] := by
  unfold getOptionTuples optionStrings shortOpt
  cases cs with
  | nil => exact absurd rfl hcs
  | cons d ds =>
    rw [if_neg (by simp [hc])]
    simp only [List.take_succ_cons, List.take_zero, List.drop_succ_cons, List.drop_zero]
    by_cases h1 : c = 104
    · subst h1; simp
    by_cases h2 : c = 80
    · subst h2; simp
    by_cases h3 : c = 112
    · subst h3; simp
    simp [h1, h2, h3, hc, Ne.symm h1, Ne.symm h2, Ne.symm h3]

theorem parse_short (U) (c : Nat) (cs : PyStr) (hc : c ≠ 45) :
    match shortOpt c with
    | some a => ∃ t, parseOptional U (45 :: c :: cs) = .ok (some t) ∧
        ∀ F, consumeOptional t (45 :: c :: cs) F = shortRun F a cs
    | none => parseOptional U (45 :: c :: cs) = .ok (fallThrough U (45 :: c :: cs)) := by
  unfold parseOptional
  rw [if_neg (by simp), lookup_short c cs hc]
  cases cs with
  | nil =>
    rw [if_pos rfl]
    cases hs : shortOpt c with
    | some a =>
      refine ⟨_, rfl, fun F => ?_⟩
      rw [← consumeStep_eq F [] a c hs]; rfl
    | none =>
      dsimp only
      rw [if_neg (by simp)]
      have e : getOptionTuples [45, c] = [] := by
        unfold getOptionTuples optionStrings
        rw [if_neg (by simp [hc])]
        have h1 : c ≠ 104 := by rintro rfl; cases hs
        have h2 : c ≠ 80 := by rintro rfl; cases hs
        have h3 : c ≠ 112 := by rintro rfl; cases hs
        simp [h1, h2, h3, hc, Ne.symm h1, Ne.symm h2, Ne.symm h3]
      have hp : (partitionEq [45, c]).2 = none ∨ optionStrings.lookup (partitionEq [45, c]).1 = none := by
        by_cases h : c = 61
        · right; subst h; rfl
        · left; simp [partitionEq, h]
      rw [e]
      split
      · rename_i h1 h2
        rcases hp with h | h
        · rw [h] at h1; cases h1
        · rw [h] at h2; cases h2
      · unfold fallThrough; dsimp only; split
        · rfl
        · split <;> rfl
  | cons d ds =>
    rw [if_neg (by simp)]
    dsimp only
    rw [if_neg (by simp), tuples_short c (d :: ds) hc (by simp)]
    by_cases hd : d = 61
    · subst hd
      by_cases hc61 : c = 61
      · subst hc61
        have hp : partitionEq (45 :: 61 :: 61 :: ds) = ([45], some (61 :: ds)) := by simp [partitionEq]
        rw [hp, lookup_minus]
        dsimp only [shortOpt_eq]
        unfold fallThrough; split
        · rfl
        · split <;> rfl
      · have hp : partitionEq (45 :: c :: 61 :: ds) = ([45, c], some ds) := by simp [partitionEq, hc61]
        rw [hp]
        dsimp only
        rw [lookup_letter]
        cases hs : shortOpt c with
        | some a =>
          refine ⟨_, rfl, fun F => ?_⟩
          rw [← consumeStep_eq F (61 :: ds) a c hs]; rfl
        | none =>
          dsimp only
          unfold fallThrough; split
          · rfl
          · split <;> rfl
    · have hp : optionStrings.lookup (partitionEq (45 :: c :: d :: ds)).1 = none := by
        by_cases hc61 : c = 61
        · subst hc61; simp [partitionEq, lookup_minus]
        · rw [partitionEq_cons _ _ (by decide), partitionEq_cons _ _ hc61, partitionEq_cons _ _ hd]
          dsimp only
          rw [lookup_short _ _ hc, if_neg (by simp)]
      rw [hp]
      generalize (partitionEq (45 :: c :: d :: ds)).1 = p1, (partitionEq (45 :: c :: d :: ds)).2 = p2
      cases hs : shortOpt c with
      | some a =>
        refine ⟨{ action := some a, optionString := [45, c], sep := some [], explicitArg := some (d :: ds) },
          by cases p2 <;> rfl, fun F => ?_⟩
        rw [← consumeStep_eq F (d :: ds) a c hs, consumeStep_other _ _ _ _ _ hd]; rfl
      | none =>
        unfold fallThrough
        cases p2 <;> dsimp only <;> split <;> first | rfl | (split <;> rfl)

/-- The options a long word may stand for. -/
def longMatches (b : PyStr) : List (PyStr × Opt) := optionStrings.filter (fun o => b.isPrefixOf o.1)

theorem option_lookup_mem {w : PyStr} {a : Opt} (h : optionStrings.lookup w = some a) : (w, a) ∈ optionStrings := by
  revert h
  generalize optionStrings = l
  induction l with
  | nil => intro h; cases h
  | cons o l ih =>
    intro h
    rw [List.lookup] at h
    split at h
    · rename_i he
      obtain rfl := Option.some.inj h
      rw [beq_iff_eq] at he; subst he; simp
    · exact List.mem_cons_of_mem _ (ih h)

theorem options_table : ∀ o ∈ optionStrings, 61 ∉ o.1 ∧ (o.1[1]? = some 45 → longMatches o.1 = [o]) ∧
    (py!"--" <+: o.1 → o.1[1]? = some 45) := by decide +kernel

theorem longMatches_second {b : PyStr} {o : PyStr × Opt} (hb : py!"--" <+: b) (h : o ∈ longMatches b) :
    o.1[1]? = some 45 ∧ o ∈ optionStrings ∧ b <+: o.1 := by
  unfold longMatches at h
  rw [List.mem_filter] at h
  have hp := List.isPrefixOf_iff_prefix.mp h.2
  exact ⟨(options_table o h.1).2.2 (hb.trans hp), h.1, hp⟩

theorem partitionEq_dash (cs : PyStr) : py!"--" <+: (partitionEq (45 :: 45 :: cs)).1 := by
  rw [partitionEq_cons _ _ (by decide), partitionEq_cons _ _ (by decide)]
  exact ⟨(partitionEq cs).1, rfl⟩

theorem parse_long (U) (cs : PyStr) :
    match longMatches (partitionEq (45 :: 45 :: cs)).1 with
    | [] => parseOptional U (45 :: 45 :: cs) = .ok (fallThrough U (45 :: 45 :: cs))
    | [o] => ∃ t, parseOptional U (45 :: 45 :: cs) = .ok (some t) ∧ t.action = some o.2 ∧
        t.explicitArg = (partitionEq (45 :: 45 :: cs)).2 ∧ t.optionString[1]? = some 45
    | _ => parseOptional U (45 :: 45 :: cs) = .error .usage := by
  have hd := partitionEq_dash cs
  obtain ⟨hn, hsp⟩ := partitionEq_spec (45 :: 45 :: cs)
  unfold parseOptional
  rw [if_neg (by simp)]
  cases hl : optionStrings.lookup (45 :: 45 :: cs) with
  | some a =>
    have hm := option_lookup_mem hl
    obtain ⟨h61, hu, -⟩ := options_table _ hm
    rw [partitionEq_none _ h61, hu rfl]
    exact ⟨_, rfl, rfl, rfl, rfl⟩
  | none =>
    dsimp only
    rw [if_neg (by simp)]
    have ht : getOptionTuples (45 :: 45 :: cs) = (longMatches (partitionEq (45 :: 45 :: cs)).1).map fun o =>
        { action := some o.2, optionString := o.1, sep := (partitionEq (45 :: 45 :: cs)).2.map (fun _ => py!"="),
          explicitArg := (partitionEq (45 :: 45 :: cs)).2 } := by
      unfold getOptionTuples; rw [if_pos (by rfl)]; rfl
    rw [ht]
    cases hl2 : optionStrings.lookup (partitionEq (45 :: 45 :: cs)).1 with
    | some a =>
      have hm := option_lookup_mem hl2
      obtain ⟨h61, hu, h3⟩ := options_table _ hm
      dsimp only at hu h3
      rw [hu (h3 hd)]
      rcases hsp with ⟨h1, h2⟩ | ⟨e, h1, h2⟩
      · rw [h2, hl] at hl2; cases hl2
      · rw [h1]; exact ⟨_, rfl, rfl, rfl, h3 hd⟩
    | none =>
      have hsec : ∀ o ∈ longMatches (partitionEq (45 :: 45 :: cs)).1, o.1[1]? = some 45 := fun o ho =>
        (longMatches_second hd ho).1
      generalize (partitionEq (45 :: 45 :: cs)).1 = p1 at hsec
      generalize (partitionEq (45 :: 45 :: cs)).2 = p2
      match hms : longMatches p1 with
      | [] =>
        rw [List.map_nil]
        cases p2 <;> exact fall_ite U _
      | [o] =>
        refine ⟨{ action := some o.2, optionString := o.1, sep := p2.map (fun _ => py!"="), explicitArg := p2 },
          by cases p2 <;> rfl, rfl, rfl, hsec o (by rw [hms]; simp)⟩
      | o :: o' :: r => cases p2 <;> rfl

/-! ## Words -/

theorem body_iff (U : Nat → Bool) (t : PyStr) : (((!t.isEmpty && t.all U) ||
      (List.range t.length).any fun i =>
        (t.take i).all U && t[i]? == some 46 && !(t.drop (i + 1)).isEmpty && (t.drop (i + 1)).all U) = true) ↔
    ((t ≠ [] ∧ ∀ c ∈ t, U c = true) ∨
     ∃ a b, t = a ++ py!"." ++ b ∧ b ≠ [] ∧ (∀ c ∈ a, U c = true) ∧ ∀ c ∈ b, U c = true) := by
  simp only [Bool.or_eq_true, Bool.and_eq_true, List.any_eq_true, Bool.not_eq_true', List.isEmpty_eq_false_iff,
    List.all_eq_true, beq_iff_eq, List.mem_range]
  refine or_congr Iff.rfl ⟨?_, ?_⟩
  · rintro ⟨i, hi, ⟨⟨h1, h2⟩, h3⟩, h4⟩
    refine ⟨t.take i, t.drop (i + 1), ?_, h3, h1, h4⟩
    rw [List.getElem?_eq_getElem hi, Option.some.injEq] at h2
    rw [← h2, List.append_assoc]
    simp
  · rintro ⟨a, b, rfl, hb, h1, h2⟩
    refine ⟨a.length, by simp, ⟨⟨?_, ?_⟩, ?_⟩, ?_⟩
    · simpa using h1
    · simp
    · rw [List.drop_left' (by simp)]; exact hb
    · rw [List.drop_left' (by simp)]; exact h2

theorem negativeNumber_iff (U : Nat → Bool) (w : PyStr) : negativeNumber U w = true ↔ NegativeNumber U w := by
  unfold negativeNumber NegativeNumber
  split
  · rename_i t
    rw [Bool.or_eq_true, Bool.and_eq_true, body_iff, body_iff, beq_iff_eq]
    constructor
    · rintro (h | ⟨h1, h⟩)
      · exact ⟨t, [], by simp, .inl rfl, h⟩
      · refine ⟨t.dropLast, py!"\n", ?_, .inr rfl, h⟩
        have : t ≠ [] := by rintro rfl; simp at h1
        have hl := List.dropLast_concat_getLast this
        rw [List.getLast?_eq_some_getLast this, Option.some.injEq] at h1
        rw [h1] at hl
        show 45 :: t = 45 :: (t.dropLast ++ [10])
        rw [hl]
    · rintro ⟨body, tail, he, ht, h⟩
      have he' : t = body ++ tail := by
        have : 45 :: t = 45 :: (body ++ tail) := by simpa using he
        exact (List.cons.inj this).2
      rcases ht with rfl | rfl
      · rw [List.append_nil] at he'; subst he'; exact .inl h
      · right; subst he'; exact ⟨by simp, by simpa using h⟩
  · rename_i hne
    simp only [false_iff, not_exists, not_and, Bool.false_eq_true]
    intro body tail he
    exact absurd (show w = 45 :: (body ++ tail) by simpa using he) (hne _)

theorem fallThrough_none (U : Nat → Bool) (w : PyStr) : fallThrough U w = none ↔ NegativeNumber U w ∨ 32 ∈ w := by
  unfold fallThrough
  rw [← negativeNumber_iff]
  by_cases h1 : negativeNumber U w = true
  · simp [h1]
  · by_cases h2 : 32 ∈ w <;> simp [h1, h2]

theorem longOptions_table : (∀ o ∈ longOptions, ∃ p ∈ optionStrings, p.1 = o) ∧
    (∀ p ∈ optionStrings, p.1[1]? = some 45 → p.1 ∈ longOptions) ∧
    (∀ p ∈ optionStrings, ∀ q ∈ optionStrings, p.1 = q.1 → p = q) := by decide +kernel

theorem longMatches_ne {b : PyStr} (hb : py!"--" <+: b) : longMatches b ≠ [] ↔ ∃ o ∈ longOptions, b <+: o := by
  constructor
  · intro h
    obtain ⟨o, ho⟩ := List.exists_mem_of_ne_nil _ h
    obtain ⟨h1, h2, h3⟩ := longMatches_second hb ho
    exact ⟨o.1, longOptions_table.2.1 o h2 h1, h3⟩
  · rintro ⟨o, ho, hp⟩
    obtain ⟨p, hp', rfl⟩ := longOptions_table.1 o ho
    have : p ∈ longMatches b := List.mem_filter.mpr ⟨hp', List.isPrefixOf_iff_prefix.mpr hp⟩
    exact List.ne_nil_of_mem this

theorem looks_long (cs : PyStr) :
    LooksLikeOption (45 :: 45 :: cs) ↔ longMatches (partitionEq (45 :: 45 :: cs)).1 ≠ [] := by
  have hd := partitionEq_dash cs
  rw [longMatches_ne hd]
  constructor
  · rintro (⟨c, hc, h⟩ | ⟨a, b, he, ha, h61, hb, o, ho, hp⟩)
    · obtain ⟨t, ht⟩ := h
      simp at ht
      rw [ht.1] at hc
      exact absurd hc (by decide)
    · have : (partitionEq (45 :: 45 :: cs)).1 = a := by
        rw [he]
        rcases hb with rfl | hb
        · rw [List.append_nil, partitionEq_none _ h61]
        · obtain ⟨e, rfl⟩ : ∃ e, b = 61 :: e := by
            cases b with
            | nil => cases hb
            | cons x xs => exact ⟨xs, by simp at hb; rw [hb]⟩
          rw [partitionEq_append _ _ h61]
      rw [this]
      exact ⟨o, ho, hp⟩
  · rintro ⟨o, ho, hp⟩
    obtain ⟨h61, h⟩ := partitionEq_spec (45 :: 45 :: cs)
    right
    rcases h with ⟨h1, h2⟩ | ⟨e, h1, h2⟩
    · exact ⟨_, [], by rw [List.append_nil, h2], hd, h61, .inl rfl, o, ho, hp⟩
    · exact ⟨_, _, h2, hd, h61, .inr rfl, o, ho, hp⟩

theorem shortOpt_isSome (c : Nat) : (shortOpt c).isSome ↔ c ∈ py!"hPp" := by
  unfold shortOpt
  by_cases h1 : c = 104
  · simp [h1]
  by_cases h2 : c = 80
  · simp [h2]
  by_cases h3 : c = 112
  · simp [h3]
  simp [h1, h2, h3]

theorem looks_short (c : Nat) (cs : PyStr) (hc : c ≠ 45) :
    LooksLikeOption (45 :: c :: cs) ↔ (shortOpt c).isSome := by
  rw [shortOpt_isSome]
  constructor
  · rintro (⟨c', hc', t, h⟩ | ⟨a, b, he, ⟨t, ha⟩, -⟩)
    · simp at h; rw [← h.1]; exact hc'
    · rw [← ha] at he; simp at he; exact absurd he.1 hc
  · intro h; exact .inl ⟨c, h, cs, rfl⟩

theorem fileWord_iff (U : Nat → Bool) (w : PyStr) (hw : w ≠ py!"--") :
    FileWord U w ↔ parseOptional U w = .ok none := by
  unfold FileWord
  rcases w with _ | ⟨x, w⟩
  · simp [parseOptional]
  by_cases hx : x ≠ 45
  · simp [parseOptional, hx]
  have hx := Decidable.not_not.mp hx
  subst hx
  rcases w with _ | ⟨c, cs⟩
  · simp [parseOptional, lookup_minus]
  have h1 : (45 :: c :: cs).head? = some 45 := rfl
  simp only [ne_eq, hw, not_false_eq_true, true_and, h1, not_true, false_or]
  have h2 : ¬ (45 :: c :: cs = py!"-") := by simp
  simp only [h2, false_or]
  rw [← fallThrough_none]
  by_cases hc : c = 45
  · subst hc
    have hp := parse_long U cs
    rw [looks_long]
    match hm : longMatches (partitionEq (45 :: 45 :: cs)).1 with
    | [] => rw [hm] at hp; rw [hp]; simp
    | [o] => rw [hm] at hp; obtain ⟨t, ht, -⟩ := hp; rw [ht]; simp
    | o :: o' :: r => rw [hm] at hp; rw [hp]; simp
  · have hp := parse_short U c cs hc
    rw [looks_short c cs hc]
    cases hs : shortOpt c with
    | none => rw [hs] at hp; rw [hp]; simp
    | some a => rw [hs] at hp; obtain ⟨t, ht, -⟩ := hp; rw [ht]; simp

end Atop
