import Verif.Proofs.Cli
/-!
# Option words: what they do, and that nothing else is accepted
-/

namespace Atop
open Spec

theorem choices_eq : choices = parseableNames := rfl

/-- The effect of an option on the settings. -/
def applyEffect (ns : Namespace) : Effect → Namespace
  | .pretty => { ns with prettyPrint := true }
  | .tstats => { ns with showTstats := true }
  | .cstats => { ns with showCstats := true }
  | .parseables ps => { ns with parseables := some ps }

/-- Several effects, in order. -/
def applyAll (ns : Namespace) (es : List Effect) : Namespace := es.foldl applyEffect ns

theorem applyAll_append (ns es es') : applyAll ns (es ++ es') = applyAll (applyAll ns es) es' := List.foldl_append ..

theorem takeActions_append (ns : Namespace) (a b : List (Opt × List PyStr)) :
    takeActions ns (a ++ b) = (match takeActions ns a with | .error e => .error e | .ok ns' => takeActions ns' b) := by
  induction a generalizing ns with
  | nil => rfl
  | cons x a ih =>
    rw [List.cons_append, takeActions, takeActions]
    cases takeAction ns x with
    | error e => rfl
    | ok ns' => exact ih ns'

theorem takeActions_pretty (ns : Namespace) (k : Nat) :
    takeActions ns (List.replicate k (.prettyPrint, [])) = .ok (applyAll ns (List.replicate k .pretty)) := by
  induction k generalizing ns with
  | zero => rfl
  | succ k ih => rw [List.replicate_succ, List.replicate_succ]; exact ih _

theorem takeAction_parseables (ns ns' : Namespace) (xs : List PyStr) :
    takeAction ns (.parseables, xs) = .ok ns' ↔
      (∀ x ∈ xs, x ∈ parseableNames) ∧ ns' = applyAll ns [.parseables xs] := by
  unfold takeAction
  rw [choices_eq]
  dsimp only
  by_cases h : ∀ x ∈ xs, x ∈ parseableNames
  · rw [if_pos (by simpa using h)]
    rw [Except.ok.injEq]
    exact ⟨fun e => ⟨h, e.symm⟩, fun e => e.2.symm⟩
  · rw [if_neg (by simpa using h)]
    simp [h]

theorem takeActions_one (ns : Namespace) (a) : takeActions ns [a] = takeAction ns a := by
  rw [takeActions]; cases takeAction ns a <;> rfl

/-! ## Clusters of `-p` -/

theorem shortRun_cons (F : List PyStr) {a : Opt} (ha : a ≠ .parseables) (d : Nat) (ds : PyStr) :
    shortRun F a (d :: ds) = if d = 61 ∨ d = 45 then .error .usage
      else match shortOpt d with
        | none => .ok { actions := [(a, [])], extras := [45 :: d :: ds] }
        | some a' =>
          match shortRun F a' ds with
          | .error e => .error e
          | .ok r => .ok { r with actions := (a, []) :: r.actions } := by
  cases a <;> first | exact absurd rfl ha | rfl

theorem shortRun_pretty (F : List PyStr) (k : Nat) : shortRun F .prettyPrint (List.replicate k 112) =
    .ok { actions := List.replicate (k + 1) (.prettyPrint, []) } := by
  induction k with
  | zero => rfl
  | succ k ih =>
    rw [List.replicate_succ, shortRun_cons _ (by decide)]
    · rw [if_neg (by decide)]
      show (match shortRun F .prettyPrint (List.replicate k 112) with | .error e => _ | .ok r => _) = _
      rw [ih]; rfl

theorem shortRun_prettyP (F : List PyStr) (k : Nat) (rest : PyStr) {r : Consumed}
    (h : shortRun F .parseables rest = .ok r) :
    shortRun F .prettyPrint (List.replicate k 112 ++ 80 :: rest) =
    .ok { r with actions := List.replicate (k + 1) (.prettyPrint, []) ++ r.actions } := by
  induction k with
  | zero =>
    rw [List.replicate_zero, List.nil_append, shortRun_cons _ (by decide)]
    · rw [if_neg (by decide)]
      show (match shortRun F .parseables rest with | .error e => _ | .ok r => _) = _
      rw [h]; rfl
  | succ k ih =>
    rw [List.replicate_succ, List.cons_append, shortRun_cons _ (by decide)]
    · rw [if_neg (by decide)]
      show (match shortRun F .prettyPrint (List.replicate k 112 ++ 80 :: rest) with | .error e => _ | .ok r => _) = _
      rw [ih]; rfl

theorem shortOpt_inv {d : Nat} {a : Opt} (h : shortOpt d = some a) :
    (d = 104 ∧ a = .help) ∨ (d = 80 ∧ a = .parseables) ∨ (d = 112 ∧ a = .prettyPrint) := by
  unfold shortOpt at h
  by_cases h1 : d = 104
  · simp [h1] at h; simp [h1, h]
  by_cases h2 : d = 80
  · simp [h2] at h; simp [h2, h]
  by_cases h3 : d = 112
  · simp [h3] at h; simp [h3, h]
  simp [h1, h2, h3] at h

theorem shortRun_help {F : List PyStr} {cs : PyStr} {r : Consumed} (h : shortRun F .help cs = .ok r) (ns ns') :
    takeActions ns r.actions ≠ .ok ns' := by
  have key : ∀ (acts : List (Opt × List PyStr)) ns ns', takeActions ns ((.help, []) :: acts) ≠ .ok ns' := by
    intro acts ns ns'; rw [takeActions]; exact nofun
  cases cs with
  | nil => obtain rfl := Except.ok.inj h; exact key _ _ _
  | cons d ds =>
    rw [shortRun_cons _ (by decide)] at h
    · split at h
      · cases h
      · split at h
        · obtain rfl := Except.ok.inj h; exact key _ _ _
        · split at h
          · cases h
          · obtain rfl := Except.ok.inj h; exact key _ _ _

/-- Which clusters starting with `-p` are accepted. -/
theorem shortRun_pretty_inv {F : List PyStr} (cs : PyStr) : ∀ {r : Consumed} {ns ns' : Namespace},
    shortRun F .prettyPrint cs = .ok r → r.extras = [] → takeActions ns r.actions = .ok ns' →
    ∃ k, (cs = List.replicate k 112 ∧ r = { actions := List.replicate (k + 1) (.prettyPrint, []) }) ∨
      ∃ rest r', cs = List.replicate k 112 ++ 80 :: rest ∧ shortRun F .parseables rest = .ok r' ∧ r'.extras = [] ∧
        r.taken = r'.taken ∧ r.actions = List.replicate (k + 1) (.prettyPrint, []) ++ r'.actions := by
  induction cs with
  | nil => intro r ns ns' h _ _; obtain rfl := Except.ok.inj h; exact ⟨0, .inl ⟨rfl, rfl⟩⟩
  | cons d ds ih =>
    intro r ns ns' h he ht
    rw [shortRun_cons _ (by decide)] at h
    split at h
    · cases h
    split at h
    · obtain rfl := Except.ok.inj h; cases he
    rename_i a' hs
    split at h
    · cases h
    rename_i r1 hr1
    obtain rfl := Except.ok.inj h
    dsimp only at he ht
    rw [takeActions] at ht
    replace ht : takeActions { ns with prettyPrint := true } r1.actions = .ok ns' := ht
    rcases shortOpt_inv hs with ⟨rfl, rfl⟩ | ⟨rfl, rfl⟩ | ⟨rfl, rfl⟩
    · exact absurd ht (shortRun_help hr1 _ _)
    · exact ⟨0, .inr ⟨ds, r1, rfl, hr1, he, rfl, rfl⟩⟩
    · obtain ⟨k, ⟨h1, h2⟩ | ⟨rest, r', h1, h2, h3, h4, h5⟩⟩ := ih hr1 he ht
      · refine ⟨k + 1, .inl ⟨by rw [h1]; rfl, ?_⟩⟩
        rw [h2]; rfl
      · refine ⟨k + 1, .inr ⟨rest, r', by rw [h1]; rfl, h2, h3, h4, ?_⟩⟩
        show _ :: r1.actions = _
        rw [h5]; rfl

theorem shortRun_parseables_inv {F : List PyStr} {cs : PyStr} {r : Consumed} {ns ns' : Namespace}
    (h : shortRun F .parseables cs = .ok r) (ht : takeActions ns r.actions = .ok ns') :
    (cs = [] ∧ F ≠ [] ∧ r.taken = F.length ∧ (∀ x ∈ F, x ∈ parseableNames) ∧ ns' = applyAll ns [.parseables F]) ∨
    ∃ (eq : Bool) (x : PyStr), cs = (if eq then py!"=" else []) ++ x ∧ x ∈ parseableNames ∧ r.taken = 0 ∧
      ns' = applyAll ns [.parseables [x]] := by
  cases cs with
  | nil =>
    left
    unfold shortRun consumeFollowing matchArgument at h
    by_cases hF : F = []
    · subst hF; simp at h
    · dsimp only at h
      rw [if_neg (by simpa using hF)] at h
      obtain rfl := Except.ok.inj h
      rw [takeActions_one, List.take_length, takeAction_parseables] at ht
      exact ⟨rfl, hF, rfl, ht⟩
  | cons d ds =>
    right
    by_cases hd : d = 61
    · subst hd
      obtain rfl := Except.ok.inj h
      rw [takeActions_one, takeAction_parseables] at ht
      exact ⟨true, ds, rfl, ht.1 ds (by simp), rfl, ht.2⟩
    · rw [shortRun] at h
      · obtain rfl := Except.ok.inj h
        rw [takeActions_one, takeAction_parseables] at ht
        exact ⟨false, d :: ds, rfl, ht.1 _ (by simp), rfl, ht.2⟩
      · exact hd

theorem shortRun_parseables_glued (F : List PyStr) (eq : Bool) (x : PyStr) (hx : x ∈ parseableNames) :
    shortRun F .parseables ((if eq then py!"=" else []) ++ x) = .ok { actions := [(.parseables, [x])] } := by
  have hne : x.head? ≠ some 61 ∧ x ≠ [] := by
    revert hx; revert x; decide +kernel
  cases eq with
  | true => rfl
  | false =>
    cases x with
    | nil => exact absurd rfl hne.2
    | cons d ds =>
      show shortRun F .parseables (d :: ds) = _
      rw [shortRun]
      intro h; subst h; exact hne.1 rfl

/-! ## Long options -/

instance (w full) : Decidable (Abbreviates w full) := by unfold Abbreviates; infer_instance

theorem abbreviates_table : ∀ o ∈ optionStrings, o.1[1]? = some 45 → ∀ k < 15,
    Abbreviates (o.1.take k) o.1 → longMatches (o.1.take k) = [o] ∧ 61 ∉ o.1.take k ∧
      o.1.take k = 45 :: 45 :: (o.1.take k).drop 2 := by decide +kernel

theorem abbreviates_matches {w : PyStr} {o : PyStr × Opt} (ho : o ∈ optionStrings) (h1 : o.1[1]? = some 45)
    (h : Abbreviates w o.1) : longMatches w = [o] ∧ 61 ∉ w ∧ w = 45 :: 45 :: w.drop 2 := by
  have hw : w = o.1.take w.length := (List.prefix_iff_eq_take.mp h.1)
  have hlen : w.length < 15 := by
    have h2 := h.1.length_le
    have : ∀ o ∈ optionStrings, o.1.length < 15 := by decide
    have := this o ho
    omega
  have := abbreviates_table o ho h1 w.length hlen (by rw [← hw]; exact h)
  rwa [← hw] at this

theorem matches_abbreviates {w : PyStr} {o : PyStr × Opt} (hw : py!"--" <+: w) (h : longMatches w = [o]) :
    Abbreviates w o.1 := by
  obtain ⟨h1, h2, h3⟩ := longMatches_second hw (show o ∈ longMatches w by rw [h]; simp)
  refine ⟨h3, fun x hx hp => ?_⟩
  obtain ⟨p, hp', rfl⟩ := longOptions_table.1 x hx
  have : p ∈ longMatches w := List.mem_filter.mpr ⟨hp', List.isPrefixOf_iff_prefix.mpr hp⟩
  rw [h, List.mem_singleton] at this
  rw [this]

theorem consume_long {t : OptTuple} {a : Opt} (w : PyStr) (F : List PyStr) (ha : t.action = some a)
    (hs : t.optionString[1]? = some 45) : consumeOptional t w F =
      match t.explicitArg with
      | none => consumeFollowing F a
      | some e => if a = .parseables then .ok { actions := [(.parseables, [e])] } else .error .usage := by
  unfold consumeOptional
  rw [ha]
  dsimp only
  cases t.explicitArg with
  | none => rfl
  | some e =>
    dsimp only
    by_cases h : a = .parseables
    · subst h; rw [if_pos rfl, consumeExplicit_parseables]
    · rw [if_neg h, consumeExplicit_long _ _ _ _ _ hs h]

/-- A long option without `=`. -/
theorem parse_abbrev (U) {w : PyStr} {o : PyStr × Opt} (ho : o ∈ optionStrings) (h1 : o.1[1]? = some 45)
    (h : Abbreviates w o.1) : ∃ t, parseOptional U w = .ok (some t) ∧ ∀ F, consumeOptional t w F = consumeFollowing F o.2 := by
  obtain ⟨hm, h61, hw⟩ := abbreviates_matches ho h1 h
  have hp := parse_long U (w.drop 2)
  rw [← hw, partitionEq_none w h61, hm] at hp
  obtain ⟨t, ht, ha, he, hs⟩ := hp
  exact ⟨t, ht, fun F => by rw [consume_long w F ha hs, he]⟩

/-- A long option with `=`. -/
theorem parse_abbrev_eq (U) {w : PyStr} {o : PyStr × Opt} (ho : o ∈ optionStrings) (h1 : o.1[1]? = some 45)
    (h : Abbreviates w o.1) (x : PyStr) (hP : o.2 = .parseables) :
    ∃ t, parseOptional U (w ++ 61 :: x) = .ok (some t) ∧
      ∀ F, consumeOptional t (w ++ 61 :: x) F = .ok { actions := [(.parseables, [x])] } := by
  obtain ⟨hm, h61, hw⟩ := abbreviates_matches ho h1 h
  have hp := parse_long U (w.drop 2 ++ 61 :: x)
  have e : (45 :: 45 :: (w.drop 2 ++ 61 :: x)) = w ++ 61 :: x := by
    conv => rhs; rw [hw]
    rfl
  rw [e, partitionEq_append w x h61, hm] at hp
  obtain ⟨t, ht, ha, he, hs⟩ := hp
  exact ⟨t, ht, fun F => by rw [consume_long _ F ha hs, he]; dsimp only; rw [if_pos hP]⟩

/-! ## Both kinds of words -/

theorem minus_p (k : Nat) (rest : PyStr) :
    ∃ c cs, py!"-" ++ List.replicate k 112 ++ py!"P" ++ rest = 45 :: c :: cs ∧ c ≠ 45 ∧
      ((k = 0 ∧ c = 80 ∧ cs = rest) ∨ ∃ j, k = j + 1 ∧ c = 112 ∧ cs = List.replicate j 112 ++ 80 :: rest) := by
  cases k with
  | zero => exact ⟨80, rest, rfl, by decide, .inl ⟨rfl, rfl, rfl⟩⟩
  | succ j => exact ⟨112, List.replicate j 112 ++ 80 :: rest, by simp [List.replicate_succ], by decide, .inr ⟨j, rfl, rfl, rfl⟩⟩

/-- The short forms around `-P`. -/
theorem parse_clusterP (U) (k : Nat) (rest : PyStr) :
    ∃ t, parseOptional U (py!"-" ++ List.replicate k 112 ++ py!"P" ++ rest) = .ok (some t) ∧
      ∀ F r, shortRun F .parseables rest = .ok r →
        consumeOptional t (py!"-" ++ List.replicate k 112 ++ py!"P" ++ rest) F =
          .ok { r with actions := List.replicate k (.prettyPrint, []) ++ r.actions } := by
  obtain ⟨c, cs, e, hc, h⟩ := minus_p k rest
  rw [e]
  have hp := parse_short U c cs hc
  rcases h with ⟨rfl, rfl, rfl⟩ | ⟨j, rfl, rfl, rfl⟩
  · obtain ⟨t, ht, hcons⟩ := hp
    exact ⟨t, ht, fun F r hr => by rw [hcons, hr]; rfl⟩
  · obtain ⟨t, ht, hcons⟩ := hp
    exact ⟨t, ht, fun F r hr => by rw [hcons, shortRun_prettyP F j rest hr]⟩

theorem oneWord_does (U) {w : PyStr} {es : List Effect} (h : OneWord w es) :
    ∃ t, parseOptional U w = .ok (some t) ∧ ∀ F, ∃ acts, consumeOptional t w F = .ok { actions := acts } ∧
      ∀ ns, takeActions ns acts = .ok (applyAll ns es) := by
  have flag : ∀ {w full : PyStr} {a : Opt} {e : Effect}, (full, a) ∈ optionStrings → full[1]? = some 45 →
      (∀ ns, takeAction ns (a, []) = .ok (applyAll ns [e])) → a ≠ .parseables → Abbreviates w full →
      ∃ t, parseOptional U w = .ok (some t) ∧ ∀ F, ∃ acts, consumeOptional t w F = .ok { actions := acts } ∧
        ∀ ns, takeActions ns acts = .ok (applyAll ns [e]) := by
    intro w full a e ho h1 hta hne hab
    obtain ⟨t, ht, hc⟩ := parse_abbrev U ho h1 hab
    refine ⟨t, ht, fun F => ⟨[(a, [])], ?_, fun ns => by rw [takeActions_one, hta]⟩⟩
    rw [hc]
    unfold consumeFollowing
    cases a <;> first | rfl | exact absurd rfl hne
  cases h with
  | p k =>
    have hp := parse_short U 112 (List.replicate k 112) (by decide)
    obtain ⟨t, ht, hc⟩ := hp
    refine ⟨t, ht, fun F => ⟨_, by rw [show py!"-" ++ List.replicate (k + 1) 112 = 45 :: 112 :: List.replicate k 112 from rfl,
      hc, shortRun_pretty], fun ns => takeActions_pretty ns (k + 1)⟩⟩
  | pretty w h => exact flag (a := .prettyPrint) (by decide) (by decide) (fun _ => rfl) (by decide) h
  | tstats w h => exact flag (a := .tstats) (by decide) (by decide) (fun _ => rfl) (by decide) h
  | cstats w h => exact flag (a := .cstats) (by decide) (by decide) (fun _ => rfl) (by decide) h
  | P k eq x hx =>
    rw [List.append_assoc]
    obtain ⟨t, ht, hc⟩ := parse_clusterP U k ((if eq then py!"=" else []) ++ x)
    refine ⟨t, ht, fun F => ⟨_, hc F _ (shortRun_parseables_glued F eq x hx), fun ns => ?_⟩⟩
    rw [takeActions_append, takeActions_pretty, applyAll_append]
    dsimp only
    rw [takeActions_one, takeAction_parseables]
    exact ⟨by simpa using hx, rfl⟩
  | parseables w x hab hx =>
    rw [List.append_assoc]
    obtain ⟨t, ht, hc⟩ := parse_abbrev_eq U (o := (py!"--parseables", .parseables)) (by decide) (by decide) hab x rfl
    refine ⟨t, ht, fun F => ⟨_, hc F, fun ns => ?_⟩⟩
    rw [takeActions_one, takeAction_parseables]
    exact ⟨by simpa using hx, rfl⟩

theorem consumeFollowing_list {F : List PyStr} (hF : F ≠ []) :
    consumeFollowing F .parseables = .ok { actions := [(.parseables, F)], taken := F.length } := by
  unfold consumeFollowing matchArgument
  dsimp only
  rw [if_neg (by simpa using hF)]
  dsimp only
  rw [List.take_length]

theorem listWord_does (U) {w : PyStr} {es : List Effect} (h : ListWord w es) :
    ∃ t, parseOptional U w = .ok (some t) ∧ ∀ F, F ≠ [] →
      ∃ acts, consumeOptional t w F = .ok { actions := acts, taken := F.length } ∧
        ∀ ns, (∀ x ∈ F, x ∈ parseableNames) → takeActions ns acts = .ok (applyAll ns (es ++ [.parseables F])) := by
  cases h with
  | P k =>
    obtain ⟨t, ht, hc⟩ := parse_clusterP U k []
    rw [List.append_nil] at ht hc
    refine ⟨t, ht, fun F hF => ⟨_, hc F _ (consumeFollowing_list hF), fun ns hx => ?_⟩⟩
    rw [takeActions_append, takeActions_pretty, applyAll_append]
    dsimp only
    rw [takeActions_one, takeAction_parseables]
    exact ⟨hx, rfl⟩
  | parseables w hab =>
    obtain ⟨t, ht, hc⟩ := parse_abbrev U (o := (py!"--parseables", .parseables)) (by decide) (by decide) hab
    refine ⟨t, ht, fun F hF => ⟨_, by rw [hc F]; exact consumeFollowing_list hF, fun ns hx => ?_⟩⟩
    rw [takeActions_one, takeAction_parseables]
    exact ⟨hx, rfl⟩

/-- Nothing but the words of the grammar is accepted as an option. -/
theorem word_inv {U} {w : PyStr} {t : OptTuple} {F : List PyStr} {c : Consumed} {ns ns' : Namespace}
    (hp : parseOptional U w = .ok (some t)) (hc : consumeOptional t w F = .ok c) (he : c.extras = [])
    (ht : takeActions ns c.actions = .ok ns') :
    (∃ es, OneWord w es ∧ c.taken = 0 ∧ ns' = applyAll ns es) ∨
    (∃ es, ListWord w es ∧ F ≠ [] ∧ c.taken = F.length ∧ (∀ x ∈ F, x ∈ parseableNames) ∧
      ns' = applyAll ns (es ++ [.parseables F])) := by
  -- a word that matches no option ends up among the extras
  have fall : ∀ {w}, parseOptional U w = .ok (fallThrough U w) → parseOptional U w = .ok (some t) →
      consumeOptional t w F = .ok c → False := by
    intro w h1 h2 h3
    rw [h1] at h2
    unfold fallThrough at h2
    split at h2
    · cases h2
    · split at h2
      · cases h2
      · cases h2
        obtain rfl := Except.ok.inj h3
        cases he
  rcases w with _ | ⟨x, w⟩
  · cases hp
  by_cases hx : x ≠ 45
  · unfold parseOptional at hp
    rw [if_pos (by simpa using hx)] at hp; cases hp
  have hx := Decidable.not_not.mp hx
  subst hx
  rcases w with _ | ⟨d, cs⟩
  · have : parseOptional U [45] = .ok none := by simp [parseOptional, lookup_minus]
    rw [this] at hp; cases hp
  by_cases hd : d = 45
  · subst hd
    have hl := parse_long U cs
    have hdash := partitionEq_dash cs
    obtain ⟨-, hsp⟩ := partitionEq_spec (45 :: 45 :: cs)
    match hm : longMatches (partitionEq (45 :: 45 :: cs)).1 with
    | [] => rw [hm] at hl; exact (fall hl hp hc).elim
    | _ :: _ :: _ => rw [hm] at hl; rw [hl] at hp; cases hp
    | [o] =>
      rw [hm] at hl
      obtain ⟨t', ht', ha, hex, hs⟩ := hl
      rw [ht'] at hp
      cases hp
      have hab := matches_abbreviates hdash hm
      obtain ⟨h1, h2, -⟩ := longMatches_second hdash (show o ∈ longMatches _ by rw [hm]; simp)
      rw [consume_long _ F ha hs, hex] at hc
      have hcases : ∀ o ∈ optionStrings, o.1[1]? = some 45 →
          (o.2 = .help) ∨ (o = (py!"--parseables", .parseables)) ∨ (o = (py!"--pretty-print", .prettyPrint)) ∨
          (o = (py!"--tstats", .tstats)) ∨ (o = (py!"--cstats", .cstats)) := by decide
      rcases hsp with ⟨hr, hw⟩ | ⟨e, hr, hw⟩
      · rw [hr] at hc
        rw [hw] at hab
        dsimp only at hc
        rcases hcases o h2 h1 with h | rfl | rfl | rfl | rfl
        · rw [h] at hc
          obtain rfl := Except.ok.inj hc
          cases ht
        · right
          have hc' : shortRun F .parseables [] = .ok c := hc
          rcases shortRun_parseables_inv hc' ht with ⟨-, h1, h2, h3, h4⟩ | ⟨eq, x, h1, h2, -⟩
          · exact ⟨[], .parseables _ hab, h1, h2, h3, h4⟩
          · cases eq with
            | true => cases h1
            | false => rw [show x = [] from h1.symm] at h2; exact absurd h2 (by decide)
        · left
          obtain rfl := Except.ok.inj hc
          exact ⟨_, .pretty _ hab, rfl, (Except.ok.inj ht).symm⟩
        · left
          obtain rfl := Except.ok.inj hc
          exact ⟨_, .tstats _ hab, rfl, (Except.ok.inj ht).symm⟩
        · left
          obtain rfl := Except.ok.inj hc
          exact ⟨_, .cstats _ hab, rfl, (Except.ok.inj ht).symm⟩
      · rw [hr] at hc
        dsimp only at hc
        split at hc
        · rename_i hP
          left
          obtain rfl := Except.ok.inj hc
          rw [takeActions_one, takeAction_parseables] at ht
          rcases hcases o h2 h1 with h | rfl | rfl | rfl | rfl
          · rw [h] at hP; cases hP
          · refine ⟨_, ?_, rfl, ht.2⟩
            have := OneWord.parseables _ e hab (ht.1 e (by simp))
            rw [List.append_assoc] at this
            rw [hw]; exact this
          · cases hP
          · cases hP
          · cases hP
        · cases hc
  · have hs := parse_short U d cs hd
    cases hso : shortOpt d with
    | none => rw [hso] at hs; exact (fall hs hp hc).elim
    | some a =>
      rw [hso] at hs
      obtain ⟨t', ht', hcons⟩ := hs
      rw [ht'] at hp
      cases hp
      rw [hcons] at hc
      rcases shortOpt_inv hso with ⟨rfl, rfl⟩ | ⟨rfl, rfl⟩ | ⟨rfl, rfl⟩
      · exact absurd ht (shortRun_help hc _ _)
      · rcases shortRun_parseables_inv hc ht with ⟨rfl, h1, h2, h3, h4⟩ | ⟨eq, x, rfl, h2, h3, h4⟩
        · exact .inr ⟨_, .P 0, h1, h2, h3, h4⟩
        · refine .inl ⟨_, ?_, h3, h4⟩
          have := OneWord.P 0 eq x h2
          rw [List.append_assoc] at this
          exact this
      · obtain ⟨k, ⟨rfl, rfl⟩ | ⟨rest, r', rfl, h2, h3, h4, h5⟩⟩ := shortRun_pretty_inv cs hc he ht
        · rw [takeActions_pretty] at ht
          exact .inl ⟨_, .p k, rfl, (Except.ok.inj ht).symm⟩
        · rw [h5, takeActions_append, takeActions_pretty] at ht
          dsimp only at ht
          rcases shortRun_parseables_inv h2 ht with ⟨rfl, g1, g2, g3, g4⟩ | ⟨eq, x, rfl, g2, g3, g4⟩
          · refine .inr ⟨_, ?_, g1, h4.trans g2, g3, by rw [applyAll_append]; exact g4⟩
            have := ListWord.P (k + 1)
            rw [show 45 :: 112 :: (List.replicate k 112 ++ [80]) = py!"-" ++ List.replicate (k + 1) 112 ++ py!"P" by
              simp [List.replicate_succ]]
            exact this
          · refine .inl ⟨_, ?_, h4.trans g3, by rw [← applyAll_append] at g4; exact g4⟩
            have := OneWord.P (k + 1) eq x g2
            rw [show 45 :: 112 :: (List.replicate k 112 ++ 80 :: ((if eq then py!"=" else []) ++ x)) =
              py!"-" ++ List.replicate (k + 1) 112 ++ py!"P" ++ (if eq then py!"=" else []) ++ x by
              simp [List.replicate_succ]]
            exact this

end Atop
