import Verif.Proofs.CliWords
/-!
# Whole command lines
-/

namespace Atop
open Spec

/-- The classification of the arguments, as a relation. -/
inductive Classified (U : Nat → Bool) : List PyStr → List Tok → Prop
  | nil : Classified U [] []
  | dash (ws : List PyStr) : Classified U (py!"--" :: ws) (.dash :: ws.map .arg)
  | arg (w : PyStr) (ws : List PyStr) (ts : List Tok) : w ≠ py!"--" → parseOptional U w = .ok none → Classified U ws ts →
    Classified U (w :: ws) (.arg w :: ts)
  | opt (w : PyStr) (t : OptTuple) (ws : List PyStr) (ts : List Tok) : w ≠ py!"--" → parseOptional U w = .ok (some t) →
    Classified U ws ts → Classified U (w :: ws) (.opt t w :: ts)

theorem classify_iff (U) : ∀ (ws : List PyStr) (ts : List Tok), classify U ws = .ok ts ↔ Classified U ws ts := by
  intro ws
  induction ws with
  | nil =>
    intro ts
    constructor
    · intro h; cases h; exact .nil
    · intro h; cases h; rfl
  | cons w ws ih =>
    intro ts
    rw [classify]
    by_cases hw : w = py!"--"
    · subst hw
      rw [if_pos rfl]
      constructor
      · intro h; cases h; exact .dash ws
      · intro h
        cases h with
        | dash => rfl
        | arg _ _ _ h => exact absurd rfl h
        | opt _ _ _ _ h => exact absurd rfl h
    · rw [if_neg hw]
      constructor
      · intro h
        cases hp : parseOptional U w with
        | error e => rw [hp] at h; cases h
        | ok o =>
          rw [hp] at h
          cases hc : classify U ws with
          | error e => rw [hc] at h; cases h
          | ok r =>
            rw [hc] at h
            have := (ih r).mp hc
            cases o with
            | none => cases h; exact .arg _ _ _ hw hp this
            | some t => cases h; exact .opt _ _ _ _ hw hp this
      · intro h
        cases h with
        | dash => exact absurd rfl hw
        | arg _ _ ts h hp hc => rw [hp, (ih ts).mpr hc]; rfl
        | opt _ t _ ts h hp hc => rw [hp, (ih ts).mpr hc]; rfl

/-! ## The loop, case by case -/

theorem cliLoop_opt (st : CliState) (t w) (r : List Tok) : cliLoop st (.opt t w :: r) =
    match consumeOptional t w (leadingArgs r) with
    | .error e => .error e
    | .ok c =>
      match takeActions st.ns c.actions with
      | .error e => .error e
      | .ok ns => cliLoop { st with ns, extras := st.extras ++ c.extras } (r.drop c.taken) := by
  rw [cliLoop.eq_def, if_pos (by simp [Tok.isOpt])]
  rfl

theorem cliLoop_end (st : CliState) (ts : List Tok) (h : ts.any Tok.isOpt = false) : cliLoop st ts =
    .ok { (consumePositionals st ts).1 with
      extras := (consumePositionals st ts).1.extras ++ (ts.drop (consumePositionals st ts).2).map Tok.word } := by
  rw [cliLoop.eq_def, if_neg (by simp [h])]

theorem cliLoop_arg (st : CliState) (x : Tok) (r : List Tok) (hx : x.isOpt = false) (h : (x :: r).any Tok.isOpt = true) :
    cliLoop st (x :: r) =
      match consumePositionals st (x :: r) with
      | (st', 0) =>
        cliLoop { st' with extras := st'.extras ++ ((x :: r).takeWhile (!Tok.isOpt ·)).map Tok.word }
          (r.dropWhile (!Tok.isOpt ·))
      | (st', n + 1) => cliLoop st' (r.drop n) := by
  rw [cliLoop.eq_def, if_pos h]
  cases x with
  | opt t w => cases hx
  | arg w => rfl
  | dash => rfl

theorem consumePositionals_extras (st ts) : (consumePositionals st ts).1.extras = st.extras := by
  unfold consumePositionals
  split
  · split <;> rfl
  · rfl

theorem cliLoop_extras : ∀ (n : Nat) (ts : List Tok) (st st' : CliState), ts.length ≤ n → cliLoop st ts = .ok st' →
    ∃ l, st'.extras = st.extras ++ l := by
  intro n
  induction n with
  | zero =>
    intro ts st st' hn h
    have : ts = [] := by simpa using hn
    subst this
    rw [cliLoop_end _ _ rfl] at h
    obtain rfl := Except.ok.inj h
    exact ⟨_, by rw [consumePositionals_extras]⟩
  | succ n ih =>
    intro ts st st' hn h
    by_cases ho : ts.any Tok.isOpt = true
    · cases ts with
      | nil => cases ho
      | cons x r =>
        rw [List.length_cons] at hn
        by_cases hx : x.isOpt = true
        · cases x with
          | arg _ => cases hx
          | dash => cases hx
          | opt t w =>
            rw [cliLoop_opt] at h
            split at h
            · cases h
            split at h
            · cases h
            obtain ⟨l, hl⟩ := ih _ _ _ (by rw [List.length_drop]; omega) h
            exact ⟨_, by rw [hl, List.append_assoc]⟩
        · rw [cliLoop_arg _ _ _ (by simpa using hx) ho] at h
          have he := consumePositionals_extras st (x :: r)
          split at h
          · rename_i st1 hs
            rw [hs] at he
            have hle := (List.dropWhile_sublist (fun t : Tok => !t.isOpt) (l := r)).length_le
            obtain ⟨l, hl⟩ := ih _ _ _ (by omega) h
            dsimp only at hl he
            exact ⟨_, by rw [hl, he, List.append_assoc]⟩
          · rename_i st1 m hs
            rw [hs] at he
            obtain ⟨l, hl⟩ := ih _ _ _ (by rw [List.length_drop]; omega) h
            exact ⟨_, by rw [hl, he]⟩
    · rw [cliLoop_end _ _ (by simpa using ho)] at h
      obtain rfl := Except.ok.inj h
      exact ⟨_, by dsimp only; rw [consumePositionals_extras]⟩

theorem cliLoop_extras_nil {ts : List Tok} {st st' : CliState} (h : cliLoop st ts = .ok st') (he : st'.extras = []) :
    st.extras = [] := by
  obtain ⟨l, hl⟩ := cliLoop_extras _ ts st st' (Nat.le_refl _) h
  rw [he] at hl
  exact (List.append_eq_nil_iff.mp hl.symm).1

/-! ## Runs of arguments -/

theorem leadingArgs_map (fs : List PyStr) (ts : List Tok) : leadingArgs (fs.map .arg ++ ts) = fs ++ leadingArgs ts := by
  induction fs with
  | nil => rfl
  | cons f fs ih => rw [List.map_cons, List.cons_append, leadingArgs, ih]; rfl

/-- Cutting off the leading arguments. -/
theorem classified_leading {U ws ts} (h : Classified U ws ts) : ∃ ws', ws = leadingArgs ts ++ ws' ∧
    ts = (leadingArgs ts).map .arg ++ ts.drop (leadingArgs ts).length ∧
    Classified U ws' (ts.drop (leadingArgs ts).length) ∧ leadingArgs (ts.drop (leadingArgs ts).length) = [] ∧
    ∀ f ∈ leadingArgs ts, FileWord U f := by
  induction h with
  | nil => exact ⟨[], rfl, rfl, .nil, rfl, nofun⟩
  | dash ws => exact ⟨_, rfl, rfl, .dash ws, rfl, nofun⟩
  | arg w ws ts hw hp hc ih =>
    obtain ⟨ws', h1, h2, h3, h4, h5⟩ := ih
    refine ⟨ws', by rw [leadingArgs, List.cons_append, ← h1], ?_, h3, h4, ?_⟩
    · rw [leadingArgs, List.map_cons, List.cons_append, List.length_cons, List.drop_succ_cons, ← h2]
    · intro f hf
      rw [leadingArgs, List.mem_cons] at hf
      rcases hf with rfl | hf
      · exact (fileWord_iff U f hw).mpr hp
      · exact h5 f hf
  | opt w t ws ts hw hp hc ih => exact ⟨_, rfl, rfl, .opt w t ws ts hw hp hc, rfl, nofun⟩

theorem classified_head {U ws ts} (h : Classified U ws ts) (hl : leadingArgs ts = []) :
    ∀ w r, ws = w :: r → ¬ FileWord U w := by
  intro w r e hf
  subst e
  cases h with
  | dash => exact hf.1 rfl
  | arg _ _ ts => cases hl
  | opt _ t _ ts hw hp => rw [fileWord_iff U w hw, hp] at hf; cases hf

theorem argDashRun_leading {U ws ts} (h : Classified U ws ts) (ho : ts.any Tok.isOpt = true) :
    argDashRun ts = (leadingArgs ts).length := by
  induction h with
  | nil => cases ho
  | dash ws =>
    have : (Tok.dash :: ws.map Tok.arg).any Tok.isOpt = false := by simp [Tok.isOpt]
    rw [this] at ho; cases ho
  | arg w ws ts hw hp hc ih =>
    rw [argDashRun, leadingArgs, List.length_cons, ih (by simpa [Tok.isOpt] using ho)]
  | opt w t ws ts => rfl

theorem argDashRun_map (fs : List PyStr) (ts : List Tok) : argDashRun (fs.map .arg ++ ts) = fs.length + argDashRun ts := by
  induction fs with
  | nil => simp
  | cons f fs ih => rw [List.map_cons, List.cons_append, argDashRun, ih, List.length_cons]; omega

theorem map_arg_word (fs : List PyStr) : (fs.map Tok.arg).map Tok.word = fs := by
  rw [List.map_map]; exact List.map_id _

/-- Lines without options. -/
theorem no_opt_shape {U ws ts} (h : Classified U ws ts) (ho : ts.any Tok.isOpt = false) :
    ∃ fs, (∀ f ∈ fs, FileWord U f) ∧
      ((ws = fs ∧ ts = fs.map .arg) ∨ ∃ more, ws = fs ++ py!"--" :: more ∧ ts = fs.map .arg ++ .dash :: more.map .arg) := by
  induction h with
  | nil => exact ⟨[], nofun, .inl ⟨rfl, rfl⟩⟩
  | dash ws => exact ⟨[], nofun, .inr ⟨ws, rfl, rfl⟩⟩
  | arg w ws ts hw hp hc ih =>
    obtain ⟨fs, h1, h2⟩ := ih (by simpa [Tok.isOpt] using ho)
    refine ⟨w :: fs, ?_, ?_⟩
    · intro f hf
      rcases List.mem_cons.mp hf with rfl | hf
      · exact (fileWord_iff U f hw).mpr hp
      · exact h1 f hf
    · rcases h2 with ⟨rfl, rfl⟩ | ⟨more, rfl, rfl⟩
      · exact .inl ⟨rfl, rfl⟩
      · exact .inr ⟨more, rfl, rfl⟩
  | opt w t ws ts => simp [Tok.isOpt] at ho

theorem classified_files {U} : ∀ (fs : List PyStr), (∀ f ∈ fs, FileWord U f) → ∀ {ws ts}, Classified U ws ts →
    Classified U (fs ++ ws) (fs.map .arg ++ ts)
  | [], _, _, _, h => h
  | f :: fs, hf, _, _, h => by
    have h0 := hf f (by simp)
    exact .arg _ _ _ h0.1 ((fileWord_iff U f h0.1).mp h0) (classified_files fs (fun x hx => hf x (by simp [hx])) h)

/-! ## Options -/

theorem names_fileWord (U) (x : PyStr) (hx : x ∈ parseableNames) : FileWord U x := by
  have : ∀ x ∈ parseableNames, x ≠ py!"--" ∧ x.head? ≠ some 45 := by decide
  exact ⟨(this x hx).1, .inl (this x hx).2⟩

theorem parse_ne_dash {U w t} (h : parseOptional U w = .ok (some t)) : w ≠ py!"--" := by
  rintro rfl
  have : parseOptional U py!"--" = .error .usage := by rfl
  rw [this] at h; cases h

/-- Options in front of a line are carried out and leave the rest. -/
theorem loop_pieces (U) (ps : List Piece) (hv : ∀ p ∈ ps, p.Valid) {ws ts} (hc : Classified U ws ts)
    (hl : ∀ p, ps.getLast? = some p → p.isList = true → leadingArgs ts = []) :
    ∃ ts', Classified U (ps.flatMap Piece.words ++ ws) ts' ∧
      (∀ st, cliLoop st ts' = cliLoop { st with ns := applyAll st.ns (ps.flatMap Piece.effects) } ts) ∧
      (ps = [] → ts' = ts) ∧ (ps ≠ [] → leadingArgs ts' = [] ∧ ts'.any Tok.isOpt = true) := by
  induction ps with
  | nil => exact ⟨ts, hc, fun st => rfl, fun _ => rfl, fun h => absurd rfl h⟩
  | cons p ps ih =>
    have hl' : ∀ q, ps.getLast? = some q → q.isList = true → leadingArgs ts = [] := by
      intro q hq
      apply hl
      cases ps with
      | nil => cases hq
      | cons a as => rw [List.getLast?_cons_cons]; exact hq
    obtain ⟨ts1, h1, h2, h3, h4⟩ := ih (fun q hq => hv q (by simp [hq])) hl'
    have hp := hv p (by simp)
    cases hp with
    | one w es hw =>
      obtain ⟨t, ht, hdo⟩ := oneWord_does U hw
      refine ⟨.opt t w :: ts1, .opt _ _ _ _ (parse_ne_dash ht) ht h1, fun st => ?_, nofun, fun _ => ⟨rfl, by simp [Tok.isOpt]⟩⟩
      obtain ⟨acts, ha, hb⟩ := hdo (leadingArgs ts1)
      rw [cliLoop_opt, ha]
      dsimp only
      rw [hb]
      dsimp only
      rw [List.append_nil, List.drop_zero, h2]
      dsimp only
      rw [List.flatMap_cons, applyAll_append]
    | list w es names hw hne hx =>
      obtain ⟨t, ht, hdo⟩ := listWord_does U hw
      have hlead : leadingArgs ts1 = [] := by
        by_cases hps : ps = []
        · subst hps
          rw [h3 rfl]
          exact hl _ rfl rfl
        · exact (h4 hps).1
      have hcl : Classified U (names ++ (ps.flatMap Piece.words ++ ws)) (names.map .arg ++ ts1) :=
        classified_files names (fun x hx' => names_fileWord U x (hx x hx')) h1
      refine ⟨.opt t w :: (names.map .arg ++ ts1), ?_, fun st => ?_, nofun, fun _ => ⟨rfl, by simp [Tok.isOpt]⟩⟩
      · rw [List.flatMap_cons, List.append_assoc]
        exact .opt _ _ _ _ (parse_ne_dash ht) ht hcl
      · obtain ⟨acts, ha, hb⟩ := hdo names hne
        rw [cliLoop_opt, leadingArgs_map, hlead, List.append_nil, ha]
        dsimp only
        rw [hb st.ns hx]
        dsimp only
        rw [List.append_nil, List.drop_left' (by simp), h2]
        dsimp only
        rw [← applyAll_append, List.flatMap_cons]

theorem applyAll_files (ns : Namespace) (f : List PyStr) (es : List Effect) :
    applyAll { ns with files := f } es = { applyAll ns es with files := f } := by
  induction es generalizing ns with
  | nil => rfl
  | cons e es ih =>
    show applyAll (applyEffect { ns with files := f } e) es = { applyAll (applyEffect ns e) es with files := f }
    rw [← ih]
    cases e <;> rfl

/-! ## Accepted lines are accepted -/

theorem consumePositionals_files (st : CliState) (ho : st.open_ = true) (ts : List Tok) (n : Nat) (hn : matchFiles ts = n + 1) :
    consumePositionals st ts = ({ st with ns := { st.ns with files := ((ts.take (n + 1)).map Tok.word).erase py!"--" }, open_ := false }, n + 1) := by
  unfold consumePositionals
  rw [if_pos ho, hn]

theorem matchFiles_arg (f : PyStr) (r : List Tok) : matchFiles (.arg f :: r) = argDashRun r + 1 := rfl

theorem erase_dash {U} (fs : List PyStr) (hf : ∀ f ∈ fs, FileWord U f) : fs.erase py!"--" = fs :=
  List.erase_of_not_mem (fun h => (hf _ h).1 rfl)

/-- What the loop does from the first file on. -/
theorem loop_files (U) (files : List PyStr) (hne : files ≠ []) (hf : ∀ f ∈ files, FileWord U f) {ws ts}
    (hc : Classified U ws ts) (hl : leadingArgs ts = []) (ho : ts.any Tok.isOpt = true) (st : CliState)
    (hst : st.open_ = true) :
    cliLoop st (files.map .arg ++ ts) = cliLoop { st with ns := { st.ns with files := files }, open_ := false } ts := by
  cases files with
  | nil => exact absurd rfl hne
  | cons f fs =>
    have h0 : argDashRun ts = 0 := by rw [argDashRun_leading hc ho, hl]; rfl
    have hm : matchFiles ((f :: fs).map .arg ++ ts) = fs.length + 1 := by
      rw [List.map_cons, List.cons_append, matchFiles_arg, argDashRun_map, h0, Nat.add_zero]
    have hcp := consumePositionals_files st hst _ _ hm
    rw [List.take_left' (by simp), map_arg_word, erase_dash _ hf] at hcp
    rw [List.map_cons, List.cons_append] at hcp ⊢
    rw [cliLoop_arg _ _ _ rfl (by rw [List.any_cons, List.any_append, ho, Bool.or_true, Bool.or_true]), hcp]
    dsimp only
    rw [List.drop_left' (by simp)]

theorem line_accepted (U) {argv files : List PyStr} {es : List Effect} (h : Line U argv files es) :
    parseArgs U argv = .ok (applyAll { files := files } es) := by
  unfold parseArgs
  cases h with
  | plain before after files hb ha hlast hne hf =>
    obtain ⟨ts2, c2, l2, e2, o2⟩ := loop_pieces U after ha (.nil : Classified U [] []) (fun _ _ _ => rfl)
    rw [List.append_nil] at c2
    have c1 := classified_files files hf c2
    obtain ⟨ts3, c3, l3, -, -⟩ := loop_pieces U before hb c1 (fun p hp hl => by rw [hlast p hp] at hl; cases hl)
    rw [← List.append_assoc] at c3
    rw [(classify_iff U _ _).mpr c3]
    show (cliLoop _ ts3 >>= _) = _
    rw [l3]
    have hend : ∀ st : CliState, st.open_ = false → cliLoop st [] = .ok st := by
      intro st hst
      rw [cliLoop_end _ _ rfl]
      unfold consumePositionals
      rw [if_neg (by simp [hst])]
      simp
    by_cases haf : after = []
    · rw [e2 haf, List.append_nil, cliLoop_end _ _ (by simp [Tok.isOpt])]
      subst haf
      cases files with
      | nil => exact absurd rfl hne
      | cons f fs =>
        have hm : matchFiles ((f :: fs).map .arg) = fs.length + 1 := by
          rw [List.map_cons, matchFiles_arg]
          have := argDashRun_map fs []
          rw [List.append_nil] at this
          rw [this]; rfl
        rw [consumePositionals_files _ rfl _ _ hm]
        dsimp only
        rw [List.take_of_length_le (by simp), List.drop_of_length_le (by simp), map_arg_word, erase_dash _ hf]
        show Except.ok _ = _
        rw [← applyAll_files]
        simp
    · obtain ⟨lead, any⟩ := o2 haf
      rw [loop_files U files hne hf c2 lead any _ rfl, l2]
      dsimp only
      rw [hend _ rfl]
      show Except.ok _ = _
      dsimp only
      rw [← applyAll_files, ← applyAll_append]
  | dashed before files more hb hlast hne hf =>
    have c2 : Classified U (py!"--" :: more) (.dash :: more.map .arg) := .dash more
    have c1 := classified_files files hf c2
    obtain ⟨ts3, c3, l3, -, -⟩ := loop_pieces U before hb c1 (by
      intro p hp hl
      by_cases hfe : files = []
      · subst hfe; rfl
      · rw [hlast hfe p hp] at hl; cases hl)
    rw [show before.flatMap Piece.words ++ files ++ [py!"--"] ++ more =
      before.flatMap Piece.words ++ (files ++ py!"--" :: more) by simp]
    rw [(classify_iff U _ _).mpr c3]
    show (cliLoop _ ts3 >>= _) = _
    rw [l3, cliLoop_end _ _ (by simp [Tok.isOpt])]
    have hm : ∃ n, matchFiles (files.map .arg ++ .dash :: more.map .arg) = n + 1 ∧ n + 1 = files.length + 1 + more.length := by
      have hall : argDashRun (more.map Tok.arg) = more.length := by
        have := argDashRun_map more []
        rw [List.append_nil] at this
        rw [this]; rfl
      cases files with
      | nil =>
        cases more with
        | nil => exact absurd rfl hne
        | cons m ms =>
          refine ⟨ms.length + 1, ?_, by simp; omega⟩
          show (match matchFiles ((m :: ms).map Tok.arg) with | 0 => 0 | n + 1 => n + 2) = _
          have : argDashRun (ms.map Tok.arg) = ms.length := by
            have := argDashRun_map ms []
            rw [List.append_nil] at this
            rw [this]; rfl
          rw [List.map_cons, matchFiles_arg, this]
      | cons f fs =>
        refine ⟨fs.length + (more.length + 1), ?_, by simp; omega⟩
        rw [List.map_cons, List.cons_append, matchFiles_arg, argDashRun_map, argDashRun, hall]
    obtain ⟨n, hm, hn⟩ := hm
    rw [consumePositionals_files _ rfl _ _ hm]
    dsimp only
    have hlen : (files.map Tok.arg ++ Tok.dash :: more.map Tok.arg).length = n + 1 := by simp; omega
    rw [List.take_of_length_le (by omega), List.drop_of_length_le (by omega)]
    have : ((files.map Tok.arg ++ Tok.dash :: more.map Tok.arg).map Tok.word).erase py!"--" = files ++ more := by
      rw [List.map_append, List.map_cons, map_arg_word, map_arg_word,
        List.erase_append_right _ (fun h => (hf _ h).1 rfl)]
      show files ++ (py!"--" :: more).erase py!"--" = _
      rw [List.erase_cons_head]
    rw [this]
    show Except.ok _ = _
    rw [← applyAll_files]

end Atop
