import Verif.Proofs.CliLines
/-!
# Nothing but the lines of the grammar is accepted
-/

namespace Atop
open Spec

/-- One option at the front of an accepted line. -/
theorem loop_opt_inv {U t} {w : PyStr} {ws : List PyStr} {ts : List Tok} {st st' : CliState}
    (hp : parseOptional U w = .ok (some t)) (hc : Classified U ws ts)
    (h : cliLoop st (.opt t w :: ts) = .ok st') (he : st'.extras = []) :
    ∃ p ws' ts', Piece.Valid p ∧ w :: ws = p.words ++ ws' ∧ Classified U ws' ts' ∧ ts'.length ≤ ts.length ∧
      (p.isList = true → leadingArgs ts' = []) ∧
      cliLoop { st with ns := applyAll st.ns p.effects } ts' = .ok st' := by
  have hex := cliLoop_extras_nil h he
  rw [cliLoop_opt] at h
  split at h
  · cases h
  rename_i c hcons
  split at h
  · cases h
  rename_i ns' hns
  have hce : c.extras = [] := by
    have := cliLoop_extras_nil h he
    exact (List.append_eq_nil_iff.mp this).2
  rcases word_inv hp hcons hce hns with ⟨es, hw, htk, rfl⟩ | ⟨es, hw, hF, htk, hx, rfl⟩
  · refine ⟨⟨[w], false, es⟩, ws, ts, .one w es hw, rfl, hc, Nat.le_refl _, nofun, ?_⟩
    rw [htk, hce, List.append_nil] at h
    exact h
  · obtain ⟨ws', h1, h2, h3, h4, h5⟩ := classified_leading hc
    refine ⟨⟨w :: leadingArgs ts, true, _⟩, ws', ts.drop (leadingArgs ts).length, .list w es _ hw hF hx,
      by rw [h1]; rfl, h3, by rw [List.length_drop]; omega, fun _ => h4, ?_⟩
    rw [htk, hce, List.append_nil] at h
    exact h

/-- After the files only options are accepted. -/
theorem loop_closed_inv (U) : ∀ (n : Nat) (ts : List Tok), ts.length ≤ n → ∀ (ws : List PyStr) (st st' : CliState),
    Classified U ws ts → st.open_ = false → cliLoop st ts = .ok st' → st'.extras = [] →
    ∃ ps : List Piece, (∀ p ∈ ps, p.Valid) ∧ ws = ps.flatMap Piece.words ∧
      st'.ns = applyAll st.ns (ps.flatMap Piece.effects) := by
  intro n
  have hend : ∀ (ts : List Tok) (ws : List PyStr) (st st' : CliState), Classified U ws ts → ts.any Tok.isOpt = false →
      st.open_ = false → cliLoop st ts = .ok st' → st'.extras = [] → ws = [] ∧ st'.ns = st.ns := by
    intro ts ws st st' hc ho hst h he
    rw [cliLoop_end _ _ ho] at h
    obtain rfl := Except.ok.inj h
    have hcp : consumePositionals st ts = (st, 0) := by unfold consumePositionals; rw [if_neg (by simp [hst])]
    rw [hcp] at he ⊢
    dsimp only at he
    have : ts = [] := by simpa using (List.append_eq_nil_iff.mp he).2
    subst this
    cases hc
    exact ⟨rfl, rfl⟩
  induction n with
  | zero =>
    intro ts hn ws st st' hc hst h he
    have : ts = [] := by simpa using hn
    subst this
    obtain ⟨h1, h2⟩ := hend _ _ _ _ hc rfl hst h he
    exact ⟨[], nofun, h1, h2⟩
  | succ n ih =>
    intro ts hn ws st st' hc hst h he
    by_cases ho : ts.any Tok.isOpt = true
    · have harg : ∀ (x : Tok) (r : List Tok), x.isOpt = false → ts = x :: r → False := by
        rintro x r hx rfl
        rw [cliLoop_arg _ _ _ hx ho] at h
        have hcp : consumePositionals st (x :: r) = (st, 0) := by unfold consumePositionals; rw [if_neg (by simp [hst])]
        rw [hcp] at h
        have := cliLoop_extras_nil h he
        simp [hx] at this
      cases hc with
      | nil => cases ho
      | dash ws => exact (harg _ _ rfl rfl).elim
      | arg w ws ts => exact (harg _ _ rfl rfl).elim
      | opt w t ws ts hw hp hc =>
        obtain ⟨p, ws', ts', hv, e1, c1, l1, _, h1⟩ := loop_opt_inv hp hc h he
        rw [List.length_cons] at hn
        obtain ⟨ps, hps, e2, e3⟩ := ih ts' (by omega) ws' _ st' c1 (by exact hst) h1 he
        refine ⟨p :: ps, ?_, ?_, ?_⟩
        · intro q hq
          rcases List.mem_cons.mp hq with rfl | hq
          · exact hv
          · exact hps q hq
        · rw [e1, e2, List.flatMap_cons]
        · rw [e3, List.flatMap_cons, applyAll_append]
    · obtain ⟨h1, h2⟩ := hend _ _ _ _ hc (by simpa using ho) hst h he
      exact ⟨[], nofun, h1, h2⟩

/-- An option in front of an accepted line: a list of parseables must not be followed by a file. -/
theorem Line.cons {U} {p : Piece} (hp : p.Valid) {ws files : List PyStr} {es : List Effect} (h : Line U ws files es)
    (hl : p.isList = true → ∀ w r, ws = w :: r → ¬ FileWord U w) :
    Line U (p.words ++ ws) files (p.effects ++ es) := by
  have hall : ∀ (before : List Piece), (∀ q ∈ before, q.Valid) → ∀ q ∈ p :: before, q.Valid := by
    intro before hb q hq
    rcases List.mem_cons.mp hq with rfl | hq
    · exact hp
    · exact hb q hq
  have hlast : ∀ (before : List Piece) (files rest : List PyStr), files ≠ [] → (∀ f ∈ files, FileWord U f) →
      (∀ q, before.getLast? = some q → q.isList = false) → ws = before.flatMap Piece.words ++ files ++ rest →
      ∀ q, (p :: before).getLast? = some q → q.isList = false := by
    intro before files rest hne hf hb hws q hq
    cases before with
    | nil =>
      cases hq
      cases files with
      | nil => exact absurd rfl hne
      | cons f fs =>
        cases hli : p.isList with
        | false => exact hli
        | true => exact absurd (hf f (by simp)) (hl hli f _ hws)
    | cons b bs => rw [List.getLast?_cons_cons] at hq; exact hb q hq
  cases h with
  | plain before after files hb ha hla hne hf =>
    have := Line.plain (U := U) (p :: before) after files (hall _ hb) ha (hlast before files _ hne hf hla rfl) hne hf
    simpa [List.flatMap_cons, List.append_assoc] using this
  | dashed before files more hb hla hne hf =>
    have := Line.dashed (U := U) (p :: before) files more (hall _ hb)
      (fun h => hlast before files (py!"--" :: more) h hf (hla h) (by simp)) hne hf
    simpa [List.flatMap_cons, List.append_assoc] using this

theorem loop_open_inv (U) : ∀ (n : Nat) (ts : List Tok), ts.length ≤ n → ∀ (ws : List PyStr) (st st' : CliState),
    Classified U ws ts → st.open_ = true → cliLoop st ts = .ok st' → st'.extras = [] → st'.open_ = false →
    ∃ files es, Line U ws files es ∧ st'.ns = applyAll { st.ns with files := files } es := by
  intro n
  have hend : ∀ (ts : List Tok) (ws : List PyStr) (st st' : CliState), Classified U ws ts → ts.any Tok.isOpt = false →
      st.open_ = true → cliLoop st ts = .ok st' → st'.extras = [] → st'.open_ = false → 
      ∃ files es, Line U ws files es ∧ st'.ns = applyAll { st.ns with files := files } es := by
    intro ts ws st st' hc ho hst h he hop
    obtain ⟨fs, hf, hsh⟩ := no_opt_shape hc ho
    have hno : matchFiles ts ≠ 0 := by
      intro h0
      rw [cliLoop_end _ _ ho] at h
      obtain rfl := Except.ok.inj h
      have : consumePositionals st ts = (st, 0) := by unfold consumePositionals; rw [if_pos hst, h0]
      rw [this] at hop
      dsimp only at hop
      rw [hst] at hop; cases hop
    have hln : ∀ files es, Line U ws files es → es = [] → 
        (∃ n, matchFiles ts = n + 1 ∧ ((ts.take (n + 1)).map Tok.word).erase py!"--" = files) →
        ∃ files es, Line U ws files es ∧ st'.ns = applyAll { st.ns with files := files } es := by
      rintro files es hl rfl ⟨n, hm, hfe⟩
      refine ⟨files, [], hl, ?_⟩
      rw [cliLoop_end _ _ ho] at h
      obtain rfl := Except.ok.inj h
      rw [consumePositionals_files st hst ts n hm, hfe]
      rfl
    rcases hsh with ⟨rfl, rfl⟩ | ⟨more, rfl, rfl⟩
    · cases ws with
      | nil => exact absurd rfl hno
      | cons f fs =>
        refine hln (f :: fs) [] ?_ rfl ⟨fs.length, ?_, ?_⟩
        · simpa using Line.plain (U := U) [] [] (f :: fs) nofun nofun nofun (by simp) hf
        · rw [List.map_cons, matchFiles_arg]
          have := argDashRun_map fs []
          rw [List.append_nil] at this
          rw [this]; rfl
        · rw [List.take_of_length_le (by simp), map_arg_word, erase_dash _ hf]
    · have hrun : argDashRun (more.map Tok.arg) = more.length := by
        have := argDashRun_map more []
        rw [List.append_nil] at this
        rw [this]; rfl
      have hne : fs ++ more ≠ [] := by
        intro h0
        obtain ⟨rfl, rfl⟩ := List.append_eq_nil_iff.mp h0
        exact hno rfl
      have hfe : ((fs.map Tok.arg ++ Tok.dash :: more.map Tok.arg).map Tok.word).erase py!"--" = fs ++ more := by
        rw [List.map_append, List.map_cons, map_arg_word, map_arg_word,
          List.erase_append_right _ (fun h => (hf _ h).1 rfl)]
        show fs ++ (py!"--" :: more).erase py!"--" = _
        rw [List.erase_cons_head]
      refine hln (fs ++ more) [] ?_ rfl ⟨fs.length + more.length, ?_, ?_⟩
      · simpa using Line.dashed (U := U) [] fs more nofun nofun hne hf
      · cases fs with
        | nil =>
          cases more with
          | nil => exact absurd rfl hne
          | cons m ms =>
            show (match matchFiles ((m :: ms).map Tok.arg) with | 0 => 0 | n + 1 => n + 2) = _
            have : argDashRun (ms.map Tok.arg) = ms.length := by
              have := argDashRun_map ms []
              rw [List.append_nil] at this
              rw [this]; rfl
            rw [List.map_cons, matchFiles_arg, this]
            simp
        | cons f fs =>
          rw [List.map_cons, List.cons_append, matchFiles_arg, argDashRun_map, argDashRun, hrun, List.length_cons]
          omega
      · rw [List.take_of_length_le (by simp; omega)]
        exact hfe
  induction n with
  | zero =>
    intro ts hn ws st st' hc hst h he hop
    have : ts = [] := by simpa using hn
    subst this
    exact hend _ _ _ _ hc rfl hst h he hop
  | succ n ih =>
    intro ts hn ws st st' hc hst h he hop
    by_cases ho : ts.any Tok.isOpt = true
    · cases hc with
      | nil => cases ho
      | dash ws => simp [Tok.isOpt] at ho
      | arg w ws ts hw hp hc =>
        have hcw : Classified U (w :: ws) (.arg w :: ts) := .arg w ws ts hw hp hc
        obtain ⟨ws', h1, h2, h3, h4, h5⟩ := classified_leading hcw
        have hne : leadingArgs (.arg w :: ts) ≠ [] := by simp [leadingArgs]
        have ho' : (List.drop (leadingArgs (.arg w :: ts)).length (.arg w :: ts)).any Tok.isOpt = true := by
          rw [h2, List.any_append] at ho
          simpa [Tok.isOpt] using ho
        rw [h2, loop_files U _ hne h5 h3 h4 ho' st hst] at h
        obtain ⟨ps, hps, e2, e3⟩ := loop_closed_inv U _ _ (Nat.le_refl _) _ _ _ h3 rfl h he
        refine ⟨leadingArgs (.arg w :: ts), ps.flatMap Piece.effects, ?_, e3⟩
        rw [h1, e2]
        simpa using Line.plain (U := U) [] ps _ nofun hps nofun hne h5
      | opt w t ws ts hw hp hc =>
        obtain ⟨p, ws', ts', hv, e1, c1, l1, hli, h1⟩ := loop_opt_inv hp hc h he
        rw [List.length_cons] at hn
        obtain ⟨files, es, hl, e2⟩ := ih ts' (by omega) ws' _ st' c1 (by exact hst) h1 he hop
        refine ⟨files, p.effects ++ es, ?_, ?_⟩
        · rw [e1]
          exact Line.cons hv hl (fun h => classified_head c1 (hli h))
        · rw [e2, applyAll_append, applyAll_files st.ns files p.effects]
    · exact hend _ _ _ _ hc (by simpa using ho) hst h he hop

theorem accepted_line (U) {argv : List PyStr} {ns : Namespace} (h : parseArgs U argv = .ok ns) :
    ∃ files es, Line U argv files es ∧ ns = applyAll { files := files } es := by
  unfold parseArgs at h
  cases hc : classify U argv with
  | error e => rw [hc] at h; cases h
  | ok ts =>
    rw [hc] at h
    change (cliLoop _ ts >>= _) = _ at h
    cases hl : cliLoop { ns := { files := [] } } ts with
    | error e => rw [hl] at h; cases h
    | ok st =>
      rw [hl] at h
      change (if _ then _ else _) = _ at h
      split at h
      · cases h
      · rename_i hb
        have hb' : st.open_ = false ∧ st.extras = [] := by simpa using hb
        cases h
        obtain ⟨files, es, h1, h2⟩ := loop_open_inv U _ ts (Nat.le_refl _) argv _ st ((classify_iff U _ _).mp hc) rfl hl hb'.2 hb'.1
        exact ⟨files, es, h1, h2⟩

/-! ## The settings -/

theorem lastParseables_cons (e : Effect) (es : List Effect) :
    lastParseables (e :: es) = (lastParseables es).or (lastParseables [e]) := by
  cases h : lastParseables es <;> cases e <;> simp [lastParseables, h]

theorem applyAll_fields (es : List Effect) (ns : Namespace) :
    (applyAll ns es).files = ns.files ∧ (applyAll ns es).parseables = (lastParseables es).or ns.parseables ∧
    ((applyAll ns es).prettyPrint = true ↔ ns.prettyPrint = true ∨ .pretty ∈ es) ∧
    ((applyAll ns es).showTstats = true ↔ ns.showTstats = true ∨ .tstats ∈ es) ∧
    ((applyAll ns es).showCstats = true ↔ ns.showCstats = true ∨ .cstats ∈ es) := by
  induction es generalizing ns with
  | nil => simp [applyAll, lastParseables]
  | cons e es ih =>
    obtain ⟨h1, h2, h3, h4, h5⟩ := ih (applyEffect ns e)
    change (applyAll (applyEffect ns e) es).files = _ ∧ (applyAll (applyEffect ns e) es).parseables = _ ∧
      ((applyAll (applyEffect ns e) es).prettyPrint = true ↔ _) ∧ ((applyAll (applyEffect ns e) es).showTstats = true ↔ _) ∧
      ((applyAll (applyEffect ns e) es).showCstats = true ↔ _)
    rw [h1, h2, h3, h4, h5, lastParseables_cons]
    cases e <;> cases lastParseables es <;> simp [applyEffect, lastParseables]

theorem settings_iff (files : List PyStr) (es : List Effect) (ns : Namespace) :
    Settings files es ns ↔ ns = applyAll { files := files } es := by
  obtain ⟨h1, h2, h3, h4, h5⟩ := applyAll_fields es { files := files }
  constructor
  · intro h
    obtain ⟨g1, g2, g3, g4, g5⟩ := h
    have beq : ∀ {a b : Bool} {P : Prop}, (a = true ↔ P) → (b = true ↔ false = true ∨ P) → a = b := by
      intro a b P ha hb
      rw [Bool.eq_iff_iff, ha, hb]; simp
    have e1 : ns.files = (applyAll { files := files } es).files := by rw [g1, h1]
    have e2 : ns.parseables = (applyAll { files := files } es).parseables := by
      rw [g2, h2]; cases lastParseables es <;> rfl
    have e3 := beq g3 h3
    have e4 := beq g4 h4
    have e5 := beq g5 h5
    generalize applyAll { files := files } es = m at *
    cases ns; cases m
    dsimp only at e1 e2 e3 e4 e5
    rw [e1, e2, e3, e4, e5]
  · rintro rfl
    refine ⟨h1, ?_, by rw [h3]; simp, by rw [h4]; simp, by rw [h5]; simp⟩
    rw [h2]; cases lastParseables es <;> rfl

/-! ## The words of options -/

theorem oneWord_dash {w : PyStr} {es : List Effect} (h : OneWord w es) : w.head? = some 45 := by
  have hab : ∀ {w : PyStr} {o : PyStr × Opt}, o ∈ optionStrings → o.1[1]? = some 45 → Abbreviates w o.1 → w.head? = some 45 := by
    intro w o ho h1 h
    rw [(abbreviates_matches ho h1 h).2.2]; rfl
  cases h with
  | p k => rfl
  | pretty w h => exact hab (o := (py!"--pretty-print", .prettyPrint)) (by decide) rfl h
  | tstats w h => exact hab (o := (py!"--tstats", .tstats)) (by decide) rfl h
  | cstats w h => exact hab (o := (py!"--cstats", .cstats)) (by decide) rfl h
  | P k eq x hx => rfl
  | parseables w x h hx =>
    have := hab (o := (py!"--parseables", .parseables)) (by decide) rfl h
    cases w with
    | nil => cases this
    | cons c w => exact this

theorem listWord_dash {w : PyStr} {es : List Effect} (h : ListWord w es) : w.head? = some 45 := by
  cases h with
  | P k => rfl
  | parseables w h =>
    rw [(abbreviates_matches (o := (py!"--parseables", .parseables)) (by decide) rfl h).2.2]; rfl

theorem piece_words {p : Piece} (h : p.Valid) : ∀ w ∈ p.words, w.head? = some 45 ∨ w ∈ parseableNames := by
  cases h with
  | one w es hw => intro x hx; rw [List.mem_singleton.mp hx]; exact .inl (oneWord_dash hw)
  | list w es names hw hne hx =>
    intro x hm
    rcases List.mem_cons.mp hm with rfl | hm
    · exact .inl (listWord_dash hw)
    · exact .inr (hx x hm)

theorem pieces_words {ps : List Piece} (h : ∀ p ∈ ps, p.Valid) :
    ∀ w ∈ ps.flatMap Piece.words, w.head? = some 45 ∨ w ∈ parseableNames := by
  intro w hw
  obtain ⟨p, hp, hw⟩ := List.mem_flatMap.mp hw
  exact piece_words (h p hp) w hw

theorem oneWord_names {w : PyStr} {es : List Effect} (h : OneWord w es) : ∀ ps, .parseables ps ∈ es →
    ps ≠ [] ∧ ∀ x ∈ ps, x ∈ parseableNames := by
  intro ps hm
  cases h with
  | p k => cases (List.mem_replicate.mp hm).2
  | pretty w h => cases List.mem_singleton.mp hm
  | tstats w h => cases List.mem_singleton.mp hm
  | cstats w h => cases List.mem_singleton.mp hm
  | P k eq x hx =>
    rcases List.mem_append.mp hm with hm | hm
    · cases (List.mem_replicate.mp hm).2
    · cases List.mem_singleton.mp hm
      exact ⟨by simp, fun y hy => by rw [List.mem_singleton.mp hy]; exact hx⟩
  | parseables w x h hx =>
    cases List.mem_singleton.mp hm
    exact ⟨by simp, fun y hy => by rw [List.mem_singleton.mp hy]; exact hx⟩

theorem piece_names {p : Piece} (h : p.Valid) : ∀ ps, .parseables ps ∈ p.effects →
    ps ≠ [] ∧ ∀ x ∈ ps, x ∈ parseableNames := by
  intro ps hm
  cases h with
  | one w es hw => exact oneWord_names hw ps hm
  | list w es names hw hne hx =>
    rcases List.mem_append.mp hm with hm' | hm
    · cases hw with
      | P k => cases (List.mem_replicate.mp hm').2
      | parseables w h => cases hm'
    · cases List.mem_singleton.mp hm
      exact ⟨hne, hx⟩

theorem lastParseables_mem {es : List Effect} {ps : List PyStr} (h : lastParseables es = some ps) : .parseables ps ∈ es := by
  induction es with
  | nil => cases h
  | cons e es ih =>
    rw [lastParseables_cons] at h
    cases hl : lastParseables es with
    | some qs => rw [hl] at h ih; exact List.mem_cons_of_mem _ (ih h)
    | none =>
      rw [hl] at h
      cases e with
      | parseables qs => cases h; simp
      | pretty => cases h
      | tstats => cases h
      | cstats => cases h

/-! ## Every option is reached -/

theorem consumeExplicit_taken (F : List PyStr) : ∀ (n : Nat) (a : Opt) (os sep e : PyStr) (c : Consumed), e.length ≤ n →
    consumeExplicit F a os sep e = .ok c → c.taken ≤ F.length := by
  have hfol : ∀ (a : Opt) (c : Consumed), consumeFollowing F a = .ok c → c.taken ≤ F.length := by
    intro a c h
    unfold consumeFollowing at h
    split at h
    · cases h
    · rename_i n hn
      cases h
      dsimp only
      cases a <;> simp [matchArgument] at hn <;> omega
  have hnil : ∀ (a : Opt) (os sep : PyStr) (c : Consumed), consumeExplicit F a os sep [] = .ok c → c.taken ≤ F.length := by
    intro a os sep c h
    rw [consumeExplicit.eq_def, if_neg (by simp)] at h
    split at h
    · cases h; exact Nat.zero_le _
    · cases h
  intro n
  induction n with
  | zero =>
    intro a os sep e c hn h
    have : e = [] := by simpa using hn
    subst this
    exact hnil _ _ _ _ h
  | succ n ih =>
    intro a os sep e c hn h
    cases e with
    | nil => exact hnil _ _ _ _ h
    | cons x cs =>
      rw [consumeExplicit.eq_def] at h
      dsimp only at h
      split at h
      · split at h
        · cases h
        split at h
        · cases h; exact Nat.zero_le _
        rename_i a' _
        simp only [List.length_cons] at hn
        cases cs with
        | nil =>
          cases hc : consumeFollowing F a' with
          | error e => rw [hc] at h; cases h
          | ok r => rw [hc] at h; cases h; exact hfol a' r hc
        | cons d ds =>
          simp only [List.length_cons] at hn
          by_cases hd : d = 61
          · subst hd
            cases hc : consumeExplicit F a' [45, x] py!"=" ds with
            | error e => simp only [hc] at h; cases h
            | ok r => simp only [hc] at h; cases h; exact ih _ _ _ _ r (by omega) hc
          · cases hc : consumeExplicit F a' [45, x] [] (d :: ds) with
            | error e => simp only [hc] at h; cases h
            | ok r => simp only [hc] at h; cases h; exact ih _ _ _ _ r (by simp; omega) hc
      · split at h
        · cases h; exact Nat.zero_le _
        · cases h

theorem consumeOptional_taken {t : OptTuple} {w : PyStr} {F : List PyStr} {c : Consumed} (h : consumeOptional t w F = .ok c) :
    c.taken ≤ F.length := by
  unfold consumeOptional at h
  cases ha : t.action with
  | none => rw [ha] at h; cases h; exact Nat.zero_le _
  | some a =>
    rw [ha] at h
    dsimp only at h
    cases he : t.explicitArg with
    | none =>
      rw [he] at h
      change consumeFollowing F a = _ at h
      unfold consumeFollowing at h
      split at h
      · cases h
      · rename_i n hn
        cases h
        dsimp only
        cases a <;> simp [matchArgument] at hn <;> omega
    | some e => rw [he] at h; exact consumeExplicit_taken F _ _ _ _ _ c (Nat.le_refl _) h

theorem leadingArgs_opt (a : List Tok) (t w r) : (leadingArgs (a ++ .opt t w :: r)).length ≤ a.length := by
  induction a with
  | nil => exact Nat.le_refl _
  | cons x a ih => cases x <;> simp [leadingArgs, ih]

theorem argDashRun_opt (a : List Tok) (t w r) : argDashRun (a ++ .opt t w :: r) ≤ a.length := by
  induction a with
  | nil => exact Nat.le_refl _
  | cons x a ih => cases x <;> simp [argDashRun, ih]

theorem matchFiles_opt (a : List Tok) (t w r) : matchFiles (a ++ .opt t w :: r) ≤ a.length := by
  induction a with
  | nil => exact Nat.le_refl _
  | cons x a ih =>
    cases x with
    | opt _ _ => exact Nat.zero_le _
    | arg _ =>
      have := argDashRun_opt a t w r
      simp only [List.cons_append, matchFiles, List.length_cons]; omega
    | dash =>
      simp only [List.cons_append, matchFiles, List.length_cons]
      split <;> omega

/-- The loop comes to every option of the line. -/
theorem loop_reaches (t : OptTuple) (w : PyStr) (r : List Tok) : ∀ (n : Nat) (a : List Tok), a.length ≤ n → ∀ (st st' : CliState),
    cliLoop st (a ++ .opt t w :: r) = .ok st' → ∃ st1, cliLoop st1 (.opt t w :: r) = .ok st' := by
  intro n
  induction n with
  | zero =>
    intro a hn st st' h
    have : a = [] := by simpa using hn
    subst this
    exact ⟨st, h⟩
  | succ n ih =>
    intro a hn st st' h
    cases a with
    | nil => exact ⟨st, h⟩
    | cons x a =>
      rw [List.length_cons] at hn
      rw [List.cons_append] at h
      by_cases hx : x.isOpt = true
      · cases x with
        | arg _ => cases hx
        | dash => cases hx
        | opt t' w' =>
          rw [cliLoop_opt] at h
          split at h
          · cases h
          rename_i c hc
          split at h
          · cases h
          have ht := consumeOptional_taken hc
          have hl := leadingArgs_opt a t w r
          rw [List.drop_append_of_le_length (by omega)] at h
          exact ih _ (by rw [List.length_drop]; omega) _ _ h
      · have hx : x.isOpt = false := by simpa using hx
        rw [cliLoop_arg _ _ _ hx (by simp [Tok.isOpt])] at h
        split at h
        · rename_i st1 hs
          have : ∀ (a : List Tok), ∃ a', a'.length ≤ a.length ∧
              (a ++ .opt t w :: r).dropWhile (!Tok.isOpt ·) = a' ++ .opt t w :: r := by
            intro a
            induction a with
            | nil => exact ⟨[], Nat.le_refl _, rfl⟩
            | cons y a ih =>
              by_cases hy : y.isOpt = true
              · exact ⟨y :: a, Nat.le_refl _, by rw [List.cons_append, List.dropWhile_cons]; simp [hy]⟩
              · obtain ⟨a', h1, h2⟩ := ih
                refine ⟨a', by simp; omega, ?_⟩
                rw [List.cons_append, List.dropWhile_cons, if_pos (by simp [hy]), h2]
          obtain ⟨a', h1, h2⟩ := this a
          rw [h2] at h
          exact ih a' (by omega) _ _ h
        · rename_i st1 m hs
          have hm := matchFiles_opt (x :: a) t w r
          have : m + 1 ≤ matchFiles (x :: a ++ .opt t w :: r) := by
            unfold consumePositionals at hs
            split at hs
            · split at hs
              · cases hs
              · rename_i k hk
                rw [List.cons_append, hk]
                cases hs; omega
            · cases hs
          rw [List.length_cons] at hm
          rw [List.drop_append_of_le_length (by omega)] at h
          exact ih _ (by rw [List.length_drop]; omega) _ _ h

/-- The classification of a line that has no `--` up to some word. -/
theorem classified_split {U} : ∀ (pre post : List PyStr) (ts : List Tok), py!"--" ∉ pre → Classified U (pre ++ post) ts →
    ∃ a b, ts = a ++ b ∧ Classified U post b
  | [], post, ts, _, h => ⟨[], ts, rfl, h⟩
  | w :: pre, post, ts, hn, h => by
    rw [List.mem_cons, not_or] at hn
    rw [List.cons_append] at h
    generalize hl : pre ++ post = l at h
    cases h with
    | dash => exact absurd rfl hn.1
    | arg _ _ ts hw hp hc =>
      obtain ⟨a, b, rfl, h2⟩ := classified_split pre post ts hn.2 (hl ▸ hc)
      exact ⟨_ :: a, b, rfl, h2⟩
    | opt _ t _ ts hw hp hc =>
      obtain ⟨a, b, rfl, h2⟩ := classified_split pre post ts hn.2 (hl ▸ hc)
      exact ⟨_ :: a, b, rfl, h2⟩

/-- In an accepted line, a word before any `--` that is not a file word is an option of the grammar, and what
follows the word of a list of parseables is known. -/
theorem option_inv {U} {pre post : List PyStr} {w : PyStr} {ns : Namespace} (hn : py!"--" ∉ pre) (hw : w ≠ py!"--")
    (hf : ¬ FileWord U w) (h : parseArgs U (pre ++ w :: post) = .ok ns) :
    (∃ es, OneWord w es) ∨ ((∃ es, ListWord w es) ∧ ∃ names rest, post = names ++ rest ∧ names ≠ [] ∧
      (∀ x ∈ names, x ∈ parseableNames) ∧ ∀ y r, rest = y :: r → ¬ FileWord U y) := by
  unfold parseArgs at h
  cases hc : classify U (pre ++ w :: post) with
  | error e => rw [hc] at h; cases h
  | ok ts =>
    rw [hc] at h
    change (cliLoop _ ts >>= _) = _ at h
    cases hl : cliLoop { ns := { files := [] } } ts with
    | error e => rw [hl] at h; cases h
    | ok st =>
      rw [hl] at h
      change (if _ then _ else _) = _ at h
      split at h
      · cases h
      rename_i hb
      have hb' : st.open_ = false ∧ st.extras = [] := by simpa using hb
      obtain ⟨a, b, rfl, hcb⟩ := classified_split pre _ ts hn ((classify_iff U _ _).mp hc)
      cases hcb with
      | dash => exact absurd rfl hw
      | arg _ _ ts' _ hp _ => exact absurd ((fileWord_iff U w hw).mpr hp) hf
      | opt _ t _ ts' _ hp hc' =>
        obtain ⟨st1, h1⟩ := loop_reaches t w ts' _ a (Nat.le_refl _) _ _ hl
        have hex := cliLoop_extras_nil h1 hb'.2
        rw [cliLoop_opt] at h1
        split at h1
        · cases h1
        rename_i c hcons
        split at h1
        · cases h1
        rename_i ns' hns
        have hce : c.extras = [] := (List.append_eq_nil_iff.mp (cliLoop_extras_nil h1 hb'.2)).2
        rcases word_inv hp hcons hce hns with ⟨es, hw, -⟩ | ⟨es, hw, hF, -, hx, -⟩
        · exact .inl ⟨es, hw⟩
        · obtain ⟨ws', g1, -, g3, g4, -⟩ := classified_leading hc'
          exact .inr ⟨⟨es, hw⟩, leadingArgs ts', ws', g1, hF, hx, classified_head g3 g4⟩

end Atop
