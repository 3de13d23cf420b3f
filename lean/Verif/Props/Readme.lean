import Verif.Proofs.Readme
/-!
# C75: the examples of the README

They are executed from the text of the README, with the functions of the package executed from theirs.
-/

namespace Atop.Src
open Spec
set_option maxRecDepth 20000

section
variable (Z : Zlib) (fs : FileSystem) (args : CommandLine)

local notation "P" => program Z fs args

/-- The header is not read: the container breaks off inside it, or it is refused. -/
def Unread (s : Stream) (e : Exc) : Prop :=
  (s.short = some e ∧ s.rest.length < 480) ∨ ((s.short = none ∨ 480 ≤ s.rest.length) ∧ RefusedWith (first480 s.rest) e)

theorem unread_header {s : Stream} {e : Exc} (h : Unread s e) : (getHeader true s).1 = .error e := by
  rcases h with ⟨h1, h2⟩ | ⟨h1, h2⟩
  · exact C09_damaged_container s e h1 h2 true
  · exact (refused_iff h1 e).mpr h2

theorem unread_obj {n : Nat} {s : Stream} (hl : LibFile s) {e : Exc} (h : Unread s e) {G : Globals}
    (hG : G py!"atoparser" = some (.mod py!"atoparser")) {env : Env} (hf : env "raw_file" = some .file) {b : Block} :
    ∃ w', execBlock ((P).at (n + 5)) G none
      (.cons (.assign (.name "header") (.call (.attr (.glob py!"atoparser") py!"get_header") exprs![(.name "raw_file")] .nil)) b) env (emb [] { file := s }) =
        .ret (.exc (embExc e), env) (emb [] w') := by
  have hcall := assign_header (Z := Z) (fs := fs) (args := args) (n := n) (out := []) hG hf (w := { file := s }) hl
  have hx := unread_header h
  obtain ⟨-, -, -, g4⟩ := C65_get_header { file := s } nofun true
  rcases hm : Obj.getHeader true { file := s } with ⟨e' | j, w'⟩
  · rw [hm] at g4 hcall
    dsimp only at g4
    rw [hx] at g4
    subst g4
    exact ⟨w', block_exc (exec_assign_err hcall)⟩
  · rw [hm] at g4
    dsimp only at g4
    rw [hx] at g4
    exact g4.elim

/-- **C75** The first example of the README, with any path.  A file that cannot be opened, whose container breaks off inside
the header or whose header is refused ends it with that exception and nothing printed.  Otherwise it prints, for each sample
that the reference decoder finds and in that order, the line of the idle ticks and the ticks of the literal positions of that
sample's bytes; it ends as the iteration ends, or with a `ZeroDivisionError` at the first sample without ticks. -/
theorem C75_usage (n : Nat) (hfs : LibFiles fs) (file : PyStr) :
    let run := runExample ((P).at (n + 5)) Text.Readme.imports1 Text.Readme.example1 file
    (∀ e, fs file false = .error e → run.1 = .error (embExc e) ∧ run.2.out = []) ∧
    ∀ s, fs file false = .ok s →
      (∀ e, Unread s e → run.1 = .error (embExc e) ∧ run.2.out = []) ∧
      ((s.short = none ∨ 480 ≤ s.rest.length) → Accepts (first480 s.rest) → ∀ found t,
        decodeLog Z (usedRow (first480 s.rest)) (readsCGroups (first480 s.rest)) s.short.isNone 86400 (s.rest.drop 480) = (found, t) →
        UsageRun (first480 s.rest) (loopEnd s.short t) found run.1 run.2.out) := by
  obtain ⟨r1, r2⟩ := run_with (Z := Z) (fs := fs) (args := args) (n := n) (imports := Text.Readme.imports1) example1_text rfl file
  have hlib := hfs file false
  refine ⟨fun e he => ?_, fun s hs => ?_⟩
  · rw [he] at hlib
    rw [r1 e he]
    exact ⟨by rw [show embExc e = .sys e from hlib], rfl⟩
  · rw [hs] at hlib
    obtain ⟨env, henv, hrun⟩ := r2 s hs
    refine ⟨fun e he => ?_, fun enough hA found t hd => ?_⟩
    · obtain ⟨w', hw⟩ := unread_obj Z fs args (n := n) hlib he (imports1_atop _) henv
      rw [hrun _ _ _ hw]
      exact ⟨rfl, rfl⟩
    · obtain ⟨c, hc, hx⟩ := C08_header_result s enough hA
      obtain ⟨d1, d2⟩ := C53_decoder Z hx true (MAX_SAMPLES_PER_FILE : Nat) { s with pos := s.pos + min 480 s.rest.length } (fs := found) (t := t) (by
        have e1 : Stream.rest { s with pos := s.pos + min 480 s.rest.length } = s.rest.drop 480 := Stream.skip_rest s 480
        rw [e1]; exact hd)
      obtain ⟨ctl, env', w', u, q1, q2⟩ := usage_run (Z := Z) (fs := fs) (args := args) (n := n) (out := []) hlib hx (usedRow_mem _) hc (imports1_atop _) rfl henv
      rw [hrun _ _ _ q1]
      obtain ⟨r, k1, k2⟩ := ran_usage q2 d1
      have hend : ∀ en, endVal en = lastOut s.short true t → endRes en = loopEnd s.short t := by
        intro en h
        unfold loopEnd
        rw [← h]
        cases en <;> rfl
      rw [hend _ (lastOut_eq d2)] at k2
      rcases k1 with ⟨rfl, rfl⟩ | ⟨e, rfl, rfl⟩ <;> exact k2

/-- **C75** The second example of the README, with any path: when the header is accepted it prints JSON text that denotes
exactly one thing, and that says the members of the header by the literal layout of the version in use; otherwise it ends
with the exception, and nothing printed. -/
theorem C75_header_json (n : Nat) (hfs : LibFiles fs) (file : PyStr) :
    let run := runExample ((P).at (n + 5)) Text.Readme.imports2 Text.Readme.example2 file
    (∀ e, fs file false = .error e → run.1 = .error (embExc e) ∧ run.2.out = []) ∧
    ∀ s, fs file false = .ok s →
      (∀ e, Unread s e → run.1 = .error (embExc e) ∧ run.2.out = []) ∧
      ((s.short = none ∨ 480 ≤ s.rest.length) → Accepts (first480 s.rest) → run.1 = .ok .none ∧
        ∃ B d a, layoutOf (usedRow (first480 s.rest)).version = some B ∧ B.header.Shows (first480 s.rest) 0 d ∧ Says d a ∧
          JsonText true run.2.out a ∧ ∀ b, JsonText true run.2.out b → b = a) := by
  obtain ⟨r1, r2⟩ := run_with (Z := Z) (fs := fs) (args := args) (n := n) (imports := Text.Readme.imports2) example2_text rfl file
  have hlib := hfs file false
  refine ⟨fun e he => ?_, fun s hs => ?_⟩
  · rw [he] at hlib
    rw [r1 e he]
    exact ⟨by rw [show embExc e = .sys e from hlib], rfl⟩
  · rw [hs] at hlib
    obtain ⟨env, henv, hrun⟩ := r2 s hs
    refine ⟨fun e he => ?_, fun enough hA => ?_⟩
    · obtain ⟨w', hw⟩ := unread_obj Z fs args (n := n) hlib he (imports2_atop _) henv
      rw [hrun _ _ _ hw]
      exact ⟨rfl, rfl⟩
    · obtain ⟨c, hc, hx⟩ := C08_header_result s enough hA
      obtain ⟨-, B, -, hB, -⟩ := layout_facts (usedRow_mem (first480 s.rest))
      obtain ⟨env', w', d, t, q1, q2, a, q3, q4, q5⟩ := json_run (Z := Z) (fs := fs) (args := args) (n := n) (out := []) hlib hx (usedRow_mem _) hc hB (imports2_atop _) rfl rfl henv
      rw [hrun _ _ _ q1]
      exact ⟨rfl, B, d, a, hB, q2, q3, q4, q5⟩

/-- **C75** The first example on a log as atop writes it, of any supported version and with at most 86400 samples: when every
sample lasted some ticks it prints exactly one line per sample, in order, and ends normally. -/
theorem C75_written (n : Nat) (hfs : LibFiles fs) (file : PyStr) {r : Row} (hr : r ∈ table) {hb : Bytes} (H : ValidHeader r hb) {ws : List WSample}
    (W : ∀ w ∈ ws, w.Valid Z r) (hn : ws.length ≤ 86400) {s : Stream} (hs : fs file false = .ok s) (hrest : s.rest = hb ++ body r ws) (hsh : s.short = none)
    (ticks : ∀ w ∈ ws, ∀ itime, ¬ Ticks hb w.record w.sstat itime 0) :
    let run := runExample ((P).at (n + 5)) Text.Readme.imports1 Text.Readme.example1 file
    run.1 = .ok .none ∧ ∃ lines : List PyStr, run.2.out = lines.flatten ∧ lines.length = ws.length ∧
      ∀ (i : Nat) w l, ws[i]? = some w → lines[i]? = some l → ∃ itime total, Ticks hb w.record w.sstat itime total ∧ UsageLine itime total l := by
  have e480 : first480 s.rest = hb := by
    rw [hrest]
    unfold first480
    rw [List.take_append_of_le_length (by rw [H.length]), ← H.length, List.take_length]
    simp [H.length]
  obtain ⟨hrow, hcg, hA, -⟩ := valid_accepts hr H
  have hrun := ((C75_usage Z fs args n hfs file).2 s hs).2 (.inl hsh) (by rw [e480]; exact hA) (ws.map (foundOf r)) none (by
    rw [e480, hrow, hcg, hsh, hrest, ← H.length, List.drop_left]
    exact C53_written hr W hn)
  rw [e480, hsh] at hrun
  dsimp only
  generalize (runExample ((P).at (n + 5)) Text.Readme.imports1 Text.Readme.example1 file).1 = res at hrun
  generalize (runExample ((P).at (n + 5)) Text.Readme.imports1 Text.Readme.example1 file).2.out = out at hrun
  clear hrest W hn
  induction ws generalizing res out with
  | nil =>
    cases hrun
    exact ⟨rfl, [], rfl, rfl, nofun⟩
  | cons w ws ih =>
    cases hrun with
    | zero h => exact absurd h (ticks w (List.mem_cons_self ..) _)
    | @line _ _ itime total t _ u h1 h2 h3 h4 =>
      obtain ⟨i1, lines, i2, i3, i4⟩ := ih (fun w hw => ticks w (List.mem_cons_of_mem _ hw)) _ _ h4
      refine ⟨i1, t :: lines, by rw [i2]; rfl, by rw [List.length_cons, List.length_cons, i3], ?_⟩
      intro i w' l hw hl
      cases i with
      | zero => cases hw; cases hl; exact ⟨itime, total, h1, h3⟩
      | succ i => exact i4 i w' l hw hl
end

/-- **C75** The command of the README, `atoparser FILE -P CPU --pretty`, for any file name that does not start with `-`: one
JSON text with exactly one reading is printed, which says the entries prescribed for `CPU` and that file; or the exception
prescribed for it leaves `main`, and nothing is printed. -/
theorem C75_command (Z : Zlib) (fs : FileSystem) (U : Nat → Bool) (hfs : LibFiles fs) (n : Nat) (file : PyStr) (hf : file.head? ≠ some 45) : ∃ r w',
    ((program Z fs ⟨U, [file, py!"-P", py!"CPU", py!"--pretty"]⟩).at (n + 7)).call py!"atoparser.reader" py!"main" [] [] W.empty = (r, w') ∧
      ((∃ docs a, PathPrescribed Z fs ⟨[py!"CPU"], false, false⟩ file (.ok docs) ∧ r = .ok .none ∧ Says (.list docs) a ∧
          JsonText true w'.out a ∧ ∀ b, JsonText true w'.out b → b = a) ∨
       ∃ e, PathPrescribed Z fs ⟨[py!"CPU"], false, false⟩ file (.error e) ∧ r = .error (embExc e) ∧ w'.out = []) := by
  have line : Line U [file, py!"-P", py!"CPU", py!"--pretty"] [file] [.parseables [py!"CPU"], .pretty] :=
    Line.plain (U := U) [] [⟨[py!"-P", py!"CPU"], true, [.parseables [py!"CPU"]]⟩, ⟨[py!"--pretty"], false, [.pretty]⟩] [file] nofun
      (by
        intro p hp
        rcases List.mem_cons.mp hp with rfl | hp
        · exact .list _ [] _ (.P 0) nofun (by decide)
        · rw [List.mem_singleton.mp hp]
          exact .one _ _ (.pretty _ (by decide)))
      nofun nofun (fun f hm => by
        rw [List.mem_singleton.mp hm]
        exact ⟨fun e => hf (by rw [e]; rfl), .inl hf⟩)
  have set : Settings [file] [.parseables [py!"CPU"], .pretty] ⟨[file], some [py!"CPU"], true, false, false⟩ :=
    ⟨rfl, rfl, by simp, by simp, by simp⟩
  obtain ⟨r, w', h1, ⟨files, es, ns, hl, hs, texts, t1, t2, t3, t4⟩ | ⟨h, -⟩⟩ := C74_program Z fs ⟨U, [file, py!"-P", py!"CPU", py!"--pretty"]⟩ hfs n
  · refine ⟨r, w', h1, ?_⟩
    obtain rfl := C51_unambiguous hl line hs set
    obtain rfl : files = [file] := hs.files.symm
    rcases t4 with ⟨rfl, t4⟩ | ⟨f, e, f1, rfl, f2⟩
    · match texts, t4 with
      | [t], _ =>
        obtain ⟨docs, a, d1, d2, d3, d4⟩ := t3 0 file t rfl rfl
        refine .inl ⟨docs, a, d1, rfl, d2, ?_⟩
        rw [t1, List.flatten_cons, List.flatten_nil, List.append_nil]
        exact ⟨d3, d4⟩
    · match texts, t2 with
      | [], _ =>
        cases f1
        exact .inr ⟨e, f2, rfl, t1⟩
      | [_], _ => cases f1
  · exact absurd ⟨_, _, line⟩ h

/-- The ticks of the toy samples. -/
theorem toy_ticks {r : Row} (hr : r ∈ table) {itime total : Int} (h : Ticks (toyHeader r) (toySample r).record (toySample r).sstat itime total) :
    itime = 506381209866536711 ∧ total = 600 * 506381209866536711 * 100 := by
  obtain ⟨interval, nrcpu, hertz, h1, h2, h3, h4, rfl⟩ := h
  have hlong : ∀ r ∈ table, 120 ≤ r.sstat := by decide
  have hl := hlong r hr
  have hrec : ∀ r ∈ table, bytesAt (toyRecord r) 24 4 = encodeInt 4 600 := by decide +kernel
  have hhz : ∀ r ∈ table, bytesAt (toyHeader r) 14 2 = encodeInt 2 100 := by decide +kernel
  have hss : ∀ o, o + 8 ≤ r.sstat → StoredInt (List.replicate r.sstat 7) o 8 true 506381209866536711 := by
    intro o ho
    refine ⟨by unfold inRange; decide, ?_⟩
    have : bytesAt (List.replicate r.sstat (7 : UInt8)) o 8 = List.replicate 8 7 := by
      unfold bytesAt
      rw [List.drop_replicate, List.take_replicate]
      congr 1; omega
    rw [this]
    decide
  obtain rfl := storedInt_unique (by decide) h1 (hss 112 (by omega))
  obtain rfl := storedInt_unique (by decide) h3 (hss 0 (by omega))
  obtain rfl := storedInt_unique (by decide) h2 ⟨by unfold inRange; decide, hrec r hr⟩
  obtain rfl := storedInt_unique (by decide) h4 ⟨by unfold inRange; decide, hhz r hr⟩
  exact ⟨rfl, rfl⟩

/-- Three samples of ten minutes each. -/
example (r : Row) (hr : r ∈ table) (args : CommandLine) : ∃ w a b c,
    runExample ((program toyZ (oneFile (toyHeader r ++ body r (toyLog r))) args).at 5) Text.Readme.imports1 Text.Readme.example1 py!"x" = (.ok .none, w) ∧
    w.out = a ++ b ++ c ∧ ∀ l ∈ [a, b, c], UsageLine 506381209866536711 (600 * 506381209866536711 * 100) l := by
  have toy : ∀ w ∈ toyLog r, w = toySample r := by
    intro w hw
    simpa [toyLog] using hw
  obtain ⟨h1, lines, h2, h3, h4⟩ := C75_written toyZ (oneFile (toyHeader r ++ body r (toyLog r))) args 0 (oneFile_lib _) py!"x" hr (toyHeader_valid r hr)
    (toyLog_valid r hr) (by simp [toyLog]) (s := { data := toyHeader r ++ body r (toyLog r) }) rfl (by simp [Stream.rest]) rfl (by
      intro w hw itime ht
      rw [toy w hw] at ht
      have := (toy_ticks hr ht).2
      omega)
  rw [Nat.zero_add] at h1 h2
  generalize runExample ((program toyZ (oneFile (toyHeader r ++ body r (toyLog r))) args).at 5) Text.Readme.imports1 Text.Readme.example1 py!"x" = run at h1 h2
  obtain ⟨res, w⟩ := run
  dsimp only at h1 h2
  subst h1
  match lines, h3 with
  | [a, b, c], _ =>
    refine ⟨w, a, b, c, rfl, by rw [h2]; simp, ?_⟩
    intro l hl
    obtain ⟨i, hi⟩ := List.getElem?_of_mem hl
    have hi3 : i < (toyLog r).length := (List.getElem?_eq_some_iff.mp hi).1
    obtain ⟨itime, total, k1, k2⟩ := h4 i _ l (List.getElem?_eq_getElem hi3) hi
    rw [toy _ (List.getElem_mem hi3)] at k1
    obtain ⟨rfl, rfl⟩ := toy_ticks hr k1
    exact k2

/-- That line is "100.00%". -/
example : (Dbl.div 506381209866536711 (600 * 506381209866536711 * 100) >>= Dbl.intSub 1 >>= Dbl.percent) = some py!"100.00%" := by decide +kernel

end Atop.Src
