import Verif.Model.Failing
import Verif.Props.FedOutput
/-!
# C81: a read that fails
-/

namespace Atop
open Spec Prog

theorem tried_read {α} (n : Nat) (k : Bytes → Prog α) (answer : Nat → Except Exc Bytes) (t : Nat) :
    (read n k).tried answer t = match answer t with
      | .error e => (.error e, t + 1)
      | .ok b => (k (b.take n)).tried answer (t + 1) := by
  rw [tried.eq_def]; rfl

theorem fed_gives {α} (p : Prog α) : ∀ (f : Fed), (p.fed f).2.gives = f.gives ∧ f.reads ≤ (p.fed f).2.reads := by
  induction p with
  | ret a => exact fun f => ⟨rfl, Nat.le_refl _⟩
  | raise e => exact fun f => ⟨rfl, Nat.le_refl _⟩
  | read n k ih =>
    intro f
    rw [fed_read]
    obtain ⟨a, b⟩ := ih ((f.gives f.reads).take n) (f.after n)
    exact ⟨a, Nat.le_trans (Nat.le_succ _) b⟩

/-- The answers up to the `T`-th read, which raises `e`. -/
structure FailsAt (answer : Nat → Except Exc Bytes) (gives : Nat → Bytes) (T : Nat) (e : Exc) : Prop where
  before : ∀ t < T, answer t = .ok (gives t)
  fails : answer T = .error e

theorem tried_fed {α} {answer : Nat → Except Exc Bytes} {T : Nat} {e : Exc} (p : Prog α) : ∀ (f : Fed), FailsAt answer f.gives T e → f.reads ≤ T →
    p.tried answer f.reads = if (p.fed f).2.reads ≤ T then ((p.fed f).1, (p.fed f).2.reads) else (.error e, T + 1) := by
  induction p with
  | ret a => intro f _ h; exact (if_pos h).symm
  | raise x => intro f _ h; exact (if_pos h).symm
  | read n k ih =>
    intro f F h
    rw [tried_read, fed_read]
    by_cases hT : f.reads < T
    · rw [F.before _ hT]
      exact ih _ (f.after n) F hT
    · have hT : f.reads = T := by omega
      have := (fed_gives (k ((f.gives f.reads).take n)) (f.after n)).2
      have this : f.reads + 1 ≤ _ := this
      rw [if_neg (by omega), hT, F.fails]

theorem fed_loop_reads (Z : Zlib) (rot : Bool) (h : Header) (v : Nat × Nat) : ∀ (n : Nat) (f : Fed),
    f.reads ≤ (Fed.runLoop Z rot h v n f).2.2.reads
  | 0, f => Nat.le_refl _
  | n + 1, f => by
    have G := (fed_gives (readSampleP Z h v) f).2
    rw [Fed.runLoop]
    rcases hx : (readSampleP Z h v).fed f with ⟨x | _ | x, f'⟩ <;> rw [hx] at G
    · exact G
    · exact G
    · exact Nat.le_trans G (fed_loop_reads Z rot h v n f')

/-- The reads a sample takes. -/
abbrev perSample (cg : Bool) : Nat := if cg then 5 else 3

theorem perSample_pos (cg : Bool) : 0 < perSample cg := by cases cg <;> decide

theorem tried_loop {h : Header} {r v cg} (R : Ready h r v cg) (Z : Zlib) (rot : Bool) {answer : Nat → Except Exc Bytes} {T : Nat} {e : Exc} :
    ∀ (n : Nat) (f : Fed), FailsAt answer f.gives T e → f.reads ≤ T →
    ((Fed.runLoop Z rot h v n f).2.2.reads ≤ T → Failing.runLoop Z rot h v answer n f.reads =
      ((Fed.runLoop Z rot h v n f).1, (Fed.runLoop Z rot h v n f).2.1, (Fed.runLoop Z rot h v n f).2.2.reads)) ∧
    (T < (Fed.runLoop Z rot h v n f).2.2.reads → Failing.runLoop Z rot h v answer n f.reads =
      ((Fed.runLoop Z rot h v n f).1.take ((T - f.reads) / perSample cg), endOf rot e, T + 1))
  | 0, f, F, hf => ⟨fun _ => rfl, fun h => absurd hf (Nat.not_le.mpr h)⟩
  | n + 1, f, F, hf => by
    have A := tried_fed (readSampleP Z h v) f F hf
    have D := fed_sample R Z f
    obtain ⟨G1, G2⟩ := fed_gives (readSampleP Z h v) f
    rw [Fed.runLoop, Failing.runLoop]
    rcases hx : (readSampleP Z h v).fed f with ⟨x | _ | x, f'⟩
    · rw [hx] at A
      dsimp only at A ⊢
      refine ⟨fun hT => ?_, fun hT => ?_⟩
      · rw [A, if_pos hT]
      · rw [A, if_neg (Nat.not_le.mpr hT), List.take_nil]
    · rw [hx] at A
      dsimp only at A ⊢
      refine ⟨fun hT => ?_, fun hT => ?_⟩
      · rw [A, if_pos hT]
      · rw [A, if_neg (Nat.not_le.mpr hT), List.take_nil]
    · rw [hx] at A D G1 G2
      dsimp only at A G1 G2 ⊢
      have hreads : f'.reads = f.reads + perSample cg := by
        cases hd : decodeSampleFrom Z r cg f.gives f.reads with
        | error t => rw [hd] at D; cases D
        | ok q =>
          rw [hd] at D
          cases q with
          | none => obtain ⟨s', hs⟩ := D; cases hs
          | some q =>
            obtain ⟨f'', hs, -, hr, -⟩ := D
            cases hs
            rw [hr]
            exact (decodeSampleFrom_fits hd).2
      have hp := perSample_pos cg
      by_cases hT : f'.reads ≤ T
      · rw [if_pos hT] at A
        obtain ⟨i1, i2⟩ := tried_loop R Z rot n f' (by rw [G1]; exact F) hT
        rw [A]
        dsimp only
        refine ⟨fun hT => by rw [i1 hT], fun hT => ?_⟩
        rw [i2 hT]
        have : (T - f.reads) / perSample cg = (T - f'.reads) / perSample cg + 1 := by
          rw [show T - f.reads = T - f'.reads + perSample cg by omega, Nat.add_div_right _ hp]
        rw [this, List.take_succ_cons]
      · rw [if_neg hT] at A
        rw [A]
        have hmono : f'.reads ≤ (Fed.runLoop Z rot h v n f').2.2.reads := fed_loop_reads Z rot h v n f'
        refine ⟨fun h => absurd (Nat.le_trans hmono h) hT, fun _ => ?_⟩
        rw [Nat.div_eq_of_lt (by omega), List.take_zero]

/-- The number of reads a sample takes does not depend on the file. -/
theorem tried_generate (Z : Zlib) {s0 s1 : Stream} {h : Header} (hg : getHeader true s0 = (.ok h, s1)) (rot : Bool) (max : Int)
    {answer : Nat → Except Exc Bytes} {T : Nat} {e : Exc} (f : Fed) (F : FailsAt answer f.gives T e) (hf : f.reads ≤ T) :
    ∃ v, Fed.generateStatistics Z (some h) rot max f = Fed.runLoop Z rot h v max.toNat f ∧
      (parsedVersion h = .ok v ∧ h.latched = h) ∧
    (((Fed.generateStatistics Z (some h) rot max f).2.2.reads ≤ T → Failing.runLoop Z rot h v answer max.toNat f.reads =
      ((Fed.generateStatistics Z (some h) rot max f).1, (Fed.generateStatistics Z (some h) rot max f).2.1,
        (Fed.generateStatistics Z (some h) rot max f).2.2.reads)) ∧
    (T < (Fed.generateStatistics Z (some h) rot max f).2.2.reads → Failing.runLoop Z rot h v answer max.toNat f.reads =
      ((Fed.generateStatistics Z (some h) rot max f).1.take ((T - f.reads) / perSample (readsCGroups (first480 s0.rest))),
        endOf rot e, T + 1))) := by
  obtain ⟨h1, R, -, -, -⟩ := getHeader_ok hg
  have hM := major_lt (first480 s0.rest)
  have h256 : (major (first480 s0.rest), minor (first480 s0.rest)).1 < 256 := by show major _ < 256; omega
  have hc : h.cache = some (major (first480 s0.rest), minor (first480 s0.rest)) := by rw [h1]
  rw [fed_generate_ready R hc h256 (minor_lt _) Z rot max f]
  exact ⟨_, rfl, ⟨parsedVersion_ready R h256 (minor_lt _), latched_cached hc⟩, tried_loop R Z rot max.toNat f F hf⟩

theorem endOf_eq (rot : Bool) (e : Exc) : endOf rot e = if e = .zlibError ∧ rot = false then .returned else .raised e := by
  unfold endOf
  by_cases he : e = .zlibError <;> cases rot <;> simp [he]

/-- **C81** If the `T`-th read raises `e` (an I/O error, the error of a damaged container): either iterating never makes that
read, and it is as if nothing had happened; or it stops there.  Then the samples that were complete before - five reads each,
three without cgroups - have been yielded, the same as otherwise, and nothing of the one in progress; exactly one more attempt to
read was made, the one that failed; and `e` itself is what the caller gets, unless it is `zlib.error`, which
`raise_on_truncation=False` swallows. -/
theorem C81_failed_read (Z : Zlib) {s0 s1 : Stream} {h : Header} (hg : getHeader true s0 = (.ok h, s1)) (rot : Bool) (max : Int)
    {answer : Nat → Except Exc Bytes} {gives : Nat → Bytes} {T : Nat} {e : Exc} (F : FailsAt answer gives T e) :
    ((Fed.generateStatistics Z (some h) rot max { gives }).2.2.reads ≤ T → Failing.generateStatistics Z (some h) rot max answer =
      ((Fed.generateStatistics Z (some h) rot max { gives }).1, (Fed.generateStatistics Z (some h) rot max { gives }).2.1,
        (Fed.generateStatistics Z (some h) rot max { gives }).2.2.reads)) ∧
    (T < (Fed.generateStatistics Z (some h) rot max { gives }).2.2.reads → Failing.generateStatistics Z (some h) rot max answer =
      ((Fed.generateStatistics Z (some h) rot max { gives }).1.take (T / if readsCGroups (first480 s0.rest) then 5 else 3),
        if e = .zlibError ∧ rot = false then .returned else .raised e, T + 1)) := by
  obtain ⟨v, -, ⟨h2, h3⟩, h4⟩ := tried_generate Z hg rot max { gives } F (Nat.zero_le _)
  have : Failing.generateStatistics Z (some h) rot max answer = Failing.runLoop Z rot h v answer max.toNat 0 := by
    unfold Failing.generateStatistics
    dsimp only
    rw [h2]
    dsimp only
    rw [h3]
  rw [this, ← endOf_eq]
  exact h4

theorem tried_header {answer : Nat → Except Exc Bytes} {gives : Nat → Bytes} {T : Nat} {e : Exc} (F : FailsAt answer gives (T + 1) e) :
    (getHeaderP true).tried answer 0 = ((getHeader true { data := gives 0 }).1, 1) := by
  obtain ⟨f', h1, -, h3⟩ := fed_getHeader gives
  have := tried_fed (getHeaderP true) { gives } F (Nat.zero_le _)
  rw [h1] at this
  dsimp only at this
  rw [h3, if_pos (by omega)] at this
  exact this

theorem tried_no_header {answer : Nat → Except Exc Bytes} {gives : Nat → Bytes} {e : Exc} (F : FailsAt answer gives 0 e) :
    (getHeaderP true).tried answer 0 = (.error e, 1) := by
  obtain ⟨f', h1, -, h3⟩ := fed_getHeader gives
  have := tried_fed (getHeaderP true) { gives } F (Nat.zero_le _)
  rw [h1] at this
  dsimp only at this
  rw [h3, if_neg (by omega)] at this
  exact this

/-- **C81** If reading the header fails, nothing is yielded and the exception is what the caller gets, whatever it is. -/
theorem C81_header_fails (Z : Zlib) (rot : Bool) (max : Int) (o : Opts) (file : PyStr) {answer : Nat → Except Exc Bytes} {e : Exc}
    (he : answer 0 = .error e) :
    Failing.generateStatistics Z none rot max answer = ([], .raised e, 1) ∧ Failing.parseFile Z o file answer = .error e := by
  have := tried_no_header (answer := answer) (gives := fun _ => []) ⟨nofun, he⟩
  unfold Failing.generateStatistics Failing.parseFile
  rw [this]
  exact ⟨rfl, rfl⟩

theorem failing_none (Z : Zlib) {answer : Nat → Except Exc Bytes} {gives : Nat → Bytes} {T : Nat} {e : Exc} {h : Header}
    (hg : (getHeader true { data := gives 0 }).1 = .ok h) (rot : Bool) (max : Int) (F : FailsAt answer gives (T + 1) e) :
    ∃ v f', (getHeaderP true).fed { gives } = (.ok h, f') ∧ f'.gives = gives ∧ f'.reads = 1 ∧ parsedVersion h = .ok v ∧ h.latched = h ∧
      Failing.generateStatistics Z none rot max answer = Failing.runLoop Z rot h v answer max.toNat 1 ∧
    ((Fed.generateStatistics Z none rot max { gives }).2.2.reads ≤ T + 1 → Failing.runLoop Z rot h v answer max.toNat 1 =
      ((Fed.generateStatistics Z none rot max { gives }).1, (Fed.generateStatistics Z none rot max { gives }).2.1,
        (Fed.generateStatistics Z none rot max { gives }).2.2.reads)) ∧
    (T + 1 < (Fed.generateStatistics Z none rot max { gives }).2.2.reads → Failing.runLoop Z rot h v answer max.toNat 1 =
      ((Fed.generateStatistics Z none rot max { gives }).1.take (T / if readsCGroups (first480 (gives 0)) then 5 else 3),
        endOf rot e, T + 1 + 1)) := by
  obtain ⟨f', h1, h2, h3⟩ := fed_getHeader gives
  rw [hg] at h1
  have he : Stream.rest { data := gives 0 } = gives 0 := by simp [Stream.rest]
  obtain ⟨v, k1, ⟨k2, k3⟩, k4, k5⟩ := tried_generate Z (s0 := { data := gives 0 }) (s1 := (getHeader true { data := gives 0 }).2) (h := h)
    (Prod.ext hg rfl) rot max f' (by rw [h2]; exact F) (by omega)
  rw [h3] at k4 k5
  rw [he] at k5
  refine ⟨v, f', h1, h2, h3, k2, k3, ?_, ?_⟩
  · unfold Failing.generateStatistics
    rw [tried_header F, hg]
    dsimp only
    rw [k2]
    dsimp only
    rw [k3]
  · rw [fed_none, h1]
    exact ⟨k4, k5⟩

/-- **C81** The same when the header is read from the same file and its read, the first one, does not fail. -/
theorem C81_own_header (Z : Zlib) (rot : Bool) (max : Int) {answer : Nat → Except Exc Bytes} {gives : Nat → Bytes} {T : Nat} {e : Exc}
    {h : Header} (hg : (getHeader true { data := gives 0 }).1 = .ok h) (F : FailsAt answer gives (T + 1) e) :
    ((Fed.generateStatistics Z none rot max { gives }).2.2.reads ≤ T + 1 → Failing.generateStatistics Z none rot max answer =
      ((Fed.generateStatistics Z none rot max { gives }).1, (Fed.generateStatistics Z none rot max { gives }).2.1,
        (Fed.generateStatistics Z none rot max { gives }).2.2.reads)) ∧
    (T + 1 < (Fed.generateStatistics Z none rot max { gives }).2.2.reads → Failing.generateStatistics Z none rot max answer =
      ((Fed.generateStatistics Z none rot max { gives }).1.take (T / if readsCGroups (first480 (gives 0)) then 5 else 3),
        if e = .zlibError ∧ rot = false then .returned else .raised e, T + 2)) := by
  obtain ⟨v, f', -, -, -, -, -, h1, h2, h3⟩ := failing_none Z hg rot max F
  rw [h1, ← endOf_eq]
  exact ⟨h2, h3⟩

/-! ## `parse_file` -/

theorem failing_parseLoop (Z : Zlib) (o : Opts) (h0 h : Header) (v : Nat × Nat) (answer : Nat → Except Exc Bytes) : ∀ (k t : Nat),
    Failing.parseLoop Z o h0 h v answer k t =
      docOf o h0 (Failing.runLoop Z false h v answer k t).1 (Failing.runLoop Z false h v answer k t).2.1
  | 0, _ => rfl
  | k + 1, t => by
    unfold Failing.parseLoop Failing.runLoop
    rcases (readSampleP Z h v).tried answer t with ⟨(e | _ | x), t'⟩
    · dsimp only
      unfold afterError docOf
      cases endOf false e <;> rfl
    · rfl
    · dsimp only
      rw [docOf_cons, ← failing_parseLoop Z o h0 h v answer k t']
      cases sampleRows o h0 x with
      | error => rfl
      | ok =>
        dsimp only
        cases Failing.parseLoop Z o h0 h v answer k t' <;> rfl

theorem failing_parseFile_ok (Z : Zlib) {answer : Nat → Except Exc Bytes} {gives : Nat → Bytes} {T : Nat} {e : Exc}
    {h : Header} (hg : (getHeader true { data := gives 0 }).1 = .ok h) (F : FailsAt answer gives (T + 1) e) (o : Opts)
    (file : PyStr) (hv : o.parseables = [] ∨ (major (first480 (gives 0)) = 1 ∧ minor (first480 (gives 0)) = 26)) :
    Failing.parseFile Z o file answer = docOf o h (Failing.generateStatistics Z none false 86400 answer).1
      (Failing.generateStatistics Z none false 86400 answer).2.1 := by
  obtain ⟨v, f', k1, -, -, k4, k5, k6, -⟩ := failing_none Z hg false 86400 F
  obtain ⟨h1, R, -, -, -⟩ := getHeader_ok (s := { data := gives 0 }) (s' := (getHeader true { data := gives 0 }).2) (Prod.ext hg rfl)
  have he : Stream.rest { data := gives 0 } = gives 0 := by simp [Stream.rest]
  rw [he] at h1 R
  have hM := major_lt (first480 (gives 0))
  have hc : h.cache = some (major (first480 (gives 0)), minor (first480 (gives 0))) := by rw [h1]
  rw [k6]
  unfold Failing.parseFile
  rw [tried_header F, hg]
  dsimp only
  rw [semantic_cached hc, k5, k5]
  dsimp only
  rw [if_neg, k4]
  · exact failing_parseLoop Z o h h _ _ _ _
  · rcases hv with hv | hv
    · simp [hv]
    · rw [(supported_iff (by omega) (minor_lt _)).mpr hv]; simp

/-- **C81** `parse_file` (no parseables): if a read it makes raises `e`, there is no document and `e` is what the caller gets;
only if it is `zlib.error` (which reading from a damaged `.gz` file can raise) the samples that were complete are printed.
If it does not make that read, nothing has changed. -/
theorem C81_printed (Z : Zlib) {o : Opts} (hp : o.parseables = []) (file : PyStr) {answer : Nat → Except Exc Bytes} {gives : Nat → Bytes}
    {T : Nat} {e : Exc} {h : Header} (hg : (getHeader true { data := gives 0 }).1 = .ok h) (F : FailsAt answer gives (T + 1) e)
    {xs : List Sample}
    (hxs : xs = (Fed.generateStatistics Z none false 86400 { gives }).1.take (T / if readsCGroups (first480 (gives 0)) then 5 else 3)) :
    (T + 1 < (Fed.generateStatistics Z none false 86400 { gives }).2.2.reads →
      (e ≠ .zlibError → Failing.parseFile Z o file answer = .error e) ∧
      (e = .zlibError → ∃ docs, Failing.parseFile Z o file answer = .ok docs ∧ docs.length = xs.length ∧
        ∀ (i : Nat) x v, xs[i]? = some x → docs[i]? = some v → FullEntry h.inst o.showTstats o.showCstats x v)) ∧
    ((Fed.generateStatistics Z none false 86400 { gives }).2.2.reads ≤ T + 1 →
      Failing.parseFile Z o file answer = (Fed.parseFile Z o file { gives }).1) := by
  obtain ⟨k1, k2⟩ := C81_own_header Z false 86400 hg F
  rw [← hxs] at k2
  rw [failing_parseFile_ok Z hg F o file (.inl hp), fed_parseFile_ok Z gives hg o file (.inl hp)]
  refine ⟨fun hT => ?_, fun hT => by rw [k1 hT]⟩
  rw [k2 hT]
  have hm : h.cls ∈ versions := by
    obtain ⟨h1, -⟩ := getHeader_ok (s := { data := gives 0 }) (s' := (getHeader true { data := gives 0 }).2) (Prod.ext hg rfl)
    rw [h1]; exact classFor_mem _
  obtain ⟨d1, -⟩ := C80_own_header Z false 86400 gives hg rfl
  obtain ⟨vs, e1, e2, e3⟩ := sampleRowsAll_full hp (h := h) (P := fun x v => FullEntry h.inst o.showTstats o.showCstats x v) xs (by
    intro x hx
    rw [hxs] at hx
    have hx := List.mem_of_mem_take hx
    rw [d1] at hx
    obtain ⟨f, -, rfl⟩ := List.mem_map.mp hx
    obtain ⟨v, a, b, -⟩ := fullRow_ok (o := o) hm (convertible_found hm f)
    exact ⟨v, a, b⟩)
  unfold docOf
  dsimp only
  rw [e1]
  refine ⟨fun hz => ?_, fun hz => ⟨vs, ?_, e2, e3⟩⟩
  · rw [if_neg (fun h => hz h.1)]
  · rw [if_pos ⟨hz, rfl⟩]

/-- **C81** `parse_file` with parseables, for a file of version 1.26: if a read it makes raises `e`, there is no document and `e`
is what the caller gets; only if it is `zlib.error` the rows of the samples that were complete are printed. -/
theorem C81_parseables (Z : Zlib) {o : Opts} (hp : o.parseables ≠ []) (file : PyStr) {answer : Nat → Except Exc Bytes} {gives : Nat → Bytes}
    {T : Nat} {e : Exc} {h : Header} (hg : (getHeader true { data := gives 0 }).1 = .ok h) (F : FailsAt answer gives (T + 1) e)
    (hv : major (first480 (gives 0)) = 1 ∧ minor (first480 (gives 0)) = 26) {xs : List Sample}
    (hxs : xs = (Fed.generateStatistics Z none false 86400 { gives }).1.take (T / 3))
    (rows : PyStr → Sample → List PRow) (hrows : ∀ x ∈ xs, ∀ p ∈ o.parseables, Gives (argsOf h.inst x) p (rows p x))
    (hT : T + 1 < (Fed.generateStatistics Z none false 86400 { gives }).2.2.reads) :
    Failing.parseFile Z o file answer = if e = .zlibError
      then .ok (xs.flatMap fun x => o.parseables.flatMap fun p => (rows p x).map (labelled p)) else .error e := by
  have k2 := (C81_own_header Z false 86400 hg F).2 hT
  have hcg : readsCGroups (first480 (gives 0)) = false := by
    unfold readsCGroups; rw [hv.1, hv.2]; decide
  rw [hcg, if_neg (by simp), ← hxs] at k2
  rw [failing_parseFile_ok Z hg F o file (.inr hv), k2]
  unfold docOf
  dsimp only
  rw [sampleRowsAll_ok hp _ hrows]
  dsimp only
  by_cases he : e = .zlibError
  · rw [if_pos ⟨he, rfl⟩, if_pos he]
  · rw [if_neg (fun h => he h.1), if_neg he]

/-! ## The overwritten file, on a disk that fails -/

/-- Reading the second sample's statistics fails. -/
def failing (t : Nat) : Except Exc Bytes := if t = 4 then .error .osError else .ok (overwritten t)

theorem failing_at : FailsAt failing overwritten 4 .osError :=
  ⟨fun t ht => by unfold failing; rw [if_neg (by omega)], rfl⟩

/-- Two samples take six reads. -/
theorem overwritten_reads {h : Header} (hg : getHeader true (toyFile oldest) = (.ok h, toyOpen oldest)) :
    (Fed.generateStatistics oddZ (some h) true 2 { gives := overwritten }).2.2.reads = 6 ∧
    ∃ x y, (Fed.generateStatistics oddZ (some h) true 2 { gives := overwritten }).1 = [x, y] ∧ x.record.buf = shortRecord 1700000000 := by
  obtain ⟨h1, R, -, -, -⟩ := getHeader_ok hg
  have := major_lt (first480 (toyFile oldest).rest)
  rw [fed_generate_ready R (by rw [h1]) (by show major (first480 (toyFile oldest).rest) < 256; omega) (minor_lt _)]
  rw [oldest_start.1, oldest_start.2] at R
  have step : ∀ (f : Fed) (t : Nat) (hd z : Bytes), f.gives = overwritten → f.reads = t →
      decodeSampleFrom oddZ oldest false overwritten t = .ok (some (⟨hd, z, [], []⟩, t + 3)) →
      ∃ x f', (readSampleP oddZ h (major (first480 (toyFile oldest).rest), minor (first480 (toyFile oldest).rest))).fed f =
        (.ok (some x), f') ∧ x.record.buf = hd ∧ f'.gives = overwritten ∧ f'.reads = t + 3 := by
    intro f t hd z h2 h4 h3
    have D := fed_sample R oddZ f
    rw [h2, h4, h3] at D
    obtain ⟨f', d1, d2, d3, -⟩ := D
    exact ⟨_, f', d1, rfl, d2, d3⟩
  obtain ⟨x, f1, s1, r1, g1, t1⟩ := step { gives := overwritten } 0 _ _ rfl rfl first_found
  obtain ⟨y, f2, s2, r2, g2, t2⟩ := step f1 3 _ _ g1 t1 second_found
  rw [show Int.toNat 2 = 0 + 1 + 1 from rfl, Fed.runLoop, s1]
  dsimp only
  rw [Fed.runLoop, s2]
  dsimp only
  rw [Fed.runLoop]
  exact ⟨t2, x, y, rfl, r1⟩

/-- **C81** `C81_failed_read`: the first sample, then `OSError`; five reads were made. -/
example {h : Header} (hg : getHeader true (toyFile oldest) = (.ok h, toyOpen oldest)) :
    ∃ x, Failing.generateStatistics oddZ (some h) true 2 failing = ([x], .raised .osError, 5) ∧ x.record.buf = shortRecord 1700000000 := by
  obtain ⟨r1, x, y, r2, r3⟩ := overwritten_reads hg
  have := (C81_failed_read oddZ hg true 2 failing_at).2 (by rw [r1]; decide)
  rw [oldest_start.2, r2, if_neg (by simp)] at this
  exact ⟨x, this, r3⟩

/-- **C81** `C81_header_fails`: nothing can be read at all. -/
example := C81_header_fails oddZ false 86400 { parseables := [py!"CPU"] } py!"x" (answer := fun _ => .error .osError) rfl

/-- **C81** `C81_own_header`, `C81_printed`: the header can be read, and then the same. -/
theorem replaced_failing : FailsAt (fun t => if t = 5 then .error .osError else .ok (replaced t)) replaced (4 + 1) .osError :=
  ⟨fun t ht => by rw [if_neg (by omega)], rfl⟩

example {h : Header} (hg : getHeader true { data := replaced 0 } = (.ok h, toyOpen oldest)) :=
  C81_own_header oddZ true 86400 (congrArg Prod.fst hg) replaced_failing

/-- The read that fails is made. -/
theorem replaced_reads : 7 ≤ (Fed.generateStatistics oddZ none false 86400 { gives := replaced }).2.2.reads := by
  obtain ⟨h, hg⟩ := replaced_header
  obtain ⟨f0, k1, k2, k3⟩ := fed_getHeader replaced
  rw [hg] at k1
  rw [fed_none, k1]
  dsimp only
  obtain ⟨h1, R, -, -, -⟩ := getHeader_ok hg
  have e : first480 (Stream.rest { data := replaced 0 }) = toyHeader oldest := by
    rw [replaced_start]; unfold Stream.rest; rw [List.drop_zero]
  rw [e] at h1 R
  have := major_lt (toyHeader oldest)
  rw [fed_generate_ready R (by rw [h1]) (by show major (toyHeader oldest) < 256; omega) (minor_lt _)]
  rw [oldest_used.1, oldest_used.2.1] at R
  have step : ∀ (f : Fed) (t : Nat) (hd z : Bytes), f.gives = replaced → f.reads = t →
      decodeSampleFrom oddZ oldest false replaced t = .ok (some (⟨hd, z, [], []⟩, t + 3)) →
      ∃ x f', (readSampleP oddZ h (major (toyHeader oldest), minor (toyHeader oldest))).fed f =
        (.ok (some x), f') ∧ f'.gives = replaced ∧ f'.reads = t + 3 := by
    intro f t hd z h2 h4 h3
    have D := fed_sample R oddZ f
    rw [h2, h4, h3] at D
    obtain ⟨f', d1, d2, d3, -⟩ := D
    exact ⟨_, f', d1, d2, d3⟩
  obtain ⟨x, f1, s1, g1, t1⟩ := step f0 1 _ _ k2 k3
    (short_sample (hd := shortRecord 1700000000) (by decide) (by decide) (by decide) (by decide) (by decide))
  obtain ⟨y, f2, s2, g2, t2⟩ := step f1 4 _ _ g1 t1
    (short_sample (hd := shortRecord 1800000000) (by decide) (by decide) (by decide) (by decide) (by decide))
  rw [show Int.toNat 86400 = 86398 + 1 + 1 from rfl, Fed.runLoop, s1]
  dsimp only
  rw [Fed.runLoop, s2]
  dsimp only
  have := fed_loop_reads oddZ false h (major (toyHeader oldest), minor (toyHeader oldest)) 86398 f2
  rw [t2] at this
  exact this

/-- No document, and `OSError`. -/
example : Failing.parseFile oddZ {} py!"x" (fun t => if t = 5 then .error .osError else .ok (replaced t)) = .error .osError := by
  obtain ⟨h, hg⟩ := replaced_header
  have := replaced_reads
  exact ((C81_printed oddZ (o := {}) rfl py!"x" (congrArg Prod.fst hg) replaced_failing rfl).1 (by omega)).1 nofun

/-- **C81** `C81_parseables`: asked for swap space, `OSError` as well. -/
example : Failing.parseFile oddZ { parseables := [py!"SWP"] } py!"x" (fun t => if t = 5 then .error .osError else .ok (replaced t)) =
    .error .osError := by
  obtain ⟨h, hg⟩ := replaced_header
  obtain ⟨u1, u2, u3⟩ := oldest_used
  have H := toyHeader_valid oldest (by decide)
  obtain ⟨z, hl, hz⟩ := replaced_found
  have hg1 := congrArg Prod.fst hg
  dsimp only at hg1
  obtain ⟨e1, -⟩ := C80_own_header oddZ false 86400 replaced hg1
    (fs := [⟨shortRecord 1700000000, z, [], []⟩, ⟨shortRecord 1800000000, z, [], []⟩]) (t := some .zlib) (by
    rw [← replaced_start, u1, u2]; exact hz)
  obtain ⟨h1, -⟩ := getHeader_ok hg
  have hcls : h.cls = V1_26.Header ∧ h.buf = toyHeader oldest := by
    have e : first480 (Stream.rest { data := replaced 0 }) = toyHeader oldest := by
      rw [replaced_start]; unfold Stream.rest; rw [List.drop_zero]
    rw [e] at h1
    rw [h1]
    have := (valid_accepts (by decide : oldest ∈ table) H).2.2.2
    exact ⟨(Option.some.inj this).symm, rfl⟩
  refine (C81_parseables oddZ (o := { parseables := [py!"SWP"] }) (by simp) py!"x" hg1 replaced_failing
    (by rw [← replaced_start]; exact ⟨H.major, H.minor⟩) rfl
    (fun _ x => [swpSpec (toyHeader oldest) x.record.buf x.sstat.buf]) ?_ (by have := replaced_reads; omega)).trans (if_neg nofun)
  intro x hx p hp
  have hx := List.mem_of_mem_take hx
  rw [e1, hcls.1] at hx
  rw [List.mem_singleton] at hp
  subst hp
  have hi : h.inst = Header.inst ⟨V1_26.Header, toyHeader oldest, none⟩ := by unfold Header.inst; rw [hcls.1, hcls.2]
  simp only [List.map_cons, List.map_nil, List.mem_cons, List.not_mem_nil, or_false] at hx
  rcases hx with rfl | rfl
  · rw [hi, args_presented]
    exact ⟨_, .SWP, C25_SWP ⟨H.length, short_length _, hl, nofun⟩⟩
  · rw [hi, args_presented]
    exact ⟨_, .SWP, C25_SWP ⟨H.length, short_length _, hl, nofun⟩⟩

end Atop
