import Verif.Model.Fed
import Verif.Spec.Fed
import Verif.Proofs.Live
import Verif.Proofs.Decode
import Verif.Props.Live
import Verif.Props.Decode
import Verif.Props.WitnessMore
/-!
# C80: a file that is changed in any way while it is read
-/

namespace Atop
open Spec

namespace Prog

theorem fed_read {α} (n : Nat) (k : Bytes → Prog α) (f : Fed) : (read n k).fed f = (k ((f.gives f.reads).take n)).fed (f.after n) := by
  rw [fed.eq_def]

theorem fed_bind {α β} (m : Prog α) (g : α → Prog β) (f : Fed) : (m >>= g).fed f =
    match m.fed f with
    | (.ok a, f') => (g a).fed f'
    | (.error e, f') => (.error e, f') := by
  rw [bind_def]
  induction m generalizing f with
  | ret a => rfl
  | raise e => rfl
  | read n k ih => rw [bind_read, fed_read, fed_read, ih]

theorem fed_lift {α} (x : Except Exc α) (f : Fed) : (lift x).fed f = (x, f) := by cases x <;> rfl

end Prog
open Prog

theorem fed_block (Z : Zlib) (n : Nat) (f : Fed) : (blockP Z n).fed f = (match unpackFrom Z n (f.gives f.reads) with
    | .error t => .error (troubleExc none t)
    | .ok d => .ok d, f.after n) := by
  unfold blockP Prog.get
  rw [fed_bind, fed_read]
  show (lift (zdecompress Z ((f.gives f.reads).take n))).fed (f.after n) = _
  rw [fed_lift]
  unfold unpackFrom zdecompress
  cases Z ((f.gives f.reads).take n) <;> rfl

/-! ## Reads that are whole, but for the last -/

theorem fed_gap {α} (p : Prog α) : ∀ (f : Fed), (p.fed f).2.gap = false → f.gap = false ∧ (f.short = true → (p.fed f).2 = f) := by
  induction p with
  | ret a => exact fun f h => ⟨h, fun _ => rfl⟩
  | raise e => exact fun f h => ⟨h, fun _ => rfl⟩
  | read n k ih =>
    intro f h
    rw [fed_read] at h ⊢
    have := (ih _ _ h).1
    have this : (f.gap || f.short) = false := this
    rw [Bool.or_eq_false_iff] at this
    exact ⟨this.1, fun hs => by rw [this.2] at hs; cases hs⟩

/-- `D` may be the contents of a file that gave what `f` has been given. -/
def Fed.Fits (f : Fed) (D : Bytes) : Prop := f.got <+: D ∧ (f.short = true → D = f.got)

/-- Any file that fits what was given makes the program do the same. -/
theorem fed_still {α} (p : Prog α) : ∀ (f : Fed), (p.fed f).2.gap = false → ∀ D, (p.fed f).2.Fits D →
    f.Fits D ∧ p.run ⟨D, f.got.length, none⟩ = ((p.fed f).1, ⟨D, (p.fed f).2.got.length, none⟩) := by
  induction p with
  | ret a => exact fun f _ D h => ⟨h, rfl⟩
  | raise e => exact fun f _ D h => ⟨h, rfl⟩
  | read n k ih =>
    intro f hg D hD
    have hs : f.short = false := by
      cases hf : f.short with
      | false => rfl
      | true =>
        have := (fed_gap (read n k) f hg)
        have this := congrArg Fed.reads (this.2 hf)
        rw [fed_read] at hg
        have h2 := (fed_gap _ _ hg).1
        have h2 : (f.gap || f.short) = false := h2
        rw [hf, Bool.or_true] at h2
        cases h2
    rw [fed_read] at hg hD ⊢
    obtain ⟨⟨⟨t, hp⟩, h2⟩, i2⟩ := ih _ _ hg D hD
    have hp : f.got ++ (f.gives f.reads).take n ++ t = D := hp
    have h2 : (f.short || decide ((f.gives f.reads).length < n)) = true → D = f.got ++ (f.gives f.reads).take n := h2
    have i2 : _ = _ := i2
    refine ⟨⟨⟨_, by rw [← List.append_assoc]; exact hp⟩, by rw [hs]; nofun⟩, ?_⟩
    have hrest : Stream.rest ⟨D, f.got.length, none⟩ = (f.gives f.reads).take n ++ t := by
      rw [← hp]; simp [Stream.rest]
    have hlen : ((f.gives f.reads).take n ++ t).take n = (f.gives f.reads).take n ∧
        min n ((f.gives f.reads).take n ++ t).length = ((f.gives f.reads).take n).length := by
      by_cases hn : (f.gives f.reads).length < n
      · have := h2 (by rw [hs, decide_eq_true hn]; rfl)
        rw [← hp, List.append_right_eq_self] at this
        subst this
        rw [List.append_nil, List.take_take, Nat.min_self]
        exact ⟨rfl, by rw [List.length_take]; omega⟩
      · rw [List.take_append_of_le_length (by rw [List.length_take]; omega), List.take_take, Nat.min_self, List.length_append,
          List.length_take]
        exact ⟨rfl, by omega⟩
    have hr : Stream.read n ⟨D, f.got.length, none⟩ =
        (.ok ((f.gives f.reads).take n), ⟨D, (f.after n).got.length, none⟩) := by
      rw [Stream.read_none rfl, hrest, hlen.1, hlen.2]
      show (_, Stream.adv _ _) = (_, _)
      unfold Stream.adv Fed.after
      rw [List.length_append]
    rw [run_read, hr]
    exact i2

theorem fed_loop_still (Z : Zlib) (rot : Bool) (h : Header) (v : Nat × Nat) : ∀ (m : Nat) (f : Fed),
    (Fed.runLoop Z rot h v m f).2.2.gap = false → f.gap = false ∧ ∀ D, (Fed.runLoop Z rot h v m f).2.2.Fits D →
      f.Fits D ∧ runLoop Z rot h v m ⟨D, f.got.length, none⟩ =
        ((Fed.runLoop Z rot h v m f).1, (Fed.runLoop Z rot h v m f).2.1, ⟨D, (Fed.runLoop Z rot h v m f).2.2.got.length, none⟩)
  | 0, f, h => ⟨h, fun D hD => ⟨hD, rfl⟩⟩
  | m + 1, f, h => by
    have s0 := fed_gap (readSampleP Z ‹_› v) f
    have s2 := fed_still (readSampleP Z ‹_› v) f
    rw [readSampleP_run] at s2
    rw [Fed.runLoop] at h ⊢
    rcases hx : (readSampleP Z ‹_› v).fed f with ⟨e | _ | x, f'⟩ <;> rw [hx] at s0 s2 h <;> (try rw [hx]) <;> dsimp only at s0 s2 h ⊢
    · refine ⟨(s0 h).1, fun D hD => ?_⟩
      rw [runLoop, (s2 h D hD).2]
      exact ⟨(s2 h D hD).1, rfl⟩
    · refine ⟨(s0 h).1, fun D hD => ?_⟩
      rw [runLoop, (s2 h D hD).2]
      exact ⟨(s2 h D hD).1, rfl⟩
    · obtain ⟨i1, i2⟩ := fed_loop_still Z rot _ v m f' h
      refine ⟨(s0 i1).1, fun D hD => ?_⟩
      obtain ⟨j1, j2⟩ := i2 D hD
      obtain ⟨j3, j4⟩ := s2 i1 D j1
      rw [runLoop, j4]
      dsimp only
      rw [j2]
      exact ⟨j3, rfl⟩

theorem fits_got (f : Fed) : f.Fits f.got := ⟨List.prefix_refl _, fun _ => rfl⟩

theorem fits_more (f : Fed) (hs : f.short = false) (rest : Bytes) : f.Fits (f.got ++ rest) :=
  ⟨List.prefix_append _ _, by rw [hs]; nofun⟩

theorem fed_generate_still (Z : Zlib) (header : Option Header) (rot : Bool) (max : Int) (f : Fed)
    (hg : (Fed.generateStatistics Z header rot max f).2.2.gap = false) : f.gap = false ∧
    ∀ D, (Fed.generateStatistics Z header rot max f).2.2.Fits D → f.Fits D ∧
      (generateStatistics Z header rot max ⟨D, f.got.length, none⟩).1 = (Fed.generateStatistics Z header rot max f).1 ∧
      (generateStatistics Z header rot max ⟨D, f.got.length, none⟩).2.1 = (Fed.generateStatistics Z header rot max f).2.1 := by
  have main : ∀ (h : Header) (f : Fed), (Fed.generateStatistics Z (some h) rot max f).2.2.gap = false → f.gap = false ∧
      ∀ D, (Fed.generateStatistics Z (some h) rot max f).2.2.Fits D → f.Fits D ∧
        (generateStatistics Z (some h) rot max ⟨D, f.got.length, none⟩).1 = (Fed.generateStatistics Z (some h) rot max f).1 ∧
        (generateStatistics Z (some h) rot max ⟨D, f.got.length, none⟩).2.1 = (Fed.generateStatistics Z (some h) rot max f).2.1 := by
    intro h f
    unfold Fed.generateStatistics generateStatistics
    dsimp only
    cases parsedVersion h with
    | error e => exact fun hw => ⟨hw, fun D hD => ⟨hD, rfl, rfl⟩⟩
    | ok v =>
      dsimp only
      intro hw
      obtain ⟨i1, i2⟩ := fed_loop_still Z rot h.latched v max.toNat f hw
      refine ⟨i1, fun D hD => ?_⟩
      rw [(i2 D hD).2]
      exact ⟨(i2 D hD).1, rfl, rfl⟩
  cases header with
  | some h => exact main h f hg
  | none =>
    have s0 := fed_gap (getHeaderP true) f
    have s2 := fed_still (getHeaderP true) f
    rw [getHeaderP_run] at s2
    have hrun : Fed.generateStatistics Z none rot max f = match (getHeaderP true).fed f with
        | (.error e, f') => ([], .raised e, f')
        | (.ok h, f') => Fed.generateStatistics Z (some h) rot max f' := rfl
    rcases hx : (getHeaderP true).fed f with ⟨e | h, f'⟩ <;> rw [hx] at s0 s2 hrun <;> dsimp only at s0 s2 hrun
    · rw [hrun] at hg ⊢
      refine ⟨(s0 hg).1, fun D hD => ?_⟩
      rw [generate_none, (s2 hg D hD).2]
      exact ⟨(s2 hg D hD).1, rfl, rfl⟩
    · rw [hrun] at hg ⊢
      obtain ⟨m1, m2⟩ := main h f' hg
      refine ⟨(s0 m1).1, fun D hD => ?_⟩
      obtain ⟨m3, m4⟩ := m2 D hD
      obtain ⟨m5, m6⟩ := s2 m1 D m3
      rw [generate_none, m6]
      exact ⟨m5, m4⟩

/-- **C80** Whatever is done to the file meanwhile: as long as nothing is read any more once a read has come back short,
iterating over it gives the samples and the ending it gives on the unchanging file that consists of exactly the bytes that
were given, in the order in which they were given - and, if no read came back short, on any file that begins with them. -/
theorem C80_whole_reads (Z : Zlib) (header : Option Header) (rot : Bool) (max : Int) (gives : Nat → Bytes)
    (hg : (Fed.generateStatistics Z header rot max { gives }).2.2.gap = false) (rest : Bytes)
    (hs : rest = [] ∨ (Fed.generateStatistics Z header rot max { gives }).2.2.short = false) :
    (generateStatistics Z header rot max { data := (Fed.generateStatistics Z header rot max { gives }).2.2.got ++ rest }).1 =
      (Fed.generateStatistics Z header rot max { gives }).1 ∧
    (generateStatistics Z header rot max { data := (Fed.generateStatistics Z header rot max { gives }).2.2.got ++ rest }).2.1 =
      (Fed.generateStatistics Z header rot max { gives }).2.1 := by
  refine ((fed_generate_still Z header rot max { gives } hg).2 _ ?_).2
  rcases hs with rfl | hs
  · rw [List.append_nil]; exact fits_got _
  · exact fits_more _ hs rest

/-! ## `parse_file` -/

theorem fed_parseLoop_still (Z : Zlib) (o : Opts) (h0 h : Header) (v : Nat × Nat) : ∀ (k : Nat) (f : Fed),
    (Fed.parseLoop Z o h0 h v k f).2.gap = false → f.gap = false ∧ ∀ D, (Fed.parseLoop Z o h0 h v k f).2.Fits D →
      f.Fits D ∧ docOf o h0 (runLoop Z false h v k ⟨D, f.got.length, none⟩).1 (runLoop Z false h v k ⟨D, f.got.length, none⟩).2.1 =
        (Fed.parseLoop Z o h0 h v k f).1
  | 0, f, hg => ⟨hg, fun D hD => ⟨hD, rfl⟩⟩
  | k + 1, f, hg => by
    have s0 := fed_gap (readSampleP Z h v) f
    have s2 := fed_still (readSampleP Z h v) f
    rw [readSampleP_run] at s2
    rw [Fed.parseLoop] at hg ⊢
    rcases hx : (readSampleP Z h v).fed f with ⟨e | _ | x, f'⟩ <;> rw [hx] at s0 s2 hg <;> dsimp only at s0 s2 hg ⊢
    · refine ⟨(s0 hg).1, fun D hD => ?_⟩
      rw [runLoop, (s2 hg D hD).2]
      refine ⟨(s2 hg D hD).1, ?_⟩
      dsimp only
      unfold afterError docOf
      cases endOf false e <;> rfl
    · refine ⟨(s0 hg).1, fun D hD => ?_⟩
      rw [runLoop, (s2 hg D hD).2]
      exact ⟨(s2 hg D hD).1, rfl⟩
    · cases hr : sampleRows o h0 x with
      | error e =>
        rw [hr] at hg
        dsimp only at hg ⊢
        refine ⟨(s0 hg).1, fun D hD => ?_⟩
        rw [runLoop, (s2 hg D hD).2]
        refine ⟨(s2 hg D hD).1, ?_⟩
        dsimp only
        rw [docOf_cons, hr]
      | ok rows =>
        rw [hr] at hg
        dsimp only at hg ⊢
        have IH := fed_parseLoop_still Z o h0 h v k f'
        rcases hp : Fed.parseLoop Z o h0 h v k f' with ⟨e | rs, f''⟩ <;> rw [hp] at IH hg <;> dsimp only at IH hg ⊢ <;>
          obtain ⟨i1, i2⟩ := IH hg <;> refine ⟨(s0 i1).1, fun D hD => ?_⟩ <;> obtain ⟨j1, j2⟩ := i2 D hD <;>
          obtain ⟨j3, j4⟩ := s2 i1 D j1 <;> rw [runLoop, j4] <;> refine ⟨j3, ?_⟩ <;> dsimp only <;> rw [docOf_cons, hr, j2]

/-- **C80** The same for `parse_file`: it prints what it prints for the unchanging file that consists of exactly the bytes that
were given. -/
theorem C80_program (Z : Zlib) (o : Opts) (file : PyStr) (gives : Nat → Bytes)
    (hg : (Fed.parseFile Z o file { gives }).2.gap = false) (rest : Bytes)
    (hs : rest = [] ∨ (Fed.parseFile Z o file { gives }).2.short = false) :
    (parseFile Z o file { data := (Fed.parseFile Z o file { gives }).2.got ++ rest }).1 = (Fed.parseFile Z o file { gives }).1 := by
  have fits : (Fed.parseFile Z o file { gives }).2.Fits ((Fed.parseFile Z o file { gives }).2.got ++ rest) := by
    rcases hs with rfl | hs
    · rw [List.append_nil]; exact fits_got _
    · exact fits_more _ hs rest
  generalize (Fed.parseFile Z o file { gives }).2.got ++ rest = D at fits ⊢
  revert hg fits
  have s2 := fed_still (getHeaderP true) { gives }
  rw [getHeaderP_run] at s2
  replace s2 : ((getHeaderP true).fed { gives }).2.gap = false → ∀ D, ((getHeaderP true).fed { gives }).2.Fits D →
      ({ gives } : Fed).Fits D ∧ getHeader true { data := D } =
        (((getHeaderP true).fed { gives }).1, ⟨D, ((getHeaderP true).fed { gives }).2.got.length, none⟩) := s2
  unfold Fed.parseFile
  rcases hx : (getHeaderP true).fed { gives } with ⟨e | h, f'⟩ <;> rw [hx] at s2 <;> dsimp only at s2 ⊢ <;> intro hg fits
  · exact congrArg Prod.fst (parseFile_refused (s2 hg D fits).2 o file)
  · unfold parseFile
    cases hsv : h.semanticVersion with
    | error e =>
      rw [hsv] at hg fits
      rw [bind_ok (s2 hg D fits).2, hsv, Rd.bind_eq]
      rfl
    | ok v =>
      rw [hsv] at hg fits
      dsimp only at hg fits ⊢
      split at hg
      · rename_i hc
        rw [if_pos hc] at fits
        rw [bind_ok (s2 hg D fits).2, hsv, Rd.bind_eq]
        simp only [Rd.lift_eq, if_pos hc]
        rfl
      · rename_i hc
        rw [if_neg hc] at fits
        have tail : ∀ {x}, (parseLoop Z o h.latched (MAX_SAMPLES_PER_FILE + 1) (.start (some h.latched) MAX_SAMPLES_PER_FILE) ⟨D, f'.got.length, none⟩).1 = x →
            getHeader true { data := D } = (.ok h, ⟨D, f'.got.length, none⟩) →
            (parseFile Z o file { data := D }).1 = x := by
          intro x hx hget
          unfold parseFile
          rw [bind_ok hget, hsv, Rd.bind_eq]
          simp only [Rd.lift_eq, if_neg hc]
          exact hx
        rw [if_neg hc]
        cases hpv : parsedVersion h.latched with
        | error e =>
          rw [hpv] at hg fits
          dsimp only at hg fits ⊢
          refine tail ?_ (s2 hg D fits).2
          rw [parseLoop_start o h.latched h.latched MAX_SAMPLES_PER_FILE (MAX_SAMPLES_PER_FILE + 1) _ (by decide)]
          unfold generateStatistics
          dsimp only
          rw [hpv]
          dsimp only
          unfold afterError docOf
          cases endOf false e <;> rfl
        | ok w =>
          rw [hpv] at hg fits
          dsimp only at hg fits ⊢
          obtain ⟨i1, i2⟩ := fed_parseLoop_still Z o h.latched h.latched.latched w MAX_SAMPLES_PER_FILE f' hg
          obtain ⟨i3, i4⟩ := i2 D fits
          refine tail ?_ (s2 i1 D i3).2
          rw [parseLoop_start o h.latched h.latched MAX_SAMPLES_PER_FILE (MAX_SAMPLES_PER_FILE + 1) _ (by decide)]
          unfold generateStatistics
          dsimp only
          rw [hpv]
          exact i4

/-! ## Reads of any kind -/

theorem fed_getInto (n : Nat) (f : Fed) : (Prog.getInto n).fed f =
    (.ok ((f.gives f.reads).take n ++ List.replicate (n - (f.gives f.reads).length) 0), f.after n) := by
  unfold Prog.getInto Prog.get
  rw [fed_bind, fed_read]
  show (Except.ok ((f.gives f.reads).take n ++ List.replicate (n - ((f.gives f.reads).take n).length) 0), f.after n) = _
  rw [List.length_take, show n - min n (f.gives f.reads).length = n - (f.gives f.reads).length by omega]

theorem fed_ok {α β} {m : Prog α} {g : α → Prog β} {f f' : Fed} {a : α} (h : m.fed f = (.ok a, f')) : (m >>= g).fed f = (g a).fed f' := by
  rw [fed_bind, h]

theorem fed_err {α β} {m : Prog α} {g : α → Prog β} {f f' : Fed} {e : Exc} (h : m.fed f = (.error e, f')) : (m >>= g).fed f = (.error e, f') := by
  rw [fed_bind, h]

theorem fed_block_at (Z : Zlib) (n : Nat) (f : Fed) {g : Nat → Bytes} {i : Nat} (hg : f.gives = g) (hi : f.reads = i) :
    (blockP Z n).fed f = (match unpackFrom Z n (g i) with
      | .error t => .error (troubleExc none t)
      | .ok d => .ok d, f.after n) := by
  rw [fed_block, hg, hi]

theorem fed_sample {h : Header} {r v cg} (R : Ready h r v cg) (Z : Zlib) (f : Fed) :
    match decodeSampleFrom Z r cg f.gives f.reads with
    | .error t => ((readSampleP Z h v).fed f).1 = .error (troubleExc none t)
    | .ok none => ∃ f', (readSampleP Z h v).fed f = (.ok none, f')
    | .ok (some (q, t)) => ∃ f', (readSampleP Z h v).fed f = (.ok (some (presented h.cls q.written)), f') ∧ f'.gives = f.gives ∧ f'.reads = t ∧
        (cg = false → f' = ((f.after r.record).after (u32 q.record 16)).after (u32 q.record 20)) := by
  rw [readSampleP_eq R, fed_bind, fed_getInto]
  unfold decodeSampleFrom
  dsimp only
  generalize (f.gives f.reads).take r.record ++ List.replicate (r.record - (f.gives f.reads).length) 0 = head
  by_cases h16 : u32 head 16 = 0
  · rw [if_pos h16, if_pos h16]; exact ⟨_, rfl⟩
  · rw [if_neg h16, if_neg h16, getSStatP_eq R, getTStatP_eq R]
    have B1 := fed_block_at Z (u32 head 16) (f.after r.record) (i := f.reads + 1) rfl rfl
    have B2 := fed_block_at Z (u32 head 20) ((f.after r.record).after (u32 head 16)) (g := f.gives) (i := f.reads + 2) rfl rfl
    have B3 := fed_block_at Z (u32 head 72) (((f.after r.record).after (u32 head 16)).after (u32 head 20)) (g := f.gives) (i := f.reads + 3) rfl rfl
    have B4 := fed_block_at Z (u32 head 84) ((((f.after r.record).after (u32 head 16)).after (u32 head 20)).after (u32 head 72)) (g := f.gives)
      (i := f.reads + 4) rfl rfl
    have B1 : (blockP Z (u32 head 16)).fed (f.after r.record) = (match unpackFrom Z (u32 head 16) (f.gives (f.reads + 1)) with
      | .error t => .error (troubleExc none t)
      | .ok d => .ok d, _) := B1
    cases h1 : unpackFrom Z (u32 head 16) (f.gives (f.reads + 1)) with
    | error t =>
      rw [h1] at B1
      dsimp only
      rw [fed_err (fed_err B1)]
    | ok d =>
      rw [h1] at B1
      dsimp only at B1 ⊢
      have hz := R.facts.sstat
      by_cases hd : d.length < r.sstat
      · rw [if_pos hd]
        dsimp only
        rw [fed_err (e := .valueError .bufferTooSmall) (f' := (f.after r.record).after (u32 head 16))]
        · rfl
        · rw [fed_ok B1, fed_lift, fromBufferCopy_err (by omega)]
      · rw [if_neg hd]
        have S1 : (blockP Z (u32 head 16) >>= fun d => Prog.lift (fromBufferCopy h.cls.SStat d)).fed (f.after r.record) =
            (.ok ⟨h.cls.SStat, d.take r.sstat⟩, (f.after r.record).after (u32 head 16)) := by
          rw [fed_ok B1, fed_lift, fromBufferCopy_ok (by omega), hz]
        rw [fed_ok S1]
        cases h2 : unpackFrom Z (u32 head 20) (f.gives (f.reads + 2)) with
        | error t =>
          rw [h2] at B2
          dsimp only
          rw [fed_err (fed_err B2)]
        | ok e =>
          rw [h2] at B2
          dsimp only at B2 ⊢
          have hz := R.facts.tstat
          unfold decodeTasks
          by_cases ht : e.length < u32 head 28 * r.tstat
          · rw [if_pos ht]
            dsimp only
            rw [fed_err (e := .valueError .bufferTooSmall) (f' := ((f.after r.record).after (u32 head 16)).after (u32 head 20))]
            · rfl
            · rw [fed_ok B2, fed_lift, ← hz, tstatLoop_err _ _ _ _ (by simp) (by rw [hz, Nat.zero_add]; exact ht)]
          · rw [if_neg ht]
            have S2 : (blockP Z (u32 head 20) >>= fun d => Prog.lift (tstatLoop h.cls.TStat d r.tstat (u32 head 28) 0)).fed
                ((f.after r.record).after (u32 head 16)) =
                (.ok (((List.range (u32 head 28)).map fun i => (e.drop (i * r.tstat)).take r.tstat).map fun t => ⟨h.cls.TStat, t⟩),
                  ((f.after r.record).after (u32 head 16)).after (u32 head 20)) := by
              rw [fed_ok B2, fed_lift, ← hz, tstatLoop_ok _ _ _ _ (by rw [hz, Nat.zero_add]; omega), List.range_eq_range', List.map_map]
              rfl
            rw [fed_ok S2]
            dsimp only
            generalize (List.range (u32 head 28)).map (fun i => (e.drop (i * r.tstat)).take r.tstat) = ts
            cases cg with
            | false =>
              refine ⟨((f.after r.record).after (u32 head 16)).after (u32 head 20), ?_, rfl, rfl, fun _ => rfl⟩
              show ((.ok (some ⟨⟨h.cls.Record, head⟩, _, _, []⟩) : Except Exc (Option Sample)), _) = _
              unfold presented Found.written
              dsimp only
              cases h.cls.CStat <;> rfl
            | true =>
              rw [if_neg (show ¬ (true = false) by decide), if_pos rfl]
              obtain ⟨ty, n, c1, c2, c3, -⟩ := cstat_some R
              obtain ⟨g, g1, g2, g3, g4, g5, g6⟩ := R.facts.gen ty c1
              rw [getCStatP_eq R Z head c1, c2, Option.getD_some, ← c3]
              cases h3 : unpackFrom Z (u32 head 72) (f.gives (f.reads + 3)) with
              | error t =>
                rw [h3] at B3
                dsimp only
                rw [fed_err (fed_err B3)]
              | ok c =>
                rw [h3] at B3
                dsimp only at B3 ⊢
                cases h4 : unpackFrom Z (u32 head 84) (f.gives (f.reads + 4)) with
                | error t =>
                  rw [h4] at B4
                  dsimp only
                  rw [fed_err (e := troubleExc none t)]
                  rw [fed_ok B3, fed_err B4]
                | ok p =>
                  rw [h4] at B4
                  dsimp only at B4 ⊢
                  have CH := does_chainIn g1 g2 g3 g4 g5 g6 c p (ty.size : Int) none (u16 head 10) 0 0
                  simp only [Nat.mul_zero, List.drop_zero, Int.ofNat_zero] at CH
                  rw [decodeChainIn_same] at CH
                  cases h5 : decodeChain ty.size c (u16 head 10) 0 p with
                  | error t =>
                    rw [h5] at CH
                    dsimp only
                    rw [fed_err (e := troubleExc none t)]
                    rw [fed_ok B3, fed_ok B4, fed_lift]
                    exact Prod.ext CH rfl
                  | ok gs =>
                    rw [h5] at CH
                    dsimp only
                    rw [fed_ok (a := gs.map (presentedGroup ty)) (by
                      rw [fed_ok B3, fed_ok B4, fed_lift]
                      exact Prod.ext CH rfl)]
                    refine ⟨((((f.after r.record).after (u32 head 16)).after (u32 head 20)).after (u32 head 72)).after (u32 head 84), ?_, rfl, rfl, nofun⟩
                    show ((.ok (some ⟨⟨h.cls.Record, head⟩, _, _, gs.map (presentedGroup ty)⟩) : Except Exc (Option Sample)), _) = _
                    unfold presented Found.written
                    dsimp only
                    rw [c1]

theorem fed_loop {h : Header} {r v cg} (R : Ready h r v cg) (Z : Zlib) (rot : Bool) : ∀ (n : Nat) (f : Fed),
    (Fed.runLoop Z rot h v n f).1 = (decodeLogFrom Z r cg f.gives n f.reads).1.map (fun q => presented h.cls q.written) ∧
    (Fed.runLoop Z rot h v n f).2.1 = match (decodeLogFrom Z r cg f.gives n f.reads).2 with
      | none => .returned
      | some t => endOf rot (troubleExc none t)
  | 0, f => ⟨rfl, rfl⟩
  | n + 1, f => by
    have D := fed_sample R Z f
    rw [Fed.runLoop, decodeLogFrom]
    cases hd : decodeSampleFrom Z r cg f.gives f.reads with
    | error t =>
      rw [hd] at D
      rcases hr : (readSampleP Z h v).fed f with ⟨e | x, s'⟩
      · rw [hr] at D
        dsimp only at D
        injection D with D
        rw [D]
        exact ⟨rfl, rfl⟩
      · rw [hr] at D; cases D
    | ok q =>
      rw [hd] at D
      cases q with
      | none =>
        obtain ⟨s', hs⟩ := D
        rw [hs]
        exact ⟨rfl, rfl⟩
      | some q =>
        obtain ⟨q, t⟩ := q
        obtain ⟨s', hs, hb, hsh, -⟩ := D
        rw [hs]
        obtain ⟨i1, i2⟩ := fed_loop R Z rot n s'
        rw [hb, hsh] at i1 i2
        dsimp only
        rw [i1, i2]
        exact ⟨rfl, rfl⟩

theorem fed_generate_ready {h : Header} {r v cg} (R : Ready h r v cg) (hc : h.cache = some v) (h1 : v.1 < 256) (h2 : v.2 < 256)
    (Z : Zlib) (rot : Bool) (max : Int) (f : Fed) :
    Fed.generateStatistics Z (some h) rot max f = Fed.runLoop Z rot h v max.toNat f := by
  unfold Fed.generateStatistics
  dsimp only
  rw [parsedVersion_ready R h1 h2]
  dsimp only
  have : h.latched = h := by
    unfold Header.latched; rw [R.ver]; rcases h with ⟨c, b, k⟩; dsimp only at hc ⊢; rw [hc]
  rw [this]

/-- Samples and ending of a file read with a header that was read before. -/
theorem fed_decoder (Z : Zlib) {s0 s1 : Stream} {h : Header} (hg : getHeader true s0 = (.ok h, s1)) (rot : Bool) (max : Int)
    (f : Fed) {fs : List Found} {t : Option Trouble}
    (hd : decodeLogFrom Z (usedRow (first480 s0.rest)) (readsCGroups (first480 s0.rest)) f.gives max.toNat f.reads = (fs, t)) :
    (Fed.generateStatistics Z (some h) rot max f).1 = fs.map (fun f => presented h.cls f.written) ∧
    (Fed.generateStatistics Z (some h) rot max f).2.1 = match (generalizing := false) t with
      | none => .returned
      | some t => if troubleExc none t = .zlibError ∧ rot = false then .returned else .raised (troubleExc none t) := by
  obtain ⟨h1, R, -, -, -⟩ := getHeader_ok hg
  have := major_lt (first480 s0.rest)
  rw [fed_generate_ready R (by rw [h1]) (by show major (first480 s0.rest) < 256; omega) (minor_lt _) Z rot max f]
  obtain ⟨i1, i2⟩ := fed_loop R Z rot max.toNat f
  rw [hd] at i1 i2
  refine ⟨i1, ?_⟩
  rw [i2]
  cases t with
  | none => rfl
  | some t =>
    unfold endOf
    by_cases he : troubleExc none t = .zlibError <;> cases rot <;> simp [he]

/-- **C80** Whatever is done to the file meanwhile: with a header that was read before, what is yielded is exactly what the
reference decoder finds in the answers of the reads, one answer for each structure and each block; nothing of an answer carries
over to another one.  The iteration ends as the decoder does: normally where a record without system statistics was read, with
`zlib.error` (swallowed unless `raise_on_truncation`) or with `ValueError`. -/
theorem C80_decoder (Z : Zlib) {s0 s1 : Stream} {h : Header} (hg : getHeader true s0 = (.ok h, s1)) (rot : Bool) (max : Int)
    (gives : Nat → Bytes) {fs : List Found} {t : Option Trouble}
    (hd : decodeLogFrom Z (usedRow (first480 s0.rest)) (readsCGroups (first480 s0.rest)) gives max.toNat 0 = (fs, t)) :
    (Fed.generateStatistics Z (some h) rot max { gives }).1 = fs.map (fun f => presented h.cls f.written) ∧
    (Fed.generateStatistics Z (some h) rot max { gives }).2.1 = match (generalizing := false) t with
      | none => .returned
      | some t => if troubleExc none t = .zlibError ∧ rot = false then .returned else .raised (troubleExc none t) :=
  fed_decoder Z hg rot max { gives } hd

theorem fed_getHeader (gives : Nat → Bytes) : ∃ f', (getHeaderP true).fed { gives } = ((getHeader true { data := gives 0 }).1, f') ∧
    f'.gives = gives ∧ f'.reads = 1 := by
  obtain ⟨g, hg⟩ : ∃ g : Bytes → Except Exc Header, getHeaderP true = (Prog.getInto defaultHeader.size >>= fun b => Prog.lift (g b)) :=
    getHeaderP_eq true
  have h1 : (getHeader true { data := gives 0 }).1 =
      g ((gives 0).take 480 ++ List.replicate (480 - (gives 0).length) 0) := by
    rw [← getHeaderP_run, hg, run_bind, run_getInto, Rd.bind_eq, show defaultHeader.size = 480 from rfl]
    have := (readinto_skip 480 { data := gives 0 })
    rcases hr : Stream.readinto 480 { data := gives 0 } with ⟨e | b, s'⟩
    · exact absurd hr (by rw [Stream.readinto_eq, Stream.read_none rfl]; nofun)
    · rw [hr] at this
      have h2 := (this.2.1 b rfl).1
      dsimp only
      rw [h2]
      exact congrArg Prod.fst (congrFun (run_lift (g _)) _)
  rw [h1, hg, fed_bind, fed_getInto]
  dsimp only
  rw [fed_lift]
  exact ⟨_, rfl, rfl, rfl⟩

theorem fed_none (Z : Zlib) (rot : Bool) (max : Int) (f : Fed) : Fed.generateStatistics Z none rot max f =
    match (getHeaderP true).fed f with
    | (.error e, f') => ([], .raised e, f')
    | (.ok h, f') => Fed.generateStatistics Z (some h) rot max f' := rfl

/-- **C80** And when the header is read from the same file: it is the one of the first answer. -/
theorem C80_own_header (Z : Zlib) (rot : Bool) (max : Int) (gives : Nat → Bytes) {h : Header}
    (hg : (getHeader true { data := gives 0 }).1 = .ok h) {fs : List Found} {t : Option Trouble}
    (hd : decodeLogFrom Z (usedRow (first480 (gives 0))) (readsCGroups (first480 (gives 0))) gives max.toNat 1 = (fs, t)) :
    (Fed.generateStatistics Z none rot max { gives }).1 = fs.map (fun f => presented h.cls f.written) ∧
    (Fed.generateStatistics Z none rot max { gives }).2.1 = match (generalizing := false) t with
      | none => .returned
      | some t => if troubleExc none t = .zlibError ∧ rot = false then .returned else .raised (troubleExc none t) := by
  obtain ⟨f', h1, h2, h3⟩ := fed_getHeader gives
  rw [fed_none, h1, hg]
  have : Stream.rest { data := gives 0 } = gives 0 := by simp [Stream.rest]
  exact fed_decoder Z (s0 := { data := gives 0 }) (Prod.ext hg rfl) rot max f' (by rw [this, h2, h3]; exact hd)

/-- **C80** Or the file is refused, for what the first answer is. -/
theorem C80_refused (Z : Zlib) (rot : Bool) (max : Int) (gives : Nat → Bytes) {e : Exc}
    (hg : (getHeader true { data := gives 0 }).1 = .error e) :
    (Fed.generateStatistics Z none rot max { gives }).1 = [] ∧ (Fed.generateStatistics Z none rot max { gives }).2.1 = .raised e := by
  obtain ⟨f', h1, -⟩ := fed_getHeader gives
  rw [fed_none, h1, hg]
  exact ⟨rfl, rfl⟩

/-! ## What is found has the sizes of the version -/

theorem decodeSampleFrom_fits {Z : Bytes → Option Bytes} {r : Row} {cg : Bool} {gives : Nat → Bytes} {t t' : Nat} {f : Found}
    (h : decodeSampleFrom Z r cg gives t = .ok (some (f, t'))) : f.Fits r cg ∧ t' = t + if cg then 5 else 3 := by
  unfold decodeSampleFrom at h
  dsimp only at h
  have hh : ((gives t).take r.record ++ List.replicate (r.record - (gives t).length) 0).length = r.record := by simp; omega
  generalize (gives t).take r.record ++ List.replicate (r.record - (gives t).length) 0 = head at h hh
  split at h
  · cases h
  · split at h
    · cases h
    · split at h
      · cases h
      · split at h
        · cases h
        · split at h
          · cases h
          · rename_i ts hts
            have hT : ∀ t ∈ ts, t.length = r.tstat := by
              unfold decodeTasks at hts
              split at hts
              · cases hts
              · rename_i e _ _ _ hle
                cases hts
                intro t ht
                obtain ⟨i, hi, rfl⟩ := List.mem_map.mp ht
                rw [List.mem_range] at hi
                have : (i + 1) * r.tstat ≤ u32 head 28 * r.tstat := Nat.mul_le_mul_right _ hi
                rw [Nat.succ_mul] at this
                rw [List.length_take, List.length_drop]
                omega
            split at h
            · rename_i hcg
              cases h
              exact ⟨⟨hh, by simp; omega, hT, fun _ => rfl, nofun⟩, by rw [hcg]; rfl⟩
            · rename_i hcg
              split at h
              · cases h
              · split at h
                · cases h
                · split at h
                  · cases h
                  · rename_i hch
                    cases h
                    refine ⟨⟨hh, by simp; omega, hT, fun h => absurd h hcg, ?_⟩, by cases cg; exact absurd rfl hcg; rfl⟩
                    exact decodeChain_fits _ _ _ _ _ hch

theorem decodeLogFrom_fits {Z : Bytes → Option Bytes} {r : Row} {cg : Bool} {gives : Nat → Bytes} : ∀ (n t : Nat),
    (decodeLogFrom Z r cg gives n t).1.length ≤ n ∧ ∀ f ∈ (decodeLogFrom Z r cg gives n t).1, f.Fits r cg
  | 0, t => ⟨Nat.le_refl _, nofun⟩
  | n + 1, t => by
    rw [decodeLogFrom]
    cases hd : decodeSampleFrom Z r cg gives t with
    | error e => exact ⟨Nat.zero_le _, nofun⟩
    | ok q =>
      cases q with
      | none => exact ⟨Nat.zero_le _, nofun⟩
      | some q =>
        obtain ⟨f, t'⟩ := q
        obtain ⟨i1, i2⟩ := decodeLogFrom_fits n t'
        refine ⟨Nat.succ_le_succ i1, fun g hg => ?_⟩
        rcases List.mem_cons.mp hg with rfl | hg
        · exact (decodeSampleFrom_fits hd).1
        · exact i2 g hg

/-- **C80** Whatever is done to the file meanwhile: at most `max_samples` samples are yielded, and each one is complete, with
structures of exactly the sizes of the version, and its cgroups have the PIDs they announce. -/
theorem C80_complete (Z : Zlib) {s0 s1 : Stream} {h : Header} (hg : getHeader true s0 = (.ok h, s1)) (rot : Bool) (max : Int)
    (gives : Nat → Bytes) : ∃ fs : List Found,
    (Fed.generateStatistics Z (some h) rot max { gives }).1 = fs.map (fun f => presented h.cls f.written) ∧
    fs.length ≤ max.toNat ∧
    ∀ f ∈ fs, f.Fits (usedRow (first480 s0.rest)) (readsCGroups (first480 s0.rest)) := by
  obtain ⟨i1, i2⟩ := decodeLogFrom_fits (Z := Z) (r := usedRow (first480 s0.rest)) (cg := readsCGroups (first480 s0.rest))
    (gives := gives) max.toNat 0
  exact ⟨_, (C80_decoder Z hg rot max gives rfl).1, i1, i2⟩

/-! ## What happens later changes nothing before -/

theorem decodeSampleFrom_same {Z : Bytes → Option Bytes} {r : Row} {cg : Bool} {g1 g2 : Nat → Bytes} {t : Nat}
    (h : ∀ i, t ≤ i → i < t + (if cg then 5 else 3) → g1 i = g2 i) :
    decodeSampleFrom Z r cg g1 t = decodeSampleFrom Z r cg g2 t := by
  unfold decodeSampleFrom
  cases cg with
  | false =>
    have e0 := h t (Nat.le_refl _) (by simp)
    have e1 := h (t + 1) (by omega) (by simp)
    have e2 := h (t + 2) (by omega) (by simp)
    rw [e0, e1, e2]
    simp
  | true =>
    have e0 := h t (Nat.le_refl _) (by simp)
    have e1 := h (t + 1) (by omega) (by simp)
    have e2 := h (t + 2) (by omega) (by simp)
    have e3 := h (t + 3) (by omega) (by simp)
    have e4 := h (t + 4) (by omega) (by simp)
    rw [e0, e1, e2, e3, e4]

theorem decodeLogFrom_same {Z : Bytes → Option Bytes} {r : Row} {cg : Bool} {g1 g2 : Nat → Bytes} : ∀ (n k t : Nat),
    (∀ i, t ≤ i → i < t + (if cg then 5 else 3) * k → g1 i = g2 i) →
    (decodeLogFrom Z r cg g1 n t).1.take k = (decodeLogFrom Z r cg g2 n t).1.take k
  | 0, k, t, _ => rfl
  | n + 1, 0, t, _ => by rw [List.take_zero, List.take_zero]
  | n + 1, k + 1, t, h => by
    rw [Nat.mul_succ] at h
    rw [decodeLogFrom, decodeLogFrom, decodeSampleFrom_same (g1 := g1) (g2 := g2) fun i h1 h2 => h i h1 (by omega)]
    cases hd : decodeSampleFrom Z r cg g2 t with
    | error e => rfl
    | ok q =>
      cases q with
      | none => rfl
      | some q =>
        obtain ⟨f, t'⟩ := q
        obtain ⟨-, rfl⟩ := decodeSampleFrom_fits hd
        dsimp only
        rw [List.take_succ_cons, List.take_succ_cons, decodeLogFrom_same n k _ fun i h1 h2 => h i (by omega) (by omega)]

/-- **C80** What is done to the file later changes no sample already yielded: a sample takes five reads (three without
cgroups), and if two files answer the first `k` samples' reads in the same way, the first `k` samples are the same. -/
theorem C80_later_changes (Z : Zlib) {s0 s1 : Stream} {h : Header} (hg : getHeader true s0 = (.ok h, s1)) (rot : Bool) (max : Int)
    (k : Nat) (g1 g2 : Nat → Bytes) (same : ∀ t < (if readsCGroups (first480 s0.rest) then 5 else 3) * k, g1 t = g2 t) :
    (Fed.generateStatistics Z (some h) rot max { gives := g1 }).1.take k =
      (Fed.generateStatistics Z (some h) rot max { gives := g2 }).1.take k := by
  rw [(C80_decoder Z hg rot max g1 rfl).1, (C80_decoder Z hg rot max g2 rfl).1, ← List.map_take, ← List.map_take,
    decodeLogFrom_same max.toNat k 0 fun i _ h2 => same i (by omega)]

/-! ## A file overwritten while it is read -/

/-- A record of version 1.26 with blocks of one byte each. -/
def shortRecord (time : Nat) : Bytes := le 8 time ++ zeros 8 ++ le 4 1 ++ le 4 1 ++ zeros 56

/-- The first sample is read, then the file is overwritten in place: another record is found where the second one was, and after
that sample something that is no statistics at all. -/
def overwritten (t : Nat) : Bytes :=
  match t with
  | 0 => shortRecord 1700000000 ++ [7, 8]
  | 1 => [7, 8]
  | 2 => [8] ++ shortRecord 1700000010
  | 3 => shortRecord 1800000000 ++ [7, 8]
  | 4 => [7, 8]
  | 5 => [8] ++ shortRecord 1800000020
  | 6 => shortRecord 1800000020 ++ [9, 9]
  | _ => [9, 9]

/-- What a record of `shortRecord` and good blocks give. -/
theorem short_sample {gives : Nat → Bytes} {t : Nat} {hd : Bytes} (h0 : (gives t).take 80 = hd) (hl : hd.length = 80)
    (hz : u32 hd 16 = 1 ∧ u32 hd 20 = 1 ∧ u32 hd 28 = 0) (h1 : (gives (t + 1)).take 1 = [7]) (h2 : (gives (t + 2)).take 1 = [8]) :
    decodeSampleFrom oddZ oldest false gives t = .ok (some (⟨hd, zeros 88368, [], []⟩, t + 3)) := by
  have hlen : 80 ≤ (gives t).length := by rw [← h0, List.length_take] at hl; omega
  unfold decodeSampleFrom
  rw [show oldest.record = 80 from rfl, show 80 - (gives t).length = 0 by omega, h0, List.replicate_zero, List.append_nil]
  dsimp only
  rw [if_neg (by rw [hz.1]; decide), hz.1, hz.2.1, hz.2.2]
  unfold unpackFrom
  rw [h1, h2]
  have hs : (zeros 88368).length = 88368 := List.length_replicate
  show (if (zeros 88368).length < 88368 then _ else _) = _
  rw [hs, if_neg (by decide)]
  show Except.ok (some (Found.mk hd ((zeros 88368).take 88368) [] [], t + 3)) = _
  rw [List.take_of_length_le (Nat.le_of_eq hs)]

theorem overwritten_decoded {g : Nat → Bytes} {a : Nat} (hg : ∀ i, g (a + i) = overwritten i) :
    decodeLogFrom oddZ oldest false g 86400 a =
    ([⟨shortRecord 1700000000, zeros 88368, [], []⟩, ⟨shortRecord 1800000000, zeros 88368, [], []⟩], some .zlib) := by
  have g0 : g a = overwritten 0 := hg 0
  rw [show 86400 = 86397 + 1 + 1 + 1 from rfl, decodeLogFrom,
    short_sample (hd := shortRecord 1700000000) (by rw [g0]; decide) (by decide) (by decide) (by rw [hg]; decide) (by rw [hg]; decide)]
  dsimp only
  rw [decodeLogFrom, short_sample (hd := shortRecord 1800000000) (by rw [hg]; decide) (by decide) (by decide)
    (by rw [Nat.add_assoc, hg]; decide) (by rw [Nat.add_assoc, hg]; decide)]
  dsimp only
  rw [decodeLogFrom]
  have : decodeSampleFrom oddZ oldest false g (a + 3 + 3) = .error .zlib := by
    unfold decodeSampleFrom
    rw [Nat.add_assoc, Nat.add_assoc, hg, hg]
    have e1 : (overwritten (3 + 3)).take oldest.record ++ List.replicate (oldest.record - (overwritten (3 + 3)).length) 0 = shortRecord 1800000020 := by
      decide +kernel
    have e2 : u32 (shortRecord 1800000020) 16 = 1 := by decide
    dsimp only
    rw [e1, e2, if_neg (by decide)]
    rfl
  rw [this]

theorem overwritten_found {g : Nat → Bytes} {a : Nat} (hg : ∀ i, g (a + i) = overwritten i) :
    ∃ z, decodeLogFrom oddZ oldest false g 86400 a =
      ([⟨shortRecord 1700000000, z, [], []⟩, ⟨shortRecord 1800000000, z, [], []⟩], some .zlib) := ⟨_, overwritten_decoded hg⟩

theorem presented_record (c : HeaderClass) (f : Found) : (presented c f.written).record.buf = f.record := rfl

theorem oldest_start : usedRow (first480 (toyFile oldest).rest) = oldest ∧ readsCGroups (first480 (toyFile oldest).rest) = false := by
  have hr : oldest ∈ table := by decide
  rw [toy_start oldest hr]
  obtain ⟨u1, u2, -⟩ := decoded_start hr (toyHeader_valid oldest hr) (toy_rest oldest)
  exact ⟨u1, u2⟩

/-- **C80** `C80_decoder`, `C80_complete`: two samples are yielded, of which the second one was never in the file together with
the first one; then `zlib.error`. -/
example {h : Header} (hg : getHeader true (toyFile oldest) = (.ok h, toyOpen oldest)) :
    (Fed.generateStatistics oddZ (some h) true 86400 { gives := overwritten }).1.map (fun x => x.record.buf) =
      [shortRecord 1700000000, shortRecord 1800000000] ∧
    (Fed.generateStatistics oddZ (some h) true 86400 { gives := overwritten }).2.1 = .raised .zlibError := by
  obtain ⟨z, hz⟩ := overwritten_found (g := overwritten) (a := 0) fun i => by rw [Nat.zero_add]
  obtain ⟨e1, e2⟩ := C80_decoder oddZ hg true 86400 overwritten
    (fs := [⟨shortRecord 1700000000, z, [], []⟩, ⟨shortRecord 1800000000, z, [], []⟩]) (t := some .zlib) (by
      rw [oldest_start.1, oldest_start.2]; exact hz)
  rw [e1, e2, List.map_map]
  refine ⟨?_, by simp [troubleExc]⟩
  simp only [List.map_cons, List.map_nil, Function.comp, presented_record]

example {h : Header} (hg : getHeader true (toyFile oldest) = (.ok h, toyOpen oldest)) := C80_complete oddZ hg true 86400 overwritten

/-- **C80** `C80_later_changes`: the same file, overwritten in another way. -/
example {h : Header} (hg : getHeader true (toyFile oldest) = (.ok h, toyOpen oldest)) :=
  C80_later_changes oddZ hg true 86400 1 overwritten (fun t => if t < 3 then overwritten t else overwritten (t - 3)) (by
    rw [oldest_start.2]
    intro t ht
    have : t < 3 := by simpa using ht
    rw [if_pos this])

/-- The header is read, then the rest of the file is replaced. -/
def replaced (t : Nat) : Bytes :=
  match t with
  | 0 => (toyFile oldest).data
  | t + 1 => overwritten t

theorem replaced_header : ∃ h, getHeader true { data := replaced 0 } = (.ok h, toyOpen oldest) := by
  obtain ⟨h, -, -, -, -, e, -⟩ := toy_open oldest (by decide)
  exact ⟨h, e⟩

/-- **C80** `C80_own_header`: the samples of the file as it was later. -/
example : (Fed.generateStatistics oddZ none true 86400 { gives := replaced }).1.map (fun x => x.record.buf) =
      [shortRecord 1700000000, shortRecord 1800000000] ∧
    (Fed.generateStatistics oddZ none true 86400 { gives := replaced }).2.1 = .raised .zlibError := by
  obtain ⟨h, hg⟩ := replaced_header
  obtain ⟨z, hz⟩ := overwritten_found (g := replaced) (a := 1) fun i => by rw [Nat.add_comm]; rfl
  have e : first480 (replaced 0) = first480 (toyFile oldest).rest := by
    rw [show replaced 0 = (toyFile oldest).rest from (List.drop_zero (l := (toyFile oldest).data)).symm]
  obtain ⟨e1, e2⟩ := C80_own_header oddZ true 86400 replaced (congrArg Prod.fst hg)
    (fs := [⟨shortRecord 1700000000, z, [], []⟩, ⟨shortRecord 1800000000, z, [], []⟩]) (t := some .zlib) (by
    rw [e, oldest_start.1, oldest_start.2]; exact hz)
  rw [e1, e2, List.map_map]
  refine ⟨?_, by simp [troubleExc]⟩
  simp only [List.map_cons, List.map_nil, Function.comp, presented_record]

theorem first_found : decodeSampleFrom oddZ oldest false overwritten 0 = .ok (some (⟨shortRecord 1700000000, zeros 88368, [], []⟩, 0 + 3)) :=
  short_sample (by decide) (by decide) (by decide) (by decide) (by decide)

theorem second_found : decodeSampleFrom oddZ oldest false overwritten 3 = .ok (some (⟨shortRecord 1800000000, zeros 88368, [], []⟩, 3 + 3)) :=
  short_sample (by decide) (by decide) (by decide) (by decide) (by decide)

/-- Two samples of the overwritten file: all reads are whole. -/
theorem overwritten_whole {h : Header} (hg : getHeader true (toyFile oldest) = (.ok h, toyOpen oldest)) :
    (Fed.generateStatistics oddZ (some h) true 2 { gives := overwritten }).2.2.gap = false ∧
    (Fed.generateStatistics oddZ (some h) true 2 { gives := overwritten }).2.2.short = false ∧
    (Fed.generateStatistics oddZ (some h) true 2 { gives := overwritten }).2.2.got =
      shortRecord 1700000000 ++ [7, 8] ++ shortRecord 1800000000 ++ [7, 8] := by
  obtain ⟨h1, R, -, -, -⟩ := getHeader_ok hg
  have := major_lt (first480 (toyFile oldest).rest)
  rw [fed_generate_ready R (by rw [h1]) (by show major (first480 (toyFile oldest).rest) < 256; omega) (minor_lt _)]
  rw [oldest_start.1, oldest_start.2] at R
  have step : ∀ (f : Fed) (t : Nat) (hd z : Bytes), f.gives = overwritten → f.reads = t →
      decodeSampleFrom oddZ oldest false overwritten t = .ok (some (⟨hd, z, [], []⟩, t + 3)) →
      ∃ x, (readSampleP oddZ h (major (first480 (toyFile oldest).rest), minor (first480 (toyFile oldest).rest))).fed f =
        (.ok (some x), ((f.after 80).after (u32 hd 16)).after (u32 hd 20)) := by
    intro f t hd z h2 h4 h3
    have D := fed_sample R oddZ f
    rw [h2, h4, h3] at D
    obtain ⟨f', d1, -, -, d2⟩ := D
    rw [d2 rfl] at d1
    exact ⟨_, d1⟩
  obtain ⟨x, s1⟩ := step { gives := overwritten } 0 _ _ rfl rfl first_found
  obtain ⟨y, s2⟩ := step (((({ gives := overwritten } : Fed).after 80).after (u32 (shortRecord 1700000000) 16)).after
    (u32 (shortRecord 1700000000) 20)) 3 _ _ rfl rfl second_found
  rw [show Int.toNat 2 = 0 + 1 + 1 from rfl, Fed.runLoop, s1]
  dsimp only
  rw [Fed.runLoop, s2]
  dsimp only
  rw [Fed.runLoop]
  clear s1 s2 step
  exact ⟨by decide +kernel, by decide +kernel, by decide +kernel⟩

/-- **C80** `C80_whole_reads`: they are the samples of the file that holds the two of them. -/
example {h : Header} (hg : getHeader true (toyFile oldest) = (.ok h, toyOpen oldest)) (rest : Bytes) :
    (generateStatistics oddZ (some h) true 2
      { data := shortRecord 1700000000 ++ [7, 8] ++ shortRecord 1800000000 ++ [7, 8] ++ rest }).1 =
    (Fed.generateStatistics oddZ (some h) true 2 { gives := overwritten }).1 := by
  obtain ⟨w1, w2, w3⟩ := overwritten_whole hg
  have := (C80_whole_reads oddZ (some h) true 2 overwritten w1 rest (.inr w2)).1
  rw [w3] at this
  exact this

/-- **C80** `C80_refused`: an empty file, whatever is written to it later. -/
example : ∃ e, (Fed.generateStatistics oddZ none true 86400 { gives := fun t => if t = 0 then [] else overwritten t }).2.1 =
    .raised (.valueError e) := by
  have : (match (getHeader true { data := [] }).1 with | .error (.valueError _) => true | _ => false) = true := by decide +kernel
  revert this
  cases h : (getHeader true { data := [] }).1 with
  | ok _ => nofun
  | error e =>
    cases e <;> first | (intro h; cases h; done) | (intro _; exact ⟨_, (C80_refused oddZ true 86400 _ h).2⟩)

end Atop
