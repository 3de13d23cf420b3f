import Verif.Model.Live
import Verif.Proofs.Run
/-!
# Reading a growing file
-/

namespace Atop
open Spec

namespace Prog

theorem bind_def {α β} (m : Prog α) (f : α → Prog β) : (m >>= f) = m.bind f := rfl

theorem run_read {α} (n : Nat) (k : Bytes → Prog α) (s : Stream) : (read n k).run s =
    match Stream.read n s with
    | (.ok b, s') => (k b).run s'
    | (.error e, s') => (.error e, s') := by rw [run.eq_def]; rfl

theorem live_read {α} (n : Nat) (k : Bytes → Prog α) (l : Live) : (read n k).live l =
    match Stream.read n (l.snapshot l.reads) with
    | (.ok b, s') => (k b).live { l with pos := s'.pos, reads := l.reads + 1 }
    | (.error e, s') => (.error e, { l with pos := s'.pos, reads := l.reads + 1 }) := by rw [live.eq_def]; rfl

theorem bind_read {α β} (n : Nat) (k : Bytes → Prog α) (f : α → Prog β) :
    (read n k).bind f = read n fun b => (k b).bind f := by rw [bind.eq_def]

@[simp] theorem run_ret {α} (a : α) (s) : (ret a).run s = (.ok a, s) := rfl
@[simp] theorem run_pure {α} (a : α) (s) : (Pure.pure a : Prog α).run s = (.ok a, s) := rfl

theorem run_bind {α β} (m : Prog α) (f : α → Prog β) : (m >>= f).run = m.run >>= fun a => (f a).run := by
  rw [bind_def]
  funext s
  induction m generalizing s with
  | ret a => rfl
  | raise e => rfl
  | read n k ih =>
    rw [Rd.bind_eq, bind_read, run_read, run_read]
    rcases Stream.read n s with ⟨e | b, s'⟩
    · rfl
    · dsimp only; rw [ih b s', Rd.bind_eq]

theorem run_lift {α} (x : Except Exc α) : (lift x).run = Rd.lift x := by
  funext s; cases x <;> rfl

theorem run_get (n : Nat) : (get n).run = Stream.read n := by
  funext s
  rw [get, run_read]
  rcases Stream.read n s with ⟨e | b, s'⟩ <;> rfl

theorem run_getInto (n : Nat) : (getInto n).run = Stream.readinto n := by
  unfold getInto Stream.readinto
  rw [run_bind, run_get]; rfl

end Prog
open Prog

theorem getHeaderP_run (check : Bool) : (getHeaderP check).run = getHeader check := by
  unfold getHeaderP getHeader
  rw [run_bind, run_getInto]; congr 1; funext buf
  dsimp only
  rw [run_bind, run_lift]; congr 1; funext m
  split
  · rfl
  · rw [run_bind, run_lift]; congr 1; funext v
    rw [run_bind, run_lift]; congr 1; funext h
    split
    · rw [run_bind, run_lift]; rfl
    · rfl

theorem getRecordP_run (h : Header) : (getRecordP h).run = getRecord h := by
  unfold getRecordP getRecord
  rw [run_bind, run_getInto]; rfl

theorem getSStatP_run (Z : Zlib) (h : Header) (rec : Inst) : (getSStatP Z h rec).run = getSStat Z h rec := by
  unfold getSStatP getSStat
  simp only [run_bind, run_lift, run_get]

theorem getTStatP_run (Z : Zlib) (h : Header) (rec : Inst) : (getTStatP Z h rec).run = getTStat Z h rec := by
  unfold getTStatP getTStat
  simp only [run_bind, run_lift, run_get]

theorem getCStatP_run (Z : Zlib) (h : Header) (rec : Inst) : (getCStatP Z h rec).run = getCStat Z h rec := by
  unfold getCStatP getCStat
  cases h.cls.CStat with
  | some t => simp only [run_bind, run_lift, run_get]
  | none =>
    simp only [run_bind, run_lift, run_get]
    congr 1; funext n; congr 1; funext bc; congr 1; funext d; congr 1; funext m; congr 1; funext bp
    congr 1; funext pids; congr 1; funext cl; congr 1; funext cnt
    split <;> rfl

theorem readSampleP_run (Z : Zlib) (h : Header) (v : Nat × Nat) : (readSampleP Z h v).run = readSample Z h v := by
  unfold readSampleP readSample
  rw [run_bind, getRecordP_run]; congr 1; funext rec
  rw [run_bind, run_lift]; congr 1; funext n
  split
  · rfl
  · rw [run_bind, getSStatP_run]; congr 1; funext ss
    rw [run_bind, getTStatP_run]; congr 1; funext ts
    dsimp only
    split
    · rw [run_bind, getCStatP_run]; rfl
    · rfl

/-! ## Normal forms -/

namespace Prog

theorem bind_assoc {α β γ} (m : Prog α) (f : α → Prog β) (g : β → Prog γ) : (m >>= f) >>= g = m >>= fun a => f a >>= g := by
  show (m.bind f).bind g = m.bind fun a => (f a).bind g
  induction m with
  | ret a => rfl
  | raise e => rfl
  | read n k ih => rw [bind_read, bind_read, bind_read]; congr 1; funext b; exact ih b

theorem lift_ok_bind {α β} (a : α) (f : α → Prog β) : (lift (.ok a) >>= f) = f a := rfl

theorem live_bind {α β} (m : Prog α) (f : α → Prog β) (l : Live) : (m >>= f).live l =
    match m.live l with
    | (.ok a, l') => (f a).live l'
    | (.error e, l') => (.error e, l') := by
  rw [bind_def]
  induction m generalizing l with
  | ret a => rfl
  | raise e => rfl
  | read n k ih =>
    rw [bind_read, live_read, live_read]
    rcases Stream.read n (l.snapshot l.reads) with ⟨e | b, s'⟩
    · rfl
    · exact ih b _

theorem live_ok {α β} {m : Prog α} {f : α → Prog β} {l l' : Live} {a : α} (h : m.live l = (.ok a, l')) :
    (m >>= f).live l = (f a).live l' := by rw [live_bind, h]

theorem live_err {α β} {m : Prog α} {f : α → Prog β} {l l' : Live} {e : Exc} (h : m.live l = (.error e, l')) :
    (m >>= f).live l = (.error e, l') := by rw [live_bind, h]

theorem live_lift {α} (x : Except Exc α) (l : Live) : (lift x).live l = (x, l) := by cases x <;> rfl

end Prog

/-- Read `n` bytes and decompress them. -/
def blockP (Z : Zlib) (n : Nat) : Prog Bytes := do
  let b ← Prog.get n
  Prog.lift (zdecompress Z b)

theorem getSStatP_eq {h : Header} {r v cg} (R : Ready h r v cg) (Z : Zlib) (rec : Bytes) :
    getSStatP Z h ⟨h.cls.Record, rec⟩ = (do
      let d ← blockP Z (u32 rec 16)
      Prog.lift (fromBufferCopy h.cls.SStat d)) := by
  unfold getSStatP blockP
  simp only [intAttr_u32 R.facts.scomplen, lift_ok_bind, Int.toNat_natCast, Prog.bind_assoc]

theorem getTStatP_eq {h : Header} {r v cg} (R : Ready h r v cg) (Z : Zlib) (rec : Bytes) :
    getTStatP Z h ⟨h.cls.Record, rec⟩ = (do
      let d ← blockP Z (u32 rec 20)
      Prog.lift (tstatLoop h.cls.TStat d r.tstat (u32 rec 28) 0)) := by
  obtain ⟨hcount, hlen⟩ := tstat_fields R rec
  unfold getTStatP blockP
  simp only [intAttr_u32 R.facts.pcomplen, lift_ok_bind, Int.toNat_natCast, Prog.bind_assoc, hcount, R.ver, hlen]

theorem getCStatP_eq {h : Header} {r v} (R : Ready h r v true) (Z : Zlib) (rec : Bytes) {t : CType}
    (ht : h.cls.CStat = some t) :
    getCStatP Z h ⟨h.cls.Record, rec⟩ = (do
      let d ← blockP Z (u32 rec 72)
      let pids ← blockP Z (u32 rec 84)
      Prog.lift (cstatLoop t d pids t.size (u16 rec 10) 0 0)) := by
  obtain ⟨hs, hcl⟩ := cstat_fields R ht
  unfold getCStatP blockP
  simp only [intAttr_u32 (R.facts.ccomplen hs), intAttr_u32 (R.facts.icomplen hs), lift_ok_bind, Prog.bind_assoc,
    intAttr_u16 (R.facts.ncgroups hs), hcl, Int.toNat_natCast, ht]

theorem readSampleP_eq {h : Header} {r v cg} (R : Ready h r v cg) (Z : Zlib) :
    readSampleP Z h v = (do
      let rec ← Prog.getInto r.record
      if u32 rec 16 = 0 then pure none
      else do
        let sstat ← getSStatP Z h ⟨h.cls.Record, rec⟩
        let tstats ← getTStatP Z h ⟨h.cls.Record, rec⟩
        let cgroups ← (if cg then getCStatP Z h ⟨h.cls.Record, rec⟩ else pure [] : Prog (List CGroup))
        pure (some ⟨⟨h.cls.Record, rec⟩, sstat, tstats, cgroups⟩) : Prog (Option Sample)) := by
  unfold readSampleP getRecordP
  rw [Prog.bind_assoc, R.facts.record]
  congr 1; funext rec
  have hc : (((u32 rec 16 : Nat) : Int) ≤ 0) = (u32 rec 16 = 0) := by apply propext; omega
  have hcg : (v.1 ≥ 2 ∧ v.2 ≥ 11) = (cg = true) := propext R.cg_iff
  show (lift (Inst.intAttr ⟨h.cls.Record, rec⟩ py!"scomplen") >>= _) = _
  rw [intAttr_u32 R.facts.scomplen, lift_ok_bind]
  simp only [hc, hcg]
  congr 1; congr 1; funext ss; congr 1; funext ts
  split <;> rfl

/-! ## Reads of a growing file -/

/-- The state after a read that moved the position by `n`. -/
def Live.adv (l : Live) (n : Nat) : Live := { l with pos := l.pos + n, reads := l.reads + 1 }

theorem Live.snapshot_rest (l : Live) (t : Nat) {x : Bytes} (h : l.final.drop l.pos = x) :
    (l.snapshot t).rest = x.take (l.visible t - l.pos) := by
  unfold Live.snapshot Stream.rest
  rw [List.drop_take, h]

theorem live_get_full {l : Live} {a b : Bytes} {n : Nat} (h : l.final.drop l.pos = a ++ b) (hn : n = a.length)
    (hv : l.pos + n ≤ l.visible l.reads) : (Prog.get n).live l = (.ok a, l.adv n) := by
  have hr := l.snapshot_rest l.reads h
  rw [List.take_append, List.take_of_length_le (by omega)] at hr
  rw [Prog.get, live_read, Stream.read_full hr hn]
  rfl

theorem live_get_short {l : Live} {a b : Bytes} {n : Nat} (h : l.final.drop l.pos = a ++ b) (hn : n = a.length)
    (hv : l.visible l.reads < l.pos + n) (h0 : 0 < n) :
    (Prog.get n).live l = (.ok (a.take (l.visible l.reads - l.pos)), l.adv (l.visible l.reads - l.pos)) := by
  have hr := l.snapshot_rest l.reads h
  rw [List.take_append_of_le_length (by omega)] at hr
  rw [Prog.get, live_read, Stream.read_short (by rw [hr, List.length_take]; omega) rfl, hr]
  have : (a.take (l.visible l.reads - l.pos)).length = l.visible l.reads - l.pos := by rw [List.length_take]; omega
  rw [this]
  rfl

theorem live_block_full {Z : Zlib} {l : Live} {a b d : Bytes} {n : Nat} (h : l.final.drop l.pos = a ++ b)
    (hn : n = a.length) (P : Packs Z a d) (hv : l.pos + n ≤ l.visible l.reads) :
    (blockP Z n).live l = (.ok d, l.adv n) := by
  unfold blockP
  rw [live_ok (live_get_full h hn hv), live_lift, zdecompress, P.inv]

theorem live_block_cut {Z : Zlib} {l : Live} {a b d : Bytes} {n : Nat} (h : l.final.drop l.pos = a ++ b)
    (hn : n = a.length) (P : Packs Z a d) (hv : l.visible l.reads < l.pos + n) :
    ∃ l', (blockP Z n).live l = (.error .zlibError, l') ∧ l'.reads = l.reads + 1 := by
  have hp := P.pos
  have hl := live_get_short h hn hv (by omega)
  refine ⟨l.adv (l.visible l.reads - l.pos), ?_, rfl⟩
  unfold blockP
  rw [live_ok hl, live_lift, zdecompress, P.cut _ (by omega)]

theorem Live.drop_adv {l : Live} {a b : Bytes} (h : l.final.drop l.pos = a ++ b) :
    (l.adv a.length).final.drop (l.adv a.length).pos = b := by
  show l.final.drop (l.pos + a.length) = b
  rw [← List.drop_drop, h, List.drop_left]

/-- One iteration on a growing log.  Either the whole sample was met, or some read met the file ending inside the
sample, and then the iteration is what it would have been on the file as it was at that read. -/
theorem live_sample {h : Header} {r v} (R : Ready h r v r.cstat.isSome) {Z : Zlib} {w : WSample} (W : w.Valid Z r)
    {l : Live} {tail : Bytes} (hl : l.final.drop l.pos = w.bytes r ++ tail)
    (mono : ∀ a b, a ≤ b → l.visible a ≤ l.visible b)
    (whole : ∀ t, ¬ (l.pos + 16 < l.visible t ∧ l.visible t < l.pos + r.record)) :
    (∃ k, (readSampleP Z h v).live l =
        (.ok (some (presented h.cls w)), { l with pos := l.pos + (w.bytes r).length, reads := l.reads + k }) ∧
      0 < k ∧ l.pos + (w.bytes r).length ≤ l.visible (l.reads + k - 1)) ∨
    (∃ T, l.reads ≤ T ∧ l.visible T < l.pos + (w.bytes r).length ∧ ∃ x l' s', (readSampleP Z h v).live l = (x, l') ∧
      T < l'.reads ∧ readSample Z h v (l.snapshot T) = (x, s') ∧ (x = .ok none ∨ x = .error .zlibError)) := by
  have h32 : 32 ≤ r.record := R.small.2.1
  have hz0 : u32 w.record 16 ≠ 0 := by rw [W.scomplen]; have := W.zsstat.pos; omega
  -- what the same iteration gives on a file that ends inside the sample
  have cut : ∀ T, l.pos + r.record ≤ l.visible T → l.visible T < l.pos + (w.bytes r).length →
      ∃ s', readSample Z h v (l.snapshot T) = (.error .zlibError, s') := by
    intro T h1 h2
    have hr := l.snapshot_rest T hl
    rw [List.take_append_of_le_length (by omega)] at hr
    have hc := readSample_cut R W (s := l.snapshot T) (k := l.visible T - l.pos) (by omega) hr rfl
    rw [if_neg] at hc
    · exact hc
    · rw [hr, u32_take _ _ _ (by omega), WSample.bytes, List.append_assoc, List.append_assoc,
        u32_append_left _ _ _ (by rw [W.record_len]; omega)]
      exact hz0
  rw [readSampleP_eq R]
  have hl0 := hl
  have htot : (w.bytes r).length = r.record + (w.zsstat.length + (w.ztstats.length +
      (if r.cstat.isSome then w.zcstats ++ w.zpids else []).length)) := by
    rw [WSample.bytes]; simp only [List.length_append, List.append_assoc, W.record_len]
  unfold WSample.bytes at hl0
  simp only [List.append_assoc] at hl0
  unfold Prog.getInto
  rw [Prog.bind_assoc]
  by_cases c0 : l.pos + r.record ≤ l.visible l.reads
  rotate_left
  · -- the record is not there
    right
    refine ⟨l.reads, Nat.le_refl _, by omega, .ok none, ?_⟩
    have hg := live_get_short hl0 W.record_len.symm (by omega) (by omega)
    have hlr : l.reads < (l.adv (l.visible l.reads - l.pos)).reads := Nat.lt_succ_self _
    generalize l.adv (l.visible l.reads - l.pos) = l' at hg hlr
    have hw := whole l.reads
    have hr := l.snapshot_rest l.reads hl
    have hle : l.visible l.reads - l.pos ≤ 16 := by omega
    have hlen : (l.snapshot l.reads).rest.length ≤ 16 := by rw [hr, List.length_take]; omega
    rw [live_ok hg]
    have hu0 : ∀ (b : Bytes), b.length ≤ 16 → u32 b 16 = 0 := by
      intro b hb; simp [u32, u16, u8, List.getElem?_eq_none (show b.length ≤ 16 by omega), List.getElem?_eq_none (show b.length ≤ 17 by omega), List.getElem?_eq_none (show b.length ≤ 18 by omega), List.getElem?_eq_none (show b.length ≤ 19 by omega)]
    have hz : u32 (w.record.take (l.visible l.reads - l.pos) ++
        List.replicate (r.record - (w.record.take (l.visible l.reads - l.pos)).length) 0) 16 = 0 := by
      rw [u32_append_zeros]
      exact hu0 _ (by rw [List.length_take]; omega)
    rw [List.take_append_of_le_length (by omega)] at hr
    have hc := readSample_cut R W (s := l.snapshot l.reads) (k := l.visible l.reads - l.pos) (by omega) hr rfl
    rw [if_pos (hu0 _ hlen)] at hc
    refine ⟨l', _, ?_, hlr, hc, .inl rfl⟩
    show (if u32 _ 16 = 0 then _ else _ : Prog (Option Sample)).live l' = _
    rw [if_pos hz]; rfl
  rw [live_ok (live_get_full hl0 W.record_len.symm c0), W.record_len, Nat.sub_self, List.replicate_zero, List.append_nil,
    show (pure w.record : Prog Bytes) = Prog.lift (.ok w.record) from rfl, lift_ok_bind, if_neg hz0]
  have hl1 := l.drop_adv hl0
  rw [W.record_len] at hl1
  have m1 := mono l.reads (l.reads + 1) (by omega)
  have m2 := mono (l.reads + 1) (l.reads + 1 + 1) (by omega)
  have m3 := mono (l.reads + 1 + 1) (l.reads + 1 + 1 + 1) (by omega)
  have m4 := mono (l.reads + 1 + 1 + 1) (l.reads + 1 + 1 + 1 + 1) (by omega)
  by_cases c1 : l.pos + r.record + w.zsstat.length ≤ l.visible (l.reads + 1)
  rotate_left
  · right
    have hx : l.visible (l.reads + 1) < l.pos + (w.bytes r).length := by omega
    obtain ⟨s', hs'⟩ := cut (l.reads + 1) (by omega) hx
    obtain ⟨l', hb, hlr⟩ := live_block_cut (n := u32 w.record 16) hl1 W.scomplen W.zsstat
      (by rw [W.scomplen]; show l.visible (l.reads + 1) < l.pos + r.record + _; omega)
    exact ⟨_, by omega, hx, _, l', s', live_err (by rw [getSStatP_eq R]; exact live_err hb),
      by rw [hlr]; exact Nat.lt_succ_self _, hs', .inr rfl⟩
  have hss : (getSStatP Z h ⟨h.cls.Record, w.record⟩).live (l.adv r.record) =
      (.ok ⟨h.cls.SStat, w.sstat⟩, (l.adv r.record).adv w.zsstat.length) := by
    rw [getSStatP_eq R, live_ok (live_block_full hl1 W.scomplen W.zsstat (by rw [W.scomplen]; exact c1)), live_lift,
      fromBufferCopy_ok (by rw [R.facts.sstat, W.sstat_len]; exact Nat.le_refl _),
      List.take_of_length_le (by rw [R.facts.sstat, W.sstat_len]; exact Nat.le_refl _), W.scomplen]
  rw [live_ok hss]
  have hl2 := (l.adv r.record).drop_adv hl1
  by_cases c2 : l.pos + r.record + w.zsstat.length + w.ztstats.length ≤ l.visible (l.reads + 1 + 1)
  rotate_left
  · right
    have hx : l.visible (l.reads + 1 + 1) < l.pos + (w.bytes r).length := by omega
    obtain ⟨s', hs'⟩ := cut (l.reads + 1 + 1) (by omega) hx
    obtain ⟨l', hb, hlr⟩ := live_block_cut (n := u32 w.record 20) hl2 W.pcomplen W.ztstats
      (by rw [W.pcomplen]; show l.visible (l.reads + 1 + 1) < l.pos + r.record + _ + _; omega)
    exact ⟨_, by omega, hx, _, l', s', live_err (by rw [getTStatP_eq R]; exact live_err hb),
      by rw [hlr]; exact Nat.lt_succ_self _, hs', .inr rfl⟩
  have hts : (getTStatP Z h ⟨h.cls.Record, w.record⟩).live ((l.adv r.record).adv w.zsstat.length) =
      (.ok (w.tstats.map fun b => ⟨h.cls.TStat, b⟩), ((l.adv r.record).adv w.zsstat.length).adv w.ztstats.length) := by
    rw [getTStatP_eq R, live_ok (live_block_full hl2 W.pcomplen W.ztstats (by rw [W.pcomplen]; exact c2)), live_lift,
      W.ntasks, ← R.facts.tstat, tstatLoop_flatten _ _ (by rw [R.facts.tstat]; exact W.tstat_len), W.pcomplen]
  rw [live_ok hts]
  have hl3 := ((l.adv r.record).adv w.zsstat.length).drop_adv hl2
  cases hcs : r.cstat with
  | none =>
    left
    have hn : h.cls.CStat = none := by
      have := R.facts.cstat; rw [hcs] at this
      cases hh : h.cls.CStat with
      | none => rfl
      | some t => rw [hh] at this; cases this
    rw [hcs] at htot
    simp only [Option.isSome_none, Bool.false_eq_true, if_false, List.length_nil, Nat.add_zero] at htot ⊢
    refine ⟨3, ?_, by omega, ?_⟩
    · simp only [presented, hn, htot, ← Nat.add_assoc]
      rfl
    · rw [htot]
      show _ ≤ l.visible (l.reads + 1 + 1)
      omega
  | some n =>
    have hsome : r.cstat.isSome = true := by rw [hcs]; rfl
    rw [hsome] at R
    rw [hcs] at hl3 htot
    simp only [Option.isSome_some, if_true, List.length_append, List.append_assoc] at hl3 htot ⊢
    obtain ⟨t, n', ht, hn', hsz, hu⟩ := cstat_some R
    rw [hcs] at hn'; cases hn'
    by_cases c3 : l.pos + r.record + w.zsstat.length + w.ztstats.length + w.zcstats.length ≤ l.visible (l.reads + 1 + 1 + 1)
    rotate_left
    · right
      have hx : l.visible (l.reads + 1 + 1 + 1) < l.pos + (w.bytes r).length := by omega
      obtain ⟨s', hs'⟩ := cut (l.reads + 1 + 1 + 1) (by omega) hx
      obtain ⟨l', hb, hlr⟩ := live_block_cut (n := u32 w.record 72) hl3 (W.ccomplen hsome) (W.zcstats hsome)
        (by rw [W.ccomplen hsome]; show l.visible (l.reads + 1 + 1 + 1) < l.pos + r.record + _ + _ + _; omega)
      exact ⟨_, by omega, hx, _, l', s', live_err (by rw [getCStatP_eq R Z _ ht]; exact live_err hb),
      by rw [hlr]; exact Nat.lt_succ_self _, hs', .inr rfl⟩
    have hl4 := (((l.adv r.record).adv w.zsstat.length).adv w.ztstats.length).drop_adv hl3
    have hb3 := live_block_full (n := u32 w.record 72) hl3 (W.ccomplen hsome) (W.zcstats hsome)
      (by rw [W.ccomplen hsome]; exact c3)
    rw [W.ccomplen hsome] at hb3
    by_cases c4 : l.pos + r.record + w.zsstat.length + w.ztstats.length + w.zcstats.length + w.zpids.length
        ≤ l.visible (l.reads + 1 + 1 + 1 + 1)
    rotate_left
    · right
      have hx : l.visible (l.reads + 1 + 1 + 1 + 1) < l.pos + (w.bytes r).length := by omega
      obtain ⟨s', hs'⟩ := cut (l.reads + 1 + 1 + 1 + 1) (by omega) hx
      obtain ⟨l', hb, hlr⟩ := live_block_cut (n := u32 w.record 84) hl4 (W.icomplen hsome) (W.zpids hsome)
        (by rw [W.icomplen hsome]; show l.visible (l.reads + 1 + 1 + 1 + 1) < l.pos + r.record + _ + _ + _ + _; omega)
      refine ⟨_, by omega, hx, _, l', s', live_err ?_,
        by rw [hlr]; exact Nat.lt_succ_self _, hs', .inr rfl⟩
      rw [getCStatP_eq R Z _ ht, W.ccomplen hsome, live_ok hb3]
      exact live_err hb
    left
    have hb4 := live_block_full (n := u32 w.record 84) hl4 (W.icomplen hsome) (W.zpids hsome)
      (by rw [W.icomplen hsome]; exact c4)
    rw [W.icomplen hsome] at hb4
    obtain ⟨g, g1, g2, g3, g4, g5, g6⟩ := R.facts.gen t ht
    have hloop := cstatLoop_flatten g1 g2 g5 g6 g3 g4 w.groups [] []
      (fun x hx => by rw [hsz]; exact W.groups x hx n hcs)
    rw [List.nil_append, List.nil_append] at hloop
    refine ⟨5, ?_, by omega, ?_⟩
    · rw [Prog.live_ok (a := w.groups.map (presentedGroup t)) (l' := ((((l.adv r.record).adv w.zsstat.length).adv
        w.ztstats.length).adv w.zcstats.length).adv w.zpids.length)]
      · simp only [presented, ht, htot, ← Nat.add_assoc]
        rfl
      · rw [getCStatP_eq R Z _ ht, W.ccomplen hsome, live_ok hb3, W.icomplen hsome, live_ok hb4, live_lift,
          W.ncgroups hsome, show ((0 : Int)) = (([] : Bytes).length : Int) from rfl, hloop]
    · rw [htot]
      show _ ≤ l.visible (l.reads + 1 + 1 + 1 + 1)
      omega

/-! ## The loop -/

theorem Live.snapshot_full {l : Live} {T : Nat} {a b : Bytes} (h : l.final.drop l.pos = a ++ b)
    (hv : l.pos + a.length ≤ l.visible T) : ∃ tail, (l.snapshot T).rest = a ++ tail := by
  rw [l.snapshot_rest T h, List.take_append, List.take_of_length_le (by omega)]
  exact ⟨_, rfl⟩

theorem live_loop {h : Header} {r v} (R : Ready h r v r.cstat.isSome) {Z : Zlib} (rot : Bool) :
    ∀ (ws : List WSample), (∀ w ∈ ws, w.Valid Z r) → ∀ (m : Nat) (l : Live), 0 < l.reads → l.final.drop l.pos = body r ws →
      (∀ a b, a ≤ b → l.visible a ≤ l.visible b) →
      (∀ done w rest, ws = done ++ w :: rest → ∀ t, ¬ (l.pos + (body r done).length + 16 < l.visible t ∧
        l.visible t < l.pos + (body r done).length + r.record)) →
      ∃ T, l.reads ≤ T + 1 ∧ T < (Live.runLoop Z rot h v m l).2.2.reads ∧ (Live.runLoop Z rot h v m l).1 = (runLoop Z rot h v m (l.snapshot T)).1 ∧
        (Live.runLoop Z rot h v m l).2.1 = (runLoop Z rot h v m (l.snapshot T)).2.1
  | _, _, 0, l, h0, _, _, _ => ⟨l.reads - 1, by omega, by show _ < l.reads; omega, rfl, rfl⟩
  | [], _, m + 1, l, h0, hl, mono, _ => by
    refine ⟨l.reads, by omega, ?_⟩
    have h32 : 32 ≤ r.record := R.small.2.1
    have hr : ∀ t, (l.snapshot t).rest = [] := fun t => by rw [l.snapshot_rest t hl]; simp [body]
    rw [runLoop_eof R Z rot (hr _) rfl]
    unfold Live.runLoop
    have : ∃ l', (readSampleP Z h v).live l = (.ok none, l') ∧ l.reads < l'.reads := by
      rw [readSampleP_eq R]
      unfold Prog.getInto
      rw [Prog.bind_assoc]
      have hg : ∃ l', (Prog.get r.record).live l = (.ok [], l') ∧ l.reads < l'.reads := by
        rw [Prog.get, live_read, Stream.read_short (by rw [hr]; simp; omega) rfl, hr]
        exact ⟨_, rfl, Nat.lt_succ_self _⟩
      obtain ⟨l', hg, hlr⟩ := hg
      refine ⟨l', ?_, hlr⟩
      rw [live_ok hg]
      have hz : u32 ([] ++ List.replicate (r.record - ([] : Bytes).length) 0) 16 = 0 := by
        rw [u32_append_zeros]; simp [u32_nil]
      show (if u32 _ 16 = 0 then _ else _ : Prog (Option Sample)).live l' = _
      rw [if_pos hz]; rfl
    obtain ⟨l', hg, hlr⟩ := this
    rw [hg]
    exact ⟨hlr, rfl, rfl⟩
  | w :: ws, hw, m + 1, l, h0, hl, mono, whole => by
    rw [body_cons] at hl
    rcases live_sample R (hw w (by simp)) hl mono
      (fun t => by have := whole [] w ws rfl t; simpa [body] using this) with
      ⟨k, h1, hk, h2⟩ | ⟨T, h1, h2, x, l', s', h3, hlr, h4, h5⟩
    · obtain ⟨T, t1, tr, t2, t3⟩ := live_loop R rot ws (fun x hx => hw x (by simp [hx])) m
        { l with pos := l.pos + (w.bytes r).length, reads := l.reads + k } (by show 0 < l.reads + k; omega)
        (by show l.final.drop (l.pos + _) = _; rw [← List.drop_drop, hl, List.drop_left]) mono
        (fun done w' rest e t => by
          have := whole (w :: done) w' rest (by rw [e]; rfl) t
          rw [body_cons, List.length_append, ← Nat.add_assoc] at this
          exact this)
      have t1' : l.reads + k ≤ T + 1 := t1
      have hm := mono (l.reads + k - 1) T (by omega)
      obtain ⟨tail, ht⟩ := Live.snapshot_full (T := T) hl (by omega)
      refine ⟨T, by omega, ?_⟩
      unfold Live.runLoop runLoop
      rw [h1, readSample_written R (hw w (by simp)) ht]
      exact ⟨tr, by dsimp only; rw [t2]; rfl, by dsimp only; rw [t3]; rfl⟩
    · refine ⟨T, by omega, ?_⟩
      unfold Live.runLoop runLoop
      rw [h3, h4]
      rcases h5 with rfl | rfl <;> exact ⟨hlr, rfl, rfl⟩

/-! ## The header -/

namespace Prog
theorem lift_bind {α β} (x : Except Exc α) (f : α → Except Exc β) : lift (x >>= f) = lift x >>= fun a => lift (f a) := by
  cases x <;> rfl
end Prog

/-- `get_header` after its only read. -/
theorem getHeaderP_eq (check : Bool) : ∃ g : Bytes → Except Exc Header,
    getHeaderP check = (do let b ← Prog.getInto defaultHeader.size; Prog.lift (g b)) := by
  have : ∀ b, ∃ x, (do
      let h0 : Header := { cls := defaultHeader, buf := b }
      let magic ← Prog.lift (h0.inst.intAttr py!"magic")
      if magic ≠ (MAGIC : Int) then Prog.raise (.valueError (.badMagic (magicText magic.toNat)))
      else
        let v ← Prog.lift h0.semanticVersion
        let h0 := h0.latched
        let h ← Prog.lift (reviewHeader h0 v)
        if check then
          Prog.lift h.checkCompatibility
          pure h.latched
        else pure h) = Prog.lift x := by
    intro b
    dsimp only
    cases (Header.inst { cls := defaultHeader, buf := b }).intAttr py!"magic" with
    | error e => exact ⟨.error e, rfl⟩
    | ok m =>
      rw [lift_ok_bind]
      split
      · exact ⟨.error _, rfl⟩
      · cases (Header.mk defaultHeader b none).semanticVersion with
        | error e => exact ⟨.error e, rfl⟩
        | ok v =>
          rw [lift_ok_bind]
          cases reviewHeader (Header.mk defaultHeader b none).latched v with
          | error e => exact ⟨.error e, rfl⟩
          | ok h =>
            rw [lift_ok_bind]
            split
            · cases h.checkCompatibility with
              | error e => exact ⟨.error e, rfl⟩
              | ok => exact ⟨.ok h.latched, rfl⟩
            · exact ⟨.ok h, rfl⟩
  exact ⟨fun b => (this b).choose, by unfold getHeaderP; congr 1; funext b; exact (this b).choose_spec⟩

/-- A complete header is read as from a file that does not change. -/
theorem live_header {l : Live} {hb rest : Bytes} (hl : l.final.drop l.pos = hb ++ rest) (h480 : hb.length = 480)
    (hv : l.pos + 480 ≤ l.visible l.reads) (check : Bool) {s : Stream} {more : Bytes} (hs : s.rest = hb ++ more) :
    (getHeaderP check).live l = ((getHeader check s).1, l.adv 480) := by
  obtain ⟨g, hg⟩ := getHeaderP_eq check
  have h2 : (getHeader check s).1 = g hb := by
    rw [← getHeaderP_run, hg, run_bind, run_getInto, Rd.bind_eq, show defaultHeader.size = 480 from rfl,
      Stream.readinto_full hs h480.symm]
    exact congrArg Prod.fst (congrFun (run_lift (g hb)) _)
  have h1 : (Prog.getInto defaultHeader.size).live l = (.ok hb, l.adv 480) := by
    unfold Prog.getInto
    have := live_get_full (n := 480) hl h480.symm hv
    rw [show defaultHeader.size = 480 from rfl, live_ok this, h480]; simp; rfl
  rw [hg, live_ok h1, live_lift, h2]

/-! ## A file that does not change -/

theorem live_still {α} (p : Prog α) : ∀ (l : Live) (n : Nat), (∀ t, l.visible t = n) → ∃ l',
    p.live l = ((p.run ⟨l.final.take n, l.pos, none⟩).1, l') ∧ l'.final = l.final ∧ l'.visible = l.visible ∧
    (p.run ⟨l.final.take n, l.pos, none⟩).2 = ⟨l.final.take n, l'.pos, none⟩ := by
  induction p with
  | ret a => exact fun l n _ => ⟨l, rfl, rfl, rfl, rfl⟩
  | raise e => exact fun l n _ => ⟨l, rfl, rfl, rfl, rfl⟩
  | read n k ih =>
    intro l N hN
    rw [live_read, run_read]
    have hsn : l.snapshot l.reads = ⟨l.final.take N, l.pos, none⟩ := by unfold Live.snapshot; rw [hN]
    rw [hsn]
    have hx : ∃ b p', Stream.read n ⟨l.final.take N, l.pos, none⟩ = (.ok b, ⟨l.final.take N, p', none⟩) := by
      unfold Stream.read
      split
      · exact ⟨_, _, rfl⟩
      · exact ⟨_, _, rfl⟩
    obtain ⟨b, p', hx⟩ := hx
    rw [hx]
    dsimp only
    obtain ⟨l', h1, h2, h3, h4⟩ := ih b { l with pos := p', reads := l.reads + 1 } N hN
    exact ⟨l', h1, h2, h3, h4⟩

theorem live_loop_still (Z : Zlib) (rot : Bool) (h : Header) (v : Nat × Nat) : ∀ (m : Nat) (l : Live) (n : Nat),
    (∀ t, l.visible t = n) → ∃ l', Live.runLoop Z rot h v m l =
      ((runLoop Z rot h v m ⟨l.final.take n, l.pos, none⟩).1, (runLoop Z rot h v m ⟨l.final.take n, l.pos, none⟩).2.1, l') ∧
      (runLoop Z rot h v m ⟨l.final.take n, l.pos, none⟩).2.2.pos = l'.pos
  | 0, l, n, _ => ⟨l, rfl, rfl⟩
  | m + 1, l, n, hn => by
    obtain ⟨l', h1, h2, h3, h4⟩ := live_still (readSampleP Z h v) l n hn
    rw [readSampleP_run] at h1 h4
    unfold Live.runLoop runLoop
    rw [h1]
    rcases hx : readSample Z h v ⟨l.final.take n, l.pos, none⟩ with ⟨e | o, s'⟩
    · rw [hx] at h4
      exact ⟨l', rfl, by rw [show s' = _ from h4]⟩
    · rw [hx] at h4
      have h4 : s' = _ := h4
      subst h4
      cases o with
      | none => exact ⟨l', rfl, rfl⟩
      | some x =>
        obtain ⟨l2, e1, e2⟩ := live_loop_still Z rot h v m l' n (by rw [h3]; exact hn)
        rw [h2] at e1 e2
        refine ⟨l2, ?_, e2⟩
        dsimp only
        rw [e1]

end Atop
