import Verif.Proofs.Live
/-!
# Reads that come back short at any time
-/

namespace Atop
open Spec Prog

/-- One iteration, whatever the reads give: either the whole sample was met, or a read came back short and the iteration
ended. -/
theorem live_sample_any {h : Header} {r v} (R : Ready h r v r.cstat.isSome) {Z : Zlib} {w : WSample} (W : w.Valid Z r)
    {l : Live} {tail : Bytes} (hl : l.final.drop l.pos = w.bytes r ++ tail)
    (whole : ∀ t, ¬ (l.pos + 16 < l.visible t ∧ l.visible t < l.pos + r.record)) :
    (∃ k, (readSampleP Z h v).live l =
        (.ok (some (presented h.cls w)), { l with pos := l.pos + (w.bytes r).length, reads := l.reads + k })) ∨
    (∃ T, l.reads ≤ T ∧ l.visible T < l.pos + (w.bytes r).length ∧ ∃ x l', (readSampleP Z h v).live l = (x, l') ∧
      T < l'.reads ∧ (x = .ok none ∨ x = .error .zlibError)) := by
  have h32 : 32 ≤ r.record := R.small.2.1
  have hz0 : u32 w.record 16 ≠ 0 := by rw [W.scomplen]; have := W.zsstat.pos; omega
  rw [readSampleP_eq R]
  have hl0 := hl
  have htot : (w.bytes r).length = r.record + (w.zsstat.length + (w.ztstats.length +
      (if r.cstat.isSome then w.zcstats ++ w.zpids else []).length)) := by
    rw [WSample.bytes]; simp only [List.length_append, List.append_assoc, W.record_len]
  unfold WSample.bytes at hl0
  simp only [List.append_assoc] at hl0
  unfold Prog.getInto
  rw [Prog.bind_assoc]
  by_cases c0 : l.pos + r.record ≤ l.visible l.reads
  rotate_left
  · -- the record is not there
    right
    refine ⟨l.reads, Nat.le_refl _, by omega, .ok none, ?_⟩
    have hg := live_get_short hl0 W.record_len.symm (by omega) (by omega)
    have hlr : l.reads < (l.adv (l.visible l.reads - l.pos)).reads := Nat.lt_succ_self _
    generalize l.adv (l.visible l.reads - l.pos) = l' at hg hlr
    have hw := whole l.reads
    have hr := l.snapshot_rest l.reads hl
    have hle : l.visible l.reads - l.pos ≤ 16 := by omega
    have hlen : (l.snapshot l.reads).rest.length ≤ 16 := by rw [hr, List.length_take]; omega
    rw [live_ok hg]
    have hu0 : ∀ (b : Bytes), b.length ≤ 16 → u32 b 16 = 0 := by
      intro b hb; simp [u32, u16, u8, List.getElem?_eq_none (show b.length ≤ 16 by omega), List.getElem?_eq_none (show b.length ≤ 17 by omega), List.getElem?_eq_none (show b.length ≤ 18 by omega), List.getElem?_eq_none (show b.length ≤ 19 by omega)]
    have hz : u32 (w.record.take (l.visible l.reads - l.pos) ++
        List.replicate (r.record - (w.record.take (l.visible l.reads - l.pos)).length) 0) 16 = 0 := by
      rw [u32_append_zeros]
      exact hu0 _ (by rw [List.length_take]; omega)
    refine ⟨l', ?_, hlr, .inl rfl⟩
    show (if u32 _ 16 = 0 then _ else _ : Prog (Option Sample)).live l' = _
    rw [if_pos hz]; rfl
  rw [live_ok (live_get_full hl0 W.record_len.symm c0), W.record_len, Nat.sub_self, List.replicate_zero, List.append_nil,
    show (pure w.record : Prog Bytes) = Prog.lift (.ok w.record) from rfl, lift_ok_bind, if_neg hz0]
  have hl1 := l.drop_adv hl0
  rw [W.record_len] at hl1
  by_cases c1 : l.pos + r.record + w.zsstat.length ≤ l.visible (l.reads + 1)
  rotate_left
  · right
    have hx : l.visible (l.reads + 1) < l.pos + (w.bytes r).length := by omega
    obtain ⟨l', hb, hlr⟩ := live_block_cut (n := u32 w.record 16) hl1 W.scomplen W.zsstat
      (by rw [W.scomplen]; show l.visible (l.reads + 1) < l.pos + r.record + _; omega)
    exact ⟨_, by omega, hx, _, l', live_err (by rw [getSStatP_eq R]; exact live_err hb),
      by rw [hlr]; exact Nat.lt_succ_self _, .inr rfl⟩
  have hss : (getSStatP Z h ⟨h.cls.Record, w.record⟩).live (l.adv r.record) =
      (.ok ⟨h.cls.SStat, w.sstat⟩, (l.adv r.record).adv w.zsstat.length) := by
    rw [getSStatP_eq R, live_ok (live_block_full hl1 W.scomplen W.zsstat (by rw [W.scomplen]; exact c1)), live_lift,
      fromBufferCopy_ok (by rw [R.facts.sstat, W.sstat_len]; exact Nat.le_refl _),
      List.take_of_length_le (by rw [R.facts.sstat, W.sstat_len]; exact Nat.le_refl _), W.scomplen]
  rw [live_ok hss]
  have hl2 := (l.adv r.record).drop_adv hl1
  by_cases c2 : l.pos + r.record + w.zsstat.length + w.ztstats.length ≤ l.visible (l.reads + 1 + 1)
  rotate_left
  · right
    have hx : l.visible (l.reads + 1 + 1) < l.pos + (w.bytes r).length := by omega
    obtain ⟨l', hb, hlr⟩ := live_block_cut (n := u32 w.record 20) hl2 W.pcomplen W.ztstats
      (by rw [W.pcomplen]; show l.visible (l.reads + 1 + 1) < l.pos + r.record + _ + _; omega)
    exact ⟨_, by omega, hx, _, l', live_err (by rw [getTStatP_eq R]; exact live_err hb),
      by rw [hlr]; exact Nat.lt_succ_self _, .inr rfl⟩
  have hts : (getTStatP Z h ⟨h.cls.Record, w.record⟩).live ((l.adv r.record).adv w.zsstat.length) =
      (.ok (w.tstats.map fun b => ⟨h.cls.TStat, b⟩), ((l.adv r.record).adv w.zsstat.length).adv w.ztstats.length) := by
    rw [getTStatP_eq R, live_ok (live_block_full hl2 W.pcomplen W.ztstats (by rw [W.pcomplen]; exact c2)), live_lift,
      W.ntasks, ← R.facts.tstat, tstatLoop_flatten _ _ (by rw [R.facts.tstat]; exact W.tstat_len), W.pcomplen]
  rw [live_ok hts]
  have hl3 := ((l.adv r.record).adv w.zsstat.length).drop_adv hl2
  cases hcs : r.cstat with
  | none =>
    left
    have hn : h.cls.CStat = none := by
      have := R.facts.cstat; rw [hcs] at this
      cases hh : h.cls.CStat with
      | none => rfl
      | some t => rw [hh] at this; cases this
    rw [hcs] at htot
    simp only [Option.isSome_none, Bool.false_eq_true, if_false, List.length_nil, Nat.add_zero] at htot ⊢
    refine ⟨3, ?_⟩
    · simp only [presented, hn, htot, ← Nat.add_assoc]
      rfl
  | some n =>
    have hsome : r.cstat.isSome = true := by rw [hcs]; rfl
    rw [hsome] at R
    rw [hcs] at hl3 htot
    simp only [Option.isSome_some, if_true, List.length_append, List.append_assoc] at hl3 htot ⊢
    obtain ⟨t, n', ht, hn', hsz, hu⟩ := cstat_some R
    rw [hcs] at hn'; cases hn'
    by_cases c3 : l.pos + r.record + w.zsstat.length + w.ztstats.length + w.zcstats.length ≤ l.visible (l.reads + 1 + 1 + 1)
    rotate_left
    · right
      have hx : l.visible (l.reads + 1 + 1 + 1) < l.pos + (w.bytes r).length := by omega
      obtain ⟨l', hb, hlr⟩ := live_block_cut (n := u32 w.record 72) hl3 (W.ccomplen hsome) (W.zcstats hsome)
        (by rw [W.ccomplen hsome]; show l.visible (l.reads + 1 + 1 + 1) < l.pos + r.record + _ + _ + _; omega)
      exact ⟨_, by omega, hx, _, l', live_err (by rw [getCStatP_eq R Z _ ht]; exact live_err hb),
      by rw [hlr]; exact Nat.lt_succ_self _, .inr rfl⟩
    have hl4 := (((l.adv r.record).adv w.zsstat.length).adv w.ztstats.length).drop_adv hl3
    have hb3 := live_block_full (n := u32 w.record 72) hl3 (W.ccomplen hsome) (W.zcstats hsome)
      (by rw [W.ccomplen hsome]; exact c3)
    rw [W.ccomplen hsome] at hb3
    by_cases c4 : l.pos + r.record + w.zsstat.length + w.ztstats.length + w.zcstats.length + w.zpids.length
        ≤ l.visible (l.reads + 1 + 1 + 1 + 1)
    rotate_left
    · right
      have hx : l.visible (l.reads + 1 + 1 + 1 + 1) < l.pos + (w.bytes r).length := by omega
      obtain ⟨l', hb, hlr⟩ := live_block_cut (n := u32 w.record 84) hl4 (W.icomplen hsome) (W.zpids hsome)
        (by rw [W.icomplen hsome]; show l.visible (l.reads + 1 + 1 + 1 + 1) < l.pos + r.record + _ + _ + _ + _; omega)
      refine ⟨_, by omega, hx, _, l', live_err ?_,
        by rw [hlr]; exact Nat.lt_succ_self _, .inr rfl⟩
      rw [getCStatP_eq R Z _ ht, W.ccomplen hsome, live_ok hb3]
      exact live_err hb
    left
    have hb4 := live_block_full (n := u32 w.record 84) hl4 (W.icomplen hsome) (W.zpids hsome)
      (by rw [W.icomplen hsome]; exact c4)
    rw [W.icomplen hsome] at hb4
    obtain ⟨g, g1, g2, g3, g4, g5, g6⟩ := R.facts.gen t ht
    have hloop := cstatLoop_flatten g1 g2 g5 g6 g3 g4 w.groups [] []
      (fun x hx => by rw [hsz]; exact W.groups x hx n hcs)
    rw [List.nil_append, List.nil_append] at hloop
    refine ⟨5, ?_⟩
    · rw [Prog.live_ok (a := w.groups.map (presentedGroup t)) (l' := ((((l.adv r.record).adv w.zsstat.length).adv
        w.ztstats.length).adv w.zcstats.length).adv w.zpids.length)]
      · simp only [presented, ht, htot, ← Nat.add_assoc]
        rfl
      · rw [getCStatP_eq R Z _ ht, W.ccomplen hsome, live_ok hb3, W.icomplen hsome, live_ok hb4, live_lift,
          W.ncgroups hsome, show ((0 : Int)) = (([] : Bytes).length : Int) from rfl, hloop]



/-- The loop, whatever the reads give. -/
theorem live_loop_any {h : Header} {r v} (R : Ready h r v r.cstat.isSome) {Z : Zlib} (rot : Bool) :
    ∀ (ws : List WSample), (∀ w ∈ ws, w.Valid Z r) → ∀ (m : Nat) (l : Live), l.final.drop l.pos = body r ws →
      (∀ done w rest, ws = done ++ w :: rest → ∀ t, ¬ (l.pos + (body r done).length + 16 < l.visible t ∧
        l.visible t < l.pos + (body r done).length + r.record)) →
      ∃ n, n ≤ ws.length ∧ n ≤ m ∧ (Live.runLoop Z rot h v m l).1 = (ws.take n).map (presented h.cls) ∧
        ((Live.runLoop Z rot h v m l).2.1 = .returned ∨
          rot = true ∧ n < ws.length ∧ n < m ∧ (Live.runLoop Z rot h v m l).2.1 = .raised .zlibError) ∧
        (n < ws.length → n < m → ∃ t, l.reads ≤ t ∧ t < (Live.runLoop Z rot h v m l).2.2.reads ∧
          l.visible t < l.pos + (body r (ws.take (n + 1))).length)
  | ws, _, 0, l, _, _ => ⟨0, Nat.zero_le _, Nat.le_refl _, rfl, .inl rfl, fun _ h => absurd h (by omega)⟩
  | [], _, m + 1, l, hl, _ => by
    refine ⟨0, Nat.le_refl _, by omega, ?_⟩
    have h32 : 32 ≤ r.record := R.small.2.1
    have hr : ∀ t, (l.snapshot t).rest = [] := fun t => by rw [l.snapshot_rest t hl]; simp [body]
    unfold Live.runLoop
    have : ∃ l', (readSampleP Z h v).live l = (.ok none, l') := by
      rw [readSampleP_eq R]
      unfold Prog.getInto
      rw [Prog.bind_assoc]
      have hg : ∃ l', (Prog.get r.record).live l = (.ok [], l') := by
        rw [Prog.get, live_read, Stream.read_short (by rw [hr]; simp; omega) rfl, hr]
        exact ⟨_, rfl⟩
      obtain ⟨l', hg⟩ := hg
      refine ⟨l', ?_⟩
      rw [live_ok hg]
      have hz : u32 ([] ++ List.replicate (r.record - ([] : Bytes).length) 0) 16 = 0 := by
        rw [u32_append_zeros]; simp [u32_nil]
      show (if u32 _ 16 = 0 then _ else _ : Prog (Option Sample)).live l' = _
      rw [if_pos hz]; rfl
    obtain ⟨l', hg⟩ := this
    rw [hg]
    exact ⟨rfl, .inl rfl, fun h => absurd h (by simp)⟩
  | w :: ws, hw, m + 1, l, hl, whole => by
    rw [body_cons] at hl
    rcases live_sample_any R (hw w (by simp)) hl
      (fun t => by have := whole [] w ws rfl t; simpa [body] using this) with
      ⟨k, h1⟩ | ⟨T, h1, h2, x, l', h3, hlr, h5⟩
    · obtain ⟨n, n1, n2, n3, n4, n5⟩ := live_loop_any R rot ws (fun x hx => hw x (by simp [hx])) m
        { l with pos := l.pos + (w.bytes r).length, reads := l.reads + k }
        (by show l.final.drop (l.pos + _) = _; rw [← List.drop_drop, hl, List.drop_left])
        (fun done w' rest e t => by
          have := whole (w :: done) w' rest (by rw [e]; rfl) t
          rw [body_cons, List.length_append, ← Nat.add_assoc] at this
          exact this)
      refine ⟨n + 1, by simpa using n1, by omega, ?_⟩
      unfold Live.runLoop
      rw [h1]
      dsimp only
      refine ⟨by rw [n3]; rfl, ?_, ?_⟩
      · rcases n4 with n4 | ⟨a, b, c, d⟩
        · exact .inl n4
        · exact .inr ⟨a, by simpa using b, by omega, d⟩
      · intro a b
        obtain ⟨t, t1, t2, t3⟩ := n5 (by simpa using a) (by omega)
        dsimp only at t1 t3
        refine ⟨t, by omega, t2, ?_⟩
        rw [List.take_succ_cons, body_cons, List.length_append]
        omega
    · refine ⟨0, Nat.zero_le _, Nat.zero_le _, ?_⟩
      unfold Live.runLoop
      rw [h3]
      have hT : ∃ t, l.reads ≤ t ∧ t < l'.reads ∧ l.visible t < l.pos + (body r ((w :: ws).take (0 + 1))).length :=
        ⟨T, h1, hlr, by simpa [body] using h2⟩
      rcases h5 with rfl | rfl
      · exact ⟨rfl, .inl rfl, fun _ _ => hT⟩
      · refine ⟨rfl, ?_, fun _ _ => hT⟩
        cases rot
        · exact .inl rfl
        · exact .inr ⟨rfl, by simp, by omega, rfl⟩

end Atop
