import Verif.Proofs.Header
import Verif.Spec.Expected
/-!
# Reading what a conforming writer wrote
-/

namespace Atop
open Spec

theorem ready_of {hb : Bytes} (hl : hb.length = 480) (ho : ¬ tooOld hb)
    (hm : lengthsMatch (usedRow hb) (readsCGroups hb) hb) (k)
    (hk : k = none ∨ k = some (major hb, minor hb)) :
    Ready ⟨classFor hb, hb, k⟩ (usedRow hb) (major hb, minor hb) (readsCGroups hb) := by
  obtain ⟨F, hnone, hsome⟩ := classFor_facts hb
  obtain ⟨-, -, -, t1, t2, -, t3, t4⟩ := table_versionString _ (usedRow_mem hb)
  refine ⟨F, hl, ?_, ?_, ?_, hm.2.2.2.1, hm.2.2.2.2, t3, fun n hn => t4 n hn⟩
  · rcases hk with rfl | rfl
    · exact header_version_of_none F hb
    · rfl
  · by_cases hr : rowFor (major hb) (minor hb) = none
    · rw [(hnone hr).2]
      have : 2 ≤ major hb ∧ 3 ≤ minor hb := by
        apply Classical.byContradiction
        intro h; exact ho ⟨hr, h⟩
      simp [newest, this]
    · obtain ⟨r, hr⟩ := Option.ne_none_iff_exists'.mp hr
      obtain ⟨_, he, hM, hmi, _⟩ := hsome r hr
      rw [← t1, he, hM, hmi]
  · simp [readsCGroups]

theorem headerOf_ready {hb : Bytes} (hl : hb.length = 480) {h : Header} (he : headerOf true hb = .ok h) :
    h = ⟨classFor hb, hb, some (major hb, minor hb)⟩ ∧ Accepts hb ∧
    Ready h (usedRow hb) (major hb, minor hb) (readsCGroups hb) := by
  unfold headerOf at he
  split at he
  · cases he
  · rename_i hmag
    rw [if_neg (show ¬ (true = false) by simp)] at he
    split at he
    · cases he
    · rename_i ho
      split at he
      · rename_i hm
        cases he
        exact ⟨rfl, ⟨by simpa using hmag, ho, hm⟩, ready_of hl ho hm _ (.inr rfl)⟩
      · cases he

/-! ## Lists -/

theorem flatten_chunks {L : Nat} : ∀ (ts : List Bytes), (∀ t ∈ ts, t.length = L) →
    (List.range ts.length).map (fun j => (ts.flatten.drop (j * L)).take L) = ts
  | [], _ => rfl
  | t :: ts, h => by
    have ht : t.length = L := h t (by simp)
    have ih := flatten_chunks ts (fun x hx => h x (by simp [hx]))
    rw [List.length_cons, List.range_succ_eq_map, List.map_cons, List.map_map]
    congr 1
    · simp [← ht]
    · conv => rhs; rw [← ih]
      apply List.map_congr_left
      intro j _
      simp only [Function.comp, List.flatten_cons]
      rw [Nat.succ_mul, Nat.add_comm, ← List.drop_drop, ← ht, List.drop_left]

theorem flatten_length {L : Nat} : ∀ (ts : List Bytes), (∀ t ∈ ts, t.length = L) → ts.flatten.length = ts.length * L
  | [], _ => by simp
  | t :: ts, h => by
    rw [List.flatten_cons, List.length_append, flatten_length ts (fun x hx => h x (by simp [hx])), h t (by simp),
      List.length_cons, Nat.succ_mul, Nat.add_comm]

theorem tstatLoop_flatten (t : CType) (ts : List Bytes) (h : ∀ x ∈ ts, x.length = t.size) :
    tstatLoop t ts.flatten t.size ts.length 0 = .ok (ts.map fun b => ⟨t, b⟩) := by
  rw [tstatLoop_ok _ _ _ _ (by rw [flatten_length ts h]; simp), ← List.range_eq_range']
  congr 1
  conv => rhs; rw [← flatten_chunks ts h]
  rw [List.map_map]; rfl

/-! ## Cgroup chain -/

theorem genInt_eq {t g : CType} {n : PyStr} {off : Nat} (hg : t.look py!"gen" = some (0, g)) (hs : g.isStruct = true)
    (hn : g.look n = some (off, c_int)) (buf : Bytes) (h1 : off + 4 ≤ g.size) (h2 : g.size ≤ buf.length) :
    (Inst.mk t buf).genInt n = .ok (i32 buf off) := by
  unfold Inst.genInt
  rw [attr_of_look hg]
  cases g with
  | struct c fs l =>
    have hi := intAttr_i32 hn ((buf.drop 0).take (CType.struct c fs l).size) (by simp; omega)
    have hx : i32 ((buf.drop 0).take (CType.struct c fs l).size) off = i32 buf off := by
      rw [List.drop_zero]; unfold i32; rw [u32_take _ _ _ h1]
    rw [hx] at hi
    exact hi
  | _ => simp [CType.isStruct] at hs

theorem i32_append_left (a b : Bytes) (i : Nat) (h : i + 4 ≤ a.length) : i32 (a ++ b) i = i32 a i := by
  unfold i32; rw [u32_append_left _ _ _ h]

theorem i32_take (b : Bytes) (n i : Nat) (h : i + 4 ≤ n) : i32 (b.take n) i = i32 b i := by
  unfold i32; rw [u32_take _ _ _ h]

theorem pid_size (n : Nat) : (CType.array pid_t n).size = n * 4 := by simp [CType.size]

theorem cstatLoop_flatten {t g : CType} (hg : t.look py!"gen" = some (0, g)) (hs : g.isStruct = true)
    (hsl : g.look py!"structlen" = some (0, c_int)) (hnp : g.look py!"nprocs" = some (16, c_int))
    (hsz : 20 ≤ g.size) (hgt : g.size ≤ t.size) :
    ∀ (gs : List WGroup) (pre ppre : Bytes),
      (∀ x ∈ gs, t.size ≤ x.entry.length ∧ i32 x.entry 0 = x.entry.length ∧ 4 * i32 x.entry 16 = x.pids.length) →
      cstatLoop t (pre ++ (gs.map WGroup.entry).flatten) (ppre ++ (gs.map WGroup.pids).flatten) t.size gs.length
        pre.length ppre.length = .ok (gs.map (presentedGroup t))
  | [], _, _, _ => rfl
  | x :: gs, pre, ppre, h => by
    obtain ⟨h1, h2, h3⟩ := h x (by simp)
    have ih := cstatLoop_flatten hg hs hsl hnp hsz hgt gs (pre ++ x.entry) (ppre ++ x.pids)
      (fun y hy => h y (by simp [hy]))
    simp only [List.length_cons, List.map_cons, List.flatten_cons]
    unfold cstatLoop
    have hsl1 : pySlice (pre ++ (x.entry ++ (gs.map WGroup.entry).flatten)) (pre.length : Int)
        ((pre.length : Int) + (t.size : Int)) = x.entry.take t.size := by
      rw [show ((pre.length : Int) + (t.size : Int)) = ((pre.length + t.size : Nat) : Int) by simp, pySlice_nat,
        List.drop_left, Nat.add_sub_cancel_left, List.take_append_of_le_length h1]
    rw [hsl1, fromBufferCopy_ok (by rw [List.length_take]; omega), List.take_take, Nat.min_self]
    have hl : (x.entry.take t.size).length = t.size := by rw [List.length_take]; omega
    have e1 := genInt_eq hg hs hsl (x.entry.take t.size) (by omega) (by omega)
    have e2 := genInt_eq hg hs hnp (x.entry.take t.size) (by omega) (by omega)
    rw [i32_take _ _ _ (by omega), h2] at e1
    have hn : i32 x.entry 16 = ((x.pids.length / 4 : Nat) : Int) := by omega
    rw [i32_take _ _ _ (by omega), hn] at e2
    have hpl : x.pids.length / 4 * 4 = x.pids.length := by omega
    have e3 : pidArray ((x.pids.length / 4 : Nat) : Int) (ppre ++ (x.pids ++ (gs.map WGroup.pids).flatten)) (ppre.length : Int)
        = .ok ⟨.array pid_t (x.pids.length / 4), x.pids⟩ := by
      unfold pidArray
      rw [if_neg (by omega), Int.toNat_natCast]
      simp only [pid_size, hpl]
      rw [show ((ppre.length : Int) + (x.pids.length : Int)) = ((ppre.length + x.pids.length : Nat) : Int) by simp,
        pySlice_nat, List.drop_left, Nat.add_sub_cancel_left, List.take_left,
        fromBufferCopy_ok (by rw [pid_size, hpl]; exact Nat.le_refl _), pid_size, hpl, List.take_length]
    have c1 : ((pre.length : Int) + (x.entry.length : Int)) = ((pre ++ x.entry).length : Int) := by simp
    have c2 : ((ppre.length : Int) + ((CType.array pid_t (Int.toNat ((x.pids.length / 4 : Nat) : Int))).size : Int))
        = ((ppre ++ x.pids).length : Int) := by
      rw [Int.toNat_natCast, pid_size, hpl]; simp
    simp only [e1, e2, e3, bind, Except.bind, pure, Except.pure]
    rw [c1, c2, ← List.append_assoc, ← List.append_assoc, ih]
    rfl

/-! ## One sample -/

theorem block_full {Z : Zlib} {s : Stream} {a b d : Bytes} {n : Nat} (h : s.rest = a ++ b) (hn : n = a.length)
    (hz : Z a = some d) : block Z n s = (.ok d, s.adv n) := by
  unfold block
  rw [Rd.bind_eq, Stream.read_full h hn]
  simp [Rd.lift_eq, zdecompress, hz]

theorem rest_adv_append {s : Stream} {a b : Bytes} (h : s.rest = a ++ b) : (s.adv a.length).rest = b := by
  rw [Stream.rest_adv, h, List.drop_left]

theorem readSample_written {h : Header} {r v} (R : Ready h r v r.cstat.isSome) {Z : Zlib} {w : WSample}
    (W : w.Valid Z r) {s : Stream} {tail : Bytes} (hs : s.rest = w.bytes r ++ tail) :
    readSample Z h v s = (.ok (some (presented h.cls w)), s.adv (w.bytes r).length) := by
  rw [readSample_eq R, Rd.bind_eq]
  unfold WSample.bytes at hs ⊢
  simp only [List.append_assoc] at hs ⊢
  rw [Stream.readinto_full hs W.record_len.symm]
  dsimp only
  have hz0 : u32 w.record 16 ≠ 0 := by rw [W.scomplen]; have := W.zsstat.pos; omega
  rw [if_neg hz0, Rd.bind_eq, getSStat_eq R, Rd.bind_eq]
  have hs1 := rest_adv_append hs
  rw [W.record_len] at hs1
  rw [block_full hs1 W.scomplen W.zsstat.inv]
  dsimp only
  rw [Rd.lift_eq, fromBufferCopy_ok (by rw [R.facts.sstat, W.sstat_len]; exact Nat.le_refl _),
    List.take_of_length_le (by rw [R.facts.sstat, W.sstat_len]; exact Nat.le_refl _)]
  dsimp only
  rw [Rd.bind_eq, getTStat_eq R, Rd.bind_eq]
  have hs2 := rest_adv_append hs1
  rw [← W.scomplen] at hs2
  rw [block_full hs2 W.pcomplen W.ztstats.inv]
  dsimp only
  rw [Rd.lift_eq, W.ntasks, ← R.facts.tstat, tstatLoop_flatten _ _ (by rw [R.facts.tstat]; exact W.tstat_len)]
  dsimp only
  have hs3 := rest_adv_append hs2
  rw [← W.pcomplen] at hs3
  cases hcs : r.cstat with
  | none =>
    have hn : h.cls.CStat = none := by
      have := R.facts.cstat; rw [hcs] at this
      cases hh : h.cls.CStat with
      | none => rfl
      | some t => rw [hh] at this; cases this
    simp only [Option.isSome_none, Bool.false_eq_true, if_false, Rd.bind_eq, Stream.adv_adv, presented, hn,
      List.append_nil, List.length_append, W.record_len, W.scomplen, W.pcomplen, Nat.add_assoc]
    rfl
  | some n =>
    have hsome : r.cstat.isSome = true := by rw [hcs]; rfl
    rw [hsome] at R
    rw [hcs] at hs3
    simp only [Option.isSome_some, if_true] at hs3 ⊢
    obtain ⟨t, n', ht, hn', hsz, hu⟩ := cstat_some R
    rw [hcs] at hn'; cases hn'
    rw [Rd.bind_eq, getCStat_eq R Z _ ht, Rd.bind_eq]
    have hs3' := hs3
    rw [List.append_assoc] at hs3'
    rw [block_full hs3' (W.ccomplen hsome) (W.zcstats hsome).inv]
    dsimp only
    have hs4 := rest_adv_append hs3'
    rw [← W.ccomplen hsome] at hs4
    rw [Rd.bind_eq, block_full hs4 (W.icomplen hsome) (W.zpids hsome).inv]
    dsimp only
    obtain ⟨g, g1, g2, g3, g4, g5, g6⟩ := R.facts.gen t ht
    have hloop := cstatLoop_flatten g1 g2 g5 g6 g3 g4 w.groups [] []
      (fun x hx => by rw [hsz]; exact W.groups x hx n hcs)
    rw [List.nil_append, List.nil_append] at hloop
    rw [Rd.lift_eq, W.ncgroups hsome, show ((0 : Int)) = (([] : Bytes).length : Int) from rfl, hloop]
    simp only [Stream.adv_adv, presented, ht, List.length_append, W.record_len, W.scomplen, W.pcomplen,
      W.ccomplen hsome, W.icomplen hsome, Nat.add_assoc]
    rfl

end Atop
