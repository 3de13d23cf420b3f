import Verif.Props.Iteration
import Verif.Props.RoundTrip
import Verif.Props.Stats
/-!
# Concrete cases, theorem by theorem

For the theorems about iterating and reading: each example instantiates the theorem named in its comment with a log of
any supported version holding three samples (two tasks each, two cgroups from 2.11 on), and shows that the hypotheses
are met there.
-/

namespace Atop
open Spec

/-- A written log, opened and past its header. -/
theorem log_open {Z : Zlib} {r : Row} (hr : r ∈ table) {hb : Bytes} (H : ValidHeader r hb) {ws : List WSample} (W : ∀ w ∈ ws, w.Valid Z r) :
    ∃ h c, headerByVersion r.version = some c ∧ h.cls = c ∧ h.version = .ok (r.major, r.minor) ∧
      getHeader true { data := hb ++ body r ws } = (.ok h, { data := hb ++ body r ws, pos := 480 }) ∧
      ({ data := hb ++ body r ws, pos := 480 } : Stream).rest = body r ws ∧
      ∀ rot (max : Int), (ws.length : Int) ≤ max → generateStatistics Z (some h) rot max { data := hb ++ body r ws, pos := 480 } =
        (ws.map (presented c), .returned, { data := hb ++ body r ws, pos := 480 + (body r ws).length }) := by
  obtain ⟨h, -, hc, R, hrest, -, hg⟩ := generate_valid hr H Z true 0 (s := { data := hb ++ body r ws }) (rest := body r ws) (by simp [Stream.rest])
  have hg' : getHeader true { data := hb ++ body r ws } = (.ok h, { data := hb ++ body r ws, pos := 480 }) := by
    rw [hg]; simp [Stream.adv]
  refine ⟨h, h.cls, hc, rfl, ?_, hg', ?_, ?_⟩
  · rw [R.ver, H.major, H.minor]
  · simp [Stream.rest, H.length]
  · intro rot max hm
    obtain ⟨c, hc', h1⟩ := C01_round_trip hr H W rot max hm (s := { data := hb ++ body r ws }) (by simp [Stream.rest]) rfl
    rw [hc] at hc'
    cases hc'
    rw [C07_header_passed Z rot max hg'] at h1
    rw [h1]

/-- The file of the examples. -/
def toyFile (r : Row) : Stream := { data := toyHeader r ++ body r (toyLog r) }

/-- The same, past its header. -/
def toyOpen (r : Row) : Stream := { data := toyHeader r ++ body r (toyLog r), pos := 480 }

/-- The same, at its end. -/
def toyEnd (r : Row) : Stream := { data := toyHeader r ++ body r (toyLog r), pos := 480 + (body r (toyLog r)).length }

theorem toy_open (r : Row) (hr : r ∈ table) : ∃ h c, headerByVersion r.version = some c ∧ h.cls = c ∧ h.version = .ok (r.major, r.minor) ∧
    getHeader true (toyFile r) = (.ok h, toyOpen r) ∧ (toyOpen r).rest = body r (toyLog r) ∧ (toyOpen r).short = none ∧
    ∀ rot (max : Int), 3 ≤ max → generateStatistics toyZ (some h) rot max (toyOpen r) =
      ([presented c (toySample r), presented c (toySample r), presented c (toySample r)], .returned, toyEnd r) := by
  obtain ⟨h, c, h1, h2, h3, h4, h5, h6⟩ := log_open hr (toyHeader_valid r hr) (toyLog_valid r hr)
  exact ⟨h, c, h1, h2, h3, h4, h5, rfl, fun rot max hm => h6 rot max (by simpa [toyLog] using hm)⟩

/-- **C05** `C05_stops_cleanly`: a bound of 2 on a log with three samples. -/
example (r : Row) (hr : r ∈ table) (rot : Bool) : ∃ h, getHeader true (toyFile r) = (.ok h, toyOpen r) ∧
    (generateStatistics toyZ (some h) rot 2 (toyOpen r)).1.length = 2 ∧
    (generateStatistics toyZ (some h) rot 2 (toyOpen r)).2.1 = .returned := by
  obtain ⟨h, c, -, -, -, hg, -, -, hs⟩ := toy_open r hr
  have k := C05_stops_cleanly toyZ rot hg 2 5 (by decide) (by decide) (toyOpen r) (by rw [hs rot 5 (by decide)]; simp)
  exact ⟨h, hg, k.1, k.2.1⟩

/-- **C06** `C06_no_over_read`: the first step on the log reads no more than the record and what it announces. -/
example (r : Row) (hr : r ∈ table) : ∃ h x g s', getHeader true (toyFile r) = (.ok h, toyOpen r) ∧
    Gen.next toyZ true (.start (some h) 5) (toyOpen r) = (.yield x, g, s') ∧
    ∃ n, n ≤ h.cls.Record.size + u32 (toyOpen r).rest 16 + u32 (toyOpen r).rest 20 +
        (if h.cls.CStat.isSome then u32 (toyOpen r).rest 72 + u32 (toyOpen r).rest 84 else 0) ∧ s' = { toyOpen r with pos := 480 + n } := by
  obtain ⟨h, c, -, -, -, hg, -, -, hs⟩ := toy_open r hr
  obtain ⟨n, hn, -, he⟩ := C06_no_over_read toyZ hg true 5 (toyOpen r)
  have k := C07_stepping_is_running toyZ (some h) true 5 (toyOpen r) 6 (by decide)
  rw [hs true 5 (by decide)] at k
  rcases hx : Gen.next toyZ true (.start (some h) 5) (toyOpen r) with ⟨o, g, s'⟩
  rw [Gen.collect, hx] at k
  rw [hx] at he
  cases o with
  | yield x => exact ⟨h, x, g, s', hg, hx, n, hn, he.1⟩
  | stop => cases k
  | raise e => cases k

/-- **C06** `C06_ended_is_final`: an iterator bounded by 0 ends at once and stays ended. -/
example (r : Row) (hr : r ∈ table) : ∃ h, getHeader true (toyFile r) = (.ok h, toyOpen r) ∧
    ∀ t, Gen.next toyZ true (Gen.next toyZ true (.start (some h) 0) (toyOpen r)).2.1 t = (.stop, .done, t) := by
  obtain ⟨h, c, -, -, -, hg, -, -, -⟩ := toy_open r hr
  have k := C07_stepping_is_running toyZ (some h) true 0 (toyOpen r) 1 (by decide)
  refine ⟨h, hg, (C06_ended_is_final toyZ true (.start (some h) 0) (toyOpen r) ?_).2⟩
  intro x hx
  have l := C05_at_most toyZ (some h) true 0 (toyOpen r)
  have e := congrArg Prod.fst k
  rcases hy : Gen.next toyZ true (.start (some h) 0) (toyOpen r) with ⟨o, g, s'⟩
  rw [hy] at hx
  dsimp only at hx
  subst hx
  rw [Gen.collect, hy] at e
  dsimp only at e
  rw [← e] at l
  simp at l

/-- **C07** `C07_resume`: one sample, then the other two with a second iterator. -/
example (r : Row) (hr : r ∈ table) (rot : Bool) : ∃ h x s', getHeader true (toyFile r) = (.ok h, toyOpen r) ∧
    generateStatistics toyZ (some h) rot 1 (toyOpen r) = ([x], .returned, s') ∧
    (generateStatistics toyZ (some h) rot 2 s').1 = [x, x] := by
  obtain ⟨h, c, -, -, -, hg, -, -, hs⟩ := toy_open r hr
  have h3 := hs rot 3 (by decide)
  have hp := C05_prefix toyZ (some h) rot 1 3 (by decide) (toyOpen r)
  rw [h3] at hp
  have hp : (generateStatistics toyZ (some h) rot 1 (toyOpen r)).1 = [presented c (toySample r)] := hp
  have k1 := C05_stops_cleanly toyZ rot hg 1 3 (by decide) (by decide) (toyOpen r) (by rw [h3]; simp)
  have k := C07_resume toyZ rot hg 1 2 (toyOpen r) k1.1
  have e : ((1 + 2 : Nat) : Int) = 3 := rfl
  rw [e, h3] at k
  rcases hx : generateStatistics toyZ (some h) rot 1 (toyOpen r) with ⟨l, fin, s'⟩
  have e1 : ((1 : Nat) : Int) = 1 := rfl
  have e2 : ((2 : Nat) : Int) = 2 := rfl
  rw [e1, e2, hx] at k
  rw [hx] at hp
  rw [e1, hx] at k1
  dsimp only at hp k k1
  subst hp
  obtain ⟨-, rfl, -⟩ := k1
  refine ⟨h, _, s', hg, hx, ?_⟩
  have := congrArg Prod.fst k
  simp only [List.cons_append, List.nil_append, List.cons.injEq, true_and] at this
  exact this.symm

/-- **C07** `C07_early_stop`: the log has three samples; a bound of 5 or of 9 gives the same. -/
example (r : Row) (hr : r ∈ table) (rot : Bool) : ∃ h, getHeader true (toyFile r) = (.ok h, toyOpen r) ∧
    generateStatistics toyZ (some h) rot 9 (toyOpen r) = generateStatistics toyZ (some h) rot 5 (toyOpen r) := by
  obtain ⟨h, c, -, -, -, hg, -, -, hs⟩ := toy_open r hr
  exact ⟨h, hg, C07_early_stop toyZ rot hg 5 4 (toyOpen r) (by
    have e : ((5 : Nat) : Int) = 5 := rfl
    rw [e, hs rot 5 (by decide)]; simp)⟩

/-- **C07** `C07_header_passed` and `C07_header_refused`. -/
example (r : Row) (hr : r ∈ table) (rot : Bool) :
    (∃ c, (generateStatistics toyZ none rot 7 (toyFile r)).1 = List.replicate 3 (presented c (toySample r))) ∧
    ∃ e s', generateStatistics toyZ none rot 7 { data := [1, 2, 3] } = ([], .raised e, s') := by
  obtain ⟨h, c, -, -, -, hg, -, -, hs⟩ := toy_open r hr
  refine ⟨⟨c, by rw [C07_header_passed toyZ rot 7 hg, hs rot 7 (by decide)]; rfl⟩, ?_⟩
  obtain ⟨text, ht⟩ := (C09_rejection_kinds { data := [1, 2, 3] } (.inl rfl)).1.mpr (by decide +kernel)
  exact ⟨_, _, C07_header_refused toyZ rot 7 (Prod.ext ht rfl)⟩

/-- **C15** `C15_no_cgroups`, `C15_next_record`: the versions below 2.11; the sample is really there. -/
example (r : Row) (hr : r ∈ table) (old : ¬ (2 ≤ r.major ∧ 11 ≤ r.minor)) : ∃ h x g s', getHeader true (toyFile r) = (.ok h, toyOpen r) ∧
    x ∈ (generateStatistics toyZ (some h) true 5 (toyOpen r)).1 ∧ x.cgroups = [] ∧
    Gen.next toyZ true (.loop h (r.major, r.minor) 5) (toyOpen r) = (.yield x, g, s') ∧
    s'.rest = (toyOpen r).rest.drop (h.cls.Record.size + u32 (toyOpen r).rest 16 + u32 (toyOpen r).rest 20) := by
  obtain ⟨h, c, -, -, hv, hg, -, -, hs⟩ := toy_open r hr
  obtain ⟨_, v, _, R, hloop⟩ := generate_some (Z := toyZ) hg true 5 (toyOpen r)
  have hvv : v = (r.major, r.minor) := by
    have := R.ver.symm.trans hv
    injection this
  subst hvv
  have k := collect_loop (Z := toyZ) (rot := true) h (r.major, r.minor) 5 6 (toyOpen r) (by decide)
  have e5 : (5 : Int).toNat = 5 := rfl
  rw [e5, hs true 5 (by decide)] at hloop
  rw [← hloop] at k
  rcases hx : Gen.next toyZ true (.loop h (r.major, r.minor) 5) (toyOpen r) with ⟨o, g, s'⟩
  rw [Gen.collect, hx] at k
  cases o with
  | yield x =>
    have hxe : x = presented c (toySample r) := by
      have := congrArg Prod.fst k
      simp only [List.cons.injEq] at this
      exact this.1
    have hm : x ∈ (generateStatistics toyZ (some h) true 5 (toyOpen r)).1 := by rw [hs true 5 (by decide), hxe]; simp
    exact ⟨h, x, g, s', hg, hm, C15_no_cgroups toyZ true 5 hg hv old (toyOpen r) x hm, hx, C15_next_record toyZ true hg hv old 5 (toyOpen r) x g s' hx⟩
  | stop => cases k
  | raise e => cases k

/-- **C38** `C38_completely_filled`: the samples of the log. -/
example (r : Row) (hr : r ∈ table) : ∃ h c, h.cls = c ∧ getHeader true (toyFile r) = (.ok h, toyOpen r) ∧
    presented c (toySample r) ∈ (generateStatistics toyZ (some h) true 5 (toyOpen r)).1 ∧
    (presented c (toySample r)).sstat.buf.length = c.SStat.size := by
  obtain ⟨h, c, -, rfl, hv, hg, -, -, hs⟩ := toy_open r hr
  have hm : presented h.cls (toySample r) ∈ (generateStatistics toyZ (some h) true 5 (toyOpen r)).1 := by rw [hs true 5 (by decide)]; simp
  exact ⟨h, h.cls, rfl, hg, hm, (C38_completely_filled toyZ true 5 hg _ _ hm).2.1.2⟩

/-- **C34** `C34_end_of_file`: at the end of the log. -/
example (r : Row) (hr : r ∈ table) : ∃ h, getHeader true (toyFile r) = (.ok h, toyOpen r) ∧
    generateStatistics toyZ (some h) true 5 (toyEnd r) = ([], .returned, toyEnd r) := by
  obtain ⟨h, c, -, -, -, hg, -, -, -⟩ := toy_open r hr
  refine ⟨h, hg, (C34_end_of_file toyZ hg (toyEnd r) rfl ?_ true 5).2.2⟩
  unfold Stream.rest toyEnd
  dsimp only
  rw [List.drop_eq_nil_iff, List.length_append, (toyHeader_valid r hr).length]
  exact Nat.le_refl _

/-- **C36** `C36_growing_log`: the log when its first 100 bytes behind the header were there, and later. -/
example (r : Row) (hr : r ∈ table) : ∃ h, getHeader true (toyFile r) = (.ok h, toyOpen r) ∧
    (generateStatistics toyZ (some h) false 5 { data := (body r (toyLog r)).take 100 }).1 <+:
      (generateStatistics toyZ (some h) true 5 (toyOpen r)).1 ∧
    (generateStatistics toyZ (some h) true 5 (toyOpen r)).1.length = 3 := by
  obtain ⟨h, c, -, -, -, hg, hrest, hp, hs⟩ := toy_open r hr
  refine ⟨h, hg, C36_growing_log toyZ toyZ_nil toyZ_append hg false true 5 ((body r (toyLog r)).take 100) ((body r (toyLog r)).drop 100)
    (s := { data := (body r (toyLog r)).take 100 }) (t := toyOpen r) rfl ?_ rfl hp, by rw [hs true 5 (by decide)]; rfl⟩
  rw [hrest, List.take_append_drop]

/-- **C37** `C37_bounded_by_size` and `C37_terminates` on the log: three samples, and the iterator ends. -/
example (r : Row) (hr : r ∈ table) : ∃ h, getHeader true (toyFile r) = (.ok h, toyOpen r) ∧
    3 * (h.cls.Record.size + 2) ≤ (body r (toyLog r)).length ∧
    ∃ fin, (Gen.collect toyZ true ((body r (toyLog r)).length / 82 + 1) (.start (some h) 100000) (toyOpen r)).2.1 = some fin := by
  obtain ⟨h, c, -, -, -, hg, hrest, -, hs⟩ := toy_open r hr
  have k := C37_bounded_by_size toyZ toyZ_nil hg true 5 (toyOpen r)
  rw [hs true 5 (by decide), hrest] at k
  exact ⟨h, hg, k, C37_terminates toyZ toyZ_nil hg true 100000 (toyOpen r) _ (by rw [hrest]; omega)⟩

/-- **C32** `C32_cut_container`: the first 100 bytes of the samples can still be had from a container that was cut. -/
example (r : Row) (hr : r ∈ table) : ∃ h, getHeader true (toyFile r) = (.ok h, toyOpen r) ∧
    ((generateStatistics toyZ (some h) true 5 { data := (body r (toyLog r)).take 100, short := some .eofError }).1 <+:
      (generateStatistics toyZ (some h) true 5 (toyOpen r)).1) := by
  obtain ⟨h, c, -, -, -, hg, hrest, -, -⟩ := toy_open r hr
  refine ⟨h, hg, ?_⟩
  rcases C32_cut_container toyZ true (some h) 5 .eofError (by simp) (s := { data := (body r (toyLog r)).take 100, short := some .eofError })
    (t := toyOpen r) ((body r (toyLog r)).drop 100) rfl (by rw [hrest]; exact (List.take_append_drop 100 _).symm) with ⟨h1, -⟩ | ⟨h1, -⟩
  · rw [h1]
    exact List.prefix_rfl
  · exact h1

/-- **C13** `C13_damaged_container`: the bytes of the tasks cut, from a container that was cut. -/
example (r : Row) (hr : r ∈ table) : ∃ h, getHeader true (toyFile r) = (.ok h, toyOpen r) ∧
    (getTStat toyZ h ⟨h.cls.Record, toyRecord r⟩ { data := [1, 2, 3], short := some .eofError }).1 = .error .eofError := by
  obtain ⟨h, c, -, -, -, hg, -, -, -⟩ := toy_open r hr
  obtain ⟨-, -, f3, -, -⟩ := toyRecord_facts r hr
  have : ∀ r ∈ table, 3 < 2 * (2 * r.tstat) + 1 := by decide
  exact ⟨h, hg, C13_damaged_container toyZ hg _ _ _ rfl (by rw [f3]; exact this r hr)⟩

theorem toy_start (r : Row) (hr : r ∈ table) : first480 (toyFile r).rest = toyHeader r := by
  have H := toyHeader_valid r hr
  unfold first480 Stream.rest toyFile
  rw [List.drop_zero, List.take_append_of_le_length (by simp [H.length]), List.length_append]
  simp [H.length]
  exact List.take_of_length_le (Nat.le_of_eq H.length)

theorem toyWalk : WalksChain 432 (toyGroups.map WGroup.entry).flatten (toyGroups.map WGroup.pids).flatten
    (toyGroups.map fun g => g.entry.take 432) (toyGroups.map WGroup.pids) := by
  refine ⟨rfl, ?_, ?_, ?_⟩
  · have : ∀ k < 2, ∀ c ∈ (toyGroups.map fun g => g.entry.take 432)[k]?, c.length = 432 ∧
        c = pySlice (toyGroups.map WGroup.entry).flatten (sumOf 0 (toyGroups.map fun g => g.entry.take 432) k)
          (sumOf 0 (toyGroups.map fun g => g.entry.take 432) k + 432) := by decide +kernel
    intro k c hk
    exact this k (by have := (List.getElem?_eq_some_iff.mp hk).1; simpa [toyGroups] using this) c hk
  · have : ∀ k < 2, ∀ c ∈ (toyGroups.map fun g => g.entry.take 432)[k]?, 0 ≤ i32 c 16 := by decide +kernel
    intro k c hk
    exact this k (by have := (List.getElem?_eq_some_iff.mp hk).1; simpa [toyGroups] using this) c hk
  · have : ∀ k < 2, ∀ c ∈ (toyGroups.map fun g => g.entry.take 432)[k]?, ∀ q ∈ (toyGroups.map WGroup.pids)[k]?,
        q.length = 4 * (i32 c 16).toNat ∧ q = ((toyGroups.map WGroup.pids).flatten.drop
          (4 * (sumOf 16 (toyGroups.map fun g => g.entry.take 432) k).toNat)).take (4 * (i32 c 16).toNat) := by decide +kernel
    intro k c q hk hq
    exact this k (by have := (List.getElem?_eq_some_iff.mp hk).1; simpa [toyGroups] using this) c hk q hq

/-- **C14** `C14_cgroup_statistics`: the versions with cgroups; the cgroups of the log are read. -/
example (r : Row) (hr : r ∈ table) (hc : r.cstat.isSome) : ∃ h gs, getHeader true (toyFile r) = (.ok h, toyOpen r) ∧
    readsCGroups (first480 (toyFile r).rest) = true ∧
    (getCStat toyZ h ⟨h.cls.Record, toyRecord r⟩ { data := (toySample r).zcstats ++ (toySample r).zpids }).1 = .ok gs ∧ gs.length = 2 := by
  obtain ⟨h, c, -, -, -, hg, -, -, -⟩ := toy_open r hr
  have hcg : readsCGroups (first480 (toyFile r).rest) = true := by
    rw [toy_start r hr, (valid_accepts hr (toyHeader_valid r hr)).2.1, hc]
  obtain ⟨t, ht, hsz, k, -⟩ := C14_cgroup_statistics toyZ hg hcg (toyRecord r)
    { data := (toySample r).zcstats ++ (toySample r).zpids } rfl
  have W := toySample_valid r hr
  obtain ⟨-, -, -, -, f5, f6⟩ := toyRecord_facts r hr
  have hu : (usedRow (first480 (toyFile r).rest)) = r := by rw [toy_start r hr, (valid_accepts hr (toyHeader_valid r hr)).1]
  rw [hu] at hsz
  have h432 : t.size = 432 := f6 _ hsz.symm
  have hgr : toyGroupsOf r = toyGroups := by unfold toyGroupsOf; rw [if_pos hc]
  have e1 : ({ data := (toySample r).zcstats ++ (toySample r).zpids } : Stream).rest = (toySample r).zcstats ++ (toySample r).zpids := rfl
  have e2 : (toySample r).record = toyRecord r := rfl
  refine ⟨h, _, hg, hcg, (k _).mpr ⟨(toyGroups.map WGroup.entry).flatten, (toyGroups.map WGroup.pids).flatten,
    toyGroups.map fun g => g.entry.take 432, toyGroups.map WGroup.pids, ?_, ?_, rfl, ?_, ?_⟩, ?_⟩
  · have := (W.zcstats hc).inv
    rw [e1, ← e2, W.ccomplen hc, List.take_left, this, ← hgr]; rfl
  · have := (W.zpids hc).inv
    rw [e1, ← e2, W.ccomplen hc, List.drop_left, W.icomplen hc, List.take_length, this, ← hgr]; rfl
  · rw [(f5 hc).1]; rfl
  · rw [h432]
    exact toyWalk
  · rfl

end Atop
