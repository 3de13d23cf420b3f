import Verif.Spec.SourceResult
import Verif.Proofs.SourceAttr
import Verif.Props.SourceReader
import Verif.Props.SourceProtocol
import Verif.Props.SourceDict
import Verif.Props.Result
import Verif.Props.Gzip
/-!
# From the objects of the executed source to the literal layouts (C74, proofs)
-/

namespace Atop
open Spec

/-! ## Values -/

/-- What `next()` gives at the end of an iteration. -/
def endOut : End → Out
  | .returned => .stop
  | .raised e => .raise e

/-- How a generator ends. -/
def endingOf (Z : Zlib) (rot : Bool) : Gen → Stream → End
  | .start hd max, s => (generateStatistics Z hd rot max s).2.1
  | .loop h v left, s => (runLoop Z rot h v left s).2.1
  | .done, _ => .returned

theorem endOut_endOf (rot : Bool) (e : Exc) : endOut (endOf rot e) = onError rot e := by
  unfold endOf onError
  split
  · split <;> rfl
  · rfl

theorem loop_ending (Z : Zlib) (rot : Bool) (h : Header) (v : Nat × Nat) (left : Nat) (s : Stream) :
    match resumeLoop Z rot h v left s with
    | (.yield _, g, s') => (runLoop Z rot h v left s).2.1 = endingOf Z rot g s'
    | (o, _, _) => o = endOut (runLoop Z rot h v left s).2.1 := by
  cases left with
  | zero => rfl
  | succ k =>
    unfold resumeLoop
    rw [runLoop]
    rcases readSample Z h v s with ⟨e | x, s'⟩
    · dsimp only
      rw [endOut_endOf]
      rcases onError_cases rot e with h | h <;> rw [h]
    · cases x with
      | none => rfl
      | some x => rfl

theorem enter_ending (Z : Zlib) (rot : Bool) (h : Header) (max : Int) (s : Stream) :
    match enterTry Z rot h max s with
    | (.yield _, g, s') => (generateStatistics Z (some h) rot max s).2.1 = endingOf Z rot g s'
    | (o, _, _) => o = endOut (generateStatistics Z (some h) rot max s).2.1 := by
  unfold enterTry generateStatistics
  dsimp only
  cases parsedVersion h with
  | error e =>
    dsimp only
    rw [endOut_endOf]
    rcases onError_cases rot e with h | h <;> rw [h]
  | ok v => exact loop_ending Z rot _ v _ s

theorem next_ending (Z : Zlib) (rot : Bool) (g : Gen) (s : Stream) :
    match g.next Z rot s with
    | (.yield _, g', s') => endingOf Z rot g s = endingOf Z rot g' s'
    | (o, _, _) => o = endOut (endingOf Z rot g s) := by
  cases g with
  | done => rfl
  | loop h v left => exact loop_ending Z rot h v left s
  | start hd max =>
    cases hd with
    | some h => exact enter_ending Z rot h max s
    | none =>
      have hn := generate_none (Z := Z) rot max s
      unfold Gen.next
      rcases hg : getHeader true s with ⟨e | h, s'⟩
      · rw [hg] at hn
        show Out.raise e = endOut (generateStatistics Z none rot max s).2.1
        rw [hn]; rfl
      · rw [hg] at hn
        have := enter_ending Z rot h max s'
        dsimp only
        rw [endingOf, hn]
        exact this

/-- What the calls of `next()` give, one after the other. -/
def nexts (Z : Zlib) (rot : Bool) : Nat → Gen → Stream → List Out
  | 0, _, _ => []
  | n + 1, g, s => (g.next Z rot s).1 :: nexts Z rot n (g.next Z rot s).2.1 (g.next Z rot s).2.2

theorem nexts_done (Z : Zlib) (rot : Bool) : ∀ (n : Nat) (s : Stream), nexts Z rot n .done s = List.replicate n .stop
  | 0, _ => rfl
  | n + 1, s => by rw [List.replicate_succ, ← nexts_done Z rot n s]; rfl

/-- First the samples, then the end, then nothing. -/
theorem nexts_get (Z : Zlib) (rot : Bool) : ∀ (n : Nat) (g : Gen) (s : Stream) (k : Nat) (o : Out), (nexts Z rot n g s)[k]? = some o →
    (∀ x, (allOf Z rot g s)[k]? = some x → o = .yield x) ∧ (k = (allOf Z rot g s).length → o = endOut (endingOf Z rot g s)) ∧
    ((allOf Z rot g s).length < k → o = .stop)
  | 0, _, _, _, _, h => by cases h
  | n + 1, g, s, k, o, h => by
    have h1 := next_all Z rot g s
    have h2 := next_ending Z rot g s
    rw [nexts] at h
    rcases hr : g.next Z rot s with ⟨o', g', s'⟩
    rw [hr] at h h1 h2
    have fin : allOf Z rot g s = [] → g' = .done → o' = endOut (endingOf Z rot g s) →
        (∀ x, (allOf Z rot g s)[k]? = some x → o = .yield x) ∧ (k = (allOf Z rot g s).length → o = endOut (endingOf Z rot g s)) ∧
        ((allOf Z rot g s).length < k → o = .stop) := by
      intro e1 e2 e3
      rw [e1]
      refine ⟨nofun, ?_, ?_⟩
      · rintro rfl; cases h; exact e3
      · intro hk
        obtain ⟨j, rfl⟩ : ∃ j, k = j + 1 := ⟨k - 1, by simp at hk; omega⟩
        rw [List.getElem?_cons_succ] at h
        dsimp only at h
        rw [e2, nexts_done] at h
        exact (List.eq_of_mem_replicate (List.mem_of_getElem? h))
    cases o' with
    | yield x =>
      dsimp only at h1 h2
      rw [h1, h2]
      cases k with
      | zero =>
        rw [List.getElem?_cons_zero] at h
        cases h
        exact ⟨fun y hy => by cases hy; rfl, fun h => by simp at h, fun h => by simp at h⟩
      | succ k =>
        rw [List.getElem?_cons_succ] at h
        obtain ⟨i1, i2, i3⟩ := nexts_get Z rot n g' s' k o h
        exact ⟨fun y hy => i1 y (by simpa using hy), fun h => i2 (by simpa using h), fun h => i3 (by simpa using h)⟩
    | stop => exact fin h1.1 h1.2 h2
    | raise e => exact fin h1.1 h1.2 h2

end Atop

namespace Atop.Src
open Spec
set_option maxRecDepth 20000

section
variable (Z : Zlib) (fs : FileSystem) (args : CommandLine)

/-! ## Objects -/

theorem run_ext {rot : Bool} : ∀ (ops : List Op) (g : Obj.Gen) (g' : Gen) (w : World), GNow w g g' →
    ∀ (k : Nat) (r : Obj.Out × World), (oneRun Z rot ops g w)[k]? = some r →
      w.Ext r.2 ∧ (∀ b ∈ r.1.blocks, b < r.2.heap.length) ∧
      ∀ m r', k ≤ m → (oneRun Z rot ops g w)[m]? = some r' → r.2.Ext r'.2
  | [], _, _, _, _, _, _, h => by cases h
  | op :: ops, g, g', w, G, k, r, h => by
    have R := use_rel Z rot op G
    have hb : ∀ b ∈ (g.use Z rot op w).1.blocks, b < (g.use Z rot op w).2.2.heap.length := by
      obtain ⟨l, mid, -, -, hw, -, -⟩ := R.new
      exact fun b hb => (hw.2 b hb).2
    rw [oneRun] at h ⊢
    cases k with
    | zero =>
      cases h
      refine ⟨R.ext, hb, ?_⟩
      intro m r' _ hr'
      cases m with
      | zero => cases hr'; exact World.Ext.refl _
      | succ m => exact (run_ext ops _ _ _ R.gen m r' hr').1
    | succ k =>
      obtain ⟨i1, i2, i3⟩ := run_ext ops _ _ _ R.gen k r h
      refine ⟨R.ext.trans i1, i2, ?_⟩
      intro m r' hm hr'
      obtain ⟨m, rfl⟩ : ∃ j, m = j + 1 := ⟨m - 1, by omega⟩
      exact i3 m r' (by omega) hr'

theorem run_outs {rot : Bool} : ∀ (n : Nat) (g : Obj.Gen) (g' : Gen) (w : World), GNow w g g' →
    (oneRun Z rot (List.replicate n .next) g w).map (fun r => r.2.out r.1) = nexts Z rot n g' w.file
  | 0, _, _, _, _ => rfl
  | n + 1, g, g', w, G => by
    have R := use_rel Z rot .next G
    rw [List.replicate_succ, oneRun, List.map_cons, run_outs n _ _ _ R.gen, R.out, R.file]
    rfl

theorem ext_tuple {w w' : World} (e : w.Ext w') {x : Obj.Tuple} (h : ∀ b ∈ x.blocks, b < w.heap.length) : w'.tuple x = w.tuple x :=
  tuple_congr fun b hb => by rw [e.get (List.getElem?_eq_getElem (h b hb)), List.getElem?_eq_getElem (h b hb)]

/-! ## Conversions -/

/-- The conversion of an object that shows `mem`. -/
theorem converts_ref (n : Nat) (out : PyStr) {w : World} {x : Ref} {t : CType} {mem : Bytes} {node : Node} (ht : t ∈ classes)
    (hx : w.inst x = ⟨t, mem⟩) (hl : mem.length = t.size) (hn : t.node 0 = node) :
    Converts ((program Z fs args).at (n + 4)) (emb out w) (refVal x) (fun v => node.Shows mem 0 v) := by
  unfold World.inst at hx
  injection hx with h1 h2
  obtain ⟨v, c1, c2⟩ := C69_struct_to_dict Z fs args n (emb out w) t ht x.blk 0
  refine ⟨v, by unfold refVal; rw [h1]; exact c1, ?_⟩
  have hm : Src.mem (emb out w) x.blk 0 t.size = mem := by
    show ((w.heap.getD x.blk []).drop 0).take t.size = mem
    rw [h2, List.drop_zero, List.take_of_length_le (by omega)]
  rw [hm] at c2
  obtain ⟨v', a, b⟩ := node_dict ht mem (by omega)
  rw [List.take_of_length_le (by omega), c2] at a
  cases a
  exact hn ▸ b

/-- ... of a cgroup object. -/
theorem converts_group (n : Nat) (out : PyStr) {w : World} {x : Obj.Group} {t : CType} {g : WGroup} {node : Node} (ht : t ∈ classes)
    (hx : w.group x = presentedGroup t g) (hl : t.size ≤ g.entry.length) (h4 : 4 * (g.pids.length / 4) = g.pids.length)
    (hn : t.node 0 = node) :
    Converts ((program Z fs args).at (n + 5)) (emb out w) (groupVal x) (fun v => GroupShows node g v) := by
  unfold World.group presentedGroup World.inst at hx
  injection hx with h1 h2
  injection h1 with h1 h1'
  injection h2 with h2 h2'
  obtain ⟨v, c1, c2⟩ := C69_cgroup Z fs args n (emb out w) x (by rw [h1]; exact ht) (g.pids.length / 4) h2
  refine ⟨v, c1, ?_⟩
  have hm : Src.mem (emb out w) x.cstat.blk 0 x.cstat.ty.size = g.entry.take t.size := by
    show ((w.heap.getD x.cstat.blk []).drop 0).take _ = _
    rw [h1', List.drop_zero, h1, List.take_take, Nat.min_self]
  have hp : Src.mem (emb out w) x.proclist.blk 0 x.proclist.ty.size = g.pids := by
    show ((w.heap.getD x.proclist.blk []).drop 0).take _ = _
    rw [h2', List.drop_zero, h2]
    refine List.take_of_length_le ?_
    show g.pids.length ≤ g.pids.length / 4 * 4
    omega
  rw [hm, hp, h1, h2] at c2
  obtain ⟨v', ps, a1, -, a2, a3⟩ := C20_cgroup ht (g.entry.take t.size) g.pids (g.pids.length / 4)
  obtain ⟨v'', b1, b2⟩ := node_dict ht g.entry hl
  rw [a2] at b1
  cases b1
  rw [a1] at c2
  cases c2
  refine ⟨ps, _, a3, hn ▸ b2, ?_, ?_⟩
  · rw [List.length_map, List.length_range]; omega
  · intro k p hk
    rw [List.getElem?_map] at hk
    cases hr : (List.range (g.pids.length / 4))[k]? with
    | none => rw [hr] at hk; cases hk
    | some q =>
      rw [hr] at hk
      obtain ⟨hq, hq'⟩ := List.getElem?_eq_some_iff.mp hr
      rw [List.getElem_range] at hq'
      subst hq'
      rw [List.length_range] at hq
      simp only [Option.map_some, Option.some.injEq] at hk
      subst hk
      refine ⟨_, rfl, ?_⟩
      rw [Nat.mul_comm k 4]
      exact storedInt_leInt (by decide) (by omega) true

/-- An object that shows `mem`. -/
theorem displays_ref (n : Nat) (out : PyStr) {w : World} {x : Ref} {t : CType} {mem : Bytes} {node : Node} (ht : t ∈ classes)
    (hx : w.inst x = ⟨t, mem⟩) (hl : mem.length = t.size) (hn : t.node 0 = node) :
    Displays ((program Z fs args).at (n + 4)) (emb out w) (refVal x) node mem := by
  refine ⟨converts_ref Z fs args n out ht hx hl hn, ?_⟩
  unfold World.inst at hx
  injection hx with h1 h2
  unfold refVal
  rw [h1, ← hn]
  refine reads_view ht ⟨?_, Nat.le_of_eq hl.symm⟩
  show (w.heap.getD x.blk []).take _ = _
  rw [h2]

/-- A cgroup object. -/
theorem displays_group (n : Nat) (out : PyStr) {w : World} {x : Obj.Group} {t : CType} {g : WGroup} {node : Node} (ht : t ∈ classes)
    (hx : w.group x = presentedGroup t g) (hl : t.size ≤ g.entry.length) (h4 : 4 * (g.pids.length / 4) = g.pids.length)
    (hn : t.node 0 = node) :
    DisplaysGroup ((program Z fs args).at (n + 5)) (emb out w) (groupVal x) node g := by
  refine ⟨converts_group Z fs args n out ht hx hl h4 hn, ?_⟩
  unfold World.group presentedGroup World.inst at hx
  injection hx with h1 h2
  injection h1 with h1 h1'
  injection h2 with h2 h2'
  refine ⟨refVal x.cstat, refVal x.proclist, ⟨_, rfl, fun G env y hy => ?_⟩, ?_, ⟨_, rfl, fun G env y hy => ?_⟩, ?_, ?_⟩
  · exact (eval_attr (eval_name hy)).trans rfl
  · unfold refVal
    rw [h1, ← hn]
    refine reads_view ht ⟨?_, hl⟩
    show (w.heap.getD x.cstat.blk []).take _ = _
    rw [h1', List.take_take, Nat.min_self]
  · exact (eval_attr (eval_name hy)).trans rfl
  · intro i hi
    have hp : Src.mem (emb out w) x.proclist.blk (0 + i * 4) 4 = bytesAt g.pids (4 * i) 4 := by
      show ((w.heap.getD x.proclist.blk []).drop _).take 4 = _
      rw [h2', Nat.zero_add, Nat.mul_comm]; rfl
    refine ⟨.int (leInt true (bytesAt g.pids (4 * i) 4)), ⟨_, rfl, storedInt_leInt (by decide) (by omega) true⟩, fun G env y hy => ?_⟩
    refine (eval_sub (eval_name hy) (eval_const _ _ _)).trans ?_
    unfold refVal
    rw [h2]
    show (match listItem (arrayItems (emb out w) pid_t (g.pids.length / 4) x.proclist.blk 0) i with
      | some v => (Except.ok v, emb out w)
      | none => (Except.error (PExc.other py!"IndexError"), emb out w)) = _
    rw [listItem_nat (arrayItems_get _ _ _ _ hi)]
    show (Except.ok (Val.int (leInt true (Src.mem (emb out w) x.proclist.blk (0 + i * 4) 4))), _) = _
    rw [hp]
  · intro i hi
    have h : Gets ((program Z fs args).at (n + 5)) (emb out w) (refVal x.proclist) []
        ((Node.list (g.pids.length / 4) 4 none (.sint 0 4)).Reads g.pids 0) :=
      ⟨refVal x.proclist, ⟨pid_t, x.proclist.blk, 0, by unfold refVal; rw [h2]⟩, fun G env y hy => eval_name hy⟩
    exact outside h hi

/-- A header object. -/
theorem displays_header (n : Nat) (out : PyStr) {w : World} {i : Nat} {c : HeaderClass} {hb : Bytes} {cache : Option (Nat × Nat)}
    (hh : w.header i = some ⟨c, hb, cache⟩) (hv : c ∈ versions) {node : Node} (hn : (headerType c).node 0 = node)
    (hm : headerType c ∈ classes) (hs : (headerType c).size = hb.length) :
    Displays ((program Z fs args).at (n + 5)) (emb out w) (.hdr i) node hb := by
  refine ⟨?_, ?_⟩
  · obtain ⟨v, c1, c2⟩ := C69_header Z fs args n out w i _ hh hv
    refine ⟨v, c1, ?_⟩
    obtain ⟨v', a, b⟩ := node_dict hm hb (by omega)
    rw [List.take_of_length_le (by omega)] at a
    have : structToDict ⟨headerType c, hb⟩ = .ok (toJ v) := c2
    rw [this] at a
    cases a
    exact hn ▸ b
  · obtain ⟨o, h1, h2, h3, h4⟩ := header_some hh
    have ho := emb_hdr (out := out) h1
    obtain rfl : o.cls = c := h2
    rw [← hn]
    refine reads_hdr (o := embH o) ho hm ⟨?_, by show (headerType o.cls).size ≤ _; omega⟩
    show (w.heap.getD o.blk []).take (headerType o.cls).size = hb.take (headerType o.cls).size
    rw [show hb = (w.heap.getD o.blk []).take (headerType o.cls).size from h4, List.take_take, Nat.min_self]

/-- A sample whose blocks have the sizes of the version. -/
structure Sized (r : Row) (w : WSample) : Prop where
  record : w.record.length = r.record
  sstat : w.sstat.length = r.sstat
  tstats : ∀ t ∈ w.tstats, t.length = r.tstat
  noGroups : r.cstat = none → w.groups = []
  groups : ∀ g ∈ w.groups, ∀ n, r.cstat = some n → n ≤ g.entry.length ∧ 4 * (g.pids.length / 4) = g.pids.length

theorem sized_found {r : Row} {cg : Bool} (hcg : cg = true → r.cstat.isSome) {f : Found} (F : f.Fits r cg) : Sized r f.written where
  record := F.record
  sstat := F.sstat
  tstats := F.tstats
  noGroups := fun h => F.noGroups (by
    cases cg with
    | false => rfl
    | true => have := hcg rfl; rw [h] at this; cases this)
  groups := fun g hg n hn => by
    obtain ⟨g1, g2⟩ := F.groups g hg
    rw [hn] at g1
    exact ⟨Nat.le_of_eq g1.symm, by omega⟩

theorem sized_valid {Z : Zlib} {r : Row} {w : WSample} (V : w.Valid Z r) : Sized r w where
  record := V.record_len
  sstat := V.sstat_len
  tstats := V.tstat_len
  noGroups := V.noGroups
  groups := fun g hg n hn => by
    obtain ⟨g1, -, g3⟩ := V.groups g hg n hn
    exact ⟨g1, by omega⟩

/-- A tuple that shows a sample. -/
theorem tuple_shows (n : Nat) (out : PyStr) {r : Row} (hr : r ∈ table) {c : HeaderClass} (hc : headerByVersion r.version = some c)
    {B : Blocks} (hB : layoutOf r.version = some B) {f : WSample} (F : Sized r f)
    {w : World} {x : Obj.Tuple} (hx : w.tuple x = presented c f) :
    TupleShows ((program Z fs args).at (n + 5)) (emb out w) B f (tupleVal x) := by
  obtain ⟨c', B', hc', hB', ⟨n1, n2, n3, n4, n5⟩, ⟨s1, s2, s3, s4, s5⟩, ⟨m1, m2, m3, m4, m5⟩⟩ := layout_facts hr
  obtain rfl : c = c' := by rw [hc] at hc'; exact Option.some.inj hc'
  obtain rfl : B = B' := by rw [hB] at hB'; exact Option.some.inj hB'
  unfold World.tuple presented at hx
  injection hx with h1 h2 h3 h4
  refine ⟨_, _, _, _, rfl, displays_ref Z fs args (n + 1) out m2 h1 (by rw [s2]; exact F.record) n2,
    displays_ref Z fs args (n + 1) out m3 h2 (by rw [s3]; exact F.sstat) n3, ⟨?_, ?_⟩, ?_⟩
  · have := congrArg List.length h3
    simpa using this
  · intro i b y hb hy
    rw [List.getElem?_map] at hy
    cases hq : x.tstats[i]? with
    | none => rw [hq] at hy; cases hy
    | some q =>
      rw [hq] at hy
      cases hy
      have := congrArg (·[i]?) h3
      simp only [List.getElem?_map, hq, Option.map_some] at this
      rw [hb] at this
      exact displays_ref Z fs args (n + 1) out m4 (Option.some.inj this) (by rw [s4]; exact F.tstats b (List.mem_of_getElem? hb)) n4
  · cases hcs : c.CStat with
    | none =>
      rw [hcs] at s5 h4
      have hg : f.groups = [] := F.noGroups s5.symm
      have : x.cgroups = [] := by simpa using h4
      rw [this, hg]
      exact ⟨rfl, fun i b x h => by cases h⟩
    | some t =>
      rw [hcs] at s5 n5 h4
      dsimp only at h4
      refine ⟨by have := congrArg List.length h4; simpa using this, ?_⟩
      intro i g y hg hy
      rw [List.getElem?_map] at hy
      cases hq : x.cgroups[i]? with
      | none => rw [hq] at hy; cases hy
      | some q =>
        rw [hq] at hy
        cases hy
        have := congrArg (·[i]?) h4
        simp only [List.getElem?_map, hq, hg, Option.map_some] at this
        obtain ⟨g1, g2⟩ := F.groups g (List.mem_of_getElem? hg) _ s5.symm
        exact ⟨_, n5.symm, displays_group Z fs args n out (m5 t hcs) (Option.some.inj this) g1 g2 rfl⟩
end
end Atop.Src
