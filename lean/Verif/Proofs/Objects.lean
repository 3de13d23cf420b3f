import Verif.Spec.Objects
import Verif.Proofs.Decode
import Verif.Props.Reader
/-!
# The functions with memory do what the functions on values do
-/

namespace Atop
open Spec

/-- `w'` comes from `w` by allocating and reading only. -/
def World.Ext (w w' : World) : Prop := w.heap <+: w'.heap ∧ w.headers <+: w'.headers

theorem World.Ext.refl (w : World) : w.Ext w := ⟨List.prefix_rfl, List.prefix_rfl⟩
theorem World.Ext.trans {a b c : World} (h : a.Ext b) (k : b.Ext c) : a.Ext c := ⟨h.1.trans k.1, h.2.trans k.2⟩
theorem World.Ext.len {a b : World} (h : a.Ext b) : a.heap.length ≤ b.heap.length := h.1.length_le
theorem World.Ext.get {a b : World} (h : a.Ext b) {i : Nat} {x : Bytes} (hx : a.heap[i]? = some x) : b.heap[i]? = some x := by
  obtain ⟨t, ht⟩ := h.1
  rw [← ht, List.getElem?_append_left (by rw [List.getElem?_eq_some_iff] at hx; exact hx.1)]
  exact hx

theorem World.Ext.getH {a b : World} (h : a.Ext b) {i : Nat} {x : HObj} (hx : a.headers[i]? = some x) : b.headers[i]? = some x := by
  obtain ⟨t, ht⟩ := h.2
  rw [← ht, List.getElem?_append_left (by rw [List.getElem?_eq_some_iff] at hx; exact hx.1)]
  exact hx

/-- The object `x` holds the value `y`. -/
def RefAt (w : World) (x : Ref) (y : Inst) : Prop := x.ty = y.ty ∧ w.heap[x.blk]? = some y.buf

theorem RefAt.ext {w w' : World} {x y} (h : RefAt w x y) (e : w.Ext w') : RefAt w' x y := ⟨h.1, e.get h.2⟩

/-- The header object `i` holds the value `h`, its version evaluated. -/
def HeaderAt (w : World) (i : Nat) (h : Header) : Prop :=
  ∃ o b, w.headers[i]? = some o ∧ o.cls = h.cls ∧ o.cache = h.cache ∧ w.heap[o.blk]? = some b ∧ h.buf = b.take o.cls.size

theorem HeaderAt.ext {w w' : World} {i h} (k : HeaderAt w i h) (e : w.Ext w') : HeaderAt w' i h := by
  obtain ⟨o, b, h1, h2, h3, h4, h5⟩ := k
  exact ⟨o, b, e.getH h1, h2, h3, e.get h4, h5⟩

theorem HeaderAt.header {w : World} {i h} (k : HeaderAt w i h) : w.header i = some h := by
  obtain ⟨o, b, h1, h2, h3, h4, h5⟩ := k
  unfold World.header
  rw [h1]
  rcases h with ⟨c, bf, ca⟩
  dsimp only at h2 h3 h5 ⊢
  rw [List.getD_eq_getElem?_getD, h4]
  subst h2 h3 h5
  rfl

theorem HeaderAt.look {w : World} {i h} (k : HeaderAt w i h) : M.header i w = (.ok h, w) := by
  unfold M.header
  rw [k.header]

theorem HeaderAt.latch {w : World} {i h v} (k : HeaderAt w i h) (hc : h.cache = some v) : M.latch i w = (.ok (), w) := by
  unfold M.latch
  rw [k.header]
  obtain ⟨o, b, h1, h2, h3, h4, h5⟩ := k
  rw [h1]
  have : h.latched.cache = o.cache := by rw [latched_cached hc, h3]
  dsimp only
  rw [this]
  have : w.headers.set i o = w.headers := by
    obtain ⟨hi, rfl⟩ := List.getElem?_eq_some_iff.mp h1
    exact List.set_getElem_self hi
  rw [show ({ o with cache := o.cache } : HObj) = o from rfl, this]

/-- `m`, run in `w`, does what `rd` does on the file: same exception, or results related by `rel`; and it only allocates. -/
def SimAt {α β : Type} (w : World) (m : M α) (rd : Rd β) (rel : World → α → β → Prop) : Prop :=
  w.Ext (m w).2 ∧ (m w).2.file = (rd w.file).2 ∧
  match (m w).1, (rd w.file).1 with
  | .ok a, .ok b => rel (m w).2 a b
  | .error e, .error e' => e = e'
  | _, _ => False

theorem M.bind_eq {α β} (m : M α) (k : α → M β) (w : World) : (m >>= k) w = match m w with
    | (.ok a, w') => k a w'
    | (.error e, w') => (.error e, w') := rfl

theorem M.pure_eq {α} (a : α) (w : World) : (Pure.pure a : M α) w = (.ok a, w) := rfl

theorem SimAt.bind {α β γ δ : Type} {w : World} {m : M α} {rd : Rd β} {rel : World → α → β → Prop} {k : α → M γ} {l : β → Rd δ}
    {rel' : World → γ → δ → Prop} (h : SimAt w m rd rel)
    (hk : ∀ w' a b, w.Ext w' → rel w' a b → SimAt w' (k a) (l b) rel') : SimAt w (m >>= k) (rd >>= l) rel' := by
  obtain ⟨h1, h2, h3⟩ := h
  unfold SimAt
  rw [M.bind_eq, Rd.bind_eq]
  rcases hm : m w with ⟨e | a, w'⟩ <;> rcases hr : rd w.file with ⟨e' | b, s'⟩ <;> rw [hm] at h1 h2 h3 <;> rw [hr] at h2 h3 <;>
    dsimp only at h1 h2 h3 ⊢
  · exact ⟨h1, h2, h3⟩
  · obtain ⟨k1, k2, k3⟩ := hk w' a b h1 h3
    subst h2
    exact ⟨h1.trans k1, k2, k3⟩

/-- A step only of the world. -/
theorem SimAt.bind_left {α γ δ : Type} {w w' : World} {m : M α} {a : α} {k : α → M γ} {rd : Rd δ} {rel : World → γ → δ → Prop}
    (h : m w = (.ok a, w')) (e : w.Ext w') (hf : w'.file = w.file) (hk : SimAt w' (k a) rd rel) : SimAt w (m >>= k) rd rel := by
  obtain ⟨k1, k2, k3⟩ := hk
  unfold SimAt
  rw [M.bind_eq, h]
  dsimp only
  rw [hf] at k2 k3
  exact ⟨e.trans k1, k2, k3⟩

theorem SimAt.pure {α β : Type} {w : World} {a : α} {b : β} {rel : World → α → β → Prop} (h : rel w a b) :
    SimAt w (Pure.pure a) (Pure.pure b) rel := ⟨World.Ext.refl w, rfl, h⟩

theorem SimAt.lift {α : Type} (w : World) (x : Except Exc α) : SimAt w (M.lift x) (Rd.lift x) (fun _ a b => a = b) := by
  refine ⟨World.Ext.refl w, rfl, ?_⟩
  unfold M.lift Rd.lift
  cases x <;> rfl

theorem SimAt.file {α : Type} (w : World) (x : Rd α) : SimAt w (M.file x) x (fun _ a b => a = b) := by
  refine ⟨World.Ext.refl w, rfl, ?_⟩
  unfold M.file
  cases h : (x w.file).1 <;> simp only

theorem SimAt.mono {α β : Type} {w : World} {m : M α} {rd : Rd β} {rel rel' : World → α → β → Prop} (h : SimAt w m rd rel)
    (hr : ∀ w' a b, w.Ext w' → rel w' a b → rel' w' a b) : SimAt w m rd rel' := by
  obtain ⟨h1, h2, h3⟩ := h
  refine ⟨h1, h2, ?_⟩
  rcases hm : m w with ⟨e | a, w'⟩ <;> rcases hd : rd w.file with ⟨e' | b, s'⟩ <;> rw [hm] at h1 h3 <;> rw [hd] at h3 <;>
    dsimp only at h3 ⊢
  · exact h3
  · exact hr _ _ _ h1 h3

/-- Blocks in increasing order between two bounds. -/
def Within (lo hi : Nat) (l : List Nat) : Prop := l.Pairwise (· < ·) ∧ ∀ b ∈ l, lo ≤ b ∧ b < hi

theorem Within.nil (lo hi : Nat) : Within lo hi [] := ⟨List.Pairwise.nil, nofun⟩

theorem Within.append {lo mid hi : Nat} {l l' : List Nat} (h : Within lo mid l) (k : Within mid hi l') (h1 : lo ≤ mid)
    (h2 : mid ≤ hi) : Within lo hi (l ++ l') := by
  refine ⟨List.pairwise_append.mpr ⟨h.1, k.1, fun a ha b hb => ?_⟩, fun b hb => ?_⟩
  · have := h.2 a ha
    have := k.2 b hb
    omega
  · rcases List.mem_append.mp hb with hb | hb
    · have := h.2 b hb; omega
    · have := k.2 b hb; omega

theorem Within.single {lo hi b : Nat} (h1 : lo ≤ b) (h2 : b < hi) : Within lo hi [b] :=
  ⟨List.pairwise_singleton _ _, fun x hx => by simp at hx; omega⟩

theorem Within.weaken {lo mid hi : Nat} {l : List Nat} (h : Within lo mid l) (k : mid ≤ hi) : Within lo hi l :=
  ⟨h.1, fun b hb => by have := h.2 b hb; omega⟩

theorem ref_inst {w : World} {x : Ref} {y : Inst} (h : RefAt w x y) : x.inst w = (.ok y, w) := by
  unfold Ref.inst
  rw [M.bind_eq]
  unfold M.load
  dsimp only
  rw [M.pure_eq, List.getD_eq_getElem?_getD, h.2, h.1]
  rfl

/-- A new object behind everything that was there. -/
def FreshRef (w : World) (w' : World) (x : Ref) (y : Inst) : Prop :=
  RefAt w' x y ∧ w.heap.length ≤ x.blk ∧ x.blk < w'.heap.length

theorem sim_copy (w : World) (t : CType) (d : Bytes) :
    SimAt w (M.copy t d) (Rd.lift (fromBufferCopy t d)) (FreshRef w) := by
  unfold M.copy
  cases h : fromBufferCopy t d with
  | error e => exact ⟨World.Ext.refl w, rfl, rfl⟩
  | ok x =>
    have ht : x.ty = t := by unfold fromBufferCopy at h; split at h <;> cases h; rfl
    refine ⟨⟨List.prefix_append _ _, List.prefix_rfl⟩, rfl, ?_⟩
    refine ⟨⟨ht.symm, ?_⟩, Nat.le_refl _, ?_⟩
    · show (w.heap ++ [x.buf])[w.heap.length]? = _
      simp
    · show w.heap.length < (w.heap ++ [x.buf]).length
      simp

theorem sim_readNew (w : World) (n : Nat) :
    SimAt w (M.readNew n) (Stream.readinto n) (fun w' a b => w'.heap[a]? = some b ∧ w.heap.length ≤ a ∧ a < w'.heap.length ∧ b.length = n) := by
  have hle : ∀ got s', Stream.read n w.file = (.ok got, s') → got.length ≤ n := by
    intro got s' h
    unfold Stream.read at h
    split at h
    · cases h; simp; omega
    · split at h
      · cases h; omega
      · cases h
  unfold M.readNew M.readinto
  unfold SimAt
  simp only [M.bind_eq]
  unfold M.alloc M.load M.file M.store Stream.readinto
  rw [Rd.bind_eq]
  simp only [List.getD_eq_getElem?_getD, List.getElem?_concat_length, Option.getD_some, List.length_replicate]
  rcases hr : Stream.read n w.file with ⟨e | got, s'⟩
  · exact ⟨⟨List.prefix_append _ _, List.prefix_rfl⟩, rfl, rfl⟩
  · refine ⟨⟨?_, List.prefix_rfl⟩, rfl, ?_⟩
    · show w.heap <+: (w.heap ++ [List.replicate n 0]).set w.heap.length _
      rw [List.set_append_right _ _ (Nat.le_refl _)]
      exact List.prefix_append _ _
    · show ((w.heap ++ [List.replicate n 0]).set w.heap.length _)[w.heap.length]? = some _ ∧ w.heap.length ≤ w.heap.length ∧ _ < ((w.heap ++ [List.replicate n 0]).set w.heap.length _).length ∧ _
      have := hle got s' hr
      rw [List.set_append_right _ _ (Nat.le_refl _)]
      simp
      omega

theorem sim_getRecord {w : World} {i h} (k : HeaderAt w i h) : SimAt w (Obj.getRecord i) (getRecord h) (FreshRef w) := by
  unfold Obj.getRecord getRecord
  refine SimAt.bind_left k.look (World.Ext.refl w) rfl ?_
  refine (sim_readNew w h.cls.Record.size).bind ?_
  intro w' a b e r
  exact SimAt.pure ⟨⟨rfl, r.1⟩, r.2.1, r.2.2.1⟩

theorem sim_getSStat (Z : Zlib) {w : World} {i h rec r} (k : HeaderAt w i h) (hr : RefAt w rec r) :
    SimAt w (Obj.getSStat Z i rec) (getSStat Z h r) (FreshRef w) := by
  unfold Obj.getSStat getSStat
  refine SimAt.bind_left (ref_inst hr) (World.Ext.refl w) rfl ?_
  refine (SimAt.lift w _).bind ?_
  rintro w1 n _ e1 rfl
  refine (SimAt.file w1 _).bind ?_
  rintro w2 b _ e2 rfl
  refine (SimAt.lift w2 _).bind ?_
  rintro w3 d _ e3 rfl
  have e := (e1.trans e2).trans e3
  refine SimAt.bind_left (k.ext e).look (World.Ext.refl w3) rfl ?_
  refine (sim_copy w3 _ d).mono ?_
  rintro w4 a b e4 ⟨h1, h2, h3⟩
  exact ⟨h1, Nat.le_trans e.len h2, h3⟩

theorem RefAt.inst {w : World} {x y} (h : RefAt w x y) : w.inst x = y := by
  unfold World.inst
  rw [List.getD_eq_getElem?_getD, h.2, h.1]
  rfl

theorem World.Ext.inst {w w' : World} (e : w.Ext w') {x : Ref} (h : x.blk < w.heap.length) : w'.inst x = w.inst x := by
  unfold World.inst
  rw [List.getD_eq_getElem?_getD, List.getD_eq_getElem?_getD, e.get (List.getElem?_eq_getElem h), List.getElem?_eq_getElem h]

/-- New objects behind everything that was there, in the order of their allocation. -/
def FreshRefs (w w' : World) (xs : List Ref) (ys : List Inst) : Prop :=
  xs.map w'.inst = ys ∧ Within w.heap.length w'.heap.length (xs.map Ref.blk)

theorem tstatLoop_rd (t : CType) (d : Bytes) (L : Int) (k j : Nat) : Rd.lift (tstatLoop t d L (k + 1) j) = (do
    let x ← Rd.lift (fromBufferCopy t (pySlice d ((j : Int) * L) (L * ((j : Int) + 1))))
    let xs ← Rd.lift (tstatLoop t d L k (j + 1))
    return x :: xs : Rd (List Inst)) := by
  funext s
  rw [tstatLoop]
  simp only [Rd.bind_eq, Rd.lift_eq]
  cases fromBufferCopy t (pySlice d ((j : Int) * L) (L * ((j : Int) + 1))) with
  | error e => rfl
  | ok x =>
    dsimp only
    cases tstatLoop t d L k (j + 1) <;> rfl

theorem sim_tstatLoop (t : CType) (d : Bytes) (L : Int) : ∀ (k j : Nat) (w : World),
    SimAt w (Obj.tstatLoop t d L k j) (Rd.lift (tstatLoop t d L k j)) (FreshRefs w)
  | 0, j, w => SimAt.pure (b := ([] : List Inst)) ⟨rfl, Within.nil _ _⟩
  | k + 1, j, w => by
    rw [tstatLoop_rd, Obj.tstatLoop]
    refine (sim_copy w t _).bind ?_
    rintro w1 x y e1 ⟨h1, h2, h3⟩
    refine (sim_tstatLoop t d L k (j + 1) w1).bind ?_
    rintro w2 xs ys e2 ⟨i1, i2⟩
    refine SimAt.pure ⟨by rw [List.map_cons, (h1.ext e2).inst, i1], ?_⟩
    exact (Within.single h2 h3).append i2 e1.len e2.len

theorem sim_getTStat (Z : Zlib) {w : World} {i h v rec r} (k : HeaderAt w i h) (hc : h.cache = some v) (hr : RefAt w rec r) :
    SimAt w (Obj.getTStat Z i rec) (getTStat Z h r) (FreshRefs w) := by
  unfold Obj.getTStat getTStat
  refine SimAt.bind_left (ref_inst hr) (World.Ext.refl w) rfl ?_
  refine (SimAt.lift w _).bind ?_
  rintro w1 n _ e1 rfl
  refine (SimAt.file w1 _).bind ?_
  rintro w2 b _ e2 rfl
  refine (SimAt.lift w2 _).bind ?_
  rintro w3 d _ e3 rfl
  have e := (e1.trans e2).trans e3
  refine SimAt.bind_left (ref_inst (hr.ext e)) (World.Ext.refl w3) rfl ?_
  refine (SimAt.lift w3 _).bind ?_
  rintro w4 c _ e4 rfl
  have e := e.trans e4
  refine SimAt.bind_left (k.ext e).look (World.Ext.refl w4) rfl ?_
  refine (SimAt.lift w4 _).bind ?_
  rintro w5 v' _ e5 rfl
  have e := e.trans e5
  refine SimAt.bind_left ((k.ext e).latch hc) (World.Ext.refl w5) rfl ?_
  refine SimAt.bind_left (k.ext e).look (World.Ext.refl w5) rfl ?_
  refine (SimAt.lift w5 _).bind ?_
  rintro w6 L _ e6 rfl
  have e := e.trans e6
  refine (sim_tstatLoop _ d L _ 0 w6).mono ?_
  rintro w7 xs ys e7 ⟨h1, h2⟩
  refine ⟨h1, h2.1, fun b hb => ?_⟩
  have := h2.2 b hb
  have := e.len
  omega

def FreshGroups (w w' : World) (xs : List Obj.Group) (ys : List CGroup) : Prop :=
  xs.map w'.group = ys ∧ Within w.heap.length w'.heap.length (xs.flatMap Obj.Group.blocks)

theorem sim_pidArray (n : Int) (pids : Bytes) (start : Int) (w : World) :
    SimAt w (Obj.pidArray n pids start) (Rd.lift (pidArray n pids start)) (FreshRef w) := by
  unfold Obj.pidArray pidArray
  split
  · exact ⟨World.Ext.refl w, rfl, rfl⟩
  · exact sim_copy w _ _

theorem cstatLoop_rd (t : CType) (d pids : Bytes) (L : Int) (k : Nat) (cs ps : Int) : Rd.lift (cstatLoop t d pids L (k + 1) cs ps) = (do
    let x ← Rd.lift (fromBufferCopy t (pySlice d cs (cs + L)))
    let sl ← Rd.lift (x.genInt py!"structlen")
    let np ← Rd.lift (x.genInt py!"nprocs")
    let p ← Rd.lift (pidArray np pids ps)
    let xs ← Rd.lift (cstatLoop t d pids L k (cs + sl) (ps + (CType.array pid_t np.toNat).size))
    return { cstat := x, proclist := p } :: xs : Rd (List CGroup)) := by
  funext s
  rw [cstatLoop]
  simp only [Rd.bind_eq, Rd.lift_eq]
  cases fromBufferCopy t (pySlice d cs (cs + L)) with
  | error e => rfl
  | ok x =>
    cases hs : x.genInt py!"structlen" with
    | error e => simp only [hs, bind, Except.bind]
    | ok sl =>
      cases hn : x.genInt py!"nprocs" with
      | error e => simp only [hs, hn, bind, Except.bind]
      | ok np =>
        cases hp : pidArray np pids ps with
        | error e => simp only [hs, hn, hp, bind, Except.bind]
        | ok p =>
          cases hl : cstatLoop t d pids L k (cs + sl) (ps + (CType.array pid_t np.toNat).size) with
          | error e => simp only [hs, hn, hp, hl, bind, Except.bind]
          | ok xs => simp only [hs, hn, hp, hl, bind, Except.bind]; rfl

theorem sim_cstatLoop (t : CType) (d pids : Bytes) (L : Int) : ∀ (k : Nat) (cs ps : Int) (w : World),
    SimAt w (Obj.cstatLoop t d pids L k cs ps) (Rd.lift (cstatLoop t d pids L k cs ps)) (FreshGroups w)
  | 0, cs, ps, w => SimAt.pure (b := ([] : List CGroup)) ⟨rfl, Within.nil _ _⟩
  | k + 1, cs, ps, w => by
    rw [cstatLoop_rd, Obj.cstatLoop]
    refine (sim_copy w t _).bind ?_
    rintro w1 x y e1 ⟨h1, h2, h3⟩
    refine SimAt.bind_left (ref_inst h1) (World.Ext.refl w1) rfl ?_
    refine (SimAt.lift w1 _).bind ?_
    rintro w2 sl _ e2 rfl
    refine (SimAt.lift w2 _).bind ?_
    rintro w3 np _ e3 rfl
    refine (sim_pidArray np pids ps w3).bind ?_
    rintro w4 p q e4 ⟨p1, p2, p3⟩
    refine (sim_cstatLoop t d pids L k _ _ w4).bind ?_
    rintro w5 xs ys e5 ⟨i1, i2⟩
    have e24 := (e2.trans e3).trans e4
    refine SimAt.pure ⟨?_, ?_⟩
    · rw [List.map_cons, i1]
      unfold World.group
      rw [(h1.ext (e24.trans e5)).inst, (p1.ext e5).inst]
    · show Within _ _ ([x.blk] ++ ([p.blk] ++ xs.flatMap Obj.Group.blocks))
      have l1 := e1.len
      have l2 := (e2.trans e3).len
      have l4 := e4.len
      have l5 := e5.len
      refine (Within.single h2 h3).append ((Within.single (lo := w1.heap.length) ?_ p3).append i2 ?_ ?_) ?_ ?_ <;> omega

theorem sim_getCStat (Z : Zlib) {w : World} {i h rec r} (k : HeaderAt w i h) (hr : RefAt w rec r) :
    SimAt w (Obj.getCStat Z i rec) (getCStat Z h r) (FreshGroups w) := by
  unfold Obj.getCStat getCStat
  refine SimAt.bind_left (ref_inst hr) (World.Ext.refl w) rfl ?_
  refine (SimAt.lift w _).bind ?_
  rintro w1 n _ e1 rfl
  refine (SimAt.file w1 _).bind ?_
  rintro w2 b _ e2 rfl
  refine (SimAt.lift w2 _).bind ?_
  rintro w3 d _ e3 rfl
  have e := (e1.trans e2).trans e3
  refine SimAt.bind_left (ref_inst (hr.ext e)) (World.Ext.refl w3) rfl ?_
  refine (SimAt.lift w3 _).bind ?_
  rintro w4 m _ e4 rfl
  refine (SimAt.file w4 _).bind ?_
  rintro w5 bp _ e5 rfl
  refine (SimAt.lift w5 _).bind ?_
  rintro w6 pids _ e6 rfl
  have e := ((e.trans e4).trans e5).trans e6
  refine SimAt.bind_left (k.ext e).look (World.Ext.refl w6) rfl ?_
  refine (SimAt.lift w6 _).bind ?_
  rintro w7 L _ e7 rfl
  have e := e.trans e7
  refine SimAt.bind_left (ref_inst (hr.ext e)) (World.Ext.refl w7) rfl ?_
  refine (SimAt.lift w7 _).bind ?_
  rintro w8 c _ e8 rfl
  have e := e.trans e8
  cases h.cls.CStat with
  | none =>
    dsimp only
    split
    · exact SimAt.pure ⟨rfl, Within.nil _ _⟩
    · exact ⟨World.Ext.refl _, rfl, rfl⟩
  | some t =>
    refine (sim_cstatLoop t d pids L _ 0 0 w8).mono ?_
    rintro w9 xs ys e9 ⟨h1, h2⟩
    refine ⟨h1, h2.1, fun b hb => ?_⟩
    have := h2.2 b hb
    have := e.len
    omega

/-- New tuples, and what they show. -/
def FreshTuple (w w' : World) (x : Option Obj.Tuple) (y : Option Sample) : Prop :=
  x.map w'.tuple = y ∧ ∀ t, x = some t → Within w.heap.length w'.heap.length t.blocks

theorem map_inst_ext {w w' : World} (e : w.Ext w') {xs : List Ref} (h : ∀ b ∈ xs.map Ref.blk, b < w.heap.length) :
    xs.map w'.inst = xs.map w.inst :=
  List.map_congr_left fun _ hx => e.inst (h _ (List.mem_map_of_mem hx))

theorem sim_readSample (Z : Zlib) {w : World} {i h v} (k : HeaderAt w i h) {c} (hc : h.cache = some c) :
    SimAt w (Obj.readSample Z i v) (readSample Z h v) (FreshTuple w) := by
  unfold Obj.readSample readSample
  refine (sim_getRecord k).bind ?_
  rintro w1 rec r e1 ⟨r1, r2, r3⟩
  refine SimAt.bind_left (ref_inst r1) (World.Ext.refl w1) rfl ?_
  refine (SimAt.lift w1 _).bind ?_
  rintro w2 n _ e2 rfl
  have e := e1.trans e2
  split
  · exact SimAt.pure ⟨rfl, nofun⟩
  refine (sim_getSStat Z (k.ext e) (r1.ext e2)).bind ?_
  rintro w3 ss s e3 ⟨s1, s2, s3⟩
  have e := e.trans e3
  refine (sim_getTStat Z (k.ext e) hc (r1.ext (e2.trans e3))).bind ?_
  rintro w4 ts ys e4 ⟨t1, t2⟩
  have e := e.trans e4
  have e24 := (e2.trans e3).trans e4
  have fin : ∀ (w5 : World) (gs : List Obj.Group) (zs : List CGroup), w4.Ext w5 → FreshGroups w4 w5 gs zs →
      FreshTuple w w5 (some ⟨rec, ss, ts, gs⟩) (some ⟨r, s, ys, zs⟩) := by
    rintro w5 gs zs e5 ⟨g1, g2⟩
    refine ⟨?_, ?_⟩
    · show some (World.tuple w5 _) = _
      unfold World.tuple
      dsimp only
      rw [(r1.ext (e24.trans e5)).inst, (s1.ext (e4.trans e5)).inst, g1, map_inst_ext e5 (fun b hb => (t2.2 b hb).2), t1]
    · rintro t ht
      cases ht
      show Within _ _ ([rec.blk] ++ ([ss.blk] ++ (ts.map Ref.blk ++ gs.flatMap Obj.Group.blocks)))
      have l1 := e1.len
      have l2 := e2.len
      have l3 := e3.len
      have l4 := e4.len
      have l5 := e5.len
      refine (Within.single r2 r3).append ((Within.single (lo := w1.heap.length) ?_ s3).append (t2.append g2 ?_ ?_) ?_ ?_) ?_ ?_ <;> omega
  split
  · refine (sim_getCStat Z (k.ext e) (r1.ext e24)).bind ?_
    rintro w5 gs zs e5 g
    exact SimAt.pure (fin w5 gs zs e5 g)
  · exact SimAt.pure (fin w4 [] [] (World.Ext.refl w4) ⟨rfl, Within.nil _ _⟩)

/-- `j` is a new header object over new memory, holding `h`. -/
def FreshHeader (w w' : World) (j : Nat) (h : Header) : Prop :=
  HeaderAt w' j h ∧ ∃ o, w'.headers[j]? = some o ∧ w.heap.length ≤ o.blk

theorem latch_any {w : World} {i h} (k : HeaderAt w i h) : ∃ w', M.latch i w = (.ok (), w') ∧ HeaderAt w' i h.latched ∧
    w'.heap = w.heap ∧ w'.file = w.file ∧ (∀ o, w.headers[i]? = some o → ∃ o', w'.headers[i]? = some o' ∧ o'.blk = o.blk) ∧
    ∀ hs, hs <+: w.headers → hs.length ≤ i → hs <+: w'.headers := by
  unfold M.latch
  rw [k.header]
  obtain ⟨o, b, h1, h2, h3, h4, h5⟩ := k
  rw [h1]
  have hi : i < w.headers.length := (List.getElem?_eq_some_iff.mp h1).1
  have hl : h.latched.cls = h.cls ∧ h.latched.buf = h.buf := by
    unfold Header.latched
    split <;> exact ⟨rfl, rfl⟩
  refine ⟨_, rfl, ⟨{ o with cache := h.latched.cache }, b, ?_, by rw [hl.1]; exact h2, rfl, h4, by rw [hl.2]; exact h5⟩, rfl, rfl, ?_, ?_⟩
  · show (w.headers.set i _)[i]? = _
    rw [List.getElem?_set_self hi]
  · rintro o' ho
    cases ho
    refine ⟨{ o with cache := h.latched.cache }, ?_, rfl⟩
    show (w.headers.set i _)[i]? = _
    rw [List.getElem?_set_self hi]
  · rintro hs ⟨t, ht⟩ hle
    show hs <+: w.headers.set i _
    rw [← ht, List.set_append_right _ _ hle]
    exact List.prefix_append _ _

theorem newHeader_at (w : World) (c : HeaderClass) (blk : Nat) {b : Bytes} (hb : w.heap[blk]? = some b) :
    M.newHeader ⟨c, blk, none⟩ w = (.ok w.headers.length, { w with headers := w.headers ++ [⟨c, blk, none⟩] }) ∧
    HeaderAt { w with headers := w.headers ++ [⟨c, blk, none⟩] } w.headers.length ⟨c, b.take c.size, none⟩ :=
  ⟨rfl, ⟨c, blk, none⟩, b, by simp, rfl, rfl, hb, rfl⟩

/-- As `SimAt`, the world having been `base` some steps ago. -/
def SimB {α β : Type} (base w : World) (m : M α) (rd : Rd β) (rel : World → α → β → Prop) : Prop :=
  base.Ext (m w).2 ∧ (m w).2.file = (rd w.file).2 ∧
  match (m w).1, (rd w.file).1 with
  | .ok a, .ok b => rel (m w).2 a b
  | .error e, .error e' => e = e'
  | _, _ => False

theorem SimB.lift {α γ δ : Type} {base w : World} (e : base.Ext w) {x : Except Exc α} {k : α → M γ} {l : α → Rd δ}
    {rel : World → γ → δ → Prop} (h : ∀ a, x = .ok a → SimB base w (k a) (l a) rel) :
    SimB base w (M.lift x >>= k) (Rd.lift x >>= l) rel := by
  cases x with
  | error e' => exact ⟨e, rfl, rfl⟩
  | ok a => exact h a rfl

theorem SimB.left {α γ δ : Type} {base w w' : World} {m : M α} {a : α} {k : α → M γ} {rd : Rd δ} {rel : World → γ → δ → Prop}
    (h : m w = (.ok a, w')) (hf : w'.file = w.file) (hk : SimB base w' (k a) rd rel) : SimB base w (m >>= k) rd rel := by
  obtain ⟨k1, k2, k3⟩ := hk
  unfold SimB
  rw [M.bind_eq, h]
  dsimp only
  rw [hf] at k2 k3
  exact ⟨k1, k2, k3⟩

theorem SimB.right {β γ δ : Type} {base w : World} {m : M γ} {b : β} {l : β → Rd δ} {rel : World → γ → δ → Prop}
    (hk : SimB base w m (l b) rel) : SimB base w m (Rd.lift (.ok b) >>= l) rel := hk

/-- From line 159 on: the check, and the result. -/
theorem sim_check {base w : World} {lo j : Nat} {h : Header} (e : base.Ext w) (k : HeaderAt w j h)
    (hl : base.headers.length ≤ j) (ho : ∃ o, w.headers[j]? = some o ∧ lo ≤ o.blk) (check : Bool) :
    SimB base w (if check then (do
        let h ← M.header j
        M.latch j
        M.lift h.checkCompatibility
        pure j) else pure j) (if check then (do
        Rd.lift h.checkCompatibility
        pure h.latched) else pure h) (fun w' j h => HeaderAt w' j h ∧ ∃ o, w'.headers[j]? = some o ∧ lo ≤ o.blk) := by
  cases check with
  | false => exact ⟨e, rfl, k, ho⟩
  | true =>
    rw [if_pos rfl, if_pos rfl]
    refine SimB.left k.look rfl ?_
    obtain ⟨w', h1, h2, h3, h4, h5, h6⟩ := latch_any k
    refine SimB.left h1 h4 ?_
    refine SimB.lift ⟨by rw [h3]; exact e.1, h6 _ e.2 hl⟩ ?_
    intro u hu
    obtain ⟨o, ho1, ho2⟩ := ho
    obtain ⟨o', ho', hb⟩ := h5 o ho1
    exact ⟨⟨by rw [M.pure_eq, h3]; exact e.1, h6 _ e.2 hl⟩, rfl, h2, o', ho', by rw [hb]; exact ho2⟩

theorem readHeader_eq (c : HeaderClass) (w : World) : M.readHeader c w = match M.readNew c.size w with
    | (.ok blk, w1) => (.ok (blk, w1.headers.length), { w1 with headers := w1.headers ++ [⟨c, blk, none⟩] })
    | (.error e, w1) => (.error e, { w1 with headers := w1.headers ++ [⟨c, w.heap.length, none⟩] }) := by
  unfold M.readHeader M.readNew M.readinto
  simp only [M.bind_eq]
  unfold M.alloc M.newHeader M.load M.file M.store
  dsimp only
  cases (Stream.read _ w.file).1 <;> rfl

/-- A new header read from the file, and what is done with it. -/
theorem readHeader_bind {α : Type} (c : HeaderClass) (k : Nat × Nat → M α) (w : World) :
    (M.readHeader c >>= k) w = match M.readNew c.size w with
    | (.ok blk, w1) => (M.newHeader ⟨c, blk, none⟩ >>= fun i => k (blk, i)) w1
    | (.error e, w1) => (.error e, { w1 with headers := w1.headers ++ [⟨c, w.heap.length, none⟩] }) := by
  rw [M.bind_eq, readHeader_eq]
  rcases M.readNew c.size w with ⟨e | blk, w1⟩ <;> rfl

theorem SimAt.readHeader {β γ : Type} {w : World} {c : HeaderClass} {k : Nat × Nat → M β} {l : Bytes → Rd γ} {rel : World → β → γ → Prop}
    (hk : ∀ w1 blk b, w.Ext w1 → (w1.heap[blk]? = some b ∧ w.heap.length ≤ blk ∧ blk < w1.heap.length ∧ b.length = c.size) →
      SimAt w1 (M.newHeader ⟨c, blk, none⟩ >>= fun i => k (blk, i)) (l b) rel) :
    SimAt w (M.readHeader c >>= k) (Stream.readinto c.size >>= l) rel := by
  obtain ⟨h1, h2, h3⟩ := sim_readNew w c.size
  unfold SimAt
  rw [readHeader_bind, Rd.bind_eq]
  rcases hm : M.readNew c.size w with ⟨e | a, w'⟩ <;> rcases hr : Stream.readinto c.size w.file with ⟨e' | b, s'⟩ <;>
    rw [hm] at h1 h2 h3 <;> rw [hr] at h2 h3 <;> dsimp only at h1 h2 h3 ⊢
  · exact ⟨⟨h1.1, h1.2.trans (List.prefix_append _ _)⟩, h2, h3⟩
  · obtain ⟨k1, k2, k3⟩ := hk w' a b h1 h3
    subst h2
    exact ⟨h1.trans k1, k2, k3⟩

theorem sim_getHeader (w : World) (check : Bool) : SimAt w (Obj.getHeader check) (getHeader check) (FreshHeader w) := by
  unfold Obj.getHeader getHeader
  refine SimAt.readHeader ?_
  rintro w1 blk buf e1 ⟨b1, b2, b3, b4⟩
  dsimp only
  show SimB w1 w1 _ _ _
  obtain ⟨n1, k1⟩ := newHeader_at w1 defaultHeader blk b1
  rw [← b4, List.take_length] at k1
  generalize hw2 : ({ w1 with headers := w1.headers ++ [⟨defaultHeader, blk, none⟩] } : World) = w2 at n1 k1
  have e2 : w1.Ext w2 := by subst hw2; exact ⟨List.prefix_rfl, List.prefix_append _ _⟩
  have o2 : w2.headers[w1.headers.length]? = some ⟨defaultHeader, blk, none⟩ := by subst hw2; simp
  refine SimB.left n1 (by subst hw2; rfl) ?_
  refine SimB.left k1.look rfl ?_
  refine SimB.lift e2 ?_
  intro magic hm
  split
  · exact ⟨e2, rfl, rfl⟩
  refine SimB.lift e2 ?_
  intro v hv
  obtain ⟨w3, l1, l2, l3, l4, l5, l6⟩ := latch_any k1
  refine SimB.left l1 l4 ?_
  obtain ⟨o3, ho3, hb3⟩ := l5 _ o2
  have e3 : w1.Ext w3 := ⟨by rw [l3]; exact e2.1, l6 _ e2.2 (Nat.le_refl _)⟩
  have hbuf : (Header.latched ⟨defaultHeader, buf, none⟩).buf = buf := by
    unfold Header.latched
    split <;> rfl
  dsimp only
  unfold reviewHeader
  split
  · cases headerByVersion v with
    | none =>
      refine SimB.left rfl rfl (SimB.right ?_)
      exact sim_check e3 l2 (Nat.le_refl _) ⟨o3, ho3, by rw [hb3]; exact b2⟩ check
    | some c =>
      dsimp only
      rw [hbuf]
      split
      · exact ⟨e3, rfl, rfl⟩
      · have b1' : w3.heap[blk]? = some buf := by rw [l3]; exact e2.get b1
        obtain ⟨n4, k4⟩ := newHeader_at w3 c blk b1'
        generalize hw4 : ({ w3 with headers := w3.headers ++ [⟨c, blk, none⟩] } : World) = w4 at n4 k4
        have e4 : w1.Ext w4 := by subst hw4; exact ⟨e3.1, e3.2.trans (List.prefix_append _ _)⟩
        have o4 : w4.headers[w3.headers.length]? = some ⟨c, blk, none⟩ := by subst hw4; simp
        have f4 : w4.file = w3.file := by subst hw4; rfl
        refine SimB.left n4 f4 (SimB.right ?_)
        exact sim_check e4 k4 e3.2.length_le ⟨_, o4, b2⟩ check
  · refine SimB.left rfl rfl (SimB.right ?_)
    exact sim_check e3 l2 (Nat.le_refl _) ⟨o3, ho3, by rw [hb3]; exact b2⟩ check

end Atop
