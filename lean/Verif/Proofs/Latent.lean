import Verif.Proofs.ObjectHistory
/-!
# Evaluating the version of a header early

A header object whose version was never evaluated behaves, in every step, like the same object with the version already
evaluated - as long as nobody writes to the two bytes of the version number in between.
-/

namespace Atop
open Spec

/-- Two header objects over the same memory; the first one's version may not have been evaluated yet. -/
structure HPair (heap : List Bytes) (o o' : HObj) : Prop where
  cls : o.cls = o'.cls
  blk : o.blk = o'.blk
  cache : o.cache = o'.cache ∨ (o.cache = none ∧ o.blk < heap.length ∧
    ∃ c, Header.version ⟨o.cls, (heap.getD o.blk []).take o.cls.size, none⟩ = .ok c ∧ o'.cache = some c)

/-- Two worlds that differ only in evaluated versions of headers. -/
structure Lat (w w' : World) : Prop where
  heap : w.heap = w'.heap
  file : w.file = w'.file
  len : w.headers.length = w'.headers.length
  objs : ∀ (i : Nat) (o o' : HObj), w.headers[i]? = some o → w'.headers[i]? = some o' → HPair w.heap o o'

theorem HPair.refl (heap : List Bytes) (o : HObj) : HPair heap o o := ⟨rfl, rfl, .inl rfl⟩

theorem HPair.grow {heap heap' : List Bytes} {o o' : HObj} (P : HPair heap o o') (h : heap <+: heap') : HPair heap' o o' := by
  refine ⟨P.cls, P.blk, ?_⟩
  rcases P.cache with e | ⟨c1, c2, c, c4, c5⟩
  · exact .inl e
  · refine .inr ⟨c1, Nat.lt_of_lt_of_le c2 h.length_le, c, ?_, c5⟩
    obtain ⟨t, rfl⟩ := h
    rw [List.getD_eq_getElem?_getD, List.getElem?_append_left c2, ← List.getD_eq_getElem?_getD]
    exact c4

/-- Results agree up to `R`. -/
def RelE {α : Type} (R : α → α → Prop) : Except Exc α → Except Exc α → Prop
  | .ok a, .ok a' => R a a'
  | .error e, .error e' => e = e'
  | _, _ => False

/-- The two computations agree on two such worlds. -/
def SameL {α : Type} (R : α → α → Prop) (m m' : M α) : Prop :=
  ∀ w w', Lat w w' → RelE R (m w).1 (m' w').1 ∧ Lat (m w).2 (m' w').2

theorem SameL.bind {α β : Type} {R R'} {m m' : M α} {k k' : α → M β} (h : SameL R m m')
    (hk : ∀ a a', R a a' → SameL R' (k a) (k' a')) : SameL R' (m >>= k) (m' >>= k') := by
  intro w w' L
  obtain ⟨h1, h2⟩ := h w w' L
  rw [M.bind_eq, M.bind_eq]
  rcases hm : m w with ⟨e | a, w1⟩ <;> rcases hm' : m' w' with ⟨e' | a', w1'⟩ <;> rw [hm, hm'] at h1 h2 <;> dsimp only at h1 h2 ⊢
  · exact ⟨h1, h2⟩
  · exact h1.elim
  · exact h1.elim
  · exact hk a a' h1 w1 w1' h2

theorem RelE.refl {α : Type} (x : Except Exc α) : RelE Eq x x := by cases x <;> rfl

/-- Nothing to do with header objects: only looks at and adds to the memory and the file. -/
def Plain {α : Type} (m : M α) : Prop :=
  ∀ (hp : List Bytes) (f : Stream), ∃ x h f', hp <+: h ∧ ∀ hs, m ⟨hp, hs, f⟩ = (x, ⟨h, hs, f'⟩)

theorem Plain.bind {α β : Type} {m : M α} {k : α → M β} (h : Plain m) (hk : ∀ a, Plain (k a)) : Plain (m >>= k) := by
  intro hp f
  obtain ⟨x, h1, f1, p1, e1⟩ := h hp f
  cases x with
  | error e => exact ⟨.error e, h1, f1, p1, fun hs => by rw [M.bind_eq, e1]⟩
  | ok a =>
    obtain ⟨y, h2, f2, p2, e2⟩ := hk a h1 f1
    exact ⟨y, h2, f2, p1.trans p2, fun hs => by rw [M.bind_eq, e1]; exact e2 hs⟩

theorem Plain.pure {α : Type} (a : α) : Plain (Pure.pure a : M α) := fun hp f => ⟨_, hp, f, List.prefix_rfl, fun _ => rfl⟩
theorem Plain.lift {α : Type} (x : Except Exc α) : Plain (M.lift x) := fun hp f => ⟨_, hp, f, List.prefix_rfl, fun _ => rfl⟩
theorem Plain.file {α : Type} (r : Rd α) : Plain (M.file r) := fun hp f => ⟨(r f).1, hp, (r f).2, List.prefix_rfl, fun _ => rfl⟩
theorem Plain.alloc (b : Bytes) : Plain (M.alloc b) := fun hp f => ⟨.ok hp.length, hp ++ [b], f, List.prefix_append _ _, fun _ => rfl⟩
theorem Plain.load (b : Nat) : Plain (M.load b) := fun hp f => ⟨.ok (hp.getD b []), hp, f, List.prefix_rfl, fun _ => rfl⟩
theorem Plain.inst (x : Ref) : Plain x.inst := (Plain.load _).bind fun _ => Plain.pure _
theorem Plain.copy (t : CType) (d : Bytes) : Plain (M.copy t d) :=
  (Plain.lift _).bind fun _ => (Plain.alloc _).bind fun _ => Plain.pure _

theorem Plain.readNew (n : Nat) : Plain (M.readNew n) := by
  intro hp f
  unfold M.readNew M.readinto
  simp only [M.bind_eq]
  unfold M.alloc M.load M.file M.store
  dsimp only
  rcases hr : Stream.read ((hp ++ [List.replicate n 0]).getD hp.length []).length f with ⟨e | b, f'⟩
  · exact ⟨.error e, hp ++ [List.replicate n 0], f', List.prefix_append _ _, fun hs => by rw [hr]⟩
  · refine ⟨.ok hp.length, (hp ++ [List.replicate n 0]).set hp.length (b ++ List.drop b.length ((hp ++ [List.replicate n 0]).getD hp.length [])), f', ?_, fun hs => by rw [hr]; rfl⟩
    rw [List.set_append_right _ _ (Nat.le_refl _)]
    exact List.prefix_append _ _

theorem Plain.tstatLoop (t : CType) (d : Bytes) (L : Int) : ∀ (k i : Nat), Plain (Obj.tstatLoop t d L k i)
  | 0, _ => Plain.pure _
  | k + 1, i => by
    rw [Obj.tstatLoop]
    exact (Plain.copy _ _).bind fun _ => (Plain.tstatLoop t d L k _).bind fun _ => Plain.pure _

theorem Plain.pidArray (n : Int) (d : Bytes) (s : Int) : Plain (Obj.pidArray n d s) := by
  unfold Obj.pidArray
  split
  · exact Plain.lift _
  · exact Plain.copy _ _

theorem Plain.cstatLoop (t : CType) (d p : Bytes) (L : Int) : ∀ (k : Nat) (a b : Int), Plain (Obj.cstatLoop t d p L k a b)
  | 0, _, _ => Plain.pure _
  | k + 1, a, b => by
    rw [Obj.cstatLoop]
    exact (Plain.copy _ _).bind fun _ => (Plain.inst _).bind fun _ => (Plain.lift _).bind fun _ => (Plain.lift _).bind fun _ =>
      (Plain.pidArray _ _ _).bind fun _ => (Plain.cstatLoop t d p L k _ _).bind fun _ => Plain.pure _

theorem Plain.same {α : Type} {m : M α} (h : Plain m) : SameL Eq m m := by
  rintro ⟨hp, hs, f⟩ ⟨hp', hs', f'⟩ ⟨e1, e2, e3, e4⟩
  dsimp only at e1 e2 e3 e4
  subst e1 e2
  obtain ⟨x, h1, f1, p, k⟩ := h hp f
  rw [k hs, k hs']
  exact ⟨RelE.refl x, rfl, rfl, e3, fun i o o' ho ho' => (e4 i o o' ho ho').grow p⟩

/-- Two views of a header that no step can tell apart. -/
def HView (h h' : Header) : Prop := h.cls = h'.cls ∧ h.buf = h'.buf ∧ h.version = h'.version

theorem Lat.view {w w'} (L : Lat w w') (i : Nat) :
    (w.header i = none ∧ w'.header i = none ∧ w.headers[i]? = none ∧ w'.headers[i]? = none) ∨
    ∃ o o' h h', w.headers[i]? = some o ∧ w'.headers[i]? = some o' ∧ w.header i = some h ∧ w'.header i = some h' ∧ HView h h' ∧
      h.cache = o.cache ∧ h'.cache = o'.cache := by
  unfold World.header
  cases ho : w.headers[i]? with
  | none =>
    have : w'.headers[i]? = none := by rw [List.getElem?_eq_none_iff] at ho ⊢; rw [← L.len]; exact ho
    rw [this]
    exact .inl ⟨rfl, rfl, rfl, rfl⟩
  | some o =>
    have hi := (List.getElem?_eq_some_iff.mp ho).1
    have ho' : w'.headers[i]? = some (w'.headers[i]'(L.len ▸ hi)) := List.getElem?_eq_getElem _
    generalize w'.headers[i]'(L.len ▸ hi) = o' at ho'
    rw [ho']
    obtain ⟨p1, p2, p3⟩ := L.objs i o o' ho ho'
    refine .inr ⟨o, o', _, _, rfl, rfl, rfl, rfl, ⟨p1, by dsimp only; rw [p1, p2, L.heap], ?_⟩, rfl, rfl⟩
    rw [← p1, ← p2, ← L.heap]
    rcases p3 with e | ⟨c1, -, c, c4, c5⟩
    · rw [e]
    · rw [c1, c5, c4]; rfl

theorem SameL.header (i : Nat) : SameL HView (M.header i) (M.header i) := by
  intro w w' L
  unfold M.header
  rcases L.view i with ⟨h1, h2, -, -⟩ | ⟨o, o', h, h', -, -, h1, h2, V, -, -⟩ <;> rw [h1, h2]
  · exact ⟨rfl, L⟩
  · exact ⟨V, L⟩

theorem latched_cache {h h' : Header} (V : HView h h') : h.latched.cache = h'.latched.cache := by
  obtain ⟨-, -, hv⟩ := V
  unfold Header.latched
  rw [hv]
  cases hq : h'.version with
  | ok v => rfl
  | error e =>
    rw [hq] at hv
    have none_of : ∀ {x : Header}, x.version = .error e → x.cache = none := by
      intro x hx
      unfold Header.version at hx
      split at hx
      · cases hx
      · assumption
    dsimp only
    rw [none_of hv, none_of hq]

theorem SameL.latch (i : Nat) : SameL Eq (M.latch i) (M.latch i) := by
  intro w w' L
  unfold M.latch
  rcases L.view i with ⟨h1, h2, h3, h4⟩ | ⟨o, o', h, h', h3, h4, h1, h2, V, -, -⟩ <;> rw [h1, h2, h3, h4]
  · exact ⟨rfl, L⟩
  · have P := L.objs i o o' h3 h4
    refine ⟨rfl, L.heap, L.file, by simp [L.len], fun j x x' hx hx' => ?_⟩
    dsimp only at hx hx'
    by_cases hj : i = j
    · subst hj
      rw [List.getElem?_set_self (List.getElem?_eq_some_iff.mp h3).1] at hx
      rw [List.getElem?_set_self (List.getElem?_eq_some_iff.mp h4).1] at hx'
      cases hx
      cases hx'
      exact ⟨P.cls, P.blk, .inl (latched_cache V)⟩
    · rw [List.getElem?_set_ne hj] at hx hx'
      exact L.objs j x x' hx hx'

theorem Lat.push {w w'} (L : Lat w w') (o : HObj) :
    Lat { w with headers := w.headers ++ [o] } { w' with headers := w'.headers ++ [o] } := by
  refine ⟨L.heap, L.file, by simp [L.len], fun j x x' hx hx' => ?_⟩
  dsimp only at hx hx'
  rcases Nat.lt_trichotomy j w.headers.length with hj | hj | hj
  · rw [List.getElem?_append_left hj] at hx
    rw [List.getElem?_append_left (by rw [← L.len]; exact hj)] at hx'
    exact L.objs j x x' hx hx'
  · rw [hj, List.getElem?_concat_length] at hx
    rw [hj, L.len, List.getElem?_concat_length] at hx'
    cases hx
    cases hx'
    exact HPair.refl _ _
  · rw [List.getElem?_eq_none (by simp; omega)] at hx
    cases hx

theorem SameL.newHeader (o : HObj) : SameL Eq (M.newHeader o) (M.newHeader o) := by
  intro w w' L
  exact ⟨L.len, L.push o⟩

theorem SameL.readHeader (c : HeaderClass) : SameL Eq (M.readHeader c) (M.readHeader c) := by
  intro w w' L
  rw [readHeader_eq, readHeader_eq]
  obtain ⟨h1, h2⟩ := (Plain.readNew c.size).same w w' L
  rcases hm : M.readNew c.size w with ⟨e | b, w1⟩ <;> rcases hm' : M.readNew c.size w' with ⟨e' | b', w1'⟩ <;>
    rw [hm, hm'] at h1 h2 <;> dsimp only at h1 h2 ⊢
  · exact ⟨h1, by rw [← L.heap]; exact h2.push _⟩
  · exact h1.elim
  · exact h1.elim
  · cases h1
    exact ⟨by rw [h2.len]; exact rfl, h2.push _⟩

theorem SameL.lift {α : Type} {x x' : Except Exc α} (h : x = x') : SameL Eq (M.lift x) (M.lift x') := by
  subst h
  exact (Plain.lift _).same

theorem SameL.getRecord (i : Nat) : SameL Eq (Obj.getRecord i) (Obj.getRecord i) := by
  unfold Obj.getRecord
  refine (SameL.header i).bind fun h h' V => ?_
  rw [V.1]
  exact ((Plain.readNew _).bind fun _ => Plain.pure _).same

theorem HView.inst {h h' : Header} (V : HView h h') : h.inst = h'.inst := by
  unfold Header.inst
  rw [V.1, V.2.1]

theorem SameL.getSStat (Z : Zlib) (i : Nat) (r : Ref) : SameL Eq (Obj.getSStat Z i r) (Obj.getSStat Z i r) := by
  unfold Obj.getSStat
  refine ((Plain.inst _).same).bind ?_
  rintro x _ rfl
  refine ((Plain.lift _).same).bind ?_
  rintro n _ rfl
  refine ((Plain.file _).same).bind ?_
  rintro b _ rfl
  refine ((Plain.lift _).same).bind ?_
  rintro d _ rfl
  refine (SameL.header i).bind fun h h' V => ?_
  rw [V.1]
  exact (Plain.copy _ _).same

theorem SameL.getTStat (Z : Zlib) (i : Nat) (r : Ref) : SameL Eq (Obj.getTStat Z i r) (Obj.getTStat Z i r) := by
  unfold Obj.getTStat
  refine ((Plain.inst _).same).bind ?_
  rintro x _ rfl
  refine ((Plain.lift _).same).bind ?_
  rintro n _ rfl
  refine ((Plain.file _).same).bind ?_
  rintro b _ rfl
  refine ((Plain.lift _).same).bind ?_
  rintro d _ rfl
  refine ((Plain.inst _).same).bind ?_
  rintro x _ rfl
  refine ((Plain.lift _).same).bind ?_
  rintro c _ rfl
  refine (SameL.header i).bind fun h h' V => ?_
  refine (SameL.lift V.2.2).bind ?_
  rintro v _ rfl
  refine (SameL.latch i).bind ?_
  rintro _ _ -
  refine (SameL.header i).bind fun h h' V => ?_
  rw [V.inst, V.1]
  exact ((Plain.lift _).bind fun _ => Plain.tstatLoop _ _ _ _ _).same

theorem SameL.getCStat (Z : Zlib) (i : Nat) (r : Ref) : SameL Eq (Obj.getCStat Z i r) (Obj.getCStat Z i r) := by
  unfold Obj.getCStat
  refine ((Plain.inst _).same).bind ?_
  rintro x _ rfl
  refine ((Plain.lift _).same).bind ?_
  rintro n _ rfl
  refine ((Plain.file _).same).bind ?_
  rintro b _ rfl
  refine ((Plain.lift _).same).bind ?_
  rintro d _ rfl
  refine ((Plain.inst _).same).bind ?_
  rintro x _ rfl
  refine ((Plain.lift _).same).bind ?_
  rintro m _ rfl
  refine ((Plain.file _).same).bind ?_
  rintro bp _ rfl
  refine ((Plain.lift _).same).bind ?_
  rintro pids _ rfl
  refine (SameL.header i).bind fun h h' V => ?_
  rw [V.inst, V.1]
  refine Plain.same ((Plain.lift _).bind fun _ => (Plain.inst _).bind fun _ => (Plain.lift _).bind fun c => ?_)
  cases h'.cls.CStat with
  | some t => exact Plain.cstatLoop _ _ _ _ _ _ _
  | none =>
    dsimp only
    split
    · exact Plain.pure _
    · exact Plain.lift _

theorem SameL.readSample (Z : Zlib) (i : Nat) (v : Nat × Nat) : SameL Eq (Obj.readSample Z i v) (Obj.readSample Z i v) := by
  unfold Obj.readSample
  refine (SameL.getRecord i).bind ?_
  rintro r _ rfl
  refine ((Plain.inst _).same).bind ?_
  rintro x _ rfl
  refine ((Plain.lift _).same).bind ?_
  rintro n _ rfl
  split
  · exact (Plain.pure _).same
  refine (SameL.getSStat Z i r).bind ?_
  rintro s _ rfl
  refine (SameL.getTStat Z i r).bind ?_
  rintro t _ rfl
  split
  · refine (SameL.getCStat Z i r).bind ?_
    rintro c _ rfl
    exact (Plain.pure _).same
  · exact ((Plain.pure _).bind fun _ => Plain.pure _).same

theorem HView.check {h h' : Header} (V : HView h h') : h.checkCompatibility = h'.checkCompatibility := by
  unfold Header.checkCompatibility Header.sizeChecks
  rw [V.inst, V.1, V.2.2]

theorem SameL.parsedVersion (i : Nat) : SameL Eq (Obj.parsedVersion i) (Obj.parsedVersion i) := by
  unfold Obj.parsedVersion
  refine (SameL.header i).bind fun h h' V => ?_
  refine (SameL.lift (by unfold Atop.parsedVersion Header.semanticVersion; rw [V.2.2])).bind ?_
  rintro v _ rfl
  refine (SameL.latch i).bind ?_
  rintro _ _ -
  exact (Plain.pure _).same

theorem SameL.getHeader (check : Bool) : SameL Eq (Obj.getHeader check) (Obj.getHeader check) := by
  unfold Obj.getHeader
  refine (SameL.readHeader _).bind ?_
  rintro ⟨blk, i⟩ _ rfl
  dsimp only
  refine (SameL.header i).bind fun h h' V => ?_
  refine (SameL.lift (by rw [V.inst])).bind ?_
  rintro magic _ rfl
  split
  · exact (Plain.lift _).same
  refine (SameL.lift (by unfold Header.semanticVersion; rw [V.2.2])).bind ?_
  rintro v _ rfl
  refine (SameL.latch i).bind ?_
  rintro _ _ -
  have tail : ∀ j, SameL Eq (if check then (do
        let h ← M.header j
        M.latch j
        M.lift h.checkCompatibility
        pure j) else pure j) (if check then (do
        let h ← M.header j
        M.latch j
        M.lift h.checkCompatibility
        pure j) else pure j) := by
    intro j
    split
    · refine (SameL.header j).bind fun g g' V => ?_
      refine (SameL.latch j).bind ?_
      rintro _ _ -
      refine (SameL.lift V.check).bind ?_
      rintro _ _ -
      exact (Plain.pure _).same
    · exact (Plain.pure _).same
  split
  · cases headerByVersion v with
    | none =>
      refine ((Plain.pure _).same).bind ?_
      rintro j _ rfl
      exact tail j
    | some c =>
      dsimp only
      rw [V.2.1]
      split
      · refine ((Plain.lift _).same).bind ?_
        rintro j _ rfl
        exact tail j
      · refine (SameL.newHeader _).bind ?_
        rintro j _ rfl
        exact tail j
  · refine ((Plain.pure _).same).bind ?_
    rintro j _ rfl
    exact tail j

/-! ## Steps and histories -/

def SameStep (x x' : Obj.Out × Obj.Gen × World) : Prop := x.1 = x'.1 ∧ x.2.1 = x'.2.1 ∧ Lat x.2.2 x'.2.2

theorem resume_lat {w w'} (L : Lat w w') (Z : Zlib) (rot : Bool) (i : Nat) (v : Nat × Nat) (n : Nat) :
    SameStep (Obj.resumeLoop Z rot i v n w) (Obj.resumeLoop Z rot i v n w') := by
  cases n with
  | zero => exact ⟨rfl, rfl, L⟩
  | succ n =>
    obtain ⟨h1, h2⟩ := SameL.readSample Z i v w w' L
    unfold Obj.resumeLoop
    dsimp only
    rcases hm : Obj.readSample Z i v w with ⟨e | x, w1⟩ <;> rcases hm' : Obj.readSample Z i v w' with ⟨e' | x', w1'⟩ <;>
      rw [hm, hm'] at h1 h2 <;> dsimp only at h1 h2 ⊢
    · cases h1; exact ⟨rfl, rfl, h2⟩
    · exact h1.elim
    · exact h1.elim
    · cases h1
      cases x <;> exact ⟨rfl, rfl, h2⟩

theorem enter_lat {w w'} (L : Lat w w') (Z : Zlib) (rot : Bool) (i : Nat) (max : Int) :
    SameStep (Obj.enterTry Z rot i max w) (Obj.enterTry Z rot i max w') := by
  obtain ⟨h1, h2⟩ := SameL.parsedVersion i w w' L
  unfold Obj.enterTry
  rcases hm : Obj.parsedVersion i w with ⟨e | x, w1⟩ <;> rcases hm' : Obj.parsedVersion i w' with ⟨e' | x', w1'⟩ <;>
    rw [hm, hm'] at h1 h2 <;> dsimp only at h1 h2 ⊢
  · cases h1; exact ⟨rfl, rfl, h2⟩
  · exact h1.elim
  · exact h1.elim
  · cases h1
    exact resume_lat h2 Z rot i _ _

theorem use_lat {w w'} (L : Lat w w') (Z : Zlib) (rot : Bool) (op : Op) (g : Obj.Gen) :
    SameStep (g.use Z rot op w) (g.use Z rot op w') := by
  cases op with
  | throw e => exact ⟨rfl, rfl, L⟩
  | close => exact ⟨rfl, rfl, L⟩
  | next =>
    show SameStep (g.next Z rot w) (g.next Z rot w')
    unfold Obj.Gen.next
    match g with
    | .done => exact ⟨rfl, rfl, L⟩
    | .loop i v n => exact resume_lat L Z rot i v n
    | .start (some i) max => exact enter_lat L Z rot i max
    | .start none max =>
      obtain ⟨h1, h2⟩ := SameL.getHeader true w w' L
      dsimp only
      rcases hm : Obj.getHeader true w with ⟨e | x, w1⟩ <;> rcases hm' : Obj.getHeader true w' with ⟨e' | x', w1'⟩ <;>
        rw [hm, hm'] at h1 h2 <;> dsimp only at h1 h2 ⊢
      · cases h1; exact ⟨rfl, rfl, h2⟩
      · exact h1.elim
      · exact h1.elim
      · cases h1
        exact enter_lat h2 Z rot _ _

theorem u8_poke {b bytes : Bytes} {off i : Nat} (hl : off + bytes.length ≤ b.length) (h : off + bytes.length ≤ i ∨ i < off) :
    u8 (b.take off ++ bytes ++ b.drop (off + bytes.length)) i = u8 b i := by
  unfold u8
  rw [List.getD_eq_getElem?_getD, List.getD_eq_getElem?_getD]
  congr 2
  rcases h with hj | hj
  · rw [List.getElem?_append_right (by simp; omega), List.getElem?_drop]
    congr 1
    simp
    omega
  · rw [List.append_assoc, List.getElem?_append_left (by simp; omega), List.getElem?_take_of_lt (by omega)]

/-! ## Headers as the caller holds them -/

/-- The header object `i` shows the header `h0` - its class, its version (evaluated or not) and its recorded lengths. -/
def HSees (w : World) (i : Nat) (h0 : Header) : Prop :=
  ∃ h, HeaderAt w i h ∧ (∃ r, Facts h0.cls r) ∧ h.cls = h0.cls ∧ h.version = h0.version ∧ h0.buf.length = 480 ∧
    SameLengths h.buf h0.buf

theorem HSees.ext {w w' : World} {i h} (S : HSees w i h) (e : w.Ext w') : HSees w' i h := by
  obtain ⟨h1, k, r⟩ := S
  exact ⟨h1, k.ext e, r⟩

theorem HeaderAt.of_view {w w' : World} {i h h'} (k : HeaderAt w i h) (he : w'.heap = w.heap) {o o'} (ho : w.headers[i]? = some o)
    (ho' : w'.headers[i]? = some o') (hb : o.blk = o'.blk) (_ : o.cls = o'.cls) (hh : w'.header i = some h') : HeaderAt w' i h' := by
  obtain ⟨o1, b, h1, h2, h3, h4, h5⟩ := k
  rw [h1] at ho
  cases ho
  refine ⟨o', b, ho', ?_, ?_, by rw [he, ← hb]; exact h4, ?_⟩ <;> unfold World.header at hh <;> rw [ho'] at hh <;> cases hh
  · rfl
  · rfl
  · dsimp only
    rw [he, ← hb, List.getD_eq_getElem?_getD, h4]
    rfl

theorem HSees.lat {w w' : World} (L : Lat w w') {i h0} : HSees w i h0 ↔ HSees w' i h0 := by
  rcases L.view i with ⟨h1, h2, h3, h4⟩ | ⟨o, o', h, h', h3, h4, h1, h2, V, -, -⟩
  · constructor
    · rintro ⟨h, k, -⟩
      rw [k.header] at h1
      cases h1
    · rintro ⟨h, k, -⟩
      rw [k.header] at h2
      cases h2
  · have P := L.objs i o o' h3 h4
    constructor
    · rintro ⟨hh, k, F, c1, c2, c3, c4⟩
      have := k.header
      rw [h1] at this
      cases this
      exact ⟨h', k.of_view L.heap.symm h3 h4 P.blk P.cls h2, F, V.1 ▸ c1, V.2.2 ▸ c2, c3, V.2.1 ▸ c4⟩
    · rintro ⟨hh, k, F, c1, c2, c3, c4⟩
      have := k.header
      rw [h2] at this
      cases this
      exact ⟨h, k.of_view L.heap h4 h3 P.blk.symm P.cls.symm h1, F, V.1 ▸ c1, V.2.2 ▸ c2, c3, V.2.1 ▸ c4⟩

theorem Lat.blks {w w' : World} (L : Lat w w') : w.headers.map HObj.blk = w'.headers.map HObj.blk := by
  refine List.ext_getElem? fun i => ?_
  rw [List.getElem?_map, List.getElem?_map]
  rcases L.view i with ⟨-, -, h3, h4⟩ | ⟨o, o', h, h', h3, h4, -⟩ <;> rw [h3, h4]
  exact congrArg some (L.objs i o o' h3 h4).blk

theorem Lat.refl (w : World) : Lat w w := ⟨rfl, rfl, rfl, fun i o o' h h' => by rw [h] at h'; cases h'; exact HPair.refl _ _⟩

/-- Evaluating the version now. -/
theorem HSees.evaluate {w : World} {i h0} (S : HSees w i h0) : ∃ w' h v, Lat w w' ∧ HeaderAt w' i h ∧ HLike h h0 v := by
  obtain ⟨h, k, ⟨r, F⟩, c1, c2, c3, c4⟩ := S
  have hv : ∃ v, h.version = .ok v := by
    cases hc : h.cache with
    | some v => exact ⟨v, by unfold Header.version; rw [hc]⟩
    | none =>
      rcases h with ⟨c, b, _⟩
      dsimp only at hc c1
      subst hc c1
      exact ⟨_, header_version_of_none F b⟩
  obtain ⟨v, hv⟩ := hv
  have hl : h.latched = { h with cache := some v } := by unfold Header.latched; rw [hv]
  obtain ⟨o, b, e1, e2, e3, e4, e5⟩ := id k
  have hi := (List.getElem?_eq_some_iff.mp e1).1
  have hb := (List.getElem?_eq_some_iff.mp e4).1
  have hbd : w.heap.getD o.blk [] = b := by rw [List.getD_eq_getElem?_getD, e4]; rfl
  refine ⟨{ w with headers := w.headers.set i { o with cache := some v } }, { h with cache := some v }, v,
    ⟨rfl, rfl, by simp, fun j x x' hx hx' => ?_⟩, ⟨{ o with cache := some v }, b, List.getElem?_set_self hi, e2, rfl, e4, e5⟩,
    ⟨r, F⟩, c1, rfl, c2 ▸ hv, c3, c4⟩
  dsimp only at hx'
  by_cases hj : i = j
  · subst hj
    rw [List.getElem?_set_self hi] at hx'
    rw [e1] at hx
    cases hx
    cases hx'
    refine ⟨rfl, rfl, ?_⟩
    cases hc : o.cache with
    | some c =>
      refine .inl ?_
      unfold Header.version at hv
      rw [← e3, hc] at hv
      cases hv
      rfl
    | none =>
      refine .inr ⟨rfl, hb, v, ?_, rfl⟩
      rw [hbd, ← e5, e2, ← hv, ← hc, e3]
  · rw [List.getElem?_set_ne hj, hx] at hx'
    cases hx'
    exact HPair.refl _ _

/-- The generator with memory shows what the generator on values shows. -/
def GSees (w : World) : Obj.Gen → Gen → Prop
  | .done, .done => True
  | .start none max, .start none max' => max = max'
  | .start (some i) max, .start (some h) max' => max = max' ∧ HSees w i h
  | .loop i v n, .loop h v' n' => v = v' ∧ n = n' ∧ HSees w i h
  | _, _ => False

theorem GSees.map {w w' : World} (f : ∀ i h, HSees w i h → HSees w' i h) {g g'} (G : GSees w g g') : GSees w' g g' := by
  unfold GSees at G ⊢
  split at G
  · trivial
  · exact G
  · exact ⟨G.1, f _ _ G.2⟩
  · exact ⟨G.1, G.2.1, f _ _ G.2.2⟩
  · exact G.elim

theorem GSees.evaluate {w : World} {g g0} (G : GSees w g g0) : ∃ w' g1, Lat w w' ∧ GNow w' g g1 ∧ GLike g1 g0 := by
  unfold GSees at G
  split at G
  · exact ⟨w, .done, Lat.refl w, trivial, trivial⟩
  · rename_i max max'
    exact ⟨w, .start none max, Lat.refl w, rfl, G⟩
  · rename_i i max h max'
    obtain ⟨rfl, S⟩ := G
    obtain ⟨w', h1, v, L, k, H⟩ := S.evaluate
    exact ⟨w', .start (some h1) max, L, ⟨rfl, k, by rw [H.cache]; rfl⟩, rfl, v, H⟩
  · rename_i i v n h v' n'
    obtain ⟨rfl, rfl, S⟩ := G
    obtain ⟨w', h1, u, L, k, H⟩ := S.evaluate
    exact ⟨w', .loop h1 v n, L, ⟨rfl, rfl, k, by rw [H.cache]; rfl⟩, rfl, rfl, u, H⟩
  · exact G.elim

theorem hsees_of {w : World} {i h h0 v} (k : HeaderAt w i h) (H : HLike h h0 v) : HSees w i h0 :=
  ⟨h, k, H.facts, H.cls, H.same, H.full, H.len⟩

theorem gsees_of {w : World} {g g1 g0} (G : GNow w g g1) (L : GLike g1 g0) : GSees w g g0 := by
  unfold GNow at G
  split at G
  · unfold GLike at L
    split at L
    · trivial
    · contradiction
    · contradiction
    · contradiction
    · exact L.elim
  · rename_i m m'
    unfold GLike at L
    split at L
    · contradiction
    · rename_i e; cases e; exact Eq.trans G L
    · rename_i e; cases e
    · contradiction
    · exact L.elim
  · obtain ⟨rfl, k, -⟩ := G
    unfold GLike at L
    split at L
    · contradiction
    · rename_i e; cases e
    · rename_i e; cases e
      obtain ⟨rfl, v, H⟩ := L
      exact ⟨rfl, hsees_of k H⟩
    · contradiction
    · exact L.elim
  · obtain ⟨rfl, rfl, k, -⟩ := G
    unfold GLike at L
    split at L
    · contradiction
    · contradiction
    · contradiction
    · rename_i e; cases e
      obtain ⟨rfl, rfl, u, H⟩ := L
      exact ⟨rfl, rfl, hsees_of k H⟩
    · exact L.elim
  · exact G.elim

theorem out_heap {w w' : World} (h : w.heap = w'.heap) (o : Obj.Out) : w.out o = w'.out o := by
  have hi : w.inst = w'.inst := by funext x; unfold World.inst; rw [h]
  have hg : w.group = w'.group := by funext x; unfold World.group; rw [hi]
  cases o with
  | yield x => show Out.yield _ = Out.yield _; unfold World.tuple; rw [hi, hg]
  | stop => rfl
  | raise e => rfl

/-- One step, whether or not the version has been evaluated. -/
theorem use_sees (Z : Zlib) (rot : Bool) (op : Op) {w : World} {g g0} (G : GSees w g g0) :
    (g.use Z rot op w).2.2.out (g.use Z rot op w).1 = (g0.use Z rot op w.file).1 ∧
    (g.use Z rot op w).2.2.file = (g0.use Z rot op w.file).2.2 ∧
    GSees (g.use Z rot op w).2.2 (g.use Z rot op w).2.1 (g0.use Z rot op w.file).2.1 ∧
    StepGrow w (g.use Z rot op w) ∧ ∀ j h, HSees w j h → HSees (g.use Z rot op w).2.2 j h := by
  obtain ⟨w', g1, L, N, K⟩ := G.evaluate
  have R := use_rel Z rot op N
  obtain ⟨s1, s2, s3⟩ := use_lat L Z rot op g
  obtain ⟨k1, k2, k3⟩ := use_like Z rot op K w.file
  have hf := L.file
  rw [← hf] at R
  refine ⟨?_, ?_, ?_, ⟨?_, ?_⟩, ?_⟩
  · rw [s1, out_heap s3.heap, R.out, k1]
  · rw [s3.file, R.file, k3]
  · rw [s2]
    exact (gsees_of R.gen k2).map fun i h => (HSees.lat s3).mpr
  · rw [L.heap, s3.heap]
    exact R.ext.1
  · rw [L.heap, s3.heap, L.blks, s3.blks, s1]
    exact R.new
  · exact fun j h S => (HSees.lat s3).mpr (((HSees.lat L).mp S).ext R.ext)

/-! ## Histories -/

/-- Every generator makes sense in the world, whether or not the version of its header has been evaluated. -/
def Sane (w : World) (gs : List (Bool × Obj.Gen)) : Prop := ∀ p ∈ gs, ∃ g', GSees w p.2 g'

theorem HeaderAt.poked {w : World} {i h} (k : HeaderAt w i h) (blk off : Nat) (bytes : Bytes) :
    (∃ h', HeaderAt (Obj.poke w blk off bytes) i h' ∧ h'.cls = h.cls ∧ h'.cache = h.cache ∧ h'.buf.length = h.buf.length ∧
      (h.cls.size = 480 → h.buf.length = 480 →
        (blk ∈ w.headers.map HObj.blk → Spares off bytes.length) → u32 h'.buf 32 = u32 h.buf 32 ∧ i32 h'.buf 456 = i32 h.buf 456) ∧
      (h.cls.size = 480 → h.buf.length = 480 →
        (∀ o ∈ w.headers, o.blk = blk → o.cache = none → SparesVersion off bytes.length) →
        h.cache = none → ∀ j, j = 4 ∨ j = 5 → u8 h'.buf j = u8 h.buf j)) := by
  obtain ⟨o, b, e1, e2, e3, e4, e5⟩ := k
  by_cases hob : o.blk = blk
  · subst hob
    have hlt := (List.getElem?_eq_some_iff.mp e4).1
    by_cases hl : off + bytes.length ≤ b.length
    · have hh : (Obj.poke w o.blk off bytes) = { w with heap := w.heap.set o.blk (b.take off ++ bytes ++ b.drop (off + bytes.length)) } := by
        unfold Obj.poke
        rw [e4]
        exact if_pos hl
      refine ⟨⟨h.cls, (b.take off ++ bytes ++ b.drop (off + bytes.length)).take o.cls.size, h.cache⟩,
        ⟨o, _, by rw [hh]; exact e1, e2, e3, by rw [hh]; exact List.getElem?_set_self hlt, rfl⟩, rfl, rfl, ?_, ?_, ?_⟩
      · rw [e5]
        simp
        omega
      · intro hsz hlen hs
        obtain ⟨s1, s2⟩ := hs (List.mem_map.mpr ⟨o, List.mem_of_getElem? e1, rfl⟩)
        rw [e5, e2, hsz]
        dsimp only
        unfold i32
        rw [u32_take _ _ _ (by omega), u32_take _ _ _ (by omega), u32_take _ _ _ (by omega), u32_take _ _ _ (by omega),
          u32_poke hl s1, u32_poke hl s2]
        exact ⟨rfl, rfl⟩
      · intro hsz hlen hs hc j hj
        have := hs o (List.mem_of_getElem? e1) rfl (e3.trans hc)
        unfold SparesVersion at this
        rw [e5, e2, hsz]
        dsimp only
        rw [u8_take _ _ _ (by omega), u8_take _ _ _ (by omega)]
        exact u8_poke hl (by omega)
    · have hh : (Obj.poke w o.blk off bytes) = w := by
        unfold Obj.poke
        rw [e4]
        exact if_neg hl
      exact ⟨h, by rw [hh]; exact ⟨o, b, e1, e2, e3, e4, e5⟩, rfl, rfl, rfl, fun _ _ _ => ⟨rfl, rfl⟩, fun _ _ _ _ _ _ => rfl⟩
  · exact ⟨h, ⟨o, b, by rw [poke_headers]; exact e1, e2, e3, by rw [poke_other _ _ _ hob]; exact e4, e5⟩, rfl, rfl, rfl,
      fun _ _ _ => ⟨rfl, rfl⟩, fun _ _ _ _ _ _ => rfl⟩

theorem HSees.poke_any {w : World} {i h0} (S : HSees w i h0) (blk off : Nat) (bytes : Bytes) :
    ∃ h, HSees (Obj.poke w blk off bytes) i h := by
  obtain ⟨h, k, ⟨r, F⟩, c1, c2, c3, c4, -⟩ := S
  obtain ⟨h', k', p1, p2, p3, -⟩ := k.poked blk off bytes
  have hl : h'.buf.length = 480 := by rw [p3, c4]
  exact ⟨h', h', k', ⟨r, by rw [p1, c1]; exact F⟩, rfl, rfl, hl, hl, rfl, rfl⟩

theorem HSees.poke {w : World} {i h0} (S : HSees w i h0) (blk off : Nat) (bytes : Bytes)
    (h1 : blk ∈ w.headers.map HObj.blk → Spares off bytes.length)
    (h2 : ∀ o ∈ w.headers, o.blk = blk → o.cache = none → SparesVersion off bytes.length) :
    HSees (Obj.poke w blk off bytes) i h0 := by
  obtain ⟨h, k, ⟨r, F⟩, c1, c2, c3, c4, c5, c6⟩ := S
  obtain ⟨h', k', p1, p2, p3, p4, p5⟩ := k.poked blk off bytes
  have hsz : h.cls.size = 480 := by rw [c1]; exact F.size
  obtain ⟨q1, q2⟩ := p4 hsz c4 h1
  refine ⟨h', k', ⟨r, F⟩, p1.trans c1, ?_, c3, p3.trans c4, q1.trans c5, q2.trans c6⟩
  rw [← c2]
  have p6 := p5 hsz c4 h2
  clear p5
  rcases h with ⟨c, b, ca⟩
  rcases h' with ⟨c', b', ca'⟩
  dsimp only at p1 p2 p6 c1
  subst p1 p2
  cases ca' with
  | some v => rfl
  | none =>
    rw [← c1] at F
    rw [header_version_of_none F, header_version_of_none F]
    unfold major minor
    rw [p6 rfl 4 (.inl rfl), p6 rfl 5 (.inr rfl)]

theorem GSees.poke_any {w : World} {g g0} (G : GSees w g g0) (blk off : Nat) (bytes : Bytes) :
    ∃ g1, GSees (Obj.poke w blk off bytes) g g1 := by
  unfold GSees at G
  split at G
  · exact ⟨.done, trivial⟩
  · rename_i max max'
    exact ⟨.start none max', G⟩
  · rename_i i max h max'
    obtain ⟨h1, S⟩ := G.2.poke_any blk off bytes
    exact ⟨.start (some h1) max, rfl, S⟩
  · rename_i i v n h v' n'
    obtain ⟨h1, S⟩ := G.2.2.poke_any blk off bytes
    exact ⟨.loop h1 v n, rfl, rfl, S⟩
  · exact G.elim

theorem sane_stable (Z : Zlib) : Stable Z Sane where
  poke S blk off bytes p hp := by
    obtain ⟨g', G⟩ := S p hp
    exact G.poke_any blk off bytes
  step {w gs} S {i} op {rot g} h := by
    obtain ⟨g', G⟩ := S _ (List.mem_of_getElem? h)
    obtain ⟨-, -, r3, r4, r5⟩ := use_sees Z rot op G
    refine ⟨?_, r4⟩
    intro p hp
    rcases List.mem_or_eq_of_mem_set hp with hp | rfl
    · obtain ⟨g2, G2⟩ := S p hp
      exact ⟨g2, G2.map r5⟩
    · exact ⟨_, r3⟩

/-- The generators show what the generators on values show. -/
def AlikeL (w : World) (gs : List (Bool × Obj.Gen)) (gs' : List (Bool × Gen)) : Prop :=
  gs.length = gs'.length ∧ ∀ (i : Nat) (p : Bool × Obj.Gen) (q : Bool × Gen), gs[i]? = some p → gs'[i]? = some q →
    p.1 = q.1 ∧ GSees w p.2 q.2

theorem AlikeL.sane {w gs gs'} (A : AlikeL w gs gs') : Sane w gs := by
  intro p hp
  obtain ⟨i, hi, rfl⟩ := List.mem_iff_getElem.mp hp
  exact ⟨_, (A.2 i _ _ (List.getElem?_eq_getElem hi) (List.getElem?_eq_getElem (A.1 ▸ hi))).2⟩

theorem history_sees (Z : Zlib) : ∀ (ops : List Obj.Op) (gs : List (Bool × Obj.Gen)) (gs' : List (Bool × Gen)) (w : World),
    AlikeL w gs gs' → Mild Z ops gs w →
    ((Obj.history Z ops gs w).1.map fun p => (p.1, p.2.2.out p.2.1)) = (used Z (stepsOf ops) gs' w.file).1 ∧
    (Obj.history Z ops gs w).2.2.file = (used Z (stepsOf ops) gs' w.file).2.2
  | [], gs, gs', w, _, _ => ⟨rfl, rfl⟩
  | .write blk off bytes :: ops, gs, gs', w, A, H => by
    rw [history_write]
    have H0 := H [] blk off bytes ops rfl
    have ih := history_sees Z ops gs gs' (Obj.poke w blk off bytes) ⟨A.1, fun i p q hp hq => by
      obtain ⟨h1, G⟩ := A.2 i p q hp hq
      refine ⟨h1, G.map fun j h S => S.poke blk off bytes (fun hm => ?_) fun o ho hb => (H0 o ho hb).2⟩
      obtain ⟨o, ho, hb⟩ := List.mem_map.mp hm
      exact (H0 o ho hb).1⟩
      fun before b o x after h => by
        have := H (.write blk off bytes :: before) b o x after (by rw [h]; rfl)
        rw [history_write] at this
        exact this
    rw [poke_file] at ih
    exact ih
  | .use i op :: ops, gs, gs', w, A, H => by
    show _ = (used Z ((i, op) :: stepsOf ops) gs' w.file).1 ∧ _ = (used Z ((i, op) :: stepsOf ops) gs' w.file).2.2
    cases h : gs[i]? with
    | none =>
      have h' : gs'[i]? = none := by rw [List.getElem?_eq_none_iff] at h ⊢; rw [← A.1]; exact h
      rw [history_none Z ops w h]
      rw [used, h']
      exact history_sees Z ops gs gs' w A fun before b o x after he => by
        have := H (.use i op :: before) b o x after (by rw [he]; rfl)
        rw [history_none Z before w h] at this
        exact this
    | some p =>
      obtain ⟨rot, g⟩ := p
      have hi := (List.getElem?_eq_some_iff.mp h).1
      have h' : gs'[i]? = some (gs'[i]'(A.1 ▸ hi)) := List.getElem?_eq_getElem _
      generalize gs'[i]'(A.1 ▸ hi) = q at h'
      obtain ⟨rot', g'⟩ := q
      obtain ⟨hrot, G⟩ := A.2 i _ _ h h'
      dsimp only at hrot G
      subst hrot
      obtain ⟨r1, r2, r3, -, r5⟩ := use_sees Z rot op G
      rw [history_next Z ops w h]
      rw [used, h']
      have ih := history_sees Z ops (gs.set i (rot, (g.use Z rot op w).2.1)) (gs'.set i (rot, (g'.use Z rot op w.file).2.1))
        (g.use Z rot op w).2.2 ⟨by simp [A.1], fun j p q hp hq => by
          by_cases hj : i = j
          · subst hj
            rw [List.getElem?_set_self hi] at hp
            rw [List.getElem?_set_self (A.1 ▸ hi)] at hq
            cases hp
            cases hq
            exact ⟨rfl, r3⟩
          · rw [List.getElem?_set_ne hj] at hp hq
            obtain ⟨a1, a2⟩ := A.2 j p q hp hq
            exact ⟨a1, a2.map r5⟩⟩ fun before b o x after he => by
        have := H (.use i op :: before) b o x after (by rw [he]; rfl)
        rw [history_next Z before w h] at this
        exact this
      rw [r2] at ih
      refine ⟨?_, ih.2⟩
      show (i, _) :: List.map _ _ = (i, _) :: _
      rw [ih.1, r1]

end Atop
