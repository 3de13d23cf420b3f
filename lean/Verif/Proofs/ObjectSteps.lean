import Verif.Proofs.Objects
import Verif.Props.Protocol
/-!
# Steps of a generator with memory
-/

namespace Atop
open Spec

/-- Memory that agrees with a header on its length and on the two recorded lengths. -/
def SameLengths (b b' : Bytes) : Prop := b.length = 480 ∧ u32 b 32 = u32 b' 32 ∧ i32 b 456 = i32 b' 456

/-- The recorded lengths are all that the readers take from the memory of a header. -/
theorem lengths_eq {h h' : Header} {r} (F : Facts h'.cls r) (hc : h.cls = h'.cls) (hl : h'.buf.length = 480)
    (L : SameLengths h.buf h'.buf) :
    h.inst.intAttr py!"tstatlen" = h'.inst.intAttr py!"tstatlen" ∧ h.inst.intAttr py!"pstatlen" = h'.inst.intAttr py!"pstatlen" ∧
    h.inst.intAttr py!"cstatlen" = h'.inst.intAttr py!"cstatlen" := by
  obtain ⟨l1, l2, l3⟩ := L
  rcases h with ⟨c, b, k⟩
  rcases h' with ⟨c', b', k'⟩
  dsimp only at hc hl l1 l2 l3 F
  subst hc
  have f1 := F.tstatlen
  have f2 := F.pstatlen
  have f3 := F.cstatlen
  unfold Header.inst
  dsimp only
  refine ⟨?_, ?_, ?_⟩
  · split at f1
    · rw [intAttr_none f1, intAttr_none f1]
    · rw [intAttr_u32 (t := .struct _ c.fields []) f1, intAttr_u32 (t := .struct _ c.fields []) f1, l2]
  · split at f2
    · rw [intAttr_u32 (t := .struct _ c.fields []) f2, intAttr_u32 (t := .struct _ c.fields []) f2, l2]
    · rw [intAttr_none f2, intAttr_none f2]
  · split at f3
    · rw [intAttr_i32 (t := .struct _ c.fields []) f3 _ (by omega), intAttr_i32 (t := .struct _ c.fields []) f3 _ (by omega), l3]
    · rw [intAttr_none f3, intAttr_none f3]

theorem readSample_other {h h' : Header} {r} (F : Facts h'.cls r) (hc : h.cls = h'.cls) (hl : h'.buf.length = 480)
    (L : SameLengths h.buf h'.buf) (hv : h.version = h'.version) (Z : Zlib) (v : Nat × Nat) (s : Stream) :
    readSample Z h v s = readSample Z h' v s := by
  obtain ⟨l1, l2, l3⟩ := lengths_eq F hc hl L
  unfold readSample getRecord getSStat getTStat getCStat
  rw [hc, hv, l1, l2, l3]

/-! ## Steps -/

/-- The generator with memory is, at this moment, the generator on values. -/
def GNow (w : World) : Obj.Gen → Gen → Prop
  | .done, .done => True
  | .start none max, .start none max' => max = max'
  | .start (some i) max, .start (some h) max' => max = max' ∧ HeaderAt w i h ∧ h.cache.isSome
  | .loop i v n, .loop h v' n' => v = v' ∧ n = n' ∧ HeaderAt w i h ∧ h.cache.isSome
  | _, _ => False

theorem GNow.ext {w w' : World} {g g'} (G : GNow w g g') (e : w.Ext w') : GNow w' g g' := by
  unfold GNow at G ⊢
  split at G
  · trivial
  · exact G
  · obtain ⟨h1, h2, h3⟩ := G; exact ⟨h1, h2.ext e, h3⟩
  · obtain ⟨h1, h2, h3, h4⟩ := G; exact ⟨h1, h2, h3.ext e, h4⟩
  · exact G

theorem out_onError (w : World) (rot : Bool) (e : Exc) : w.out (Obj.onError rot e) = onError rot e ∧ (Obj.onError rot e).blocks = [] := by
  unfold Obj.onError onError
  split
  · split <;> exact ⟨rfl, rfl⟩
  · exact ⟨rfl, rfl⟩

/-- The computation creates no header objects. -/
def Keeps {α : Type} (m : M α) : Prop := ∀ w, (m w).2.headers.map HObj.blk = w.headers.map HObj.blk

theorem Keeps.bind {α β : Type} {m : M α} {k : α → M β} (h : Keeps m) (h' : ∀ a, Keeps (k a)) : Keeps (m >>= k) := by
  intro w
  rw [M.bind_eq]
  have := h w
  rcases hm : m w with ⟨e | a, w'⟩ <;> rw [hm] at this
  · exact this
  · exact (h' a w').trans this

theorem Keeps.pure {α : Type} (a : α) : Keeps (Pure.pure a : M α) := fun _ => rfl
theorem Keeps.lift {α : Type} (x : Except Exc α) : Keeps (M.lift x) := fun _ => rfl
theorem Keeps.file {α : Type} (x : Rd α) : Keeps (M.file x) := fun _ => rfl
theorem Keeps.alloc (b : Bytes) : Keeps (M.alloc b) := fun _ => rfl
theorem Keeps.load (b : Nat) : Keeps (M.load b) := fun _ => rfl
theorem Keeps.store (b : Nat) (x : Bytes) : Keeps (M.store b x) := fun _ => rfl
theorem Keeps.header (i : Nat) : Keeps (M.header i) := fun w => by
  unfold M.header
  split <;> rfl
theorem Keeps.latch (i : Nat) : Keeps (M.latch i) := fun w => by
  unfold M.latch
  split
  · rename_i o h h1 h2
    show (w.headers.set i _).map HObj.blk = _
    rw [List.map_set]
    obtain ⟨hi, rfl⟩ := List.getElem?_eq_some_iff.mp h1
    have : w.headers[i].blk = (w.headers.map HObj.blk)[i]'(by simpa using hi) := by simp
    rw [this, List.set_getElem_self]
  · rfl
theorem Keeps.inst (x : Ref) : Keeps x.inst := by
  unfold Ref.inst
  exact (Keeps.load _).bind fun _ => Keeps.pure _
theorem Keeps.readNew (n : Nat) : Keeps (M.readNew n) := by
  unfold M.readNew M.readinto
  exact (Keeps.alloc _).bind fun _ => (((Keeps.load _).bind fun _ => (Keeps.file _).bind fun _ => Keeps.store _ _)).bind fun _ => Keeps.pure _
theorem Keeps.copy (t : CType) (d : Bytes) : Keeps (M.copy t d) := by
  unfold M.copy
  exact (Keeps.lift _).bind fun _ => (Keeps.alloc _).bind fun _ => Keeps.pure _
theorem Keeps.getRecord (i : Nat) : Keeps (Obj.getRecord i) := by
  unfold Obj.getRecord
  exact (Keeps.header _).bind fun _ => (Keeps.readNew _).bind fun _ => Keeps.pure _
theorem Keeps.getSStat (Z : Zlib) (i : Nat) (r : Ref) : Keeps (Obj.getSStat Z i r) := by
  unfold Obj.getSStat
  exact (Keeps.inst _).bind fun _ => (Keeps.lift _).bind fun _ => (Keeps.file _).bind fun _ => (Keeps.lift _).bind fun _ =>
    (Keeps.header _).bind fun _ => Keeps.copy _ _
theorem Keeps.tstatLoop (t : CType) (d : Bytes) (L : Int) : ∀ (k i : Nat), Keeps (Obj.tstatLoop t d L k i)
  | 0, _ => Keeps.pure _
  | k + 1, i => by
    rw [Obj.tstatLoop]
    exact (Keeps.copy _ _).bind fun _ => (Keeps.tstatLoop t d L k _).bind fun _ => Keeps.pure _
theorem Keeps.getTStat (Z : Zlib) (i : Nat) (r : Ref) : Keeps (Obj.getTStat Z i r) := by
  unfold Obj.getTStat
  exact (Keeps.inst _).bind fun _ => (Keeps.lift _).bind fun _ => (Keeps.file _).bind fun _ => (Keeps.lift _).bind fun _ =>
    (Keeps.inst _).bind fun _ => (Keeps.lift _).bind fun _ => (Keeps.header _).bind fun _ => (Keeps.lift _).bind fun _ =>
    (Keeps.latch _).bind fun _ => (Keeps.header _).bind fun _ => (Keeps.lift _).bind fun _ => Keeps.tstatLoop _ _ _ _ _
theorem Keeps.pidArray (n : Int) (d : Bytes) (s : Int) : Keeps (Obj.pidArray n d s) := by
  unfold Obj.pidArray
  split
  · exact Keeps.lift _
  · exact Keeps.copy _ _
theorem Keeps.cstatLoop (t : CType) (d p : Bytes) (L : Int) : ∀ (k : Nat) (a b : Int), Keeps (Obj.cstatLoop t d p L k a b)
  | 0, _, _ => Keeps.pure _
  | k + 1, a, b => by
    rw [Obj.cstatLoop]
    exact (Keeps.copy _ _).bind fun _ => (Keeps.inst _).bind fun _ => (Keeps.lift _).bind fun _ => (Keeps.lift _).bind fun _ =>
      (Keeps.pidArray _ _ _).bind fun _ => (Keeps.cstatLoop t d p L k _ _).bind fun _ => Keeps.pure _
theorem Keeps.getCStat (Z : Zlib) (i : Nat) (r : Ref) : Keeps (Obj.getCStat Z i r) := by
  unfold Obj.getCStat
  refine (Keeps.inst _).bind fun _ => (Keeps.lift _).bind fun _ => (Keeps.file _).bind fun _ => (Keeps.lift _).bind fun _ =>
    (Keeps.inst _).bind fun _ => (Keeps.lift _).bind fun _ => (Keeps.file _).bind fun _ => (Keeps.lift _).bind fun _ =>
    (Keeps.header _).bind fun h => (Keeps.lift _).bind fun _ => (Keeps.inst _).bind fun _ => (Keeps.lift _).bind fun c => ?_
  cases h.cls.CStat with
  | some t => exact Keeps.cstatLoop _ _ _ _ _ _ _
  | none =>
    dsimp only
    split
    · exact Keeps.pure _
    · exact Keeps.lift _
theorem Keeps.readSample (Z : Zlib) (i : Nat) (v : Nat × Nat) : Keeps (Obj.readSample Z i v) := by
  unfold Obj.readSample
  refine (Keeps.getRecord _).bind fun _ => (Keeps.inst _).bind fun _ => (Keeps.lift _).bind fun _ => ?_
  split
  · exact Keeps.pure _
  · refine (Keeps.getSStat _ _ _).bind fun _ => (Keeps.getTStat _ _ _).bind fun _ => ?_
    split
    · exact (Keeps.getCStat _ _ _).bind fun _ => Keeps.pure _
    · exact (Keeps.pure _).bind fun _ => Keeps.pure _

/-- From `w` on, header objects were only created over blocks from `lo` on. -/
def NewOver (base : List Nat) (lo : Nat) (w : World) : Prop :=
  ∃ l, w.headers.map HObj.blk = base ++ l ∧ ∀ b ∈ l, lo ≤ b ∧ b < w.heap.length

def Pres {α : Type} (I : World → Prop) (m : M α) : Prop := ∀ w, I w → I (m w).2

theorem Pres.bind {α β : Type} {I : World → Prop} {m : M α} {k : α → M β} (h : Pres I m) (h' : ∀ a, Pres I (k a)) : Pres I (m >>= k) := by
  intro w hw
  rw [M.bind_eq]
  have := h w hw
  rcases hm : m w with ⟨e | a, w'⟩ <;> rw [hm] at this
  · exact this
  · exact h' a w' this

theorem grown_getHeader (check : Bool) (w : World) : NewOver (w.headers.map HObj.blk) w.heap.length (Obj.getHeader check w).2 := by
  unfold Obj.getHeader
  have hr := sim_readNew w defaultHeader.size
  have hk := Keeps.readNew defaultHeader.size w
  obtain ⟨e, -, r⟩ := hr
  have hlen : w.heap.length < (M.readNew defaultHeader.size w).2.heap.length := by
    unfold M.readNew M.readinto
    simp only [M.bind_eq]
    unfold M.alloc M.load M.file M.store
    dsimp only
    cases (Stream.read _ w.file).1 <;> simp [M.pure_eq]
  refine (congrArg (fun r => NewOver _ _ (Prod.snd r)) (readHeader_bind defaultHeader _ w)).mpr ?_
  rcases hm : M.readNew defaultHeader.size w with ⟨e' | blk, w1⟩ <;> rw [hm] at hk e r hlen <;> dsimp only at hk e r hlen ⊢
  · exact ⟨[w.heap.length], by simp [hk], by intro b hb; rw [List.mem_singleton.mp hb]; exact ⟨Nat.le_refl _, hlen⟩⟩
  have hb : w.heap.length ≤ blk ∧ blk < w1.heap.length := by
    split at r
    · rename_i h1 _; cases h1; exact ⟨r.2.1, r.2.2.1⟩
    · rename_i h1 _; cases h1
    · exact r.elim
  let I : World → Prop := fun w2 => NewOver (w.headers.map HObj.blk) w.heap.length w2 ∧ w2.heap.length = w1.heap.length
  have hI : I w1 := ⟨⟨[], by rw [hk]; simp, nofun⟩, rfl⟩
  have keep : ∀ {α : Type} (m : M α), Keeps m → (∀ w2, (m w2).2.heap = w2.heap) → Pres I m := by
    rintro α m k hh w2 ⟨⟨l, l1, l2⟩, l3⟩
    exact ⟨⟨l, by rw [k w2]; exact l1, by rw [hh]; exact l2⟩, by rw [hh]; exact l3⟩
  have nw : ∀ (c : HeaderClass), Pres I (M.newHeader ⟨c, blk, none⟩) := by
    rintro c w2 ⟨⟨l, l1, l2⟩, l3⟩
    refine ⟨⟨l ++ [blk], by simp [M.newHeader, l1], ?_⟩, l3⟩
    intro b hb'
    rcases List.mem_append.mp hb' with h | h
    · exact l2 b h
    · rw [List.mem_singleton.mp h]
      exact ⟨hb.1, by show blk < w2.heap.length; rw [l3]; exact hb.2⟩
  have pl : ∀ {α : Type} (x : Except Exc α), Pres I (M.lift x) := fun x => keep _ (Keeps.lift x) fun _ => rfl
  have pp : ∀ {α : Type} (x : α), Pres I (Pure.pure x : M α) := fun x => keep _ (Keeps.pure x) fun _ => rfl
  have ph : ∀ i, Pres I (M.header i) := fun i => keep _ (Keeps.header i) fun w2 => by unfold M.header; split <;> rfl
  have pt : ∀ i, Pres I (M.latch i) := fun i => keep _ (Keeps.latch i) fun w2 => by unfold M.latch; split <;> rfl
  have chk : ∀ j, Pres I (if check then (do
        let h ← M.header j
        M.latch j
        M.lift h.checkCompatibility
        pure j) else pure j) := by
    intro j
    split
    · exact (ph j).bind fun _ => (pt j).bind fun _ => (pl _).bind fun _ => pp _
    · exact pp _
  refine (Pres.bind (nw _) fun i => (ph i).bind fun h0 => (pl _).bind fun magic => ?_ : Pres I _) w1 hI |>.1
  split
  · exact pl _
  · refine (pl _).bind fun v => (pt i).bind fun _ => ?_
    split
    · split
      · split
        · exact (pl _).bind chk
        · exact (nw _).bind chk
      · exact (pp _).bind chk
    · exact (pp _).bind chk

/-- A step of the generator with memory does what the step of the generator on values does. -/
structure StepRel (w : World) (x : Obj.Out × Obj.Gen × World) (y : Out × Gen × Stream) : Prop where
  ext : w.Ext x.2.2
  file : x.2.2.file = y.2.2
  out : x.2.2.out x.1 = y.1
  gen : GNow x.2.2 x.2.1 y.2.1
  new : ∃ l mid, x.2.2.headers.map HObj.blk = w.headers.map HObj.blk ++ l ∧ (∀ b ∈ l, w.heap.length ≤ b ∧ b < mid) ∧
      Within mid x.2.2.heap.length x.1.blocks ∧ w.heap.length ≤ mid ∧ mid ≤ x.2.2.heap.length

theorem resume_rel (Z : Zlib) (rot : Bool) {w : World} {i h} (k : HeaderAt w i h) (hc : h.cache.isSome) (v : Nat × Nat) (n : Nat) :
    StepRel w (Obj.resumeLoop Z rot i v n w) (resumeLoop Z rot h v n w.file) := by
  have nl := (List.append_nil (w.headers.map HObj.blk)).symm
  cases n with
  | zero => exact ⟨World.Ext.refl w, rfl, rfl, trivial, [], w.heap.length, nl, nofun, Within.nil _ _, Nat.le_refl _, Nat.le_refl _⟩
  | succ n =>
    obtain ⟨c, hc'⟩ := Option.isSome_iff_exists.mp hc
    obtain ⟨S1, S2, S3⟩ := sim_readSample Z (v := v) k hc'
    have K := Keeps.readSample Z i v w
    unfold Obj.resumeLoop resumeLoop
    dsimp only
    rcases hm : Obj.readSample Z i v w with ⟨e | x, w'⟩ <;> rcases hr : readSample Z h v w.file with ⟨e' | y, s'⟩ <;>
      rw [hm] at S1 S2 S3 K <;> rw [hr] at S2 S3 <;> dsimp only at S1 S2 S3 K
    · subst S3
      obtain ⟨o1, o2⟩ := out_onError w' rot e
      exact ⟨S1, S2, o1, trivial, [], w'.heap.length, K.trans nl, nofun, by dsimp only; rw [o2]; exact Within.nil _ _, S1.len, Nat.le_refl _⟩
    · obtain ⟨S3, S4⟩ := S3
      cases x with
      | none =>
        subst S3
        exact ⟨S1, S2, rfl, trivial, [], w.heap.length, K.trans nl, nofun, Within.nil _ _, Nat.le_refl _, S1.len⟩
      | some x =>
        subst S3
        exact ⟨S1, S2, rfl, ⟨rfl, rfl, k.ext S1, hc⟩, [], w.heap.length, K.trans nl, nofun, S4 x rfl, Nat.le_refl _, S1.len⟩

theorem latched_some {h : Header} (hc : h.cache.isSome) : h.latched = h := by
  obtain ⟨c, hc'⟩ := Option.isSome_iff_exists.mp hc
  unfold Header.latched Header.version
  rw [hc']
  rcases h with ⟨a, b, k⟩
  dsimp only at hc' ⊢
  rw [hc']

theorem enter_rel (Z : Zlib) (rot : Bool) {w : World} {i h} (k : HeaderAt w i h) (hc : h.cache.isSome) (max : Int) :
    StepRel w (Obj.enterTry Z rot i max w) (enterTry Z rot h max w.file) := by
  obtain ⟨c, hc'⟩ := Option.isSome_iff_exists.mp hc
  have : Obj.parsedVersion i w = (parsedVersion h, w) := by
    unfold Obj.parsedVersion
    rw [M.bind_eq, k.look]
    dsimp only
    rw [M.bind_eq]
    unfold M.lift
    cases parsedVersion h with
    | error e => rfl
    | ok v =>
      dsimp only
      rw [M.bind_eq, k.latch hc']
      rfl
  unfold Obj.enterTry enterTry
  rw [this, latched_some hc]
  cases parsedVersion h with
  | error e =>
    obtain ⟨o1, o2⟩ := out_onError w rot e
    exact ⟨World.Ext.refl w, rfl, o1, trivial, [], w.heap.length, (List.append_nil _).symm, nofun,
      by dsimp only; rw [o2]; exact Within.nil _ _, Nat.le_refl _, Nat.le_refl _⟩
  | ok v => exact resume_rel Z rot k hc v _

theorem next_rel (Z : Zlib) (rot : Bool) {w : World} {g g'} (G : GNow w g g') :
    StepRel w (g.next Z rot w) (g'.next Z rot w.file) := by
  unfold GNow at G
  split at G
  · exact ⟨World.Ext.refl w, rfl, rfl, trivial, [], w.heap.length, (List.append_nil _).symm, nofun, Within.nil _ _, Nat.le_refl _, Nat.le_refl _⟩
  · subst G
    rename_i max
    obtain ⟨S1, S2, S3⟩ := sim_getHeader w true
    obtain ⟨l, l1, l2⟩ := grown_getHeader true w
    unfold Obj.Gen.next Gen.next
    dsimp only
    rcases hm : Obj.getHeader true w with ⟨e | j, w'⟩ <;> rcases hr : getHeader true w.file with ⟨e' | h, s'⟩ <;>
      rw [hm] at S1 S2 S3 l1 l2 <;> rw [hr] at S2 S3 <;> dsimp only at S1 S2 S3 l1 l2
    · subst S3
      exact ⟨S1, S2, rfl, trivial, l, w'.heap.length, l1, l2, Within.nil _ _, S1.len, Nat.le_refl _⟩
    · have hc : h.cache.isSome := by obtain ⟨h1, -⟩ := getHeader_ok hr; rw [h1]; rfl
      obtain ⟨E1, E2, E3, E4, m, mid, E5, E6, E7, E8, E9⟩ := enter_rel Z rot S3.1 hc max
      subst S2
      refine ⟨S1.trans E1, E2, E3, E4, l ++ m, mid, by rw [E5, l1]; simp, ?_, E7, Nat.le_trans S1.len E8, E9⟩
      intro b hb
      have := S1.len
      rcases List.mem_append.mp hb with hb | hb
      · have := l2 b hb; omega
      · have := E6 b hb; omega
  · obtain ⟨rfl, k, hc⟩ := G
    exact enter_rel Z rot k hc _
  · obtain ⟨rfl, rfl, k, hc⟩ := G
    exact resume_rel Z rot k hc _ _
  · exact G.elim

/-! ## Headers that were written to -/

/-- `h` is the header `h'` of version `v`, the version evaluated, with other memory that has the same recorded lengths. -/
structure HLike (h h' : Header) (v : Nat × Nat) : Prop where
  facts : ∃ r, Facts h'.cls r
  cls : h.cls = h'.cls
  cache : h.cache = some v
  version : h'.version = .ok v
  full : h'.buf.length = 480
  len : SameLengths h.buf h'.buf

def GLike : Gen → Gen → Prop
  | .done, .done => True
  | .start none max, .start none max' => max = max'
  | .start (some h) max, .start (some h') max' => max = max' ∧ ∃ v, HLike h h' v
  | .loop h v n, .loop h' v' n' => v = v' ∧ n = n' ∧ ∃ u, HLike h h' u
  | _, _ => False

theorem hlike_of {h : Header} {s0 s1 : Stream} (hg : getHeader true s0 = (.ok h, s1)) : ∃ v, HLike h h v := by
  obtain ⟨h1, R, -, -, -⟩ := getHeader_ok hg
  have hc : h.cache = some (major (first480 s0.rest), minor (first480 s0.rest)) := by rw [h1]
  exact ⟨_, ⟨_, R.facts⟩, rfl, hc, by unfold Header.version; rw [hc], R.len, R.len, rfl, rfl⟩

theorem HLike.same {h h' v} (L : HLike h h' v) : h.version = h'.version := by
  rw [L.version]
  unfold Header.version
  rw [L.cache]

theorem HLike.latched {h h' v} (L : HLike h h' v) : HLike h h'.latched v := by
  unfold Header.latched
  rw [L.version]
  exact ⟨L.facts, L.cls, L.cache, rfl, L.full, L.len⟩

theorem resume_like (Z : Zlib) (rot : Bool) {h h' u} (L : HLike h h' u) (v : Nat × Nat) (n : Nat) (s : Stream) :
    (resumeLoop Z rot h v n s).1 = (resumeLoop Z rot h' v n s).1 ∧ GLike (resumeLoop Z rot h v n s).2.1 (resumeLoop Z rot h' v n s).2.1 ∧
    (resumeLoop Z rot h v n s).2.2 = (resumeLoop Z rot h' v n s).2.2 := by
  cases n with
  | zero => exact ⟨rfl, trivial, rfl⟩
  | succ n =>
    obtain ⟨r, F⟩ := L.facts
    have := readSample_other F L.cls L.full L.len L.same Z v s
    unfold resumeLoop
    dsimp only
    rw [this]
    rcases readSample Z h' v s with ⟨e | _ | x, s'⟩
    · exact ⟨rfl, trivial, rfl⟩
    · exact ⟨rfl, trivial, rfl⟩
    · exact ⟨rfl, ⟨rfl, rfl, _, L⟩, rfl⟩

theorem enter_like (Z : Zlib) (rot : Bool) {h h' v} (L : HLike h h' v) (max : Int) (s : Stream) :
    (enterTry Z rot h max s).1 = (enterTry Z rot h' max s).1 ∧ GLike (enterTry Z rot h max s).2.1 (enterTry Z rot h' max s).2.1 ∧
    (enterTry Z rot h max s).2.2 = (enterTry Z rot h' max s).2.2 := by
  have hp : parsedVersion h = parsedVersion h' := by
    unfold parsedVersion Header.semanticVersion
    rw [L.same]
  unfold enterTry
  rw [hp, latched_some (h := h) (by rw [L.cache]; rfl)]
  cases parsedVersion h' with
  | error e => exact ⟨rfl, trivial, rfl⟩
  | ok u => exact resume_like Z rot L.latched u _ s

theorem next_like (Z : Zlib) (rot : Bool) {g g' : Gen} (L : GLike g g') (s : Stream) :
    (g.next Z rot s).1 = (g'.next Z rot s).1 ∧ GLike (g.next Z rot s).2.1 (g'.next Z rot s).2.1 ∧
    (g.next Z rot s).2.2 = (g'.next Z rot s).2.2 := by
  unfold GLike at L
  split at L
  · exact ⟨rfl, trivial, rfl⟩
  · subst L
    unfold Gen.next
    dsimp only
    rcases hg : getHeader true s with ⟨e | h, s'⟩
    · exact ⟨rfl, trivial, rfl⟩
    · obtain ⟨v, H⟩ := hlike_of hg
      exact enter_like Z rot H _ s'
  · obtain ⟨rfl, v, H⟩ := L
    exact enter_like Z rot H _ s
  · obtain ⟨rfl, rfl, u, H⟩ := L
    exact resume_like Z rot H _ _ s
  · exact L.elim

end Atop
