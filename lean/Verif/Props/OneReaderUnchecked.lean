import Verif.Props.OneReader
import Verif.Props.Unchecked
/-!
# C79: each reader by itself, with a header that was not checked

The functions take any header object that `get_header(raw_file, check_compatibility=False)` returned, also when the caller
has since written to its memory.  What is found then depends on the class of the header and on two numbers in its memory as
it is now: the recorded length of a task (at 32) and of a cgroup (at 456).
-/

namespace Atop.Spec

/-- Tasks, spaced by the length `slot` that the header records. -/
def tstatSpaced (Z : Bytes → Option Bytes) (r : Row) (slot : Nat) (whole : Bool) (mem b : Bytes) : Except Trouble (List Bytes × Bytes) :=
  match unpack Z whole (u32 mem 20) b with
  | .error t => .error t
  | .ok (d, b) =>
    match decodeTasksIn slot r.tstat (u32 mem 28) d with
    | .error t => .error t
    | .ok ts => .ok (ts, b)

end Atop.Spec

namespace Atop.Src
open Spec

/-- As `Answers`; the header object `i` may in addition come to remember its version (its class and its memory stay). -/
structure AnswersAsking {α : Type} (i : Nat) (w : W) (found : Except Trouble (α × Bytes)) (shows : W → α → Val → Prop)
    (res : Except PExc Val) (w' : W) : Prop where
  fails : ∀ t, found = .error t → res = .error (embExc (troubleExc w.file.short t))
  gives : ∀ a b, found = .ok (a, b) → (∃ v, res = .ok v ∧ shows w' a v) ∧ w'.file.rest = b
  container : w'.file.short = w.file.short
  memory : w.heap <+: w'.heap
  headers : ∀ (j : Nat) (o : PHdr), w.headers[j]? = some o → ∃ o', w'.headers[j]? = some o' ∧ o'.cls = o.cls ∧ o'.blk = o.blk ∧
    (j ≠ i → o' = o)
  out : w'.out = w.out

end Atop.Src

namespace Atop.Src
open Spec
set_option maxRecDepth 20000

theorem class_used (hb : Bytes) : headerByVersion (usedRow hb).version = some (classFor hb) := by
  obtain ⟨-, h1, h2⟩ := classFor_facts hb
  cases hr : rowFor (major hb) (minor hb) with
  | none =>
    obtain ⟨a, b⟩ := h1 hr
    rw [a, b]; rfl
  | some r =>
    obtain ⟨a, b, c, d, -, e⟩ := h2 r hr
    rw [b, ← e]
    have := (table_versionString r a).1
    rw [c, d] at this
    rw [this]

theorem usable_now {hb buf : Bytes} (hlb : hb.length = 480) (hl : buf.length = 480) (ho : ¬ tooOld hb) :
    Usable ⟨classFor hb, buf, some (major hb, minor hb)⟩ (usedRow hb) (major hb, minor hb) (readsCGroups hb) (u32 buf 32) (i32 buf 456) := by
  have U := usable_of hlb ho (some (major hb, minor hb)) (.inr rfl)
  exact ⟨U.facts, hl, rfl, U.old, U.cg_iff, rfl, rfl, U.cgs, U.pos⟩

theorem first480_length (b : Bytes) : (first480 b).length = 480 := by simp [first480]; omega

theorem getRecord_facts {h : Header} {r : Row} (F : Facts h.cls r) (s : Stream) :
    getRecord h s = match Stream.readinto r.record s with
      | (.ok b, s') => (.ok ⟨h.cls.Record, b⟩, s')
      | (.error e, s') => (.error e, s') := by
  unfold getRecord; rw [F.record, Rd.bind_eq]
  rcases Stream.readinto r.record s with ⟨_ | _, _⟩ <;> rfl

theorem decodeChainIn_fits (slot : Int) (L : Nat) (d : Bytes) : ∀ (k : Nat) (S : Int) (p : Bytes) {gs : List WGroup},
    decodeChainIn slot L d k S p = .ok gs → ∀ g ∈ gs, g.entry.length = L ∧ (g.pids.length : Int) = 4 * i32 g.entry 16
  | 0, S, p, gs, h => by cases h; nofun
  | k + 1, S, p, gs, h => by
    rw [decodeChainIn] at h
    split at h
    · cases h
    · rename_i h1
      split at h
      · cases h
      · rename_i h2
        split at h
        · cases h
        · rename_i h3
          split at h
          · cases h
          · rename_i gs' h4
            cases h
            intro g hg
            rcases List.mem_cons.mp hg with rfl | hg
            · refine ⟨by rw [List.length_take]; omega, ?_⟩
              dsimp only
              rw [List.length_take]
              omega
            · exact decodeChainIn_fits slot L d k _ _ h4 g hg

/-! ### A header whose version has not been asked for yet -/

/-- Only the header object `i` may change, and only what it remembers of its version. -/
def OnlyAsked (i : Nat) (w w' : World) : Prop :=
  ∀ (j : Nat) (o : HObj), w.headers[j]? = some o → ∃ o', w'.headers[j]? = some o' ∧ o'.cls = o.cls ∧ o'.blk = o.blk ∧ (j ≠ i → o' = o)

theorem OnlyAsked.same {i w w'} (h : w'.headers = w.headers) : OnlyAsked i w w' :=
  fun j o ho => ⟨o, by rw [h]; exact ho, rfl, rfl, fun _ => rfl⟩

theorem OnlyAsked.trans {i w w' w''} (h : OnlyAsked i w w') (h' : OnlyAsked i w' w'') : OnlyAsked i w w'' := by
  intro j o ho
  obtain ⟨o1, a1, a2, a3, a4⟩ := h j o ho
  obtain ⟨o2, b1, b2, b3, b4⟩ := h' j o1 a1
  exact ⟨o2, b1, b2.trans a2, b3.trans a3, fun hj => (b4 hj).trans (a4 hj)⟩

/-- A computation that changes no more. -/
def Asks {α : Type} (i : Nat) (m : M α) : Prop := ∀ w, OnlyAsked i w (m w).2

theorem Asks.bind {α β : Type} {i} {m : M α} {k : α → M β} (h : Asks i m) (hk : ∀ a, Asks i (k a)) : Asks i (m >>= k) := by
  intro w
  have h1 := h w
  rw [M.bind_eq]
  rcases hm : m w with ⟨e | a, w1⟩ <;> rw [hm] at h1
  · exact h1
  · exact h1.trans (hk a w1)

theorem Asks.plain {α : Type} {i} {m : M α} (h : Plain m) : Asks i m := by
  intro w
  obtain ⟨x, hp, f, -, e⟩ := h w.heap w.file
  refine OnlyAsked.same ?_
  have : m w = _ := e w.headers
  rw [this]

theorem Asks.header (i j : Nat) : Asks i (M.header j) := by
  intro w
  refine OnlyAsked.same ?_
  unfold M.header
  cases w.header j <;> rfl

theorem Asks.latch (i : Nat) : Asks i (M.latch i) := by
  intro w
  unfold M.latch
  split
  · rename_i o h ho hh
    intro j x hx
    by_cases hj : i = j
    · subst hj
      rw [ho] at hx; cases hx
      exact ⟨_, List.getElem?_set_self (List.getElem?_eq_some_iff.mp ho).1, rfl, rfl, fun h => absurd rfl h⟩
    · exact ⟨x, by rw [List.getElem?_set_ne hj]; exact hx, rfl, rfl, fun _ => rfl⟩
  · exact OnlyAsked.same rfl

theorem Asks.getTStat (Z : Zlib) (i : Nat) (x : Ref) : Asks i (Obj.getTStat Z i x) := by
  unfold Obj.getTStat
  refine (Asks.plain (Plain.inst x)).bind fun r => ?_
  refine (Asks.plain (Plain.lift _)).bind fun _ => ?_
  refine (Asks.plain (Plain.file _)).bind fun _ => ?_
  refine (Asks.plain (Plain.lift _)).bind fun _ => ?_
  refine (Asks.plain (Plain.inst x)).bind fun _ => ?_
  refine (Asks.plain (Plain.lift _)).bind fun _ => ?_
  refine (Asks.header i i).bind fun _ => ?_
  refine (Asks.plain (Plain.lift _)).bind fun _ => ?_
  refine (Asks.latch i).bind fun _ => ?_
  refine (Asks.header i i).bind fun _ => ?_
  refine (Asks.plain (Plain.lift _)).bind fun _ => ?_
  exact Asks.plain (Plain.tstatLoop _ _ _ _ _)

/-- The same world, with the version asked for. -/
theorem asked {w : World} {i h v} (k : HeaderAt w i h) (hv : h.version = .ok v) :
    ∃ w', Lat w w' ∧ HeaderAt w' i { h with cache := some v } := by
  obtain ⟨o, b, e1, e2, e3, e4, e5⟩ := id k
  have hi := (List.getElem?_eq_some_iff.mp e1).1
  have hb := (List.getElem?_eq_some_iff.mp e4).1
  have hbd : w.heap.getD o.blk [] = b := by rw [List.getD_eq_getElem?_getD, e4]; rfl
  refine ⟨{ w with headers := w.headers.set i { o with cache := some v } },
    ⟨rfl, rfl, by simp, fun j x x' hx hx' => ?_⟩, ⟨{ o with cache := some v }, b, List.getElem?_set_self hi, e2, rfl, e4, e5⟩⟩
  dsimp only at hx'
  by_cases hj : i = j
  · subst hj
    rw [List.getElem?_set_self hi] at hx'
    rw [e1] at hx
    cases hx
    cases hx'
    refine ⟨rfl, rfl, ?_⟩
    cases hc : o.cache with
    | some c =>
      refine .inl ?_
      unfold Header.version at hv
      rw [← e3, hc] at hv
      cases hv
      rfl
    | none =>
      refine .inr ⟨rfl, hb, v, ?_, rfl⟩
      rw [hbd, ← e5, e2, ← hv, ← hc, e3]
  · rw [List.getElem?_set_ne hj, hx] at hx'
    cases hx'
    exact HPair.refl _ _

theorem answersAsking {α β γ : Type} {out : PyStr} {w w2 : World} {i : Nat} {f : α → Val} {m : M α} {rd : Rd β} {rel : World → α → β → Prop}
    {found : Except Trouble (γ × Bytes)} {g : γ → β} {shows : W → γ → Val → Prop}
    (L : Lat w w2) (same : SameL Eq m m) (asks : Asks i m)
    (S : SimAt w2 m rd rel) (D : Does rd w.file found g) (hs : (rd w.file).2.short = w.file.short)
    (hv : ∀ w' w2' a c, Lat w' w2' → rel w2' a (g c) → (∃ b, found = .ok (c, b)) → shows (emb out w') c (f a)) :
    AnswersAsking i (emb out w) found shows (embR out f (m w)).1 (embR out f (m w)).2 := by
  obtain ⟨s1, s2, s3⟩ := S
  obtain ⟨r1, r2⟩ := same w w2 L
  have hA := asks w
  rw [← L.file] at s2 s3
  have e2 : (embR out f (m w)).2 = emb out (m w).2 := by
    unfold embR; rcases m w with ⟨e | a, w'⟩ <;> rfl
  rw [e2]
  refine ⟨?_, ?_, ?_, ?_, ?_, rfl⟩
  · intro t ht
    have := D.1 t ht
    rw [this] at s3
    unfold embR
    rcases hm : m w with ⟨e | a, w'⟩ <;> rcases hm2 : m w2 with ⟨e2 | a2, w2'⟩ <;> rw [hm, hm2] at r1 <;> rw [hm2] at s3
    · dsimp only at s3 ⊢
      have r1 : e = e2 := r1
      rw [r1, s3]; rfl
    · exact s3.elim
    · exact r1.elim
    · exact s3.elim
  · intro c b hc
    obtain ⟨s', d1, d2, d3⟩ := D.2 c b hc
    rw [d1] at s2 s3
    unfold embR
    rcases hm : m w with ⟨e | a, w'⟩ <;> rcases hm2 : m w2 with ⟨e2 | a2, w2'⟩ <;> rw [hm, hm2] at r1 r2 <;> rw [hm2] at s2 s3
    · exact s3.elim
    · exact r1.elim
    · exact s3.elim
    · have r1 : a = a2 := r1
      subst r1
      refine ⟨⟨_, rfl, hv w' w2' a c r2 s3 ⟨b, hc⟩⟩, ?_⟩
      show w'.file.rest = b
      rw [show w'.file = w2'.file from r2.file, show w2'.file = s' from s2, d2]
  · show (m w).2.file.short = w.file.short
    rw [r2.file, s2, hs]
  · show w.heap <+: (m w).2.heap
    rw [r2.heap, L.heap]; exact s1.1
  · intro j o ho
    have ho : (w.headers.map embH)[j]? = some o := ho
    rw [List.getElem?_map] at ho
    cases hj : w.headers[j]? with
    | none => rw [hj] at ho; cases ho
    | some q =>
      rw [hj] at ho; cases ho
      obtain ⟨q', q1, q2, q3, q4⟩ := hA j q hj
      refine ⟨embH q', ?_, q2, q3, fun h => by rw [q4 h]⟩
      show ((m w).2.headers.map embH)[j]? = _
      rw [List.getElem?_map, q1]; rfl

theorem inst_heap {w w' : World} (h : w.heap = w'.heap) : w.inst = w'.inst := by
  funext x; unfold World.inst; rw [h]

section
variable (Z : Zlib) (fs : FileSystem) (args : CommandLine)
variable (n : Nat) (out : PyStr) {w : World} (hl : LibFile w.file) (W : w.WF) {i : Nat} {h h0 : Header} {s0 s1 : Stream}
  (hi : w.header i = some h) (hg : getHeader false s0 = (.ok h0, s1)) (hcls : h.cls = h0.cls) {B : Blocks}
  (hB : layoutOf (usedRow (first480 s0.rest)).version = some B)
include hl W hi hg hcls hB

/-- **C79** `get_record` with a header that was not checked, of any version, whatever the memory of the header now holds. -/
theorem C79_unchecked_record :
    let res := ((program Z fs args).at (n + 5)).call py!"atoparser" py!"get_record" [.file, .hdr i] [] (emb out w)
    Answers (emb out w) (recordAt (usedRow (first480 s0.rest)) w.file.short.isNone w.file.rest)
      (fun w' d v => Displays ((program Z fs args).at (n + 5)) w' v B.record d ∧
        ∃ x : Ref, v = refVal x ∧ x.ty = h.cls.Record ∧ (emb out w).heap.length ≤ x.blk ∧ w'.heap[x.blk]? = some d) res.1 res.2 := by
  have hcb : h.cls = classFor (first480 s0.rest) := by rw [hcls, getHeader_unchecked hg]
  have hc : h.cls ∈ versions := by rw [hcb]; exact classFor_mem _
  have hcl : headerByVersion (usedRow (first480 s0.rest)).version = some h.cls := by rw [hcb]; exact class_used _
  have F : Facts h.cls (usedRow (first480 s0.rest)) := by rw [hcb]; exact (classFor_facts _).1
  obtain ⟨c', B', hc', hB', ⟨n1, n2, n3, n4, n5⟩, ⟨z1, z2, z3, z4, z5⟩, ⟨m1, m2, m3, m4, m5⟩⟩ := layout_facts (usedRow_mem (first480 s0.rest))
  rw [hcl] at hc'; cases hc'
  rw [hB] at hB'; cases hB'
  dsimp only
  rw [(C68_readers Z fs args (n + 2) out w hl i h hi hc ⟨h.cls.Record, 0⟩ ⟨_, hc, rfl⟩).1]
  have D : Does (getRecord h) w.file (recordAt (usedRow (first480 s0.rest)) w.file.short.isNone w.file.rest) (fun d => ⟨h.cls.Record, d⟩) := by
    have D := does_readinto (usedRow (first480 s0.rest)).record w.file
    unfold recordAt Does
    rw [getRecord_facts F]
    cases hx : takeBytes w.file.short.isNone (usedRow (first480 s0.rest)).record w.file.rest with
    | error t =>
      refine ⟨?_, nofun⟩
      intro t' ht; cases ht
      have := D.1 t hx
      rcases hr : Stream.readinto (usedRow (first480 s0.rest)).record w.file with ⟨e | b, s'⟩ <;> rw [hr] at this
      · simpa using this
      · cases this
    | ok gb =>
      obtain ⟨g, b⟩ := gb
      refine ⟨nofun, ?_⟩
      intro a b' hab; cases hab
      obtain ⟨s', e1, e2⟩ := D.2 g b hx
      exact ⟨s', by rw [e1], e2⟩
  refine answers (sim_getRecord (header_at W hi)) D ?_ ?_
  · rw [getRecord_facts F]
    have := (readinto_skip (usedRow (first480 s0.rest)).record w.file).1
    rcases hr : Stream.readinto (usedRow (first480 s0.rest)).record w.file with ⟨e | b, s'⟩ <;> rw [hr] at this <;> dsimp only at this ⊢ <;> rw [this] <;> rfl
  · rintro w' a d ⟨hr, hlo, -⟩ ⟨b, hb⟩
    have hlen : d.length = (usedRow (first480 s0.rest)).record := by
      unfold recordAt takeBytes at hb
      split at hb
      · cases hb
      · rename_i heq
        split at heq
        · cases heq
        · cases heq; cases hb; simp
    exact ⟨displays_ref Z fs args (n + 1) out m2 hr.inst (by rw [z2]; exact hlen) n2, a, rfl, hr.1, hlo, hr.2⟩

variable {x : Ref} (hx : x.ty = h.cls.Record) {mem : Bytes} (hm : w.heap[x.blk]? = some mem)
include hx hm

/-- **C79** `get_sstat` with a header that was not checked, of any version, whatever the memory of the header and of the record
now hold. -/
theorem C79_unchecked_sstat :
    let res := ((program Z fs args).at (n + 5)).call py!"atoparser" py!"get_sstat" [.file, .hdr i, refVal x] [] (emb out w)
    Answers (emb out w) (sstatAt Z (usedRow (first480 s0.rest)) w.file.short.isNone mem w.file.rest)
      (fun w' d v => Displays ((program Z fs args).at (n + 5)) w' v B.sstat d) res.1 res.2 := by
  have hcb : h.cls = classFor (first480 s0.rest) := by rw [hcls, getHeader_unchecked hg]
  have hc : h.cls ∈ versions := by rw [hcb]; exact classFor_mem _
  have hcl : headerByVersion (usedRow (first480 s0.rest)).version = some h.cls := by rw [hcb]; exact class_used _
  have F : Facts h.cls (usedRow (first480 s0.rest)) := by rw [hcb]; exact (classFor_facts _).1
  obtain ⟨c', B', hc', hB', ⟨n1, n2, n3, n4, n5⟩, ⟨z1, z2, z3, z4, z5⟩, ⟨m1, m2, m3, m4, m5⟩⟩ := layout_facts (usedRow_mem (first480 s0.rest))
  rw [hcl] at hc'; cases hc'
  rw [hB] at hB'; cases hB'
  dsimp only
  rw [(C68_readers Z fs args (n + 2) out w hl i h hi hc x ⟨_, hc, hx⟩).2.1]
  refine answers (sim_getSStat Z (header_at W hi) (r := ⟨h.cls.Record, mem⟩) ⟨hx, hm⟩) (does_sstatIn F Z mem w.file) ?_ ?_
  · rw [getSStat_facts F]
    exact bind_lift_short (block_short Z _ _)
  · rintro w' a d ⟨hr, -⟩ ⟨b, hb⟩
    refine displays_ref Z fs args (n + 1) out m3 hr.inst ?_ n3
    rw [z3]
    unfold sstatAt at hb
    split at hb
    · cases hb
    · split at hb
      · cases hb
      · cases hb; rw [List.length_take]; omega

/-- **C79** `get_tstat` with a header that was not checked and whose version has been asked for: as many task objects as the
record says, spaced by the length the header records now. -/
theorem C79_unchecked_tstat (ho : ¬ tooOld (first480 s0.rest)) (hlen : h.buf.length = 480)
    (hver : h.cache = some (major (first480 s0.rest), minor (first480 s0.rest))) :
    let res := ((program Z fs args).at (n + 5)).call py!"atoparser" py!"get_tstat" [.file, .hdr i, refVal x] [] (emb out w)
    Answers (emb out w) (tstatSpaced Z (usedRow (first480 s0.rest)) (u32 h.buf 32) w.file.short.isNone mem w.file.rest)
      (fun w' ts v => ∃ vs, v = .list vs ∧ AllShow (fun t v => Displays ((program Z fs args).at (n + 5)) w' v B.tstat t) ts vs) res.1 res.2 := by
  have hcb : h.cls = classFor (first480 s0.rest) := by rw [hcls, getHeader_unchecked hg]
  have hc : h.cls ∈ versions := by rw [hcb]; exact classFor_mem _
  have hcl : headerByVersion (usedRow (first480 s0.rest)).version = some h.cls := by rw [hcb]; exact class_used _
  have F : Facts h.cls (usedRow (first480 s0.rest)) := by rw [hcb]; exact (classFor_facts _).1
  have U := usable_now (first480_length s0.rest) hlen ho
  rw [← hcb, ← hver] at U
  obtain ⟨c', B', hc', hB', ⟨n1, n2, n3, n4, n5⟩, ⟨z1, z2, z3, z4, z5⟩, ⟨m1, m2, m3, m4, m5⟩⟩ := layout_facts (usedRow_mem (first480 s0.rest))
  rw [hcl] at hc'; cases hc'
  rw [hB] at hB'; cases hB'
  dsimp only
  rw [(C68_readers Z fs args (n + 2) out w hl i h hi hc x ⟨_, hc, hx⟩).2.2.1]
  have D := does_tstatIn U Z mem w.file
  refine answers (sim_getTStat Z (header_at W hi) hver (r := ⟨h.cls.Record, mem⟩) ⟨hx, hm⟩) D ?_ ?_
  · rw [getTStat_usable U]
    exact bind_lift_short (block_short Z _ _)
  · rintro w' a ts ⟨hr, -⟩ ⟨b, hb⟩
    have hlen : ∀ t ∈ ts, t.length = (usedRow (first480 s0.rest)).tstat := by
      unfold tstatSpaced at hb
      split at hb
      · cases hb
      · rename_i d _ _
        unfold decodeTasksIn at hb
        split at hb
        · cases hb
        · rename_i heq
          split at heq
          · cases heq
          · rename_i hge
            cases heq; cases hb
            intro t ht
            obtain ⟨j, hj, rfl⟩ := List.mem_map.mp ht
            rw [List.mem_range] at hj
            have : j * u32 h.buf 32 ≤ (u32 mem 28 - 1) * u32 h.buf 32 := Nat.mul_le_mul_right _ (by omega)
            rw [List.length_take, List.length_drop]
            have : ¬ d.length < (u32 mem 28 - 1) * u32 h.buf 32 + (usedRow (first480 s0.rest)).tstat := fun hd => hge ⟨by omega, .inr hd⟩
            omega
    refine ⟨_, rfl, by have := congrArg List.length hr; simpa using this, ?_⟩
    intro j t y ht hy
    rw [List.getElem?_map] at hy
    cases hq : a[j]? with
    | none => rw [hq] at hy; cases hy
    | some q =>
      rw [hq] at hy
      cases hy
      have := congrArg (·[j]?) hr
      simp only [List.getElem?_map, hq, Option.map_some, ht] at this
      exact displays_ref Z fs args (n + 1) out m4 (Option.some.inj this) (by rw [z4]; exact hlen t (List.mem_of_getElem? ht)) n4

/-- **C79** ... and when its version has not been asked for yet (and its memory still holds the version it was read with): the
same, and the header object may come to remember its version. -/
theorem C79_unchecked_tstat_asking (ho : ¬ tooOld (first480 s0.rest)) (hlen : h.buf.length = 480)
    (hver : h.version = .ok (major (first480 s0.rest), minor (first480 s0.rest))) :
    let res := ((program Z fs args).at (n + 5)).call py!"atoparser" py!"get_tstat" [.file, .hdr i, refVal x] [] (emb out w)
    AnswersAsking i (emb out w) (tstatSpaced Z (usedRow (first480 s0.rest)) (u32 h.buf 32) w.file.short.isNone mem w.file.rest)
      (fun w' ts v => ∃ vs, v = .list vs ∧ AllShow (fun t v => Displays ((program Z fs args).at (n + 5)) w' v B.tstat t) ts vs) res.1 res.2 := by
  have hcb : h.cls = classFor (first480 s0.rest) := by rw [hcls, getHeader_unchecked hg]
  have hc : h.cls ∈ versions := by rw [hcb]; exact classFor_mem _
  have hcl : headerByVersion (usedRow (first480 s0.rest)).version = some h.cls := by rw [hcb]; exact class_used _
  have F : Facts h.cls (usedRow (first480 s0.rest)) := by rw [hcb]; exact (classFor_facts _).1
  have U := usable_now (first480_length s0.rest) hlen ho
  rw [← hcb] at U
  obtain ⟨c', B', hc', hB', ⟨n1, n2, n3, n4, n5⟩, ⟨z1, z2, z3, z4, z5⟩, ⟨m1, m2, m3, m4, m5⟩⟩ := layout_facts (usedRow_mem (first480 s0.rest))
  rw [hcl] at hc'; cases hc'
  rw [hB] at hB'; cases hB'
  dsimp only
  rw [(C68_readers Z fs args (n + 2) out w hl i h hi hc x ⟨_, hc, hx⟩).2.2.1]
  obtain ⟨w2, L, k2⟩ := asked (header_at W hi) hver
  have D := does_tstatIn U Z mem w.file
  refine answersAsking L (SameL.getTStat Z i x) (Asks.getTStat Z i x)
    (sim_getTStat Z k2 rfl (r := ⟨h.cls.Record, mem⟩) ⟨hx, by rw [← L.heap]; exact hm⟩) D ?_ ?_
  · rw [getTStat_usable U]
    exact bind_lift_short (block_short Z _ _)
  · rintro w' w2' a ts L' ⟨hr, -⟩ ⟨b, hb⟩
    rw [← inst_heap L'.heap] at hr
    have hlen : ∀ t ∈ ts, t.length = (usedRow (first480 s0.rest)).tstat := by
      unfold tstatSpaced at hb
      split at hb
      · cases hb
      · rename_i d _ _
        unfold decodeTasksIn at hb
        split at hb
        · cases hb
        · rename_i heq
          split at heq
          · cases heq
          · rename_i hge
            cases heq; cases hb
            intro t ht
            obtain ⟨j, hj, rfl⟩ := List.mem_map.mp ht
            rw [List.mem_range] at hj
            have : j * u32 h.buf 32 ≤ (u32 mem 28 - 1) * u32 h.buf 32 := Nat.mul_le_mul_right _ (by omega)
            rw [List.length_take, List.length_drop]
            have : ¬ d.length < (u32 mem 28 - 1) * u32 h.buf 32 + (usedRow (first480 s0.rest)).tstat := fun hd => hge ⟨by omega, .inr hd⟩
            omega
    refine ⟨_, rfl, by have := congrArg List.length hr; simpa using this, ?_⟩
    intro j t y ht hy
    rw [List.getElem?_map] at hy
    cases hq : a[j]? with
    | none => rw [hq] at hy; cases hy
    | some q =>
      rw [hq] at hy
      cases hy
      have := congrArg (·[j]?) hr
      simp only [List.getElem?_map, hq, Option.map_some, ht] at this
      exact displays_ref Z fs args (n + 1) out m4 (Option.some.inj this) (by rw [z4]; exact hlen t (List.mem_of_getElem? ht)) n4

/-- **C79** `get_cstat` with a header that was not checked, of a version with cgroups: each entry bounded by the length the
header records now. -/
theorem C79_unchecked_cstat (ho : ¬ tooOld (first480 s0.rest)) (hlen : h.buf.length = 480)
    (hcg : readsCGroups (first480 s0.rest) = true) :
    let res := ((program Z fs args).at (n + 5)).call py!"atoparser" py!"get_cstat" [.file, .hdr i, refVal x] [] (emb out w)
    Answers (emb out w) (decodeGroupsIn Z (i32 h.buf 456) ((usedRow (first480 s0.rest)).cstat.getD 0) w.file.short.isNone mem w.file.rest)
      (fun w' gs v => ∃ vs, v = .list vs ∧
        AllShow (fun g v => ∃ nd, B.cstat = some nd ∧ DisplaysGroup ((program Z fs args).at (n + 5)) w' v nd g) gs vs) res.1 res.2 := by
  have hcb : h.cls = classFor (first480 s0.rest) := by rw [hcls, getHeader_unchecked hg]
  have hc : h.cls ∈ versions := by rw [hcb]; exact classFor_mem _
  have hcl : headerByVersion (usedRow (first480 s0.rest)).version = some h.cls := by rw [hcb]; exact class_used _
  have F : Facts h.cls (usedRow (first480 s0.rest)) := by rw [hcb]; exact (classFor_facts _).1
  have U := usable_now (first480_length s0.rest) hlen ho
  rw [← hcb, hcg] at U
  obtain ⟨t, L, t1, t2, t3⟩ := usable_cstat U
  obtain ⟨c', B', hc', hB', ⟨n1, n2, n3, n4, n5⟩, ⟨z1, z2, z3, z4, z5⟩, ⟨m1, m2, m3, m4, m5⟩⟩ := layout_facts (usedRow_mem (first480 s0.rest))
  rw [hcl] at hc'; cases hc'
  rw [hB] at hB'; cases hB'
  dsimp only
  rw [(C68_readers Z fs args (n + 2) out w hl i h hi hc x ⟨_, hc, hx⟩).2.2.2]
  have D : Does (getCStat Z h ⟨h.cls.Record, mem⟩) w.file _ _ := does_cstatIn U Z mem t1 w.file
  refine answers (sim_getCStat Z (header_at W hi) (r := ⟨h.cls.Record, mem⟩) ⟨hx, hm⟩) D ?_ ?_
  · have e : getCStat Z h ⟨h.cls.Record, mem⟩ = _ := getCStat_usable U Z mem t1
    rw [e, Rd.bind_eq]
    have b1 := block_short Z (u32 mem 72) w.file
    rcases hr : block Z (u32 mem 72) w.file with ⟨e | d, s'⟩ <;> rw [hr] at b1
    · exact b1
    · dsimp only at b1 ⊢
      rw [bind_lift_short (block_short Z _ _), b1]
  · rintro w' a gs ⟨hr, -⟩ ⟨b, hb⟩
    have hsz : ∀ g ∈ gs, t.size ≤ g.entry.length ∧ 4 * (g.pids.length / 4) = g.pids.length := by
      unfold decodeGroupsIn at hb
      split at hb
      · cases hb
      · split at hb
        · cases hb
        · split at hb
          · cases hb
          · rename_i hch
            cases hb
            intro g hg'
            obtain ⟨a1, a2⟩ := decodeChainIn_fits _ _ _ _ _ _ hch g hg'
            rw [t2, Option.getD_some] at a1
            exact ⟨by omega, by omega⟩
    refine ⟨_, rfl, by have := congrArg List.length hr; simpa using this, ?_⟩
    intro j g y hg' hy
    rw [List.getElem?_map] at hy
    cases hq : a[j]? with
    | none => rw [hq] at hy; cases hy
    | some q =>
      rw [hq] at hy
      cases hy
      have := congrArg (·[j]?) hr
      simp only [List.getElem?_map, hq, Option.map_some, hg'] at this
      rw [t1] at n5
      obtain ⟨g1, g2⟩ := hsz g (List.mem_of_getElem? hg')
      exact ⟨_, n5.symm, displays_group Z fs args n out (m5 t t1) (Option.some.inj this) g1 g2 rfl⟩

end

/-- **C79** `get_tstat` with a header of an unsupported version before 2.3 (which only an unchecked header can be): no tasks are
made up.  The block is read, and what is wrong with it is raised if anything is; otherwise it is an `AttributeError`, and the
file is behind the block.  Nothing else changes. -/
theorem C79_unchecked_tstat_old (Z : Zlib) (fs : FileSystem) (args : CommandLine) (n : Nat) (out : PyStr) {w : World}
    (hl : LibFile w.file) (W : w.WF) {i : Nat} {h : Header} {s0 s1 : Stream} (hi : w.header i = some h)
    (hg : getHeader false s0 = (.ok h, s1)) (ho : tooOld (first480 s0.rest)) {x : Ref} (hx : x.ty = h.cls.Record) {mem : Bytes}
    (hm : w.heap[x.blk]? = some mem) :
    let res := ((program Z fs args).at (n + 5)).call py!"atoparser" py!"get_tstat" [.file, .hdr i, refVal x] [] (emb out w)
    (∀ t, unpack Z w.file.short.isNone (u32 mem 20) w.file.rest = .error t → res.1 = .error (embExc (troubleExc w.file.short t))) ∧
    (∀ d b, unpack Z w.file.short.isNone (u32 mem 20) w.file.rest = .ok (d, b) →
      res.1 = .error (.sys .attributeError) ∧ res.2.file.rest = b) ∧
    (emb out w).heap <+: res.2.heap ∧ (emb out w).headers <+: res.2.headers ∧ res.2.out = out := by
  have hh := getHeader_unchecked hg
  have hc : h.cls ∈ versions := by rw [hh]; exact classFor_mem _
  have hca : h.cache = some (major (first480 s0.rest), minor (first480 s0.rest)) := by
    rw [hh]
    show cacheOf _ = _
    unfold cacheOf
    rw [if_neg (by rw [ho.1]; simp)]
  have hd : h = ⟨defaultHeader, first480 s0.rest, some (major (first480 s0.rest), minor (first480 s0.rest))⟩ := by
    rw [← hca, hh, ((classFor_facts _).2.1 ho.1).1]
  dsimp only
  rw [(C68_readers Z fs args (n + 2) out w hl i h hi hc x ⟨_, hc, hx⟩).2.2.1]
  obtain ⟨s1, s2, s3⟩ := sim_getTStat Z (header_at W hi) hca (rec := x) (r := ⟨h.cls.Record, mem⟩) ⟨hx, hm⟩
  have e : getTStat Z h ⟨h.cls.Record, mem⟩ = (do
      let _ ← block Z (u32 mem 20)
      Rd.raise .attributeError) := by
    rw [hd]; exact getTStat_old Z _ ho.2 mem
  rw [e, Rd.bind_eq] at s2 s3
  have D := does_unpack Z (u32 mem 20) w.file
  have e2 : ∀ r : Except Exc (List Ref) × World, (embR out (fun a => Val.list (a.map refVal)) r).2 = emb out r.2 := by
    rintro ⟨e | a, w'⟩ <;> rfl
  rw [e2]
  refine ⟨?_, ?_, s1.1, List.IsPrefix.map _ s1.2, rfl⟩
  · intro t ht
    have := D.1 t ht
    rcases hb : block Z (u32 mem 20) w.file with ⟨e' | d, s'⟩ <;> rw [hb] at this s3
    · cases this
      dsimp only at s3
      rcases hr : Obj.getTStat Z i x w with ⟨e' | a, w'⟩ <;> rw [hr] at s3
      · dsimp only at s3; subst s3; rfl
      · exact s3.elim
    · cases this
  · intro d b hu
    obtain ⟨s', d1, d2, -⟩ := D.2 d b hu
    rw [d1] at s2 s3
    dsimp only at s2 s3
    have s2 : (Obj.getTStat Z i x w).2.file = s' := s2
    refine ⟨?_, by show (Obj.getTStat Z i x w).2.file.rest = b; rw [s2, d2]⟩
    rcases hr : Obj.getTStat Z i x w with ⟨e' | a, w'⟩ <;> rw [hr] at s3
    · have s3 : e' = .attributeError := s3
      subst s3; rfl
    · exact s3.elim

/-- **C79** `get_cstat` with a header that was not checked, and a record, of a version without cgroups: as with one that was
checked.  It changes the memory
of no object, no header object, and prints nothing.  Records of these versions have no length of a cgroup block, so it is an
`AttributeError` and nothing is read; only those of 2.8 and 2.9 have one, unused. -/
theorem C79_unchecked_cstat_old (Z : Zlib) (fs : FileSystem) (args : CommandLine) (n : Nat) (out : PyStr) {w : World} (hl : LibFile w.file) (W : w.WF) {i : Nat} {h h0 : Header} {s0 s1 : Stream}
    (hi : w.header i = some h) (hg : getHeader false s0 = (.ok h0, s1)) (hcls : h.cls = h0.cls) {x : Ref} (hx : x.ty = h.cls.Record)
    {mem : Bytes} (hm : w.heap[x.blk]? = some mem) (old : (usedRow (first480 s0.rest)).cstat = none) :
    let res := ((program Z fs args).at (n + 5)).call py!"atoparser" py!"get_cstat" [.file, .hdr i, refVal x] [] (emb out w)
    (∃ e, res.1 = .error e ∧ (e = .sys .attributeError ∨ e = .sys .zlibError ∨ ∃ e', w.file.short = some e' ∧ e = .sys e')) ∧
    (emb out w).heap <+: res.2.heap ∧ (emb out w).headers <+: res.2.headers ∧ res.2.out = out ∧
    ((usedRow (first480 s0.rest)).version ≠ py!"2.8" ∧ (usedRow (first480 s0.rest)).version ≠ py!"2.9" →
      res = (.error (.sys .attributeError), emb out w)) := by
  have hcb : h.cls = classFor (first480 s0.rest) := by rw [hcls, getHeader_unchecked hg]
  have hc : h.cls ∈ versions := by rw [hcb]; exact classFor_mem _
  have hcl : headerByVersion (usedRow (first480 s0.rest)).version = some h.cls := by rw [hcb]; exact class_used _
  have F : Facts h.cls (usedRow (first480 s0.rest)) := by rw [hcb]; exact (classFor_facts _).1
  dsimp only
  rw [(C68_readers Z fs args (n + 2) out w hl i h hi hc x ⟨_, hc, hx⟩).2.2.2]
  have hl2 := F.cstatlen
  rw [if_neg (by rw [old]; simp)] at hl2
  have hlen : h.inst.intAttr py!"cstatlen" = .error .attributeError := attr_missing (t := h.inst.ty) hl2 h.inst.buf
  obtain ⟨e, he, hk⟩ := getCStat_old (Z := Z) (x := ⟨h.cls.Record, mem⟩) hlen
    (fun name hn => length_fields _ (usedRow_mem (first480 s0.rest)) _ hcl name hn mem) w.file
  obtain ⟨s1, s2, s3⟩ := sim_getCStat Z (header_at W hi) (rec := x) (r := ⟨h.cls.Record, mem⟩) ⟨hx, hm⟩
  rw [he] at s3
  have hsys : embExc e = .sys e := by
    rcases hk with rfl | rfl | hk
    · rfl
    · rfl
    · exact hl e hk
  have main : (embR out (fun a => Val.list (a.map groupVal)) (Obj.getCStat Z i x w)) = (.error (.sys e), emb out (Obj.getCStat Z i x w).2) := by
    rcases hr : Obj.getCStat Z i x w with ⟨e' | a, w'⟩ <;> rw [hr] at s3
    · dsimp only at s3
      subst s3
      show (Except.error (embExc e'), _) = _
      rw [hsys]
    · exact s3.elim
  refine ⟨⟨_, congrArg Prod.fst main, ?_⟩, ?_, ?_, ?_, ?_⟩
  · rcases hk with rfl | rfl | hk
    · exact .inl rfl
    · exact .inr (.inl rfl)
    · exact .inr (.inr ⟨e, hk, rfl⟩)
  · rw [main]; exact s1.1
  · rw [main]; exact List.IsPrefix.map _ s1.2
  · rw [main]; rfl
  · intro hv
    have e0 := attr_missing (old_records _ (usedRow_mem (first480 s0.rest)) _ hcl old hv) mem
    have : Obj.getCStat Z i x w = (.error .attributeError, w) := by
      unfold Obj.getCStat
      rw [M.bind_eq, ref_inst (x := x) (y := ⟨h.cls.Record, mem⟩) ⟨hx, hm⟩]
      dsimp only
      rw [M.bind_eq, e0]
      rfl
    rw [this]
    rfl

/-! ## A concrete case -/

theorem unchecked_returned {s : Stream} (hs : s.short = none) (hm : u32 (first480 s.rest) 0 = magic) : ∃ s1,
    getHeader false s = (.ok ⟨classFor (first480 s.rest), first480 s.rest, cacheOf (first480 s.rest)⟩, s1) := by
  rw [Atop.getHeader_eq, Stream.readinto_none hs]
  refine ⟨_, Prod.ext ?_ rfl⟩
  show headerOf false (first480 s.rest) = _
  unfold headerOf
  rw [if_neg (fun h => h hm), if_pos rfl]

/-- A 1.26 header that records tasks eight bytes longer than the structure, its version not asked for yet; a record of the
caller that announces two tasks; a file with just their block.  Two tasks come back, each showing its bytes. -/
example (fs : FileSystem) (args : CommandLine) : ∃ B t1 t2, layoutOf py!"1.26" = some B ∧
    let w : World := { file := { data := [8] }, heap := [toyHeader rowWide, wideBody.take 80], headers := [⟨classFor (toyHeader rowWide), 0, cacheOf (toyHeader rowWide)⟩] }
    let res := ((program blockZ fs args).at 5).call py!"atoparser" py!"get_tstat"
      [.file, .hdr 0, refVal ⟨(classFor (toyHeader rowWide)).Record, 1⟩] [] (emb [] w)
    res.1 = .ok (.list [t1, t2]) ∧ Displays ((program blockZ fs args).at 5) res.2 t1 B.tstat (List.replicate 616 1) ∧
    Displays ((program blockZ fs args).at 5) res.2 t2 B.tstat (List.replicate 616 2) ∧ res.2.file.rest = [] := by
  have f1 : Stream.rest { data := toyHeader rowWide } = toyHeader rowWide ∧ first480 (toyHeader rowWide) = toyHeader rowWide ∧
    u32 (toyHeader rowWide) 0 = magic ∧ ¬ tooOld (toyHeader rowWide) ∧ (toyHeader rowWide).length = 480 ∧
    usedRow (toyHeader rowWide) = firstRow ∧ u32 (toyHeader rowWide) 32 = 624 ∧ (classFor (toyHeader rowWide)).size = 480 := by decide +kernel
  obtain ⟨a1, a2, a3, a4, a5, a6, a7, a8⟩ := f1
  have e0 : first480 (Stream.rest { data := toyHeader rowWide }) = toyHeader rowWide := by rw [a1, a2]
  obtain ⟨s1, hg⟩ := unchecked_returned (s := { data := toyHeader rowWide }) rfl (by rw [e0]; exact a3)
  generalize hhb : toyHeader rowWide = hb at *
  rw [e0] at hg
  obtain ⟨c, B, -, hB, -, -, -⟩ := layout_facts (r := firstRow) (by decide)
  let w : World := { file := { data := [8] }, heap := [hb, wideBody.take 80], headers := [⟨classFor hb, 0, cacheOf hb⟩] }
  have hi : w.header 0 = some ⟨classFor hb, hb, cacheOf hb⟩ := by
    show some (Header.mk (classFor hb) (hb.take (classFor hb).size) (cacheOf hb)) = _
    rw [a8, List.take_of_length_le (by rw [a5])]
  have A := C79_unchecked_tstat_asking blockZ fs args 0 [] (w := w) (by intro e he; cases he) (by
      intro o ho
      rw [List.mem_singleton.mp ho]
      show 0 < 2
      omega) hi hg rfl (B := B) (by rw [e0, a6]; exact hB) (x := ⟨(classFor hb).Record, 1⟩) rfl (mem := wideBody.take 80) rfl
      (by rw [e0]; exact a4) a5 (by rw [e0]; exact unchecked_version hb)
  rw [e0, a6] at A
  have found : tstatSpaced blockZ firstRow (u32 hb 32) w.file.short.isNone (wideBody.take 80) w.file.rest =
      .ok ([List.replicate 616 1, List.replicate 616 2], []) := by
    have h2 : u32 (wideBody.take 80) 20 = 1 ∧ u32 (wideBody.take 80) 28 = 2 := by decide +kernel
    have h4 : unpack blockZ true 1 [8] = .ok (List.replicate 624 1 ++ List.replicate 616 2, []) := rfl
    have h5 : decodeTasksIn 624 616 2 (List.replicate 624 1 ++ List.replicate 616 2) = .ok [List.replicate 616 1, List.replicate 616 2] := by
      unfold decodeTasksIn
      rw [if_neg (by rw [List.length_append, List.length_replicate, List.length_replicate]; decide)]
      have : ((List.range 2).map fun i => ((List.replicate 624 1 ++ List.replicate 616 2 : Bytes).drop (i * 624)).take 616) =
        [List.replicate 616 1, List.replicate 616 2] := by decide +kernel
      rw [this]
    unfold tstatSpaced
    rw [h2.1, h2.2, a7, show w.file.short.isNone = true from rfl, show w.file.rest = [8] from rfl, h4]
    dsimp only
    rw [show firstRow.tstat = 616 from rfl, h5]
  obtain ⟨⟨v, v1, vs, rfl, v2, v3⟩, v4⟩ := A.gives _ _ found
  match vs, v2, v1, v3 with
  | [a, b], _, v1, v3 => exact ⟨B, a, b, hB, v1, v3 0 _ _ rfl rfl, v3 1 _ _ rfl rfl, v4⟩

end Atop.Src
