import Verif.Model.Protocol
import Verif.Props.Iteration
import Verif.Props.Toy
/-!
# Histories of one iterator (C47) and interleavings of several iterators over one file (C48)
-/

namespace Atop
open Spec

/-! ## Reading the results -/

/-- The sample in a result. -/
def Seen.sample : Seen → Option Sample
  | .yield x => some x
  | _ => none

/-- The samples in a list of results, in order. -/
def samplesSeen (l : List Seen) : List Sample := l.filterMap Seen.sample

/-- The number of `next()` before the first other operation. -/
def leadingNexts : List Op → Nat
  | .next :: ops => leadingNexts ops + 1
  | _ => 0

/-- What a finished generator answers. -/
def finished : Op → Seen
  | .next => .stop
  | .throw e => .raise e
  | .close => .closed

/-! ## C47 -/

theorem step_done (Z : Zlib) (rot : Bool) (op : Op) (s : Stream) : Gen.step Z rot op .done s = (finished op, .done, s) := by
  cases op <;> rfl

theorem history_done (Z : Zlib) (rot : Bool) : ∀ (ops : List Op) (s : Stream),
    Gen.history Z rot ops .done s = (ops.map finished, .done, s)
  | [], _ => rfl
  | op :: ops, s => by
    rw [Gen.history, step_done]
    dsimp only
    rw [history_done Z rot ops s]
    rfl

theorem onError_cases (rot : Bool) (e : Exc) : onError rot e = .stop ∨ onError rot e = .raise e := by
  unfold onError
  split
  · split
    · exact .inr rfl
    · exact .inl rfl
  · exact .inr rfl

/-- All samples a generator has to give. -/
def allOf (Z : Zlib) (rot : Bool) : Gen → Stream → List Sample
  | .start hd max, s => (generateStatistics Z hd rot max s).1
  | .loop h v left, s => (runLoop Z rot h v left s).1
  | .done, _ => []

theorem loop_all (Z : Zlib) (rot : Bool) (h : Header) (v : Nat × Nat) (left : Nat) (s : Stream) :
    match resumeLoop Z rot h v left s with
    | (.yield x, g, s') => (runLoop Z rot h v left s).1 = x :: allOf Z rot g s'
    | (_, g, _) => (runLoop Z rot h v left s).1 = [] ∧ g = .done := by
  cases left with
  | zero => exact ⟨rfl, rfl⟩
  | succ k =>
    unfold resumeLoop
    rw [runLoop]
    rcases readSample Z h v s with ⟨e | x, s'⟩
    · dsimp only
      rcases onError_cases rot e with h | h <;> rw [h] <;> exact ⟨rfl, rfl⟩
    · cases x with
      | none => exact ⟨rfl, rfl⟩
      | some x => rfl

theorem enter_all (Z : Zlib) (rot : Bool) (h : Header) (max : Int) (s : Stream) :
    match enterTry Z rot h max s with
    | (.yield x, g, s') => (generateStatistics Z (some h) rot max s).1 = x :: allOf Z rot g s'
    | (_, g, _) => (generateStatistics Z (some h) rot max s).1 = [] ∧ g = .done := by
  unfold enterTry generateStatistics
  dsimp only
  cases parsedVersion h with
  | error e =>
    dsimp only
    rcases onError_cases rot e with h | h <;> rw [h] <;> exact ⟨rfl, rfl⟩
  | ok v => exact loop_all Z rot _ v _ s

theorem next_all (Z : Zlib) (rot : Bool) (g : Gen) (s : Stream) :
    match g.next Z rot s with
    | (.yield x, g', s') => allOf Z rot g s = x :: allOf Z rot g' s'
    | (_, g', _) => allOf Z rot g s = [] ∧ g' = .done := by
  cases g with
  | done => exact ⟨rfl, rfl⟩
  | loop h v left => exact loop_all Z rot h v left s
  | start hd max =>
    cases hd with
    | some h => exact enter_all Z rot h max s
    | none =>
      have hn := generate_none (Z := Z) rot max s
      unfold Gen.next
      rcases hg : getHeader true s with ⟨e | h, s'⟩
      · rw [hg] at hn
        exact ⟨by rw [allOf, hn], rfl⟩
      · rw [hg] at hn
        have := enter_all Z rot h max s'
        dsimp only
        rw [allOf, hn]
        exact this

/-- **C47** Whatever a caller does with an iterator — any history of `next()`, `throw()` and `close()` — the samples
it gets are the first ones of the full run, in order: one for each `next()` before the first other operation, as far
as there are any. -/
theorem C47_samples (Z : Zlib) (hd : Option Header) (rot : Bool) (max : Int) (s : Stream) (ops : List Op) :
    samplesSeen (Gen.history Z rot ops (.start hd max) s).1 =
      (generateStatistics Z hd rot max s).1.take (leadingNexts ops) := by
  suffices h : ∀ (ops : List Op) g s, samplesSeen (Gen.history Z rot ops g s).1 = (allOf Z rot g s).take (leadingNexts ops) from
    h ops _ s
  have fin : ∀ ops : List Op, samplesSeen (ops.map finished) = [] := by
    intro ops
    induction ops with
    | nil => rfl
    | cons op ops ih => cases op <;> exact ih
  intro ops
  induction ops with
  | nil => intro g s; simp [Gen.history, samplesSeen, leadingNexts]
  | cons op ops ih =>
    intro g s
    have other : ∀ o : Seen, o.sample = none →
        samplesSeen (o :: (Gen.history Z rot ops .done s).1) = (allOf Z rot g s).take 0 := by
      intro o ho
      rw [history_done, samplesSeen, List.filterMap_cons, ho]
      exact fin ops
    cases op with
    | next =>
      have hn := next_all Z rot g s
      rw [Gen.history]
      unfold Gen.step
      dsimp only
      rcases hr : g.next Z rot s with ⟨o, g', s'⟩
      rw [hr] at hn
      cases o with
      | yield x =>
        dsimp only at hn ⊢
        rw [hn, leadingNexts, List.take_succ_cons, ← ih g' s']
        rfl
      | stop =>
        dsimp only at hn ⊢
        rw [hn.1, hn.2, history_done, List.take_nil]
        exact fin ops
      | raise e =>
        dsimp only at hn ⊢
        rw [hn.1, hn.2, history_done, List.take_nil]
        exact fin ops
    | throw e =>
      rw [Gen.history]
      have hg : (g.throw rot e).2 = .done := by cases g <;> rfl
      have ho : (g.throw rot e).1.seen.sample = none := by
        cases g <;> simp only [Gen.throw, Out.seen, Seen.sample]
        rcases onError_cases rot e with h | h <;> rw [h]
      unfold Gen.step
      dsimp only
      rw [hg]
      exact other _ ho
    | close => exact other _ rfl

/-- **C47** Once an operation has given anything but a sample the iterator is finished: nothing more is read, `next()`
stops, `close()` is silent and `throw(e)` raises `e`. -/
theorem C47_finished (Z : Zlib) (hd : Option Header) (rot : Bool) (max : Int) (s : Stream) (ops rest : List Op)
    {l : List Seen} {o : Seen} {g : Gen} {s' : Stream} (h : Gen.history Z rot ops (.start hd max) s = (l ++ [o], g, s'))
    (ho : ∀ x, o ≠ .yield x) : Gen.history Z rot rest g s' = (rest.map finished, .done, s') := by
  suffices key : ∀ (ops : List Op) g0 s l, Gen.history Z rot ops g0 s = (l ++ [o], g, s') → g = .done by
    rw [key ops _ s l h, history_done]
  intro ops
  induction ops with
  | nil => intro g0 s l h; injection h with h; cases l <;> cases h
  | cons op ops ih =>
    intro g0 s l h
    have done : ∀ {x : Seen} {s0}, (x :: (Gen.history Z rot ops .done s0).1, (Gen.history Z rot ops .done s0).2) = (l ++ [o], g, s') →
        g = .done := by
      intro x s0 h
      rw [history_done] at h
      injection h with _ h
      injection h with h _
      exact h.symm
    rw [Gen.history] at h
    cases op with
    | next =>
      have hn := next_all Z rot g0 s
      unfold Gen.step at h
      dsimp only at h
      rcases hr : g0.next Z rot s with ⟨o', g', s''⟩
      rw [hr] at hn h
      cases o' with
      | yield x =>
        dsimp only at h
        cases l with
        | nil =>
          injection h with h _
          injection h with h _
          exact absurd h.symm (ho x)
        | cons y l =>
          injection h with h h'
          injection h with _ h
          exact ih g' s'' l (Prod.ext h h')
      | stop => rw [hn.2] at h; exact done h
      | raise e => rw [hn.2] at h; exact done h
    | throw e =>
      unfold Gen.step at h
      dsimp only at h
      rw [show (g0.throw rot e).2 = .done by cases g0 <;> rfl] at h
      exact done h
    | close => exact done h

/-- **C47** `throw()` and `close()` read nothing, and nothing is read after them: the file is where the `next()` calls
before the first of them left it. -/
theorem C47_position (Z : Zlib) (rot : Bool) (g : Gen) (s : Stream) (ops : List Op) :
    (Gen.history Z rot ops g s).2.2 = (Gen.history Z rot (List.replicate (leadingNexts ops) .next) g s).2.2 := by
  induction ops generalizing g s with
  | nil => rfl
  | cons op ops ih =>
    cases op with
    | next => rw [leadingNexts, List.replicate_succ, Gen.history, Gen.history]; exact ih _ _
    | throw e =>
      rw [Gen.history]
      unfold Gen.step
      dsimp only
      rw [show (g.throw rot e).2 = .done by cases g <;> rfl, history_done]
      rfl
    | close => rw [Gen.history]; exact congrArg (·.2.2) (history_done Z rot ops s)

/-- **C47** An exception thrown into an iterator that has given a sample comes out again, except that `zlib.error`
ends the iteration quietly with `raise_on_truncation=False`; thrown into an iterator that was not started it always
comes out. -/
theorem C47_throw (Z : Zlib) (hd : Option Header) (rot : Bool) (max : Int) (s : Stream) (e : Exc) :
    (Gen.step Z rot (.throw e) (.start hd max) s).1 = .raise e ∧
    ∀ (n : Nat) {l : List Seen} {x : Sample} {g : Gen} {s' : Stream},
      Gen.history Z rot (List.replicate n .next) (.start hd max) s = (l ++ [.yield x], g, s') →
      (Gen.step Z rot (.throw e) g s').1 = if e = .zlibError ∧ rot = false then .stop else .raise e := by
  refine ⟨rfl, fun n {l x g s'} h => ?_⟩
  have loop : ∃ h v left, g = .loop h v left := by
    have nx : ∀ (g0 : Gen) s0 y g1 s1, g0.next Z rot s0 = (.yield y, g1, s1) → ∃ h v left, g1 = .loop h v left := by
      have rl : ∀ h v left s0 y g1 s1, resumeLoop Z rot h v left s0 = (.yield y, g1, s1) → ∃ h v left, g1 = .loop h v left := by
        intro h v left s0 y g1 s1 e
        cases left with
        | zero => cases e
        | succ k =>
          unfold resumeLoop at e
          rcases hrs : readSample Z h v s0 with ⟨e' | z, s'⟩ <;> rw [hrs] at e
          · dsimp only at e
            rcases onError_cases rot e' with h | h <;> rw [h] at e <;> cases e
          · cases z with
            | none => cases e
            | some z => injection e with _ e; injection e with e _; exact ⟨_, _, _, e.symm⟩
      have et : ∀ h mx s0 y g1 s1, enterTry Z rot h mx s0 = (.yield y, g1, s1) → ∃ h v left, g1 = .loop h v left := by
        intro h mx s0 y g1 s1 e
        unfold enterTry at e
        cases hp : parsedVersion h with
        | error x =>
          rw [hp] at e
          dsimp only at e
          rcases onError_cases rot x with h | h <;> rw [h] at e <;> cases e
        | ok v => rw [hp] at e; exact rl _ _ _ _ _ _ _ e
      intro g0 s0 y g1 s1 e
      cases g0 with
      | done => cases e
      | loop h v left => exact rl _ _ _ _ _ _ _ e
      | start hd mx =>
        cases hd with
        | some h => exact et _ _ _ _ _ _ e
        | none =>
          unfold Gen.next at e
          dsimp only at e
          rcases hg : getHeader true s0 with ⟨e' | h, s''⟩
          · rw [hg] at e; cases e
          · rw [hg] at e; exact et _ _ _ _ _ _ e
    generalize Gen.start hd max = g0 at h
    induction n generalizing g0 s l with
    | zero => injection h with h; cases l <;> cases h
    | succ n ih =>
      rw [List.replicate_succ, Gen.history] at h
      unfold Gen.step at h
      dsimp only at h
      rcases hr : g0.next Z rot s with ⟨o', g', s''⟩
      rw [hr] at h
      dsimp only at h
      cases l with
      | nil =>
        injection h with h1 h2
        injection h1 with h1 h3
        cases n with
        | zero =>
          cases o' with
          | yield y =>
            injection h2 with h2 _
            change g' = g at h2
            exact h2 ▸ nx _ _ _ _ _ hr
          | stop => cases h1
          | raise => cases h1
        | succ n => cases h3
      | cons y l =>
        injection h with h1 h2
        injection h1 with _ h1
        exact ih s'' _ (Prod.ext h1 h2)
  obtain ⟨h, v, left, rfl⟩ := loop
  unfold Gen.step Gen.throw onError
  dsimp only
  by_cases he : e = .zlibError
  · cases rot with
    | true => simp [he, Out.seen]
    | false => simp [he, Out.seen]
  · simp [he, Out.seen]

/-! ## C48 -/

/-- The sample in a result of `next()`. -/
def Out.sample : Out → Option Sample
  | .yield x => some x
  | _ => none

/-- The samples obtained, in the order of the steps. -/
def samplesGot (l : List (Nat × Out)) : List Sample := l.filterMap (·.2.sample)

/-- The samples obtained from iterator `i`. -/
def samplesBy (i : Nat) (l : List (Nat × Out)) : List Sample := samplesGot (l.filter (·.1 == i))

/-- The number of steps left. -/
def budget : Gen → Nat
  | .start _ max => max.toNat
  | .loop _ _ left => left
  | .done => 0

/-- The generator works with the header `h` of version `v`. -/
def Uses (h : Header) (v : Nat × Nat) : Gen → Prop
  | .start hd _ => hd = some h
  | .loop h' v' _ => h' = h ∧ v' = v
  | .done => True

theorem next_uses {h : Header} {v : Nat × Nat} (hp : parsedVersion h = .ok v) (hl : h.latched = h) {g : Gen} (U : Uses h v g)
    (Z : Zlib) (rot : Bool) (s : Stream) : g.next Z rot s = match budget g with
      | 0 => (.stop, .done, s)
      | k + 1 => match readSample Z h v s with
        | (.ok (some x), s') => (.yield x, .loop h v k, s')
        | (.ok none, s') => (.stop, .done, s')
        | (.error e, s') => (onError rot e, .done, s') := by
  cases g with
  | done => rfl
  | loop h' v' left => obtain ⟨rfl, rfl⟩ := U; rfl
  | start hd max =>
    obtain rfl : hd = some h := U
    unfold Gen.next enterTry
    dsimp only
    rw [hp, hl]
    rfl

theorem uses_set {h : Header} {v : Nat × Nat} {gs : List (Bool × Gen)} (U : ∀ p ∈ gs, Uses h v p.2) (i : Nat) {p : Bool × Gen}
    (hp : Uses h v p.2) : ∀ q ∈ gs.set i p, Uses h v q.2 := fun q hq =>
  (List.mem_or_eq_of_mem_set hq).elim (U q) (fun e => e ▸ hp)

theorem got_by_le (i : Nat) (l : List (Nat × Out)) : (samplesBy i l).length ≤ (samplesGot l).length := by
  unfold samplesBy samplesGot
  exact (List.Sublist.filterMap _ List.filter_sublist).length_le

/-- Any interleaving over a written log. -/
theorem interleave_written {h : Header} {r : Row} {v : Nat × Nat} (R : Ready h r v r.cstat.isSome) (hp : parsedVersion h = .ok v)
    (hl : h.latched = h) (Z : Zlib) : ∀ (sched : List Nat) (gs : List (Bool × Gen)) (ws : List WSample) (s : Stream),
    (∀ p ∈ gs, Uses h v p.2) → (∀ w ∈ ws, w.Valid Z r) → s.rest = body r ws → s.short = none →
    ∃ k, k ≤ ws.length ∧ samplesGot (interleave Z sched gs s).1 = (ws.take k).map (presented h.cls) ∧
      (interleave Z sched gs s).2.2 = { s with pos := s.pos + (body r (ws.take k)).length } ∧
      ∀ (j i : Nat) o, (interleave Z sched gs s).1[j]? = some (i, o) → ∃ p, gs[i]? = some p ∧
        (samplesBy i ((interleave Z sched gs s).1.take (j + 1))).length ≤ budget p.2 ∧
        (o.sample = none → o = .stop ∧ ((samplesBy i ((interleave Z sched gs s).1.take j)).length = budget p.2 ∨
          (samplesGot ((interleave Z sched gs s).1.take j)).length = ws.length))
  | [], gs, ws, s, _, _, _, _ => ⟨0, by omega, rfl, by simp [interleave, body], by simp [interleave]⟩
  | i :: is, gs, ws, s, U, W, hs, plain => by
    rw [interleave]
    cases hg : gs[i]? with
    | none => exact interleave_written R hp hl Z is gs ws s U W hs plain
    | some p =>
      obtain ⟨rot, g⟩ := p
      have Ug : Uses h v g := U _ (List.mem_of_getElem? hg)
      have hlen := (List.getElem?_eq_some_iff.mp hg).1
      dsimp only
      -- a step that gives no sample
      have stop : ∀ (g' : Gen) , g.next Z rot s = (.stop, .done, s) → (budget g = 0 ∨ ws = []) → g' = .done →
          ∃ k, k ≤ ws.length ∧ samplesGot ((i, Out.stop) :: (interleave Z is (gs.set i (rot, g')) s).1) = (ws.take k).map (presented h.cls) ∧
            (interleave Z is (gs.set i (rot, g')) s).2.2 = { s with pos := s.pos + (body r (ws.take k)).length } ∧
            ∀ (j i' : Nat) o, ((i, Out.stop) :: (interleave Z is (gs.set i (rot, g')) s).1)[j]? = some (i', o) → ∃ p, gs[i']? = some p ∧
              (samplesBy i' (((i, Out.stop) :: (interleave Z is (gs.set i (rot, g')) s).1).take (j + 1))).length ≤ budget p.2 ∧
              (o.sample = none → o = .stop ∧ ((samplesBy i' (((i, Out.stop) :: (interleave Z is (gs.set i (rot, g')) s).1).take j)).length = budget p.2 ∨
                (samplesGot (((i, Out.stop) :: (interleave Z is (gs.set i (rot, g')) s).1).take j)).length = ws.length)) := by
        intro g' hn hb hg'
        subst hg'
        obtain ⟨k, h1, h2, h3, h4⟩ := interleave_written R hp hl Z is (gs.set i (rot, .done)) ws s
          (uses_set U i trivial) W hs plain
        have skipG : ∀ l : List (Nat × Out), samplesGot ((i, .stop) :: l) = samplesGot l := fun l => rfl
        have skipB : ∀ i' (l : List (Nat × Out)), samplesBy i' ((i, .stop) :: l) = samplesBy i' l := by
          intro i' l
          unfold samplesBy
          rw [List.filter_cons]
          split
          · rfl
          · rfl
        refine ⟨k, h1, h2, h3, ?_⟩
        intro j i' o hj
        cases j with
        | zero =>
          injection hj with hj
          injection hj with hj1 hj2
          subst hj1; subst hj2
          refine ⟨_, hg, ?_, fun _ => ⟨rfl, ?_⟩⟩
          · rw [List.take_succ_cons, skipB]; exact Nat.zero_le _
          · rcases hb with hb | hb
            · exact .inl hb.symm
            · exact .inr (by rw [hb]; rfl)
        | succ j =>
          obtain ⟨p, e1, e2, e3⟩ := h4 j i' o hj
          rw [List.take_succ_cons, skipB, List.take_succ_cons, skipB, skipG]
          by_cases hii : i' = i
          · subst hii
            rw [List.getElem?_set_self hlen] at e1
            injection e1 with e1
            subst e1
            change (samplesBy i' _).length ≤ 0 at e2
            have z : (samplesBy i' (List.take j (interleave Z is (gs.set i' (rot, .done)) s).1)).length = 0 := by
              have : (samplesBy i' (List.take j (interleave Z is (gs.set i' (rot, .done)) s).1)).length ≤
                  (samplesBy i' (List.take (j + 1) (interleave Z is (gs.set i' (rot, .done)) s).1)).length := by
                unfold samplesBy samplesGot
                exact (List.Sublist.filterMap _ (List.Sublist.filter _ (List.take_sublist_take_left (by omega)))).length_le
              omega
            refine ⟨_, hg, by omega, fun ho => ⟨(e3 ho).1, ?_⟩⟩
            rcases hb with hb | hb
            · exact .inl (by rw [z]; exact hb.symm)
            · rcases (e3 ho).2 with h | h
              · right
                have := h2
                subst hb
                have hk : k = 0 := by simpa using h1
                subst hk
                have hz : samplesGot (interleave Z is (gs.set i' (rot, .done)) s).1 = [] := by simpa using h2
                have : (samplesGot (List.take j (interleave Z is (gs.set i' (rot, .done)) s).1)).length ≤
                    (samplesGot (interleave Z is (gs.set i' (rot, .done)) s).1).length := by
                  unfold samplesGot
                  exact (List.Sublist.filterMap _ (List.take_sublist _ _)).length_le
                rw [hz] at this
                simpa using this
              · exact .inr h
          · rw [List.getElem?_set_ne (fun e => hii e.symm)] at e1
            exact ⟨p, e1, e2, e3⟩
      have hn := next_uses hp hl Ug Z rot s
      cases hb : budget g with
      | zero =>
        rw [hb] at hn
        rw [hn]
        exact stop _ hn (.inl hb) rfl
      | succ b =>
        rw [hb] at hn
        dsimp only at hn
        cases ws with
        | nil =>
          rw [readSample_eof R Z hs plain] at hn
          rw [hn]
          exact stop _ hn (.inr rfl) rfl
        | cons w ws =>
          rw [body_cons] at hs
          have hw := readSample_written R (W w (by simp)) hs
          rw [hw] at hn
          dsimp only at hn
          rw [hn]
          dsimp only
          obtain ⟨k, h1, h2, h3, h4⟩ := interleave_written R hp hl Z is (gs.set i (rot, .loop h v b)) ws
            (s.adv (w.bytes r).length) (uses_set U i ⟨rfl, rfl⟩) (fun x hx => W x (by simp [hx])) (rest_adv_append hs) plain
          refine ⟨k + 1, by simpa using h1, ?_, ?_, ?_⟩
          · rw [List.take_succ_cons, List.map_cons, ← h2]; rfl
          · rw [h3, List.take_succ_cons, body_cons, List.length_append]
            unfold Stream.adv
            simp only [Nat.add_assoc]
          · have consG : ∀ l : List (Nat × Out), samplesGot ((i, .yield (presented h.cls w)) :: l) = presented h.cls w :: samplesGot l :=
              fun l => rfl
            have consB : ∀ (l : List (Nat × Out)), samplesBy i ((i, .yield (presented h.cls w)) :: l) = presented h.cls w :: samplesBy i l := by
              intro l
              unfold samplesBy
              rw [List.filter_cons_of_pos (by simp)]
              rfl
            have skipB : ∀ i', i' ≠ i → ∀ (l : List (Nat × Out)), samplesBy i' ((i, .yield (presented h.cls w)) :: l) = samplesBy i' l := by
              intro i' hne l
              unfold samplesBy
              rw [List.filter_cons_of_neg (by simpa using fun e => hne e.symm)]
            intro j i' o hj
            cases j with
            | zero =>
              injection hj with hj
              injection hj with hj1 hj2
              subst hj1; subst hj2
              refine ⟨_, hg, ?_, fun ho => nomatch ho⟩
              rw [List.take_succ_cons, consB, hb]
              exact Nat.succ_le_succ (Nat.zero_le _)
            | succ j =>
              obtain ⟨p, e1, e2, e3⟩ := h4 j i' o hj
              rw [List.take_succ_cons, List.take_succ_cons, consG]
              by_cases hii : i' = i
              · subst hii
                rw [List.getElem?_set_self hlen] at e1
                injection e1 with e1
                subst e1
                change _ ≤ b at e2
                refine ⟨_, hg, ?_, fun ho => ⟨(e3 ho).1, (e3 ho).2.imp (fun e => ?_) (fun e => ?_)⟩⟩
                · rw [consB, hb]; exact Nat.succ_le_succ e2
                · rw [consB, hb]; exact congrArg (· + 1) e
                · exact congrArg (· + 1) e
              · rw [List.getElem?_set_ne (fun e => hii e.symm)] at e1
                rw [skipB i' hii, skipB i' hii]
                exact ⟨p, e1, e2, fun ho => ⟨(e3 ho).1, (e3 ho).2.imp id (congrArg (· + 1))⟩⟩

/-- **C48** Any number of iterators over one open file (a well-formed log positioned after its header), with any bounds
and settings, stepped in any order: together they give the samples of the log one after the other, none lost, repeated
or mixed up, the file always standing right after the last sample given.  No step raises.  An iterator never exceeds its
bound, and stops only when it has reached it or the log is exhausted. -/
theorem C48_interleaving {Z : Zlib} {r : Row} (hr : r ∈ table) {hb : Bytes} (H : ValidHeader r hb) {ws : List WSample}
    (W : ∀ w ∈ ws, w.Valid Z r) {s0 s : Stream} (hs0 : s0.rest = hb ++ body r ws) (plain : s0.short = none) {h : Header}
    (hg : getHeader true s0 = (.ok h, s)) (its : List (Bool × Int)) (sched : List Nat) :
    ∃ c k, headerByVersion r.version = some c ∧ k ≤ ws.length ∧
      let run := interleave Z sched (its.map fun p => (p.1, .start (some h) p.2)) s
      samplesGot run.1 = (ws.take k).map (presented c) ∧
      run.2.2 = { s with pos := s.pos + (body r (ws.take k)).length } ∧
      ∀ (j i : Nat) o, run.1[j]? = some (i, o) → ∃ p, its[i]? = some p ∧
        (samplesBy i (run.1.take (j + 1))).length ≤ p.2.toNat ∧
        (o.sample = none → o = .stop ∧ ((samplesBy i (run.1.take j)).length = p.2.toNat ∨
          (samplesGot (run.1.take j)).length = ws.length)) := by
  obtain ⟨h', rfl, hc, R, hrest, -, hg'⟩ := generate_valid hr H Z false 0 hs0
  rw [hg'] at hg
  injection hg with e1 e2
  injection e1 with e1
  subst e1; subst e2
  have hM := major_lt hb
  have hp := parsedVersion_ready R (by show major hb < 256; omega) (minor_lt hb)
  obtain ⟨k, h1, h2, h3, h4⟩ := interleave_written R hp rfl Z sched
    (its.map fun p => (p.1, Gen.start (some ⟨classFor hb, hb, some (major hb, minor hb)⟩) p.2)) ws (s0.adv 480)
    (by
      intro p hp
      obtain ⟨q, -, rfl⟩ := List.mem_map.mp hp
      rfl) W hrest plain
  refine ⟨_, k, hc, h1, h2, h3, ?_⟩
  intro j i o hj
  obtain ⟨p, e1, e2⟩ := h4 j i o hj
  rw [List.getElem?_map] at e1
  cases hi : its[i]? with
  | none => rw [hi] at e1; cases e1
  | some q =>
    rw [hi] at e1
    injection e1 with e1
    subst e1
    exact ⟨q, rfl, e2⟩

/-- **C48** Any file content, well-formed or not: as long as no step ends an iterator, the iterators together give what
one iterator of the same header gives alone, and leave the file where it does. -/
theorem C48_any_file (Z : Zlib) {s0 s1 s : Stream} {h : Header} (hg : getHeader true s0 = (.ok h, s1)) (its : List (Bool × Int))
    (sched : List Nat) (rot : Bool)
    (all : ∀ p ∈ (interleave Z sched (its.map fun p => (p.1, .start (some h) p.2)) s).1, ∃ x, p.2 = .yield x) :
    let run := interleave Z sched (its.map fun p => (p.1, .start (some h) p.2)) s
    generateStatistics Z (some h) rot (samplesGot run.1).length s = (samplesGot run.1, .returned, run.2.2) := by
  obtain ⟨h1, R, -, -, -⟩ := getHeader_ok hg
  have hM := major_lt (first480 s0.rest)
  have hp := parsedVersion_ready R (by show major (first480 s0.rest) < 256; omega) (minor_lt _)
  have hl : h.latched = h := by rw [h1]; rfl
  dsimp only
  rw [generate_ready R (by rw [h1]) (by show major (first480 s0.rest) < 256; omega) (minor_lt _)]
  suffices key : ∀ (sched : List Nat) (gs : List (Bool × Gen)) (s : Stream),
      (∀ p ∈ gs, Uses h (major (first480 s0.rest), minor (first480 s0.rest)) p.2) →
      (∀ p ∈ (interleave Z sched gs s).1, ∃ x, p.2 = .yield x) →
      runLoop Z rot h (major (first480 s0.rest), minor (first480 s0.rest)) (samplesGot (interleave Z sched gs s).1).length s =
        (samplesGot (interleave Z sched gs s).1, .returned, (interleave Z sched gs s).2.2) by
    refine key sched _ s ?_ all
    intro p hp
    obtain ⟨q, -, rfl⟩ := List.mem_map.mp hp
    rfl
  clear all
  intro sched
  induction sched with
  | nil => intro gs s _ _; rfl
  | cons i is ih =>
    intro gs s U all
    rw [interleave] at all ⊢
    cases hg : gs[i]? with
    | none => rw [hg] at all; exact ih gs s U all
    | some p =>
      obtain ⟨rt, g⟩ := p
      rw [hg] at all
      dsimp only at all ⊢
      have hn := next_uses hp hl (U _ (List.mem_of_getElem? hg)) Z rt s
      obtain ⟨x, hx⟩ := all _ (List.mem_cons_self ..)
      dsimp only at hx
      cases hb : budget g with
      | zero => rw [hb] at hn; rw [hn] at hx; cases hx
      | succ b =>
        rw [hb] at hn
        rcases hrs : readSample Z h (major (first480 s0.rest), minor (first480 s0.rest)) s with ⟨e | y, s'⟩ <;> rw [hrs] at hn
        · dsimp only at hn
          rw [hn] at hx
          rcases onError_cases rt e with h | h <;> rw [h] at hx <;> cases hx
        · cases y with
          | none => dsimp only at hn; rw [hn] at hx; cases hx
          | some y =>
            dsimp only at hn
            rw [hn] at all ⊢
            dsimp only at all ⊢
            have := ih (gs.set i (rt, .loop h _ b)) s' (uses_set U i ⟨rfl, rfl⟩) (fun p hp => all p (List.mem_cons_of_mem _ hp))
            have e : ∀ l : List (Nat × Out), samplesGot ((i, .yield y) :: l) = y :: samplesGot l := fun l => rfl
            rw [e, List.length_cons, runLoop, hrs]
            dsimp only
            rw [this]

/-! ## The hypotheses are satisfiable -/

/-- The first `next()` on a written log gives a sample. -/
theorem first_next {Z : Zlib} {r : Row} (hr : r ∈ table) {hb : Bytes} (H : ValidHeader r hb) {w : WSample} {ws : List WSample}
    (W : w.Valid Z r) {s0 : Stream} (hs0 : s0.rest = hb ++ body r (w :: ws)) (rot : Bool) {max : Int} {k : Nat} (hm : max.toNat = k + 1) :
    ∃ h x g s', getHeader true s0 = (.ok h, s0.adv 480) ∧
      Gen.history Z rot [.next] (.start (some h) max) (s0.adv 480) = ([] ++ [.yield x], g, s') := by
  obtain ⟨h, hh, hc, R, hrest, -, hg⟩ := generate_valid hr H Z false 0 hs0
  have hM := major_lt hb
  have hp := parsedVersion_ready R (by show major hb < 256; omega) (minor_lt hb)
  have hl : h.latched = h := by rw [hh]; rfl
  have hn := next_uses (g := .start (some h) max) hp hl rfl Z rot (s0.adv 480)
  rw [body_cons] at hrest
  rw [readSample_written R W hrest] at hn
  dsimp only [budget] at hn
  rw [hm] at hn
  dsimp only at hn
  exact ⟨h, _, _, _, hg, by rw [Gen.history, Gen.history]; unfold Gen.step; dsimp only; rw [hn]; rfl⟩

/-- On the toy log of every version the first `next()` gives a sample, so an exception thrown then arrives at a
suspended iterator. -/
theorem toy_first_next (r : Row) (hr : r ∈ table) (rot : Bool) : ∃ h x g s', getHeader true { data := toyHeader r ++ body r (toyLog r) } =
      (.ok h, ({ data := toyHeader r ++ body r (toyLog r) } : Stream).adv 480) ∧
    Gen.history toyZ rot [.next] (.start (some h) 5) (({ data := toyHeader r ++ body r (toyLog r) } : Stream).adv 480) =
      ([] ++ [.yield x], g, s') :=
  first_next hr (toyHeader_valid r hr) (ws := [toySample r, toySample r]) (toySample_valid r hr) (by simp [Stream.rest, toyLog]) rot (k := 4) rfl

/-- C47 on the toy log of every version: after one sample, a `zlib.error` thrown in ends a lenient iterator quietly and
comes out of a strict one; a second `next()` stops. -/
example (r : Row) (hr : r ∈ table) : ∃ h x s, 
    (Gen.history toyZ false [.next, .throw .zlibError, .next, .close] (.start (some h) 5) s).1 = [.yield x, .stop, .stop, .closed] ∧
    ∃ x', (Gen.history toyZ true [.next, .throw .zlibError, .next, .close] (.start (some h) 5) s).1 =
      [.yield x', .raise .zlibError, .stop, .closed] := by
  obtain ⟨h, x, g, s', hg, hh⟩ := toy_first_next r hr false
  obtain ⟨h2, x2, g2, s2, hg2, hh2⟩ := toy_first_next r hr true
  rw [hg] at hg2
  injection hg2 with e _
  injection e with e
  subst e
  have split : ∀ rot (op : Op) ops (g : Gen) s, (Gen.history toyZ rot (op :: ops) g s).1 =
      (Gen.history toyZ rot [op] g s).1 ++ (Gen.history toyZ rot ops (Gen.history toyZ rot [op] g s).2.1 (Gen.history toyZ rot [op] g s).2.2).1 :=
    fun _ _ _ _ _ => rfl
  have t1 := (C47_throw toyZ (some h) false 5 _ .zlibError).2 1 hh
  have t2 := (C47_throw toyZ (some h) true 5 _ .zlibError).2 1 hh2
  refine ⟨h, x, (({ data := toyHeader r ++ body r (toyLog r) } : Stream).adv 480), ?_, x2, ?_⟩
  · rw [split, hh, split]
    dsimp only
    have : (Gen.history toyZ false [.throw .zlibError] g s') = ([(Gen.step toyZ false (.throw .zlibError) g s').1], .done, s') := by
      rw [Gen.history, Gen.history]
      unfold Gen.step
      dsimp only
      rw [show (g.throw false .zlibError).2 = .done by cases g <;> rfl]
    rw [this, t1, history_done]
    rfl
  · rw [split, hh2, split]
    dsimp only
    have : (Gen.history toyZ true [.throw .zlibError] g2 s2) = ([(Gen.step toyZ true (.throw .zlibError) g2 s2).1], .done, s2) := by
      rw [Gen.history, Gen.history]
      unfold Gen.step
      dsimp only
      rw [show (g2.throw true .zlibError).2 = .done by cases g2 <;> rfl]
    rw [this, t2, history_done]
    rfl

/-- C48 on the toy log of every version: three iterators, bounded by 1, 0 and 5 samples. -/
example (r : Row) (hr : r ∈ table) : ∃ h s c k, getHeader true { data := toyHeader r ++ body r (toyLog r) } = (.ok h, s) ∧
    samplesGot (interleave toyZ [2, 0, 1, 0, 2, 2] ([(true, 1), (false, 0), (true, 5)].map fun (p : Bool × Int) => (p.1, Gen.start (some h) p.2)) s).1 =
      ((toyLog r).take k).map (presented c) := by
  obtain ⟨h, -, -, -, -, -, hg⟩ := generate_valid hr (toyHeader_valid r hr) toyZ false 0
    (s := { data := toyHeader r ++ body r (toyLog r) }) (rest := body r (toyLog r)) (by simp [Stream.rest])
  obtain ⟨c, k, -, -, h3, -⟩ := C48_interleaving hr (toyHeader_valid r hr) (toyLog_valid r hr)
    (s0 := { data := toyHeader r ++ body r (toyLog r) }) (by simp [Stream.rest]) rfl hg [(true, 1), (false, 0), (true, 5)] [2, 0, 1, 0, 2, 2]
  exact ⟨h, _, c, k, hg, h3⟩

theorem history_one {Z : Zlib} {rot : Bool} {g g' : Gen} {s s' : Stream} {x : Sample}
    (hh : Gen.history Z rot [.next] g s = ([] ++ [.yield x], g', s')) : (g.next Z rot s).1 = .yield x := by
  have := congrArg (·.1) hh
  rw [Gen.history, Gen.history] at this
  unfold Gen.step at this
  dsimp only at this
  injection this with this _
  generalize (g.next Z rot s).1 = o at this ⊢
  cases o <;> cases this
  rfl

theorem interleave_one {Z : Zlib} {h : Header} {s : Stream} {x : Sample} (e : (Gen.next Z false (.start (some h) 5) s).1 = .yield x) :
    (interleave Z [1] ([(true, 3), (false, 5)].map fun (p : Bool × Int) => (p.1, Gen.start (some h) p.2)) s).1 = [(1, .yield x)] := by
  rw [← e]; rfl

/-- C48_any_file on the toy log of every version: one step of the second of two iterators. -/
example (r : Row) (hr : r ∈ table) : ∃ h s x, getHeader true { data := toyHeader r ++ body r (toyLog r) } = (.ok h, s) ∧
    (generateStatistics toyZ (some h) true 1 s).1 = [x] := by
  obtain ⟨h, x, g, s', hg, hh⟩ := toy_first_next r hr false
  generalize hs : ({ data := toyHeader r ++ body r (toyLog r) } : Stream).adv 480 = s at hg hh
  have run := interleave_one (history_one hh)
  have := C48_any_file toyZ hg [(true, 3), (false, 5)] [1] true (s := s)
    (by rw [run]; intro p hp; rw [List.mem_singleton.mp hp]; exact ⟨_, rfl⟩)
  dsimp only at this
  rw [run] at this
  exact ⟨h, _, x, hg, congrArg (·.1) this⟩

end Atop
