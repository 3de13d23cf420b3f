import Verif.Props.SourceUtils
import Verif.Props.Protocol
/-!
# One iterator, executed from the text, under any use (C73)

The generator of a call of `generate_statistics`, executed from the source text, under any history of `next()`, `throw()`
and `close()`.  (C68 has the histories of several generators with writes in between; C47 is the same property on values.)
-/

namespace Atop.Src
open Spec

/-- What an operation on a finished generator gives; `close()` returning is written `.stop`. -/
def answer : Op → POut
  | .next => .stop
  | .throw e => .raise (embExc e)
  | .close => .stop

/-- The sample a step hands out, as the state right after it shows it. -/
def shownBy (r : Obj.Out × World) : Option Sample :=
  match r.1 with
  | .yield x => some (r.2.tuple x)
  | _ => none

section
variable (Z : Zlib) (fs : FileSystem) (args : CommandLine)

/-- A history of one generator of the model. -/
def oneRun (Z : Zlib) (rot : Bool) : List Op → Obj.Gen → World → List (Obj.Out × World)
  | [], _, _ => []
  | op :: ops, g, w => ((g.use Z rot op w).1, (g.use Z rot op w).2.2) :: oneRun Z rot ops (g.use Z rot op w).2.1 (g.use Z rot op w).2.2

theorem oneRun_history (rot : Bool) : ∀ (ops : List Op) (g : Obj.Gen) (w : World),
    (Obj.history Z (ops.map (Obj.Op.use 0)) [(rot, g)] w).1 = (oneRun Z rot ops g w).map fun r => (0, r.1, r.2)
  | [], _, _ => rfl
  | op :: ops, g, w => by
    show (0, _, _) :: (Obj.history Z (ops.map (Obj.Op.use 0)) [(rot, (g.use Z rot op w).2.1)] (g.use Z rot op w).2.2).1 = _
    rw [oneRun_history rot ops]
    rfl

theorem oneRun_length (rot : Bool) : ∀ (ops : List Op) (g : Obj.Gen) (w : World), (oneRun Z rot ops g w).length = ops.length
  | [], _, _ => rfl
  | op :: ops, g, w => by rw [oneRun, List.length_cons, oneRun_length rot ops, List.length_cons]

theorem used_one (rot : Bool) : ∀ (ops : List Op) (g : Gen) (s : Stream),
    ((used Z (ops.map fun op => (0, op)) [(rot, g)] s).1.filterMap fun p => p.2.sample) = samplesSeen (Gen.history Z rot ops g s).1
  | [], _, _ => rfl
  | op :: ops, g, s => by
    show List.filterMap _ ((0, (g.use Z rot op s).1) :: (used Z (ops.map fun op => (0, op)) [(rot, (g.use Z rot op s).2.1)] (g.use Z rot op s).2.2).1) =
      samplesSeen ((g.step Z rot op s).1 :: (Gen.history Z rot ops (g.step Z rot op s).2.1 (g.step Z rot op s).2.2).1)
    have h1 : (g.use Z rot op s).1.sample = (g.step Z rot op s).1.sample := by
      cases op with
      | close => rfl
      | throw e => unfold Gen.use Gen.step; dsimp only; cases (g.throw rot e).1 <;> rfl
      | next => unfold Gen.use Gen.step; dsimp only; cases (g.next Z rot s).1 <;> rfl
    have h2 : (g.use Z rot op s).2 = (g.step Z rot op s).2 := by cases op <;> rfl
    rw [List.filterMap_cons, samplesSeen, List.filterMap_cons, h1, h2, used_one rot ops]
    rfl

/-- The executed text beside the model. -/
theorem text_run {n : Nat} {out : PyStr} {w : World} (hw : w.WF) (hl : LibFile w.file) {rot : Bool} {hd : Option Nat} {max : Int}
    (H : Calls.Held w [(rot, hd, max)]) {s s' : W} {g : Val}
    (hg : ((program Z fs args).at (n + 5)).call py!"atoparser" py!"generate_statistics" [.file, headerArg hd, .bool rot, .int max] [] s = (.ok g, s'))
    (ops : List Op) :
    driven (ops.map (Obj.Op.use 0)) [((program Z fs args).at (n + 5)).gen g] (emb out w) =
      (oneRun Z rot ops (.start hd max) w).map (fun r => (0, outVal r.1, emb out r.2)) ∧
    (oneRun Z rot ops (.start hd max) w).filterMap shownBy =
      samplesSeen (Gen.history Z rot ops (.start (hd.bind w.header) max) w.file).1 := by
  obtain ⟨gen, h1, -, -, h2⟩ := C68_generate_statistics Z fs args n out w hl [(rot, hd, max)] (by
    intro p hp i hi
    obtain ⟨h, s0, s1, hh, hg⟩ := H p hp i hi
    refine ⟨h, hh, ?_⟩
    rw [(getHeader_ok hg).1]; exact classFor_mem _) (ops.map (Obj.Op.use 0))
  have e1 := h1 (rot, hd, max) s
  rw [hg] at e1
  injection e1 with e1 _
  injection e1 with e1
  subst e1
  have e2 : (Obj.history Z (ops.map (Obj.Op.use 0)) (Calls.objects [(rot, hd, max)]) w).1 =
      (oneRun Z rot ops (.start hd max) w).map fun r => (0, r.1, r.2) := oneRun_history Z rot ops _ w
  refine ⟨?_, ?_⟩
  · refine h2.trans ?_
    rw [e2, List.map_map]
    rfl
  · have h3 := (C65_history Z hw H (ops.map (Obj.Op.use 0)) (by
      intro blk off bytes hm
      obtain ⟨a, -, ha⟩ := List.mem_map.mp hm
      cases ha)).1
    rw [e2, List.map_map] at h3
    have e3 : stepsOf (ops.map (Obj.Op.use 0)) = ops.map fun op => (0, op) := by
      unfold stepsOf
      rw [List.filterMap_map]
      exact List.filterMap_eq_map (f := fun op => (0, op)) ▸ rfl
    have h4 := congrArg (List.filterMap fun p : Nat × Out => p.2.sample) h3
    rw [List.filterMap_map, e3] at h4
    rw [← used_one]
    refine Eq.trans ?_ h4
    congr 1
    funext r
    unfold shownBy
    obtain ⟨o, w'⟩ := r
    cases o <;> rfl

/-- **C73** Whatever a caller does with the iterator - any history of `next()`, `throw()` and `close()` - there is one answer
to every operation, and the samples handed out, as the objects show them at that moment, are the first ones of the
uninterrupted iteration, one for each `next()` before the first other operation. -/
theorem C73_samples (n : Nat) (out : PyStr) (w : World) (hw : w.WF) (hl : LibFile w.file) (rot : Bool) (hd : Option Nat) (max : Int)
    (H : Calls.Held w [(rot, hd, max)]) (s s' : W) (g : Val)
    (hg : ((program Z fs args).at (n + 5)).call py!"atoparser" py!"generate_statistics" [.file, headerArg hd, .bool rot, .int max] [] s = (.ok g, s'))
    (ops : List Op) : ∃ rs : List (Obj.Out × World),
    driven (ops.map (Obj.Op.use 0)) [((program Z fs args).at (n + 5)).gen g] (emb out w) = rs.map (fun r => (0, outVal r.1, emb out r.2)) ∧
    rs.length = ops.length ∧
    rs.filterMap shownBy = (generateStatistics Z (hd.bind w.header) rot max w.file).1.take (leadingNexts ops) := by
  obtain ⟨h1, h2⟩ := text_run Z fs args (out := out) hw hl H hg ops
  exact ⟨_, h1, oneRun_length Z rot ops _ w, h2.trans (C47_samples Z _ rot max _ ops)⟩

/-- **C73** `throw()` and `close()` read nothing and change nothing: the state after them is the state before. -/
theorem C73_quiet (n : Nat) (out : PyStr) (w : World) (hw : w.WF) (hl : LibFile w.file) (rot : Bool) (hd : Option Nat) (max : Int)
    (H : Calls.Held w [(rot, hd, max)]) (s s' : W) (g : Val)
    (hg : ((program Z fs args).at (n + 5)).call py!"atoparser" py!"generate_statistics" [.file, headerArg hd, .bool rot, .int max] [] s = (.ok g, s'))
    (ops : List Op) (k : Nat) (op : Op) (hk : ops[k]? = some op) (ho : op ≠ .next) :
    let states := emb out w :: (driven (ops.map (Obj.Op.use 0)) [((program Z fs args).at (n + 5)).gen g] (emb out w)).map fun r => r.2.2
    states[k + 1]? = states[k]? := by
  have quiet : ∀ (ops : List Op) (k : Nat) (g : Obj.Gen) (w : World), ops[k]? = some op →
      (w :: (oneRun Z rot ops g w).map Prod.snd)[k + 1]? = (w :: (oneRun Z rot ops g w).map Prod.snd)[k]? := by
    intro ops
    induction ops with
    | nil => intro k g w h; cases h
    | cons a ops ih =>
      intro k g w h
      cases k with
      | zero =>
        cases h
        cases op with
        | next => exact absurd rfl ho
        | throw e => rfl
        | close => rfl
      | succ k => exact ih k _ _ h
  have q := quiet ops k (.start hd max) w hk
  dsimp only
  rw [(text_run Z fs args (out := out) hw hl H hg ops).1, List.map_map]
  have e : (emb out w :: (oneRun Z rot ops (.start hd max) w).map ((fun r => r.2.2) ∘ fun r => (0, outVal r.1, emb out r.2))) =
      (w :: (oneRun Z rot ops (.start hd max) w).map Prod.snd).map (emb out) := by
    rw [List.map_cons, List.map_map]; rfl
  exact (congrArg (·[k + 1]?) e).trans ((by rw [List.getElem?_map, List.getElem?_map, q] :
    ((w :: (oneRun Z rot ops (.start hd max) w).map Prod.snd).map (emb out))[k + 1]? =
    ((w :: (oneRun Z rot ops (.start hd max) w).map Prod.snd).map (emb out))[k]?).trans (congrArg (·[k]?) e).symm)

theorem oneRun_done (rot : Bool) : ∀ (ops : List Op) (j : Nat) (op : Op) (w : World), ops[j]? = some op →
    ∃ o, (oneRun Z rot ops .done w)[j]? = some (o, w) ∧ outVal o = answer op := by
  intro ops
  induction ops with
  | nil => intro j op w h; cases h
  | cons a ops ih =>
    intro j op w h
    cases j with
    | zero => cases h; cases a <;> exact ⟨_, rfl, rfl⟩
    | succ j =>
      have : oneRun Z rot (a :: ops) .done w = ((Obj.Gen.done.use Z rot a w).1, w) :: oneRun Z rot ops .done w := by
        cases a <;> rfl
      rw [this]
      exact ih j op w h

theorem onError_end (rot : Bool) (e : Exc) : ∀ x, Obj.onError rot e ≠ .yield x := by
  intro x
  unfold Obj.onError
  split
  · split <;> nofun
  · nofun

/-- A step that hands out nothing ends the generator; one that hands out a sample leaves it in its loop. -/
theorem use_next_gen (rot : Bool) (op : Op) (g : Obj.Gen) (w : World) :
    ((∃ x, (g.use Z rot op w).1 = .yield x) ∧ ∃ i v left, (g.use Z rot op w).2.1 = .loop i v left) ∨
    ((∀ x, (g.use Z rot op w).1 ≠ .yield x) ∧ (g.use Z rot op w).2.1 = .done) := by
  have loop : ∀ i v left w, ((∃ x, (Obj.resumeLoop Z rot i v left w).1 = .yield x) ∧ ∃ i' v' left', (Obj.resumeLoop Z rot i v left w).2.1 = .loop i' v' left') ∨
      ((∀ x, (Obj.resumeLoop Z rot i v left w).1 ≠ .yield x) ∧ (Obj.resumeLoop Z rot i v left w).2.1 = .done) := by
    intro i v left w
    cases left with
    | zero => exact .inr ⟨nofun, rfl⟩
    | succ k =>
      unfold Obj.resumeLoop
      dsimp only
      rcases Obj.readSample Z i v w with ⟨e | x, w'⟩
      · exact .inr ⟨onError_end rot e, rfl⟩
      · cases x with
        | none => exact .inr ⟨nofun, rfl⟩
        | some x => exact .inl ⟨⟨x, rfl⟩, i, v, k, rfl⟩
  have enter : ∀ i max w, ((∃ x, (Obj.enterTry Z rot i max w).1 = .yield x) ∧ ∃ i' v' left', (Obj.enterTry Z rot i max w).2.1 = .loop i' v' left') ∨
      ((∀ x, (Obj.enterTry Z rot i max w).1 ≠ .yield x) ∧ (Obj.enterTry Z rot i max w).2.1 = .done) := by
    intro i max w
    unfold Obj.enterTry
    rcases Obj.parsedVersion i w with ⟨e | v, w'⟩
    · exact .inr ⟨onError_end rot e, rfl⟩
    · exact loop i v _ w'
  cases op with
  | close => exact .inr ⟨nofun, rfl⟩
  | throw e =>
    cases g with
    | done => exact .inr ⟨nofun, rfl⟩
    | start h max => exact .inr ⟨nofun, rfl⟩
    | loop i v left => exact .inr ⟨onError_end rot e, rfl⟩
  | next =>
    cases g with
    | done => exact .inr ⟨nofun, rfl⟩
    | loop i v left => exact loop i v left w
    | start h max =>
      cases h with
      | some i => exact enter i max w
      | none =>
        unfold Obj.Gen.use Obj.Gen.next
        dsimp only
        rcases Obj.getHeader true w with ⟨e | i, w'⟩
        · exact .inr ⟨nofun, rfl⟩
        · exact enter i max w'

theorem oneRun_finished (rot : Bool) : ∀ (ops : List Op) (k : Nat) (g : Obj.Gen) (w : World) (o : Obj.Out) (w1 : World),
    (oneRun Z rot ops g w)[k]? = some (o, w1) → (∀ x, o ≠ .yield x) → ∀ j op, k < j → ops[j]? = some op →
    ∃ o', (oneRun Z rot ops g w)[j]? = some (o', w1) ∧ outVal o' = answer op := by
  intro ops
  induction ops with
  | nil => intro k g w o w1 h; cases h
  | cons a ops ih =>
    intro k g w o w1 h ho j op hj hop
    obtain ⟨j, rfl⟩ : ∃ i, j = i + 1 := ⟨j - 1, by omega⟩
    cases k with
    | zero =>
      injection h with h
      injection h with h1 h2
      rcases use_next_gen Z rot a g w with ⟨⟨x, hx⟩, -⟩ | ⟨-, hd⟩
      · exact absurd (h1.symm.trans hx) (ho x)
      · have : (oneRun Z rot (a :: ops) g w)[j + 1]? = (oneRun Z rot ops .done w1)[j]? := by
          rw [oneRun, List.getElem?_cons_succ, hd, h2]
        rw [this]
        exact oneRun_done Z rot ops j op w1 hop
    | succ k => exact ih k _ _ o w1 h ho j op (by omega) hop

/-- **C73** Once an operation has given anything but a sample the iterator is finished: from then on `next()` stops,
`throw(e)` raises `e`, `close()` returns, and nothing is read or changed. -/
theorem C73_finished (n : Nat) (out : PyStr) (w : World) (hw : w.WF) (hl : LibFile w.file) (rot : Bool) (hd : Option Nat) (max : Int)
    (H : Calls.Held w [(rot, hd, max)]) (s s' : W) (g : Val)
    (hg : ((program Z fs args).at (n + 5)).call py!"atoparser" py!"generate_statistics" [.file, headerArg hd, .bool rot, .int max] [] s = (.ok g, s'))
    (ops : List Op) (i k : Nat) (o : POut) (s1 : W)
    (hk : (driven (ops.map (Obj.Op.use 0)) [((program Z fs args).at (n + 5)).gen g] (emb out w))[k]? = some (i, o, s1))
    (ho : ∀ v, o ≠ .yield v) (j : Nat) (op : Op) (hj : k < j) (hop : ops[j]? = some op) :
    (driven (ops.map (Obj.Op.use 0)) [((program Z fs args).at (n + 5)).gen g] (emb out w))[j]? = some (0, answer op, s1) := by
  rw [(text_run Z fs args (out := out) hw hl H hg ops).1] at hk ⊢
  rw [List.getElem?_map] at hk ⊢
  cases hr : (oneRun Z rot ops (.start hd max) w)[k]? with
  | none => rw [hr] at hk; cases hk
  | some r =>
    rw [hr] at hk
    injection hk with hk
    injection hk with _ hk
    injection hk with hk1 hk2
    obtain ⟨o', h1, h2⟩ := oneRun_finished Z rot ops k _ w r.1 r.2 hr (by
      intro x hx
      rw [hx] at hk1
      exact ho _ hk1.symm) j op hj hop
    rw [h1]
    show some (0, outVal o', emb out r.2) = _
    rw [h2, hk2]

theorem oneRun_throw (rot : Bool) (e : Exc) : ∀ (ops : List Op) (k : Nat) (g : Obj.Gen) (w : World), ops[k]? = some (.throw e) →
    (∀ j o w1, j < k → (oneRun Z rot ops g w)[j]? = some (o, w1) → ∃ x, o = .yield x) →
    ∃ w1, (oneRun Z rot ops g w)[k]? = some (if k = 0 then (g.throw rot e).1 else Obj.onError rot e, w1) := by
  intro ops
  induction ops with
  | nil => intro k g w h; cases h
  | cons a ops ih =>
    intro k g w h hy
    cases k with
    | zero => cases h; exact ⟨w, rfl⟩
    | succ k =>
      have hloop : ∃ i v left, (g.use Z rot a w).2.1 = .loop i v left := by
        obtain ⟨x, hx⟩ := hy 0 _ _ (by omega) rfl
        rcases use_next_gen Z rot a g w with ⟨-, h⟩ | ⟨h, -⟩
        · exact h
        · exact absurd hx (h x)
      obtain ⟨i, v, left, hl⟩ := hloop
      obtain ⟨w1, hw1⟩ := ih k _ (g.use Z rot a w).2.2 h (fun j o w1 hj hr => hy (j + 1) o w1 (by omega) hr)
      refine ⟨w1, ?_⟩
      rw [oneRun, List.getElem?_cons_succ, hw1, hl]
      show some (ite (k = 0) (Obj.onError rot e) (Obj.onError rot e), w1) = some (ite (k + 1 = 0) _ _, w1)
      rw [ite_self, if_neg (Nat.succ_ne_zero k)]

/-- **C73** An exception thrown in comes out unchanged: always before the first step; later too (as long as every operation
so far gave a sample), except that `zlib.error` with `raise_on_truncation=False` ends the iterator quietly.  `close()` always
returns. -/
theorem C73_throw (n : Nat) (out : PyStr) (w : World) (hw : w.WF) (hl : LibFile w.file) (rot : Bool) (hd : Option Nat) (max : Int)
    (H : Calls.Held w [(rot, hd, max)]) (s s' : W) (g : Val)
    (hg : ((program Z fs args).at (n + 5)).call py!"atoparser" py!"generate_statistics" [.file, headerArg hd, .bool rot, .int max] [] s = (.ok g, s'))
    (ops : List Op) (k : Nat) :
    let run := driven (ops.map (Obj.Op.use 0)) [((program Z fs args).at (n + 5)).gen g] (emb out w)
    (∀ e, ops[k]? = some (.throw e) → (∀ j i o s1, j < k → run[j]? = some (i, o, s1) → ∃ v, o = .yield v) →
      ∃ s1, run[k]? = some (0, if 0 < k ∧ e = .zlibError ∧ rot = false then .stop else .raise (embExc e), s1)) ∧
    (ops[k]? = some .close → ∃ s1, run[k]? = some (0, .stop, s1)) := by
  dsimp only
  rw [(text_run Z fs args (out := out) hw hl H hg ops).1]
  refine ⟨?_, ?_⟩
  · intro e he hy
    obtain ⟨w1, hw1⟩ := oneRun_throw Z rot e ops k (.start hd max) w he (by
      intro j o w1 hj hr
      obtain ⟨v, hv⟩ := hy j 0 (outVal o) (emb out w1) hj (by rw [List.getElem?_map, hr]; rfl)
      cases o with
      | yield x => exact ⟨x, rfl⟩
      | stop => cases hv
      | raise e => cases hv)
    refine ⟨emb out w1, ?_⟩
    rw [List.getElem?_map, hw1]
    show some (0, outVal (ite (k = 0) (Obj.Out.raise e) (Obj.onError rot e)), emb out w1) = _
    by_cases hk : k = 0
    · rw [if_pos hk, if_neg (by omega)]; rfl
    · rw [if_neg hk]
      unfold Obj.onError
      by_cases hz : e = .zlibError
      · cases rot
        · rw [if_pos hz, if_pos (show 0 < k ∧ e = .zlibError ∧ false = false from ⟨by omega, hz, rfl⟩)]; rfl
        · rw [if_pos hz, if_neg (show ¬(0 < k ∧ e = .zlibError ∧ true = false) by simp)]; rfl
      · rw [if_neg hz, if_neg (by simp [hz])]; rfl
  · intro hc
    have key : ∀ (ops : List Op) (k : Nat) (g : Obj.Gen) (w : World), ops[k]? = some .close →
        ∃ w1, (oneRun Z rot ops g w)[k]? = some (.stop, w1) := by
      intro ops
      induction ops with
      | nil => intro k g w h; cases h
      | cons a ops ih =>
        intro k g w h
        cases k with
        | zero => cases h; exact ⟨w, rfl⟩
        | succ k => exact ih k _ _ h
    obtain ⟨w1, hw1⟩ := key ops k (.start hd max) w hc
    exact ⟨emb out w1, by rw [List.getElem?_map, hw1]; rfl⟩

set_option linter.constructorNameAsVariable false in
/-- C73 on the toy log of every version, executed from the text: the header is read, an iterator is made with
`raise_on_truncation=False`, `next()` hands out a tuple, `zlib.error` thrown in ends it quietly, `close()` returns; the last
two leave the state alone. -/
example (r : Row) (hr : r ∈ table) : ∃ (j : Nat) (w : World) (g : Val) (v : Val) (s1 : W),
    ((program toyZ fs args).at 5).call py!"atoparser" py!"get_header" [.file] []
      (emb [] { file := { data := toyHeader r ++ body r (toyLog r) } }) = (.ok (.hdr j), emb [] w) ∧
    ((program toyZ fs args).at 5).call py!"atoparser" py!"generate_statistics" [.file, .hdr j, .bool false, .int 5] [] (emb [] w) =
      (.ok g, emb [] w) ∧
    driven [.use 0 .next, .use 0 (.throw .zlibError), .use 0 .close] [((program toyZ fs args).at 5).gen g] (emb [] w) =
      [(0, .yield v, s1), (0, .stop, s1), (0, .stop, s1)] := by
  obtain ⟨h, y, gg, s', hg, hh⟩ := toy_first_next r hr false
  generalize ({ data := toyHeader r ++ body r (toyLog r) } : Stream).adv 480 = s at hg hh
  have one := history_one hh
  let w0 : World := { file := { data := toyHeader r ++ body r (toyLog r) } }
  have lib : LibFile w0.file := by intro e he; cases he
  have text := (C67_get_header toyZ fs args 1 [] w0 lib true).1
  obtain ⟨g1, g2, -, g4⟩ := C65_get_header w0 nofun true
  have hf : w0.file = { data := toyHeader r ++ body r (toyLog r) } := rfl
  rw [hf, hg] at g1 g4
  have lib' := (Safe.getHeader true w0).1 lib
  generalize Obj.getHeader true w0 = R at g1 g2 g4 text lib'
  obtain ⟨e | j, w⟩ := R
  · exact g4.elim
  obtain ⟨k1, o, k2, k3⟩ := g4
  dsimp only at g1 g2 k1 k2 k3 lib'
  have held : Calls.Held w [(false, some j, 5)] := by
    intro p hp i hi
    rw [List.mem_singleton.mp hp] at hi
    cases hi
    exact ⟨h, _, _, k1, hg⟩
  obtain ⟨gen, c1, -, -, -⟩ := C68_generate_statistics toyZ fs args 0 [] w lib' [(false, some j, 5)] (by
    intro p hp i hi
    obtain ⟨h, s0, s1, hh, hg⟩ := held p hp i hi
    refine ⟨h, hh, ?_⟩
    rw [(getHeader_ok hg).1]; exact classFor_mem _) []
  have hc := c1 (false, some j, 5) (emb [] w)
  generalize gen (false, some j, 5) = g at hc
  obtain ⟨rs, r1, r2, r3⟩ := C73_samples toyZ fs args 0 [] w g2 lib' false (some j) 5 held _ _ g hc [.next, .throw .zlibError, .close]
  have q1 := C73_quiet toyZ fs args 0 [] w g2 lib' false (some j) 5 held _ _ g hc [.next, .throw .zlibError, .close] 1 _ rfl (by nofun)
  have q2 := C73_quiet toyZ fs args 0 [] w g2 lib' false (some j) 5 held _ _ g hc [.next, .throw .zlibError, .close] 2 _ rfl (by nofun)
  have t1 := (C73_throw toyZ fs args 0 [] w g2 lib' false (some j) 5 held _ _ g hc [.next, .throw .zlibError, .close] 1).1 .zlibError rfl
  have t2 := (C73_throw toyZ fs args 0 [] w g2 lib' false (some j) 5 held _ _ g hc [.next, .throw .zlibError, .close] 2).2 rfl
  refine ⟨j, w, g, ?_⟩
  have ht : (generateStatistics toyZ ((some j : Option Nat).bind w.header) false 5 w.file).1.take (leadingNexts [.next, .throw .zlibError, .close]) = [y] := by
    rw [← C47_samples]
    show samplesSeen ((Gen.next toyZ false (.start (w.header j) 5) w.file).1.seen :: _) = _
    rw [k1, g1]
    have a := next_all toyZ false (.start (some h) 5) s
    have hs : ∀ ops, samplesSeen (Gen.history toyZ false (.throw .zlibError :: ops) (Gen.next toyZ false (.start (some h) 5) s).2.1 (Gen.next toyZ false (.start (some h) 5) s).2.2).1 = [] := by
      intro ops
      cases (Gen.next toyZ false (.start (some h) 5) s).2.1 <;> simp [Gen.history, Gen.step, Gen.throw, onError, Out.seen, history_done, samplesSeen, Seen.sample]
      all_goals (intro a ha; cases a <;> rfl)
    rw [one]
    show y :: samplesSeen (Gen.history toyZ false _ (Gen.next toyZ false (.start (w.header j) 5) s).2.1 (Gen.next toyZ false (.start (w.header j) 5) s).2.2).1 = [y]
    rw [k1, hs]
  rw [ht] at r3
  match rs, r2 with
  | [a, b, c], _ =>
    simp only [List.map_cons, List.map_nil] at r1 q1 q2 t1 t2
    rw [r1] at q1 q2 t1 t2
    have e1 : emb [] b.2 = emb [] a.2 := Option.some.inj q1
    have e2 : emb [] c.2 = emb [] b.2 := Option.some.inj q2
    obtain ⟨s2, t2⟩ := t2
    have t2 : outVal c.1 = .stop := congrArg (fun x => x.2.1) (Option.some.inj t2)
    have fin : (∀ v, outVal a.1 ≠ .yield v) → False := by
      intro ha
      have f1 := C73_finished toyZ fs args 0 [] w g2 lib' false (some j) 5 held _ _ g hc [.next, .throw .zlibError, .close] 0 0 (outVal a.1)
        (emb [] a.2) (by simp only [List.map_cons, List.map_nil]; rw [r1]; rfl) ha 1 _ (by omega) rfl
      simp only [List.map_cons, List.map_nil] at f1
      rw [r1] at f1
      have f1 : outVal b.1 = .raise (embExc .zlibError) := congrArg (fun x => x.2.1) (Option.some.inj f1)
      have none : ∀ x : Obj.Out × World, (∀ v, outVal x.1 ≠ .yield v) → shownBy x = none := by
        intro x hx
        unfold shownBy
        cases hx1 : x.1 with
        | yield t => rw [hx1] at hx; exact absurd rfl (hx (tupleVal t))
        | stop => rfl
        | raise e => rfl
      have := none a ha
      have := none b (by rw [f1]; nofun)
      have := none c (by rw [t2]; nofun)
      simp_all [List.filterMap]
    cases ha : a.1 with
    | stop => exact (fin (by rw [ha]; nofun)).elim
    | raise e => exact (fin (by rw [ha]; nofun)).elim
    | yield t =>
      obtain ⟨s3, t1⟩ := t1 (by
        intro k i o s1 hk hr
        obtain rfl : k = 0 := by omega
        have : outVal a.1 = o := congrArg (fun x => x.2.1) (Option.some.inj hr)
        exact ⟨tupleVal t, by rw [← this, ha]; rfl⟩)
      have t1 : outVal b.1 = .stop := congrArg (fun x => x.2.1) (Option.some.inj t1)
      refine ⟨tupleVal t, emb [] a.2, text, hc, ?_⟩
      refine r1.trans ?_
      rw [ha, t1, t2, e2, e1]
      rfl
end
end Atop.Src
