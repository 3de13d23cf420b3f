import Verif.Proofs.ObjectHistory
/-!
# C65: what the caller does with the objects it was given

A structure is an object with memory (Model/Objects.lean).  Between two steps the caller may write to the header it passed
and to every structure it was given; several generators may share one header.
-/

namespace Atop
open Spec

theorem header_at {w : World} (W : w.WF) {i : Nat} {h : Header} (hi : w.header i = some h) : HeaderAt w i h := by
  unfold World.header at hi
  cases ho : w.headers[i]? with
  | none => rw [ho] at hi; cases hi
  | some o =>
    rw [ho] at hi
    have hl := W o (List.mem_of_getElem? ho)
    refine ⟨o, w.heap[o.blk], ho, ?_, ?_, List.getElem?_eq_getElem hl, ?_⟩ <;> cases hi
    · rfl
    · rfl
    · simp [hl]

theorem returned_cache {s0 s1 : Stream} {h : Header} (hg : getHeader true s0 = (.ok h, s1)) : h.cache.isSome := by
  obtain ⟨h1, -⟩ := getHeader_ok hg
  rw [h1]; rfl

theorem held_alike {w : World} (W : w.WF) {c : Calls} (H : c.Held w) : Alike w c.objects (c.values w) := by
  refine ⟨by simp [Calls.objects, Calls.values], fun i p q hp hq => ?_⟩
  unfold Calls.objects at hp
  unfold Calls.values at hq
  rw [List.getElem?_map] at hp hq
  cases hc : c[i]? with
  | none => rw [hc] at hp; cases hp
  | some x =>
    rw [hc] at hp hq
    cases hp
    cases hq
    obtain ⟨rot, hd, max⟩ := x
    refine ⟨rfl, ?_⟩
    cases hd with
    | none => exact ⟨.start none max, rfl, rfl⟩
    | some j =>
      obtain ⟨h, s0, s1, h1, hg⟩ := H _ (List.mem_of_getElem? hc) j rfl
      refine ⟨.start (some h) max, ⟨rfl, header_at W h1, returned_cache hg⟩, ?_⟩
      show GLike _ (.start (w.header j) max)
      rw [h1]
      exact ⟨rfl, hlike_of hg⟩

/-- **C65** `get_header` on objects: it raises what `get_header` on values raises; otherwise the caller gets a new header
object that shows the returned value, over memory of its own. -/
theorem C65_get_header (w : World) (W : w.WF) (check : Bool) :
    let r := Obj.getHeader check w
    let q := getHeader check w.file
    r.2.file = q.2 ∧ r.2.WF ∧ (∀ b < w.heap.length, r.2.heap[b]? = w.heap[b]?) ∧
    match r.1, q.1 with
    | .ok j, .ok h => r.2.header j = some h ∧ ∃ o, r.2.headers[j]? = some o ∧ w.heap.length ≤ o.blk
    | .error e, .error e' => e = e'
    | _, _ => False := by
  obtain ⟨S1, S2, S3⟩ := sim_getHeader w check
  obtain ⟨l, l1, l2⟩ := grown_getHeader check w
  refine ⟨S2, ?_, fun b hb => ?_, ?_⟩
  · rw [wf_iff, l1]
    intro b hb
    rcases List.mem_append.mp hb with hb | hb
    · exact Nat.lt_of_lt_of_le ((wf_iff w).mp W b hb) S1.len
    · exact (l2 b hb).2
  · rw [S1.get (List.getElem?_eq_getElem hb), List.getElem?_eq_getElem hb]
  · revert S3
    cases (Obj.getHeader check w).1 <;> cases (getHeader check w.file).1 <;> intro S3
    · exact S3
    · exact S3
    · exact S3
    · exact ⟨S3.1.header, S3.2⟩

/-- **C65** One step: a started or suspended generator uses the header object as it is at that moment - whatever has been
written to it - and does with it what the step on values does; it does not change the header, nor any memory that was
there before. -/
theorem C65_step (Z : Zlib) (rot : Bool) {w : World} (W : w.WF) {i : Nat} {h : Header} (hi : w.header i = some h)
    (hc : h.cache.isSome) (v : Nat × Nat) (n : Nat) (max : Int) :
    (let r := (Obj.Gen.loop i v n).next Z rot w
     let q := (Gen.loop h v n).next Z rot w.file
     r.2.2.out r.1 = q.1 ∧ r.2.2.file = q.2.2 ∧ r.2.2.header i = some h ∧ ∀ b < w.heap.length, r.2.2.heap[b]? = w.heap[b]?) ∧
    (let r := (Obj.Gen.start (some i) max).next Z rot w
     let q := (Gen.start (some h) max).next Z rot w.file
     r.2.2.out r.1 = q.1 ∧ r.2.2.file = q.2.2 ∧ r.2.2.header i = some h ∧ ∀ b < w.heap.length, r.2.2.heap[b]? = w.heap[b]?) := by
  have k := header_at W hi
  have R1 := next_rel Z rot (w := w) (g := .loop i v n) (g' := .loop h v n) ⟨rfl, rfl, k, hc⟩
  have R2 := next_rel Z rot (w := w) (g := .start (some i) max) (g' := .start (some h) max) ⟨rfl, k, hc⟩
  refine ⟨⟨R1.out, R1.file, (k.ext R1.ext).header, fun b hb => ?_⟩, ⟨R2.out, R2.file, (k.ext R2.ext).header, fun b hb => ?_⟩⟩
  · rw [R1.ext.get (List.getElem?_eq_getElem hb), List.getElem?_eq_getElem hb]
  · rw [R2.ext.get (List.getElem?_eq_getElem hb), List.getElem?_eq_getElem hb]

/-- **C65** Any number of generators over one file, sharing header objects or not, stepped in any order, with any writes of
the caller in between - to anything it was given, except that the two recorded lengths of a header stay as they are:
every step shows what it shows when nobody writes, and the file is left at the same place. -/
theorem C65_history (Z : Zlib) {w : World} (W : w.WF) {c : Calls} (H : c.Held w) (ops : List Obj.Op)
    (ok : ∀ blk off bytes, .write blk off bytes ∈ ops →
      blk ∈ (Obj.history Z ops c.objects w).2.2.headers.map HObj.blk → Spares off bytes.length) :
    ((Obj.history Z ops c.objects w).1.map fun p => (p.1, p.2.2.out p.2.1)) = (used Z (stepsOf ops) (c.values w) w.file).1 ∧
    (Obj.history Z ops c.objects w).2.2.file = (used Z (stepsOf ops) (c.values w) w.file).2.2 :=
  history_values Z ops _ _ w (held_alike W H) ok

/-- **C65** All structures ever yielded have memory of their own: no two of them share any, none shares memory with a
header or with anything that existed before - whatever the caller writes. -/
theorem C65_separate (Z : Zlib) {w : World} (W : w.WF) {c : Calls} (H : c.Held w) (ops : List Obj.Op) :
    (givenBlocks (Obj.history Z ops c.objects w).1).Nodup ∧
    ∀ b ∈ givenBlocks (Obj.history Z ops c.objects w).1, w.heap.length ≤ b ∧
      b ∉ (Obj.history Z ops c.objects w).2.2.headers.map HObj.blk := by
  obtain ⟨h1, h2⟩ := history_separate (sound_stable Z) ops _ w (held_alike W H).sound W
  exact ⟨h1.imp (fun h => Nat.ne_of_lt h), h2⟩

/-- **C65** A yielded tuple keeps showing what it showed when it was yielded, as long as the caller does not write to it:
no later step, and no write to another object, changes it. -/
theorem C65_kept (Z : Zlib) {w : World} (W : w.WF) {c : Calls} (H : c.Held w) (ops : List Obj.Op) {i : Nat} {x : Obj.Tuple}
    {w1 : World} (hx : (i, .yield x, w1) ∈ (Obj.history Z ops c.objects w).1)
    (hn : ∀ blk off bytes, .write blk off bytes ∈ ops → blk ∉ x.blocks) :
    (Obj.history Z ops c.objects w).2.2.tuple x = w1.tuple x :=
  tuple_congr fun b hb => history_kept (sound_stable Z) ops _ w (held_alike W H).sound _ hx b hb fun off bytes h => hn b off bytes h hb

/-- **C65** The generators never write to memory that the caller already had: an object that existed before and that the
caller does not write to stays as it is. -/
theorem C65_untouched (Z : Zlib) {w : World} (W : w.WF) {c : Calls} (H : c.Held w) (ops : List Obj.Op) {b : Nat}
    (hb : b < w.heap.length) (hn : ∀ off bytes, .write b off bytes ∉ ops) :
    (Obj.history Z ops c.objects w).2.2.heap[b]? = w.heap[b]? :=
  (history_grows (sound_stable Z) ops _ w (held_alike W H).sound).2.2.2 b hb hn

set_option linter.constructorNameAsVariable false in
/-- C65 on the toy log of every version: the caller reads the header, starts two iterators with it, takes a sample, writes
to the beginning of the header's memory (its magic number and version!), and takes another step: the first step yields, and
the second gives what it gives without the write. -/
example (r : Row) (hr : r ∈ table) : ∃ (w : World) (j blk : Nat) (x : Obj.Tuple) (w1 : World),
    w.WF ∧ Calls.Held w [(true, some j, 5), (false, some j, 5)] ∧ (∃ o, w.headers[j]? = some o ∧ o.blk = blk) ∧
    (Obj.history toyZ [.next 1, .write blk 0 [1, 2, 3, 4, 5, 6]] (Calls.objects [(true, some j, 5), (false, some j, 5)]) w).1 =
      [(1, .yield x, w1)] ∧
    (Obj.history toyZ [.next 1, .write blk 0 [1, 2, 3, 4, 5, 6], .next 0] (Calls.objects [(true, some j, 5), (false, some j, 5)]) w).1.map
      (fun p => (p.1, p.2.2.out p.2.1)) =
      (used toyZ [(1, .next), (0, .next)] (Calls.values w [(true, some j, 5), (false, some j, 5)]) w.file).1 := by
  obtain ⟨h, x, g, s', hg, hh⟩ := toy_first_next r hr false
  generalize ({ data := toyHeader r ++ body r (toyLog r) } : Stream).adv 480 = s at hg hh
  have one := history_one hh
  let w0 : World := { file := { data := toyHeader r ++ body r (toyLog r) } }
  obtain ⟨g1, g2, -, g4⟩ := C65_get_header w0 nofun true
  have hf : w0.file = { data := toyHeader r ++ body r (toyLog r) } := rfl
  rw [hf, hg] at g1 g4
  generalize Obj.getHeader true w0 = R at g1 g2 g4
  obtain ⟨e | j, w⟩ := R
  · exact g4.elim
  obtain ⟨k1, o, k2, k3⟩ := g4
  dsimp only at g1 g2 k1 k2 k3
  have held : Calls.Held w [(true, some j, 5), (false, some j, 5)] := by
    intro p hp i hi
    have : i = j := by
      rcases List.mem_cons.mp hp with rfl | hp
      · cases hi; rfl
      · rw [List.mem_singleton.mp hp] at hi; cases hi; rfl
    subst this
    exact ⟨h, _, _, k1, hg⟩
  have hist := C65_history toyZ g2 held [.next 1, .write o.blk 0 [1, 2, 3, 4, 5, 6]] (by
    intro blk off bytes hm _
    rcases List.mem_cons.mp hm with hm | hm
    · cases hm
    · cases List.mem_singleton.mp hm; unfold Spares; decide)
  have hist2 := C65_history toyZ g2 held [.next 1, .write o.blk 0 [1, 2, 3, 4, 5, 6], .next 0] (by
    intro blk off bytes hm _
    rcases List.mem_cons.mp hm with hm | hm
    · cases hm
    · rcases List.mem_cons.mp hm with hm | hm
      · cases hm; unfold Spares; decide
      · cases List.mem_singleton.mp hm)
  have il : (used toyZ [(1, .next)] (Calls.values w [(true, some j, 5), (false, some j, 5)]) w.file).1 = [(1, .yield x)] := by
    rw [← one, g1]
    show [(1, (Gen.next toyZ false (.start (w.header j) 5) s).1)] = _
    rw [k1]
  have h1 := hist.1
  rw [show stepsOf [.next 1, .write o.blk 0 [1, 2, 3, 4, 5, 6]] = [(1, .next)] from rfl, il] at h1
  generalize hL : (Obj.history toyZ [.next 1, .write o.blk 0 [1, 2, 3, 4, 5, 6]] (Calls.objects [(true, some j, 5), (false, some j, 5)]) w).1 = L at h1
  match L, h1 with
  | [(i, .yield y, w1)], h1 =>
    injection h1 with h1 _
    injection h1 with h1 _
    subst h1
    exact ⟨w, j, o.blk, y, w1, g2, held, ⟨o, k2, rfl⟩, hL, hist2.1⟩

end Atop
