import Verif.Proofs.Latent
import Verif.Props.Objects
import Verif.Props.Unchecked
/-!
# C65: the same for headers that were read without the compatibility check

`get_header(file, check_compatibility=False)` may return a header object whose version has not been evaluated yet: the first
iterator that starts with it evaluates it, from the memory as it is at that moment.
-/

namespace Atop
open Spec

theorem facts_of_mem {c : HeaderClass} (hc : c ∈ versions) : ∃ r, Facts c r := by
  obtain ⟨i, hi, rfl⟩ := List.mem_iff_getElem.mp hc
  have hl : versions.length = table.length := rfl
  refine ⟨table[i]'(hl ▸ hi), facts_all (versions[i], table[i]'(hl ▸ hi)) ?_⟩
  rw [List.mem_iff_getElem]
  exact ⟨i, by rw [List.length_zip, ← hl, Nat.min_self]; exact hi, List.getElem_zip ..⟩

theorem returned_hsees {w : World} (W : w.WF) {i : Nat} {h : Header} (hi : w.header i = some h) {check s0 s1}
    (hg : getHeader check s0 = (.ok h, s1)) : HSees w i h := by
  have k := header_at W hi
  cases check with
  | true =>
    obtain ⟨v, H⟩ := hlike_of hg
    exact hsees_of k H
  | false =>
    have hh := getHeader_unchecked hg
    have hl : h.buf.length = 480 := by rw [hh]; simp [first480]; omega
    exact ⟨h, k, ⟨_, by rw [hh]; exact (classFor_facts _).1⟩, rfl, rfl, hl, hl, rfl, rfl⟩

theorem returned_alike {w : World} (W : w.WF) {c : Calls} (H : c.Returned w) : AlikeL w c.objects (c.values w) := by
  refine ⟨by simp [Calls.objects, Calls.values], fun i p q hp hq => ?_⟩
  unfold Calls.objects at hp
  unfold Calls.values at hq
  rw [List.getElem?_map] at hp hq
  cases hc : c[i]? with
  | none => rw [hc] at hp; cases hp
  | some x =>
    rw [hc] at hp hq
    cases hp
    cases hq
    obtain ⟨rot, hd, max⟩ := x
    refine ⟨rfl, ?_⟩
    cases hd with
    | none => exact rfl
    | some j =>
      obtain ⟨h, check, s0, s1, h1, hg⟩ := H _ (List.mem_of_getElem? hc) j rfl
      show GSees w (.start (some j) max) (.start (w.header j) max)
      rw [h1]
      exact ⟨rfl, returned_hsees W h1 hg⟩

/-- **C65** The first step of an iterator whose header's version has not been evaluated yet - a header of any class of the
package, whatever has been written to it: the step does what the step on values does with the header as it is at that
moment; afterwards the header object has the same memory, and its version is the one its memory holds. -/
theorem C65_unchecked_step (Z : Zlib) (rot : Bool) {w : World} (W : w.WF) {i : Nat} {h : Header} (hi : w.header i = some h)
    (hm : h.cls ∈ versions) (hc : h.cache = none) (max : Int) :
    let r := (Obj.Gen.start (some i) max).next Z rot w
    let q := (Gen.start (some h) max).next Z rot w.file
    r.2.2.out r.1 = q.1 ∧ r.2.2.file = q.2.2 ∧
    r.2.2.header i = some { h with cache := some (major h.buf, minor h.buf) } ∧
    ∀ b < w.heap.length, r.2.2.heap[b]? = w.heap[b]? := by
  have k := header_at W hi
  obtain ⟨row, F⟩ := facts_of_mem hm
  have hv : h.version = .ok (major h.buf, minor h.buf) := by
    rcases h with ⟨c, b, ca⟩
    dsimp only at hc
    subst hc
    exact header_version_of_none F b
  have hl : h.latched = { h with cache := some (major h.buf, minor h.buf) } := by unfold Header.latched; rw [hv]
  have hp : parsedVersion h = .ok (major h.buf, minor h.buf) := by
    unfold parsedVersion Header.semanticVersion
    rw [hv]
    have := major_lt h.buf
    exact parse_versionString (major h.buf, minor h.buf) (by show major h.buf < 256; omega) (minor_lt h.buf)
  obtain ⟨w1, l1, l2, l3, l4, -, -⟩ := latch_any k
  have ho : Obj.parsedVersion i w = (.ok (major h.buf, minor h.buf), w1) := by
    unfold Obj.parsedVersion
    rw [M.bind_eq, k.look]
    dsimp only
    rw [M.bind_eq, hp]
    dsimp only [M.lift]
    rw [M.bind_eq, l1]
    rfl
  have e1 : (Obj.Gen.start (some i) max).next Z rot w = Obj.resumeLoop Z rot i (major h.buf, minor h.buf) max.toNat w1 := by
    show Obj.enterTry Z rot i max w = _
    unfold Obj.enterTry
    rw [ho]
  have e2 : (Gen.start (some h) max).next Z rot w.file = resumeLoop Z rot h.latched (major h.buf, minor h.buf) max.toNat w1.file := by
    show enterTry Z rot h max w.file = _
    unfold enterTry
    rw [hp, l4]
  rw [e1, e2, ← hl]
  have R := resume_rel Z rot l2 (by rw [hl]; rfl) (major h.buf, minor h.buf) max.toNat
  refine ⟨R.out, R.file, (l2.ext R.ext).header, fun b hb => ?_⟩
  rw [← l3] at hb ⊢
  exact (R.ext.get (List.getElem?_eq_getElem hb)).trans (List.getElem?_eq_getElem hb).symm

/-- **C65** Any number of generators over one file, with headers returned by `get_header` with the check or without it, shared
or not, stepped in any order, with any writes of the caller in between - except that, at the moment of a write, the two
recorded lengths of a header stay as they are, and the version number of one whose version has not been evaluated yet: every
step shows what it shows when nobody writes, and the file is left at the same place. -/
theorem C65_unchecked_history (Z : Zlib) {w : World} (W : w.WF) {c : Calls} (H : c.Returned w) (ops : List Obj.Op)
    (ok : Mild Z ops c.objects w) :
    ((Obj.history Z ops c.objects w).1.map fun p => (p.1, p.2.2.out p.2.1)) = (used Z (stepsOf ops) (c.values w) w.file).1 ∧
    (Obj.history Z ops c.objects w).2.2.file = (used Z (stepsOf ops) (c.values w) w.file).2.2 :=
  history_sees Z ops _ _ w (returned_alike W H) ok

/-- **C65** Whatever the caller writes - even other versions and lengths -: all structures ever yielded have memory of their
own, shared with no other, no header and nothing that existed before. -/
theorem C65_unchecked_separate (Z : Zlib) {w : World} (W : w.WF) {c : Calls} (H : c.Returned w) (ops : List Obj.Op) :
    (givenBlocks (Obj.history Z ops c.objects w).1).Nodup ∧
    ∀ b ∈ givenBlocks (Obj.history Z ops c.objects w).1, w.heap.length ≤ b ∧
      b ∉ (Obj.history Z ops c.objects w).2.2.headers.map HObj.blk := by
  obtain ⟨h1, h2⟩ := history_separate (sane_stable Z) ops _ w (returned_alike W H).sane W
  exact ⟨h1.imp (fun h => Nat.ne_of_lt h), h2⟩

/-- **C65** ... a yielded tuple keeps showing what it showed when it was yielded, as long as the caller does not write to it, ... -/
theorem C65_unchecked_kept (Z : Zlib) {w : World} (W : w.WF) {c : Calls} (H : c.Returned w) (ops : List Obj.Op) {i : Nat}
    {x : Obj.Tuple} {w1 : World} (hx : (i, .yield x, w1) ∈ (Obj.history Z ops c.objects w).1)
    (hn : ∀ blk off bytes, .write blk off bytes ∈ ops → blk ∉ x.blocks) :
    (Obj.history Z ops c.objects w).2.2.tuple x = w1.tuple x :=
  tuple_congr fun b hb => history_kept (sane_stable Z) ops _ w (returned_alike W H).sane _ hx b hb fun off bytes h => hn b off bytes h hb

/-- **C65** ... and an object that existed before and that the caller does not write to stays as it is. -/
theorem C65_unchecked_untouched (Z : Zlib) {w : World} (W : w.WF) {c : Calls} (H : c.Returned w) (ops : List Obj.Op) {b : Nat}
    (hb : b < w.heap.length) (hn : ∀ off bytes, .write b off bytes ∉ ops) :
    (Obj.history Z ops c.objects w).2.2.heap[b]? = w.heap[b]? :=
  (history_grows (sane_stable Z) ops _ w (returned_alike W H).sane).2.2.2 b hb hn

/-- The header of an accepted file, read without the check, starts an iterator as the checked one does. -/
theorem unchecked_of_checked {s s1 : Stream} {h : Header} (hg : getHeader true s = (.ok h, s1)) :
    ∃ h', getHeader false s = (.ok h', s1) ∧ h'.cache = cacheOf (first480 s.rest) ∧
      ∀ Z rot max t, (Gen.start (some h') max).next Z rot t = (Gen.start (some h) max).next Z rot t := by
  obtain ⟨h1, -, ⟨A, -, -⟩, -, en⟩ := getHeader_ok hg
  refine ⟨⟨classFor (first480 s.rest), first480 s.rest, cacheOf (first480 s.rest)⟩, ?_, rfl, fun Z rot max t => ?_⟩
  · have hp := getHeader_plain true en
    rw [hg] at hp
    rw [getHeader_plain false en, ← (Prod.mk.inj hp).2]
    unfold headerOf
    rw [if_neg (by simp [A]), if_pos rfl]
  · show enterTry Z rot _ max t = enterTry Z rot h max t
    have hv := unchecked_version (first480 s.rest)
    have e1 : parsedVersion ⟨classFor (first480 s.rest), first480 s.rest, cacheOf (first480 s.rest)⟩ = parsedVersion h := by
      unfold parsedVersion Header.semanticVersion
      rw [hv, h1]
      rfl
    have e2 : Header.latched ⟨classFor (first480 s.rest), first480 s.rest, cacheOf (first480 s.rest)⟩ = h.latched := by
      rw [latched_some (h := h) (by rw [h1]; rfl)]
      unfold Header.latched
      rw [hv, h1]
    unfold enterTry
    rw [e1, e2]

theorem toy_unevaluated (r : Row) (hr : r ∈ table) (hn : r ≠ newest) : cacheOf (toyHeader r) = none := by
  have : ∀ r ∈ table, r ≠ newest → cacheOf (toyHeader r) = none := by decide +kernel
  exact this r hr hn

set_option linter.constructorNameAsVariable false in
/-- C65 on the toy log of every version but the newest: the header is read without the check, its version is not evaluated;
the caller overwrites the magic number and starts an iterator: it yields what it yields without the write. -/
example (r : Row) (hr : r ∈ table) (hn : r ≠ newest) : ∃ (w : World) (h : Header) (j blk : Nat) (x : Obj.Tuple) (w1 : World),
    w.WF ∧ w.header j = some h ∧ h.cache = none ∧ Calls.Returned w [(true, some j, 5), (false, some j, 5)] ∧
    (∃ o, w.headers[j]? = some o ∧ o.blk = blk) ∧
    Mild toyZ [.write blk 0 [1, 2, 3, 4], .next 1] (Calls.objects [(true, some j, 5), (false, some j, 5)]) w ∧
    (Obj.history toyZ [.write blk 0 [1, 2, 3, 4], .next 1] (Calls.objects [(true, some j, 5), (false, some j, 5)]) w).1 =
      [(1, .yield x, w1)] ∧
    (used toyZ [(1, .next)] (Calls.values w [(true, some j, 5), (false, some j, 5)]) w.file).1 = [(1, .yield (w1.tuple x))] := by
  obtain ⟨h0, x, g, s', hg0, hh⟩ := toy_first_next r hr false
  obtain ⟨h, hg, hc, hs⟩ := unchecked_of_checked hg0
  have hf0 : first480 (Stream.rest { data := toyHeader r ++ body r (toyLog r) }) = toyHeader r := by
    have hl := (toyHeader_valid r hr).1
    show (List.take 480 (List.drop 0 (toyHeader r ++ _)) ++ List.replicate (480 - (List.drop 0 (toyHeader r ++ body r (toyLog r))).length) 0) = toyHeader r
    rw [List.drop_zero, List.take_append_of_le_length (by omega), List.take_of_length_le (by omega), List.length_append]
    rw [show 480 - ((toyHeader r).length + (body r (toyLog r)).length) = 0 by omega]
    simp
  rw [hf0, toy_unevaluated r hr hn] at hc
  generalize ({ data := toyHeader r ++ body r (toyLog r) } : Stream).adv 480 = s at hg hh
  have one := history_one hh
  let w0 : World := { file := { data := toyHeader r ++ body r (toyLog r) } }
  obtain ⟨g1, g2, -, g4⟩ := C65_get_header w0 nofun false
  have hf : w0.file = { data := toyHeader r ++ body r (toyLog r) } := rfl
  rw [hf, hg] at g1 g4
  generalize Obj.getHeader false w0 = R at g1 g2 g4
  obtain ⟨e | j, w⟩ := R
  · exact g4.elim
  obtain ⟨k1, o, k2, k3⟩ := g4
  dsimp only at g1 g2 k1 k2 k3
  have held : Calls.Returned w [(true, some j, 5), (false, some j, 5)] := by
    intro p hp i hi
    have : i = j := by
      rcases List.mem_cons.mp hp with rfl | hp
      · cases hi; rfl
      · rw [List.mem_singleton.mp hp] at hi; cases hi; rfl
    subst this
    exact ⟨h, _, _, _, k1, hg⟩
  have mild : Mild toyZ [.write o.blk 0 [1, 2, 3, 4], .next 1] (Calls.objects [(true, some j, 5), (false, some j, 5)]) w := by
    intro before blk off bytes after he o' ho' hb
    have : Obj.Op.write blk off bytes ∈ [Obj.Op.write o.blk 0 [1, 2, 3, 4], .next 1] := by rw [he]; simp
    rcases List.mem_cons.mp this with hm | hm
    · cases hm; exact ⟨by unfold Spares; decide, fun _ => by unfold SparesVersion; decide⟩
    · cases List.mem_singleton.mp hm
  have hist := C65_unchecked_history toyZ g2 held _ mild
  have il : (used toyZ [(1, .next)] (Calls.values w [(true, some j, 5), (false, some j, 5)]) w.file).1 = [(1, .yield x)] := by
    rw [← one, g1]
    show [(1, (Gen.next toyZ false (.start (w.header j) 5) s).1)] = _
    rw [k1, hs]
  have h1 := hist.1
  rw [show stepsOf [.write o.blk 0 [1, 2, 3, 4], .next 1] = [(1, .next)] from rfl, il] at h1
  generalize hL : (Obj.history toyZ [.write o.blk 0 [1, 2, 3, 4], .next 1] (Calls.objects [(true, some j, 5), (false, some j, 5)]) w).1 = L at h1
  match L, h1 with
  | [(i, .yield y, w1)], h1 =>
    injection h1 with h1 _
    injection h1 with h1 h2
    injection h2 with h2
    subst h1
    exact ⟨w, h, j, o.blk, y, w1, g2, k1, hc, held, ⟨o, k2, rfl⟩, mild, hL, by rw [il, ← h2]⟩

end Atop
