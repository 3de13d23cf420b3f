import Verif.Proofs.ShortReads
import Verif.Props.Live
/-!
# C76: reads that come back short at any time

`visible` (see `Live`, Verif/Model/Live.lean) may now be any function at all: the `t`-th read gives what lies between the
position and byte `visible t` of the log, at most as much as was asked for.  A file that is truncated while it is read,
one that is truncated and written again, a pipe, a socket or an unbuffered file are instances.
-/

namespace Atop
open Spec

/-- **C76** Whatever is given by the reads behind the header, the samples obtained are the first ones of the log, in order
and byte for byte; the iteration ends normally, or with `zlib.error` if truncation is to be reported; and it ends before
the last sample (or `max_samples`) only because a read came back short. -/
theorem C76_samples {Z : Zlib} {r : Row} (hr : r ∈ table) {hb : Bytes} (H : ValidHeader r hb)
    {ws : List WSample} (W : ∀ w ∈ ws, w.Valid Z r) (rot : Bool) (max : Int) {visible : Nat → Nat}
    (header : 480 ≤ visible 0) (whole : ∀ t, RecordsWhole r ws (visible t)) :
    ∃ c n, headerByVersion r.version = some c ∧ n ≤ ws.length ∧ n ≤ max.toNat ∧
      (Live.generateStatistics Z none rot max ⟨hb ++ body r ws, visible, 0, 0⟩).1 = (ws.take n).map (presented c) ∧
      ((Live.generateStatistics Z none rot max ⟨hb ++ body r ws, visible, 0, 0⟩).2.1 = .returned ∨
        rot = true ∧ n < ws.length ∧ (n : Int) < max ∧
        (Live.generateStatistics Z none rot max ⟨hb ++ body r ws, visible, 0, 0⟩).2.1 = .raised .zlibError) ∧
      (n < ws.length → (n : Int) < max →
        ∃ t, 1 ≤ t ∧ t < (Live.generateStatistics Z none rot max ⟨hb ++ body r ws, visible, 0, 0⟩).2.2.reads ∧
          visible t < 480 + (body r (ws.take (n + 1))).length) := by
  have hdrop : (hb ++ body r ws).drop 480 = body r ws := by rw [← H.length, List.drop_left]
  obtain ⟨h, hh, hc, R, -, -, hget⟩ := generate_valid hr H Z rot max (s := { data := hb ++ body r ws })
    (rest := body r ws) (by simp [Stream.rest])
  have hlive := live_header (l := ⟨hb ++ body r ws, visible, 0, 0⟩) (hb := hb) (rest := body r ws) rfl H.length
    (by simpa using header) true (s := { data := hb ++ body r ws }) (more := body r ws) (by simp [Stream.rest])
  rw [hget] at hlive
  have hpv : parsedVersion h = .ok (major hb, minor hb) :=
    parsedVersion_ready R (by have := major_lt hb; show major hb < 256; omega) (minor_lt hb)
  have hlat : h.latched = h := by unfold Header.latched; rw [R.ver, hh]
  have hgen : Live.generateStatistics Z none rot max ⟨hb ++ body r ws, visible, 0, 0⟩ =
      Live.runLoop Z rot h (major hb, minor hb) max.toNat ((⟨hb ++ body r ws, visible, 0, 0⟩ : Live).adv 480) := by
    unfold Live.generateStatistics
    dsimp only
    rw [hlive]
    dsimp only
    rw [hpv, hlat]
  obtain ⟨n, n1, n2, n3, n4, n5⟩ := live_loop_any R rot ws W max.toNat ((⟨hb ++ body r ws, visible, 0, 0⟩ : Live).adv 480)
    hdrop (fun done w rest e t => whole t done w rest e)
  rw [hgen]
  refine ⟨h.cls, n, hc, n1, n2, n3, ?_, fun a b => ?_⟩
  · rcases n4 with n4 | ⟨a, b, c, d⟩
    · exact .inl n4
    · exact .inr ⟨a, b, by omega, d⟩
  · obtain ⟨t, t1, t2, t3⟩ := n5 a (by omega)
    exact ⟨t, t1, t2, t3⟩

/-- **C76** What `parse_file` prints is then what it prints for the log that consists of those first samples. -/
theorem C76_program {Z : Zlib} {r : Row} (hr : r ∈ table) {hb : Bytes} (H : ValidHeader r hb)
    {ws : List WSample} (W : ∀ w ∈ ws, w.Valid Z r) (o : Opts) (file : PyStr) {visible : Nat → Nat}
    (header : 480 ≤ visible 0) (whole : ∀ t, RecordsWhole r ws (visible t)) :
    ∃ n, n ≤ ws.length ∧ Live.parseFile Z o file ⟨hb ++ body r ws, visible, 0, 0⟩ =
        (parseFile Z o file { data := hb ++ body r (ws.take n) }).1 ∧
      (n < ws.length → n < 86400 → ∃ t, 1 ≤ t ∧
        t < (Live.generateStatistics Z none false 86400 ⟨hb ++ body r ws, visible, 0, 0⟩).2.2.reads ∧
        visible t < 480 + (body r (ws.take (n + 1))).length) := by
  obtain ⟨c, n, hcc, n1, n2, n3, n4, n5⟩ := C76_samples hr H W false 86400 header whole
  refine ⟨n, n1, ?_, fun a b => ?_⟩
  rotate_left
  · exact n5 a (by omega)
  have h2 : (Live.generateStatistics Z none false 86400 ⟨hb ++ body r ws, visible, 0, 0⟩).2.1 = .returned := by
    rcases n4 with n4 | ⟨a, -⟩
    · exact n4
    · cases a
  have hs : ({ data := hb ++ body r (ws.take n) } : Stream).rest = hb ++ body r (ws.take n) := by simp [Stream.rest]
  obtain ⟨c', hc', hfull⟩ := C01_round_trip hr H (fun w hw => W w (List.mem_of_mem_take hw)) false 86400
    (by rw [List.length_take]; omega) hs rfl
  rw [hcc] at hc'
  cases hc'
  have e1 : (Live.generateStatistics Z none false 86400 ⟨hb ++ body r ws, visible, 0, 0⟩).1 =
      (generateStatistics Z none false 86400 { data := hb ++ body r (ws.take n) }).1 := by rw [n3, hfull]
  have e2 : (Live.generateStatistics Z none false 86400 ⟨hb ++ body r ws, visible, 0, 0⟩).2.1 =
      (generateStatistics Z none false 86400 { data := hb ++ body r (ws.take n) }).2.1 := by rw [h2, hfull]
  exact live_as hr H o file header hs e1 e2

/-- The hypotheses are met: of a log of three samples everything is there when the reading begins; then the file is cut
inside the second sample, after some more reads before it.  The first sample is among those given. -/
example (r : Row) (hr : r ∈ table) : ∃ c n, headerByVersion r.version = some c ∧
    (Live.generateStatistics toyZ none true 86400 ⟨toyHeader r ++ body r (toyLog r),
      fun t => if t ≤ 3 then 480 + (body r (toyLog r)).length else
        if t ≤ 6 then 480 + ((toySample r).bytes r).length + r.record else
          480 + ((toySample r).bytes r).length, 0, 0⟩).1 =
        ((toyLog r).take n).map (presented c) ∧ 1 ≤ n := by
  have h1 : (toySample r).record.length = r.record := (toySample_valid r hr).record_len
  have hlen : r.record < ((toySample r).bytes r).length := by
    have := (toySample_valid r hr).zsstat.pos
    simp only [WSample.bytes, List.length_append, h1]; omega
  have hb : (body r (toyLog r)).length = ((toySample r).bytes r).length + (((toySample r).bytes r).length +
      ((toySample r).bytes r).length) := by
    simp [toyLog, body]
  obtain ⟨c, n, e1, e2, -, e3, -, e4⟩ := C76_samples hr (toyHeader_valid r hr) (toyLog_valid r hr) true 86400
    (visible := fun t => if t ≤ 3 then 480 + (body r (toyLog r)).length else
        if t ≤ 6 then 480 + ((toySample r).bytes r).length + r.record else 480 + ((toySample r).bytes r).length)
    (by rw [if_pos (by omega)]; omega)
    (by
      intro t done w rest e
      have hd : (body r done).length = 0 ∨ (body r done).length = ((toySample r).bytes r).length ∨
          (body r done).length = ((toySample r).bytes r).length + ((toySample r).bytes r).length := by
        unfold toyLog at e
        match done, e with
        | [], _ => left; simp [body]
        | [a], e => right; left; simp only [List.cons_append, List.cons.injEq] at e; rw [← e.1]; simp [body]
        | [a, b], e =>
          right; right; simp only [List.cons_append, List.cons.injEq] at e; rw [← e.1, ← e.2.1]; simp [body]
        | a :: b :: c :: more, e =>
          have := congrArg List.length e
          simp at this
      rw [hb]
      split <;> (try split) <;> omega)
  refine ⟨c, n, e1, e3, ?_⟩
  rcases Nat.eq_zero_or_pos n with rfl | h
  · exfalso
    obtain ⟨t, -, -, ht⟩ := e4 (by simp [toyLog]) (by decide)
    have hb1 : (body r ((toyLog r).take (0 + 1))).length = ((toySample r).bytes r).length := by simp [toyLog, body]
    rw [hb1, hb] at ht
    revert ht
    split <;> (try split) <;> omega
  · exact h

end Atop
