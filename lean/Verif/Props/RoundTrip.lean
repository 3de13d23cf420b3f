import Verif.Proofs.Run
import Verif.Props.Toy
/-!
# C01, C02, C03, C35: what iterating over a log gives

`Spec.ValidHeader`, `Spec.WSample.Valid` and `Spec.body` (Verif/Spec/Format.lean) describe the file in literal
offsets; `Spec.presented` (Verif/Spec/Expected.lean) is the written sample viewed with the version's structures.
-/

namespace Atop
open Spec

/-- **C01** Iterating over a log written by a conforming writer yields exactly the written samples, in order and
byte for byte, and ends without an exception with the whole file consumed. -/
theorem C01_round_trip {Z : Zlib} {r : Row} (hr : r ∈ table) {hb : Bytes} (H : ValidHeader r hb)
    {ws : List WSample} (W : ∀ w ∈ ws, w.Valid Z r) (rot : Bool) (max : Int) (hmax : (ws.length : Int) ≤ max)
    {s : Stream} (hs : s.rest = hb ++ body r ws) (plain : s.short = none) :
    ∃ c, headerByVersion r.version = some c ∧
      generateStatistics Z none rot max s =
        (ws.map (presented c), .returned, { s with pos := s.pos + 480 + (body r ws).length }) := by
  obtain ⟨h, -, hc, R, hrest, hgen, -⟩ := generate_valid hr H Z rot max hs
  refine ⟨h.cls, hc, ?_⟩
  obtain ⟨m, hm⟩ : ∃ m, max.toNat = ws.length + m := ⟨max.toNat - ws.length, by omega⟩
  have hrest' : (s.adv 480).rest = body r ws ++ [] := by rw [hrest, List.append_nil]
  rw [hgen, hm, runLoop_written R rot m ws W hrest',
    runLoop_eof R Z rot (s := (s.adv 480).adv (body r ws).length)
      (by rw [Stream.rest_adv, hrest, List.drop_length]) plain]
  simp [Stream.adv]

/-- The hypotheses of `C01_round_trip` are met in every version by a log of three samples. -/
example (r : Row) (hr : r ∈ table) : ∃ c, headerByVersion r.version = some c ∧
    generateStatistics toyZ none true 86400 { data := toyHeader r ++ body r (toyLog r) } =
      ((toyLog r).map (presented c), .returned,
        { data := toyHeader r ++ body r (toyLog r), pos := 0 + 480 + (body r (toyLog r)).length }) :=
  C01_round_trip hr (toyHeader_valid r hr) (toyLog_valid r hr) true 86400 (by simp [toyLog]) (s := { data := _ })
    (by simp [Stream.rest]) rfl

/-- **C02** A log cut at any byte after the header yields exactly the samples that are completely present. -/
theorem C02_cut_yields_complete_samples {Z : Zlib} {r : Row} (hr : r ∈ table) {hb : Bytes} (H : ValidHeader r hb)
    {ws : List WSample} (W : ∀ w ∈ ws, w.Valid Z r) (k : Nat) (rot : Bool) (max : Int)
    (hmax : (ws.length : Int) < max) {s : Stream} (hs : s.rest = hb ++ (body r ws).take k) (plain : s.short = none) :
    ∃ c, headerByVersion r.version = some c ∧
      (generateStatistics Z none rot max s).1 = (completeWithin r ws k).map (presented c) := by
  obtain ⟨h, -, hc, R, hrest, hgen, -⟩ := generate_valid hr H Z rot max hs
  have := completeWithin_le r ws k
  refine ⟨h.cls, hc, ?_⟩
  rw [hgen]
  exact (runLoop_cut R rot ws W k max.toNat (by omega) hrest plain).1

/-- **C03** Truncation is reported (as `zlib.error`) exactly when it is asked for and the bytes present of the
interrupted sample include a non-zero byte of its compressed-length field (bytes 16-19). -/
theorem C03_truncation_reported_iff {Z : Zlib} {r : Row} (hr : r ∈ table) {hb : Bytes} (H : ValidHeader r hb)
    {ws : List WSample} (W : ∀ w ∈ ws, w.Valid Z r) (k : Nat) (rot : Bool) (max : Int)
    (hmax : (ws.length : Int) < max) {s : Stream} (hs : s.rest = hb ++ (body r ws).take k) (plain : s.short = none) :
    ((generateStatistics Z none rot max s).2.1 = .raised .zlibError ↔
      rot = true ∧ ∃ i, 16 ≤ i ∧ i < 20 ∧ u8 (interrupted r ws k) i ≠ 0) ∧
    ((generateStatistics Z none rot max s).2.1 = .raised .zlibError ∨
      (generateStatistics Z none rot max s).2.1 = .returned) := by
  obtain ⟨h, -, hc, R, hrest, hgen, -⟩ := generate_valid hr H Z rot max hs
  have := completeWithin_le r ws k
  rw [hgen, (runLoop_cut R rot ws W k max.toNat (by omega) hrest plain).2]
  have hiff : u32 (interrupted r ws k) 16 ≠ 0 ↔ ∃ i, 16 ≤ i ∧ i < 20 ∧ u8 (interrupted r ws k) i ≠ 0 :=
    u32_ne_zero_iff (interrupted r ws k) 16
  rw [← hiff]
  cases rot <;> by_cases h0 : u32 (interrupted r ws k) 16 = 0 <;> simp [h0]

/-- A cut in the middle of the second sample's record (byte 18): two bytes of the length field are present, the first
sample is yielded and the truncation is reported. -/
example (r : Row) (hr : r ∈ table) :
    ∃ c, headerByVersion r.version = some c ∧
      (generateStatistics toyZ none true 86400
        { data := toyHeader r ++ (body r (toyLog r)).take (((toySample r).bytes r).length + 18) }).1 =
          [presented c (toySample r)] := by
  have h := C02_cut_yields_complete_samples hr (toyHeader_valid r hr) (toyLog_valid r hr)
    (((toySample r).bytes r).length + 18) true 86400 (by simp [toyLog])
    (s := { data := toyHeader r ++ (body r (toyLog r)).take (((toySample r).bytes r).length + 18) })
    (by simp [Stream.rest]) rfl
  have hlen : ¬ ((toySample r).bytes r).length ≤ 18 := by
    have h1 : (toySample r).record.length = r.record := (toySample_valid r hr).record_len
    have h2 := (table_versionString r hr).2.2.2.2.2.2.1.2.1
    simp only [WSample.bytes, List.length_append, h1]; omega
  simpa [toyLog, completeWithin, Nat.add_sub_cancel_left, hlen] using h

/-- **C35** Iteration stops at the first record with compressed length zero: whatever follows it is neither read
nor relevant (on any kind of stream). -/
theorem C35_end_marker {Z : Zlib} {r : Row} (hr : r ∈ table) {hb : Bytes} (H : ValidHeader r hb)
    {ws : List WSample} (W : ∀ w ∈ ws, w.Valid Z r) (rot : Bool) (max : Int) (hmax : (ws.length : Int) < max)
    {marker junk : Bytes} (hl : marker.length = r.record) (hz : u32 marker 16 = 0)
    {s : Stream} (hs : s.rest = hb ++ (body r ws ++ (marker ++ junk))) :
    ∃ c, headerByVersion r.version = some c ∧
      generateStatistics Z none rot max s =
        (ws.map (presented c), .returned, { s with pos := s.pos + 480 + (body r ws).length + r.record }) := by
  obtain ⟨h, -, hc, R, hrest, hgen, -⟩ := generate_valid hr H Z rot max hs
  refine ⟨h.cls, hc, ?_⟩
  obtain ⟨m, hm⟩ : ∃ m, max.toNat = ws.length + (m + 1) := ⟨max.toNat - ws.length - 1, by omega⟩
  have hrs : readSample Z h (major hb, minor hb) ((s.adv 480).adv (body r ws).length) =
      (.ok none, ((s.adv 480).adv (body r ws).length).adv r.record) := by
    rw [readSample_eq R, bind_ok (Stream.readinto_full (rest_adv_append hrest) hl.symm), if_pos hz]; rfl
  rw [hgen, hm, runLoop_written R rot (m + 1) ws W hrest, runLoop, hrs]
  simp [Stream.adv, Nat.add_assoc]

/-- The end marker hypotheses are met: an all-zero record followed by arbitrary bytes. -/
example (r : Row) (hr : r ∈ table) (junk : Bytes) : ∃ c, headerByVersion r.version = some c ∧
    (generateStatistics toyZ none true 86400
      { data := toyHeader r ++ (body r (toyLog r) ++ (zeros r.record ++ junk)) }).1 = (toyLog r).map (presented c) := by
  obtain ⟨c, h1, h2⟩ := C35_end_marker hr (toyHeader_valid r hr) (toyLog_valid r hr) true 86400 (by simp [toyLog])
    (marker := zeros r.record) (junk := junk) (by simp [zeros])
    (by have := u32_append_zeros [] r.record 16; simpa [zeros, u32_nil] using this)
    (s := { data := toyHeader r ++ (body r (toyLog r) ++ (zeros r.record ++ junk)) }) (by simp [Stream.rest])
  exact ⟨c, h1, by rw [h2]⟩

end Atop
