import Verif.Proofs.Decode
import Verif.Props.Toy
/-!
# C55: iterating with a header that was read without the compatibility check
-/

namespace Atop
open Spec

theorem getHeader_unchecked {s s' : Stream} {h : Header} (hg : getHeader false s = (.ok h, s')) :
    h = ⟨classFor (first480 s.rest), first480 s.rest, cacheOf (first480 s.rest)⟩ := by
  rw [getHeader_eq] at hg
  obtain ⟨-, r2, -⟩ := readinto_skip 480 s
  rcases hr : Stream.readinto 480 s with ⟨e | hb, s1⟩
  · rw [hr] at hg; cases hg
  · rw [hr] at hg r2
    obtain ⟨h1, h2⟩ := r2 hb rfl
    have h1 : hb = first480 s.rest := h1
    dsimp only at hg
    injection hg with h3 h4
    rw [h1] at h3
    unfold headerOf at h3
    split at h3
    · cases h3
    · rw [if_pos rfl] at h3; cases h3; rfl

theorem cacheOf_cases (hb : Bytes) : cacheOf hb = none ∨ cacheOf hb = some (major hb, minor hb) := by
  unfold cacheOf
  split
  · exact .inl rfl
  · exact .inr rfl

theorem unchecked_version (hb : Bytes) : Header.version ⟨classFor hb, hb, cacheOf hb⟩ = .ok (major hb, minor hb) := by
  rcases cacheOf_cases hb with h | h <;> rw [h]
  · exact header_version_of_none (classFor_facts hb).1 hb
  · rfl

/-- Iterating with an unchecked header is the loop. -/
theorem generate_unchecked (Z : Zlib) {s0 s1 : Stream} {h : Header} (hg : getHeader false s0 = (.ok h, s1)) {hb : Bytes}
    (hhb : hb = first480 s0.rest) (rot : Bool) (max : Int) (s : Stream) :
    generateStatistics Z (some h) rot max s =
      runLoop Z rot ⟨classFor hb, hb, some (major hb, minor hb)⟩ (major hb, minor hb) max.toNat s := by
  obtain rfl := getHeader_unchecked hg
  subst hhb
  generalize first480 s0.rest = hb
  have := major_lt hb
  have pv : parsedVersion ⟨classFor hb, hb, cacheOf hb⟩ = .ok (major hb, minor hb) := by
    unfold parsedVersion Header.semanticVersion
    rw [unchecked_version hb]
    exact parse_versionString (major hb, minor hb) (by show major hb < 256; omega) (minor_lt hb)
  unfold generateStatistics
  dsimp only
  rw [pv]
  dsimp only
  unfold Header.latched
  rw [unchecked_version hb]

/-- **C55** Iterating over arbitrary bytes with a header read by `get_header(check_compatibility=False)`: whatever lengths it
records, exactly the samples that the reference decoder finds, spacing tasks by the recorded task length and cgroups by the
recorded cgroup length, are yielded, and the iteration ends as the decoder does. -/
theorem C55_unchecked (Z : Zlib) {s0 s1 : Stream} {h : Header} (hg : getHeader false s0 = (.ok h, s1)) {hb : Bytes}
    (hhb : hb = first480 s0.rest) (ho : ¬ tooOld hb) (rot : Bool) (max : Int) (s : Stream) {fs : List Found} {t : Option Trouble}
    (hd : decodeLogIn Z (usedRow hb) (u32 hb 32) (i32 hb 456) (readsCGroups hb) s.short.isNone max.toNat s.rest = (fs, t)) :
    (generateStatistics Z (some h) rot max s).1 = fs.map (fun f => presented h.cls f.written) ∧
    (generateStatistics Z (some h) rot max s).2.1 = match (generalizing := false) t with
      | none => .returned
      | some t => if troubleExc s.short t = .zlibError ∧ rot = false then .returned else .raised (troubleExc s.short t) := by
  rw [generate_unchecked Z hg hhb]
  have hl : hb.length = 480 := by rw [hhb]; simp [first480]; omega
  have R := usable_of hl ho (some (major hb, minor hb)) (.inr rfl)
  obtain ⟨i1, i2⟩ := decode_loopIn R Z rot max.toNat s
  rw [hd] at i1 i2
  have hc : h.cls = classFor hb := by rw [getHeader_unchecked hg, hhb]
  refine ⟨by rw [hc]; exact i1, ?_⟩
  rw [i2]
  cases t with
  | none => rfl
  | some t =>
    unfold endOf
    by_cases he : troubleExc s.short t = .zlibError <;> cases rot <;> simp [he]

/-- The task reader on a header too old to say how long its tasks are. -/
theorem getTStat_old (Z : Zlib) (hb : Bytes) (ho : ¬ (2 ≤ major hb ∧ 3 ≤ minor hb)) (rec : Bytes) :
    getTStat Z ⟨defaultHeader, hb, some (major hb, minor hb)⟩ ⟨defaultHeader.Record, rec⟩ = (do
      let _ ← block Z (u32 rec 20)
      Rd.raise .attributeError) := by
  have F := newest_facts
  have hps : defaultHeader.fields.lookup py!"pstatlen" 0 = none := by rw [F.pstatlen]; decide
  have hcount : (if (Inst.mk defaultHeader.Record rec).isRecord126 then (Inst.mk defaultHeader.Record rec).intAttr py!"nlist"
      else (Inst.mk defaultHeader.Record rec).intAttr py!"ndeviat") = .ok (u32 rec 28 : Int) := by
    rw [show (Inst.mk defaultHeader.Record rec).isRecord126 = false from F.is126, if_neg (by decide),
      intAttr_u32 (F.ndeviat (by decide))]
  have hlen : (if major hb ≥ 2 ∧ minor hb ≥ 3 then Inst.intAttr (Header.inst ⟨defaultHeader, hb, some (major hb, minor hb)⟩) py!"tstatlen"
      else Inst.intAttr (Header.inst ⟨defaultHeader, hb, some (major hb, minor hb)⟩) py!"pstatlen") = .error .attributeError := by
    rw [if_neg ho]
    exact intAttr_none hps _
  funext s
  unfold getTStat block
  simp only [Rd.bind_eq, Rd.lift_eq, intAttr_u32 F.pcomplen, Int.toNat_natCast, hcount, Header.version, hlen]
  rcases Stream.read (u32 rec 20) s with ⟨_ | b, _⟩
  · rfl
  · dsimp only
    cases zdecompress Z b <;> rfl

/-- A turn of the loop for a version too old to say how long its tasks are. -/
theorem readSample_old (Z : Zlib) (hb : Bytes) (ho : ¬ (2 ≤ major hb ∧ 3 ≤ minor hb)) (s : Stream) {H : Header}
    (hH : H = ⟨defaultHeader, hb, some (major hb, minor hb)⟩) :
    match decodeUntilTasks Z newest s.short.isNone s.rest with
    | .error t => (readSample Z H (major hb, minor hb) s).1 = .error (troubleExc s.short t)
    | .ok false => ∃ s', readSample Z H (major hb, minor hb) s = (.ok none, s')
    | .ok true => (readSample Z H (major hb, minor hb) s).1 = .error .attributeError := by
  have hc : H.cls = defaultHeader := by rw [hH]
  have F : Facts H.cls newest := by rw [hc]; exact newest_facts
  have hT := getTStat_old Z hb ho
  rw [← hH, ← hc] at hT
  rw [readSample_facts F (cg := false) (by simp; omega)]
  unfold decodeUntilTasks
  have D0 := does_readinto newest.record s
  cases h0 : takeBytes s.short.isNone newest.record s.rest with
  | error t => exact bind_fails (D0.1 t h0)
  | ok q =>
    obtain ⟨got, b0⟩ := q
    obtain ⟨s0, e0, hb0, hs0⟩ := D0.2 got b0 h0
    dsimp only at e0 ⊢
    generalize got ++ List.replicate (newest.record - got.length) 0 = rec at e0
    rw [bind_ok e0]
    by_cases h16 : u32 rec 16 = 0
    · rw [if_pos h16, if_pos h16]
      exact ⟨s0, rfl⟩
    · rw [if_neg h16, if_neg h16]
      have D1 := does_sstatIn F Z rec s0
      rw [hs0, hb0] at D1
      cases h1 : unpack Z s.short.isNone (u32 rec 16) b0 with
      | error t =>
        rw [h1] at D1
        rw [← hs0]
        exact bind_fails (D1.1 t rfl)
      | ok q =>
        obtain ⟨d, b1⟩ := q
        rw [h1] at D1
        dsimp only at D1 ⊢
        by_cases hd : d.length < newest.sstat
        · rw [if_pos hd] at D1 ⊢
          rw [← hs0]
          exact bind_fails (D1.1 _ rfl)
        · rw [if_neg hd] at D1 ⊢
          obtain ⟨s1, e1, hb1, hs1⟩ := D1.2 _ _ rfl
          rw [bind_ok e1, hT]
          have D2 := does_unpack Z (u32 rec 20) s1
          rw [hs1, hs0, hb1] at D2
          cases h2 : unpack Z s.short.isNone (u32 rec 20) b1 with
          | error t =>
            rw [← hs0, ← hs1]
            exact bind_fails (bind_fails (D2.1 t h2))
          | ok q =>
            obtain ⟨e, b2⟩ := q
            obtain ⟨s2, e2, -⟩ := D2.2 _ _ h2
            dsimp only
            exact bind_fails (by rw [bind_ok e2]; rfl)

/-- **C55** With a header of an unsupported version that predates task lengths nothing is ever yielded: where the tasks of the
first sample would be, `AttributeError` is raised. -/
theorem C55_too_old (Z : Zlib) {s0 s1 : Stream} {h : Header} (hg : getHeader false s0 = (.ok h, s1)) {hb : Bytes}
    (hhb : hb = first480 s0.rest) (ho : tooOld hb) (rot : Bool) (max : Int) (s : Stream) :
    (generateStatistics Z (some h) rot max s).1 = [] ∧
    (generateStatistics Z (some h) rot max s).2.1 =
      if max ≤ 0 then .returned
      else match decodeUntilTasks Z newest s.short.isNone s.rest with
        | .ok false => .returned
        | .ok true => .raised .attributeError
        | .error t => if troubleExc s.short t = .zlibError ∧ rot = false then .returned else .raised (troubleExc s.short t) := by
  rw [generate_unchecked Z hg hhb]
  obtain ⟨hc, -⟩ := (classFor_facts hb).2.1 ho.1
  rw [hc]
  by_cases hm : max ≤ 0
  · rw [if_pos hm, show max.toNat = 0 by omega]; exact ⟨rfl, rfl⟩
  · rw [if_neg hm]
    obtain ⟨n, hn⟩ : ∃ n, max.toNat = n + 1 := ⟨max.toNat - 1, by omega⟩
    have D := readSample_old Z hb ho.2 s rfl
    rw [hn, runLoop]
    rcases hd : decodeUntilTasks Z newest s.short.isNone s.rest with t | b
    · rw [hd] at D
      dsimp only at D
      rcases hr : readSample Z ⟨defaultHeader, hb, some (major hb, minor hb)⟩ (major hb, minor hb) s with ⟨e | x, s'⟩
      · rw [hr] at D
        injection D with D
        rw [D]
        refine ⟨rfl, ?_⟩
        dsimp only
        unfold endOf
        by_cases he : troubleExc s.short t = .zlibError <;> cases rot <;> simp [he]
      · rw [hr] at D; cases D
    · rw [hd] at D
      cases b with
      | false =>
        obtain ⟨s', D⟩ := D
        rw [D]; exact ⟨rfl, rfl⟩
      | true =>
        dsimp only at D
        rcases hr : readSample Z ⟨defaultHeader, hb, some (major hb, minor hb)⟩ (major hb, minor hb) s with ⟨e | x, s'⟩
        · rw [hr] at D
          injection D with D
          rw [D]
          exact ⟨rfl, rfl⟩
        · rw [hr] at D; cases D

/-- **C55** On a header that the compatibility check accepts, reading it without the check changes nothing of the iteration. -/
theorem C55_checked (Z : Zlib) {s0 s1 s2 : Stream} {h h' : Header} (hc : getHeader true s0 = (.ok h, s1))
    (hu : getHeader false s0 = (.ok h', s2)) (rot : Bool) (max : Int) (s : Stream) :
    generateStatistics Z (some h') rot max s = generateStatistics Z (some h) rot max s := by
  obtain ⟨h1, R, -, -, -⟩ := getHeader_ok hc
  have := major_lt (first480 s0.rest)
  rw [generate_unchecked Z hu rfl, generate_ready R (by rw [h1]) (by show major (first480 s0.rest) < 256; omega) (minor_lt _) Z rot max s,
    h1]

/-! ## Concrete cases -/

/-- The first supported version. -/
def firstRow : Row := table.head (by decide)

/-- As `firstRow`, but with tasks eight bytes longer than the structure. -/
def rowWide : Row := { firstRow with tstat := firstRow.tstat + 8 }

/-- Reading the header of a file whose tasks are eight bytes longer than the structure: refused with the check, ... -/
example : Stream.rest { data := toyHeader rowWide } = toyHeader rowWide ∧ first480 (toyHeader rowWide) = toyHeader rowWide ∧
    u32 (toyHeader rowWide) 0 = magic ∧ ¬ tooOld (toyHeader rowWide) ∧
    ¬ lengthsMatch (usedRow (toyHeader rowWide)) (readsCGroups (toyHeader rowWide)) (toyHeader rowWide) := by decide +kernel

/-- A decompressor for three one-byte blocks: system statistics, two tasks of 624 bytes each, and one such task cut after the
616 bytes of the structure. -/
def blockZ : Bytes → Option Bytes
  | [7] => some (List.replicate 88368 7)
  | [8] => some (List.replicate 624 1 ++ List.replicate 616 2)
  | _ => none

/-- A sample of version 1.26 with two tasks. -/
def wideBody : Bytes := zeros 16 ++ le 4 1 ++ le 4 1 ++ zeros 4 ++ le 4 2 ++ zeros 48 ++ [7, 8]

/-- ... and both of its tasks are found without it: of each the bytes of the structure. -/
theorem wide_decoded : decodeLogIn blockZ firstRow (u32 (toyHeader rowWide) 32) (i32 (toyHeader rowWide) 456) (readsCGroups (toyHeader rowWide))
    true 10 wideBody = ([⟨wideBody.take 80, List.replicate 88368 7, [List.replicate 616 1, List.replicate 616 2], []⟩], none) := by
  have h1 : u32 (toyHeader rowWide) 32 = 624 ∧ readsCGroups (toyHeader rowWide) = false := by decide +kernel
  have h2 : wideBody.drop 80 = [7, 8] ∧ (wideBody.take 80).length = 80 ∧
    u32 (wideBody.take 80) 16 = 1 ∧ u32 (wideBody.take 80) 20 = 1 ∧ u32 (wideBody.take 80) 28 = 2 := by decide +kernel
  obtain ⟨a0, a2, a3, a4, a5⟩ := h2
  have a1 : takeBytes true firstRow.record wideBody = .ok (wideBody.take 80, [7, 8]) := by
    rw [← a0]; unfold takeBytes; rw [if_neg (by simp)]; rfl
  have h3 : unpack blockZ true 1 [7, 8] = .ok (List.replicate 88368 7, [8]) := rfl
  have h4 : unpack blockZ true 1 [8] = .ok (List.replicate 624 1 ++ List.replicate 616 2, []) := rfl
  have h5 : decodeTasksIn 624 616 2 (List.replicate 624 1 ++ List.replicate 616 2) = .ok [List.replicate 616 1, List.replicate 616 2] := by
    unfold decodeTasksIn
    rw [if_neg (by rw [List.length_append, List.length_replicate, List.length_replicate]; decide)]
    have : ((List.range 2).map fun i => ((List.replicate 624 1 ++ List.replicate 616 2 : Bytes).drop (i * 624)).take 616) =
      [List.replicate 616 1, List.replicate 616 2] := by decide +kernel
    rw [this]
  have hs : decodeSampleIn blockZ firstRow 624 (i32 (toyHeader rowWide) 456) false true wideBody =
      .ok (some (⟨wideBody.take 80, List.replicate 88368 7, [List.replicate 616 1, List.replicate 616 2], []⟩, [])) := by
    unfold decodeSampleIn
    rw [a1]
    dsimp only
    rw [a2, show firstRow.record - 80 = 0 from rfl, List.replicate_zero, List.append_nil]
    unfold decodeBlocksIn
    rw [a3, if_neg (by decide), h3]
    dsimp only
    rw [List.length_replicate, if_neg (show ¬ 88368 < firstRow.sstat by decide), a4, h4]
    dsimp only
    rw [a5, show firstRow.tstat = 616 from rfl, h5]
    dsimp only
    rw [if_pos rfl, show firstRow.sstat = 88368 from rfl, List.take_replicate, Nat.min_self]
  have he : decodeSampleIn blockZ firstRow 624 (i32 (toyHeader rowWide) 456) false true [] = .ok none := by
    unfold decodeSampleIn takeBytes
    rw [if_neg (by simp)]
    dsimp only
    unfold decodeBlocksIn
    rw [if_pos (by decide +kernel)]
  rw [h1.1, h1.2, decodeLogIn, hs]
  dsimp only
  rw [decodeLogIn, he]

/-- A header of version 1.20 is too old, and behind it a sample can be found as far as its tasks. -/
example : tooOld (toyHeader { newest with major := 1, minor := 20 }) ∧ u32 (toyHeader { newest with major := 1, minor := 20 }) 0 = magic := by
  decide +kernel

end Atop
