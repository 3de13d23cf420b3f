import Verif.Proofs.ZlibStore
import Verif.Props.RoundTrip
import Verif.Props.Iteration
import Verif.Props.Toy
/-!
# C57: crash safety with the compression format atop really uses

C01-C03, C36 and C37 are stated for any decompressor with certain properties.  Here those properties are proved of the
zlib format itself (RFC 1950 and 1951, written down in `Spec/Zlib.lean`), so that nothing about compression is assumed.
-/

namespace Atop
open Spec Deflate

/-- **C57** In the zlib format, "decompresses to `content`, and no proper prefix decompresses" - what the theorems about
logs ask of a compressed block - says that the block is exactly one zlib stream with that content. -/
theorem C57_block (blob content : Bytes) : Packs decompress blob content ↔ unpack blob = some (content, []) := by
  constructor
  · intro P
    have h := P.inv
    unfold decompress at h
    cases hu : unpack blob with
    | none => rw [hu] at h; cases h
    | some r =>
      obtain ⟨d, rest⟩ := r
      rw [hu] at h
      cases h
      obtain ⟨c, e, k⟩ := unpack_local hu
      cases rest with
      | nil => rfl
      | cons x l =>
        have hc := P.cut c.length (by rw [e]; simp)
        have := k []
        rw [e, List.take_left] at hc
        rw [List.append_nil] at this
        unfold decompress at hc
        rw [this] at hc
        cases hc
  · intro h
    refine ⟨by unfold decompress; rw [h]; rfl, fun k hk => by unfold decompress; rw [unpack_cut h k hk]; rfl, ?_⟩
    cases blob with
    | nil =>
      have : unpack [] = none := by decide
      rw [this] at h; cases h
    | cons x l => simp

/-- **C57** A block cut anywhere is always noticed, an empty one too; bytes behind a complete stream never matter. -/
theorem C57_cut_and_trailing :
    (∀ blob content, unpack blob = some (content, []) → ∀ k, k < blob.length → decompress (blob.take k) = none) ∧
    decompress [] = none ∧
    (∀ b e d, decompress b = some d → decompress (b ++ e) = some d) := by
  refine ⟨fun blob content h => ((C57_block blob content).2 h).cut, by decide, fun b e d h => ?_⟩
  unfold decompress at h ⊢
  cases hu : unpack b with
  | none => rw [hu] at h; cases h
  | some r =>
    obtain ⟨d', rest⟩ := r
    rw [hu] at h
    cases h
    obtain ⟨c, eb, k⟩ := unpack_local hu
    rw [eb, List.append_assoc, k]
    rfl

/-- **C57** Every content, whatever its size, has a zlib stream: the theorems below speak about logs of any content. -/
theorem C57_every_content (d : Bytes) : ∃ blob, unpack blob = some (d, []) := ⟨store d, unpack_store d⟩

/-- **C57** Reading back a log whose blocks are zlib streams (see `C57_block`): exactly the samples written. -/
theorem C57_round_trip {r : Row} (hr : r ∈ table) {hb : Bytes} (H : ValidHeader r hb)
    {ws : List WSample} (W : ∀ w ∈ ws, w.Valid decompress r) (rot : Bool) (max : Int) (hmax : (ws.length : Int) ≤ max)
    {s : Stream} (hs : s.rest = hb ++ body r ws) (plain : s.short = none) :
    ∃ c, headerByVersion r.version = some c ∧
      generateStatistics decompress none rot max s =
        (ws.map (presented c), .returned, { s with pos := s.pos + 480 + (body r ws).length }) :=
  C01_round_trip hr H W rot max hmax hs plain

/-- **C57** Such a log cut at any byte after its header gives exactly the samples that are completely present; with
`raise_on_truncation` the cut is reported exactly when part of a non-zero length field of the interrupted sample is
present, and nothing else is ever raised. -/
theorem C57_crash_safety {r : Row} (hr : r ∈ table) {hb : Bytes} (H : ValidHeader r hb)
    {ws : List WSample} (W : ∀ w ∈ ws, w.Valid decompress r) (k : Nat) (rot : Bool) (max : Int)
    (hmax : (ws.length : Int) < max) {s : Stream} (hs : s.rest = hb ++ (body r ws).take k) (plain : s.short = none) :
    (∃ c, headerByVersion r.version = some c ∧
      (generateStatistics decompress none rot max s).1 = (completeWithin r ws k).map (presented c)) ∧
    ((generateStatistics decompress none rot max s).2.1 = .raised .zlibError ↔
      rot = true ∧ ∃ i, 16 ≤ i ∧ i < 20 ∧ u8 (interrupted r ws k) i ≠ 0) ∧
    ((generateStatistics decompress none rot max s).2.1 = .raised .zlibError ∨
      (generateStatistics decompress none rot max s).2.1 = .returned) :=
  ⟨C02_cut_yields_complete_samples hr H W k rot max hmax hs plain,
    C03_truncation_reported_iff hr H W k rot max hmax hs plain⟩

/-- **C57** A growing file, of whatever content, never changes its past. -/
theorem C57_growing_log (rot rot' : Bool) (max : Int) {s t : Stream} (old new : Bytes) (hs : s.rest = old)
    (ht : t.rest = old ++ new) (hl : 480 ≤ old.length) (ps : s.short = none) (pt : t.short = none) :
    (generateStatistics decompress none rot max s).1 <+: (generateStatistics decompress none rot' max t).1 :=
  C36_growing_log_own_header decompress C57_cut_and_trailing.2.1 C57_cut_and_trailing.2.2 rot rot' max old new hs ht hl ps pt

/-- **C57** No file, of whatever content, keeps the iteration going: the number of samples is bounded by the size. -/
theorem C57_bounded_by_size {s0 s1 : Stream} {h : Header} (hg : getHeader true s0 = (.ok h, s1)) (rot : Bool)
    (max : Int) (s : Stream) :
    (generateStatistics decompress (some h) rot max s).1.length * (h.cls.Record.size + 2) ≤ s.rest.length :=
  C37_bounded_by_size decompress C57_cut_and_trailing.2.1 hg rot max s

/-! ### The hypotheses are met: a log of every version, and streams written by zlib itself -/

/-- The record of the sample, with the lengths of the zlib streams. -/
def zRecord (r : Row) : Bytes :=
  (le 8 1700000000 ++ le 2 0 ++ le 2 (toyGroupsOf r).length ++ zeros 4 ++ le 4 (r.sstat + 5 * (r.sstat / 65535) + 11) ++
  le 4 (2 * r.tstat + 11) ++ le 4 600 ++ le 4 2 ++ zeros 40 ++ le 4 (876 + 11) ++ zeros 8 ++
  le 4 (12 + 11) ++ zeros 8).take r.record

/-- A sample of version `r`: two tasks and, from 2.11 on, two cgroups with one and two processes. -/
def zSample (r : Row) : WSample where
  record := zRecord r
  sstat := List.replicate r.sstat 7
  tstats := [List.replicate r.tstat 1, List.replicate r.tstat 2]
  groups := toyGroupsOf r
  zsstat := store (List.replicate r.sstat 7)
  ztstats := store ([List.replicate r.tstat 1, List.replicate r.tstat 2] : List Bytes).flatten
  zcstats := store ((toyGroupsOf r).map WGroup.entry).flatten
  zpids := store ((toyGroupsOf r).map WGroup.pids).flatten

theorem zRecord_facts : ∀ r ∈ table, (zRecord r).length = r.record ∧
    u32 (zRecord r) 16 = r.sstat + 5 * (r.sstat / 65535) + 11 ∧
    u32 (zRecord r) 20 = 2 * r.tstat + 11 ∧ r.tstat < 1000 ∧ u32 (zRecord r) 28 = 2 ∧
    (r.cstat.isSome → u16 (zRecord r) 10 = 2 ∧ u32 (zRecord r) 72 = 876 + 11 ∧ u32 (zRecord r) 84 = 12 + 11) ∧
    (∀ n ∈ r.cstat, n = 432) := by decide +kernel

theorem store_packs (d : Bytes) : Packs decompress (store d) d := (C57_block _ _).2 (unpack_store d)

/-- The sample meets every requirement of the theorems above, in every version. -/
theorem zSample_valid (r : Row) (hr : r ∈ table) : (zSample r).Valid decompress r := by
  obtain ⟨h1, h2, h3, ht, h4, h5, h6⟩ := zRecord_facts r hr
  obtain ⟨g1, g2, g3⟩ := toyGroups_facts
  have hg : r.cstat.isSome → toyGroupsOf r = toyGroups := fun h => by unfold toyGroupsOf; rw [if_pos h]
  constructor
  · exact h1
  · simp [zSample]
  · intro t ht
    simp only [zSample, List.mem_cons, List.not_mem_nil, or_false] at ht
    rcases ht with rfl | rfl <;> simp
  · exact store_packs _
  · exact store_packs _
  · show u32 (zRecord r) 16 = (store _).length
    rw [h2, store_length, List.length_replicate]
  · show u32 (zRecord r) 20 = (store _).length
    rw [h3, store_length]
    have : ([List.replicate r.tstat 1, List.replicate r.tstat 2] : List Bytes).flatten.length = 2 * r.tstat := by
      simp; omega
    rw [this, Nat.div_eq_of_lt (by omega)]
  · exact h4
  · intro h; show toyGroupsOf r = []; unfold toyGroupsOf; rw [h]; rfl
  · intro _; exact store_packs _
  · intro _; exact store_packs _
  · intro h; show u16 (zRecord r) 10 = (toyGroupsOf r).length; rw [(h5 h).1, hg h]; rfl
  · intro h; show u32 (zRecord r) 72 = (store _).length; rw [(h5 h).2.1, store_length, hg h, g1]
  · intro h; show u32 (zRecord r) 84 = (store _).length; rw [(h5 h).2.2, store_length, hg h, g2]
  · intro g hgm n hn
    have hs : r.cstat.isSome := by rw [hn]; rfl
    have : g ∈ toyGroups := by rw [← hg hs]; exact hgm
    rw [h6 n hn]
    exact g3 g this

example (r : Row) (hr : r ∈ table) (k : Nat) (s : Stream)
    (hs : s.rest = toyHeader r ++ (body r [zSample r, zSample r]).take k) (plain : s.short = none) :
    ∃ c, headerByVersion r.version = some c ∧ (generateStatistics decompress none true 100 s).1 =
      (completeWithin r [zSample r, zSample r] k).map (presented c) :=
  (C57_crash_safety hr (toyHeader_valid r hr) (by
    intro w hw
    simp only [List.mem_cons, List.not_mem_nil, or_false, or_self] at hw
    rw [hw]; exact zSample_valid r hr) k true 100 (by simp) hs plain).1

/-- Written by Python's `zlib.compress`: fixed codes with a copy. -/
example : unpack ([120, 156, 203, 72, 205, 201, 201, 87, 200, 64, 144, 0, 58, 46, 6, 125] : Bytes) = some ([104,
    101, 108, 108, 111, 32, 104, 101, 108, 108, 111, 32, 104, 101, 108, 108, 111], []) := by decide +kernel

/-- Written by Python's `zlib.compress`: a dynamic block, and a byte behind the stream. -/
example : unpack ([120, 218, 61, 141, 139, 13, 192, 64, 8, 66, 103, 5, 113, 255, 21, 250, 164, 105, 137, 230,
    194, 207, 179, 180, 140, 237, 229, 181, 138, 145, 33, 103, 168, 30, 2, 112, 240, 89, 195, 118, 191, 100,
    145, 63, 163, 225, 70, 162, 183, 110, 17, 246, 64, 171, 228, 164, 54, 189, 39, 222, 181, 214, 134, 255, 223,
    68, 206, 207, 3, 238, 24, 57, 105, 9] : Bytes) = some ([98, 97, 97, 101, 97, 97, 101, 98, 98, 98, 101, 101,
    97, 97, 98, 97, 97, 97, 97, 97, 97, 99, 97, 98, 101, 97, 97, 97, 101, 97, 97, 97, 97, 97, 101, 98, 98, 97,
    99, 97, 97, 97, 97, 98, 100, 97, 98, 97, 100, 97, 98, 98, 99, 97, 97, 101, 101, 97, 97, 97, 97, 97, 97, 99,
    97, 97, 97, 97, 97, 97, 100, 98, 98, 97, 99, 97, 97, 97, 97, 98, 97, 99, 98, 97, 97, 100, 100, 97, 97, 97,
    97, 101, 97, 97, 98, 97, 98, 99, 97, 98, 99, 100, 97, 97, 100, 97, 97, 97, 97, 100, 101, 97, 97, 98, 101,
    97, 97, 97, 97, 98, 101, 99, 100, 97, 97, 97, 100, 97, 98, 99, 97, 97, 97, 97, 99, 98, 98, 98, 100, 97, 97,
    97, 97, 100, 100, 98, 101, 97, 97, 100], [9]) := by decide +kernel

end Atop
