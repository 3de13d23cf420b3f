import Verif.Props.SourceResult
import Verif.Props.OneReaderUnchecked
/-!
# C55 from the source text: iterating with a header that was read without the compatibility check

`get_header(raw_file, False)` and `generate_statistics(raw_file, header, ...)` executed from their source text, on any file
that begins with the number of atop and whose version is not too old to say how long its tasks are.
-/

namespace Atop
open Spec

theorem decodeBlocksIn_fits {Z : Bytes → Option Bytes} {r : Row} {slotT : Nat} {slotC : Int} {cg whole : Bool} {head b b' : Bytes}
    (hh : head.length = r.record) {f : Found} (h : decodeBlocksIn Z r slotT slotC cg whole head b = .ok (some (f, b'))) : f.Fits r cg := by
  unfold decodeBlocksIn at h
  split at h
  · cases h
  · split at h
    · cases h
    · split at h
      · cases h
      · split at h
        · cases h
        · split at h
          · cases h
          · rename_i ts hts
            have hT : ∀ t ∈ ts, t.length = r.tstat := by
              unfold decodeTasksIn at hts
              split at hts
              · cases hts
              · rename_i e _ _ _ hge
                cases hts
                intro t ht
                obtain ⟨j, hj, rfl⟩ := List.mem_map.mp ht
                rw [List.mem_range] at hj
                have : j * slotT ≤ (u32 head 28 - 1) * slotT := Nat.mul_le_mul_right _ (by omega)
                have : ¬ e.length < (u32 head 28 - 1) * slotT + r.tstat := fun hd => hge ⟨by omega, .inr hd⟩
                rw [List.length_take, List.length_drop]
                omega
            split at h
            · cases h
              exact ⟨hh, by simp; omega, hT, fun _ => rfl, nofun⟩
            · rename_i hcg
              split at h
              · cases h
              · rename_i gs b3 hgs
                cases h
                refine ⟨hh, by simp; omega, hT, fun h => absurd h hcg, ?_⟩
                unfold decodeGroupsIn at hgs
                split at hgs
                · cases hgs
                · split at hgs
                  · cases hgs
                  · split at hgs
                    · cases hgs
                    · rename_i hch
                      cases hgs
                      exact Src.decodeChainIn_fits _ _ _ _ _ _ hch

theorem decodeLogIn_fits {Z : Bytes → Option Bytes} {r : Row} {slotT : Nat} {slotC : Int} {cg whole : Bool} : ∀ (n : Nat) (b : Bytes),
    ∀ f ∈ (decodeLogIn Z r slotT slotC cg whole n b).1, f.Fits r cg
  | 0, b => nofun
  | n + 1, b => by
    rw [decodeLogIn]
    cases hd : decodeSampleIn Z r slotT slotC cg whole b with
    | error t => nofun
    | ok q =>
      cases q with
      | none => nofun
      | some q =>
        obtain ⟨f, b'⟩ := q
        intro g hg
        rcases List.mem_cons.mp hg with rfl | hg
        · unfold decodeSampleIn at hd
          cases ht : takeBytes whole r.record b with
          | error t => rw [ht] at hd; cases hd
          | ok q =>
            obtain ⟨c, rest⟩ := q
            rw [ht] at hd
            obtain ⟨rfl, rfl⟩ := takeBytes_ok ht
            exact decodeBlocksIn_fits (by simp) hd
        · exact decodeLogIn_fits n b' g hg

end Atop

namespace Atop.Src
open Spec
set_option maxRecDepth 20000

/-- Histories in worlds that differ only in evaluated versions of headers. -/
theorem run_lat (Z : Zlib) {rot : Bool} : ∀ (ops : List Op) (g : Obj.Gen) {w w2 : World}, Lat w w2 →
    ∀ (k : Nat) (r : Obj.Out × World), (oneRun Z rot ops g w)[k]? = some r →
      ∃ r2, (oneRun Z rot ops g w2)[k]? = some r2 ∧ r.1 = r2.1 ∧ Lat r.2 r2.2
  | [], _, _, _, _, _, _, h => by cases h
  | op :: ops, g, w, w2, L, k, r, h => by
    obtain ⟨s1, s2, s3⟩ := use_lat L Z rot op g
    rw [oneRun] at h ⊢
    cases k with
    | zero => cases h; exact ⟨_, rfl, s1, s3⟩
    | succ k =>
      obtain ⟨r2, h1, h2⟩ := run_lat Z ops _ s3 k r h
      rw [s2] at h1
      exact ⟨r2, h1, h2⟩

theorem tuple_heap {w w' : World} (h : w.heap = w'.heap) (x : Obj.Tuple) : w.tuple x = w'.tuple x :=
  tuple_congr fun b _ => by rw [h]

section
variable (Z : Zlib) (fs : FileSystem) (args : CommandLine)

/-- What is asked of a header makes no difference to an iteration. -/
theorem generate_latched (Z : Zlib) {h : Header} {v : Nat × Nat} (hv : h.version = .ok v) (rot : Bool) (max : Int) (s : Stream) :
    generateStatistics Z (some { h with cache := some v }) rot max s = generateStatistics Z (some h) rot max s := by
  have h1 : Header.version { h with cache := some v } = .ok v := rfl
  unfold generateStatistics parsedVersion Header.semanticVersion Header.latched
  dsimp only
  rw [h1, hv]

/-- A generator of the text and the decoder, with a header whose version may not have been asked for. -/
theorem iteration_lat (n : Nat) {w w2 : World} (L : Lat w w2) (hl : LibFile w.file) {rot : Bool} {i : Nat} {hd' : Header} {max : Int}
    {h : Header} (hh : w.header i = some h) (hv : h.cls ∈ versions)
    (G : GNow w2 (.start (some i) max) (.start (some hd') max)) {r : Row} (hr : r ∈ table) {c : HeaderClass} (hc : headerByVersion r.version = some c)
    {B : Blocks} (hB : layoutOf r.version = some B) {found : List WSample}
    (F : ∀ f ∈ found, Sized r f) {en : End}
    (h1 : (generateStatistics Z (some hd') rot max w.file).1 = found.map (presented c))
    (h2 : (generateStatistics Z (some hd') rot max w.file).2.1 = en) :
    ∃ g, (∀ s, ((program Z fs args).at (n + 5)).call py!"atoparser" py!"generate_statistics" [.file, .hdr i, .bool rot, .int max] [] s = (.ok g, s)) ∧
      ∀ N, ∃ rs : List (Obj.Out × World),
        driven (List.replicate N (Obj.Op.next 0)) [((program Z fs args).at (n + 5)).gen g] (emb [] w) =
          rs.map (fun r => (0, outVal r.1, emb [] r.2)) ∧ rs.length = N ∧ (∀ r ∈ rs, ∃ w', w2.Ext w' ∧ Lat r.2 w') ∧
        ∀ k r, rs[k]? = some r →
          (∀ f, found[k]? = some f → ∃ x, outVal r.1 = .yield x ∧ ∀ m r', k ≤ m → rs[m]? = some r' →
            TupleShows ((program Z fs args).at (n + 5)) (emb [] r'.2) B f x) ∧
          (k = found.length → outVal r.1 = endVal en) ∧ (found.length < k → outVal r.1 = .stop) := by
  have hyp : ∀ p ∈ [(rot, some i, max)], ∀ j, p.2.1 = some j → ∃ h, w.header j = some h ∧ h.cls ∈ versions := by
    intro p hp j hj
    rw [List.mem_singleton.mp hp] at hj
    cases hj
    exact ⟨h, hh, hv⟩
  obtain ⟨gen, k1, -, -, -⟩ := C68_generate_statistics Z fs args n [] w hl [(rot, some i, max)] hyp []
  refine ⟨gen (rot, some i, max), fun s => k1 (rot, some i, max) s, fun N => ?_⟩
  obtain ⟨gen', k1', -, -, k2⟩ := C68_generate_statistics Z fs args n [] w hl [(rot, some i, max)] hyp ((List.replicate N .next).map (Obj.Op.use 0))
  have e0 : gen' (rot, some i, max) = gen (rot, some i, max) := by
    have a := k1 (rot, some i, max) W.empty
    rw [k1' (rot, some i, max) W.empty] at a
    injection a with a _
    injection a
  have e2 : (Obj.history Z ((List.replicate N .next).map (Obj.Op.use 0)) (Calls.objects [(rot, some i, max)]) w).1 =
      (oneRun Z rot (List.replicate N .next) (.start (some i) max) w).map fun r => (0, r.1, r.2) := oneRun_history Z rot _ _ w
  have outs := run_outs Z (rot := rot) N _ _ w2 G
  have hlen := oneRun_length Z rot (List.replicate N .next) (.start (some i) max) w
  rw [List.length_replicate] at hlen
  refine ⟨oneRun Z rot (List.replicate N .next) (.start (some i) max) w, ?_, hlen, ?_, ?_⟩
  · rw [e2, List.map_map, List.map_replicate] at k2
    rw [List.map_cons, List.map_nil, e0] at k2
    exact k2
  · intro r hr
    obtain ⟨k, hk⟩ := List.getElem?_of_mem hr
    obtain ⟨r2, hk2, -, L2⟩ := run_lat Z _ _ L k r hk
    exact ⟨r2.2, (run_ext Z _ _ _ w2 G k r2 hk2).1, L2⟩
  · intro k r hk
    obtain ⟨r2, hk2, o2, L2⟩ := run_lat Z _ _ L k r hk
    obtain ⟨e1, hb, ext⟩ := run_ext Z _ _ _ w2 G k r2 hk2
    have ho : (nexts Z rot N (.start (some hd') max) w2.file)[k]? = some (r2.2.out r2.1) := by
      rw [← outs, List.getElem?_map, hk2]; rfl
    rw [← o2] at ho hb
    rw [← L.file] at ho
    obtain ⟨a1, a2, a3⟩ := nexts_get Z rot N _ _ k _ ho
    have all : allOf Z rot (.start (some hd') max) w.file = found.map (presented c) := h1
    rw [all, List.length_map] at a2 a3
    rw [all] at a1
    refine ⟨?_, ?_, ?_⟩
    · intro f hf
      have := a1 (presented c f) (by rw [List.getElem?_map, hf]; rfl)
      cases hr1 : r.1 with
      | stop => rw [hr1] at this; cases this
      | raise e => rw [hr1] at this; cases this
      | yield x =>
        rw [hr1] at this hb
        injection this with hx
        refine ⟨tupleVal x, rfl, fun m r' hm hr' => ?_⟩
        obtain ⟨r2', hk2', -, L2'⟩ := run_lat Z _ _ L m r' hr'
        refine tuple_shows Z fs args n [] hr hc hB (F f (List.mem_of_getElem? hf)) ?_
        rw [tuple_heap L2'.heap, ext_tuple (ext m r2' hm hk2') hb]
        exact hx
    · intro hk'
      have := a2 hk'
      rw [endingOf, h2] at this
      have key : ∀ o : Out, r2.2.out r.1 = o → (∀ x, o ≠ .yield x) → outVal r.1 = match o with | .raise e => .raise (embExc e) | _ => .stop := by
        intro o ho hne
        cases hr1 : r.1 with
        | stop => rw [hr1] at ho; subst ho; rfl
        | raise e => rw [hr1] at ho; subst ho; rfl
        | yield x => rw [hr1] at ho; exact absurd ho.symm (hne _)
      cases en with
      | returned => exact key _ this nofun
      | raised e => exact key _ this nofun
    · intro hk'
      have := a3 hk'
      cases hr1 : r.1 with
      | stop => rfl
      | raise e => rw [hr1] at this; cases this
      | yield x => rw [hr1] at this; cases this

/-- A file behind its header. -/
theorem behind_header {s s1 : Stream} {check : Bool} {x : Except Exc Header} (h : getHeader check s = (x, s1)) :
    s1.rest = s.rest.drop 480 ∧ s1.short = s.short := by
  rw [Atop.getHeader_eq] at h
  obtain ⟨r1, -, -⟩ := readinto_skip 480 s
  rcases hr : Stream.readinto 480 s with ⟨e | b, s2⟩ <;> rw [hr] at r1 h <;> cases h <;> dsimp only at r1 <;> rw [r1] <;>
    exact ⟨Stream.skip_rest s 480, rfl⟩

/-- The header without the check, then the iteration, in terms of the samples of the model. -/
theorem with_unchecked (n : Nat) (s : Stream) (hl : LibFile s) (enough : s.short = none ∨ 480 ≤ s.rest.length)
    (hm : u32 (first480 s.rest) 0 = magic) (rot : Bool) (max : Int) {found : List WSample}
    (F : ∀ f ∈ found, Sized (usedRow (first480 s.rest)) f) {en : End}
    (hgen : ∀ h s1, getHeader false s = (.ok h, s1) → (generateStatistics Z (some h) rot max s1).1 = found.map (presented h.cls) ∧
      (generateStatistics Z (some h) rot max s1).2.1 = en) :
    ∃ i w1 B g, ((program Z fs args).at (n + 5)).call py!"atoparser" py!"get_header" [.file, .bool false] [] (opened s) = (.ok (.hdr i), w1) ∧
      layoutOf (usedRow (first480 s.rest)).version = some B ∧
      Displays ((program Z fs args).at (n + 5)) w1 (.hdr i) B.header (first480 s.rest) ∧
      ((program Z fs args).at (n + 5)).call py!"atoparser" py!"generate_statistics" [.file, .hdr i, .bool rot, .int max] [] w1 = (.ok g, w1) ∧
      ∀ N, let run := driven (List.replicate N (Obj.Op.next 0)) [((program Z fs args).at (n + 5)).gen g] w1
        run.length = N ∧ ∀ k j o w2, run[k]? = some (j, o, w2) →
          (∀ f, found[k]? = some f → ∃ x, o = .yield x ∧ ∀ m j' o' w3, k ≤ m → run[m]? = some (j', o', w3) →
            TupleShows ((program Z fs args).at (n + 5)) w3 B f x) ∧
          (k = found.length → o = endVal en) ∧ (found.length < k → o = .stop) ∧
          Displays ((program Z fs args).at (n + 5)) w2 (.hdr i) B.header (first480 s.rest) := by
  have hcall := (C67_get_header Z fs args (n + 1) [] { file := s } hl false).2.1
  obtain ⟨g1, g2, -, g4⟩ := C65_get_header { file := s } nofun false
  obtain ⟨h, hx, -⟩ := (C09_unchecked s enough).2 hm
  obtain ⟨s', hx⟩ : ∃ s', getHeader false s = (.ok h, s') := ⟨_, by rw [← hx]⟩
  dsimp only at g1 g2 g4
  generalize Obj.getHeader false { file := s } = R at hcall g1 g2 g4
  rw [hx] at g1 g4
  obtain ⟨e' | i, w⟩ := R
  · exact g4.elim
  obtain ⟨k1, -⟩ := g4
  dsimp only at g1 g2 k1
  have hh := getHeader_unchecked hx
  have hlib : LibFile w.file := by intro e he; rw [g1, (behind_header hx).2] at he; exact hl e he
  obtain ⟨c', B, hc', hB, ⟨n1, -⟩, ⟨s1, -⟩, ⟨m1, -⟩⟩ := layout_facts (usedRow_mem (first480 s.rest))
  rw [class_used] at hc'; cases hc'
  have hv : classFor (first480 s.rest) ∈ versions := classFor_mem _
  have hver : h.version = .ok (major (first480 s.rest), minor (first480 s.rest)) := by rw [hh]; exact unchecked_version _
  have hcls : h.cls = classFor (first480 s.rest) := by rw [hh]
  have hbuf : h.buf = first480 s.rest := by rw [hh]
  obtain ⟨d1, d2⟩ := hgen h s' hx
  rw [← generate_latched Z hver, ← g1] at d1 d2
  obtain ⟨w2, L, k2⟩ := asked (header_at g2 k1) hver
  have G : GNow w2 (.start (some i) max) (.start (some { h with cache := some (major (first480 s.rest), minor (first480 s.rest)) }) max) := ⟨rfl, k2, rfl⟩
  have dh : ∀ w' hq, w'.header i = some hq → hq.cls = h.cls → hq.buf = h.buf →
      Displays ((program Z fs args).at (n + 5)) (emb [] w') (.hdr i) B.header (first480 s.rest) := by
    rintro w' ⟨c, b, q⟩ hq rfl rfl
    rw [hbuf] at hq
    refine displays_header Z fs args n [] hq (by rw [hcls]; exact hv) (by rw [hcls]; exact n1) (by rw [hcls]; exact m1) ?_
    rw [hcls, s1, first480_length]
  obtain ⟨g, e1, e2⟩ := iteration_lat Z fs args n L hlib k1 (by rw [hcls]; exact hv) G (usedRow_mem (first480 s.rest)) (class_used _) hB F
    (by rw [d1, hcls]) d2
  refine ⟨i, emb [] w, B, g, hcall, hB, dh w h k1 rfl rfl, e1 _, fun N => ?_⟩
  obtain ⟨rs, r1, r2, r3, r4⟩ := e2 N
  dsimp only
  rw [r1]
  refine ⟨by rw [List.length_map]; exact r2, ?_⟩
  intro k j o w2' hk
  obtain ⟨r, hr, rfl, rfl⟩ := got hk
  obtain ⟨a1, a2, a3⟩ := r4 k r hr
  refine ⟨?_, a2, a3, ?_⟩
  · intro f hf
    obtain ⟨x, x1, x2⟩ := a1 f hf
    refine ⟨x, x1, fun m j' o' w3 hm hq => ?_⟩
    obtain ⟨r', hr', -, rfl⟩ := got hq
    exact x2 m r' hm hr'
  · obtain ⟨w', x1, x2⟩ := r3 r (List.mem_of_getElem? hr)
    have hh := (k2.ext x1).header
    rcases x2.view i with ⟨-, h2, -, -⟩ | ⟨o, o', hq, hq', -, -, v1, v2, V, -, -⟩
    · rw [h2] at hh; cases hh
    · rw [v2] at hh; cases hh
      exact dh r.2 hq v1 V.1 V.2.1

/-- **C55** `get_header(raw_file, False)` and then `generate_statistics(raw_file, header, raise_on_truncation, max_samples)`,
both from their source text, on any file that begins with the number of atop, whatever lengths and version its header records
(a version too old to say how long its tasks are: `C55_too_old`).  The header object shows the first 480 bytes by the literal
layout of the version in use.  The reference decoder of Spec/Unchecked.lean, which spaces tasks and cgroups by the recorded
lengths, says what the rest of the file holds: the `k`-th call of `next()` hands out the tuple of the `k`-th sample found, and
its objects show - converted or read attribute by attribute, then or after any later call - the bytes of that sample.  The call
after the last sample ends the iteration or raises the exception of the trouble found there; further calls end it again. -/
theorem C55_source (n : Nat) (s : Stream) (hl : LibFile s) (enough : s.short = none ∨ 480 ≤ s.rest.length)
    (hm : u32 (first480 s.rest) 0 = magic) (ho : ¬ tooOld (first480 s.rest)) (rot : Bool) (max : Int)
    {found : List Found} {t : Option Trouble}
    (hd : decodeLogIn Z (usedRow (first480 s.rest)) (u32 (first480 s.rest) 32) (i32 (first480 s.rest) 456)
      (readsCGroups (first480 s.rest)) s.short.isNone max.toNat (s.rest.drop 480) = (found, t)) :
    ∃ i w1 B g, ((program Z fs args).at (n + 5)).call py!"atoparser" py!"get_header" [.file, .bool false] [] (opened s) = (.ok (.hdr i), w1) ∧
      layoutOf (usedRow (first480 s.rest)).version = some B ∧
      Displays ((program Z fs args).at (n + 5)) w1 (.hdr i) B.header (first480 s.rest) ∧
      ((program Z fs args).at (n + 5)).call py!"atoparser" py!"generate_statistics" [.file, .hdr i, .bool rot, .int max] [] w1 = (.ok g, w1) ∧
      ∀ N, let run := driven (List.replicate N (Obj.Op.next 0)) [((program Z fs args).at (n + 5)).gen g] w1
        run.length = N ∧ ∀ k j o w2, run[k]? = some (j, o, w2) →
          (∀ f, found[k]? = some f → ∃ x, o = .yield x ∧ ∀ m j' o' w3, k ≤ m → run[m]? = some (j', o', w3) →
            TupleShows ((program Z fs args).at (n + 5)) w3 B f.written x) ∧
          (k = found.length → o = lastOut s.short rot t) ∧ (found.length < k → o = .stop) ∧
          Displays ((program Z fs args).at (n + 5)) w2 (.hdr i) B.header (first480 s.rest) := by
  obtain ⟨i, w1, B, g, k1, k2, k3, k4, k5⟩ := with_unchecked Z fs args n s hl enough hm rot max (found := found.map Found.written) (by
      intro f hf
      obtain ⟨q, hq, rfl⟩ := List.mem_map.mp hf
      refine sized_found (fun hcg => ?_) (decodeLogIn_fits (Z := Z) _ _ q (by rw [hd]; exact hq))
      exact (usable_now (first480_length s.rest) (first480_length s.rest) ho).cgs hcg) (by
      intro h s1 hg
      obtain ⟨b1, b2⟩ := behind_header hg
      obtain ⟨d1, d2⟩ := C55_unchecked Z hg rfl ho rot max s1 (fs := found) (t := t) (by rw [b1, b2]; exact hd)
      exact ⟨by rw [d1, List.map_map]; rfl, by rw [b2] at d2; exact d2⟩)
  refine ⟨i, w1, B, g, k1, k2, k3, k4, fun N => ?_⟩
  obtain ⟨c1, c2⟩ := k5 N
  refine ⟨c1, fun k j o w2 hk => ?_⟩
  obtain ⟨a1, a2, a3, a4⟩ := c2 k j o w2 hk
  rw [List.length_map] at a2 a3
  refine ⟨fun f hf => a1 f.written (by rw [List.getElem?_map, hf]; rfl), fun hk' => ?_, a3, a4⟩
  rw [a2 hk']
  exact lastOut_eq rfl

/-- **C55** The same, on a file whose header is of an unsupported version before 2.3, which does not say how long its tasks are:
nothing is yielded.  The first call of `next()` ends the iteration when no sample is asked for or none is found, raises what is
wrong with the record, the system statistics or the block of tasks if anything is, and raises an `AttributeError` otherwise;
further calls end the iteration. -/
theorem C55_source_too_old (n : Nat) (s : Stream) (hl : LibFile s) (enough : s.short = none ∨ 480 ≤ s.rest.length)
    (hm : u32 (first480 s.rest) 0 = magic) (ho : tooOld (first480 s.rest)) (rot : Bool) (max : Int) :
    ∃ i w1 B g, ((program Z fs args).at (n + 5)).call py!"atoparser" py!"get_header" [.file, .bool false] [] (opened s) = (.ok (.hdr i), w1) ∧
      layoutOf py!"2.12" = some B ∧
      Displays ((program Z fs args).at (n + 5)) w1 (.hdr i) B.header (first480 s.rest) ∧
      ((program Z fs args).at (n + 5)).call py!"atoparser" py!"generate_statistics" [.file, .hdr i, .bool rot, .int max] [] w1 = (.ok g, w1) ∧
      ∀ N, let run := driven (List.replicate N (Obj.Op.next 0)) [((program Z fs args).at (n + 5)).gen g] w1
        run.length = N ∧ ∀ k j o w2, run[k]? = some (j, o, w2) →
          (0 < k → o = .stop) ∧
          (k = 0 → (max ≤ 0 → o = .stop) ∧ (0 < max →
            (decodeUntilTasks Z newest s.short.isNone (s.rest.drop 480) = .ok false → o = .stop) ∧
            (decodeUntilTasks Z newest s.short.isNone (s.rest.drop 480) = .ok true → o = .raise (.sys .attributeError)) ∧
            ∀ t, decodeUntilTasks Z newest s.short.isNone (s.rest.drop 480) = .error t → o = lastOut s.short rot (some t))) ∧
          Displays ((program Z fs args).at (n + 5)) w2 (.hdr i) B.header (first480 s.rest) := by
  obtain ⟨i, w1, B, g, k1, k2, k3, k4, k5⟩ := with_unchecked Z fs args n s hl enough hm rot max (found := []) nofun (by
      intro h s1 hg
      obtain ⟨b1, b2⟩ := behind_header hg
      obtain ⟨d1, d2⟩ := C55_too_old Z hg rfl ho rot max s1
      rw [b1, b2] at d2
      exact ⟨d1, d2⟩)
  have hv : (usedRow (first480 s.rest)).version = py!"2.12" := by rw [((classFor_facts _).2.1 ho.1).2]; decide
  rw [hv] at k2
  refine ⟨i, w1, B, g, k1, k2, k3, k4, fun N => ?_⟩
  obtain ⟨c1, c2⟩ := k5 N
  refine ⟨c1, fun k j o w2 hk => ?_⟩
  obtain ⟨-, a2, a3, a4⟩ := c2 k j o w2 hk
  refine ⟨a3, fun hk' => ?_, a4⟩
  have := a2 hk'
  refine ⟨fun h => ?_, fun h => ⟨fun h1 => ?_, fun h1 => ?_, fun t h1 => ?_⟩⟩
  · rw [if_pos h] at this; exact this
  · rw [if_neg (by omega), h1] at this; exact this
  · rw [if_neg (by omega), h1] at this; exact this
  · rw [if_neg (by omega), h1] at this
    rw [this]
    exact lastOut_eq rfl

end

/-! ## Concrete cases -/

/-- A 1.26 file whose header records tasks eight bytes longer than the structure, read without the check: the first `next()`
yields the sample with its two tasks, and the second ends the iteration. -/
example (fs : FileSystem) (args : CommandLine) : ∃ i w1 B g x w2 w3, layoutOf py!"1.26" = some B ∧
    ((program blockZ fs args).at 5).call py!"atoparser" py!"get_header" [.file, .bool false] []
      (opened { data := toyHeader rowWide ++ wideBody }) = (.ok (.hdr i), w1) ∧
    ((program blockZ fs args).at 5).call py!"atoparser" py!"generate_statistics" [.file, .hdr i, .bool true, .int 10] [] w1 = (.ok g, w1) ∧
    (driven (List.replicate 2 (Obj.Op.next 0)) [((program blockZ fs args).at 5).gen g] w1).map Prod.snd = [(.yield x, w2), (.stop, w3)] ∧
    TupleShows ((program blockZ fs args).at 5) w3 B
      (Found.written ⟨wideBody.take 80, List.replicate 88368 7, [List.replicate 616 1, List.replicate 616 2], []⟩) x := by
  have f1 : (toyHeader rowWide).length = 480 ∧ u32 (toyHeader rowWide) 0 = magic ∧ ¬ tooOld (toyHeader rowWide) ∧
    usedRow (toyHeader rowWide) = firstRow := by decide +kernel
  have wd := wide_decoded
  generalize toyHeader rowWide = hb at f1 wd ⊢
  obtain ⟨a1, a2, a3, a4⟩ := f1
  have e1 : Stream.rest { data := hb ++ wideBody } = hb ++ wideBody := by simp [Stream.rest]
  have e2 : first480 (hb ++ wideBody) = hb := by
    unfold first480
    rw [List.take_left' a1, List.length_append, a1, show 480 - (480 + wideBody.length) = 0 by omega]; simp
  have e3 : (hb ++ wideBody).drop 480 = wideBody := List.drop_left' a1
  obtain ⟨i, w1, B, g, k1, k2, -, k4, k5⟩ := C55_source blockZ fs args 0 { data := hb ++ wideBody } (by intro e he; cases he) (.inl rfl)
    (by rw [e1, e2]; exact a2) (by rw [e1, e2]; exact a3) true 10
    (found := [⟨wideBody.take 80, List.replicate 88368 7, [List.replicate 616 1, List.replicate 616 2], []⟩]) (t := none)
    (by rw [e1, e2, e3, a4]; exact wd)
  rw [e1, e2, a4] at k2
  obtain ⟨c1, c2⟩ := k5 2
  dsimp only at c1 c2
  generalize hrun : driven (List.replicate 2 (Obj.Op.next 0)) [((program blockZ fs args).at 5).gen g] w1 = run at c1 c2
  match run, c1, c2 with
  | [(j, o, w2), (j', o', w3)], _, c2 =>
    obtain ⟨b1, -, -, -⟩ := c2 0 j o w2 rfl
    obtain ⟨x, rfl, b1⟩ := b1 _ rfl
    obtain ⟨-, b2, -, -⟩ := c2 1 j' o' w3 rfl
    obtain rfl := b2 rfl
    exact ⟨i, w1, B, g, x, w2, w3, k2, k1, k4, by rw [hrun]; rfl, b1 1 _ _ _ (by decide) rfl⟩

/-- A file of version 1.20 that holds nothing else: the iteration ends at once. -/
example (Z : Zlib) (fs : FileSystem) (args : CommandLine) := C55_source_too_old Z fs args 0
  { data := toyHeader { newest with major := 1, minor := 20 } } (by intro e he; cases he) (.inl rfl) (by decide +kernel) (by decide +kernel) true 5

end Atop.Src
