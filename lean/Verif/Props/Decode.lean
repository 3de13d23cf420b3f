import Verif.Proofs.Decode
import Verif.Props.Cli
/-!
# C53, C54: arbitrary bytes behind an accepted header
-/

namespace Atop
open Spec

/-- **C53** Iterating over arbitrary bytes behind an accepted header: exactly the samples found by the reference decoder
are yielded, in order, each viewed with the structures of the version, and the iteration ends as the decoder does: normally
at the end of the samples, with `zlib.error` (swallowed unless `raise_on_truncation`), with `ValueError` or with the error of
the file's container. -/
theorem C53_decoder (Z : Zlib) {s0 s1 : Stream} {h : Header} (hg : getHeader true s0 = (.ok h, s1)) (rot : Bool) (max : Int)
    (s : Stream) {fs : List Found} {t : Option Trouble}
    (hd : decodeLog Z (usedRow (first480 s0.rest)) (readsCGroups (first480 s0.rest)) s.short.isNone max.toNat s.rest = (fs, t)) :
    (generateStatistics Z (some h) rot max s).1 = fs.map (fun f => presented h.cls f.written) ∧
    (generateStatistics Z (some h) rot max s).2.1 = match (generalizing := false) t with
      | none => .returned
      | some t => if troubleExc s.short t = .zlibError ∧ rot = false then .returned else .raised (troubleExc s.short t) := by
  obtain ⟨h1, R, -, -, -⟩ := getHeader_ok hg
  have := major_lt (first480 s0.rest)
  rw [generate_ready R (by rw [h1]) (by show major (first480 s0.rest) < 256; omega) (minor_lt _) Z rot max s]
  obtain ⟨i1, i2⟩ := decode_loop R Z rot max.toNat s
  rw [hd] at i1 i2
  refine ⟨i1, ?_⟩
  rw [i2]
  cases t with
  | none => rfl
  | some t =>
    unfold endOf
    by_cases he : troubleExc s.short t = .zlibError <;> cases rot <;> simp [he]

/-! ## The shape of what is found -/

/-- Sizes of what a decoder of row `r` finds. -/
structure Spec.Found.Fits (r : Row) (cg : Bool) (f : Found) : Prop where
  record : f.record.length = r.record
  sstat : f.sstat.length = r.sstat
  tstats : ∀ t ∈ f.tstats, t.length = r.tstat
  noGroups : cg = false → f.groups = []
  groups : ∀ g ∈ f.groups, g.entry.length = r.cstat.getD 0 ∧ (g.pids.length : Int) = 4 * i32 g.entry 16

theorem decodeChain_fits (L : Nat) (d : Bytes) : ∀ (k : Nat) (S : Int) (p : Bytes) {gs : List WGroup},
    decodeChain L d k S p = .ok gs → ∀ g ∈ gs, g.entry.length = L ∧ (g.pids.length : Int) = 4 * i32 g.entry 16
  | 0, S, p, gs, h => by cases h; nofun
  | k + 1, S, p, gs, h => by
    rw [decodeChain] at h
    have hw := slice_width d S L
    split at h
    · cases h
    · split at h
      · cases h
      · split at h
        · cases h
        · rename_i h1 h2 h3
          cases hr : decodeChain L d k (S + i32 (pySlice d S (S + L)) 0) (p.drop (4 * (i32 (pySlice d S (S + L)) 16).toNat)) with
          | error t => rw [hr] at h; cases h
          | ok gs' =>
            rw [hr] at h
            cases h
            intro g hg
            rcases List.mem_cons.mp hg with rfl | hg
            · refine ⟨by dsimp only; omega, ?_⟩
              dsimp only
              rw [List.length_take, Nat.min_eq_left (by omega)]
              omega
            · exact decodeChain_fits L d k _ _ hr g hg

theorem takeBytes_ok {whole : Bool} {n : Nat} {b c rest : Bytes} (h : takeBytes whole n b = .ok (c, rest)) :
    c = b.take n ∧ rest = b.drop n := by
  unfold takeBytes at h
  split at h
  · cases h
  · cases h; exact ⟨rfl, rfl⟩

theorem decodeBlocks_fits {Z : Bytes → Option Bytes} {r : Row} {cg whole : Bool} {head b : Bytes} {f : Found} {b' : Bytes}
    (hh : head.length = r.record) (h : decodeBlocks Z r cg whole head b = .ok (some (f, b'))) : f.Fits r cg := by
  unfold decodeBlocks at h
  split at h
  · cases h
  · split at h
    · cases h
    · split at h
      · cases h
      · rename_i hd
        split at h
        · cases h
        · split at h
          · cases h
          · rename_i ts hts
            have hT : ∀ t ∈ ts, t.length = r.tstat := by
              unfold decodeTasks at hts
              split at hts
              · cases hts
              · rename_i e _ _ _ hle
                cases hts
                intro t ht
                obtain ⟨i, hi, rfl⟩ := List.mem_map.mp ht
                rw [List.mem_range] at hi
                have : (i + 1) * r.tstat ≤ u32 head 28 * r.tstat := Nat.mul_le_mul_right _ hi
                rw [Nat.succ_mul] at this
                rw [List.length_take, List.length_drop]
                omega
            split at h
            · cases h
              exact ⟨hh, by simp; omega, hT, fun _ => rfl, nofun⟩
            · rename_i hcg
              split at h
              · cases h
              · rename_i gs b3 hgs
                cases h
                refine ⟨hh, by simp; omega, hT, fun h => absurd h hcg, ?_⟩
                unfold decodeGroups at hgs
                split at hgs
                · cases hgs
                · split at hgs
                  · cases hgs
                  · split at hgs
                    · cases hgs
                    · rename_i hch
                      cases hgs
                      exact decodeChain_fits _ _ _ _ _ hch

theorem decodeLog_fits {Z : Bytes → Option Bytes} {r : Row} {cg whole : Bool} : ∀ (n : Nat) (b : Bytes),
    ∀ f ∈ (decodeLog Z r cg whole n b).1, f.Fits r cg
  | 0, b => nofun
  | n + 1, b => by
    rw [decodeLog]
    cases hd : decodeSample Z r cg whole b with
    | error t => nofun
    | ok q =>
      cases q with
      | none => nofun
      | some q =>
        obtain ⟨f, b'⟩ := q
        intro g hg
        rcases List.mem_cons.mp hg with rfl | hg
        · unfold decodeSample at hd
          cases ht : takeBytes whole r.record b with
          | error t => rw [ht] at hd; cases hd
          | ok q =>
            obtain ⟨c, rest⟩ := q
            rw [ht] at hd
            obtain ⟨rfl, rfl⟩ := takeBytes_ok ht
            exact decodeBlocks_fits (by simp) hd
        · exact decodeLog_fits n b' g hg

/-- A plain file has no container to break. -/
theorem takeBytes_whole (n : Nat) (b : Bytes) : takeBytes true n b = .ok (b.take n, b.drop n) := by
  unfold takeBytes; rw [if_neg (by simp)]

theorem decodeChain_whole (L : Nat) (d : Bytes) : ∀ (k : Nat) (S : Int) (p : Bytes), decodeChain L d k S p ≠ .error .container
  | 0, S, p => nofun
  | k + 1, S, p => by
    rw [decodeChain]
    split
    · nofun
    · split
      · nofun
      · split
        · nofun
        · split
          · rename_i h
            intro hh
            cases hh
            exact decodeChain_whole L d k _ _ h
          · nofun

theorem unpack_whole (Z : Bytes → Option Bytes) (n : Nat) (b : Bytes) : unpack Z true n b ≠ .error .container := by
  unfold unpack
  rw [takeBytes_whole]
  dsimp only
  split <;> nofun

theorem decodeSample_whole (Z : Bytes → Option Bytes) (r : Row) (cg : Bool) (b : Bytes) :
    decodeSample Z r cg true b ≠ .error .container := by
  unfold decodeSample
  rw [takeBytes_whole]
  dsimp only
  unfold decodeBlocks
  split
  · nofun
  · split
    · rename_i h; intro hh; cases hh; exact unpack_whole _ _ _ h
    · split
      · nofun
      · split
        · rename_i h; intro hh; cases hh; exact unpack_whole _ _ _ h
        · split
          · rename_i h
            intro hh; cases hh
            unfold decodeTasks at h
            split at h <;> cases h
          · split
            · nofun
            · split
              · rename_i h
                intro hh; cases hh
                unfold decodeGroups at h
                split at h
                · rename_i h'; cases h; exact unpack_whole _ _ _ h'
                · split at h
                  · rename_i h'; cases h; exact unpack_whole _ _ _ h'
                  · split at h
                    · rename_i h'; cases h; exact decodeChain_whole _ _ _ _ _ h'
                    · cases h
              · nofun

theorem decodeLog_whole {Z : Bytes → Option Bytes} {r : Row} {cg : Bool} : ∀ (n : Nat) (b : Bytes),
    (decodeLog Z r cg true n b).2 ≠ some .container
  | 0, b => nofun
  | n + 1, b => by
    rw [decodeLog]
    cases h : decodeSample Z r cg true b with
    | error t =>
      intro hh
      cases hh
      exact decodeSample_whole Z r cg b h
    | ok q =>
      cases q with
      | none => nofun
      | some q => exact decodeLog_whole n q.2

/-- **C54** `parse_file` without parseables on EVERY stream, plain file or damaged `.gz` file (`s.short = some e`: what can be
decompressed is `s.rest`, and a read that needs more raises `e`).  If the container breaks off inside the header, its error
leaves the call.  Otherwise the first 480 bytes decide about acceptance, and the reference decoder about the rest: the entries
show exactly the samples it finds; or its trouble leaves the call as an exception (the container's own error if a read
needed bytes that could not be had) and there is no document. -/
theorem C54_any_stream (Z : Zlib) {o : Opts} (hp : o.parseables = []) (file : PyStr) {s : Stream}
    {hb : Bytes} (hhb : hb = first480 s.rest) {fs : List Found} {t : Option Trouble}
    (hd : decodeLog Z (usedRow hb) (readsCGroups hb) s.short.isNone 86400 (s.rest.drop 480) = (fs, t)) :
    (∀ e, s.short = some e → s.rest.length < 480 → (parseFile Z o file s).1 = .error e) ∧
    (s.short = none ∨ 480 ≤ s.rest.length →
      (¬ Accepts hb → ∃ e, (parseFile Z o file s).1 = .error e ∧ ((∃ k, e = .valueError k) ∨ e = .attributeError) ∧
        (e = .attributeError ↔ u32 hb 0 = magic ∧ tooOld hb)) ∧
      (Accepts hb → (∀ t', t = some t' → troubleExc s.short t' = .zlibError) → ∃ B docs, layoutOf (usedRow hb).version = some B ∧
        (parseFile Z o file s).1 = .ok docs ∧ docs.length = fs.length ∧
        ∀ (i : Nat) f v, fs[i]? = some f → docs[i]? = some v → EntryShows B hb f.written o.showTstats o.showCstats v) ∧
      (Accepts hb → ∀ t', t = some t' → troubleExc s.short t' ≠ .zlibError →
        (parseFile Z o file s).1 = .error (troubleExc s.short t'))) := by
  refine ⟨fun e he hl => C29_refused Z o file (C09_damaged_container s e he hl true), fun enough => ⟨?_, ?_⟩⟩
  · intro hA
    rcases hg : getHeader true s with ⟨e | h, s'⟩
    · refine ⟨e, C29_refused Z o file (by rw [hg]), ?_⟩
      obtain ⟨-, -, k3, k4⟩ := C09_rejection_kinds s enough
      rw [hg, ← hhb] at k3
      rw [hg] at k4
      refine ⟨?_, ⟨fun h => k3.mp (by rw [h]), fun h => by injection k3.mpr h⟩⟩
      rcases k4 e rfl with ⟨_, rfl⟩ | ⟨_, rfl⟩ | rfl
      · exact .inl ⟨_, rfl⟩
      · exact .inl ⟨_, rfl⟩
      · exact .inr rfl
    · exact absurd ((C08_header_accepted_iff s enough).mp ⟨h, by rw [hg]⟩) (by rw [← hhb]; exact hA)
  by_cases hA : Accepts hb
  · obtain ⟨c, hc, hg⟩ := C08_header_result s enough (by rw [← hhb]; exact hA)
    rw [← hhb] at hc hg
    obtain ⟨h1, h2⟩ := C29_full_output Z hp file hg
    obtain ⟨d1, d2⟩ := C53_decoder Z hg false 86400 { s with pos := s.pos + min 480 s.rest.length } (fs := fs) (t := t) (by
      have e1 : Stream.rest { s with pos := s.pos + min 480 s.rest.length } = s.rest.drop 480 := Stream.skip_rest s 480
      rw [e1, ← hhb]
      exact hd)
    have hgn : generateStatistics Z none false 86400 s = generateStatistics Z (some ⟨c, hb, some (major hb, minor hb)⟩) false 86400
        { s with pos := s.pos + min 480 s.rest.length } := by rw [generate_none, hg]
    rw [← hgn] at d1 d2
    refine ⟨fun _ ht => ?_, fun _ t' ht hne => ?_⟩
    · obtain ⟨docs, e1, e2, e3⟩ := h1 (by
        cases t with
        | none => exact d2
        | some t' =>
          dsimp only at d2
          rw [if_pos ⟨ht t' rfl, rfl⟩] at d2
          exact d2)
      obtain ⟨c', B, hc', hB, -⟩ := layout_facts (usedRow_mem hb)
      refine ⟨B, docs, hB, e1, by rw [e2, d1, List.length_map], ?_⟩
      intro i f v hf hv
      have F := decodeLog_fits (Z := Z) (r := usedRow hb) (cg := readsCGroups hb) (whole := s.short.isNone) 86400 (s.rest.drop 480) f
        (by rw [hd]; exact List.mem_of_getElem? hf)
      have hfe := e3 i (presented c f.written) v (by rw [d1, List.getElem?_map, hf]; rfl) hv
      refine entry_shows (usedRow_mem hb) hc hB (by rw [hhb]; exact first480_length _) F.record F.sstat F.tstats ?_ ?_ hfe
      · intro hn
        refine F.noGroups ?_
        cases hcg : readsCGroups hb with
        | false => rfl
        | true =>
          have := hA.2.2.2.2.2.2 hcg
          rw [hn] at this; cases this
      · intro g hgm n hn
        obtain ⟨g1, g2⟩ := F.groups g hgm
        rw [hn] at g1
        exact ⟨Nat.le_of_eq g1.symm, by omega⟩
    · subst ht
      dsimp only at d2
      rw [if_neg (fun h => hne h.1)] at d2
      exact h2 _ d2
  · exact ⟨fun h => absurd h hA, fun h => absurd h hA⟩

/-- **C54** `parse_file` on ANY plain file (no parseables asked for).  The first 480 bytes decide whether the file is
accepted; if not, a `ValueError` leaves the call (an `AttributeError` exactly when the magic number is right and the
version unsupported and older than 2.3).  If so, the reference decoder says what the rest holds: when it stopped
at the end of the samples or at a block that does not decompress, the document has one entry per sample found, showing
its bytes by the literal layout of the version; when it met short data or a negative count, a `ValueError` leaves the call. -/
theorem C54_any_file (Z : Zlib) {o : Opts} (hp : o.parseables = []) (file : PyStr) {s : Stream} (plain : s.short = none)
    {hb : Bytes} (hhb : hb = first480 s.rest) {fs : List Found} {t : Option Trouble}
    (hd : decodeLog Z (usedRow hb) (readsCGroups hb) true 86400 (s.rest.drop 480) = (fs, t)) :
    (¬ Accepts hb → ∃ e, (parseFile Z o file s).1 = .error e ∧ ((∃ k, e = .valueError k) ∨ e = .attributeError) ∧
      (e = .attributeError ↔ u32 hb 0 = magic ∧ tooOld hb)) ∧
    (Accepts hb → (t = none ∨ t = some .zlib) → ∃ B docs, layoutOf (usedRow hb).version = some B ∧
      (parseFile Z o file s).1 = .ok docs ∧ docs.length = fs.length ∧
      ∀ (i : Nat) f v, fs[i]? = some f → docs[i]? = some v → EntryShows B hb f.written o.showTstats o.showCstats v) ∧
    (Accepts hb → t = some .short → (parseFile Z o file s).1 = .error (.valueError .bufferTooSmall)) ∧
    (Accepts hb → t = some .negative → (parseFile Z o file s).1 = .error (.valueError .negativeLength)) ∧
    t ≠ some .container := by
  have hnc : t ≠ some .container := by
    rintro rfl
    exact decodeLog_whole 86400 _ (by rw [hd])
  obtain ⟨-, h⟩ := C54_any_stream Z hp file hhb (s := s) (fs := fs) (t := t) (by rw [plain]; exact hd)
  obtain ⟨h1, h2, h3⟩ := h (.inl plain)
  refine ⟨h1, fun hA ht => h2 hA ?_, fun hA ht => ?_, fun hA ht => ?_, hnc⟩
  · rintro t' rfl
    rcases ht with ht | ht
    · cases ht
    · cases ht; rfl
  · exact h3 hA _ ht (by nofun)
  · exact h3 hA _ ht (by nofun)

/-- **C54** The same from the command line: `atoparser [-p] [--tstats] [--cstats] FILE` on any plain file either prints one
JSON text with exactly one reading, whose entries show the samples the reference decoder finds, and ends normally; or it
prints nothing and an exception leaves the program.  Which of the two is decided by the first 480 bytes and the decoder. -/
theorem C54_program (U : Nat → Bool) (Z : Zlib) {fs : FileSystem} {file : PyStr} {s : Stream}
    (hf : fs file (usesGzip file) = .ok s) (plain : s.short = none) (hdash : file.head? ≠ some 45) (ts cs pretty : Bool)
    {hb : Bytes} (hhb : hb = first480 s.rest) {found : List Found} {t : Option Trouble}
    (hd : decodeLog Z (usedRow hb) (readsCGroups hb) true 86400 (s.rest.drop 480) = (found, t)) {argv : List PyStr}
    (ha : argv = (if pretty then [py!"-p"] else []) ++ (if ts then [py!"--tstats"] else []) ++
      (if cs then [py!"--cstats"] else []) ++ [file]) :
    if Accepts hb ∧ (t = none ∨ t = some .zlib) then
      ∃ B docs a text, layoutOf (usedRow hb).version = some B ∧ docs.length = found.length ∧
        (∀ (i : Nat) f v, found[i]? = some f → docs[i]? = some v → EntryShows B hb f.written ts cs v) ∧ Says (.list docs) a ∧
        program U Z fs argv = (text, .done) ∧ JsonText true text a ∧ ∀ b, JsonText true text b → b = a
    else ∃ e, program U Z fs argv = ([], .raised e) := by
  obtain ⟨c1, c2, c3, c4, c5⟩ := C54_any_file Z (o := optsOf none ts cs) rfl file plain hhb hd
  have hpp : parsePath Z fs (optsOf none ts cs) file = (parseFile Z (optsOf none ts cs) file s).1 := by
    unfold parsePath; rw [hf]; rfl
  have hargs := C51_usage U [file] [] pretty ts cs (by simp) (fun f hm => by rw [List.mem_singleton.mp hm]; exact hdash) nofun
  rw [if_pos rfl, List.append_nil, if_pos rfl] at hargs
  subst ha
  split
  · rename_i hA
    obtain ⟨B, docs, hB, h1, h2, h3⟩ := c2 hA.1 hA.2
    obtain ⟨a, hs, hp⟩ := C43_printed (hpp.trans h1)
    obtain ⟨text, e, hj, hu⟩ := hp pretty
    refine ⟨B, docs, a, text, hB, h2, h3, hs, ?_, hj, hu⟩
    unfold program
    rw [hargs]
    have hm : mainText Z fs { files := [file], parseables := none, prettyPrint := pretty, showTstats := ts, showCstats := cs } =
        (text, none) := by
      unfold mainText
      simp only [mainLoop]
      rw [e]
      simp
    dsimp only
    rw [hm]
  · rename_i hA
    have : ∃ e, (parseFile Z (optsOf none ts cs) file s).1 = .error e := by
      by_cases hacc : Accepts hb
      · cases t with
        | none => exact absurd ⟨hacc, .inl rfl⟩ hA
        | some t =>
          cases t with
          | zlib => exact absurd ⟨hacc, .inr rfl⟩ hA
          | short => exact ⟨_, c3 hacc rfl⟩
          | negative => exact ⟨_, c4 hacc rfl⟩
          | container => exact absurd rfl c5
      · obtain ⟨e, he, -⟩ := c1 hacc
        exact ⟨e, he⟩
    obtain ⟨e, he⟩ := this
    refine ⟨e, ?_⟩
    have ht : parseFileText Z fs file none pretty ts cs = .error e := C43_error pretty (hpp.trans he)
    unfold program
    rw [hargs]
    have hm : mainText Z fs { files := [file], parseables := none, prettyPrint := pretty, showTstats := ts, showCstats := cs } =
        ([], some e) := by
      unfold mainText
      simp only [mainLoop]
      rw [ht]
    dsimp only
    rw [hm]

/-! ## The decoder on what a conforming writer writes -/

/-- What the decoder finds of a written sample: of a cgroup's chain entry, the fixed structure. -/
def foundOf (r : Row) (w : WSample) : Found :=
  ⟨w.record, w.sstat, w.tstats, w.groups.map fun g => ⟨g.entry.take (r.cstat.getD 0), g.pids⟩⟩

theorem presented_found {r : Row} {c : HeaderClass} (F : Facts c r) {f : Found} (hf : f.Fits r r.cstat.isSome) {w : WSample}
    (hw : r.cstat = none → w.groups = []) (h : presented c f.written = presented c w) : f = foundOf r w := by
  obtain ⟨rec, ss, ts, gs⟩ := f
  unfold presented Found.written at h
  simp only [Sample.mk.injEq, Inst.mk.injEq, true_and] at h
  obtain ⟨h1, h2, h3, h4⟩ := h
  have h3' : ts = w.tstats := (List.map_inj_right (fun a b hab => by injection hab)).mp h3
  subst h1 h2 h3'
  unfold foundOf
  congr 1
  have hcs := F.cstat
  cases ht : c.CStat with
  | none =>
    rw [ht] at hcs
    have hn : r.cstat = none := hcs.symm
    rw [hw hn]
    exact hf.noGroups (by rw [hn]; rfl)
  | some t =>
    rw [ht] at hcs h4
    have hn : r.cstat = some t.size := hcs.symm
    rw [hn, Option.getD_some]
    dsimp only at h4
    refine List.ext_getElem? fun i => ?_
    have hi := congrArg (fun l => l[i]?) h4
    simp only [List.getElem?_map] at hi ⊢
    cases hg : gs[i]? with
    | none =>
      rw [hg] at hi
      cases hq : w.groups[i]? with
      | none => rfl
      | some q => rw [hq] at hi; cases hi
    | some g =>
      rw [hg] at hi
      cases hq : w.groups[i]? with
      | none => rw [hq] at hi; cases hi
      | some q =>
        rw [hq] at hi
        simp only [Option.map_some, Option.some.injEq, presentedGroup, CGroup.mk.injEq, Inst.mk.injEq, true_and] at hi ⊢
        obtain ⟨g1, -⟩ := hf.groups g (List.mem_of_getElem? hg)
        rw [hn, Option.getD_some] at g1
        rw [List.take_of_length_le (Nat.le_of_eq g1)] at hi
        obtain ⟨e, p⟩ := g
        rw [← hi.1, ← hi.2.2]

/-- **C53** The reference decoder reads back a log written by a conforming writer: exactly the written samples, no trouble. -/
theorem C53_written {Z : Zlib} {r : Row} (hr : r ∈ table) {ws : List WSample} (W : ∀ w ∈ ws, w.Valid Z r) {n : Nat}
    (hn : ws.length ≤ n) : decodeLog Z r r.cstat.isSome true n (body r ws) = (ws.map (foundOf r), none) := by
  have H := toyHeader_valid r hr
  obtain ⟨c, hc, hgen⟩ := C01_round_trip hr H W true n (by omega) (s := { data := toyHeader r ++ body r ws }) (by simp [Stream.rest]) rfl
  obtain ⟨h, hg, hbuf, -, hc'⟩ := toy_header_accepted r hr (body r ws)
  obtain rfl : c = h.cls := by rw [hc] at hc'; exact Option.some.inj hc'
  have e480 : first480 (Stream.rest { data := toyHeader r ++ body r ws }) = toyHeader r := by
    have := congrArg Header.buf (getHeader_ok hg).1
    rw [hbuf] at this; exact this.symm
  have hrest : Stream.rest { data := toyHeader r ++ body r ws, pos := 480 } = body r ws := by
    unfold Stream.rest
    dsimp only
    rw [← H.length, List.drop_left]
  obtain ⟨u1, u2, -, -⟩ := valid_accepts hr H
  obtain ⟨h1, R, -⟩ := getHeader_ok hg
  rw [e480, u1, u2] at R
  cases hd : decodeLog Z r r.cstat.isSome true n (body r ws) with
  | mk fs t =>
    obtain ⟨d1, d2⟩ := C53_decoder Z hg true n { data := toyHeader r ++ body r ws, pos := 480 } (fs := fs) (t := t) (by
      rw [e480, u1, u2, hrest]; exact hd)
    rw [generate_none, hg] at hgen
    dsimp only at hgen
    rw [hgen] at d1 d2
    dsimp only at d1 d2
    have ht : t = none := by
      cases t with
      | none => rfl
      | some t => simp at d2
    subst ht
    suffices hfs : fs = ws.map (foundOf r) by rw [hfs]
    have hlen : fs.length = ws.length := by
      have := congrArg List.length d1
      simpa using this.symm
    refine List.ext_getElem (by simpa using hlen) fun i i1 i2 => ?_
    rw [List.getElem_map]
    have hw := W ws[i] (List.getElem_mem _)
    refine presented_found R.facts ?_ hw.noGroups ?_
    · exact decodeLog_fits (Z := Z) (r := r) (cg := r.cstat.isSome) (whole := true) n (body r ws) fs[i] (by rw [hd]; exact List.getElem_mem _)
    · have := congrArg (fun l => l[i]?) d1
      simp only [List.getElem?_map, List.getElem?_eq_getElem i1, List.getElem?_eq_getElem (by omega : i < ws.length), Option.map_some] at this
      exact (Option.some.inj this).symm

/-! ## Concrete cases -/

/-- The toy log of every version, found by the decoder. -/
example (r : Row) (hr : r ∈ table) : decodeLog toyZ r r.cstat.isSome true 86400 (body r (toyLog r)) = ((toyLog r).map (foundOf r), none) :=
  C53_written hr (toyLog_valid r hr) (by simp [toyLog])

/-- Twenty bytes of garbage behind the header of any version are a record announcing a block that does not decompress:
the document is empty. -/
example (r : Row) (hr : r ∈ table) (file : PyStr) :
    ∃ docs, (parseFile toyZ {} file { data := toyHeader r ++ List.replicate 20 1 }).1 = .ok docs ∧ docs.length = 0 := by
  have H := toyHeader_valid r hr
  obtain ⟨u1, u2, u3, -⟩ := valid_accepts hr H
  have e480 : first480 (Stream.rest { data := toyHeader r ++ List.replicate 20 1 }) = toyHeader r := by
    unfold first480 Stream.rest
    simp only [List.drop_zero]
    rw [List.take_append_of_le_length (by rw [H.length]), ← H.length, List.take_length]
    simp [H.length]
  have hd : ∀ r ∈ table, decodeLog toyZ r r.cstat.isSome true 86400 (List.replicate 20 1) = ([], some .zlib) := by
    have hz : ∀ r ∈ table, (match decodeSample toyZ r r.cstat.isSome true (List.replicate 20 1) with
      | .error .zlib => true
      | _ => false) = true := by decide +kernel
    intro r hr
    have := hz r hr
    rw [show (86400 : Nat) = 86399 + 1 from rfl, decodeLog]
    split at this
    · rename_i h; rw [h]
    · cases this
  obtain ⟨-, h2, -⟩ := C54_any_file toyZ (o := {}) rfl file (s := { data := toyHeader r ++ List.replicate 20 1 }) rfl
    (hb := toyHeader r) e480.symm (fs := []) (t := some .zlib) (by
      rw [u1, u2, ← hd r hr]
      unfold Stream.rest
      simp only [List.drop_zero]
      rw [← H.length, List.drop_left])
  obtain ⟨B, docs, -, h3, h4, -⟩ := h2 u3 (.inr rfl)
  exact ⟨docs, h3, h4⟩

end Atop
