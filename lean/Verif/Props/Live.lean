import Verif.Proofs.Live
import Verif.Props.RoundTrip
import Verif.Props.Reader
import Verif.Props.Options
import Verif.Props.Gzip
/-!
# C63: reading a log while it is being written
-/

namespace Atop
open Spec

/-- When the file is `n` bytes long, no record of the log is there in part, except possibly less than its first 17
bytes.  (atop writes a record with one system call.) -/
def RecordsWhole (r : Row) (ws : List WSample) (n : Nat) : Prop :=
  ∀ done w rest, ws = done ++ w :: rest →
    ¬ (480 + (body r done).length + 16 < n ∧ n < 480 + (body r done).length + r.record)

/-- **C63** Reading a log while samples are being appended to it gives what reading the file as it was at one of the
reads would have given: the same samples, and the same way of ending. -/
theorem C63_one_moment {Z : Zlib} {r : Row} (hr : r ∈ table) {hb : Bytes} (H : ValidHeader r hb)
    {ws : List WSample} (W : ∀ w ∈ ws, w.Valid Z r) (rot : Bool) (max : Int) {visible : Nat → Nat}
    (grows : ∀ a b, a ≤ b → visible a ≤ visible b) (header : 480 ≤ visible 0)
    (whole : ∀ t, RecordsWhole r ws (visible t)) :
    ∃ t, t < (Live.generateStatistics Z none rot max ⟨hb ++ body r ws, visible, 0, 0⟩).2.2.reads ∧
      (Live.generateStatistics Z none rot max ⟨hb ++ body r ws, visible, 0, 0⟩).1 =
        (generateStatistics Z none rot max { data := (hb ++ body r ws).take (visible t) }).1 ∧
      (Live.generateStatistics Z none rot max ⟨hb ++ body r ws, visible, 0, 0⟩).2.1 =
        (generateStatistics Z none rot max { data := (hb ++ body r ws).take (visible t) }).2.1 := by
  have hdrop : (hb ++ body r ws).drop 480 = body r ws := by rw [← H.length, List.drop_left]
  have hsnap : ∀ t, (hb ++ body r ws).take (visible t) = hb ++ (body r ws).take (visible t - 480) := by
    intro t
    have := grows 0 t (Nat.zero_le _)
    rw [List.take_append, List.take_of_length_le (by rw [H.length]; omega), H.length]
  obtain ⟨h, hh, -, R, -, -, hget⟩ := generate_valid hr H Z rot max (s := { data := hb ++ body r ws })
    (rest := body r ws) (by simp [Stream.rest])
  have hlive := live_header (l := ⟨hb ++ body r ws, visible, 0, 0⟩) (hb := hb) (rest := body r ws) rfl H.length
    (by simpa using header) true (s := { data := hb ++ body r ws }) (more := body r ws) (by simp [Stream.rest])
  rw [hget] at hlive
  have hpv : parsedVersion h = .ok (major hb, minor hb) :=
    parsedVersion_ready R (by have := major_lt hb; show major hb < 256; omega) (minor_lt hb)
  have hlat : h.latched = h := by unfold Header.latched; rw [R.ver, hh]
  obtain ⟨T, t1, tr, t2, t3⟩ := live_loop R rot ws W max.toNat ((⟨hb ++ body r ws, visible, 0, 0⟩ : Live).adv 480)
    (Nat.lt_succ_self _) hdrop grows
    (fun done w rest e t => whole t done w rest e)
  refine ⟨T, ?_⟩
  obtain ⟨h', hh', -, -, -, hgen, -⟩ := generate_valid hr H Z rot max
    (s := { data := (hb ++ body r ws).take (visible T) }) (rest := (body r ws).take (visible T - 480))
    (by simp [Stream.rest, hsnap])
  rw [hgen]
  rw [show h' = h by rw [hh, hh']]
  unfold Live.generateStatistics
  dsimp only
  rw [hlive]
  dsimp only
  rw [hpv, hlat]
  exact ⟨tr, t2, t3⟩

theorem completeWithin_mono (r : Row) : ∀ (ws : List WSample) {k k' : Nat}, k ≤ k' →
    (completeWithin r ws k).length ≤ (completeWithin r ws k').length
  | [], _, _, _ => Nat.le_refl _
  | w :: ws, k, k', h => by
    unfold completeWithin
    by_cases c : (w.bytes r).length ≤ k
    · rw [if_pos c, if_pos (by omega)]
      have := completeWithin_mono r ws (k := k - (w.bytes r).length) (k' := k' - (w.bytes r).length) (by omega)
      simpa using this
    · rw [if_neg c]; simp

/-- **C63** The samples given are the first ones of the log, in order and byte for byte; among them are all that were
complete when the reading began; and unless truncation is to be reported, the iteration ends normally. -/
theorem C63_samples {Z : Zlib} {r : Row} (hr : r ∈ table) {hb : Bytes} (H : ValidHeader r hb)
    {ws : List WSample} (W : ∀ w ∈ ws, w.Valid Z r) (rot : Bool) (max : Int) (hmax : (ws.length : Int) < max)
    {visible : Nat → Nat} (grows : ∀ a b, a ≤ b → visible a ≤ visible b) (header : 480 ≤ visible 0)
    (whole : ∀ t, RecordsWhole r ws (visible t)) :
    ∃ c n, headerByVersion r.version = some c ∧
      (Live.generateStatistics Z none rot max ⟨hb ++ body r ws, visible, 0, 0⟩).1 = (ws.take n).map (presented c) ∧
      (completeWithin r ws (visible 0 - 480)).length ≤ n ∧
      ((Live.generateStatistics Z none rot max ⟨hb ++ body r ws, visible, 0, 0⟩).2.1 = .returned ∨
        rot = true ∧
        (Live.generateStatistics Z none rot max ⟨hb ++ body r ws, visible, 0, 0⟩).2.1 = .raised .zlibError) := by
  obtain ⟨t, -, h1, h2⟩ := C63_one_moment hr H W rot max grows header whole
  have hsnap : (hb ++ body r ws).take (visible t) = hb ++ (body r ws).take (visible t - 480) := by
    have := grows 0 t (Nat.zero_le _)
    rw [List.take_append, List.take_of_length_le (by rw [H.length]; omega), H.length]
  obtain ⟨c, hc, e1⟩ := C02_cut_yields_complete_samples hr H W (visible t - 480) rot max hmax
    (s := { data := (hb ++ body r ws).take (visible t) }) (by simp [Stream.rest, hsnap]) rfl
  obtain ⟨e2, e3⟩ := C03_truncation_reported_iff hr H W (visible t - 480) rot max hmax
    (s := { data := (hb ++ body r ws).take (visible t) }) (by simp [Stream.rest, hsnap]) rfl
  refine ⟨c, (completeWithin r ws (visible t - 480)).length, hc, ?_, ?_, ?_⟩
  · rw [h1, e1]
    congr 1
    exact List.prefix_iff_eq_take.mp (completeWithin_prefix r ws _)
  · exact completeWithin_mono r ws (by have := grows 0 t (Nat.zero_le _); omega)
  · rw [h2]
    rcases e3 with e3 | e3
    · exact .inr ⟨(e2.mp e3).1, e3⟩
    · exact .inl e3

/-- **C63** The same whether the header is read by the iteration or beforehand (as `atoparser` does). -/
theorem C63_header_first (Z : Zlib) (rot : Bool) (max : Int) (l : Live) :
    match (getHeaderP true).live l with
    | (.ok h, l') => Live.generateStatistics Z none rot max l = Live.generateStatistics Z (some h) rot max l'
    | (.error e, l') => Live.generateStatistics Z none rot max l = ([], .raised e, l') := by
  unfold Live.generateStatistics
  split <;> rename_i hx <;> simp only [hx]

/-- **C63** On a file that does not grow (any file at all), reading is the function of the other properties. -/
theorem C63_still (Z : Zlib) (header : Option Header) (rot : Bool) (max : Int) (data : Bytes) (pos n : Nat) :
    (Live.generateStatistics Z header rot max ⟨data, fun _ => n, pos, 0⟩).1 =
      (generateStatistics Z header rot max ⟨data.take n, pos, none⟩).1 ∧
    (Live.generateStatistics Z header rot max ⟨data, fun _ => n, pos, 0⟩).2.1 =
      (generateStatistics Z header rot max ⟨data.take n, pos, none⟩).2.1 ∧
    (Live.generateStatistics Z header rot max ⟨data, fun _ => n, pos, 0⟩).2.2.pos =
      (generateStatistics Z header rot max ⟨data.take n, pos, none⟩).2.2.pos := by
  have main : ∀ (h : Header) (l : Live), (∀ t, l.visible t = n) →
      (Live.generateStatistics Z (some h) rot max l).1 =
        (generateStatistics Z (some h) rot max ⟨l.final.take n, l.pos, none⟩).1 ∧
      (Live.generateStatistics Z (some h) rot max l).2.1 =
        (generateStatistics Z (some h) rot max ⟨l.final.take n, l.pos, none⟩).2.1 ∧
      (Live.generateStatistics Z (some h) rot max l).2.2.pos =
        (generateStatistics Z (some h) rot max ⟨l.final.take n, l.pos, none⟩).2.2.pos := by
    intro h l hl
    unfold Live.generateStatistics generateStatistics
    dsimp only
    cases parsedVersion h with
    | error e => exact ⟨rfl, rfl, rfl⟩
    | ok v =>
      obtain ⟨l', e1, e2⟩ := live_loop_still Z rot h.latched v max.toNat l n hl
      dsimp only
      rw [e1]
      exact ⟨rfl, rfl, e2.symm⟩
  cases header with
  | some h => exact main h ⟨data, fun _ => n, pos, 0⟩ (fun _ => rfl)
  | none =>
    obtain ⟨l', h1, h2, h3, h4⟩ := live_still (getHeaderP true) ⟨data, fun _ => n, pos, 0⟩ n (fun _ => rfl)
    rw [getHeaderP_run] at h1 h4
    have hf := C63_header_first Z rot max ⟨data, fun _ => n, pos, 0⟩
    rw [h1] at hf
    dsimp only at h2 h3 h4 hf
    rcases hx : getHeader true ⟨data.take n, pos, none⟩ with ⟨e | h, s'⟩
    · rw [hx] at h4 hf
      have h4 : s' = _ := h4
      subst h4
      dsimp only at hf
      rw [hf]
      unfold generateStatistics
      dsimp only
      rw [hx]
      exact ⟨rfl, rfl, rfl⟩
    · rw [hx] at h4 hf
      have h4 : s' = _ := h4
      subst h4
      dsimp only at hf
      rw [hf]
      have : generateStatistics Z none rot max ⟨data.take n, pos, none⟩ =
          generateStatistics Z (some h) rot max ⟨l'.final.take n, l'.pos, none⟩ := by
        unfold generateStatistics
        dsimp only
        rw [hx, h2]
      rw [this]
      exact main h l' (fun _ => by rw [h3])

theorem live_parseLoop (Z : Zlib) (o : Opts) (h0 h : Header) (v : Nat × Nat) : ∀ (k : Nat) (l : Live),
    Live.parseLoop Z o h0 h v k l = docOf o h0 (Live.runLoop Z false h v k l).1 (Live.runLoop Z false h v k l).2.1
  | 0, _ => rfl
  | k + 1, l => by
    unfold Live.parseLoop Live.runLoop
    rcases (readSampleP Z h v).live l with ⟨(e | _ | x), l'⟩
    · dsimp only
      unfold afterError docOf
      cases endOf false e <;> rfl
    · rfl
    · dsimp only
      rw [docOf_cons, live_parseLoop Z o h0 h v k l']
      cases sampleRows o h0 x with
      | error => rfl
      | ok => dsimp only; cases docOf o h0 (Live.runLoop Z false h v k l').1 (Live.runLoop Z false h v k l').2.1 <;> rfl

/-- If the iteration gives what it gives on the unchanging file `d`, so does `parse_file`. -/
theorem live_as {Z : Zlib} {r : Row} (hr : r ∈ table) {hb : Bytes} (H : ValidHeader r hb) {ws : List WSample} (o : Opts)
    (file : PyStr) {visible : Nat → Nat} (header : 480 ≤ visible 0) {d rest : Bytes}
    (hs : ({ data := d } : Stream).rest = hb ++ rest)
    (h1 : (Live.generateStatistics Z none false 86400 ⟨hb ++ body r ws, visible, 0, 0⟩).1 =
      (generateStatistics Z none false 86400 { data := d }).1)
    (h2 : (Live.generateStatistics Z none false 86400 ⟨hb ++ body r ws, visible, 0, 0⟩).2.1 =
      (generateStatistics Z none false 86400 { data := d }).2.1) :
    Live.parseFile Z o file ⟨hb ++ body r ws, visible, 0, 0⟩ = (parseFile Z o file { data := d }).1 := by
  obtain ⟨h, hh, -, R, -, -, hget⟩ := generate_valid hr H Z false 86400 hs
  have hlive := live_header (l := ⟨hb ++ body r ws, visible, 0, 0⟩) (hb := hb) (rest := body r ws) rfl H.length
    (by simpa using header) true hs
  rw [hget] at hlive
  have hpv : parsedVersion h = .ok (major hb, minor hb) :=
    parsedVersion_ready R (by have := major_lt hb; show major hb < 256; omega) (minor_lt hb)
  have hc : h.cache = some (major hb, minor hb) := by rw [hh]
  have hlat := latched_cached hc
  have hM := major_lt hb
  have hf : first480 ({ data := d } : Stream).rest = hb := by
    rw [hs]
    unfold first480
    rw [List.take_append_of_le_length (by rw [H.length]; omega), ← H.length, List.take_length]
    simp [H.length]
  by_cases hv : o.parseables = [] ∨ (major hb = 1 ∧ minor hb = 26)
  · rw [parseFile_ok hget o file (by rw [hf]; exact hv), ← h1, ← h2]
    unfold Live.parseFile Live.generateStatistics
    rw [hlive]
    dsimp only
    rw [semantic_cached hc, hlat, hlat, hpv]
    dsimp only
    rw [if_neg]
    · exact live_parseLoop Z o h h (major hb, minor hb) MAX_SAMPLES_PER_FILE _
    · rcases hv with hv | hv
      · simp [hv]
      · rw [(supported_iff (by omega) (minor_lt _)).mpr hv]; simp
  · have hv1 : o.parseables ≠ [] := fun h => hv (.inl h)
    have hv2 : ¬ (major hb = 1 ∧ minor hb = 26) := fun h => hv (.inr h)
    rw [parseFile_unsupported hget hv1 file (by rw [hf]; exact hv2), hf]
    unfold Live.parseFile
    rw [hlive]
    dsimp only
    rw [semantic_cached hc]
    dsimp only
    rw [if_pos]
    have : parseableVersions.contains (versionString (major hb, minor hb)) = false := by
      cases hb' : parseableVersions.contains (versionString (major hb, minor hb)) with
      | false => rfl
      | true => exact absurd ((supported_iff (by omega) (minor_lt _)).mp hb') hv2
    rw [this]
    simp [hv1]

/-- **C63** `parse_file` on a log that is being written prints what it would have printed at one single moment: the moment of
one of the reads that iterating over the file makes. -/
theorem C63_program {Z : Zlib} {r : Row} (hr : r ∈ table) {hb : Bytes} (H : ValidHeader r hb)
    {ws : List WSample} (W : ∀ w ∈ ws, w.Valid Z r) (o : Opts) (file : PyStr) {visible : Nat → Nat}
    (grows : ∀ a b, a ≤ b → visible a ≤ visible b) (header : 480 ≤ visible 0)
    (whole : ∀ t, RecordsWhole r ws (visible t)) :
    ∃ t, t < (Live.generateStatistics Z none false 86400 ⟨hb ++ body r ws, visible, 0, 0⟩).2.2.reads ∧
      Live.parseFile Z o file ⟨hb ++ body r ws, visible, 0, 0⟩ =
        (parseFile Z o file { data := (hb ++ body r ws).take (visible t) }).1 := by
  obtain ⟨t, ht, h1, h2⟩ := C63_one_moment hr H W false 86400 grows header whole
  refine ⟨t, ht, ?_⟩
  have hsnap : (hb ++ body r ws).take (visible t) = hb ++ (body r ws).take (visible t - 480) := by
    have := grows 0 t (Nat.zero_le _)
    rw [List.take_append, List.take_of_length_le (by rw [H.length]; omega), H.length]
  have hs : ({ data := (hb ++ body r ws).take (visible t) } : Stream).rest = hb ++ (body r ws).take (visible t - 480) := by
    simp [Stream.rest, hsnap]
  exact live_as hr H o file header hs h1 h2

/-- **C63** On a file that does not grow (any file at all), `parse_file` is the function of the other properties. -/
theorem C63_still_program (Z : Zlib) (o : Opts) (file : PyStr) (data : Bytes) (pos n : Nat) :
    Live.parseFile Z o file ⟨data, fun _ => n, pos, 0⟩ = (parseFile Z o file ⟨data.take n, pos, none⟩).1 := by
  obtain ⟨l', h1, h2, h3, h4⟩ := live_still (getHeaderP true) ⟨data, fun _ => n, pos, 0⟩ n (fun _ => rfl)
  rw [getHeaderP_run] at h1 h4
  unfold Live.parseFile
  rw [h1]
  dsimp only at h2 h3 h4 ⊢
  rcases hx : getHeader true ⟨data.take n, pos, none⟩ with ⟨e | h, s'⟩
  · rw [parseFile_refused hx]
  · rw [hx] at h4
    have h4 : s' = _ := h4
    subst h4
    unfold parseFile
    rw [bind_ok hx]
    dsimp only
    cases hsv : h.semanticVersion with
    | error e =>
      rw [Rd.bind_eq]
      rfl
    | ok v =>
      rw [Rd.bind_eq]
      simp only [Rd.lift_eq]
      split
      · rfl
      · rw [parseLoop_start o h.latched h.latched MAX_SAMPLES_PER_FILE (MAX_SAMPLES_PER_FILE + 1) _ (by decide)]
        unfold generateStatistics
        dsimp only
        cases parsedVersion h.latched with
        | error e =>
          dsimp only
          unfold afterError docOf
          cases endOf false e <;> rfl
        | ok w =>
          dsimp only
          obtain ⟨l2, e1, -⟩ := live_loop_still Z false h.latched.latched w MAX_SAMPLES_PER_FILE l' n (fun _ => by rw [h3])
          rw [live_parseLoop, e1, h2]
          rfl

/-- The hypotheses are met: of a log of three samples, one and a record are there when the reading begins, then two,
then all. -/
example (r : Row) (hr : r ∈ table) : ∃ c n, headerByVersion r.version = some c ∧
    (Live.generateStatistics toyZ none true 86400 ⟨toyHeader r ++ body r (toyLog r),
      fun t => if t ≤ 3 then 480 + ((toySample r).bytes r).length + r.record else
        if t ≤ 6 then 480 + ((toySample r).bytes r).length + ((toySample r).bytes r).length else
          480 + (body r (toyLog r)).length, 0, 0⟩).1 =
        ((toyLog r).take n).map (presented c) ∧ 1 ≤ n := by
  have h1 : (toySample r).record.length = r.record := (toySample_valid r hr).record_len
  have hlen : r.record < ((toySample r).bytes r).length := by
    have := (toySample_valid r hr).zsstat.pos
    simp only [WSample.bytes, List.length_append, h1]; omega
  have hb : (body r (toyLog r)).length = ((toySample r).bytes r).length + (((toySample r).bytes r).length +
      ((toySample r).bytes r).length) := by
    simp [toyLog, body]
  obtain ⟨c, n, e1, e2, e3, -⟩ := C63_samples hr (toyHeader_valid r hr) (toyLog_valid r hr) true 86400 (by simp [toyLog])
    (visible := fun t => if t ≤ 3 then 480 + ((toySample r).bytes r).length + r.record else
        if t ≤ 6 then 480 + ((toySample r).bytes r).length + ((toySample r).bytes r).length else
          480 + (body r (toyLog r)).length)
    (by intro a b hab; split <;> split <;> (try split) <;> (try split) <;> omega)
    (by rw [if_pos (by omega)]; omega)
    (by
      intro t done w rest e
      have hd : (body r done).length = 0 ∨ (body r done).length = ((toySample r).bytes r).length ∨
          (body r done).length = ((toySample r).bytes r).length + ((toySample r).bytes r).length := by
        unfold toyLog at e
        match done, e with
        | [], _ => left; simp [body]
        | [a], e => right; left; simp only [List.cons_append, List.cons.injEq] at e; rw [← e.1]; simp [body]
        | [a, b], e =>
          right; right; simp only [List.cons_append, List.cons.injEq] at e; rw [← e.1, ← e.2.1]; simp [body]
        | a :: b :: c :: more, e =>
          have := congrArg List.length e
          simp at this
      rw [hb]
      split <;> (try split) <;> omega)
  refine ⟨c, n, e1, e2, Nat.le_trans ?_ e3⟩
  rw [if_pos (by omega)]
  unfold toyLog completeWithin
  rw [if_pos (by omega)]
  simp

/-! ## Why records must not be seen in part -/

/-- A decompressor for which one byte is a whole block. -/
def oddZ : Bytes → Option Bytes
  | 7 :: _ => some (zeros 88368)
  | 8 :: _ => some []
  | _ => none

/-- The row of version 1.26. -/
def oldest : Row := ⟨py!"1.26", 1, 26, 80, 88368, 616, none⟩

/-- A sample whose record happens to contain what looks like blocks. -/
def oddSample : WSample where
  record := le 8 1700000000 ++ zeros 8 ++ le 4 1 ++ le 4 1 ++ [7, 8, 0, 0] ++ zeros 52
  sstat := zeros 88368
  tstats := []
  groups := []
  zsstat := [7]
  ztstats := [8]
  zcstats := []
  zpids := []

theorem oddSample_valid : oddSample.Valid oddZ oldest := by
  have pk : ∀ (b : UInt8) d, oddZ [b] = some d → Packs oddZ [b] d := by
    intro b d h
    refine ⟨h, fun k hk => ?_, by simp⟩
    have : k = 0 := by simp at hk; exact hk
    subst this; rfl
  constructor
  · decide
  · exact List.length_replicate
  · intro t ht; cases ht
  · exact pk _ _ rfl
  · exact pk _ _ rfl
  · decide
  · decide
  · decide
  · intro _; rfl
  all_goals first | (intro h; cases h; done) | (intro g hg; cases hg)

/-- First 24 bytes of the record are there, then everything. -/
def oddVisible (t : Nat) : Nat := if t ≤ 1 then 504 else 562

theorem oddVisible_one : oddVisible 1 = 504 := rfl

/-- **C63, limit** If a record can be seen in part, a reader can put the rest of the record where the statistics should
be: here (with some decompressor) it gives a sample that no moment of the file would have given. -/
theorem C63_needs_whole_records : ∃ (Z : Zlib) (w : WSample) (visible : Nat → Nat), w.Valid Z oldest ∧
    (∀ a b, a ≤ b → visible a ≤ visible b) ∧ 480 ≤ visible 0 ∧
    ∀ t, (Live.generateStatistics Z none true 86400 ⟨toyHeader oldest ++ body oldest [w], visible, 0, 0⟩).1 ≠
      (generateStatistics Z none true 86400 { data := (toyHeader oldest ++ body oldest [w]).take (visible t) }).1 := by
  refine ⟨oddZ, oddSample, oddVisible, oddSample_valid, ?_, by decide, ?_⟩
  · intro a b hab; unfold oddVisible; split <;> split <;> omega
  intro t he
  have hr : oldest ∈ table := by decide
  have H := toyHeader_valid oldest hr
  have W : ∀ w ∈ [oddSample], w.Valid oddZ oldest := by simpa using oddSample_valid
  have hbody : body oldest [oddSample] = oddSample.record ++ [7, 8] := by
    simp [body, WSample.bytes, oddSample, oldest]
  have hmax : (([oddSample] : List WSample).length : Int) < 86400 := by decide
  -- what any moment of the file gives
  have hstat : ∀ x ∈ (generateStatistics oddZ none true 86400
      { data := (toyHeader oldest ++ body oldest [oddSample]).take (oddVisible t) }).1,
      x.record.buf = oddSample.record := by
    obtain ⟨c, -, e1⟩ := C02_cut_yields_complete_samples hr H W ((oddVisible t) - 480) true 86400 hmax
      (s := { data := (toyHeader oldest ++ body oldest [oddSample]).take (oddVisible t) }) (by
        rw [List.take_append, List.take_of_length_le (by rw [H.length, oddVisible]; split <;> omega), H.length]; simp [Stream.rest])
      rfl
    rw [e1]
    intro x hx
    obtain ⟨w, hw, rfl⟩ := List.mem_map.mp hx
    have := (completeWithin_prefix oldest [oddSample] _).subset hw
    rw [List.mem_singleton] at this
    rw [this]; rfl
  rw [← he] at hstat
  -- what the reader gives
  obtain ⟨h, hh, -, R, -, -, hget⟩ := generate_valid hr H oddZ true 86400
    (s := { data := toyHeader oldest ++ body oldest [oddSample] }) (rest := body oldest [oddSample]) (by simp [Stream.rest])
  have hlive := live_header (l := ⟨toyHeader oldest ++ body oldest [oddSample], oddVisible, 0, 0⟩)
    (hb := toyHeader oldest) (rest := body oldest [oddSample]) rfl H.length (by decide) true
    (s := { data := toyHeader oldest ++ body oldest [oddSample] }) (more := body oldest [oddSample]) (by simp [Stream.rest])
  rw [hget] at hlive
  have hpv : parsedVersion h = .ok (major (toyHeader oldest), minor (toyHeader oldest)) :=
    parsedVersion_ready R (by have := major_lt (toyHeader oldest); show major (toyHeader oldest) < 256; omega) (minor_lt _)
  have hlat : h.latched = h := by unfold Header.latched; rw [R.ver, hh]
  have hgen : (Live.generateStatistics oddZ none true 86400
      ⟨toyHeader oldest ++ body oldest [oddSample], oddVisible, 0, 0⟩) =
      Live.runLoop oddZ true h (major (toyHeader oldest), minor (toyHeader oldest)) (86399 + 1)
        ⟨toyHeader oldest ++ body oldest [oddSample], oddVisible, 480, 1⟩ := by
    unfold Live.generateStatistics
    dsimp only
    rw [hlive]
    dsimp only
    rw [hpv, hlat]
    rfl
  -- its first iteration
  have hdrop : (toyHeader oldest ++ body oldest [oddSample]).drop 480 = oddSample.record ++ [7, 8] := by
    rw [← H.length, List.drop_left, hbody]
  generalize hF : toyHeader oldest ++ body oldest [oddSample] = F at *
  have hiter : ∃ x l', (readSampleP oddZ h (major (toyHeader oldest), minor (toyHeader oldest))).live
      ((⟨F, oddVisible, 480, 1⟩ : Live)) = (.ok (some x), l') ∧
      x.record.buf = oddSample.record.take 24 ++ List.replicate 56 0 := by
    rw [readSampleP_eq R]
    unfold Prog.getInto
    rw [Prog.bind_assoc]
    have hg := live_get_short (l := (⟨F, oddVisible, 480, 1⟩ : Live)) (n := oldest.record)
      (a := oddSample.record) (b := [7, 8]) hdrop (by decide) (show 504 < 480 + 80 by decide) (by decide)
    dsimp only at hg
    rw [oddVisible_one, show 504 - 480 = 24 from rfl] at hg
    rw [Prog.live_ok hg]
    have hrec : oddSample.record.take 24 ++
        List.replicate (oldest.record - (oddSample.record.take 24).length) 0 =
        oddSample.record.take 24 ++ List.replicate 56 0 := by decide
    show ∃ x l', Prog.live ((pure (oddSample.record.take 24 ++
        List.replicate (oldest.record - (oddSample.record.take 24).length) 0) : Prog Bytes) >>= _)
        (Live.mk F oddVisible 504 2) = (.ok (some x), l') ∧ _
    rw [hrec, show (pure (oddSample.record.take 24 ++ List.replicate 56 0) : Prog Bytes) =
      Prog.lift (.ok (oddSample.record.take 24 ++ List.replicate 56 0)) from rfl, Prog.lift_ok_bind]
    generalize hrr : oddSample.record.take 24 ++ List.replicate 56 0 = rec
    have u16' : u32 rec 16 = 1 := by rw [← hrr]; decide
    have u20' : u32 rec 20 = 1 := by rw [← hrr]; decide
    have u28' : u32 rec 28 = 0 := by rw [← hrr]; decide
    rw [if_neg (by rw [u16']; decide), getSStatP_eq R, getTStatP_eq R, u16', u20', u28']
    have hd1 : F.drop 504 = [7] ++ ([8, 0, 0] ++ zeros 52 ++ [7, 8]) := by
      rw [show 504 = 480 + 24 from rfl, ← List.drop_drop, hdrop]; decide
    have hd2 : F.drop 505 = [8] ++ ([0, 0] ++ zeros 52 ++ [7, 8]) := by
      rw [show 505 = 504 + 1 from rfl, ← List.drop_drop, hd1]; decide
    have hb1 : (blockP oddZ 1).live (Live.mk F oddVisible 504 2) =
        (.ok (zeros 88368), Live.mk F oddVisible 505 3) :=
      live_block_full (l := Live.mk F oddVisible 504 2) (n := 1) hd1 rfl
        oddSample_valid.zsstat (show 504 + 1 ≤ oddVisible 2 by decide)
    have hb2 : (blockP oddZ 1).live (Live.mk F oddVisible 505 3) =
        (.ok [], Live.mk F oddVisible 506 4) :=
      live_block_full (l := Live.mk F oddVisible 505 3) (n := 1) hd2 rfl
        oddSample_valid.ztstats (show 505 + 1 ≤ oddVisible 3 by decide)
    rw [Prog.bind_assoc, Prog.live_ok hb1, fromBufferCopy_ok (by rw [R.facts.sstat, zeros, List.length_replicate]; exact Nat.le_refl _),
      Prog.lift_ok_bind, Prog.bind_assoc, Prog.live_ok hb2]
    exact ⟨_, _, rfl, rfl⟩
  obtain ⟨x, l', hx, hxr⟩ := hiter
  have hmem : x ∈ (Live.generateStatistics oddZ none true 86400 ⟨F, oddVisible, 0, 0⟩).1 := by
    rw [hgen, Live.runLoop, hx]
    simp
  have := hstat x hmem
  rw [hxr] at this
  revert this
  decide

end Atop
