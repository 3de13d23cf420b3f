import Verif.Props.Reader
/-!
# C58: options add or select, they never change what is shown
-/

namespace Atop
open Spec

variable {Z : Zlib}

/-- An entry without its task and cgroup details. -/
def Spec.withoutDetails : JVal → JVal
  | .dict kvs => .dict (kvs.filter fun p => p.1 != py!"tstat" && p.1 != py!"cgroup")
  | v => v

/-- The value stored under "parseable" in an entry. -/
def Spec.label : JVal → Option JVal
  | .dict kvs => kvs.lookup py!"parseable"
  | _ => none

/-- Is the entry labelled with a name satisfying `P`? -/
def Spec.labelIn (P : PyStr → Bool) (v : JVal) : Bool :=
  match label v with
  | some (.str p) => P p
  | _ => false

theorem fullRow_details {o : Opts} (hp : o.parseables = []) {h : Header} (hm : h.cls ∈ versions) {x : Sample}
    (C : Convertible x) : ∃ v, sampleRows o h x = .ok [v] ∧ sampleRows {} h x = .ok [withoutDetails v] := by
  obtain ⟨v, e1, ⟨hd, rd, sd, ts, cs, a1, a2, a3, -, -, hv⟩, -⟩ := fullRow_ok (o := o) hm C
  obtain ⟨w, e2, ⟨hd', rd', sd', ts', cs', b1, b2, b3, -, -, hw⟩, -⟩ := fullRow_ok (o := {}) hm C
  rw [a1] at b1; rw [a2] at b2; rw [a3] at b3
  injection b1 with b1; injection b2 with b2; injection b3 with b3
  subst b1 b2 b3
  refine ⟨v, ?_, ?_⟩
  · unfold sampleRows; rw [hp, e1]; rfl
  · have : sampleRows {} h x = .ok [w] := by
      show (do return [← fullRow {} h x]) = _
      rw [e2]; rfl
    rw [this, hv, hw]
    congr 2
    unfold withoutDetails
    have k1 : (py!"header" != py!"tstat" && py!"header" != py!"cgroup") = true := by decide
    have k2 : (py!"record" != py!"tstat" && py!"record" != py!"cgroup") = true := by decide
    have k3 : (py!"sstat" != py!"tstat" && py!"sstat" != py!"cgroup") = true := by decide
    have k4 : (py!"tstat" != py!"tstat" && py!"tstat" != py!"cgroup") = false := by decide
    have k5 : (py!"cgroup" != py!"tstat" && py!"cgroup" != py!"cgroup") = false := by decide
    cases o.showTstats <;> cases o.showCstats <;>
      simp only [List.filter_append, List.filter_cons, List.filter_nil, k1, k2, k3, k4, k5, if_true] <;> rfl

theorem all_details {o : Opts} (hp : o.parseables = []) {h : Header} (hm : h.cls ∈ versions) : ∀ (xs : List Sample),
    (∀ x ∈ xs, Convertible x) →
    ∃ vs, sampleRowsAll o h xs = .ok vs ∧ sampleRowsAll {} h xs = .ok (vs.map withoutDetails)
  | [], _ => ⟨[], rfl, rfl⟩
  | x :: xs, hx => by
    obtain ⟨v, e1, e2⟩ := fullRow_details hp hm (hx x (by simp))
    obtain ⟨vs, e3, e4⟩ := all_details hp hm xs (fun y hy => hx y (by simp [hy]))
    exact ⟨v :: vs, by rw [sampleRowsAll, e1]; dsimp only; rw [e3]; rfl, by rw [sampleRowsAll, e2]; dsimp only; rw [e4]; rfl⟩

/-- **C58** Without parseables `--tstats` and `--cstats` only add: on every file the call raises under every setting the
same exception or under none, and when it prints, taking the members "tstat" and "cgroup" out of the entries leaves
exactly the entries printed without the two options. -/
theorem C58_details_only_add (Z : Zlib) {o : Opts} (hp : o.parseables = []) (file : PyStr) (s : Stream) :
    (∃ e, (parseFile Z o file s).1 = .error e ∧ (parseFile Z {} file s).1 = .error e) ∨
    (∃ docs, (parseFile Z o file s).1 = .ok docs ∧ (parseFile Z {} file s).1 = .ok (docs.map withoutDetails)) := by
  rcases hg : getHeader true s with ⟨e | h, s'⟩
  · exact .inl ⟨e, by rw [parseFile_refused hg], by rw [parseFile_refused hg]⟩
  · rw [parseFile_ok hg o file (.inl hp), parseFile_ok hg {} file (.inl rfl)]
    obtain ⟨h1, -⟩ := getHeader_ok hg
    have hgn : generateStatistics Z none false 86400 s = generateStatistics Z (some h) false 86400 s' := by
      rw [generate_none, hg]
    obtain ⟨vs, e1, e2⟩ := all_details hp (h := h) (by rw [h1]; exact classFor_mem _)
      (generateStatistics Z none false 86400 s).1 (fun x hx => convertible false 86400 hg s' x (hgn ▸ hx))
    unfold docOf
    rw [e1, e2]
    cases (generateStatistics Z none false 86400 s).2.1 with
    | returned => exact .inr ⟨vs, rfl, rfl⟩
    | raised e => exact .inl ⟨e, rfl, rfl⟩

theorem sampleRowsAll_congr {o o' : Opts} {h : Header} (hx : ∀ x, sampleRows o h x = sampleRows o' h x) :
    ∀ xs, sampleRowsAll o h xs = sampleRowsAll o' h xs
  | [] => rfl
  | x :: xs => by rw [sampleRowsAll, sampleRowsAll, hx, sampleRowsAll_congr hx xs]

theorem parseFile_unsupported {s s' : Stream} {h : Header} (hg : getHeader true s = (.ok h, s')) {o : Opts}
    (hp : o.parseables ≠ []) (file : PyStr) (hv : ¬ (major (first480 s.rest) = 1 ∧ minor (first480 s.rest) = 26)) :
    parseFile Z o file s = (.ok [.dict [(py!"error", .str (unsupportedText
      (versionString (major (first480 s.rest), minor (first480 s.rest))))), (py!"file", .str file)]], s') := by
  obtain ⟨h1, -⟩ := getHeader_ok hg
  have hM := major_lt (first480 s.rest)
  have hc : h.cache = some (major (first480 s.rest), minor (first480 s.rest)) := by rw [h1]
  have : parseableVersions.contains (versionString (major (first480 s.rest), minor (first480 s.rest))) = false := by
    cases hb : parseableVersions.contains (versionString (major (first480 s.rest), minor (first480 s.rest))) with
    | false => rfl
    | true => exact absurd ((supported_iff (by omega) (minor_lt _)).mp hb) hv
  unfold parseFile
  rw [bind_ok hg, bind_ok (show Rd.lift h.semanticVersion s' = (.ok _, s') by rw [semantic_cached hc]; rfl), if_pos]
  · rfl
  · rw [this]
    cases hps : o.parseables with
    | nil => exact absurd hps hp
    | cons p ps => rfl

/-- **C58** With parseables `--tstats` and `--cstats` have no effect at all. -/
theorem C58_details_ignored (Z : Zlib) (ps : List PyStr) (hp : ps ≠ []) (ts cs ts' cs' : Bool) (file : PyStr) (s : Stream) :
    (parseFile Z ⟨ps, ts, cs⟩ file s).1 = (parseFile Z ⟨ps, ts', cs'⟩ file s).1 := by
  rcases hg : getHeader true s with ⟨e | h, s'⟩
  · rw [parseFile_refused hg, parseFile_refused hg]
  · by_cases hv : major (first480 s.rest) = 1 ∧ minor (first480 s.rest) = 26
    · rw [parseFile_ok hg _ file (.inr hv), parseFile_ok hg _ file (.inr hv)]
      unfold docOf
      rw [sampleRowsAll_congr (o' := ⟨ps, ts', cs'⟩) (fun x => by rw [sampleRows_parse hp, sampleRows_parse hp])]
    · rw [parseFile_unsupported hg hp file hv, parseFile_unsupported hg hp file hv]

theorem parseableRows_gives {a : PArgs} : ∀ (ps : List PyStr) {vs : List JVal}, parseableRows a ps = .ok vs →
    ∀ p ∈ ps, ∃ rows, Gives a p rows
  | [], _, _, p, hp => by cases hp
  | q :: ps, vs, h, p, hp => by
    rw [parseableRows] at h
    cases hl : parseableMap.lookup q with
    | none => rw [hl] at h; cases h
    | some g =>
      rw [hl] at h
      dsimp only at h
      cases hr : (g a).err with
      | some e => rw [hr] at h; cases h
      | none =>
        rw [hr] at h
        dsimp only at h
        cases hrec : parseableRows a ps with
        | error e => rw [hrec] at h; cases h
        | ok ws =>
          rcases List.mem_cons.mp hp with rfl | hp
          · exact ⟨(g a).rows, g, (parser_lookup _ g).mpr hl, by rw [← hr]⟩
          · exact parseableRows_gives ps hrec p hp

theorem sampleRowsAll_gives {o : Opts} (hp : o.parseables ≠ []) {h : Header} : ∀ (xs : List Sample) {vs : List JVal},
    sampleRowsAll o h xs = .ok vs → ∀ x ∈ xs, ∀ p ∈ o.parseables, ∃ rows, Gives (argsOf h.inst x) p rows
  | [], _, _, x, hx => by cases hx
  | y :: xs, vs, e, x, hx => by
    rw [sampleRowsAll, sampleRows_parse hp] at e
    cases h1 : parseableRows (argsOf h.inst y) o.parseables with
    | error => rw [h1] at e; cases e
    | ok r =>
      rw [h1] at e
      dsimp only at e
      cases h2 : sampleRowsAll o h xs with
      | error => rw [h2] at e; cases e
      | ok rs =>
        rcases List.mem_cons.mp hx with rfl | hx
        · exact parseableRows_gives _ h1
        · exact sampleRowsAll_gives hp xs h2 x hx

theorem lookup_append_last {k : PyStr} {v : JVal} : ∀ (row : List (PyStr × JVal)), (row.map Prod.fst ++ [k]).Nodup →
    (row ++ [(k, v)]).lookup k = some v
  | [], _ => by simp
  | q :: row, h => by
    rw [List.map_cons, List.cons_append, List.nodup_cons] at h
    have : (k == q.1) = false := by
      rw [beq_eq_false_iff_ne]
      rintro rfl
      exact h.1 (by simp)
    rw [List.cons_append, List.lookup, this]
    exact lookup_append_last row h.2

theorem filter_flatMap_name {α : Type} (P : PyStr → Bool) (f : PyStr → List α) (Q : α → Bool) : ∀ (ps : List PyStr),
    (∀ p ∈ ps, ∀ v ∈ f p, Q v = P p) → (ps.flatMap f).filter Q = (ps.filter P).flatMap f
  | [], _ => rfl
  | p :: ps, h => by
    rw [List.flatMap_cons, List.filter_append, filter_flatMap_name P f Q ps (fun q hq => h q (by simp [hq])), List.filter_cons]
    have hp := h p (by simp)
    cases hP : P p with
    | true =>
      rw [if_pos rfl, List.flatMap_cons]
      congr 1
      rw [List.filter_eq_self]
      intro v hv; rw [hp v hv, hP]
    | false =>
      rw [if_neg (by simp)]
      have : (f p).filter Q = [] := by
        rw [List.filter_eq_nil_iff]
        intro v hv; rw [hp v hv, hP]; simp
      rw [this, List.nil_append]

theorem filter_flatMap_all {α β : Type} (f g : β → List α) (Q : α → Bool) : ∀ (xs : List β),
    (∀ x ∈ xs, (f x).filter Q = g x) → (xs.flatMap f).filter Q = xs.flatMap g
  | [], _ => rfl
  | x :: xs, h => by
    rw [List.flatMap_cons, List.filter_append, h x (by simp), filter_flatMap_all f g Q xs (fun y hy => h y (by simp [hy])),
      List.flatMap_cons]

/-- **C58** Asking for fewer parseables of a 1.26 file selects: whenever the longer request is printed, so is the one
reduced to the names satisfying `P`, and it shows exactly the entries labelled with those names, in the same order. -/
theorem C58_request_selects (Z : Zlib) {ps : List PyStr} (P : PyStr → Bool) (hq : ps.filter P ≠ []) (ts cs : Bool)
    (file : PyStr) (s : Stream) (hv : major (first480 s.rest) = 1 ∧ minor (first480 s.rest) = 26) {docs : List JVal}
    (hd : (parseFile Z ⟨ps, ts, cs⟩ file s).1 = .ok docs) :
    (parseFile Z ⟨ps.filter P, ts, cs⟩ file s).1 = .ok (docs.filter (labelIn P)) := by
  have hp : ps ≠ [] := by rintro rfl; exact hq rfl
  have hjson := C42_json Z ⟨ps, ts, cs⟩ file s hd
  rcases hg : getHeader true s with ⟨e | h, s'⟩
  · rw [parseFile_refused hg] at hd; cases hd
  · have hd0 := hd
    rw [parseFile_ok hg _ file (.inr hv)] at hd
    unfold docOf at hd
    cases hall : sampleRowsAll ⟨ps, ts, cs⟩ h (generateStatistics Z none false 86400 s).1 with
    | error e => rw [hall] at hd; cases hd
    | ok all =>
      rw [hall] at hd
      dsimp only at hd
      cases hend : (generateStatistics Z none false 86400 s).2.1 with
      | raised e => rw [hend] at hd; cases hd
      | returned =>
        rw [hend] at hd
        have gives := sampleRowsAll_gives (o := ⟨ps, ts, cs⟩) hp _ hall
        have gives' : ∀ x ∈ (generateStatistics Z none false 86400 s).1, ∀ p ∈ ps, Gives (argsOf h.inst x) p
            (Classical.epsilon fun rows => Gives (argsOf h.inst x) p rows) :=
          fun x hx p hpm => Classical.epsilon_spec (gives x hx p hpm)
        have o1 := (C28_output Z (o := ⟨ps, ts, cs⟩) hp file hg hv
          (fun p x => Classical.epsilon fun rows => Gives (argsOf h.inst x) p rows) gives').1 hend
        have o2 := (C28_output Z (o := ⟨ps.filter P, ts, cs⟩) hq file hg hv
          (fun p x => Classical.epsilon fun rows => Gives (argsOf h.inst x) p rows)
          (fun x hx p hpm => gives' x hx p (List.mem_filter.mp hpm).1)).1 hend
        rw [o2]
        congr 1
        rw [hd0] at o1
        injection o1 with o1
        rw [o1] at hjson ⊢
        symm
        apply filter_flatMap_all
        intro x hx
        apply filter_flatMap_name
        intro p hpm v hvm
        have hin : v ∈ (generateStatistics Z none false 86400 s).1.flatMap fun x => ps.flatMap fun p =>
            (Classical.epsilon fun rows => Gives (argsOf h.inst x) p rows).map (labelled p) :=
          List.mem_flatMap.mpr ⟨x, hx, List.mem_flatMap.mpr ⟨p, hpm, hvm⟩⟩
        obtain ⟨row, -, rfl⟩ := List.mem_map.mp hvm
        cases hjson with
        | list hj =>
          cases hj _ hin with
          | dict hn _ _ =>
            have : label (labelled p row) = some (.str p) := lookup_append_last row (by simpa using hn)
            unfold labelIn
            rw [this]

/-- **C58** A request is printed exactly when each of its names on its own would be. -/
theorem C58_request_printed (Z : Zlib) {ps : List PyStr} (hp : ps ≠ []) (ts cs : Bool) (file : PyStr) (s : Stream) :
    (∃ docs, (parseFile Z ⟨ps, ts, cs⟩ file s).1 = .ok docs) ↔
      ∀ p ∈ ps, ∃ docs, (parseFile Z ⟨[p], ts, cs⟩ file s).1 = .ok docs := by
  rcases hg : getHeader true s with ⟨e | h, s'⟩
  · constructor
    · rintro ⟨d, hd⟩; rw [parseFile_refused hg] at hd; cases hd
    · intro hall
      cases ps with
      | nil => exact absurd rfl hp
      | cons p ps =>
        obtain ⟨d, hd⟩ := hall p (by simp)
        rw [parseFile_refused hg] at hd; cases hd
  · by_cases hv : major (first480 s.rest) = 1 ∧ minor (first480 s.rest) = 26
    · rw [parseFile_ok hg _ file (.inr hv)]
      constructor
      · rintro ⟨d, hd⟩ p hpm
        rw [parseFile_ok hg _ file (.inr hv)]
        unfold docOf at hd ⊢
        cases hall : sampleRowsAll ⟨ps, ts, cs⟩ h (generateStatistics Z none false 86400 s).1 with
        | error e => rw [hall] at hd; cases hd
        | ok all =>
          rw [hall] at hd
          dsimp only at hd
          have gives := sampleRowsAll_gives (o := ⟨ps, ts, cs⟩) hp _ hall
          rw [sampleRowsAll_ok (o := ⟨[p], ts, cs⟩) (by simp)
            (rows := fun q x => Classical.epsilon fun rows => Gives (argsOf h.inst x) q rows) _ (by
              intro x hx q hqm
              simp only [List.mem_singleton] at hqm
              subst hqm
              exact Classical.epsilon_spec (gives x hx q hpm))]
          dsimp only
          cases hend : (generateStatistics Z none false 86400 s).2.1 with
          | raised e => rw [hend] at hd; cases hd
          | returned => exact ⟨_, rfl⟩
      · intro hall
        have gives : ∀ x ∈ (generateStatistics Z none false 86400 s).1, ∀ p ∈ ps, ∃ rows, Gives (argsOf h.inst x) p rows := by
          intro x hx p hpm
          obtain ⟨d, hd⟩ := hall p hpm
          rw [parseFile_ok hg _ file (.inr hv)] at hd
          unfold docOf at hd
          cases ha : sampleRowsAll ⟨[p], ts, cs⟩ h (generateStatistics Z none false 86400 s).1 with
          | error e => rw [ha] at hd; cases hd
          | ok all => exact sampleRowsAll_gives (o := ⟨[p], ts, cs⟩) (by simp) _ ha x hx p (by simp)
        unfold docOf
        rw [sampleRowsAll_ok (o := ⟨ps, ts, cs⟩) hp
            (rows := fun q x => Classical.epsilon fun rows => Gives (argsOf h.inst x) q rows) _
            (fun x hx q hqm => Classical.epsilon_spec (gives x hx q hqm))]
        dsimp only
        cases hend : (generateStatistics Z none false 86400 s).2.1 with
        | returned => exact ⟨_, rfl⟩
        | raised e =>
          cases ps with
          | nil => exact absurd rfl hp
          | cons p ps =>
            obtain ⟨d, hd⟩ := hall p (by simp)
            rw [parseFile_ok hg _ file (.inr hv)] at hd
            unfold docOf at hd
            rw [hend] at hd
            split at hd <;> cases hd
    · constructor
      · rintro - p -
        exact ⟨_, by rw [parseFile_unsupported hg (by simp) file hv]⟩
      · intro _
        exact ⟨_, by rw [parseFile_unsupported hg hp file hv]⟩

/-- Every toy log of every version: the three entries with details are the three without them, plus members. -/
example (r : Row) (hr : r ∈ table) : ∃ docs, (parseFile toyZ { showTstats := true, showCstats := true } py!"x"
      { data := toyHeader r ++ body r (toyLog r) }).1 = .ok docs ∧ docs.length = 3 ∧
    (parseFile toyZ {} py!"x" { data := toyHeader r ++ body r (toyLog r) }).1 = .ok (docs.map withoutDetails) := by
  obtain ⟨c, docs, -, h1, h2, -⟩ := C29_written_log hr (toyHeader_valid r hr) (toyLog_valid r hr) (by simp [toyLog])
    (o := { showTstats := true, showCstats := true }) rfl py!"x" (s := { data := _ }) (by simp [Stream.rest]; rfl) rfl
  rcases C58_details_only_add toyZ (o := { showTstats := true, showCstats := true }) rfl py!"x"
    { data := toyHeader r ++ body r (toyLog r) } with ⟨e, he, -⟩ | ⟨d, hd, hd'⟩
  · rw [h1] at he; cases he
  · rw [h1] at hd; injection hd with hd; subst hd
    exact ⟨docs, h1, h2, hd'⟩

/-- The members taken away are really there: an entry with details, and what is left of it. -/
example : withoutDetails (.dict [(py!"header", .int 1), (py!"tstat", .list [.int 2]), (py!"cgroup", .list [])]) =
    .dict [(py!"header", .int 1)] := by rfl

theorem first480_start {hb : Bytes} (h : hb.length = 480) (bd : Bytes) :
    first480 (Stream.rest { data := hb ++ bd }) = hb := by
  unfold first480 Stream.rest
  simp only [List.drop_zero]
  rw [List.take_left' h, List.length_append, h, show 480 - (480 + bd.length) = 0 by omega, List.replicate_zero,
    List.append_nil]

/-- From the request SWP, CPU the request CPU keeps one entry of two for each of the three samples. -/
example : (parseFile toyZ ⟨[py!"CPU"], false, false⟩ py!"x" { data := toyHeader row126 ++ body row126 (toyLog row126) }).1 =
    .ok ((toyLog row126).map fun w => labelled py!"CPU" (cpuTotalSpec (toyHeader row126) w.record w.sstat)) := by
  have H := toyHeader_valid row126 (by decide)
  have e := first480_start H.length (body row126 (toyLog row126))
  have hsel := C58_request_selects toyZ (ps := [py!"SWP", py!"CPU"]) (fun p => p == py!"CPU") (by decide +kernel) false false
    py!"x" { data := toyHeader row126 ++ body row126 (toyLog row126) } (by rw [e]; exact ⟨H.major, H.minor⟩) toy_swp_cpu
  rw [show ([py!"SWP", py!"CPU"].filter fun p => p == py!"CPU") = [py!"CPU"] by decide +kernel] at hsel
  rw [hsel]
  refine congrArg Except.ok ?_
  generalize toyLog row126 = log
  induction log with
  | nil => rfl
  | cons w log ih =>
    rw [List.flatMap_cons, List.filter_append, ih, List.map_cons]
    congr 1

/-- The request SWP, CPU is printed, hence so are SWP and CPU alone. -/
example : ∀ p ∈ [py!"SWP", py!"CPU"], ∃ docs, (parseFile toyZ ⟨[p], false, false⟩ py!"x"
    { data := toyHeader row126 ++ body row126 (toyLog row126) }).1 = .ok docs :=
  (C58_request_printed toyZ (by simp) false false py!"x" _).mp ⟨_, toy_swp_cpu⟩

end Atop
