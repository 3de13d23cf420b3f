import Verif.Proofs.Steps
import Verif.Props.Toy
/-!
# C04-C07, C15, C32, C34, C36-C38: iterating over any file content
-/

namespace Atop
open Spec

/-! ## C04 -/

/-- **C04** With a header given, the two settings of `raise_on_truncation` yield the same samples and leave the file at
the same place; the only difference is that `zlib.error` becomes a normal end. -/
theorem C04_only_zlib_error_suppressed (Z : Zlib) (h : Header) (max : Int) (s : Stream) :
    (generateStatistics Z (some h) false max s).1 = (generateStatistics Z (some h) true max s).1 ∧
    (generateStatistics Z (some h) false max s).2.2 = (generateStatistics Z (some h) true max s).2.2 ∧
    (generateStatistics Z (some h) false max s).2.1 =
      if (generateStatistics Z (some h) true max s).2.1 = .raised .zlibError then .returned
      else (generateStatistics Z (some h) true max s).2.1 := by
  have key : (∃ e, ∀ rot, generateStatistics Z (some h) rot max s = ([], endOf rot e, s)) ∨
      ∃ v, ∀ rot, generateStatistics Z (some h) rot max s = runLoop Z rot h.latched v max.toNat s := by
    unfold generateStatistics
    dsimp only
    rcases parsedVersion h with e | v
    · exact .inl ⟨e, fun _ => rfl⟩
    · exact .inr ⟨v, fun _ => rfl⟩
  rcases key with ⟨e, he⟩ | ⟨v, hv⟩
  · rw [he, he]; by_cases he : e = .zlibError <;> simp [endOf, he]
  · rw [hv, hv]; exact runLoop_rot _ _ _ _

/-- **C04** The same when the iterator reads the header itself (on a file whose container does not itself raise
`zlib.error`). -/
theorem C04_only_zlib_error_suppressed_own_header (Z : Zlib) (max : Int) (s : Stream) (hs : s.short ≠ some .zlibError) :
    (generateStatistics Z none false max s).1 = (generateStatistics Z none true max s).1 ∧
    (generateStatistics Z none false max s).2.2 = (generateStatistics Z none true max s).2.2 ∧
    (generateStatistics Z none false max s).2.1 =
      if (generateStatistics Z none true max s).2.1 = .raised .zlibError then .returned
      else (generateStatistics Z none true max s).2.1 := by
  rw [generate_none, generate_none]
  rcases hg : getHeader true s with ⟨e | h, s'⟩
  · have : e ≠ .zlibError := by
      rintro rfl
      rw [getHeader_eq] at hg
      obtain ⟨-, -, r3⟩ := readinto_skip 480 s
      rcases hr : Stream.readinto 480 s with ⟨e | hb, s1⟩
      · rw [hr] at hg r3; cases hg
        exact hs (r3 _ rfl).1
      · rw [hr] at hg
        dsimp only at hg
        injection hg with h1 h2
        unfold headerOf at h1
        split at h1
        · cases h1
        · rw [if_neg (show ¬ (true = false) by simp)] at h1
          split at h1
          · cases h1
          · split at h1 <;> cases h1
    simp [this]
  · exact C04_only_zlib_error_suppressed Z h max s'

/-- **C04** With `raise_on_truncation=False` no `zlib.error` leaves the iteration after the header. -/
theorem C04_never_zlib_error (Z : Zlib) (h : Header) (max : Int) (s : Stream) :
    (generateStatistics Z (some h) false max s).2.1 ≠ .raised .zlibError := by
  rw [(C04_only_zlib_error_suppressed Z h max s).2.2]
  split
  · simp
  · assumption

/-- The suppression is real, and limited: a record announcing data that does not decompress; one announcing a task that
is not there (`ValueError` under both settings). -/
example : ∃ s : Stream, s.short = none ∧
    (generateStatistics (fun _ => none) none true 5 s).2.1 = .raised .zlibError ∧
    (generateStatistics (fun _ => none) none false 5 s).2.1 = .returned := by
  refine ⟨{ data := toyHeader newest ++ toyRecord newest }, rfl, ?_⟩
  obtain ⟨h, -, -, R, hrest, hgen, -⟩ := generate_valid (r := newest) (by decide) (toyHeader_valid newest (by decide))
    (fun _ => none) true 5 (s := { data := toyHeader newest ++ toyRecord newest }) (rest := toyRecord newest) (by simp [Stream.rest])
  have key : (generateStatistics (fun _ => none) none true 5 { data := toyHeader newest ++ toyRecord newest }).2.1 =
      .raised .zlibError := by
    rw [hgen, show (5 : Int).toNat = 4 + 1 from rfl, runLoop, readSample_eq R]
    have h1 := Stream.readinto_full (s := (Stream.mk (toyHeader newest ++ toyRecord newest) 0 none).adv 480)
      (a := toyRecord newest) (b := []) (n := newest.record) (by rw [hrest]; simp) (by decide +kernel)
    rw [bind_ok h1, if_neg (by decide +kernel), getSStat_eq R]
    have h2 : ∀ n t, (do let d ← block (fun _ => none) n; Rd.lift (fromBufferCopy h.cls.SStat d)) t =
        ((.error .zlibError : Except Exc Inst), t.skip n) ∨ t.short ≠ none := by
      intro n t
      by_cases hp : t.short = none
      · left; unfold block; simp only [Rd.bind_eq, Stream.read_none hp, Rd.lift_eq, zdecompress]; rfl
      · exact .inr hp
    rcases h2 (u32 (toyRecord newest) 16)
      ((Stream.mk (toyHeader newest ++ toyRecord newest) 0 none).adv 480 |>.adv newest.record) with h2 | h2
    · rw [bind_err h2]; rfl
    · exact absurd rfl h2
  refine ⟨key, ?_⟩
  rw [(C04_only_zlib_error_suppressed_own_header _ _ _ (by simp)).2.2, key]; rfl

/-! ## C05 -/

theorem max_cases (n m : Int) (h : n ≤ m) : ∃ k, m.toNat = n.toNat + k := ⟨m.toNat - n.toNat, by omega⟩

/-- **C05** At most `max_samples` samples are yielded. -/
theorem C05_at_most (Z : Zlib) (hd : Option Header) (rot : Bool) (max : Int) (s : Stream) :
    (generateStatistics Z hd rot max s).1.length ≤ max.toNat := by
  have key : ∀ h t, (generateStatistics Z (some h) rot max t).1.length ≤ max.toNat := by
    intro h t
    unfold generateStatistics
    dsimp only
    cases parsedVersion h with
    | error e => simp
    | ok v => exact runLoop_length _ _ _ _
  cases hd with
  | some h => exact key h s
  | none =>
    rw [generate_none]
    rcases getHeader true s with ⟨e | h, s'⟩
    · simp
    · exact key h s'

/-- **C05** A smaller bound gives the first samples of a larger one. -/
theorem C05_prefix (Z : Zlib) (hd : Option Header) (rot : Bool) (n m : Int) (hnm : n ≤ m) (s : Stream) :
    (generateStatistics Z hd rot n s).1 = (generateStatistics Z hd rot m s).1.take n.toNat := by
  obtain ⟨k, hk⟩ := max_cases n m hnm
  have key : ∀ h t, (generateStatistics Z (some h) rot n t).1 = (generateStatistics Z (some h) rot m t).1.take n.toNat := by
    intro h t
    unfold generateStatistics
    dsimp only
    cases parsedVersion h with
    | error e => simp
    | ok v =>
      dsimp only
      rw [hk, runLoop_add]
      have hl := runLoop_length (Z := Z) (rot := rot) h.latched v n.toNat t
      split
      · rename_i h1
        rw [List.take_append_of_le_length (by omega), List.take_of_length_le (by omega)]
      · rw [List.take_of_length_le hl]
  cases hd with
  | some h => exact key h s
  | none =>
    rw [generate_none, generate_none]
    rcases getHeader true s with ⟨e | h, s'⟩
    · simp
    · exact key h s'

/-- **C05** When the bound is what stops the iteration, nothing is raised and the file is where it is after exactly that
many steps of the unbounded iterator. -/
theorem C05_stops_cleanly (Z : Zlib) (rot : Bool) {s0 s1 : Stream} {h : Header} (hg : getHeader true s0 = (.ok h, s1))
    (n : Nat) (m : Int) (hn : 0 < n) (hnm : (n : Int) ≤ m) (s : Stream)
    (enough : n ≤ (generateStatistics Z (some h) rot m s).1.length) :
    (generateStatistics Z (some h) rot n s).1.length = n ∧
    (generateStatistics Z (some h) rot n s).2.1 = .returned ∧
    (generateStatistics Z (some h) rot n s).2.2 = (Gen.collect Z rot n (.start (some h) m) s).2.2.2 := by
  obtain ⟨h1, R, A, -, -⟩ := getHeader_ok hg
  have hM := major_lt (first480 s0.rest)
  have hpv := parsedVersion_ready R (by show major (first480 s0.rest) < 256; omega) (minor_lt _)
  have hgen : ∀ mx t, generateStatistics Z (some h) rot mx t =
      runLoop Z rot h (major (first480 s0.rest), minor (first480 s0.rest)) mx.toNat t := fun mx t =>
    generate_ready R (by rw [h1]) (by show major (first480 s0.rest) < 256; omega) (minor_lt _) Z rot mx t
  have hlat : h.latched = h := by rw [h1]; rfl
  rw [hgen] at enough
  rw [hgen, Int.toNat_natCast]
  obtain ⟨c1, c2⟩ := collect_loop_upto (Z := Z) (rot := rot) h (major (first480 s0.rest), minor (first480 s0.rest)) n m.toNat s
    (by omega) enough
  have hcol : Gen.collect Z rot n (.start (some h) m) s =
      Gen.collect Z rot n (.loop h (major (first480 s0.rest), minor (first480 s0.rest)) m.toNat) s := by
    obtain ⟨k, rfl⟩ : ∃ k, n = k + 1 := ⟨n - 1, by omega⟩
    rw [Gen.collect, Gen.next, enterTry, hpv, hlat, Gen.collect, Gen.next]
  refine ⟨?_, ?_, ?_⟩
  · rw [c2, List.length_take]; omega
  · rw [c2]
  · rw [hcol, c1]

/-! ## C06 -/

/-- **C06** On a well-formed log, `k` steps yield the first `k` samples and leave the file exactly at the end of the
`k`-th one. -/
theorem C06_position_after_steps {Z : Zlib} {r : Row} (hr : r ∈ table) {hb : Bytes} (H : ValidHeader r hb)
    {ws : List WSample} (W : ∀ w ∈ ws, w.Valid Z r) (rot : Bool) (max : Int)
    {s : Stream} {tail : Bytes} (hs : s.rest = hb ++ (body r ws ++ tail)) (k : Nat) (hk : 0 < k) (hkw : k ≤ ws.length)
    (hmax : (k : Int) ≤ max) :
    ∃ c, headerByVersion r.version = some c ∧
      ((Gen.collect Z rot k (.start none max) s).1 = (ws.take k).map (presented c) ∧
       (Gen.collect Z rot k (.start none max) s).2.1 = none ∧
       (Gen.collect Z rot k (.start none max) s).2.2.2 =
        { s with pos := s.pos + 480 + (body r (ws.take k)).length }) := by
  obtain ⟨h, rfl, hc, R, hrest, -, hg⟩ := generate_valid hr H Z rot max hs
  refine ⟨_, hc, ?_⟩
  have hM := major_lt hb
  have hpv := parsedVersion_ready R (by show major hb < 256; omega) (minor_lt _)
  have hcol : Gen.collect Z rot k (.start none max) s =
      Gen.collect Z rot k (.loop ⟨classFor hb, hb, some (major hb, minor hb)⟩ (major hb, minor hb) max.toNat) (s.adv 480) := by
    obtain ⟨j, rfl⟩ : ∃ j, k = j + 1 := ⟨k - 1, by omega⟩
    rw [Gen.collect, Gen.next, hg]
    dsimp only
    rw [enterTry, hpv, Gen.collect, Gen.next]; rfl
  have Wk : ∀ w ∈ ws.take k, w.Valid Z r := fun w hw => W w (List.mem_of_mem_take hw)
  have hbody : body r ws = body r (ws.take k) ++ body r (ws.drop k) := by
    rw [← body_append, List.take_append_drop]
  have hrest' : (s.adv 480).rest = body r (ws.take k) ++ (body r (ws.drop k) ++ tail) := by
    rw [hrest, hbody, List.append_assoc]
  have hlen : (ws.take k).length = k := by rw [List.length_take]; omega
  obtain ⟨m, hm⟩ : ∃ m, max.toNat = (ws.take k).length + m := ⟨max.toNat - k, by omega⟩
  have hrun := runLoop_written R rot m (ws.take k) Wk hrest'
  have hrun0 := runLoop_written R rot 0 (ws.take k) Wk hrest'
  rw [Nat.add_zero, hlen] at hrun0
  obtain ⟨c1, c2⟩ := collect_loop_upto (Z := Z) (rot := rot) ⟨classFor hb, hb, some (major hb, minor hb)⟩ (major hb, minor hb) k max.toNat
    (s.adv 480) (by omega) (by rw [hm, hrun, List.length_append, List.length_map, hlen]; omega)
  rw [hcol, c1, hrun0, hm, hrun]
  refine ⟨?_, rfl, ?_⟩
  · dsimp only; rw [List.take_append_of_le_length (by rw [List.length_map, hlen]; omega), List.take_of_length_le (by rw [List.length_map, hlen]; omega)]
  · simp [runLoop, Stream.adv, Nat.add_assoc]

/-- **C06** One step never reads past what the record announces, whatever the bytes and the outcome: `s.rest` are the
unread bytes, bytes 16-19, 20-23 (and 72-75, 84-87 when cgroups are read) of the record are the announced lengths. -/
theorem C06_no_over_read (Z : Zlib) {s0 s1 : Stream} {h : Header} (hg : getHeader true s0 = (.ok h, s1))
    (rot : Bool) (max : Int) (s : Stream) :
    ∃ n, n ≤ h.cls.Record.size + u32 s.rest 16 + u32 s.rest 20 + (if h.cls.CStat.isSome then u32 s.rest 72 + u32 s.rest 84 else 0) ∧
      n ≤ s.rest.length ∧
      (Gen.next Z rot (.start (some h) max) s).2.2 = { s with pos := s.pos + n } ∧
      ∀ left v, h.version = .ok v → (Gen.next Z rot (.loop h v (left + 1)) s).2.2.pos ≤ s.pos +
        (h.cls.Record.size + u32 s.rest 16 + u32 s.rest 20 + (if h.cls.CStat.isSome then u32 s.rest 72 + u32 s.rest 84 else 0)) := by
  obtain ⟨h1, R, A, -, -⟩ := getHeader_ok hg
  obtain ⟨n, hn, hsp⟩ := readSample_span R Z s
  have hM := major_lt (first480 s0.rest)
  have hpv := parsedVersion_ready R (by show major (first480 s0.rest) < 256; omega) (minor_lt _)
  have hlat : h.latched = h := by rw [h1]; rfl
  have hle : spanOf (usedRow (first480 s0.rest)) (readsCGroups (first480 s0.rest)) s.rest ≤
      h.cls.Record.size + u32 s.rest 16 + u32 s.rest 20 + (if h.cls.CStat.isSome then u32 s.rest 72 + u32 s.rest 84 else 0) := by
    unfold spanOf
    rw [R.facts.record]
    have : readsCGroups (first480 s0.rest) = true → h.cls.CStat.isSome = true := by
      intro hc
      rw [hc] at R
      obtain ⟨t, _, ht, _⟩ := cstat_some R
      rw [ht]; rfl
    split
    · rename_i hc; rw [if_pos (this hc)]; omega
    · omega
  have hres : ∀ left, (resumeLoop Z rot h (major (first480 s0.rest), minor (first480 s0.rest)) left s).2.2 = s ∨
      (resumeLoop Z rot h (major (first480 s0.rest), minor (first480 s0.rest)) left s).2.2 = s.skip n := by
    intro left
    cases left with
    | zero => exact .inl rfl
    | succ k =>
      right
      unfold resumeLoop
      rcases hr : readSample Z h (major (first480 s0.rest), minor (first480 s0.rest)) s with ⟨e | x, s'⟩
      · rw [hr] at hsp; exact hsp
      · rw [hr] at hsp
        cases x <;> exact hsp
  have hloop : ∀ left v, h.version = .ok v → (Gen.next Z rot (.loop h v (left + 1)) s).2.2.pos ≤ s.pos +
        (h.cls.Record.size + u32 s.rest 16 + u32 s.rest 20 + (if h.cls.CStat.isSome then u32 s.rest 72 + u32 s.rest 84 else 0)) := by
    intro left v hv
    obtain rfl : (major (first480 s0.rest), minor (first480 s0.rest)) = v := by
      have := R.ver; rw [hv] at this; cases this; rfl
    show (resumeLoop Z rot h _ (left + 1) s).2.2.pos ≤ _
    rcases hres (left + 1) with e | e <;> rw [e]
    · omega
    · have := s.skip_pos_le n; omega
  have hstart : (Gen.next Z rot (.start (some h) max) s).2.2 =
      (resumeLoop Z rot h (major (first480 s0.rest), minor (first480 s0.rest)) max.toNat s).2.2 := by
    show (enterTry Z rot h max s).2.2 = _
    unfold enterTry; rw [hpv, hlat]
  rcases hres max.toNat with e | e
  · exact ⟨0, by omega, by omega, (hstart.trans e).trans rfl, hloop⟩
  · exact ⟨min n s.rest.length, by omega, by omega, by rw [hstart, e]; rfl, hloop⟩

/-- **C06** After the iterator has ended, further steps read nothing and yield nothing; and it ends as soon as it raised
or stopped. -/
theorem C06_ended_is_final (Z : Zlib) (rot : Bool) (g : Gen) (s : Stream) :
    (∀ x, (g.next Z rot s).1 ≠ .yield x) →
      (g.next Z rot s).2.1 = .done ∧ ∀ t, Gen.next Z rot (g.next Z rot s).2.1 t = (.stop, .done, t) := by
  intro hy
  have key : (g.next Z rot s).2.1 = .done := by
    have hres : ∀ h v left t, (∀ x, (resumeLoop Z rot h v left t).1 ≠ .yield x) →
        (resumeLoop Z rot h v left t).2.1 = .done := by
      intro h v left t
      cases left with
      | zero => intro _; rfl
      | succ k =>
        unfold resumeLoop
        rcases readSample Z h v t with ⟨e | x, s'⟩
        · intro _; rfl
        · cases x with
          | none => intro _; rfl
          | some x => intro hh; exact absurd rfl (hh x)
    have hent : ∀ h max t, (∀ x, (enterTry Z rot h max t).1 ≠ .yield x) → (enterTry Z rot h max t).2.1 = .done := by
      intro h max t
      unfold enterTry
      cases parsedVersion h with
      | error e => intro _; rfl
      | ok v => exact hres _ _ _ _
    cases g with
    | done => rfl
    | loop h v left => exact hres h v left s hy
    | start hd max =>
      cases hd with
      | some h => exact hent h max s hy
      | none =>
        unfold Gen.next at hy ⊢
        rcases hg : getHeader true s with ⟨e | h, s'⟩
        · rfl
        · rw [hg] at hy; exact hent h max s' hy
  refine ⟨key, ?_⟩
  intro t; rw [key]; rfl

/-! ## C07 -/

/-- **C07** Stepping with `next()` until the end gives the samples, the ending and the file position of a `for` loop. -/
theorem C07_stepping_is_running (Z : Zlib) (hd : Option Header) (rot : Bool) (max : Int) (s : Stream) (n : Nat)
    (hn : max.toNat < n) :
    Gen.collect Z rot n (.start hd max) s =
      ((generateStatistics Z hd rot max s).1, some (generateStatistics Z hd rot max s).2.1, .done,
        (generateStatistics Z hd rot max s).2.2) :=
  collect_start hd max n s hn

/-- **C07** `n` samples with one iterator and then `m` with a second one on the same file and header are the `n + m`
samples of a single iterator, provided the first was stopped by its bound. -/
theorem C07_resume (Z : Zlib) (rot : Bool) {s0 s1 : Stream} {h : Header} (hg : getHeader true s0 = (.ok h, s1))
    (n m : Nat) (s : Stream) (full : (generateStatistics Z (some h) rot n s).1.length = n) :
    generateStatistics Z (some h) rot (n + m : Nat) s =
      ((generateStatistics Z (some h) rot n s).1 ++
        (generateStatistics Z (some h) rot m (generateStatistics Z (some h) rot n s).2.2).1,
       (generateStatistics Z (some h) rot m (generateStatistics Z (some h) rot n s).2.2).2) := by
  obtain ⟨h1, R, A, -, -⟩ := getHeader_ok hg
  have hM := major_lt (first480 s0.rest)
  have hgen : ∀ (mx : Nat) t, generateStatistics Z (some h) rot mx t =
      runLoop Z rot h (major (first480 s0.rest), minor (first480 s0.rest)) mx t := fun mx t =>
    generate_ready R (by rw [h1]) (by show major (first480 s0.rest) < 256; omega) (minor_lt _) Z rot mx t
  rw [hgen n] at full ⊢
  rw [hgen (n + m), hgen m, runLoop_add, if_pos full]

/-- **C07** If the first iterator stopped early, the larger bound would have changed nothing. -/
theorem C07_early_stop (Z : Zlib) (rot : Bool) {s0 s1 : Stream} {h : Header} (hg : getHeader true s0 = (.ok h, s1))
    (n m : Nat) (s : Stream) (early : (generateStatistics Z (some h) rot n s).1.length ≠ n) :
    generateStatistics Z (some h) rot (n + m : Nat) s = generateStatistics Z (some h) rot n s := by
  obtain ⟨h1, R, A, -, -⟩ := getHeader_ok hg
  have hM := major_lt (first480 s0.rest)
  have hgen : ∀ (mx : Nat) t, generateStatistics Z (some h) rot mx t =
      runLoop Z rot h (major (first480 s0.rest), minor (first480 s0.rest)) mx t := fun mx t =>
    generate_ready R (by rw [h1]) (by show major (first480 s0.rest) < 256; omega) (minor_lt _) Z rot mx t
  rw [hgen n] at early ⊢
  rw [hgen (n + m), runLoop_add, if_neg early]

/-- **C07** Reading the header first and passing it is letting the iterator read it. -/
theorem C07_header_passed (Z : Zlib) (rot : Bool) (max : Int) {s s' : Stream} {h : Header}
    (hg : getHeader true s = (.ok h, s')) :
    generateStatistics Z none rot max s = generateStatistics Z (some h) rot max s' := by
  rw [generate_none, hg]

/-- **C07** If the header is refused, the iterator raises that very exception and yields nothing. -/
theorem C07_header_refused (Z : Zlib) (rot : Bool) (max : Int) {s s' : Stream} {e : Exc}
    (hg : getHeader true s = (.error e, s')) :
    generateStatistics Z none rot max s = ([], .raised e, s') := by
  rw [generate_none, hg]

/-- C05-C07 on the toy log of every version: bound 2 of 3 samples, then one more iterator. -/
example (r : Row) (hr : r ∈ table) : ∃ c, headerByVersion r.version = some c ∧
    (Gen.collect toyZ true 2 (.start none 86400) { data := toyHeader r ++ (body r (toyLog r) ++ []) }).1 =
      [presented c (toySample r), presented c (toySample r)] := by
  obtain ⟨c, h1, h2, -⟩ := C06_position_after_steps hr (toyHeader_valid r hr) (toyLog_valid r hr) true 86400
    (s := { data := toyHeader r ++ (body r (toyLog r) ++ []) }) (tail := []) (by simp [Stream.rest]) 2 (by omega)
    (by simp [toyLog]) (by omega)
  exact ⟨c, h1, by rw [h2]; rfl⟩

/-! ## C15, C38 -/

theorem runLoop_mem {Z : Zlib} {rot : Bool} (h : Header) (v : Nat × Nat) {x : Sample} : ∀ (n : Nat) (s : Stream),
    x ∈ (runLoop Z rot h v n s).1 → ∃ t t', readSample Z h v t = (.ok (some x), t') ∧ t.short = s.short ∧ t.data = s.data
  | 0, s, hx => by simp [runLoop] at hx
  | n + 1, s, hx => by
    rw [runLoop] at hx
    rcases hr : readSample Z h v s with ⟨e | y, s'⟩
    · rw [hr] at hx; simp at hx
    · rw [hr] at hx
      cases y with
      | none => simp at hx
      | some y =>
        have hst : s'.short = s.short ∧ s'.data = s.data := by
          have key : ∀ {α} (m : Rd α), (∀ u, (m u).2.short = u.short ∧ (m u).2.data = u.data) → True := fun _ _ => trivial
          have P : ∀ u, (readSample Z h v u).2.short = u.short ∧ (readSample Z h v u).2.data = u.data := by
            intro u
            have keep : ∀ {α β} (m : Rd α) (f : α → Rd β), (∀ u, (m u).2.short = u.short ∧ (m u).2.data = u.data) →
                (∀ a u, (f a u).2.short = u.short ∧ (f a u).2.data = u.data) →
                ∀ u, ((m >>= f) u).2.short = u.short ∧ ((m >>= f) u).2.data = u.data := by
              intro α β m f hm hf u
              rw [Rd.bind_eq]
              have := hm u
              rcases hmu : m u with ⟨e | a, u'⟩
              · rw [hmu] at this; exact this
              · rw [hmu] at this
                dsimp only at this ⊢
                rw [← this.1, ← this.2]; exact hf a u'
            have kread : ∀ n u, (Stream.read n u).2.short = u.short ∧ (Stream.read n u).2.data = u.data := by
              intro n u; rw [(Stream.read_skip n u).1]; exact ⟨rfl, rfl⟩
            have kinto : ∀ n u, (Stream.readinto n u).2.short = u.short ∧ (Stream.readinto n u).2.data = u.data := by
              intro n u; rw [(readinto_skip n u).1]; exact ⟨rfl, rfl⟩
            have klift : ∀ {α} (y : Except Exc α) u, (Rd.lift y u).2.short = u.short ∧ (Rd.lift y u).2.data = u.data := fun _ _ => ⟨rfl, rfl⟩
            unfold readSample
            refine keep _ _ ?_ ?_ u
            · unfold getRecord; exact keep _ _ (kinto _) (fun _ _ => ⟨rfl, rfl⟩)
            · intro rec u
              refine keep _ _ (klift _) ?_ u
              intro k u
              split
              · exact ⟨rfl, rfl⟩
              · refine keep _ _ ?_ ?_ u
                · unfold getSStat
                  exact keep _ _ (klift _) fun _ => keep _ _ (kread _) fun _ => keep _ _ (klift _) fun _ => klift _
                · intro ss
                  refine keep _ _ ?_ ?_
                  · unfold getTStat
                    exact keep _ _ (klift _) fun _ => keep _ _ (kread _) fun _ => keep _ _ (klift _) fun _ =>
                      keep _ _ (klift _) fun _ => keep _ _ (klift _) fun _ => keep _ _ (klift _) fun _ => klift _
                  · intro ts u
                    split
                    · refine keep _ _ ?_ (fun _ _ => ⟨rfl, rfl⟩) u
                      unfold getCStat
                      refine keep _ _ (klift _) fun _ => keep _ _ (kread _) fun _ => keep _ _ (klift _) fun _ =>
                        keep _ _ (klift _) fun _ => keep _ _ (kread _) fun _ => keep _ _ (klift _) fun _ =>
                        keep _ _ (klift _) fun _ => keep _ _ (klift _) fun _ => ?_
                      intro u
                      cases h.cls.CStat with
                      | some t => exact ⟨rfl, rfl⟩
                      | none => dsimp only; split <;> exact ⟨rfl, rfl⟩
                    · exact ⟨rfl, rfl⟩
          have := P s; rw [hr] at this; exact this
        simp only [List.mem_cons] at hx
        rcases hx with rfl | hx
        · exact ⟨s, s', hr, rfl, rfl⟩
        · obtain ⟨t, t', h1, h2, h3⟩ := runLoop_mem h v n s' hx
          exact ⟨t, t', h1, by rw [h2, hst.1], by rw [h3, hst.2]⟩

/-- **C15** Below 2.11 every yielded cgroup list is empty. -/
theorem C15_no_cgroups (Z : Zlib) (rot : Bool) (max : Int) {s0 s1 : Stream} {h : Header}
    (hg : getHeader true s0 = (.ok h, s1)) {M m : Nat} (hv : h.version = .ok (M, m)) (old : ¬ (2 ≤ M ∧ 11 ≤ m))
    (s : Stream) (x : Sample) (hx : x ∈ (generateStatistics Z (some h) rot max s).1) : x.cgroups = [] := by
  obtain ⟨h1, R, A, -, -⟩ := getHeader_ok hg
  have hM := major_lt (first480 s0.rest)
  rw [generate_ready R (by rw [h1]) (by show major (first480 s0.rest) < 256; omega) (minor_lt _)] at hx
  obtain ⟨t, t', hr, -⟩ := runLoop_mem _ _ _ _ hx
  have G := readSample_some R hr
  have hvv := R.ver
  rw [hv] at hvv
  injection hvv with hvv
  injection hvv with e1 e2
  have hcg : readsCGroups (first480 s0.rest) = false := by
    unfold readsCGroups; rw [← e1, ← e2]; simpa using old
  have := G.cgroups
  rw [hcg] at this
  simpa using this

/-- **C15** and no cgroup bytes are consumed: after a yielded sample the file is right behind the task statistics. -/
theorem C15_next_record (Z : Zlib) (rot : Bool) {s0 s1 : Stream} {h : Header}
    (hg : getHeader true s0 = (.ok h, s1)) {M m : Nat} (hv : h.version = .ok (M, m)) (old : ¬ (2 ≤ M ∧ 11 ≤ m))
    (left : Nat) (s : Stream) (x : Sample) (g : Gen) (s' : Stream)
    (hx : Gen.next Z rot (.loop h (M, m) left) s = (.yield x, g, s')) :
    s'.rest = s.rest.drop (h.cls.Record.size + u32 s.rest 16 + u32 s.rest 20) := by
  obtain ⟨h1, R, A, -, -⟩ := getHeader_ok hg
  have hvv := R.ver
  rw [hv] at hvv
  injection hvv with hvv
  rw [← hvv] at R
  injection hvv with e1 e2
  have hcg : readsCGroups (first480 s0.rest) = false := by
    unfold readsCGroups; rw [← e1, ← e2]; simpa using old
  rw [hcg] at R
  unfold Gen.next resumeLoop at hx
  cases left with
  | zero => cases hx
  | succ k =>
    dsimp only at hx
    rcases hr : readSample Z h (M, m) s with ⟨e | y, s2⟩
    · rw [hr] at hx
      dsimp only at hx
      rcases onError_end rot e with ⟨a, _⟩ | ⟨a, _⟩ <;> rw [a] at hx <;> cases hx
    · rw [hr] at hx
      cases y with
      | none => cases hx
      | some y =>
        injection hx with hx1 hx2
        injection hx2 with hx2 hx3
        have G := readSample_some R hr
        rw [← hx3, G.after, Stream.skip_rest, R.facts.record]
        simp

/-- The hypotheses of C15 are met by nine of the eleven versions. -/
example : (table.filter (fun r => ¬ (2 ≤ r.major ∧ 11 ≤ r.minor))).length = 9 := by decide

theorem tstatLoop_sizes {t : CType} {d : Bytes} {L : Int} : ∀ {k i : Nat} {xs : List Inst},
    tstatLoop t d L k i = .ok xs → xs.length = k ∧ ∀ x ∈ xs, x.ty = t ∧ x.buf.length = t.size
  | 0, i, xs, h => by cases h; simp
  | k + 1, i, xs, h => by
    unfold tstatLoop at h
    cases hf : fromBufferCopy t (pySlice d ((i : Int) * L) (L * ((i : Int) + 1))) with
    | error e => rw [hf] at h; cases h
    | ok x =>
      rw [hf] at h
      cases hl : tstatLoop t d L k (i + 1) with
      | error e => rw [hl] at h; cases h
      | ok ys =>
        rw [hl] at h
        cases h
        obtain ⟨h1, h2⟩ := tstatLoop_sizes hl
        refine ⟨by simp [h1], ?_⟩
        intro y hy
        simp only [List.mem_cons] at hy
        rcases hy with rfl | hy
        · unfold fromBufferCopy at hf
          split at hf
          · cases hf
          · cases hf; refine ⟨rfl, ?_⟩; dsimp only; rw [List.length_take]; omega
        · exact h2 y hy

theorem fromBufferCopy_size {t : CType} {d : Bytes} {x : Inst} (h : fromBufferCopy t d = .ok x) :
    x.ty = t ∧ x.buf.length = t.size := by
  unfold fromBufferCopy at h
  split at h
  · cases h
  · cases h; refine ⟨rfl, ?_⟩; dsimp only; rw [List.length_take]; omega

theorem cstatLoop_sizes {t : CType} {d p : Bytes} {L : Int} : ∀ {k : Nat} {cs ps : Int} {xs : List CGroup},
    cstatLoop t d p L k cs ps = .ok xs → xs.length = k ∧ ∀ x ∈ xs, x.cstat.ty = t ∧ x.cstat.buf.length = t.size ∧
      ∃ n : Nat, x.cstat.genInt py!"nprocs" = .ok (n : Int) ∧ x.proclist.ty = .array pid_t n ∧ x.proclist.buf.length = 4 * n
  | 0, cs, ps, xs, h => by cases h; simp
  | k + 1, cs, ps, xs, h => by
    unfold cstatLoop at h
    cases hf : fromBufferCopy t (pySlice d cs (cs + L)) with
    | error e => rw [hf] at h; cases h
    | ok x =>
      rw [hf] at h
      simp only [bind, Except.bind] at h
      cases hs : x.genInt py!"structlen" with
      | error e => rw [hs] at h; cases h
      | ok sl =>
        rw [hs] at h
        simp only at h
        cases hn : x.genInt py!"nprocs" with
        | error e => rw [hn] at h; cases h
        | ok np =>
          rw [hn] at h
          simp only at h
          cases hp : pidArray np p ps with
          | error e => rw [hp] at h; cases h
          | ok y =>
            rw [hp] at h
            simp only at h
            cases hl : cstatLoop t d p L k (cs + sl) (ps + (CType.array pid_t np.toNat).size) with
            | error e => rw [hl] at h; cases h
            | ok ys =>
              rw [hl] at h
              cases h
              obtain ⟨h1, h2⟩ := cstatLoop_sizes hl
              refine ⟨by simp [h1], ?_⟩
              intro z hz
              simp only [List.mem_cons] at hz
              rcases hz with rfl | hz
              · obtain ⟨a, b⟩ := fromBufferCopy_size hf
                refine ⟨a, b, np.toNat, ?_⟩
                unfold pidArray at hp
                split at hp
                · cases hp
                · obtain ⟨c1, c2⟩ := fromBufferCopy_size hp
                  refine ⟨by rw [hn]; congr 1; omega, c1, ?_⟩
                  rw [c2, pid_size]; omega
              · exact h2 z hz

/-- **C38** Everything yielded is completely filled: each structure occupies exactly the size of its type, the types are
those of the header's class, and each pid list has exactly the `nprocs` entries of its cgroup. -/
theorem C38_completely_filled (Z : Zlib) (rot : Bool) (max : Int) {s0 s1 : Stream} {h : Header}
    (hg : getHeader true s0 = (.ok h, s1)) (s : Stream) (x : Sample)
    (hx : x ∈ (generateStatistics Z (some h) rot max s).1) :
    (x.record.ty = h.cls.Record ∧ x.record.buf.length = h.cls.Record.size) ∧
    (x.sstat.ty = h.cls.SStat ∧ x.sstat.buf.length = h.cls.SStat.size) ∧
    (∀ t ∈ x.tstats, t.ty = h.cls.TStat ∧ t.buf.length = h.cls.TStat.size) ∧
    (∀ g ∈ x.cgroups, ∃ t, h.cls.CStat = some t ∧ g.cstat.ty = t ∧ g.cstat.buf.length = t.size ∧
      ∃ n : Nat, g.cstat.genInt py!"nprocs" = .ok (n : Int) ∧ g.proclist.ty = .array pid_t n ∧ g.proclist.buf.length = 4 * n) := by
  obtain ⟨h1, R, A, -, -⟩ := getHeader_ok hg
  have hM := major_lt (first480 s0.rest)
  rw [generate_ready R (by rw [h1]) (by show major (first480 s0.rest) < 256; omega) (minor_lt _)] at hx
  obtain ⟨t, t', hr, -⟩ := runLoop_mem _ _ _ _ hx
  obtain ⟨⟨rec, e1, e2⟩, -, ⟨d1, -, e3⟩, ⟨d2, -, e4⟩, e5, -, -⟩ := readSample_some R hr
  refine ⟨?_, fromBufferCopy_size e3, (tstatLoop_sizes e4).2, ?_⟩
  · rw [e2]; refine ⟨rfl, ?_⟩
    dsimp only
    rw [e1, R.facts.record]
    simp; omega
  · intro g hgm
    split at e5
    · obtain ⟨t, d, p, c1, -, -, c2⟩ := e5
      exact ⟨t, c1, (cstatLoop_sizes c2).2 g hgm⟩
    · rw [e5] at hgm; cases hgm

/-! ## C34 -/

/-- **C34** `get_record` on a plain file always succeeds, consumes what is there up to the record size, and zero-fills. -/
theorem C34_get_record (h : Header) (s : Stream) (plain : s.short = none) :
    getRecord h s = (.ok ⟨h.cls.Record, s.rest.take h.cls.Record.size ++ List.replicate (h.cls.Record.size - s.rest.length) 0⟩,
      { s with pos := s.pos + min h.cls.Record.size s.rest.length }) := by
  unfold getRecord
  rw [Rd.bind_eq, Stream.readinto_none plain]; rfl

/-- **C34** At end of file the record is all zero, its length field reads zero, and the iteration ends normally. -/
theorem C34_end_of_file (Z : Zlib) {s0 s1 : Stream} {h : Header} (hg : getHeader true s0 = (.ok h, s1)) (s : Stream)
    (plain : s.short = none) (eof : s.rest = []) (rot : Bool) (max : Int) :
    (getRecord h s).1 = .ok ⟨h.cls.Record, List.replicate h.cls.Record.size 0⟩ ∧
    (Inst.mk h.cls.Record (List.replicate h.cls.Record.size 0)).intAttr py!"scomplen" = .ok 0 ∧
    generateStatistics Z (some h) rot max s = ([], .returned, s) := by
  obtain ⟨h1, R, A, -, -⟩ := getHeader_ok hg
  have hM := major_lt (first480 s0.rest)
  refine ⟨?_, ?_, ?_⟩
  · rw [C34_get_record h s plain, eof]; simp
  · rw [intAttr_u32 R.facts.scomplen]
    have := u32_append_zeros [] h.cls.Record.size 16
    rw [List.nil_append] at this
    rw [this, u32_nil]; rfl
  · rw [generate_ready R (by rw [h1]) (by show major (first480 s0.rest) < 256; omega) (minor_lt _)]
    exact runLoop_eof R Z rot eof plain _

/-! ## C36, C37 -/

/-- **C36** A growing log never changes its past: what the shorter file yields is a prefix of what the longer one yields
(for a decompressor that rejects empty input and ignores bytes after a complete stream, as zlib does). -/
theorem C36_growing_log (Z : Zlib) (hnil : Z [] = none) (happ : ∀ b e d, Z b = some d → Z (b ++ e) = some d)
    {s0 s1 : Stream} {h : Header} (hg : getHeader true s0 = (.ok h, s1)) (rot rot' : Bool) (max : Int)
    {s t : Stream} (old new : Bytes) (hs : s.rest = old) (ht : t.rest = old ++ new)
    (ps : s.short = none) (pt : t.short = none) :
    (generateStatistics Z (some h) rot max s).1 <+: (generateStatistics Z (some h) rot' max t).1 := by
  obtain ⟨h1, R, A, -, -⟩ := getHeader_ok hg
  have hM := major_lt (first480 s0.rest)
  rw [generate_ready R (by rw [h1]) (by show major (first480 s0.rest) < 256; omega) (minor_lt _),
    generate_ready R (by rw [h1]) (by show major (first480 s0.rest) < 256; omega) (minor_lt _)]
  exact runLoop_grow R hnil happ rot rot' _ (by rw [ht, hs]) ps pt

/-- **C36** Including the header: once the header is complete in the shorter file. -/
theorem C36_growing_log_own_header (Z : Zlib) (hnil : Z [] = none) (happ : ∀ b e d, Z b = some d → Z (b ++ e) = some d)
    (rot rot' : Bool) (max : Int) {s t : Stream} (old new : Bytes) (hs : s.rest = old) (ht : t.rest = old ++ new)
    (hl : 480 ≤ old.length) (ps : s.short = none) (pt : t.short = none) :
    (generateStatistics Z none rot max s).1 <+: (generateStatistics Z none rot' max t).1 := by
  have hh : first480 t.rest = first480 s.rest := by
    unfold first480
    rw [ht, hs, List.take_append_of_le_length hl, List.length_append]
    congr 2; omega
  rw [generate_none, generate_none]
  have e1 : getHeader true s = (headerOf true (first480 s.rest), s.adv (min 480 s.rest.length)) := by
    rw [getHeader_eq, Stream.readinto_none ps]; rfl
  have e2 : getHeader true t = (headerOf true (first480 s.rest), t.adv (min 480 t.rest.length)) := by
    rw [getHeader_eq, Stream.readinto_none pt, ← hh]; rfl
  cases hr : headerOf true (first480 s.rest) with
  | error e => rw [e1, hr]; exact List.nil_prefix
  | ok h =>
    rw [e1, e2, hr]
    rw [hr] at e1
    refine C36_growing_log Z hnil happ e1 rot rot' max (old.drop 480) new ?_ ?_ ps pt
    · rw [hs, Nat.min_eq_left hl, Stream.rest_adv, hs]
    · rw [ht, List.length_append, Nat.min_eq_left (by omega), Stream.rest_adv, ht, List.drop_append_of_le_length hl]

/-- The toy decompressor satisfies the hypotheses of C36 and C37. -/
example : toyZ [] = none ∧ ∀ b e d, toyZ b = some d → toyZ (b ++ e) = some d := ⟨toyZ_nil, toyZ_append⟩

theorem runLoop_consumes {Z : Zlib} {rot : Bool} (hnil : Z [] = none) {h : Header} {r v cg} (R : Ready h r v cg) : ∀ (n : Nat) (s : Stream),
    (runLoop Z rot h v n s).1.length * (r.record + 2) ≤ s.rest.length
  | 0, s => by simp [runLoop]
  | n + 1, s => by
    rw [runLoop]
    rcases hr : readSample Z h v s with ⟨e | y, s'⟩
    · simp
    · cases y with
      | none => simp
      | some y =>
        obtain ⟨-, k, hk1, hk2, hk3⟩ := got_size hnil (readSample_some R hr)
        have := runLoop_consumes (rot := rot) hnil R n s'
        rw [hk3, Stream.rest_adv, List.length_drop] at this
        rw [hk3]
        simp only [List.length_cons, Nat.succ_mul]
        omega

/-- **C37** The number of samples is bounded by the size of the file, whatever `max_samples` is: every sample takes its
record and at least two more bytes. -/
theorem C37_bounded_by_size (Z : Zlib) (hnil : Z [] = none) {s0 s1 : Stream} {h : Header}
    (hg : getHeader true s0 = (.ok h, s1)) (rot : Bool) (max : Int) (s : Stream) :
    (generateStatistics Z (some h) rot max s).1.length * (h.cls.Record.size + 2) ≤ s.rest.length := by
  obtain ⟨h1, R, A, -, -⟩ := getHeader_ok hg
  have hM := major_lt (first480 s0.rest)
  rw [generate_ready R (by rw [h1]) (by show major (first480 s0.rest) < 256; omega) (minor_lt _), R.facts.record]
  exact runLoop_consumes hnil R _ _

/-- **C37** Hence, stepped with any bound, the iterator has ended after `size / 82 + 1` steps at the latest. -/
theorem C37_terminates (Z : Zlib) (hnil : Z [] = none) {s0 s1 : Stream} {h : Header}
    (hg : getHeader true s0 = (.ok h, s1)) (rot : Bool) (max : Int) (s : Stream) (n : Nat) (hn : s.rest.length / 82 < n) :
    ∃ fin, (Gen.collect Z rot n (.start (some h) max) s).2.1 = some fin := by
  have hlen := C37_bounded_by_size Z hnil hg rot max s
  obtain ⟨h1, R, A, -, -⟩ := getHeader_ok hg
  have hM := major_lt (first480 s0.rest)
  have hpv := parsedVersion_ready R (by show major (first480 s0.rest) < 256; omega) (minor_lt _)
  have hlat : h.latched = h := by rw [h1]; rfl
  have hrec : 80 ≤ h.cls.Record.size := by
    rw [R.facts.record]
    have : ∀ r ∈ table, 80 ≤ r.record := by decide
    exact this _ (usedRow_mem _)
  have hcnt : (generateStatistics Z (some h) rot max s).1.length < n := by
    have : (generateStatistics Z (some h) rot max s).1.length * 82 ≤ s.rest.length :=
      Nat.le_trans (Nat.mul_le_mul_left _ (by omega)) hlen
    have := (Nat.le_div_iff_mul_le (by omega : 0 < 82)).mpr this
    omega
  rw [generate_ready R (by rw [h1]) (by show major (first480 s0.rest) < 256; omega) (minor_lt _)] at hcnt
  have hcol : Gen.collect Z rot n (.start (some h) max) s =
      Gen.collect Z rot n (.loop h (major (first480 s0.rest), minor (first480 s0.rest)) max.toNat) s := by
    obtain ⟨k, rfl⟩ : ∃ k, n = k + 1 := ⟨n - 1, by omega⟩
    rw [Gen.collect, Gen.next, enterTry, hpv, hlat, Gen.collect, Gen.next]
  rw [hcol]
  have gen : ∀ (n left : Nat) (u : Stream), (runLoop Z rot h (major (first480 s0.rest), minor (first480 s0.rest)) left u).1.length < n →
      ∃ fin, (Gen.collect Z rot n (.loop h (major (first480 s0.rest), minor (first480 s0.rest)) left) u).2.1 = some fin := by
    intro n
    induction n with
    | zero => intro left u hh; omega
    | succ n ih =>
      intro left u hh
      cases left with
      | zero => exact ⟨_, rfl⟩
      | succ left =>
        rw [Gen.collect, Gen.next, resumeLoop]
        rw [runLoop] at hh
        rcases hr : readSample Z h (major (first480 s0.rest), minor (first480 s0.rest)) u with ⟨e | y, s'⟩
        · dsimp only
          rcases onError_end rot e with ⟨a, _⟩ | ⟨a, _⟩ <;> rw [a] <;> exact ⟨_, rfl⟩
        · rw [hr] at hh
          cases y with
          | none => exact ⟨_, rfl⟩
          | some y =>
            simp only [List.length_cons] at hh
            exact ih left s' (by omega)
  exact gen n _ s hcnt

/-! ## C32 -/

/-- **C32** A cut container (`s`, raising `ex` where its data ends) against the intact one (`t`): either the container's
error never comes into play and both runs agree, or the samples are a prefix of the intact ones and the iteration raises
`ex` — whatever `raise_on_truncation` is. -/
theorem C32_cut_container (Z : Zlib) (rot : Bool) (hd : Option Header) (max : Int) (ex : Exc) (hex : ex ≠ .zlibError)
    {s t : Stream} (more : Bytes) (hs : s.short = some ex) (ht : t.rest = s.rest ++ more) :
    ((generateStatistics Z hd rot max s).1 = (generateStatistics Z hd rot max t).1 ∧
      (generateStatistics Z hd rot max s).2.1 = (generateStatistics Z hd rot max t).2.1) ∨
    ((generateStatistics Z hd rot max s).1 <+: (generateStatistics Z hd rot max t).1 ∧
      (generateStatistics Z hd rot max s).2.1 = .raised ex) := by
  have hend : endOf rot ex = .raised ex := by unfold endOf; rw [if_neg hex]
  have key : ∀ h (s t : Stream), s.short = some ex → t.rest = s.rest ++ more →
      ((generateStatistics Z (some h) rot max s).1 = (generateStatistics Z (some h) rot max t).1 ∧
        (generateStatistics Z (some h) rot max s).2.1 = (generateStatistics Z (some h) rot max t).2.1) ∨
      ((generateStatistics Z (some h) rot max s).1 <+: (generateStatistics Z (some h) rot max t).1 ∧
        (generateStatistics Z (some h) rot max s).2.1 = .raised ex) := by
    intro h s t hs ht
    unfold generateStatistics
    dsimp only
    cases parsedVersion h with
    | error e => exact .inl ⟨rfl, rfl⟩
    | ok v =>
      have := runLoop_sim (Z := Z) h.latched v rot max.toNat ex hs ht
      rw [hend] at this
      exact this
  cases hd with
  | some h => exact key h s t hs ht
  | none =>
    rw [generate_none, generate_none]
    rcases Sim.getHeader true ex s t more hs ht with h1 | ⟨n, hn, h1, h2⟩
    · right
      rcases hr : getHeader true s with ⟨e | h, s'⟩
      · rw [hr] at h1; cases h1; exact ⟨List.nil_prefix, rfl⟩
      · rw [hr] at h1; cases h1
    · rw [h2]
      rcases hr : getHeader true s with ⟨e | h, s'⟩
      · exact .inl ⟨rfl, rfl⟩
      · rw [hr] at h1
        dsimp only at h1 ⊢
        refine key h s' _ (by rw [h1]; exact hs) ?_
        rw [h1, Stream.rest_adv, Stream.rest_adv, ht, List.drop_append_of_le_length hn]

theorem readSample_none {h : Header} {r v cg} (R : Ready h r v cg) {Z : Zlib} {s s' : Stream}
    (hr : readSample Z h v s = (.ok none, s')) :
    s' = s.skip r.record ∧ u32 s.rest 16 = 0 ∧ (s.short = none ∨ r.record ≤ s.rest.length) := by
  rw [readSample_eq R] at hr
  obtain ⟨rec, s1, h1, hr⟩ := bind_ok_inv hr
  obtain ⟨i1, i2', -⟩ := readinto_skip r.record s
  rw [h1] at i1 i2'
  obtain ⟨i2, i3⟩ := i2' rec rfl
  have hsm := R.small
  have p16 : u32 rec 16 = u32 s.rest 16 := by rw [i2]; exact u32_pad _ _ _ (by omega)
  by_cases h0 : u32 rec 16 = 0
  · rw [if_pos h0] at hr
    obtain ⟨-, e⟩ := pure_ok_inv hr
    exact ⟨by rw [e]; exact i1, by rw [← p16]; exact h0, i3⟩
  · rw [if_neg h0] at hr
    obtain ⟨a, s2, -, hr⟩ := bind_ok_inv hr
    obtain ⟨b, s3, -, hr⟩ := bind_ok_inv hr
    dsimp only at hr
    split at hr
    all_goals
      obtain ⟨c, s4, -, hr⟩ := bind_ok_inv hr
      obtain ⟨e, -⟩ := pure_ok_inv hr
      cases e

theorem runLoop_returned {h : Header} {r v cg} (R : Ready h r v cg) (Z : Zlib) {ex : Exc} : ∀ (m : Nat) (s : Stream),
    s.short = some ex → (runLoop Z true h v m s).2.1 = .returned →
    (runLoop Z true h v m s).1.length = m ∨ ∃ p, (runLoop Z true h v m s).2.2.pos = p + r.record ∧
      p + r.record ≤ s.data.length ∧ u32 (s.data.drop p) 16 = 0
  | 0, s, _, _ => .inl rfl
  | m + 1, s, hs, he => by
    unfold runLoop at he ⊢
    rcases hx : readSample Z h v s with ⟨e | _ | x, s'⟩
    · rw [hx] at he
      exfalso
      have he : endOf true e = .returned := he
      unfold endOf at he
      by_cases hz : e = .zlibError
      · rw [if_pos hz] at he; cases he
      · rw [if_neg hz] at he; cases he
    · right
      obtain ⟨h1, h2, h3⟩ := readSample_none R hx
      have h3 : r.record ≤ s.rest.length := by
        rcases h3 with h3 | h3
        · rw [hs] at h3; cases h3
        · exact h3
      have hl : s.rest.length = s.data.length - s.pos := by unfold Stream.rest; simp
      have := R.small
      refine ⟨s.pos, ?_, by omega, h2⟩
      show s'.pos = _
      rw [h1, Stream.skip_pos, Nat.min_eq_left h3]
    · rw [hx] at he
      obtain ⟨n, -, hn⟩ := readSample_span R Z s
      rw [hx] at hn
      have hn : s' = s.skip n := hn
      have ih := runLoop_returned R Z m s' (by rw [hn]; exact hs) he
      rw [hn] at ih ⊢
      dsimp only at ih ⊢
      rcases ih with ih | ih
      · left; simp [ih]
      · right; exact ih

/-- **C32** A damaged container never passes for a complete file, whatever it holds: when the iteration over it ends
normally (and truncation is to be reported), then as many samples were given as asked for, or a record was read whose
length field says that nothing follows. -/
theorem C32_never_silent (Z : Zlib) {s0 s1 : Stream} {h : Header} (hg : getHeader true s0 = (.ok h, s1)) (max : Int)
    {s : Stream} {ex : Exc} (damaged : s.short = some ex)
    (quiet : (generateStatistics Z (some h) true max s).2.1 = .returned) :
    (generateStatistics Z (some h) true max s).1.length = max.toNat ∨
    ∃ p, (generateStatistics Z (some h) true max s).2.2.pos = p + h.cls.Record.size ∧
      p + h.cls.Record.size ≤ s.data.length ∧ u32 (s.data.drop p) 16 = 0 := by
  obtain ⟨r, v, cg, R, e⟩ := generate_some (Z := Z) hg true max s
  rw [e] at quiet ⊢
  rw [R.facts.record]
  exact runLoop_returned R Z max.toNat s damaged quiet

/-- The hypotheses are met by a damaged container that holds an end marker. -/
example (r : Row) (hr : r ∈ table) : ∃ h s1, getHeader true { data := toyHeader r } = (.ok h, s1) ∧
    (generateStatistics toyZ (some h) true 86400 { data := zeros r.record, short := some .eofError }).2.1 = .returned := by
  obtain ⟨h, -, -, R, -, -, hg⟩ := generate_valid hr (toyHeader_valid r hr) toyZ true 1 (s := { data := toyHeader r })
    (rest := []) (by simp [Stream.rest])
  refine ⟨h, _, hg, ?_⟩
  obtain ⟨r', v, cg, R', e⟩ := generate_some (Z := toyZ) hg true 86400 { data := zeros r.record, short := some .eofError }
  have hrr : r'.record = r.record := by rw [← R.facts.record, ← R'.facts.record]
  have hz : readSample toyZ h v { data := zeros r.record, short := some .eofError } =
      (.ok none, ({ data := zeros r.record, short := some .eofError } : Stream).adv r'.record) := by
    rw [readSample_eq R', Rd.bind_eq, Stream.readinto_full (a := zeros r.record) (b := []) (by simp [Stream.rest])
      (by rw [hrr]; simp [zeros])]
    dsimp only
    rw [if_pos (by have := u32_append_zeros [] r.record 16; simpa [zeros, u32_nil] using this)]
    rfl
  rw [e, show (86400 : Int).toNat = 86399 + 1 from rfl, runLoop, hz]

/-- **C32** When the container of a well-formed log is cut anywhere after the log's header (even exactly between two
samples or after the last one), the complete samples are yielded and then the container's error is raised, under both
settings of `raise_on_truncation`. -/
theorem C32_cut_container_reported {Z : Zlib} {r : Row} (hr : r ∈ table) {hb : Bytes} (H : ValidHeader r hb)
    {ws : List WSample} (W : ∀ w ∈ ws, w.Valid Z r) (k : Nat) (rot : Bool) (max : Int)
    (hmax : (ws.length : Int) < max) (ex : Exc) (hex : ex ≠ .zlibError) {s : Stream}
    (hs : s.rest = hb ++ (body r ws).take k) (cut : s.short = some ex) :
    ∃ c, headerByVersion r.version = some c ∧
      (generateStatistics Z none rot max s).1 = (completeWithin r ws k).map (presented c) ∧
      (generateStatistics Z none rot max s).2.1 = .raised ex := by
  obtain ⟨h, -, hc, R, hrest, hgen, -⟩ := generate_valid hr H Z rot max hs
  have hend : endOf rot ex = .raised ex := by unfold endOf; rw [if_neg hex]
  refine ⟨h.cls, hc, ?_⟩
  rw [hgen]
  have hlen := completeWithin_le r ws k
  have key : ∀ (ws : List WSample), (∀ w ∈ ws, w.Valid Z r) → ∀ (k m : Nat), (completeWithin r ws k).length < m →
      ∀ {s : Stream}, s.rest = (body r ws).take k → s.short = some ex →
      (runLoop Z rot h (major hb, minor hb) m s).1 = (completeWithin r ws k).map (presented h.cls) ∧
      (runLoop Z rot h (major hb, minor hb) m s).2.1 = .raised ex := by
    intro ws
    induction ws with
    | nil =>
      intro _ k m hm s hs hp
      obtain ⟨m', rfl⟩ : ∃ m', m = m' + 1 := ⟨m - 1, by omega⟩
      have hnil : s.rest = [] := by rw [hs]; simp [body]
      have hsm := R.small
      have : readSample Z h (major hb, minor hb) s = (.error ex, s.adv s.rest.length) := by
        rw [readSample_eq R]
        apply bind_err
        rw [Stream.readinto_eq, Stream.read_raise (by rw [hnil]; simp; omega) hp]
      rw [runLoop, this]; exact ⟨rfl, hend⟩
    | cons w ws ih =>
      intro hw k m hm s hs hp
      rw [body_cons] at hs
      unfold completeWithin at hm ⊢
      by_cases hk : (w.bytes r).length ≤ k
      · rw [if_pos hk] at hm ⊢
        rw [List.take_append, List.take_of_length_le hk] at hs
        obtain ⟨m', rfl⟩ : ∃ m', m = m' + 1 := ⟨m - 1, by omega⟩
        have ih := ih (fun x hx => hw x (by simp [hx])) (k - (w.bytes r).length) m'
          (by simpa using hm) (rest_adv_append hs) hp
        rw [runLoop, readSample_written R (hw w (by simp)) hs]
        dsimp only
        exact ⟨by rw [ih.1]; rfl, ih.2⟩
      · rw [if_neg hk] at hm ⊢
        rw [List.take_append_of_le_length (by omega)] at hs
        obtain ⟨m', rfl⟩ : ∃ m', m = m' + 1 := ⟨m - 1, by simp at hm; omega⟩
        -- on the intact file this sample is yielded in full; so on the cut one the container raises
        have hfull := readSample_written R (hw w (by simp)) (s := { data := w.bytes r }) (tail := []) (by simp [Stream.rest])
        have hspl : (Stream.mk (w.bytes r) 0 none).rest = s.rest ++ (w.bytes r).drop k := by
          rw [hs, List.take_append_drop]; rfl
        rcases Sim.readSample Z h (major hb, minor hb) ex s (Stream.mk (w.bytes r) 0 none) ((w.bytes r).drop k) hp hspl with h1 | ⟨n, hn, h1, h2⟩
        · rcases hrs : readSample Z h (major hb, minor hb) s with ⟨e | a, s'⟩
          · rw [hrs] at h1; cases h1
            rw [runLoop, hrs]; exact ⟨rfl, hend⟩
          · rw [hrs] at h1; cases h1
        · rw [hfull] at h2
          injection h2 with h3 h4
          have : (w.bytes r).length = n := by
            have := congrArg Stream.pos h4
            simpa using this
          rw [hs, List.length_take] at hn
          omega
  exact key ws W k max.toNat (by omega) hrest cut

/-- Satisfiable: the toy log of every version in a container cut after the second sample. -/
example (r : Row) (hr : r ∈ table) : ∃ c, headerByVersion r.version = some c ∧
    (generateStatistics toyZ none false 86400 { data := toyHeader r ++ (body r (toyLog r)).take 100, short := some .eofError }).2.1 =
      .raised .eofError := by
  obtain ⟨c, h1, -, h2⟩ := C32_cut_container_reported hr (toyHeader_valid r hr) (toyLog_valid r hr) 100 false 86400
    (by simp [toyLog]) .eofError (by simp) (s := { data := toyHeader r ++ (body r (toyLog r)).take 100, short := some .eofError })
    (by simp [Stream.rest]) rfl
  exact ⟨c, h1, h2⟩

end Atop
