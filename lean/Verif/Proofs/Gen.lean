import Verif.Proofs.Run
/-!
# Iterating: stepping against running, bounds, consumption
-/

namespace Atop
open Spec

variable {Z : Zlib} {rot : Bool}

/-! ## Stepping a generator and running it are the same -/

theorem collect_done (n : Nat) (s : Stream) : Gen.collect Z rot (n + 1) .done s = ([], some .returned, .done, s) := rfl

theorem onError_end (rot : Bool) (e : Exc) :
    (onError rot e = .stop ∧ endOf rot e = .returned) ∨ (onError rot e = .raise e ∧ endOf rot e = .raised e) := by
  unfold onError endOf
  by_cases h : e = .zlibError <;> cases rot <;> simp [h]

theorem collect_loop (h : Header) (v : Nat × Nat) : ∀ (left n : Nat) (s : Stream), left < n →
    Gen.collect Z rot n (.loop h v left) s =
      ((runLoop Z rot h v left s).1, some (runLoop Z rot h v left s).2.1, .done, (runLoop Z rot h v left s).2.2)
  | 0, n + 1, s, _ => rfl
  | k + 1, n + 1, s, hn => by
    rw [Gen.collect, Gen.next, resumeLoop, runLoop]
    rcases hr : readSample Z h v s with ⟨e | x, s'⟩
    · dsimp only
      rcases onError_end rot e with ⟨h1, h2⟩ | ⟨h1, h2⟩ <;> rw [h1, h2]
    · cases x with
      | none => rfl
      | some x => dsimp only; rw [collect_loop h v k n s' (by omega)]

theorem collect_enter (h : Header) (max : Int) (n : Nat) (s : Stream) (hn : max.toNat < n) :
    Gen.collect Z rot n (.start (some h) max) s =
      ((generateStatistics Z (some h) rot max s).1, some (generateStatistics Z (some h) rot max s).2.1, .done,
        (generateStatistics Z (some h) rot max s).2.2) := by
  obtain ⟨n, rfl⟩ : ∃ k, n = k + 1 := ⟨n - 1, by omega⟩
  unfold generateStatistics
  dsimp only
  cases hv : parsedVersion h with
  | error e =>
    rw [Gen.collect, Gen.next, enterTry, hv]
    dsimp only
    rcases onError_end rot e with ⟨h1, h2⟩ | ⟨h1, h2⟩ <;> rw [h1, h2]
  | ok v =>
    have := collect_loop (Z := Z) (rot := rot) h.latched v max.toNat (n + 1) s hn
    rw [← this, Gen.collect, Gen.next, enterTry, hv, Gen.collect, Gen.next]

theorem collect_start (hd : Option Header) (max : Int) (n : Nat) (s : Stream) (hn : max.toNat < n) :
    Gen.collect Z rot n (.start hd max) s =
      ((generateStatistics Z hd rot max s).1, some (generateStatistics Z hd rot max s).2.1, .done,
        (generateStatistics Z hd rot max s).2.2) := by
  cases hd with
  | some h => exact collect_enter h max n s hn
  | none =>
    obtain ⟨n, rfl⟩ : ∃ k, n = k + 1 := ⟨n - 1, by omega⟩
    rw [Gen.collect, Gen.next]
    unfold generateStatistics
    rcases hg : getHeader true s with ⟨e | h, s'⟩
    · rfl
    · have := collect_enter (Z := Z) (rot := rot) h max (n + 1) s' hn
      rw [Gen.collect, Gen.next] at this
      dsimp only
      rw [this]
      unfold generateStatistics
      rfl

theorem collect_loop_upto (h : Header) (v : Nat × Nat) : ∀ (n left : Nat) (s : Stream), n ≤ left →
    (runLoop Z rot h v left s).1.length ≥ n →
    Gen.collect Z rot n (.loop h v left) s =
      ((runLoop Z rot h v left s).1.take n, none, .loop h v (left - n), (runLoop Z rot h v n s).2.2) ∧
    runLoop Z rot h v n s = ((runLoop Z rot h v left s).1.take n, .returned, (runLoop Z rot h v n s).2.2)
  | 0, left, s, _, _ => by simp [Gen.collect, runLoop]
  | n + 1, left + 1, s, hl, hlen => by
    rw [Gen.collect, Gen.next, resumeLoop]
    rw [runLoop] at hlen ⊢
    rw [runLoop]
    rcases hr : readSample Z h v s with ⟨e | x, s'⟩
    · rw [hr] at hlen; simp at hlen
    · rw [hr] at hlen
      cases x with
      | none => simp at hlen
      | some x =>
        simp only [List.length_cons] at hlen
        obtain ⟨h1, h2⟩ := collect_loop_upto h v n left s' (by omega) (by omega)
        have e2 : (runLoop Z rot h v n s').1 = (runLoop Z rot h v left s').1.take n := by rw [h2]
        have e3 : (runLoop Z rot h v n s').2.1 = .returned := by rw [h2]
        refine ⟨?_, ?_⟩
        · dsimp only
          rw [h1, List.take_succ_cons]
          simp
        · dsimp only
          rw [e2, List.take_succ_cons]
          congr 2
          rw [← e3]

/-! ## Bounds -/

theorem runLoop_length (h : Header) (v : Nat × Nat) : ∀ (n : Nat) (s : Stream), (runLoop Z rot h v n s).1.length ≤ n
  | 0, s => by simp [runLoop]
  | n + 1, s => by
    rw [runLoop]
    rcases readSample Z h v s with ⟨e | x, s'⟩
    · simp
    · cases x with
      | none => simp
      | some x => have := runLoop_length h v n s'; simp; omega

theorem runLoop_add (h : Header) (v : Nat × Nat) (m : Nat) : ∀ (n : Nat) (s : Stream),
    runLoop Z rot h v (n + m) s =
      if (runLoop Z rot h v n s).1.length = n then
        ((runLoop Z rot h v n s).1 ++ (runLoop Z rot h v m (runLoop Z rot h v n s).2.2).1,
          (runLoop Z rot h v m (runLoop Z rot h v n s).2.2).2)
      else runLoop Z rot h v n s
  | 0, s => by simp [runLoop]
  | n + 1, s => by
    rw [show n + 1 + m = (n + m) + 1 by omega, runLoop, runLoop]
    rcases hr : readSample Z h v s with ⟨e | x, s'⟩
    · simp
    · cases x with
      | none => simp
      | some x =>
        dsimp only
        rw [runLoop_add h v m n s']
        by_cases hl : (runLoop Z rot h v n s').1.length = n
        · rw [if_pos hl, if_pos (by simp [hl])]; simp
        · rw [if_neg hl, if_neg (by simp; exact hl)]

theorem runLoop_returned_of_full (h : Header) (v : Nat × Nat) (n : Nat) (s : Stream)
    (hl : (runLoop Z rot h v n s).1.length = n) : (runLoop Z rot h v n s).2.1 = .returned := by
  have := (collect_loop_upto (Z := Z) (rot := rot) h v n n s (Nat.le_refl _) (by omega)).2
  rw [this]

/-! ## `raise_on_truncation` -/

theorem runLoop_rot (h : Header) (v : Nat × Nat) : ∀ (n : Nat) (s : Stream),
    (runLoop Z false h v n s).1 = (runLoop Z true h v n s).1 ∧
    (runLoop Z false h v n s).2.2 = (runLoop Z true h v n s).2.2 ∧
    (runLoop Z false h v n s).2.1 =
      if (runLoop Z true h v n s).2.1 = .raised .zlibError then .returned else (runLoop Z true h v n s).2.1
  | 0, s => by simp [runLoop]
  | n + 1, s => by
    rw [runLoop, runLoop]
    rcases hr : readSample Z h v s with ⟨e | x, s'⟩
    · by_cases he : e = .zlibError <;> simp [endOf, he]
    · cases x with
      | none => simp
      | some x =>
        obtain ⟨h1, h2, h3⟩ := runLoop_rot h v n s'
        dsimp only
        rw [h1, h2, h3]
        simp

theorem runLoop_no_zlib (h : Header) (v : Nat × Nat) (n : Nat) (s : Stream) :
    (runLoop Z false h v n s).2.1 ≠ .raised .zlibError := by
  rw [(runLoop_rot h v n s).2.2]
  split
  · simp
  · assumption

/-! ## Consumption -/

/-- Skip `n` bytes, or all that is left. -/
def Stream.skip (s : Stream) (n : Nat) : Stream := s.adv (min n s.rest.length)

theorem Stream.skip_skip (s : Stream) (a b : Nat) : (s.skip a).skip b = s.skip (a + b) := by
  unfold Stream.skip
  rw [Stream.rest_adv, Stream.adv_adv]
  simp only [List.length_drop]
  congr 1; omega

theorem Stream.skip_rest (s : Stream) (n : Nat) : (s.skip n).rest = s.rest.drop n := by
  unfold Stream.skip
  rw [Stream.rest_adv]
  by_cases h : n ≤ s.rest.length
  · rw [Nat.min_eq_left h]
  · rw [Nat.min_eq_right (by omega), List.drop_length, List.drop_eq_nil_of_le (by omega)]

@[simp] theorem Stream.skip_short (s : Stream) (n : Nat) : (s.skip n).short = s.short := rfl
@[simp] theorem Stream.skip_data (s : Stream) (n : Nat) : (s.skip n).data = s.data := rfl
@[simp] theorem Stream.skip_zero (s : Stream) : s.skip 0 = s := by simp [Stream.skip]

theorem Stream.skip_pos_le (s : Stream) (n : Nat) : (s.skip n).pos ≤ s.pos + n := by
  simp only [Stream.skip, Stream.adv_pos]; omega

theorem Stream.skip_pos (s : Stream) (n : Nat) : (s.skip n).pos = s.pos + min n s.rest.length := rfl

theorem Stream.read_skip (n : Nat) (s : Stream) : (Stream.read n s).2 = s.skip n ∧
    (∀ b, (Stream.read n s).1 = .ok b → b = s.rest.take n ∧ (s.short = none ∨ n ≤ s.rest.length)) ∧
    (∀ e, (Stream.read n s).1 = .error e → s.short = some e ∧ s.rest.length < n) := by
  by_cases h : n ≤ s.rest.length
  · have : Stream.read n s = (.ok (s.rest.take n), s.adv n) := by unfold Stream.read; rw [if_pos h]; rfl
    rw [this]
    refine ⟨by simp [Stream.skip, Nat.min_eq_left h], ?_, nofun⟩
    intro b hb; cases hb; exact ⟨rfl, .inr h⟩
  · cases hs : s.short with
    | none =>
      rw [Stream.read_short (by omega) hs]
      refine ⟨by simp [Stream.skip, Nat.min_eq_right (by omega : s.rest.length ≤ n)], ?_, nofun⟩
      intro b hb; cases hb; exact ⟨(List.take_of_length_le (by omega)).symm, .inl rfl⟩
    | some e =>
      rw [Stream.read_raise (by omega) hs]
      refine ⟨by simp [Stream.skip, Nat.min_eq_right (by omega : s.rest.length ≤ n)], nofun, ?_⟩
      intro e' he; cases he; exact ⟨rfl, by omega⟩

theorem readinto_skip (n : Nat) (s : Stream) : (Stream.readinto n s).2 = s.skip n ∧
    (∀ b, (Stream.readinto n s).1 = .ok b → b = s.rest.take n ++ List.replicate (n - s.rest.length) 0 ∧
      (s.short = none ∨ n ≤ s.rest.length)) ∧
    (∀ e, (Stream.readinto n s).1 = .error e → s.short = some e ∧ s.rest.length < n) := by
  rw [Stream.readinto_eq]
  obtain ⟨h1, h2, h3⟩ := Stream.read_skip n s
  rcases hr : Stream.read n s with ⟨e | g, s'⟩
  · rw [hr] at h1 h3; exact ⟨h1, nofun, fun e he => h3 e he⟩
  · rw [hr] at h1 h2
    obtain ⟨h4, h5⟩ := h2 g rfl
    refine ⟨h1, ?_, nofun⟩
    intro b hb; cases hb
    refine ⟨?_, h5⟩
    rw [h4, List.length_take, show n - min n s.rest.length = n - s.rest.length by omega]

theorem block_skip (Z : Zlib) (n : Nat) (s : Stream) : (block Z n s).2 = s.skip n ∧
    (∀ d, (block Z n s).1 = .ok d → Z (s.rest.take n) = some d ∧ (s.short = none ∨ n ≤ s.rest.length)) ∧
    (∀ e, (block Z n s).1 = .error e → e = .zlibError ∨ (s.short = some e ∧ s.rest.length < n)) := by
  unfold block
  obtain ⟨h1, h2, h3⟩ := Stream.read_skip n s
  rw [Rd.bind_eq]
  rcases hr : Stream.read n s with ⟨e | g, s'⟩
  · rw [hr] at h1 h3; exact ⟨h1, nofun, fun e he => .inr (h3 e he)⟩
  · rw [hr] at h1 h2
    obtain ⟨h4, h5⟩ := h2 g rfl
    refine ⟨h1, ?_, ?_⟩
    · intro d hd
      simp only [Rd.lift_eq, zdecompress] at hd
      cases hz : Z g with
      | none => rw [hz] at hd; cases hd
      | some d' => rw [hz] at hd; cases hd; exact ⟨by rw [← h4]; exact hz, h5⟩
    · intro e he
      simp only [Rd.lift_eq, zdecompress] at he
      cases hz : Z g with
      | none => rw [hz] at he; cases he; exact .inl rfl
      | some d' => rw [hz] at he; cases he

/-- Splitting a successful sequence. -/
theorem bind_ok_inv {α β} {m : Rd α} {f : α → Rd β} {s : Stream} {b : β} {s' : Stream}
    (h : (m >>= f) s = (.ok b, s')) : ∃ a s1, m s = (.ok a, s1) ∧ f a s1 = (.ok b, s') := by
  rw [Rd.bind_eq] at h
  rcases hm : m s with ⟨e | a, s1⟩
  · rw [hm] at h; cases h
  · rw [hm] at h; exact ⟨a, s1, rfl, h⟩

theorem lift_ok_inv {α} {x : Except Exc α} {s s' : Stream} {a : α} (h : Rd.lift x s = (.ok a, s')) :
    x = .ok a ∧ s' = s := by
  rw [Rd.lift_eq] at h; injection h with h1 h2; exact ⟨h1, h2.symm⟩

theorem pure_ok_inv {α} {s s' : Stream} {a b : α} (h : (pure a : Rd α) s = (.ok b, s')) : a = b ∧ s' = s := by
  have h : ((.ok a : Except Exc α), s) = (.ok b, s') := h
  injection h with h1 h2; injection h1 with h1; exact ⟨h1, h2.symm⟩

/-- A successful block read. -/
theorem block_ok_inv {n : Nat} {s s' : Stream} {d : Bytes} (h : block Z n s = (.ok d, s')) :
    s' = s.skip n ∧ Z (s.rest.take n) = some d ∧ (s.short = none ∨ n ≤ s.rest.length) := by
  obtain ⟨h1, h2, -⟩ := block_skip Z n s
  rw [h] at h1 h2
  exact ⟨h1, h2 d rfl⟩

/-- Everything that makes one iteration yield `x`: where its parts lie, and what they decompress to. -/
structure Got (Z : Zlib) (h : Header) (r : Row) (cg : Bool) (s : Stream) (x : Sample) (s' : Stream) : Prop where
  record : ∃ rec, rec = s.rest.take r.record ++ List.replicate (r.record - s.rest.length) 0 ∧
    x.record = ⟨h.cls.Record, rec⟩
  nonzero : u32 s.rest 16 ≠ 0
  sstat : ∃ d, Z ((s.rest.drop r.record).take (u32 s.rest 16)) = some d ∧ fromBufferCopy h.cls.SStat d = .ok x.sstat
  tstats : ∃ d, Z ((s.rest.drop (r.record + u32 s.rest 16)).take (u32 s.rest 20)) = some d ∧
    tstatLoop h.cls.TStat d h.cls.TStat.size (u32 s.rest 28) 0 = .ok x.tstats
  cgroups : if cg = true then ∃ t d p, h.cls.CStat = some t ∧
      Z ((s.rest.drop (r.record + u32 s.rest 16 + u32 s.rest 20)).take (u32 s.rest 72)) = some d ∧
      Z ((s.rest.drop (r.record + u32 s.rest 16 + u32 s.rest 20 + u32 s.rest 72)).take (u32 s.rest 84)) = some p ∧
      cstatLoop t d p t.size (u16 s.rest 10) 0 0 = .ok x.cgroups
    else x.cgroups = []
  after : s' = s.skip (r.record + u32 s.rest 16 + u32 s.rest 20 + if cg = true then u32 s.rest 72 + u32 s.rest 84 else 0)
  avail : s.short = none ∨
    r.record + u32 s.rest 16 + u32 s.rest 20 + (if cg = true then u32 s.rest 72 + u32 s.rest 84 else 0) ≤ s.rest.length

theorem u16_pad (b : Bytes) (n o : Nat) (h : o + 2 ≤ n) :
    u16 (b.take n ++ List.replicate (n - b.length) 0) o = u16 b o := by
  rw [u16_append_zeros, u16_take _ _ _ h]
theorem u32_pad (b : Bytes) (n o : Nat) (h : o + 4 ≤ n) :
    u32 (b.take n ++ List.replicate (n - b.length) 0) o = u32 b o := by
  rw [u32_append_zeros, u32_take _ _ _ h]

theorem readSample_some {h : Header} {r v cg} (R : Ready h r v cg) {s s' : Stream} {x : Sample}
    (hr : readSample Z h v s = (.ok (some x), s')) : Got Z h r cg s x s' := by
  rw [readSample_eq R] at hr
  obtain ⟨rec, s1, h1, hr⟩ := bind_ok_inv hr
  obtain ⟨i1, i2', -⟩ := readinto_skip r.record s
  rw [h1] at i1 i2'
  obtain ⟨i2, i3⟩ := i2' rec rfl
  clear i2' h1
  dsimp only at i1
  have hsm := R.small
  have p16 : u32 rec 16 = u32 s.rest 16 := by rw [i2]; exact u32_pad _ _ _ (by omega)
  have p20 : u32 rec 20 = u32 s.rest 20 := by rw [i2]; exact u32_pad _ _ _ (by omega)
  have p28 : u32 rec 28 = u32 s.rest 28 := by rw [i2]; exact u32_pad _ _ _ (by omega)
  split at hr
  · obtain ⟨h2, -⟩ := pure_ok_inv hr; cases h2
  · rename_i hnz
    rw [getSStat_eq R, getTStat_eq R] at hr
    obtain ⟨ss, s2, h2, hr⟩ := bind_ok_inv hr
    obtain ⟨d1, s2', h2a, h2c⟩ := bind_ok_inv h2
    obtain ⟨h2b, rfl⟩ := lift_ok_inv h2c
    obtain ⟨rfl, z1, a1⟩ := block_ok_inv h2a
    clear h2 h2c h2a
    obtain ⟨ts, s3, h3, hr⟩ := bind_ok_inv hr
    obtain ⟨d2, s3', h3a, h3c⟩ := bind_ok_inv h3
    obtain ⟨h3b, rfl⟩ := lift_ok_inv h3c
    obtain ⟨rfl, z2, a2⟩ := block_ok_inv h3a
    clear h3 h3c h3a
    subst i1
    simp only [Stream.skip_skip, Stream.skip_rest, Stream.skip_short, p16, p20, p28, List.length_drop] at *
    rw [← R.facts.tstat] at h3b
    cases cg with
    | false =>
      have hr' : (some { record := ⟨h.cls.Record, rec⟩, sstat := ss, tstats := ts, cgroups := [] } : Option Sample) = some x ∧
          s' = s.skip (r.record + u32 s.rest 16 + u32 s.rest 20) := pure_ok_inv hr
      obtain ⟨hx, rfl⟩ := hr'
      cases hx
      refine ⟨⟨rec, i2, rfl⟩, hnz, ⟨d1, z1, h2b⟩, ⟨d2, z2, h3b⟩, by simp, by simp, ?_⟩
      by_cases hsh : s.short = none
      · exact .inl hsh
      · simp only [hsh, false_or] at i3 a1 a2 ⊢; simp; omega
    | true =>
      obtain ⟨t, n, c1, c2, c3, c4⟩ := cstat_some R
      obtain ⟨-, -, hsz⟩ := R.csmall n c2
      have p10 : u16 rec 10 = u16 s.rest 10 := by rw [i2]; exact u16_pad _ _ _ (by omega)
      have p72 : u32 rec 72 = u32 s.rest 72 := by rw [i2]; exact u32_pad _ _ _ (by omega)
      have p84 : u32 rec 84 = u32 s.rest 84 := by rw [i2]; exact u32_pad _ _ _ (by omega)
      rw [if_pos rfl, getCStat_eq R Z rec c1] at hr
      obtain ⟨gs, s4, h4, hr⟩ := bind_ok_inv hr
      obtain ⟨d3, s4', h4a, h4x⟩ := bind_ok_inv h4
      obtain ⟨d4, s5', h4b, h4y⟩ := bind_ok_inv h4x
      obtain ⟨h4z, rfl⟩ := lift_ok_inv h4y
      obtain ⟨rfl, z3, a3⟩ := block_ok_inv h4a
      obtain ⟨rfl, z4, a4⟩ := block_ok_inv h4b
      clear h4 h4x h4y h4a h4b
      obtain ⟨hx, rfl⟩ := pure_ok_inv hr
      cases hx
      simp only [Stream.skip_skip, Stream.skip_rest, Stream.skip_short, p10, p72, p84, List.length_drop, Nat.add_assoc] at *
      refine ⟨⟨rec, i2, rfl⟩, hnz, ⟨d1, z1, h2b⟩, ⟨d2, z2, h3b⟩, ?_, by simp [Nat.add_assoc], ?_⟩
      rotate_left
      · by_cases hsh : s.short = none
        · exact .inl hsh
        · simp only [hsh, false_or] at i3 a1 a2 a3 a4 ⊢; simp; omega
      rw [if_pos rfl]
      exact ⟨t, d3, d4, c1, by simpa [Nat.add_assoc] using z3, by simpa [Nat.add_assoc] using z4, h4z⟩

end Atop
