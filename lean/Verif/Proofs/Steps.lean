import Verif.Proofs.Gen
/-!
# One iteration: converse of `readSample_some`, no over-read, growing files, damaged containers
-/

namespace Atop
open Spec

variable {Z : Zlib} {rot : Bool}

theorem block_ok {n : Nat} {s : Stream} {d : Bytes} (hz : Z (s.rest.take n) = some d)
    (ha : s.short = none ∨ n ≤ s.rest.length) : block Z n s = (.ok d, s.skip n) := by
  obtain ⟨h1, -, -⟩ := block_skip Z n s
  obtain ⟨r1, r2, r3⟩ := Stream.read_skip n s
  unfold block at h1 ⊢
  rw [Rd.bind_eq] at h1 ⊢
  rcases hr : Stream.read n s with ⟨e | g, s'⟩
  · rw [hr] at r3
    obtain ⟨h2, h3⟩ := r3 e rfl
    rcases ha with h | h
    · rw [h] at h2; cases h2
    · omega
  · rw [hr] at r2 h1
    obtain ⟨rfl, -⟩ := r2 g rfl
    simp only [Rd.lift_eq, zdecompress, hz] at h1 ⊢
    rw [h1]

theorem readinto_ok {n : Nat} {s : Stream} (ha : s.short = none ∨ n ≤ s.rest.length) :
    Stream.readinto n s = (.ok (s.rest.take n ++ List.replicate (n - s.rest.length) 0), s.skip n) := by
  obtain ⟨r1, r2, r3⟩ := readinto_skip n s
  rcases hr : Stream.readinto n s with ⟨e | g, s'⟩
  · rw [hr] at r3
    obtain ⟨h2, h3⟩ := r3 e rfl
    rcases ha with h | h
    · rw [h] at h2; cases h2
    · omega
  · rw [hr] at r1 r2
    obtain ⟨rfl, -⟩ := r2 g rfl
    dsimp only at r1
    rw [r1]

theorem readSample_of_got {h : Header} {r v cg} (R : Ready h r v cg) {s s' : Stream} {x : Sample}
    (G : Got Z h r cg s x s') : readSample Z h v s = (.ok (some x), s') := by
  obtain ⟨⟨rec, i2, hxr⟩, hnz, ⟨d1, z1, f1⟩, ⟨d2, z2, f2⟩, hcg, hafter, ha⟩ := G
  have hsm := R.small
  have p16 : u32 rec 16 = u32 s.rest 16 := by rw [i2]; exact u32_pad _ _ _ (by omega)
  have p20 : u32 rec 20 = u32 s.rest 20 := by rw [i2]; exact u32_pad _ _ _ (by omega)
  have p28 : u32 rec 28 = u32 s.rest 28 := by rw [i2]; exact u32_pad _ _ _ (by omega)
  rw [readSample_eq R, bind_ok (readinto_ok (by rcases ha with h | h; exact .inl h; exact .inr (by omega))), ← i2, if_neg (by rw [p16]; exact hnz)]
  have b1 : block Z (u32 rec 16) (s.skip r.record) = (.ok d1, s.skip (r.record + u32 s.rest 16)) := by
    rw [p16, block_ok (d := d1) (by rw [Stream.skip_rest]; exact z1), Stream.skip_skip]
    rcases ha with h | h
    · exact .inl h
    · rw [Stream.skip_rest, List.length_drop]; exact .inr (by omega)
  have b2 : block Z (u32 rec 20) (s.skip (r.record + u32 s.rest 16)) = (.ok d2, s.skip (r.record + u32 s.rest 16 + u32 s.rest 20)) := by
    rw [p20, block_ok (d := d2) (by rw [Stream.skip_rest]; exact z2), Stream.skip_skip]
    rcases ha with h | h
    · exact .inl h
    · rw [Stream.skip_rest, List.length_drop]; exact .inr (by omega)
  rw [getSStat_eq R, getTStat_eq R]
  have c1 : (do let d ← block Z (u32 rec 16); Rd.lift (fromBufferCopy h.cls.SStat d)) (s.skip r.record) =
      (.ok x.sstat, s.skip (r.record + u32 s.rest 16)) := by
    rw [bind_ok b1, Rd.lift_eq, f1]
  have c2 : (do let d ← block Z (u32 rec 20); Rd.lift (tstatLoop h.cls.TStat d r.tstat (u32 rec 28) 0))
      (s.skip (r.record + u32 s.rest 16)) = (.ok x.tstats, s.skip (r.record + u32 s.rest 16 + u32 s.rest 20)) := by
    rw [bind_ok b2, Rd.lift_eq, p28, ← R.facts.tstat, f2]
  rw [bind_ok c1, bind_ok c2]
  cases cg with
  | false =>
    simp at hcg hafter
    subst hafter
    show ((.ok (some ⟨⟨h.cls.Record, rec⟩, x.sstat, x.tstats, []⟩) : Except Exc (Option Sample)), _) = _
    cases x; cases hxr; cases hcg; rfl
  | true =>
    obtain ⟨t, d3, d4, c1, z3, z4, f4⟩ := hcg
    obtain ⟨t', n, c1', c2, c3, c4⟩ := cstat_some R
    obtain rfl : t = t' := by rw [c1] at c1'; injection c1'
    obtain ⟨-, -, hsz⟩ := R.csmall n c2
    have p10 : u16 rec 10 = u16 s.rest 10 := by rw [i2]; exact u16_pad _ _ _ (by omega)
    have p72 : u32 rec 72 = u32 s.rest 72 := by rw [i2]; exact u32_pad _ _ _ (by omega)
    have p84 : u32 rec 84 = u32 s.rest 84 := by rw [i2]; exact u32_pad _ _ _ (by omega)
    rw [if_pos rfl, getCStat_eq R Z rec c1]
    simp only [if_true] at hafter ha
    have b3 : block Z (u32 rec 72) (s.skip (r.record + u32 s.rest 16 + u32 s.rest 20)) =
        (.ok d3, s.skip (r.record + u32 s.rest 16 + u32 s.rest 20 + u32 s.rest 72)) := by
      rw [p72, block_ok (d := d3) (by rw [Stream.skip_rest]; exact z3), Stream.skip_skip]
      rcases ha with h | h
      · exact .inl h
      · rw [Stream.skip_rest, List.length_drop]; exact .inr (by omega)
    have b4 : block Z (u32 rec 84) (s.skip (r.record + u32 s.rest 16 + u32 s.rest 20 + u32 s.rest 72)) =
        (.ok d4, s') := by
      rw [p84, block_ok (d := d4) (by rw [Stream.skip_rest]; exact z4), Stream.skip_skip, hafter]
      · simp only [Nat.add_assoc]
      · rcases ha with h | h
        · exact .inl h
        · rw [Stream.skip_rest, List.length_drop]; exact .inr (by omega)
    have c5 : (do
        let d ← block Z (u32 rec 72)
        let pids ← block Z (u32 rec 84)
        Rd.lift (cstatLoop t d pids t.size (u16 rec 10) 0 0)) (s.skip (r.record + u32 s.rest 16 + u32 s.rest 20)) =
        (.ok x.cgroups, s') := by
      rw [bind_ok b3, bind_ok b4, Rd.lift_eq, p10, f4]
    rw [bind_ok c5]
    show ((.ok (some ⟨⟨h.cls.Record, rec⟩, x.sstat, x.tstats, x.cgroups⟩) : Except Exc (Option Sample)), _) = _
    cases x; cases hxr; rfl

/-! ## No over-read -/

/-- Whatever happens, at most `N` bytes are consumed. -/
def Spans {α} (m : Rd α) (N : Nat) : Prop := ∀ s, ∃ n, n ≤ N ∧ (m s).2 = s.skip n

theorem Spans.lift {α} (x : Except Exc α) : Spans (Rd.lift x) 0 := fun s => ⟨0, Nat.le_refl _, by simp [Rd.lift_eq]⟩

theorem Spans.pure {α} (x : α) : Spans (Pure.pure x : Rd α) 0 := fun s => ⟨0, Nat.le_refl _, by rw [Stream.skip_zero]; rfl⟩

theorem Spans.block (Z : Zlib) (n : Nat) : Spans (block Z n) n := fun s => ⟨n, Nat.le_refl _, (block_skip Z n s).1⟩

theorem Spans.bind {α β} {m : Rd α} {f : α → Rd β} {N M : Nat} (hm : Spans m N) (hf : ∀ a, Spans (f a) M) :
    Spans (m >>= f) (N + M) := by
  intro s
  obtain ⟨n, hn, h1⟩ := hm s
  rw [Rd.bind_eq]
  rcases hr : m s with ⟨e | a, s1⟩
  · rw [hr] at h1; exact ⟨n, by omega, h1⟩
  · rw [hr] at h1
    dsimp only at h1 ⊢
    obtain ⟨k, hk, h2⟩ := hf a s1
    exact ⟨n + k, by omega, by rw [h2, h1, Stream.skip_skip]⟩

theorem Spans.mono {α} {m : Rd α} {N M : Nat} (h : Spans m N) (hle : N ≤ M) : Spans m M := fun s =>
  let ⟨n, hn, e⟩ := h s; ⟨n, Nat.le_trans hn hle, e⟩

/-- Bytes a sample occupies according to its record. -/
def spanOf (r : Row) (cg : Bool) (rest : Bytes) : Nat :=
  r.record + u32 rest 16 + u32 rest 20 + if cg = true then u32 rest 72 + u32 rest 84 else 0

theorem readSample_span {h : Header} {r v cg} (R : Ready h r v cg) (Z : Zlib) (s : Stream) :
    ∃ n, n ≤ spanOf r cg s.rest ∧ (readSample Z h v s).2 = s.skip n := by
  rw [readSample_eq R, Rd.bind_eq]
  obtain ⟨i1, i2, -⟩ := readinto_skip r.record s
  rcases hr : Stream.readinto r.record s with ⟨e | rec, s1⟩
  · rw [hr] at i1; exact ⟨r.record, by unfold spanOf; omega, i1⟩
  · rw [hr] at i1 i2
    obtain ⟨hrec, -⟩ := i2 rec rfl
    dsimp only at i1 ⊢
    have hsm := R.small
    have p16 : u32 rec 16 = u32 s.rest 16 := by rw [hrec]; exact u32_pad _ _ _ (by omega)
    have p20 : u32 rec 20 = u32 s.rest 20 := by rw [hrec]; exact u32_pad _ _ _ (by omega)
    rw [i1]
    split
    · exact ⟨r.record, by unfold spanOf; omega, rfl⟩
    · rw [getSStat_eq R, getTStat_eq R]
      have hspan : Spans (do
          let sstat ← (do let d ← block Z (u32 rec 16); Rd.lift (fromBufferCopy h.cls.SStat d))
          let tstats ← (do let d ← block Z (u32 rec 20); Rd.lift (tstatLoop h.cls.TStat d r.tstat (u32 rec 28) 0))
          let cgroups ← if cg = true then getCStat Z h ⟨h.cls.Record, rec⟩ else Pure.pure []
          Pure.pure (some { record := ⟨h.cls.Record, rec⟩, sstat := sstat, tstats := tstats, cgroups := cgroups } : Option Sample))
          (u32 rec 16 + (u32 rec 20 + ((if cg = true then u32 s.rest 72 + u32 s.rest 84 else 0) + 0))) := by
        apply Spans.bind
        · exact Spans.bind (N := u32 rec 16) (M := 0) (Spans.block Z _) (fun _ => Spans.lift _)
        · intro ss
          apply Spans.bind
          · exact Spans.bind (N := u32 rec 20) (M := 0) (Spans.block Z _) (fun _ => Spans.lift _)
          · intro ts
            cases cg with
            | false => exact Spans.bind (N := 0) (M := 0) (Spans.pure _) (fun _ => Spans.pure _)
            | true =>
              obtain ⟨t, n, c1, c2, c3, c4⟩ := cstat_some R
              obtain ⟨-, -, hsz⟩ := R.csmall n c2
              have p72 : u32 rec 72 = u32 s.rest 72 := by rw [hrec]; exact u32_pad _ _ _ (by omega)
              have p84 : u32 rec 84 = u32 s.rest 84 := by rw [hrec]; exact u32_pad _ _ _ (by omega)
              dsimp only
              rw [if_pos rfl, if_pos rfl, getCStat_eq R Z rec c1, p72, p84]
              refine Spans.bind (M := 0) ?_ (fun _ => Spans.pure _)
              exact Spans.bind (N := u32 s.rest 72) (M := u32 s.rest 84) (Spans.block Z _)
                (fun _ => Spans.bind (N := u32 s.rest 84) (M := 0) (Spans.block Z _) (fun _ => Spans.lift _))
      obtain ⟨n, hn, e⟩ := hspan (s.skip r.record)
      refine ⟨r.record + n, ?_, ?_⟩
      · unfold spanOf; omega
      · rw [← Stream.skip_skip, ← e]

/-! ## Files that grow -/

theorem slice_append (a e : Bytes) (k n : Nat) (hk : k ≤ a.length) :
    ∃ e', ((a ++ e).drop k).take n = (a.drop k).take n ++ e' := by
  rw [List.drop_append_of_le_length hk, List.take_append]; exact ⟨_, rfl⟩

theorem slice_pos {a d : Bytes} {k n : Nat} (hnil : Z [] = none) (hz : Z ((a.drop k).take n) = some d) :
    k < a.length ∧ 0 < n := by
  constructor
  · apply Classical.byContradiction
    intro h
    rw [List.drop_eq_nil_of_le (by omega), List.take_nil, hnil] at hz; cases hz
  · apply Classical.byContradiction
    intro h
    rw [Nat.le_zero.mp (Nat.not_lt.mp h), List.take_zero, hnil] at hz; cases hz

/-- What yielding implies about the bytes present. -/
theorem got_size {h : Header} {r cg} {s s' : Stream} {x : Sample} (hnil : Z [] = none) (G : Got Z h r cg s x s') :
    r.record + 2 ≤ s.rest.length ∧ ∃ n, r.record + 2 ≤ n ∧ n ≤ s.rest.length ∧ s' = s.adv n := by
  obtain ⟨d1, z1, -⟩ := G.sstat
  obtain ⟨d2, z2, -⟩ := G.tstats
  have h1 := slice_pos hnil z1
  have h2 := slice_pos hnil z2
  refine ⟨by omega, _, ?_, ?_, G.after⟩ <;> (try split) <;> omega

theorem got_grow {h : Header} {r v cg} (R : Ready h r v cg) (hnil : Z [] = none)
    (happ : ∀ b e d, Z b = some d → Z (b ++ e) = some d) {s s' t : Stream} {x : Sample} {e : Bytes}
    (G : Got Z h r cg s x s') (ht : t.rest = s.rest ++ e) (hp : t.short = none) :
    ∃ t', Got Z h r cg t x t' ∧ (t'.rest = s'.rest ++ e ∨ s'.rest = []) ∧ t'.short = none := by
  obtain ⟨⟨rec, i2, hxr⟩, hnz, ⟨d1, z1, f1⟩, ⟨d2, z2, f2⟩, hcg, hafter, ha⟩ := G
  have l1 := slice_pos hnil z1
  have l2 := slice_pos hnil z2
  have hsm := R.small
  have q16 : u32 t.rest 16 = u32 s.rest 16 := by rw [ht, u32_append_left _ _ _ (by omega)]
  have q20 : u32 t.rest 20 = u32 s.rest 20 := by rw [ht, u32_append_left _ _ _ (by omega)]
  have q28 : u32 t.rest 28 = u32 s.rest 28 := by rw [ht, u32_append_left _ _ _ (by omega)]
  have ext : ∀ k n d, k < s.rest.length → Z ((s.rest.drop k).take n) = some d → Z ((t.rest.drop k).take n) = some d := by
    intro k n d hk hz
    obtain ⟨e', he'⟩ := slice_append s.rest e k n (by omega)
    rw [ht, he']; exact happ _ _ _ hz
  have hrest : ∀ N, (t.skip N).rest = (s.skip N).rest ++ e ∨ (s.skip N).rest = [] := by
    intro N
    rw [Stream.skip_rest, Stream.skip_rest, ht]
    by_cases hN : N ≤ s.rest.length
    · exact .inl (List.drop_append_of_le_length hN)
    · exact .inr (List.drop_eq_nil_of_le (by omega))
  subst hafter
  cases cg with
  | false =>
    refine ⟨t.skip (r.record + u32 s.rest 16 + u32 s.rest 20), ⟨⟨rec, ?_, hxr⟩, by rw [q16]; exact hnz,
      ⟨d1, by rw [q16]; exact ext _ _ _ l1.1 z1, f1⟩, ⟨d2, by rw [q16, q20]; exact ext _ _ _ l2.1 z2, by rw [q28]; exact f2⟩, hcg,
      by simp [q16, q20], .inl hp⟩, ?_, hp⟩
    · rw [i2, ht, List.take_append_of_le_length (by omega), List.length_append]
      congr 2; omega
    · simpa using hrest (r.record + u32 s.rest 16 + u32 s.rest 20)
  | true =>
    obtain ⟨y, d3, d4, c1, z3, z4, f4⟩ := hcg
    have l3 := slice_pos hnil z3
    have l4 := slice_pos hnil z4
    obtain ⟨y', n, c1', c2, c3, c4⟩ := cstat_some R
    obtain ⟨-, -, hsz⟩ := R.csmall n c2
    have q10 : u16 t.rest 10 = u16 s.rest 10 := by rw [ht, u16_append_left _ _ _ (by omega)]
    have q72 : u32 t.rest 72 = u32 s.rest 72 := by rw [ht, u32_append_left _ _ _ (by omega)]
    have q84 : u32 t.rest 84 = u32 s.rest 84 := by rw [ht, u32_append_left _ _ _ (by omega)]
    refine ⟨t.skip (r.record + u32 s.rest 16 + u32 s.rest 20 + (u32 s.rest 72 + u32 s.rest 84)),
      ⟨⟨rec, ?_, hxr⟩, by rw [q16]; exact hnz,
      ⟨d1, by rw [q16]; exact ext _ _ _ l1.1 z1, f1⟩, ⟨d2, by rw [q16, q20]; exact ext _ _ _ l2.1 z2, by rw [q28]; exact f2⟩, ?_,
      by simp [q16, q20, q72, q84], .inl hp⟩, ?_, hp⟩
    · rw [i2, ht, List.take_append_of_le_length (by omega), List.length_append]
      congr 2; omega
    · rw [if_pos rfl]
      exact ⟨y, d3, d4, c1, by rw [q16, q20, q72]; exact ext _ _ _ l3.1 z3,
        by rw [q16, q20, q72, q84]; exact ext _ _ _ l4.1 z4, by rw [q10]; exact f4⟩
    · simpa using hrest (r.record + u32 s.rest 16 + u32 s.rest 20 + (u32 s.rest 72 + u32 s.rest 84))

theorem runLoop_grow {h : Header} {r v cg} (R : Ready h r v cg) (hnil : Z [] = none)
    (happ : ∀ b e d, Z b = some d → Z (b ++ e) = some d) (rot rot' : Bool) : ∀ (n : Nat) {s t : Stream} {e : Bytes},
    t.rest = s.rest ++ e → s.short = none → t.short = none →
    (runLoop Z rot h v n s).1 <+: (runLoop Z rot' h v n t).1
  | 0, _, _, _, _, _, _ => by simp [runLoop]
  | n + 1, s, t, e, ht, hs, hp => by
    rw [runLoop]
    rcases hr : readSample Z h v s with ⟨er | x, s'⟩
    · simp
    · cases x with
      | none => simp
      | some x =>
        have G := readSample_some R hr
        obtain ⟨t', G', hrel, hp'⟩ := got_grow R hnil happ G ht hp
        rw [runLoop, readSample_of_got R G']
        dsimp only
        rw [List.prefix_cons_inj]
        have hs' : s'.short = none := by rw [G.after]; exact hs
        rcases hrel with h1 | h1
        · exact runLoop_grow R hnil happ rot rot' n h1 hs' hp'
        · rw [runLoop_eof R Z rot h1 hs']; exact List.nil_prefix

/-! ## Damaged containers -/

/-- On a damaged container a step raises the container's error, or does exactly what it does on the intact one. -/
def Sim {α} (m : Rd α) : Prop := ∀ (ex : Exc) (s t : Stream) (e : Bytes), s.short = some ex → t.rest = s.rest ++ e →
  (m s).1 = .error ex ∨ ∃ n, n ≤ s.rest.length ∧ (m s).2 = s.adv n ∧ m t = ((m s).1, t.adv n)

theorem Sim.lift {α} (x : Except Exc α) : Sim (Rd.lift x) := fun _ _ _ _ _ _ => .inr ⟨0, Nat.zero_le _, rfl, rfl⟩
theorem Sim.raise {α} (x : Exc) : Sim (Rd.raise x : Rd α) := fun _ _ _ _ _ _ => .inr ⟨0, Nat.zero_le _, rfl, rfl⟩
theorem Sim.pure {α} (x : α) : Sim (Pure.pure x : Rd α) := fun _ _ _ _ _ _ => .inr ⟨0, Nat.zero_le _, rfl, rfl⟩

theorem Sim.read (n : Nat) : Sim (Stream.read n) := by
  intro ex s t e hs ht
  by_cases h : n ≤ s.rest.length
  · refine .inr ⟨n, h, ?_, ?_⟩
    · unfold Stream.read; rw [if_pos h]; rfl
    · unfold Stream.read
      rw [if_pos h, if_pos (by rw [ht, List.length_append]; omega), ht, List.take_append_of_le_length h]; rfl
  · left; rw [Stream.read_raise (by omega) hs]

theorem Sim.bind {α β} {m : Rd α} {f : α → Rd β} (hm : Sim m) (hf : ∀ a, Sim (f a)) : Sim (m >>= f) := by
  intro ex s t e hs ht
  rw [Rd.bind_eq, Rd.bind_eq]
  rcases hm ex s t e hs ht with h | ⟨n, hn, h1, h2⟩
  · left
    rcases hr : m s with ⟨e' | a, s1⟩
    · rw [hr] at h; cases h; rfl
    · rw [hr] at h; cases h
  · rcases hr : m s with ⟨e' | a, s1⟩
    · rw [hr] at h1 h2; exact .inr ⟨n, hn, h1, by rw [h2]⟩
    · rw [hr] at h1 h2
      rw [h2]
      dsimp only at h1 h2 ⊢
      have ht' : (t.adv n).rest = s1.rest ++ e := by
        rw [h1, Stream.rest_adv, Stream.rest_adv, ht, List.drop_append_of_le_length hn]
      rcases hf a ex s1 (t.adv n) e (by rw [h1]; exact hs) ht' with h3 | ⟨k, hk, h4, h5⟩
      · exact .inl h3
      · refine .inr ⟨n + k, ?_, ?_, ?_⟩
        · rw [h1, Stream.rest_adv, List.length_drop] at hk; omega
        · rw [h4, h1, Stream.adv_adv]
        · rw [h5, Stream.adv_adv]

theorem Sim.readinto (n : Nat) : Sim (Stream.readinto n) := by
  unfold Stream.readinto
  exact Sim.bind (Sim.read n) (fun _ => Sim.pure _)

theorem Sim.getRecord (h : Header) : Sim (getRecord h) := Sim.bind (Sim.readinto _) (fun _ => Sim.pure _)

theorem Sim.getSStat (Z : Zlib) (h : Header) (x : Inst) : Sim (getSStat Z h x) :=
  Sim.bind (Sim.lift _) fun _ => Sim.bind (Sim.read _) fun _ => Sim.bind (Sim.lift _) fun _ => Sim.lift _

theorem Sim.getTStat (Z : Zlib) (h : Header) (x : Inst) : Sim (getTStat Z h x) :=
  Sim.bind (Sim.lift _) fun _ => Sim.bind (Sim.read _) fun _ => Sim.bind (Sim.lift _) fun _ =>
    Sim.bind (Sim.lift _) fun _ => Sim.bind (Sim.lift _) fun _ => Sim.bind (Sim.lift _) fun _ => Sim.lift _

theorem Sim.getCStat (Z : Zlib) (h : Header) (x : Inst) : Sim (getCStat Z h x) := by
  unfold Atop.getCStat
  refine Sim.bind (Sim.lift _) fun _ => Sim.bind (Sim.read _) fun _ => Sim.bind (Sim.lift _) fun _ =>
    Sim.bind (Sim.lift _) fun _ => Sim.bind (Sim.read _) fun _ => Sim.bind (Sim.lift _) fun _ =>
    Sim.bind (Sim.lift _) fun _ => Sim.bind (Sim.lift _) fun _ => ?_
  cases h.cls.CStat with
  | some t => exact Sim.lift _
  | none =>
    dsimp only
    split
    · exact Sim.pure _
    · exact Sim.raise _

theorem Sim.readSample (Z : Zlib) (h : Header) (v : Nat × Nat) : Sim (readSample Z h v) := by
  unfold Atop.readSample
  refine Sim.bind (Sim.getRecord h) fun _ => Sim.bind (Sim.lift _) fun n => ?_
  split
  · exact Sim.pure _
  · refine Sim.bind (Sim.getSStat Z h _) fun _ => Sim.bind (Sim.getTStat Z h _) fun _ => ?_
    split
    · exact Sim.bind (Sim.getCStat Z h _) fun _ => Sim.pure _
    · exact Sim.pure _

theorem Sim.getHeader (c : Bool) : Sim (getHeader c) := by
  unfold Atop.getHeader
  refine Sim.bind (Sim.readinto _) fun _ => Sim.bind (Sim.lift _) fun _ => ?_
  split
  · exact Sim.raise _
  · refine Sim.bind (Sim.lift _) fun _ => Sim.bind (Sim.lift _) fun _ => ?_
    split
    · exact Sim.bind (Sim.lift _) fun _ => Sim.pure _
    · exact Sim.pure _

theorem runLoop_sim (h : Header) (v : Nat × Nat) (rot : Bool) : ∀ (n : Nat) (ex : Exc) {s t : Stream} {e : Bytes},
    s.short = some ex → t.rest = s.rest ++ e →
    ((runLoop Z rot h v n s).1 = (runLoop Z rot h v n t).1 ∧ (runLoop Z rot h v n s).2.1 = (runLoop Z rot h v n t).2.1) ∨
    ((runLoop Z rot h v n s).1 <+: (runLoop Z rot h v n t).1 ∧ (runLoop Z rot h v n s).2.1 = endOf rot ex)
  | 0, _, _, _, _, _, _ => by simp [runLoop]
  | n + 1, ex, s, t, e, hs, ht => by
    rw [runLoop, runLoop]
    rcases Sim.readSample Z h v ex s t e hs ht with h1 | ⟨k, hk, h2, h3⟩
    · rcases hr : readSample Z h v s with ⟨e' | a, s1⟩
      · rw [hr] at h1; cases h1; exact .inr ⟨List.nil_prefix, rfl⟩
      · rw [hr] at h1; cases h1
    · rw [h3]
      rcases hr : readSample Z h v s with ⟨e' | a, s1⟩
      · exact .inl ⟨rfl, rfl⟩
      · rw [hr] at h2
        dsimp only at h2
        cases a with
        | none => exact .inl ⟨rfl, rfl⟩
        | some x =>
          dsimp only
          have ht' : (t.adv k).rest = s1.rest ++ e := by
            rw [h2, Stream.rest_adv, Stream.rest_adv, ht, List.drop_append_of_le_length hk]
          rcases runLoop_sim h v rot n ex (by rw [h2]; exact hs) ht' with ⟨a1, a2⟩ | ⟨a1, a2⟩
          · exact .inl ⟨by rw [a1], a2⟩
          · exact .inr ⟨by rw [List.prefix_cons_inj]; exact a1, a2⟩

end Atop

namespace Atop
open Spec
variable {Z : Zlib}

/-- Everything about a header `get_header` returned. -/
theorem getHeader_ok {s s' : Stream} {h : Header} (hg : getHeader true s = (.ok h, s')) :
    h = ⟨classFor (first480 s.rest), first480 s.rest, some (major (first480 s.rest), minor (first480 s.rest))⟩ ∧
    Ready h (usedRow (first480 s.rest)) (major (first480 s.rest), minor (first480 s.rest)) (readsCGroups (first480 s.rest)) ∧
    Accepts (first480 s.rest) ∧ s' = s.skip 480 ∧ (s.short = none ∨ 480 ≤ s.rest.length) := by
  rw [getHeader_eq] at hg
  obtain ⟨r1, r2, -⟩ := readinto_skip 480 s
  rcases hr : Stream.readinto 480 s with ⟨e | hb, s1⟩
  · rw [hr] at hg; cases hg
  · rw [hr] at hg r1 r2
    obtain ⟨h1, h2⟩ := r2 hb rfl
    have h1 : hb = first480 s.rest := h1
    dsimp only at hg r1
    injection hg with h3 h4
    rw [h1] at h3
    obtain ⟨a, b, c⟩ := headerOf_ready (by simp [first480]; omega) h3
    exact ⟨a, c, b, by rw [← h4, r1], h2⟩

/-- With a header that `get_header` returned, the iteration is the loop. -/
theorem generate_some {s s' : Stream} {h : Header} (hg : getHeader true s = (.ok h, s')) (rot : Bool) (max : Int) (t : Stream) :
    ∃ r v cg, Ready h r v cg ∧ generateStatistics Z (some h) rot max t = runLoop Z rot h v max.toNat t := by
  obtain ⟨h1, R, -, -, -⟩ := getHeader_ok hg
  have := major_lt (first480 s.rest)
  exact ⟨_, _, _, R, generate_ready R (by rw [h1]) (by show major (first480 s.rest) < 256; omega) (minor_lt _) Z rot max t⟩

/-- Letting the iterator read the header is reading it first. -/
theorem generate_none (rot : Bool) (max : Int) (s : Stream) :
    generateStatistics Z none rot max s = match getHeader true s with
      | (.error e, s') => ([], .raised e, s')
      | (.ok h, s') => generateStatistics Z (some h) rot max s' := by
  rcases hg : getHeader true s with ⟨e | h, s'⟩
  · unfold generateStatistics; rw [hg]
  · conv => lhs; unfold generateStatistics
    rw [hg]; rfl

end Atop
