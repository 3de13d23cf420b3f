import Verif.Model.CTypes
import Verif.Model.Utf8
import Verif.Spec.Utf8
/-!
# The decoder model against the UTF-8 specification
-/

set_option linter.unusedSimpArgs false

namespace Atop
open Spec

theorem toNat_ofNat {n : Nat} (h : n < 256) : (UInt8.ofNat n).toNat = n := by
  simp [UInt8.toNat_ofNat', Nat.mod_eq_of_lt h]

theorem ofNat_toNat (b : UInt8) {n : Nat} (h : n = b.toNat) : UInt8.ofNat n = b := by subst h; simp

theorem ev1 (b0 : UInt8) (r : Bytes) (h : b0.toNat < 0x80) : utf8Events (b0 :: r) = some b0.toNat :: utf8Events r := by
  rw [utf8Events.eq_def]; simp only [if_pos h]

theorem ev2 (b0 b1 : UInt8) (r : Bytes) (h : 0xC2 ≤ b0.toNat) (h' : b0.toNat < 0xE0) (h1 : isCont b1 = true) :
    utf8Events (b0 :: b1 :: r) = some ((b0.toNat - 0xC0) * 64 + (b1.toNat - 0x80)) :: utf8Events r := by
  rw [utf8Events.eq_def]
  simp only [if_neg (show ¬ b0.toNat < 0x80 by omega), if_neg (show ¬ b0.toNat < 0xC2 by omega), if_pos h', h1, if_true]

theorem ev3 (b0 b1 b2 : UInt8) (r : Bytes) (h : 0xE0 ≤ b0.toNat) (h' : b0.toNat < 0xF0) (h1 : cont3 b0.toNat b1 = true)
    (h2 : isCont b2 = true) : utf8Events (b0 :: b1 :: b2 :: r) =
      some ((b0.toNat - 0xE0) * 4096 + (b1.toNat - 0x80) * 64 + (b2.toNat - 0x80)) :: utf8Events r := by
  rw [utf8Events.eq_def]
  simp only [if_neg (show ¬ b0.toNat < 0x80 by omega), if_neg (show ¬ b0.toNat < 0xC2 by omega),
    if_neg (show ¬ b0.toNat < 0xE0 by omega), if_pos h', h1, h2, if_true]

theorem ev4 (b0 b1 b2 b3 : UInt8) (r : Bytes) (h : 0xF0 ≤ b0.toNat) (h' : b0.toNat < 0xF5) (h1 : cont4 b0.toNat b1 = true)
    (h2 : isCont b2 = true) (h3 : isCont b3 = true) : utf8Events (b0 :: b1 :: b2 :: b3 :: r) =
      some ((b0.toNat - 0xF0) * 262144 + (b1.toNat - 0x80) * 4096 + (b2.toNat - 0x80) * 64 + (b3.toNat - 0x80)) ::
        utf8Events r := by
  rw [utf8Events.eq_def]
  simp only [if_neg (show ¬ b0.toNat < 0x80 by omega), if_neg (show ¬ b0.toNat < 0xC2 by omega),
    if_neg (show ¬ b0.toNat < 0xE0 by omega), if_neg (show ¬ b0.toNat < 0xF0 by omega), if_pos h', h1, h2, h3, if_true]

theorem events_encodeCp {c : Nat} (hc : scalar c) (r : Bytes) : utf8Events (encodeCp c ++ r) = some c :: utf8Events r := by
  unfold scalar at hc
  unfold encodeCp
  by_cases h1 : c < 0x80
  · rw [if_pos h1]
    simp only [List.cons_append, List.nil_append]
    rw [ev1 _ _ (by rw [toNat_ofNat (by omega)]; exact h1), toNat_ofNat (by omega)]
  rw [if_neg h1]
  by_cases h2 : c < 0x800
  · rw [if_pos h2]
    simp only [List.cons_append, List.nil_append]
    have t0 : (UInt8.ofNat (0xC0 + c / 64)).toNat = 0xC0 + c / 64 := toNat_ofNat (by omega)
    have t1 : (UInt8.ofNat (0x80 + c % 64)).toNat = 0x80 + c % 64 := toNat_ofNat (by omega)
    rw [ev2 _ _ _ (by rw [t0]; omega) (by rw [t0]; omega) (by simp [isCont, t1]; omega), t0, t1]
    exact congrArg (fun x => some x :: utf8Events r) (by omega)
  rw [if_neg h2]
  by_cases h3 : c < 0x10000
  · rw [if_pos h3]
    simp only [List.cons_append, List.nil_append]
    have t0 : (UInt8.ofNat (0xE0 + c / 4096)).toNat = 0xE0 + c / 4096 := toNat_ofNat (by omega)
    have t1 : (UInt8.ofNat (0x80 + c / 64 % 64)).toNat = 0x80 + c / 64 % 64 := toNat_ofNat (by omega)
    have t2 : (UInt8.ofNat (0x80 + c % 64)).toNat = 0x80 + c % 64 := toNat_ofNat (by omega)
    rw [ev3 _ _ _ _ (by rw [t0]; omega) (by rw [t0]; omega) (by simp [cont3, isCont, t0, t1]; omega)
      (by simp [isCont, t2]; omega), t0, t1, t2]
    exact congrArg (fun x => some x :: utf8Events r) (by omega)
  rw [if_neg h3]
  · simp only [List.cons_append, List.nil_append]
    have t0 : (UInt8.ofNat (0xF0 + c / 262144)).toNat = 0xF0 + c / 262144 := toNat_ofNat (by omega)
    have t1 : (UInt8.ofNat (0x80 + c / 4096 % 64)).toNat = 0x80 + c / 4096 % 64 := toNat_ofNat (by omega)
    have t2 : (UInt8.ofNat (0x80 + c / 64 % 64)).toNat = 0x80 + c / 64 % 64 := toNat_ofNat (by omega)
    have t3 : (UInt8.ofNat (0x80 + c % 64)).toNat = 0x80 + c % 64 := toNat_ofNat (by omega)
    rw [ev4 _ _ _ _ _ (by rw [t0]; omega) (by rw [t0]; omega) (by simp [cont4, isCont, t0, t1]; omega)
      (by simp [isCont, t2]; omega) (by simp [isCont, t3]; omega), t0, t1, t2, t3]
    exact congrArg (fun x => some x :: utf8Events r) (by omega)

/-- One step of the decoder: a character starts here, or a byte and some continuation bytes are reported. -/
theorem events_step (b0 : UInt8) (r0 : Bytes) :
    (∃ c r, scalar c ∧ b0 :: r0 = encodeCp c ++ r ∧ utf8Events (b0 :: r0) = some c :: utf8Events r) ∨
    (∃ cs r, r0 = cs ++ r ∧ (∀ x ∈ cs, isCont x = true) ∧ utf8Events (b0 :: r0) = none :: utf8Events r) := by
  have hb := b0.toNat_lt
  by_cases h1 : b0.toNat < 0x80
  · refine .inl ⟨b0.toNat, r0, .inl (by omega), ?_, ev1 _ _ h1⟩
    rw [encodeCp, if_pos h1, ofNat_toNat b0 rfl]; rfl
  by_cases h2 : b0.toNat < 0xC2
  · refine .inr ⟨[], r0, rfl, by simp, ?_⟩
    rw [utf8Events.eq_def]; simp only [if_neg h1, if_pos h2]
  by_cases h3 : b0.toNat < 0xE0
  · cases r0 with
    | nil => exact .inr ⟨[], [], rfl, by simp, by rw [utf8Events.eq_def]; simp only [if_neg h1, if_neg h2, if_pos h3, utf8Events]⟩
    | cons b1 r1 =>
      by_cases c1 : isCont b1 = true
      · refine .inl ⟨_, r1, ?_, ?_, ev2 _ _ _ (by omega) h3 c1⟩
        · simp [isCont] at c1; unfold scalar; omega
        · simp [isCont] at c1
          rw [encodeCp, if_neg (by omega), if_pos (by omega), ofNat_toNat b0 (by omega), ofNat_toNat b1 (by omega)]; rfl
      · exact .inr ⟨[], b1 :: r1, rfl, by simp, by
          rw [utf8Events.eq_def]; simp only [if_neg h1, if_neg h2, if_pos h3, if_neg c1]⟩
  by_cases h4 : b0.toNat < 0xF0
  · cases r0 with
    | nil => exact .inr ⟨[], [], rfl, by simp, by
        rw [utf8Events.eq_def]; simp only [if_neg h1, if_neg h2, if_neg h3, if_pos h4, utf8Events]⟩
    | cons b1 r1 =>
      by_cases c1 : cont3 b0.toNat b1 = true
      · have i1 : isCont b1 = true := by simp [cont3] at c1; exact c1.1.1
        cases r1 with
        | nil => exact .inr ⟨[b1], [], rfl, by simp [i1], by
            rw [utf8Events.eq_def]; simp only [if_neg h1, if_neg h2, if_neg h3, if_pos h4, if_pos c1, utf8Events]⟩
        | cons b2 r2 =>
          by_cases c2 : isCont b2 = true
          · have hb1 := b1.toNat_lt
            refine .inl ⟨_, r2, ?_, ?_, ev3 _ _ _ _ (by omega) h4 c1 c2⟩
            · simp [cont3, isCont] at c1 c2; unfold scalar; omega
            · simp [cont3, isCont] at c1 c2
              rw [encodeCp, if_neg (by omega), if_neg (by omega), if_pos (by omega), ofNat_toNat b0 (by omega),
                ofNat_toNat b1 (by omega), ofNat_toNat b2 (by omega)]; rfl
          · exact .inr ⟨[b1], b2 :: r2, rfl, by simp [i1], by
              rw [utf8Events.eq_def]; simp only [if_neg h1, if_neg h2, if_neg h3, if_pos h4, if_pos c1, if_neg c2]⟩
      · exact .inr ⟨[], b1 :: r1, rfl, by simp, by
          rw [utf8Events.eq_def]; simp only [if_neg h1, if_neg h2, if_neg h3, if_pos h4, if_neg c1]⟩
  by_cases h5 : b0.toNat < 0xF5
  · cases r0 with
    | nil => exact .inr ⟨[], [], rfl, by simp, by
        rw [utf8Events.eq_def]; simp only [if_neg h1, if_neg h2, if_neg h3, if_neg h4, if_pos h5, utf8Events]⟩
    | cons b1 r1 =>
      by_cases c1 : cont4 b0.toNat b1 = true
      · have i1 : isCont b1 = true := by simp [cont4] at c1; exact c1.1.1
        cases r1 with
        | nil => exact .inr ⟨[b1], [], rfl, by simp [i1], by
            rw [utf8Events.eq_def]; simp only [if_neg h1, if_neg h2, if_neg h3, if_neg h4, if_pos h5, if_pos c1, utf8Events]⟩
        | cons b2 r2 =>
          by_cases c2 : isCont b2 = true
          · cases r2 with
            | nil => exact .inr ⟨[b1, b2], [], rfl, by simp [i1, c2], by
                rw [utf8Events.eq_def]
                simp only [if_neg h1, if_neg h2, if_neg h3, if_neg h4, if_pos h5, if_pos c1, if_pos c2, utf8Events]⟩
            | cons b3 r3 =>
              by_cases c3 : isCont b3 = true
              · refine .inl ⟨_, r3, ?_, ?_, ev4 _ _ _ _ _ (by omega) h5 c1 c2 c3⟩
                · simp [cont4, isCont] at c1 c2 c3; unfold scalar; omega
                · simp [cont4, isCont] at c1 c2 c3
                  rw [encodeCp, if_neg (by omega), if_neg (by omega), if_neg (by omega), ofNat_toNat b0 (by omega),
                    ofNat_toNat b1 (by omega), ofNat_toNat b2 (by omega), ofNat_toNat b3 (by omega)]; rfl
              · exact .inr ⟨[b1, b2], b3 :: r3, rfl, by simp [i1, c2], by
                  rw [utf8Events.eq_def]
                  simp only [if_neg h1, if_neg h2, if_neg h3, if_neg h4, if_pos h5, if_pos c1, if_pos c2, if_neg c3]⟩
          · exact .inr ⟨[b1], b2 :: r2, rfl, by simp [i1], by
              rw [utf8Events.eq_def]
              simp only [if_neg h1, if_neg h2, if_neg h3, if_neg h4, if_pos h5, if_pos c1, if_neg c2]⟩
      · exact .inr ⟨[], b1 :: r1, rfl, by simp, by
          rw [utf8Events.eq_def]; simp only [if_neg h1, if_neg h2, if_neg h3, if_neg h4, if_pos h5, if_neg c1]⟩
  · exact .inr ⟨[], r0, rfl, by simp, by
      rw [utf8Events.eq_def]; simp only [if_neg h1, if_neg h2, if_neg h3, if_neg h4, if_neg h5]⟩

theorem events_cont (x : UInt8) (r : Bytes) (h : isCont x = true) : utf8Events (x :: r) = none :: utf8Events r := by
  simp [isCont] at h
  rw [utf8Events.eq_def]; simp only [if_neg (show ¬ x.toNat < 0x80 by omega), if_pos (show x.toNat < 0xC2 by omega)]

theorem decodeIgnore_char {c : Nat} (hc : scalar c) (r : Bytes) : decodeIgnore (encodeCp c ++ r) = c :: decodeIgnore r := by
  unfold decodeIgnore; rw [events_encodeCp hc]; rfl

theorem decodeIgnore_conts (cs r : Bytes) (h : ∀ x ∈ cs, isCont x = true) : decodeIgnore (cs ++ r) = decodeIgnore r := by
  induction cs with
  | nil => rfl
  | cons x cs ih =>
    have := ih (fun y hy => h y (by simp [hy]))
    rw [← this]
    show (utf8Events (x :: (cs ++ r))).filterMap id = _
    rw [events_cont x _ (h x (by simp))]; rfl

theorem decodeIgnore_drop {x : UInt8} {rest : Bytes} (h : ¬ ∃ c r, scalar c ∧ x :: rest = encodeCp c ++ r) :
    decodeIgnore (x :: rest) = decodeIgnore rest := by
  rcases events_step x rest with ⟨c, r, hc, he, -⟩ | ⟨cs, r, rfl, hcs, he⟩
  · exact absurd ⟨c, r, hc, he⟩ h
  · rw [decodeIgnore_conts cs r hcs]
    unfold decodeIgnore; rw [he]; rfl

theorem encodeCp_pos (c : Nat) : 0 < (encodeCp c).length := by unfold encodeCp; (repeat' split) <;> simp

theorem decodes_decodeIgnore : ∀ (n : Nat) (b : Bytes), b.length ≤ n → Decodes b (decodeIgnore b) := by
  intro n
  induction n with
  | zero => intro b hb; cases b with | nil => exact .nil | cons => simp at hb
  | succ n ih =>
    intro b hb
    cases b with
    | nil => exact .nil
    | cons x rest =>
      simp only [List.length_cons] at hb
      by_cases h : ∃ c r, scalar c ∧ x :: rest = encodeCp c ++ r
      · obtain ⟨c, r, hc, he⟩ := h
        rw [he, decodeIgnore_char hc]
        refine .char hc (ih r ?_)
        have := congrArg List.length he
        simp only [List.length_cons, List.length_append] at this
        have := encodeCp_pos c
        omega
      · rw [decodeIgnore_drop h]
        exact .drop h (ih rest (by omega))

theorem decodeIgnore_iff (b : Bytes) (s : PyStr) : decodeIgnore b = s ↔ Decodes b s := by
  constructor
  · rintro rfl; exact decodes_decodeIgnore b.length b (Nat.le_refl _)
  · intro h
    induction h with
    | nil => rfl
    | char hc _ ih => rw [decodeIgnore_char hc, ih]
    | drop hd _ ih => rw [decodeIgnore_drop hd, ih]

theorem events_encodeText (s : PyStr) (hs : ∀ c ∈ s, scalar c) (r : Bytes) :
    utf8Events (encodeText s ++ r) = s.map some ++ utf8Events r := by
  induction s with
  | nil => rfl
  | cons c s ih =>
    show utf8Events ((encodeCp c ++ encodeText s) ++ r) = _
    rw [List.append_assoc, events_encodeCp (hs c (by simp)), ih (fun x hx => hs x (by simp [hx]))]; rfl

theorem filterMap_some (s : PyStr) : (s.map some).filterMap id = s := by
  induction s with
  | nil => rfl
  | cons c s ih => simp [ih]

theorem decodeIgnore_encodeText (s : PyStr) (hs : ∀ c ∈ s, scalar c) : decodeIgnore (encodeText s) = s := by
  have := events_encodeText s hs []
  simp only [List.append_nil] at this
  unfold decodeIgnore
  rw [this]
  show ((s.map some) ++ []).filterMap id = s
  rw [List.append_nil, filterMap_some]

theorem decodeStrict_encodeText (s : PyStr) (hs : ∀ c ∈ s, scalar c) : decodeStrict (encodeText s) = .ok s := by
  have := events_encodeText s hs []
  rw [List.append_nil] at this
  unfold decodeStrict
  rw [this]
  show (if ((s.map some) ++ []).all Option.isSome = true then Except.ok (((s.map some) ++ []).filterMap id) else _) = _
  rw [List.append_nil, if_pos (by simp), filterMap_some]

theorem events_all_some : ∀ (n : Nat) (b : Bytes), b.length ≤ n → (utf8Events b).all Option.isSome = true →
    ∃ s, (∀ c ∈ s, scalar c) ∧ b = encodeText s := by
  intro n
  induction n with
  | zero => intro b hb _; cases b with | nil => exact ⟨[], by simp, rfl⟩ | cons => simp at hb
  | succ n ih =>
    intro b hb ha
    cases b with
    | nil => exact ⟨[], by simp, rfl⟩
    | cons x rest =>
      simp only [List.length_cons] at hb
      rcases events_step x rest with ⟨c, r, hc, he, hev⟩ | ⟨cs, r, rfl, hcs, hev⟩
      · rw [hev] at ha
        simp only [List.all_cons, Option.isSome_some, Bool.true_and] at ha
        have := congrArg List.length he
        simp only [List.length_cons, List.length_append] at this
        have := encodeCp_pos c
        obtain ⟨s, hs, rfl⟩ := ih r (by omega) ha
        refine ⟨c :: s, ?_, he⟩
        intro d hd
        rcases List.mem_cons.mp hd with rfl | hd
        · exact hc
        · exact hs d hd
      · rw [hev] at ha; simp at ha

/-- Strict decoding succeeds exactly on encodings of texts. -/
theorem decodeStrict_iff (b : Bytes) (s : PyStr) :
    decodeStrict b = .ok s ↔ (∀ c ∈ s, scalar c) ∧ b = encodeText s := by
  constructor
  · intro h
    unfold decodeStrict at h
    split at h
    · rename_i ha
      obtain ⟨s', hs', rfl⟩ := events_all_some b.length b (Nat.le_refl _) ha
      have h2 := decodeIgnore_encodeText s' hs'
      unfold decodeIgnore at h2
      rw [h2] at h
      injection h with h; subst h
      exact ⟨hs', rfl⟩
    · cases h
  · rintro ⟨hs, rfl⟩; exact decodeStrict_encodeText s hs

theorem decodeStrict_error (b : Bytes) (e : Exc) : decodeStrict b = .error e ↔
    e = .unicodeDecodeError ∧ ¬ ∃ s, (∀ c ∈ s, scalar c) ∧ b = encodeText s := by
  constructor
  · intro h
    refine ⟨?_, ?_⟩
    · unfold decodeStrict at h; split at h <;> cases h; rfl
    · rintro ⟨s, hs, rfl⟩; rw [decodeStrict_encodeText s hs] at h; cases h
  · rintro ⟨rfl, hn⟩
    cases h : decodeStrict b with
    | ok s => exact absurd ⟨s, (decodeStrict_iff b s).mp h⟩ hn
    | error e => unfold decodeStrict at h; split at h <;> cases h; rfl

theorem decodes_scalar {b : Bytes} {s : PyStr} (h : Decodes b s) : (∀ c ∈ s, scalar c) ∧ (encodeText s).Sublist b := by
  induction h with
  | nil => exact ⟨by simp, List.Sublist.refl _⟩
  | @char c rest s hc _ ih =>
    refine ⟨?_, ?_⟩
    · intro d hd
      rcases List.mem_cons.mp hd with rfl | hd
      · exact hc
      · exact ih.1 d hd
    · show (encodeCp c ++ encodeText s).Sublist _
      exact (List.Sublist.refl _).append ih.2
  | drop _ _ ih => exact ⟨ih.1, ih.2.cons _⟩

theorem cstr_eq (b : Bytes) : cstr b = beforeNul b := by
  unfold cstr
  induction b with
  | nil => rfl
  | cons x r ih =>
    rw [List.takeWhile_cons, beforeNul, ih]
    by_cases h : x = 0
    · subst h; rfl
    · have : (x != 0) = true := by simpa using h
      rw [if_pos this, if_neg h]

theorem beforeNul_nonul {b : Bytes} (h : 0 ∉ b) : beforeNul b = b := by
  induction b with
  | nil => rfl
  | cons x r ih => simp at h; rw [beforeNul, if_neg (Ne.symm h.1), ih h.2]

theorem beforeNul_nul (a r : Bytes) (h : 0 ∉ a) : beforeNul (a ++ 0 :: r) = a := by
  induction a with
  | nil => rfl
  | cons x a ih => simp at h; rw [List.cons_append, beforeNul, if_neg (Ne.symm h.1), ih h.2]

theorem encodeText_nonul {s : PyStr} (hs : ∀ c ∈ s, scalar c) (h0 : 0 ∉ s) : (0 : UInt8) ∉ encodeText s := by
  intro h
  obtain ⟨c, hc, hm⟩ := List.mem_flatMap.mp h
  have hsc := hs c hc
  have hc0 : c ≠ 0 := by rintro rfl; exact h0 hc
  have key : ∀ n, 0 < n → n < 256 → (0 : UInt8) ≠ UInt8.ofNat n := by
    intro n h1 h2 he
    have := congrArg UInt8.toNat he
    rw [toNat_ofNat h2] at this
    simp at this; omega
  unfold scalar at hsc
  unfold encodeCp at hm
  (repeat' split at hm) <;> simp only [List.mem_cons, List.not_mem_nil, or_false] at hm
  · exact key _ (by omega) (by omega) hm
  · rcases hm with hm | hm <;> exact key _ (by omega) (by omega) hm
  · rcases hm with hm | hm | hm <;> exact key _ (by omega) (by omega) hm
  · rcases hm with hm | hm | hm | hm <;> exact key _ (by omega) (by omega) hm

end Atop
