import Verif.Proofs.Bytes
import Verif.Proofs.Utf8
import Verif.Spec.Dict
/-!
# The integer reader against the encoder
-/

namespace Atop
open Spec

theorem encodeInt_succ (w : Nat) (n : Int) :
    encodeInt (w + 1) n = UInt8.ofNat (n % 256).toNat :: encodeInt w (n / 256) := by
  unfold encodeInt
  rw [List.range_succ_eq_map, List.map_cons, List.map_map]
  congr 1
  · simp
  · apply List.map_congr_left
    intro i _
    simp only [Function.comp]
    congr 3
    rw [Int.ediv_ediv_of_nonneg (by decide)]
    congr 1
    rw [Nat.succ_eq_add_one, Nat.pow_succ, Int.natCast_mul, Int.mul_comm]
    rfl

theorem encodeInt_length (w : Nat) (n : Int) : (encodeInt w n).length = w := by simp [encodeInt]

theorem encodeInt_leNat : ∀ (b : Bytes), encodeInt b.length (leNat b) = b
  | [] => rfl
  | x :: r => by
    have hx := x.toNat_lt
    rw [List.length_cons, encodeInt_succ, leNat]
    congr 1
    · apply ofNat_toNat; omega
    · rw [← encodeInt_leNat r]
      simp only [encodeInt_length]
      congr 1
      rw [encodeInt_leNat r]; omega

theorem pow_256 (w : Nat) : 256 ^ w = 2 ^ (8 * w) := by rw [Nat.pow_mul]

theorem encodeInt_add (w : Nat) : ∀ (n k : Int), encodeInt w (n + k * (256 ^ w : Nat)) = encodeInt w n := by
  induction w with
  | zero => intro n k; rfl
  | succ w ih =>
    intro n k
    have e : n + k * (256 ^ (w + 1) : Nat) = n + 256 * (k * (256 ^ w : Nat)) := by
      rw [Nat.pow_succ, Int.natCast_mul]
      generalize ((256 ^ w : Nat) : Int) = M
      congr 1
      rw [Int.mul_comm M, Int.mul_left_comm]; rfl
    rw [e, encodeInt_succ, encodeInt_succ, ← ih (n / 256) k]
    congr 2
    · congr 1; omega
    · omega

theorem leNat_encodeInt (w : Nat) : ∀ (n : Int), 0 ≤ n → n < (256 ^ w : Nat) → (leNat (encodeInt w n) : Int) = n := by
  induction w with
  | zero => intro n h1 h2; simp at h2; have : n = 0 := by omega
            subst this; rfl
  | succ w ih =>
    intro n h1 h2
    rw [encodeInt_succ, leNat]
    have h3 : n / 256 < (256 ^ w : Nat) := by
      rw [Nat.pow_succ, Int.natCast_mul] at h2
      exact Int.ediv_lt_of_lt_mul (by decide) h2
    have := ih (n / 256) (by omega) h3
    rw [Int.natCast_add, Int.natCast_mul, this, toNat_ofNat (by omega)]
    omega

/-- The integer read from `w` bytes is the one value of the type's range whose encoding they are. -/
theorem leInt_iff {b : Bytes} {w : Nat} (hb : b.length = w) (hw : 0 < w) (s : Bool) (n : Int) :
    leInt s b = n ↔ inRange w s n ∧ b = encodeInt w n := by
  have hlt := leNat_lt b
  have henc := encodeInt_leNat b
  rw [hb] at hlt henc
  have hP : (2 : Nat) ^ (8 * w) = 2 * 2 ^ (8 * w - 1) := by
    rw [← Nat.pow_succ']; congr 1; omega
  have hPP := pow_256 w
  generalize hH : (2 : Nat) ^ (8 * w - 1) = H at *
  generalize hM : (256 : Nat) ^ w = M at *
  unfold leInt inRange
  rw [hb, hH, hP]
  have hsub : encodeInt w ((leNat b : Int) - (2 * H : Nat)) = b := by
    have := encodeInt_add w (leNat b) (-1)
    rw [hM, hPP] at this
    rw [← henc]
    conv => rhs; rw [henc, ← henc, ← this]
    congr 1; rw [henc]; omega
  constructor
  · rintro rfl
    by_cases hc : (s && decide (H ≤ leNat b)) = true
    · rw [if_pos hc]
      simp at hc
      rw [if_pos hc.1]
      exact ⟨by omega, hsub.symm⟩
    · rw [if_neg hc]
      simp at hc
      refine ⟨?_, henc.symm⟩
      split
      · have := hc ‹_›; omega
      · omega
  · rintro ⟨hr, rfl⟩
    have key : ∀ m : Int, 0 ≤ m → m < M → encodeInt w m = encodeInt w n → (leNat (encodeInt w n) : Int) = m := by
      intro m h1 h2 h3
      rw [← h3]; exact leNat_encodeInt w m h1 (by rw [hM]; exact h2)
    by_cases hs : s = true
    · rw [if_pos hs] at hr
      by_cases hn : n < 0
      · have := key (n + M) (by omega) (by omega) (by
          have := encodeInt_add w n 1; rw [hM] at this; rwa [Int.one_mul] at this)
        rw [if_pos (by simp [hs]; omega)]; omega
      · have := key n (by omega) (by omega) rfl
        rw [if_neg (by simp; omega)]; exact this
    · rw [if_neg hs] at hr
      have := key n (by omega) (by omega) rfl
      rw [if_neg (by simp [hs])]; exact this

theorem leNat_inj {a b : Bytes} (hl : a.length = b.length) (h : leNat a = leNat b) : a = b := by
  rw [← encodeInt_leNat a, ← encodeInt_leNat b, hl, h]

theorem leInt_inj {a b : Bytes} {s : Bool} (hl : a.length = b.length) (h : leInt s a = leInt s b) : a = b := by
  cases a with
  | nil => cases b with | nil => rfl | cons => simp at hl
  | cons x r =>
    have h1 := (leInt_iff (s := s) (n := leInt s (x :: r)) rfl (by simp)).mp rfl
    have h2 := (leInt_iff (s := s) (n := leInt s b) hl.symm (by simp)).mp rfl
    rw [h1.2, h2.2, h]

theorem kept_keep (c : Int) (cap : Nat) : kept c cap = if c < 0 then (c + cap).toNat else min c.toNat cap := by
  unfold kept
  by_cases h : 0 ≤ c
  · rw [if_pos h, if_neg (by omega)]
  · rw [if_neg h, if_pos (by omega)]; omega

theorem pyContains_iff (needle : PyStr) : ∀ s : PyStr, pyContains needle s = true ↔ needle <:+: s
  | [] => by
    rw [pyContains]
    constructor
    · intro h; cases needle with | nil => exact List.nil_infix | cons => simp at h
    · intro h; have := List.eq_nil_of_infix_nil h; subst this; rfl
  | c :: cs => by
    rw [pyContains, Bool.or_eq_true, pyContains_iff needle cs, List.isPrefixOf_iff_prefix, List.infix_cons_iff]

theorem isFuture_iff (n : PyStr) : isFuture n = true ↔ mentionsFuture n := pyContains_iff _ _

end Atop
