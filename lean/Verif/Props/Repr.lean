import Verif.Proofs.Dumps
/-!
# Floats in the printed text
-/

namespace Atop
open Spec

/-- **C62** A finite float is printed as exactly one text: the literal with the sign of the float, in Python's shape,
whose value is the shortest decimal that reads as the float, the closest one of that length, the even one of two
equally close ones. -/
theorem C62_float {b : Nat} (hb : b / 2 ^ 23 % 256 ≠ 255) (pretty : Bool) (t : PyStr) :
    dumps pretty (.float b) = .ok t ↔ ∃ n : Num, n.Valid ∧ PythonFloat b n ∧ t = n.text := by
  obtain ⟨n, h1, h2, -, h4, -⟩ := floatRepr_spec hb
  have e : dumps pretty (.float b) = .ok (floatRepr b) := by
    unfold dumps dumpsAt floatStr f32ExpField
    rw [if_neg hb]
  rw [e, h2]
  constructor
  · intro h
    injection h with h
    exact ⟨n, h1, h4, h.symm⟩
  · rintro ⟨n', h1', h4', rfl⟩
    rw [pythonFloat_unique h1 h1' h4 h4']

/-- **C62** Anything that is not finite is printed as one of Python's three words. -/
theorem C62_special {b : Nat} (hb : b / 2 ^ 23 % 256 = 255) (pretty : Bool) (t : PyStr) :
    dumps pretty (.float b) = .ok t ↔ t = specialWord b := by
  have e : dumps pretty (.float b) = .ok (specialWord b) := by
    unfold dumps dumpsAt floatStr f32ExpField
    rw [if_pos hb]
    unfold specialWord f32Frac f32Neg
    simp only [decide_eq_true_eq]
  rw [e]
  exact ⟨fun h => by injection h with h; exact h.symm, fun h => by rw [h]⟩

/-- A half: printed positionally. -/
example : dumps true (.float 0x3F000000) = .ok py!"0.5" := by decide +kernel
/-- Negative zero keeps its sign. -/
example : dumps true (.float 0x80000000) = .ok py!"-0.0" := by decide +kernel
/-- Half way between two decimals of sixteen digits: the even one is printed. -/
example : dumps false (.float 0x38D10000) = .ok py!"9.965896606445312e-05" := by decide +kernel
/-- The largest binary32. -/
example : dumps false (.float 0x7F7FFFFF) = .ok py!"3.4028234663852886e+38" := by decide +kernel
/-- The smallest one. -/
example : dumps false (.float 1) = .ok py!"1.401298464324817e-45" := by decide +kernel
/-- The first number in exponent notation. -/
example : dumps false (.float 0x5A0E1BCA) = .ok py!"1.0000000272564224e+16" := by decide +kernel

end Atop
