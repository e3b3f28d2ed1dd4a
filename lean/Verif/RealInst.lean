import Verif.Scalar
import Mathlib.Analysis.SpecialFunctions.Pow.Real

/-! The exact instance over the real numbers: `sqrt` and `powf` are the real square root and real power, `epsilon` is
that of binary64. -/

namespace Verif

noncomputable instance realParams : ExactParams ℝ where
  eps := 1 / 4503599627370496
  sqrt := Real.sqrt
  powf := fun b e => b ^ e

instance realLaws : ExactLaws ℝ where
  eps_pos := by norm_num [ExactParams.eps]
  eps_small := by norm_num [ExactParams.eps]
  sqrt_nonneg := Real.sqrt_nonneg
  sqrt_sq := fun _ h => Real.mul_self_sqrt h
  powf_pos := fun _ _ h => Real.rpow_pos_of_pos h _

end Verif
