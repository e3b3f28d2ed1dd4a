import Verif.Model.Norm
import Mathlib.Algebra.Order.BigOperators.Ring.Finset
import Mathlib.Algebra.BigOperators.Field
import Mathlib.Algebra.BigOperators.Fin
import Mathlib.Tactic.FieldSimp
import Mathlib.Tactic.Positivity

set_option autoImplicit false
set_option linter.unusedSectionVars false
set_option linter.unusedSimpArgs false
set_option linter.unusedVariables false

namespace Verif.Proofs.Norm

open Verif

universe u
variable {K : Type u} [Field K] [LinearOrder K] [IsStrictOrderedRing K] [ExactParams K] {n : Nat}

theorem vsum_eq (f : Vec n K) : vsum f = ∑ i, f i := by
  unfold vsum
  induction n with
  | zero => simp
  | succ n ih => rw [Fin.foldl_succ_last, ih (fun i => f i.castSucc), Fin.sum_univ_castSucc]

variable [ExactLaws K]

theorem sqrt_nn (x : K) : 0 ≤ ExactParams.sqrt x := ExactLaws.sqrt_nonneg x
theorem sqrt_mul_self {x : K} (h : 0 ≤ x) : ExactParams.sqrt x * ExactParams.sqrt x = x := ExactLaws.sqrt_sq x h

theorem sqrt_le_of_sq {x y : K} (hx : 0 ≤ x) (hy : 0 ≤ y) (h : x ≤ y * y) : ExactParams.sqrt x ≤ y := by
  by_contra hc
  push Not at hc
  have := sqrt_mul_self hx
  nlinarith [sqrt_nn x]

theorem le_sqrt_of_sq {x y : K} (hx : 0 ≤ x) (hy : 0 ≤ y) (h : y * y ≤ x) : y ≤ ExactParams.sqrt x := by
  by_contra hc
  push Not at hc
  have := sqrt_mul_self hx
  nlinarith [sqrt_nn x]

theorem sqrt_mono {x y : K} (hx : 0 ≤ x) (h : x ≤ y) : ExactParams.sqrt x ≤ ExactParams.sqrt y :=
  sqrt_le_of_sq hx (sqrt_nn y) (by rw [sqrt_mul_self (hx.trans h)]; exact h)

theorem sqrt_eq_iff {x y : K} (hx : 0 ≤ x) (hy : 0 ≤ y) (h : y * y = x) : ExactParams.sqrt x = y :=
  le_antisymm (sqrt_le_of_sq hx hy h.ge) (le_sqrt_of_sq hx hy h.le)

/-- Mean square. -/
theorem normWrms_eq (x w : Vec n K) : normWrms x w = ExactParams.sqrt ((∑ i, (x i * w i) ^ 2) / n) := by
  unfold normWrms
  rw [vsum_eq]
  simp [pow_two]

theorem ms_nonneg (x w : Vec n K) : 0 ≤ (∑ i, (x i * w i) ^ 2) / (n : K) :=
  div_nonneg (Finset.sum_nonneg fun i _ => sq_nonneg _) (Nat.cast_nonneg n)

theorem normWrms_nonneg (x w : Vec n K) : 0 ≤ normWrms x w := by
  rw [normWrms_eq]; exact sqrt_nn _

theorem normWrms_sq (x w : Vec n K) : normWrms x w * normWrms x w = (∑ i, (x i * w i) ^ 2) / n := by
  rw [normWrms_eq, sqrt_mul_self (ms_nonneg x w)]

theorem normWrmsMasked_eq (x w : Vec n K) (id : Fin n → Bool) :
    normWrmsMasked x w id = normWrms (fun i => if id i then x i else 0) w := by
  have : (fun i => (x i * w i * (if id i then 1 else 0)) * (x i * w i * (if id i then 1 else 0))) =
      fun i => ((if id i then x i else 0) * w i) * ((if id i then x i else 0) * w i) := by
    funext i
    cases id i <;> simp
  unfold normWrmsMasked normWrms
  simp only
  rw [this]

end Verif.Proofs.Norm
