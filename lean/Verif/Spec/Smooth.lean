import Verif.Spec.History
import Mathlib.Analysis.Calculus.IteratedDeriv.Defs
import Mathlib.Algebra.Order.Hom.Ring

/-!
# Smooth functions and accepted points

The numbers of the model are embedded in the reals by `φ` (the identity, if they are the reals).
-/

set_option autoImplicit false

namespace Verif.Spec

open Finset

universe u

section
variable {n : Nat} {K : Type u} [Field K] [LinearOrder K] [IsStrictOrderedRing K] (φ : K →+*o ℝ)

/-- Time of the point number `m` of a list of points (0 is the most recent one). -/
def timeAt (pts : List (K × Vec n K)) (m : ℕ) : K := (pts.getD m (0, fun _ => 0)).1

/-- The function `Y` passes through the first `m` points. -/
def Passes (Y : Fin n → ℝ → ℝ) (m : ℕ) (pts : List (K × Vec n K)) : Prop :=
  ∀ p ∈ pts.take m, ∀ i, φ (p.2 i) = Y i (φ p.1)

/-- The first `m` points have times in `[a, b]`. -/
def TimesIn (a b : ℝ) (m : ℕ) (pts : List (K × Vec n K)) : Prop := ∀ p ∈ pts.take m, φ p.1 ∈ Set.Icc a b

/-- The components of `Y` are `m` times continuously differentiable, with derivative number `m` bounded by `M` on
`[a, b]`. -/
structure SmoothBound (Y : Fin n → ℝ → ℝ) (m : ℕ) (a b : ℝ) (M : Fin n → ℝ) : Prop where
  smooth : ∀ i, ContDiff ℝ m (Y i)
  bound : ∀ i, ∀ ξ ∈ Set.Icc a b, |iteratedDeriv m (Y i) ξ| ≤ M i

/-- `|t - t_0| ... |t - t_k|`, with the times `t_m` of the points. -/
noncomputable def distProd (t : ℝ) (k : ℕ) (pts : List (K × Vec n K)) : ℝ :=
  ∏ m ∈ range (k + 1), |t - φ (timeAt pts m)|

/-- The same without the most recent point: `|t - t_1| ... |t - t_k|`. -/
noncomputable def distProd1 (t : ℝ) (k : ℕ) (pts : List (K × Vec n K)) : ℝ :=
  ∏ m ∈ Ico 1 (k + 1), |t - φ (timeAt pts m)|

/-- How much interpolation at `t` amplifies an error of the point number `m` (of `k + 1`). -/
noncomputable def amplification (t : ℝ) (k : ℕ) (pts : List (K × Vec n K)) (m : ℕ) : ℝ :=
  ∏ j ∈ (range (k + 1)).erase m, |(t - φ (timeAt pts j)) / (φ (timeAt pts m) - φ (timeAt pts j))|

end

end Verif.Spec
