import Verif.Spec.Rounding
import Mathlib.LinearAlgebra.Matrix.Determinant.Basic

/-! # Matrices close to singular ones (independent of the model) -/

set_option autoImplicit false

namespace Verif.Spec

universe v

variable {K : Type v} [Field K] [LinearOrder K] [IsStrictOrderedRing K]

/-- A change of the entries of the `n` by `n` matrix by at most `δ` makes it singular. -/
def NearlySingular (n : Nat) (A : Nat → Nat → K) (δ : K) : Prop :=
  ∃ E : Nat → Nat → K, (∀ i, i < n → ∀ j, j < n → |E i j| ≤ δ) ∧
    (Matrix.of fun i j : Fin n => A i j + E i j).det = 0

/-- The relative distance within which Gaussian elimination with partial pivoting in arithmetic with the unit roundoff `u` may take
an `n` by `n` matrix for a singular one: `γ(n+1) n g^n` up to factors near one, with the growth `g` near two. -/
def blur (u : K) (n : Nat) : K := gamma u (n + 1) * (n * (((1 - u) ^ 2)⁻¹ * ((1 - u)⁻¹ * (1 + ((1 - u) ^ 3)⁻¹)) ^ n))

end Verif.Spec
