import Verif.Proofs.Norm
import Verif.RealInst

/-!
# Properties C12-C14: weighted norms and tolerances

`K` is any ordered field with a square root (`ExactLaws`), in particular `ℝ` (`realLaws`).
-/

set_option autoImplicit false
set_option linter.unusedSectionVars false

namespace Verif.Props

open Verif Verif.Proofs.Norm

universe u
variable {K : Type u} [Field K] [LinearOrder K] [IsStrictOrderedRing K] [ExactParams K] [ExactLaws K] {n : Nat}

/-- C12a. The textbook formula: the nonnegative number whose square is `(Σ (x_i w_i)²) / n`. -/
theorem c12_norm_formula (x w : Vec n K) :
    0 ≤ normWrms x w ∧ normWrms x w ^ 2 = (∑ i, (x i * w i) ^ 2) / n := by
  refine ⟨normWrms_nonneg x w, ?_⟩
  rw [pow_two]; exact normWrms_sq x w

/-- C12b. Absolute homogeneity. -/
theorem c12_norm_homogeneous (c : K) (x w : Vec n K) : normWrms (fun i => c * x i) w = |c| * normWrms x w := by
  rw [normWrms_eq]
  apply sqrt_eq_iff (ms_nonneg _ _) (mul_nonneg (abs_nonneg c) (normWrms_nonneg x w))
  have : |c| * normWrms x w * (|c| * normWrms x w) = (|c| * |c|) * (normWrms x w * normWrms x w) := by ring
  rw [this, normWrms_sq, abs_mul_abs_self, mul_div_assoc', Finset.mul_sum]
  congr 1
  apply Finset.sum_congr rfl
  intro i _
  ring

/-- C12c. Triangle inequality. -/
theorem c12_norm_triangle (x y w : Vec n K) : normWrms (fun i => x i + y i) w ≤ normWrms x w + normWrms y w := by
  rw [normWrms_eq]
  apply sqrt_le_of_sq (ms_nonneg _ _) (add_nonneg (normWrms_nonneg x w) (normWrms_nonneg y w))
  have hx := normWrms_sq x w
  have hy := normWrms_sq y w
  set a := normWrms x w with ha
  set b := normWrms y w with hb
  have ha0 : 0 ≤ a := normWrms_nonneg x w
  have hb0 : 0 ≤ b := normWrms_nonneg y w
  rcases Nat.eq_zero_or_pos n with hn | hn
  · subst hn; simp; exact mul_self_nonneg _
  have hn' : (0 : K) < n := by exact_mod_cast hn
  have hexp : (∑ i, ((x i + y i) * w i) ^ 2) / (n : K) =
      (∑ i, (x i * w i) ^ 2) / n + 2 * ((∑ i, (x i * w i) * (y i * w i)) / n) + (∑ i, (y i * w i) ^ 2) / n := by
    rw [mul_div_assoc', ← add_div, ← add_div, Finset.mul_sum, ← Finset.sum_add_distrib, ← Finset.sum_add_distrib]
    congr 1
    apply Finset.sum_congr rfl
    intro i _
    ring
  rw [hexp, ← hx, ← hy]
  have hcs : (∑ i, (x i * w i) * (y i * w i)) / (n : K) ≤ a * b := by
    have h1 := Finset.sum_mul_sq_le_sq_mul_sq Finset.univ (fun i => x i * w i) (fun i => y i * w i)
    set S := ∑ i, (x i * w i) * (y i * w i) with hS
    have h2 : ∑ i, (x i * w i) ^ 2 = a * a * n := by rw [hx]; field_simp
    have h3 : ∑ i, (y i * w i) ^ 2 = b * b * n := by rw [hy]; field_simp
    rw [h2, h3] at h1
    rw [div_le_iff₀ hn']
    have h4 : S ^ 2 ≤ (a * b * n) ^ 2 := by calc
      S ^ 2 ≤ a * a * n * (b * b * n) := h1
      _ = (a * b * n) ^ 2 := by ring
    exact abs_le_of_sq_le_sq' h4 (by positivity) |>.2
  nlinarith

/-- C12d. Monotone in the absolute values of the components. -/
theorem c12_norm_monotone (x y w : Vec n K) (h : ∀ i, |x i| ≤ |y i|) : normWrms x w ≤ normWrms y w := by
  rw [normWrms_eq, normWrms_eq]
  apply sqrt_mono (ms_nonneg _ _)
  apply div_le_div_of_nonneg_right _ (Nat.cast_nonneg n)
  apply Finset.sum_le_sum
  intro i _
  rw [mul_pow, mul_pow]
  exact mul_le_mul_of_nonneg_right (sq_le_sq.2 (h i)) (sq_nonneg _)

/-- C12e. With nonzero weights the norm vanishes only for the zero vector. -/
theorem c12_norm_definite (x w : Vec n K) (hw : ∀ i, w i ≠ 0) : normWrms x w = 0 ↔ ∀ i, x i = 0 := by
  have hsq := normWrms_sq x w
  constructor
  · intro h i
    have hn : (n : K) ≠ 0 := by
      have : n ≠ 0 := fun h0 => by subst h0; exact i.elim0
      exact_mod_cast this
    rw [h, mul_zero, eq_comm, div_eq_zero_iff, or_iff_left hn,
      Finset.sum_eq_zero_iff_of_nonneg (fun i _ => sq_nonneg _)] at hsq
    have := hsq i (Finset.mem_univ i)
    rcases mul_eq_zero.1 (pow_eq_zero_iff (two_ne_zero) |>.1 this) with h | h
    · exact h
    · exact absurd h (hw i)
  · intro h
    have : normWrms x w * normWrms x w = 0 := by rw [hsq]; simp [h]
    exact mul_self_eq_zero.1 this

/-- C13. The masked norm ignores components with `id = false`, is at most the unmasked norm, and equals it when
nothing is masked. -/
theorem c13_masked_norm (x y w w' : Vec n K) (id : Fin n → Bool) :
    ((∀ i, id i = true → x i = y i ∧ w i = w' i) → normWrmsMasked x w id = normWrmsMasked y w' id) ∧
    normWrmsMasked x w id ≤ normWrms x w ∧
    ((∀ i, id i = true) → normWrmsMasked x w id = normWrms x w) := by
  refine ⟨?_, ?_, ?_⟩
  · intro h
    rw [normWrmsMasked_eq, normWrmsMasked_eq, normWrms_eq, normWrms_eq]
    congr 2
    apply Finset.sum_congr rfl
    intro i _
    cases hi : id i
    · simp [hi]
    · simp [hi, (h i hi).1, (h i hi).2]
  · rw [normWrmsMasked_eq]
    apply c12_norm_monotone
    intro i
    cases id i <;> simp
  · intro h
    rw [normWrmsMasked_eq]
    simp [h]

/-- The absolute tolerance a tolerance control applies to component `i`. -/
def atolOf : TolControl n K → Fin n → K
  | .ss _ a, _ => a
  | .sv _ a, i => a i

/-- The relative tolerance of a tolerance control. -/
def rtolOf : TolControl n K → K
  | .ss r _ => r
  | .sv r _ => r

/-- C14. For `rtol ≥ 0` and positive absolute tolerances: all weights are positive; a vector within the tolerances
componentwise has norm at most one; a vector of norm at most one is within `√n` times the tolerances (`s` is the
square root of `n`). -/
theorem c14_tolerance_weights (tc : TolControl n K) (y x : Vec n K) (hr : 0 ≤ rtolOf tc) (ha : ∀ i, 0 < atolOf tc i) :
    (∀ i, 0 < tc.ewtSet y i) ∧
    ((∀ i, |x i| ≤ rtolOf tc * |y i| + atolOf tc i) → normWrms x (tc.ewtSet y) ≤ 1) ∧
    (∀ s : K, 0 ≤ s → s * s = n → normWrms x (tc.ewtSet y) ≤ 1 →
      ∀ i, |x i| ≤ s * (rtolOf tc * |y i| + atolOf tc i)) := by
  have hT : ∀ i, 0 < rtolOf tc * |y i| + atolOf tc i := fun i =>
    add_pos_of_nonneg_of_pos (mul_nonneg hr (abs_nonneg _)) (ha i)
  have hw : ∀ i, tc.ewtSet y i = (rtolOf tc * |y i| + atolOf tc i)⁻¹ := by
    intro i; cases tc <;> simp [TolControl.ewtSet, rtolOf, atolOf]
  refine ⟨fun i => by rw [hw]; exact inv_pos.2 (hT i), ?_, ?_⟩
  · intro h
    rw [normWrms_eq]
    apply sqrt_le_of_sq (ms_nonneg _ _) zero_le_one
    rcases Nat.eq_zero_or_pos n with hn | hn
    · subst hn; simp
    have hn' : (0 : K) < n := by exact_mod_cast hn
    rw [div_le_iff₀ hn', one_mul, one_mul]
    calc ∑ i, (x i * tc.ewtSet y i) ^ 2 ≤ ∑ _i : Fin n, (1 : K) := by
          apply Finset.sum_le_sum
          intro i _
          rw [hw, ← div_eq_mul_inv, div_pow, div_le_one (pow_pos (hT i) 2)]
          exact sq_le_sq.2 ((h i).trans (le_abs_self _))
      _ = n := by simp
  · intro s hs hsn h i
    have hsq := normWrms_sq x (tc.ewtSet y)
    have h1 : normWrms x (tc.ewtSet y) * normWrms x (tc.ewtSet y) ≤ 1 := by
      nlinarith [normWrms_nonneg x (tc.ewtSet y)]
    have hn' : (0 : K) < n := by
      have : 0 < n := Nat.pos_of_ne_zero fun h0 => by subst h0; exact i.elim0
      exact_mod_cast this
    rw [hsq, div_le_iff₀ hn', one_mul] at h1
    have h2 : (x i * tc.ewtSet y i) ^ 2 ≤ n :=
      (Finset.single_le_sum (f := fun i => (x i * tc.ewtSet y i) ^ 2) (fun i _ => sq_nonneg _)
        (Finset.mem_univ i)).trans h1
    rw [hw, ← div_eq_mul_inv, div_pow, div_le_iff₀ (pow_pos (hT i) 2), ← hsn] at h2
    have h3 : |x i| ^ 2 ≤ (s * (rtolOf tc * |y i| + atolOf tc i)) ^ 2 := by
      rw [sq_abs]; calc
        x i ^ 2 ≤ s * s * (rtolOf tc * |y i| + atolOf tc i) ^ 2 := h2
        _ = _ := by ring
    exact abs_le_of_sq_le_sq h3 (mul_nonneg hs (hT i).le) |>.trans' (by rw [abs_abs])

/-! ### Concrete instances over `ℝ` -/

/-- Hypotheses of C14 over the reals: the Roberts tolerances, `s = √3`. -/
noncomputable example : (∀ i, 0 < (TolControl.sv (1e-4 : ℝ) ![1e-8, 1e-14, 1e-6]).ewtSet ![1, 0, 0] i) :=
  (c14_tolerance_weights (TolControl.sv (1e-4 : ℝ) ![1e-8, 1e-14, 1e-6]) ![1, 0, 0] ![0, 0, 0] (by norm_num [rtolOf])
    (by intro i; fin_cases i <;> norm_num [atolOf])).1

example : (0 : ℝ) ≤ Real.sqrt 3 ∧ Real.sqrt 3 * Real.sqrt 3 = ((3 : ℕ) : ℝ) :=
  ⟨Real.sqrt_nonneg 3, by rw [Real.mul_self_sqrt] <;> norm_num⟩

/-- The unit test of /repo/src/norm_rms.rs: constant -0.5 and weight 0.5 give 0.25, for every positive length. -/
example (n : Nat) (hn : 0 < n) : normWrms (fun _ : Fin n => (-(1 / 2) : ℝ)) (fun _ => 1 / 2) = 1 / 4 := by
  rw [normWrms_eq]
  have : ((n : ℕ) : ℝ) ≠ 0 := by exact_mod_cast hn.ne'
  apply sqrt_eq_iff (ms_nonneg _ _) (by norm_num)
  simp
  field_simp
  norm_num

end Verif.Props
