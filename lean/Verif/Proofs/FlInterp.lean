import Verif.Spec.FlInterp
import Verif.Spec.Correct
import Verif.Proofs.Rounding
import Verif.Model.Interp

/-!
# Rounding errors of the dense output
-/

set_option autoImplicit false
set_option linter.unusedSectionVars false
set_option linter.unusedSimpArgs false
set_option linter.unusedVariables false

namespace Verif.FlInterp

open Verif Verif.Spec Verif.Spec.Newton Verif.Proofs Finset Polynomial

universe u v

section exact
variable {K : Type v} [Field K]

/-- The factor number `i` of the basis. -/
def fct (psi : Nat → K) (x : K) (i : Nat) : K := (x + ago psi i) / psi i

/-- A summand of the derivative of the basis. -/
def smd (psi : Nat → K) (x : K) (j m : Nat) : K := (∏ i ∈ (range j).erase m, fct psi x i) / psi m

theorem smd_succ {psi : Nat → K} {x : K} {j m : Nat} (h : m < j) : smd psi x (j + 1) m = smd psi x j m * fct psi x j := by
  unfold smd
  rw [range_add_one, erase_insert_of_ne (by omega), prod_insert (by simp)]
  ring

theorem smd_last {psi : Nat → K} {x : K} {j : Nat} : smd psi x (j + 1) j = (∏ i ∈ range j, fct psi x i) / psi j := by
  unfold smd
  rw [range_add_one, erase_insert (by simp)]

theorem basis_eval (psi : Nat → K) (j : Nat) (x : K) : (basis psi j).eval x = ∏ i ∈ range j, fct psi x i := by
  unfold basis fct
  rw [eval_prod]
  refine prod_congr rfl fun i _ => ?_
  simp only [eval_mul, eval_C, eval_add, eval_X]
  rw [div_eq_mul_inv]; ring

theorem basis_slope (psi : Nat → K) (j : Nat) (x : K) :
    (derivative (basis psi j)).eval x = ∑ m ∈ range j, smd psi x j m := by
  induction j with
  | zero => simp [basis]
  | succ j ih =>
    have hb : basis psi (j + 1) = basis psi j * (C (psi j)⁻¹ * (X + C (ago psi j))) := by
      unfold basis; rw [prod_range_succ]
    rw [hb, derivative_mul, eval_add, eval_mul, eval_mul (p := basis psi j), ih, basis_eval, sum_range_succ, smd_last, sum_mul]
    congr 1
    · refine sum_congr rfl fun m hm => ?_
      rw [smd_succ (by simpa using hm)]
      congr 1
      simp only [eval_mul, eval_C, eval_add, eval_X]
      unfold fct; rw [div_eq_mul_inv]; ring
    · rw [div_eq_mul_inv]
      congr 1
      simp

theorem absSlope_eq [LinearOrder K] (psi : Nat → K) (j : Nat) (x : K) :
    absSlope psi j x = ∑ m ∈ range j, |smd psi x j m| := rfl

end exact

section fl
variable {F : Type u} {K : Type v} [Scalar F] [Field K] [LinearOrder K] [IsStrictOrderedRing K] [S : StdModel F K] {n : Nat}

local prefix:max "♯" => StdModel.val (F := F) (K := K)
local notation "μ" => (StdModel.u (F := F) (K := K))

/-- The coefficients of `get_solution`, after `m` passes. -/
structure CoefInv (psi : Nat → F) (x : K) (k m : Nat) (l : SolCoef F) : Prop where
  gam : m < k → ∃ f, Fac μ 2 f ∧ ♯l.gam = fct (fun i => ♯(psi i)) x m * f
  c : ♯l.c = ♯(l.cvals m)
  cvals : ∀ j, j ≤ m → ∃ f, Fac μ (3 * j) f ∧ ♯(l.cvals j) = (∏ i ∈ range j, fct (fun i => ♯(psi i)) x i) * f
  c0 : l.cvals 0 = 1
  d : ∃ f : Nat → K, (∀ p, Fac μ (4 * m) (f p)) ∧ ♯l.d = ∑ p ∈ range m, smd (fun i => ♯(psi i)) x m p * f p
  dvals : ∀ j, j < m → ∃ f : Nat → K, (∀ p, Fac μ (4 * (j + 1)) (f p)) ∧
    ♯(l.dvals j) = ∑ p ∈ range (j + 1), smd (fun i => ♯(psi i)) x (j + 1) p * f p

theorem solCoefs_inv (psi : Nat → F) (delt : F) (k : Nat) (h0 : ∀ i, i < k → ♯(psi i) ≠ 0) :
    CoefInv psi (♯delt) k k (solCoefs psi delt k) := by
  have U0 := u0 (F := F) (K := K); have U1 := u1 (F := F) (K := K)
  unfold solCoefs
  refine forUp_inv (fun m l => CoefInv psi (♯delt) k m l) ?_ ?_
  · refine ⟨fun h => ?_, rfl, fun j hj => ?_, rfl, ⟨fun _ => 1, fun _ => .one U0 U1 _, ?_⟩, fun j hj => by omega⟩
    · obtain ⟨f, hf, e⟩ := fl_div delt (psi 0) (h0 0 h)
      exact ⟨f, hf.mono U0 U1 (by omega), by rw [e]; simp [fct, ago]⟩
    · obtain rfl : j = 0 := by omega
      exact ⟨1, .one U0 U1 _, by simp [upd, S.val_one]⟩
    · simp [S.val_zero]
  · intro m l hm I
    simp only [Nat.add_sub_cancel]
    obtain ⟨fg, hfg, eg⟩ := I.gam hm
    obtain ⟨fc, hfc, ec⟩ := I.cvals m le_rfl
    have ecl : ♯l.c = (∏ i ∈ range m, fct (fun i => ♯(psi i)) (♯delt) i) * fc := by rw [I.c, ec]
    obtain ⟨fd, hfd, ed⟩ := I.d
    obtain ⟨a1, ha1, e1⟩ := fl_mul l.d l.gam
    obtain ⟨a2, ha2, e2⟩ := fl_div l.c (psi m) (h0 m hm)
    obtain ⟨a3, ha3, e3⟩ := fl_add (l.d * l.gam) (l.c / psi m)
    obtain ⟨a4, ha4, e4⟩ := fl_mul l.c l.gam
    have C1 : ∃ f, Fac μ (3 * (m + 1)) f ∧
        ♯(l.c * l.gam) = (∏ i ∈ range (m + 1), fct (fun i => ♯(psi i)) (♯delt) i) * f := by
      refine ⟨fc * fg * a4, ((hfc.mul U0 U1 hfg).mul U0 U1 ha4).mono U0 U1 (by omega), ?_⟩
      rw [e4, ecl, eg, prod_range_succ]; ring
    have D1 : ∃ f : Nat → K, (∀ p, Fac μ (4 * (m + 1)) (f p)) ∧
        ♯(l.d * l.gam + l.c / psi m) = ∑ p ∈ range (m + 1), smd (fun i => ♯(psi i)) (♯delt) (m + 1) p * f p := by
      refine ⟨fun p => if p < m then fd p * fg * a1 * a3 else fc * a2 * a3, fun p => ?_, ?_⟩
      · dsimp only
        split
        · exact ((((hfd p).mul U0 U1 hfg).mul U0 U1 ha1).mul U0 U1 ha3).mono U0 U1 (by omega)
        · exact ((hfc.mul U0 U1 ha2).mul U0 U1 ha3).mono U0 U1 (by omega)
      · rw [e3, e1, e2, ed, eg, ecl, sum_range_succ]
        dsimp only
        rw [if_neg (lt_irrefl m), smd_last, add_mul, sum_mul, sum_mul, sum_mul]
        congr 1
        · refine sum_congr rfl fun p hp => ?_
          have hp : p < m := by simpa using hp
          rw [if_pos hp, smd_succ hp]; ring
        · ring
    refine ⟨fun h => ?_, by simp [upd], fun j hj => ?_, ?_, D1, fun j hj => ?_⟩
    · obtain ⟨b1, hb1, g1⟩ := fl_add delt (psi m)
      obtain ⟨b2, hb2, g2⟩ := fl_div (delt + psi m) (psi (m + 1)) (h0 _ h)
      refine ⟨b1 * b2, hb1.mul U0 U1 hb2, ?_⟩
      show ♯((delt + psi m) / psi (m + 1)) = _
      rw [g2, g1]; simp only [fct, ago]; ring
    · by_cases hj' : j = m + 1
      · subst hj'
        simpa [upd] using C1
      · have := I.cvals j (by omega)
        simpa [upd, hj'] using this
    · simp [upd, I.c0]
    · by_cases hj' : j = m
      · subst hj'
        simpa [upd] using D1
      · have := I.dvals j (by omega)
        simpa [upd, hj'] using this

/-- Sums of products. -/
theorem fl_sum (k : Nat) (c : Nat → F) (x : Nat → Vec n F) (i : Fin n) :
    ∃ f : Nat → K, (∀ j, Fac μ (k + 1) (f j)) ∧
      ♯(forUp k (fun j y => scaledAdd y (c j) (x j)) vzero i) = ∑ j ∈ range k, ♯(c j) * ♯(x j i) * f j := by
  have U0 := u0 (F := F) (K := K); have U1 := u1 (F := F) (K := K)
  induction k with
  | zero => exact ⟨fun _ => 1, fun _ => .one U0 U1 _, by simp [vzero, S.val_zero]⟩
  | succ k ih =>
    obtain ⟨f, hf, e⟩ := ih
    rw [forUp_succ]
    set y := forUp k (fun j y => scaledAdd y (c j) (x j)) vzero
    obtain ⟨a1, h1, e1⟩ := fl_mul (c k) (x k i)
    obtain ⟨a2, h2, e2⟩ := fl_add (y i) (c k * x k i)
    refine ⟨fun j => if j < k then f j * a2 else a1 * a2, fun j => ?_, ?_⟩
    · dsimp only
      split
      · exact ((hf j).mul U0 U1 h2).mono U0 U1 (by omega)
      · exact (h1.mul U0 U1 h2).mono U0 U1 (by omega)
    · show ♯(y i + c k * x k i) = _
      rw [e2, e1, e, sum_range_succ]
      dsimp only
      rw [if_neg (lt_irrefl k), add_mul, sum_mul]
      congr 1
      · refine sum_congr rfl fun p hp => ?_
        rw [if_pos (by simpa using hp)]; ring
      · ring

/-- The value: exactly that of the interpolating polynomial of slightly different differences. -/
theorem solEval_val (h : Hist n F) (delt : F) (k : Nat) (h0 : ∀ i, i < k → ♯(h.psi i) ≠ 0) (i : Fin n) :
    ∃ phi : Nat → K, (∀ j, |phi j - ♯(h.phi j i)| ≤ gamma μ (4 * k + 2) * |♯(h.phi j i)|) ∧
      ♯((solEval h delt k).1 i) = (interp (fun j => ♯(h.psi j)) phi k).eval ♯delt := by
  have U0 := u0 (F := F) (K := K); have U1 := u1 (F := F) (K := K)
  have I := solCoefs_inv (K := K) h.psi delt k h0
  obtain ⟨f, hf, e⟩ := fl_sum (K := K) (k + 1) (solCoefs h.psi delt k).cvals h.phi i
  have hex : ∀ j, ∃ g, Fac μ (4 * k + 2) g ∧ (j ≤ k → ♯((solCoefs h.psi delt k).cvals j) * f j =
      (∏ i ∈ range j, fct (fun i => ♯(h.psi i)) ♯delt i) * g) := by
    intro j
    by_cases hj : j ≤ k
    · obtain ⟨g, hg, eg⟩ := I.cvals j hj
      exact ⟨g * f j, (hg.mul U0 U1 (hf j)).mono U0 U1 (by omega), fun _ => by rw [eg]; ring⟩
    · exact ⟨1, .one U0 U1 _, fun h => absurd h hj⟩
  choose g hg eg using hex
  refine ⟨fun j => ♯(h.phi j i) * g j, fun j => ?_, ?_⟩
  · rw [show ♯(h.phi j i) * g j - ♯(h.phi j i) = (g j - 1) * ♯(h.phi j i) by ring, abs_mul]
    exact mul_le_mul_of_nonneg_right ((hg j).err U0 U1) (abs_nonneg _)
  · show ♯(forUp (k + 1) (fun j y => scaledAdd y ((solCoefs h.psi delt k).cvals j) (h.phi j)) vzero i) = _
    rw [e, interp, eval_finsetSum]
    refine sum_congr rfl fun j hj => ?_
    have hj : j ≤ k := by simpa [Nat.lt_succ_iff] using hj
    rw [eval_mul, eval_C, basis_eval]
    have := eg j hj
    calc ♯((solCoefs h.psi delt k).cvals j) * ♯(h.phi j i) * f j
        = (♯((solCoefs h.psi delt k).cvals j) * f j) * ♯(h.phi j i) := by ring
      _ = _ := by rw [this]; ring

/-- The derivative, up to roundoff. -/
theorem solEval_slope (h : Hist n F) (delt : F) (k : Nat) (h0 : ∀ i, i < k → ♯(h.psi i) ≠ 0) (i : Fin n) :
    |♯((solEval h delt k).2 i) - (derivative (interp (fun j => ♯(h.psi j)) (fun j => ♯(h.phi j i)) k)).eval ♯delt| ≤
      gamma μ (5 * k + 1) * ∑ j ∈ range (k + 1), absSlope (fun j => ♯(h.psi j)) j ♯delt * |♯(h.phi j i)| := by
  have U0 := u0 (F := F) (K := K); have U1 := u1 (F := F) (K := K)
  have I := solCoefs_inv (K := K) h.psi delt k h0
  obtain ⟨f, hf, e⟩ := fl_sum (K := K) k (solCoefs h.psi delt k).dvals (fun j => h.phi (j + 1)) i
  have hder : (derivative (interp (fun j => ♯(h.psi j)) (fun j => ♯(h.phi j i)) k)).eval ♯delt =
      ∑ j ∈ range k, ♯(h.phi (j + 1) i) * ∑ p ∈ range (j + 1), smd (fun j => ♯(h.psi j)) ♯delt (j + 1) p := by
    rw [interp, derivative_sum, eval_finsetSum, sum_range_succ']
    simp only [derivative_mul, derivative_C, zero_mul, zero_add, eval_mul, eval_C, basis_slope]
    simp
  have hs : (solEval h delt k).2 i = forUp k (fun j y => scaledAdd y ((solCoefs h.psi delt k).dvals j) (h.phi (j + 1))) vzero i :=
    rfl
  rw [hs, e, hder, ← sum_sub_distrib, sum_range_succ' _ k, absSlope_eq, mul_add, mul_sum]
  simp only [range_zero, sum_empty, zero_mul, mul_zero, add_zero]
  refine le_trans (abs_sum_le_sum_abs _ _) (sum_le_sum fun j hj => ?_)
  have hj : j < k := by simpa using hj
  obtain ⟨g, hg, eg⟩ := I.dvals j hj
  rw [eg, absSlope_eq, show (∑ p ∈ range (j + 1), smd (fun j => ♯(h.psi j)) ♯delt (j + 1) p * g p) * ♯(h.phi (j + 1) i) * f j -
      ♯(h.phi (j + 1) i) * ∑ p ∈ range (j + 1), smd (fun j => ♯(h.psi j)) ♯delt (j + 1) p =
      (∑ p ∈ range (j + 1), smd (fun j => ♯(h.psi j)) ♯delt (j + 1) p * (g p * f j - 1)) * ♯(h.phi (j + 1) i) by
        simp only [mul_sub, sum_sub_distrib, mul_one, sub_mul, ← mul_assoc, ← sum_mul]; ring, abs_mul, ← mul_assoc, mul_sum]
  refine mul_le_mul_of_nonneg_right (le_trans (abs_sum_le_sum_abs _ _) (sum_le_sum fun p hp => ?_)) (abs_nonneg _)
  rw [abs_mul, mul_comm]
  refine mul_le_mul_of_nonneg_right ?_ (abs_nonneg _)
  exact (((hg p).mul U0 U1 (hf j)).mono U0 U1 (by omega)).err U0 U1

theorem delt_err (t tn : F) : |♯(t - tn) - (♯t - ♯tn)| ≤ μ * |♯t - ♯tn| := by
  obtain ⟨d, hd, e⟩ := S.val_sub t tn
  rw [e, show (♯t - ♯tn) * (1 + d) - (♯t - ♯tn) = d * (♯t - ♯tn) by ring, abs_mul]
  exact mul_le_mul_of_nonneg_right hd (abs_nonneg _)

end fl

section correct
variable {F : Type u} {K : Type v} [Scalar F] [Field K] [LinearOrder K] [IsStrictOrderedRing K] [S : Correct F K] {n : Nat}

local prefix:max "♯" => StdModel.val (F := F) (K := K)

/-- At the current time the value is that of the last step, without any error. -/
theorem solEval_now (h : Hist n F) (tn : F) (k : Nat) (h0 : ∀ i, i < k → ♯(h.psi i) ≠ 0) (i : Fin n) :
    ♯((solEval h (tn - tn) k).1 i) = ♯(h.phi 0 i) := by
  have I := solCoefs_inv (K := K) h.psi (tn - tn) k h0
  have hz : ♯(tn - tn) = 0 := by rw [S.sub_rd, sub_self, ← S.val_zero, S.rd_val]
  have hc : ∀ j, j < k → ♯((solCoefs h.psi (tn - tn) k).cvals (j + 1)) = 0 := by
    intro j hj
    obtain ⟨f, -, e⟩ := I.cvals (j + 1) hj
    rw [e, prod_eq_zero (i := 0) (by simp) (by simp [fct, ago, hz]), zero_mul]
  show ♯(forUp (k + 1) (fun j y => scaledAdd y ((solCoefs h.psi (tn - tn) k).cvals j) (h.phi j)) vzero i) = _
  have : ∀ m, m ≤ k → ♯(forUp (m + 1) (fun j y => scaledAdd y ((solCoefs h.psi (tn - tn) k).cvals j) (h.phi j)) vzero i) = ♯(h.phi 0 i) := by
    intro m
    induction m with
    | zero =>
      intro _
      rw [forUp_succ]
      show ♯((0 : F) + (solCoefs h.psi (tn - tn) k).cvals 0 * h.phi 0 i) = _
      rw [I.c0, S.add_rd, S.mul_rd, S.val_one, S.val_zero, one_mul, S.rd_val, zero_add, S.rd_val]
    | succ m ih =>
      intro hm
      rw [forUp_succ]
      show ♯(forUp (m + 1) (fun j y => scaledAdd y ((solCoefs h.psi (tn - tn) k).cvals j) (h.phi j)) vzero i +
        (solCoefs h.psi (tn - tn) k).cvals (m + 1) * h.phi (m + 1) i) = _
      have hr : Correct.rd (F := F) (0 : K) = 0 := by rw [← S.val_zero, S.rd_val]
      rw [S.add_rd, S.mul_rd, ih (by omega), hc m hm, zero_mul, hr, add_zero, S.rd_val]
  exact this k le_rfl

end correct

end Verif.FlInterp
