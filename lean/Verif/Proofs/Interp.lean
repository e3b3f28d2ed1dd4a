import Verif.Model.Interp
import Verif.Spec.Interp
import Mathlib.Algebra.BigOperators.Field
import Mathlib.Algebra.Polynomial.Degree.Lemmas
import Mathlib.Algebra.Polynomial.Roots
import Mathlib.Tactic.FieldSimp

set_option autoImplicit false
set_option linter.unusedSectionVars false
set_option linter.unusedSimpArgs false
set_option linter.unusedVariables false

namespace Verif

open Polynomial Finset

universe u v

/-- The state after a successful `get_solution`. -/
def setSol {ν : Type v} {n q : Nat} {K : Type u} [Scalar K] (s : State ν n q K) (t : K) : State ν n q K :=
  { s with m.yy := (solEval s.h (t - s.e.tn) (kordOf s.c.kused)).1
           m.yp := (solEval s.h (t - s.e.tn) (kordOf s.c.kused)).2 }

theorem getSolution_eq {ν : Type v} {n q : Nat} {K : Type u} [Scalar K] (s : State ν n q K) (t : K) :
    getSolution s t = if badTime s t = true then .ret s (.error (.ida .badTimeValue))
      else if kordOf s.c.kused < mxordp1 then .ret (setSol s t) (.ok ()) else .panic := rfl

section
variable {K : Type u} [Field K] [LinearOrder K] [ExactParams K] {n : Nat}

/-- Nodes of the Newton form: `t_n`, `t_n - psi_0`, `t_n - psi_1`, ... -/
def node (tn : K) (psi : Nat → K) : Nat → K
  | 0 => tn
  | i + 1 => tn - psi i

/-- Newton basis polynomial `∏_{i<j} (X - node i) / psi i`. -/
noncomputable def nb (tn : K) (psi : Nat → K) (j : Nat) : K[X] :=
  ∏ i ∈ range j, (C (psi i)⁻¹ * (X - C (node tn psi i)))

theorem nb_zero (tn : K) (psi : Nat → K) : nb tn psi 0 = 1 := by simp [nb]
theorem nb_succ (tn : K) (psi : Nat → K) (j : Nat) :
    nb tn psi (j + 1) = nb tn psi j * (C (psi j)⁻¹ * (X - C (node tn psi j))) := by
  simp [nb, prod_range_succ]

theorem nb_natDegree (tn : K) (psi : Nat → K) (j : Nat) : (nb tn psi j).natDegree ≤ j := by
  induction j with
  | zero => simp [nb_zero]
  | succ j ih =>
    rw [nb_succ]
    refine le_trans natDegree_mul_le ?_
    refine Nat.add_le_add ih (le_trans natDegree_mul_le ?_)
    simp

theorem nb_eval (tn : K) (psi : Nat → K) (j : Nat) (t : K) :
    (nb tn psi j).eval t = ∏ i ∈ range j, ((t - node tn psi i) / psi i) := by
  simp [nb, eval_prod, div_eq_inv_mul]

theorem nb_eval_node (tn : K) (psi : Nat → K) (i j : Nat) (h : i < j) : (nb tn psi j).eval (node tn psi i) = 0 := by
  rw [nb_eval]
  exact prod_eq_zero (mem_range.2 h) (by simp)

/-- The polynomial whose values `get_solution` returns (component `i`), at order `k`. -/
noncomputable def interpPoly (tn : K) (h : Hist n K) (k : Nat) (i : Fin n) : K[X] :=
  ∑ j ∈ range (k + 1), C (h.phi j i) * nb tn h.psi j

theorem interpPoly_natDegree (tn : K) (h : Hist n K) (k : Nat) (i : Fin n) : (interpPoly tn h k i).natDegree ≤ k := by
  refine natDegree_sum_le_of_forall_le _ _ ?_
  intro j hj
  refine le_trans natDegree_mul_le ?_
  simp only [natDegree_C, zero_add]
  exact le_trans (nb_natDegree _ _ _) (by simpa [Nat.lt_succ_iff] using hj)

theorem solCoefs_inv (tn : K) (psi : Nat → K) (t : K) (k : Nat) :
    let l := solCoefs psi (t - tn) k
    l.c = (nb tn psi k).eval t ∧ l.d = (derivative (nb tn psi k)).eval t ∧
      l.gam = (t - node tn psi k) / psi k ∧ (∀ j, j ≤ k → l.cvals j = (nb tn psi j).eval t) ∧
      (∀ j, j < k → l.dvals j = (derivative (nb tn psi (j + 1))).eval t) := by
  unfold solCoefs
  refine forUp_inv (n := k) (fun k (l : SolCoef K) =>
    l.c = (nb tn psi k).eval t ∧ l.d = (derivative (nb tn psi k)).eval t ∧
      l.gam = (t - node tn psi k) / psi k ∧ (∀ j, j ≤ k → l.cvals j = (nb tn psi j).eval t) ∧
      (∀ j, j < k → l.dvals j = (derivative (nb tn psi (j + 1))).eval t)) ?_ ?_
  · refine ⟨by simp [nb_zero], by simp [nb_zero], rfl, ?_, by simp⟩
    intro j hj
    obtain rfl : j = 0 := by omega
    simp [nb_zero]
  · intro k l _ hl
    obtain ⟨hc, hd, hg, hcv, hdv⟩ := hl
    have e1 : l.c * l.gam = (nb tn psi (k + 1)).eval t := by
      rw [hc, hg, nb_eval, nb_eval, prod_range_succ]
    have e2 : l.d * l.gam + l.c / psi (k + 1 - 1) = (derivative (nb tn psi (k + 1))).eval t := by
      rw [nb_succ, hc, hd, hg]
      simp only [derivative_mul, derivative_C, derivative_sub, derivative_X, eval_add, eval_mul, eval_C, eval_sub,
        eval_X, eval_zero, eval_one, Nat.add_sub_cancel]
      simp only [div_eq_mul_inv]; ring
    refine ⟨e1, e2, ?_, ?_, ?_⟩
    · show (t - tn + psi (k + 1 - 1)) / psi (k + 1) = _
      simp only [node, Nat.add_sub_cancel]; congr 1; ring
    · intro j hj
      by_cases h : j = k + 1
      · subst h; simpa using e1
      · show upd l.cvals (k + 1) (l.c * l.gam) j = _
        rw [upd_ne _ _ h]; exact hcv j (by omega)
    · intro j hj
      simp only [Nat.add_sub_cancel] at e2 ⊢
      by_cases h : j = k
      · subst h; rw [upd_same]; exact e2
      · rw [upd_ne _ _ h]; exact hdv j (by omega)

theorem forUp_scaledAdd (k : Nat) (c : Nat → K) (x : Nat → Vec n K) (y0 : Vec n K) (i : Fin n) :
    forUp k (fun j y => scaledAdd y (c j) (x j)) y0 i = y0 i + ∑ j ∈ range k, c j * x j i := by
  induction k with
  | zero => simp
  | succ k ih => rw [forUp_succ, sum_range_succ, ← add_assoc, ← ih]; rfl

theorem forUp_vadd (k : Nat) (x : Nat → Vec n K) (y0 : Vec n K) (i : Fin n) :
    forUp k (fun j y => vadd y (x j)) y0 i = y0 i + ∑ j ∈ range k, x j i := by
  induction k with
  | zero => simp
  | succ k ih => rw [forUp_succ, sum_range_succ, ← add_assoc, ← ih]; rfl

theorem solEval_fst (tn : K) (h : Hist n K) (t : K) (k : Nat) (i : Fin n) :
    (solEval h (t - tn) k).1 i = (interpPoly tn h k i).eval t := by
  have hl := solCoefs_inv tn h.psi t k
  simp only at hl
  obtain ⟨-, -, -, hcv, -⟩ := hl
  show forUp (k + 1) (fun j y => scaledAdd y ((solCoefs h.psi (t - tn) k).cvals j) (h.phi j)) vzero i = _
  rw [forUp_scaledAdd, interpPoly, eval_finsetSum]
  simp only [vzero, zero_add, eval_mul, eval_C]
  refine sum_congr rfl fun j hj => ?_
  rw [hcv j (by simpa [Nat.lt_succ_iff] using hj), mul_comm]

theorem solEval_snd (tn : K) (h : Hist n K) (t : K) (k : Nat) (i : Fin n) :
    (solEval h (t - tn) k).2 i = (derivative (interpPoly tn h k i)).eval t := by
  have hl := solCoefs_inv tn h.psi t k
  simp only at hl
  obtain ⟨-, -, -, -, hdv⟩ := hl
  show forUp k (fun j y => scaledAdd y ((solCoefs h.psi (t - tn) k).dvals j) (h.phi (j + 1))) vzero i = _
  rw [forUp_scaledAdd, interpPoly, derivative_sum, eval_finsetSum, sum_range_succ']
  simp only [vzero, zero_add, derivative_mul, derivative_C, eval_add, eval_mul, eval_C, zero_mul, nb_zero,
    derivative_one, eval_zero, mul_zero, add_zero]
  refine sum_congr rfl fun j hj => ?_
  rw [hdv j (by simpa using hj), mul_comm]

/-! ## `get_dky` -/

/-- `i`-th derivative of the `j`-th basis polynomial at `t`. -/
noncomputable def nbD (tn : K) (psi : Nat → K) (t : K) (i j : Nat) : K := (derivative^[i] (nb tn psi j)).eval t

theorem iterate_derivative_mul_linear (p : K[X]) (a b : K) (i : Nat) :
    derivative^[i] (p * (C a * (X - C b))) =
      derivative^[i] p * (C a * (X - C b)) + C ((i : K) * a) * derivative^[i - 1] p := by
  induction i with
  | zero => simp
  | succ i ih =>
    rw [Function.iterate_succ_apply', ih]
    cases i with
    | zero => simp; ring
    | succ i =>
      simp only [derivative_add, derivative_mul, derivative_C, derivative_sub, derivative_X, Nat.add_sub_cancel,
        ← Function.iterate_succ_apply' (f := (derivative : K[X] → K[X]))]
      push_cast
      simp only [C_add, C_mul, C_1]
      show _ + _ + (0 * _ + (C (i : K) + 1) * C a * (⇑derivative)^[i + 1] p) = _
      ring

theorem nbD_succ (tn : K) (psi : Nat → K) (t : K) (i j : Nat) :
    nbD tn psi t i (j + 1) = ((i : K) * nbD tn psi t (i - 1) j + nbD tn psi t i j * (t - node tn psi j)) / psi j := by
  unfold nbD
  rw [nb_succ, iterate_derivative_mul_linear]
  simp only [eval_add, eval_mul, eval_C, eval_sub, eval_X, div_eq_mul_inv]
  ring

theorem nbD_lt (tn : K) (psi : Nat → K) (t : K) (i j : Nat) (h : j < i) : nbD tn psi t i j = 0 := by
  unfold nbD
  rw [iterate_derivative_eq_zero (lt_of_le_of_lt (nb_natDegree _ _ _) h), eval_zero]

theorem nbD_diag (tn : K) (psi : Nat → K) (t : K) (i : Nat) :
    nbD tn psi t (i + 1) (i + 1) = nbD tn psi t i i * ((i + 1 : Nat) : K) / psi i := by
  rw [nbD_succ, nbD_lt _ _ _ _ _ (Nat.lt_succ_self i), Nat.add_sub_cancel]; ring

/-- The inner loop of `get_dky`. -/
theorem dkyInner_inv (tn : K) (psi : Nat → K) (t : K) (i m : Nat) (l : DkyCoef K)
    (h0 : l.cjk i = nbD tn psi t i i) (h1 : t - tn + l.psij1 = t - node tn psi i)
    (h2 : i = 0 ∨ ∀ j, i ≤ j → j < i + m → l.cjk1 j = nbD tn psi t (i - 1) j) :
    let l' := forUp m (fun j0 (l : DkyCoef K) =>
      let j := i + 1 + j0
      { l with cjk := upd l.cjk j ((Scalar.ofNat i * l.cjk1 (j - 1) + l.cjk (j - 1) * (t - tn + l.psij1)) / psi (j - 1))
               psij1 := psi (j - 1) }) l
    (∀ j, i ≤ j → j ≤ i + m → l'.cjk j = nbD tn psi t i j) ∧ (∀ j, i + m < j → l'.cjk j = l.cjk j) ∧
      l'.cjk1 = l.cjk1 := by
  have := forUp_inv (n := m) (s := l) (f := (fun j0 (l : DkyCoef K) =>
      let j := i + 1 + j0
      { l with cjk := upd l.cjk j ((Scalar.ofNat i * l.cjk1 (j - 1) + l.cjk (j - 1) * (t - tn + l.psij1)) / psi (j - 1))
               psij1 := psi (j - 1) }))
    (fun k l' => (∀ j, i ≤ j → j ≤ i + k → l'.cjk j = nbD tn psi t i j) ∧ (∀ j, i + k < j → l'.cjk j = l.cjk j) ∧
      l'.cjk1 = l.cjk1 ∧ t - tn + l'.psij1 = t - node tn psi (i + k)) ?_ ?_
  · exact ⟨this.1, this.2.1, this.2.2.1⟩
  · refine ⟨?_, fun _ _ => rfl, rfl, h1⟩
    intro j hj hj'
    obtain rfl : j = i := by omega
    exact h0
  · intro k a hk ha
    obtain ⟨ha1, ha2, ha3, ha4⟩ := ha
    refine ⟨?_, ?_, ha3, ?_⟩
    · intro j hj hj'
      by_cases hjk : j = i + 1 + k
      · subst hjk
        show upd a.cjk (i + 1 + k) _ (i + 1 + k) = _
        rw [upd_same, ha3, ha4]
        have e : i + 1 + k - 1 = i + k := by omega
        rw [e, ha1 (i + k) (by omega) le_rfl, show i + 1 + k = (i + k) + 1 by omega, nbD_succ]
        rcases h2 with h2 | h2
        · subst h2; simp
        · rw [h2 (i + k) (by omega) (by omega)]; rfl
      · show upd a.cjk (i + 1 + k) _ j = _
        rw [upd_ne _ _ hjk]; exact ha1 j hj (by omega)
    · intro j hj
      show upd a.cjk (i + 1 + k) _ j = _
      rw [upd_ne _ _ (by omega)]; exact ha2 j (by omega)
    · show t - tn + psi (i + 1 + k - 1) = _
      rw [show i + 1 + k - 1 = i + k by omega, show i + (k + 1) = (i + k) + 1 by omega]
      simp only [node]; ring

theorem forUp_copy {α : Type u} (m b : Nat) (f a : Nat → α) (j : Nat) :
    forUp m (fun j0 a => upd a (b + j0) (f (b + j0))) a j = if b ≤ j ∧ j < b + m then f j else a j := by
  induction m with
  | zero =>
    rw [forUp_zero, if_neg (by omega)]
  | succ m ih =>
    rw [forUp_succ]
    by_cases h : j = b + m
    · subst h; simp
    · rw [upd_ne _ _ h, ih]
      have : (b ≤ j ∧ j < b + m) ↔ (b ≤ j ∧ j < b + (m + 1)) := by omega
      simp only [this]

theorem dkyCoefs_inv (tn : K) (psi : Nat → K) (t : K) (kused k : Nat) :
    ∀ j, k ≤ j → (dkyCoefs psi (t - tn) kused k).cjk j =
      if j = k ∨ j < kused - k + 2 then nbD tn psi t k j else 0 := by
  unfold dkyCoefs
  generalize hhi : kused - k + 1 + 1 = hi
  have hhi1 : 2 ≤ hi := by omega
  have := forUp_inv (n := k + 1) (s := ({ cjk := fun _ => 0, cjk1 := fun _ => 0, psij1 := 0 } : DkyCoef K))
    (f := fun i l => dkyPass psi (t - tn) hi i l)
    (fun i l => (i = 0 → (∀ j, l.cjk j = 0) ∧ l.psij1 = 0) ∧
      (∀ i', i = i' + 1 → (∀ j, i' ≤ j → l.cjk j = if j = i' ∨ j < hi then nbD tn psi t i' j else 0) ∧
        (∀ j, i ≤ j → j < hi → l.cjk1 j = nbD tn psi t i' j))) ?_ ?_
  · exact (this.2 k rfl).1
  · exact ⟨fun _ => ⟨fun _ => rfl, rfl⟩, fun i' h => by omega⟩
  · intro i l hi' hl
    refine ⟨fun h => by omega, ?_⟩
    intro i' hii
    obtain rfl : i' = i := by omega
    -- the first part of the pass
    obtain ⟨l1, hl1, hd, hps, hc1, hz⟩ : ∃ l1 : DkyCoef K,
        (if i' = 0 then { l with cjk := upd l.cjk 0 1 }
          else { l with cjk := upd l.cjk i' (l.cjk (i' - 1) * Scalar.ofNat i' / psi (i' - 1)), psij1 := psi (i' - 1) })
          = l1 ∧ l1.cjk i' = nbD tn psi t i' i' ∧ t - tn + l1.psij1 = t - node tn psi i' ∧
        (i' = 0 ∨ ∀ j, i' ≤ j → j < hi → l1.cjk1 j = nbD tn psi t (i' - 1) j) ∧
        (∀ j, i' < j → hi ≤ j → l1.cjk j = 0) := by
      refine ⟨_, rfl, ?_⟩
      cases i' with
      | zero =>
        obtain ⟨hz, hp⟩ := hl.1 rfl
        refine ⟨by simp [nbD, nb_zero], by simp [hp, node], Or.inl rfl, ?_⟩
        intro j hj _
        simp only [if_true]
        rw [upd_ne _ _ (by omega)]; exact hz j
      | succ i' =>
        obtain ⟨hc, hc1⟩ := hl.2 i' rfl
        simp only [Nat.add_sub_cancel, if_neg (Nat.succ_ne_zero i')]
        refine ⟨?_, by simp [node]; ring, Or.inr ?_, ?_⟩
        · rw [upd_same, hc i' le_rfl, if_pos (Or.inl rfl), nbD_diag]; rfl
        · intro j hj hj'; exact hc1 j hj hj'
        · intro j hj hj'
          rw [upd_ne _ _ (by omega), hc j (by omega), if_neg (by omega)]
    have hin := dkyInner_inv tn psi t i' (hi - (i' + 1)) l1 hd hps (by
      rcases hc1 with h | h
      · exact Or.inl h
      · exact Or.inr fun j hj hj' => h j hj (by omega))
    simp only at hin
    unfold dkyPass
    simp only [hl1]
    generalize forUp (hi - (i' + 1)) _ l1 = l2 at hin ⊢
    obtain ⟨hin1, hin2, hin3⟩ := hin
    have hc : ∀ j, i' ≤ j → l2.cjk j = if j = i' ∨ j < hi then nbD tn psi t i' j else 0 := by
      intro j hj
      by_cases hj' : j ≤ i' + (hi - (i' + 1))
      · rw [hin1 j hj hj', if_pos (by omega)]
      · rw [hin2 j (by omega), if_neg (by omega)]
        exact hz j (by omega) (by omega)
    refine ⟨hc, ?_⟩
    intro j hj hj'
    show forUp (hi - (i' + 1)) (fun j0 a => upd a (i' + 1 + j0) (l2.cjk (i' + 1 + j0))) l2.cjk1 j = _
    rw [forUp_copy, if_pos ⟨by omega, by omega⟩, hc j (by omega), if_pos (Or.inr hj')]

theorem forUp_dky (m k : Nat) (c : Nat → K) (phi : Nat → Vec n K) (y0 : Vec n K) (i : Fin n) :
    forUp m (fun j0 y => fun i => y i + phi (k + j0) i * c (k + j0)) y0 i =
      y0 i + ∑ j ∈ range m, phi (k + j) i * c (k + j) := by
  induction m with
  | zero => simp
  | succ m ih => rw [forUp_succ, sum_range_succ, ← add_assoc, ← ih]

/-- `k`-th derivative of the interpolant in terms of the basis. -/
theorem interpPoly_deriv (tn : K) (h : Hist n K) (t : K) (kused k : Nat) (hk : k ≤ kused) (i : Fin n) :
    (derivative^[k] (interpPoly tn h kused i)).eval t =
      ∑ j ∈ range (kused - k + 1), h.phi (k + j) i * nbD tn h.psi t k (k + j) := by
  have e : (derivative^[k] (interpPoly tn h kused i)).eval t =
      ∑ j ∈ range (kused + 1), h.phi j i * nbD tn h.psi t k j := by
    rw [interpPoly, iterate_derivative_sum, eval_finsetSum]
    refine sum_congr rfl fun j _ => ?_
    rw [iterate_derivative_C_mul, eval_mul, eval_C]; rfl
  rw [e, show kused + 1 = k + (kused - k + 1) by omega, sum_range_add]
  rw [sum_eq_zero (fun j hj => by rw [nbD_lt _ _ _ _ _ (mem_range.1 hj), mul_zero]), zero_add]

end

end Verif
