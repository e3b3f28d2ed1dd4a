import Verif.Proofs.Estimate
import Verif.Proofs.Norm

/-! # The local error of an attempt (exact arithmetic) -/

set_option autoImplicit false
set_option linter.unusedSectionVars false
set_option linter.unusedSimpArgs false
set_option linter.unusedVariables false

namespace Verif

open Polynomial Finset Verif.Spec

universe u v

section
variable {K : Type u} [Field K] [LinearOrder K] [IsStrictOrderedRing K]

/-- The polynomial with the zeros `t 0, ..., t (m - 1)`. -/
noncomputable def nodePoly (t : Nat → K) (m : Nat) : K[X] := ∏ i ∈ range m, (X - C (t i))

theorem nodePoly_monic (t : Nat → K) (m : Nat) : (nodePoly t m).Monic := monic_prod_of_monic _ _ fun i _ => monic_X_sub_C _

theorem nodePoly_natDegree (t : Nat → K) (m : Nat) : (nodePoly t m).natDegree = m := by
  unfold nodePoly
  rw [natDegree_prod_of_monic _ _ fun i _ => monic_X_sub_C _]
  simp

theorem nodePoly_eval (t : Nat → K) (m : Nat) (x : K) : (nodePoly t m).eval x = ∏ i ∈ range m, (x - t i) := by
  unfold nodePoly; rw [eval_prod]; simp

theorem nodePoly_zero (t : Nat → K) {m i : Nat} (h : i < m) : (nodePoly t m).eval (t i) = 0 := by
  rw [nodePoly_eval]; exact prod_eq_zero (mem_range.2 h) (sub_self _)

theorem nodePoly_deriv (t : Nat → K) (m : Nat) (x : K) (h : ∀ i, i < m → x - t i ≠ 0) :
    (derivative (nodePoly t m)).eval x = (∏ i ∈ range m, (x - t i)) * ∑ i ∈ range m, (x - t i)⁻¹ := by
  induction m with
  | zero => simp [nodePoly]
  | succ m ih =>
    have e : nodePoly t (m + 1) = nodePoly t m * (X - C (t m)) := by unfold nodePoly; rw [prod_range_succ]
    rw [e, derivative_mul, eval_add, eval_mul, eval_mul, ih fun i hi => h i (by omega), nodePoly_eval, prod_range_succ,
      sum_range_succ]
    have := h m (by omega)
    simp
    field_simp

/-- Two polynomials that agree at `m` points, the first of degree at most `m`, the second of smaller degree, differ by a
multiple of the polynomial with these zeros. -/
theorem eq_add_nodePoly {t : Nat → K} {m : Nat} (ht : Set.InjOn t (range m : Finset Nat)) {P Q : K[X]}
    (hP : P.natDegree ≤ m) (hQ : Q.degree < m) (he : ∀ i, i < m → P.eval (t i) = Q.eval (t i)) :
    ∃ c, P = Q + C c * nodePoly t m := by
  refine ⟨P.coeff m, ?_⟩
  have hN := nodePoly_natDegree t m
  have hmon := nodePoly_monic t m
  have hco : (nodePoly t m).coeff m = 1 := by have := hmon.coeff_natDegree; rwa [hN] at this
  have hlt : (P - C (P.coeff m) * nodePoly t m).degree < m := by
    rw [degree_lt_iff_coeff_zero]
    intro j hj
    rw [coeff_sub, coeff_C_mul]
    rcases Nat.eq_or_lt_of_le hj with rfl | hj
    · rw [hco]; ring
    · rw [coeff_eq_zero_of_natDegree_lt (by omega), coeff_eq_zero_of_natDegree_lt (p := nodePoly t m) (by omega)]; ring
  have key : P - C (P.coeff m) * nodePoly t m = Q := by
    refine eq_of_degrees_lt_of_eval_index_eq (range m) ht (by rw [card_range]; exact hlt) (by rw [card_range]; exact hQ) ?_
    intro i hi
    rw [mem_range] at hi
    rw [eval_sub, eval_mul, nodePoly_zero t hi, mul_zero, sub_zero]
    exact he i hi
  rw [← key]; ring

theorem degree_lt_of_natDegree_le {Q : K[X]} {k : Nat} (h : Q.natDegree ≤ k) : Q.degree < (k + 1 : Nat) :=
  lt_of_le_of_lt degree_le_natDegree (by exact_mod_cast Nat.lt_succ_of_le h)

end

section
variable {ν : Type v} {n q : Nat} {K : Type u} [Field K] [LinearOrder K] [IsStrictOrderedRing K] [ExactParams K]

theorem point_get {x : Att n K} {m : Nat} (hm : m < x.before.length) : x.before[m]? = some (point x m) := by
  unfold point
  rw [List.getD_eq_getElem?_getD, List.getElem?_eq_getElem hm]; rfl

/-- What is used about the attempt. -/
structure Ladder (x : Att n K) : Prop where
  hh : x.hh ≠ 0
  len : x.kk + 1 ≤ x.before.length
  pos : ∀ m, m ≤ x.kk → 0 < (x.tnew - (point x m).1) * x.hh
  inj : Set.InjOn (fun m => (point x m).1) (range (x.kk + 1) : Finset Nat)
  first : (point x 0).1 = x.tnew - x.hh
  dec : ∀ m, m ≤ x.kk → 0 ≤ ((point x 0).1 - (point x m).1) * x.hh

theorem Ladder.ne {x : Att n K} (h : Ladder x) {m : Nat} (hm : m ≤ x.kk) : x.tnew - (point x m).1 ≠ 0 :=
  left_ne_zero_of_mul (h.pos m hm).ne'

theorem Ladder.ratio {x : Att n K} (h : Ladder x) {m : Nat} (hm : m ≤ x.kk) : 0 < stepRatio x m := by
  have := h.pos m hm
  unfold stepRatio
  rcases lt_or_gt_of_ne h.hh with hn | hp
  · exact div_pos_of_neg_of_neg hn (by nlinarith)
  · exact div_pos hp (by nlinarith)

theorem Ladder.ratio_zero {x : Att n K} (h : Ladder x) : stepRatio x 0 = 1 := by
  unfold stepRatio; rw [h.first, sub_sub_cancel, div_self h.hh]

/-- The sum of the step ratios. -/
theorem Ladder.ratios {x : Att n K} (h : Ladder x) : 1 ≤ ∑ m ∈ range (x.kk + 1), stepRatio x m := by
  rw [sum_range_succ', h.ratio_zero]
  have : 0 ≤ ∑ m ∈ range x.kk, stepRatio x (m + 1) :=
    sum_nonneg fun m hm => (h.ratio (by rw [mem_range] at hm; omega)).le
  linarith

variable [EpsLaws K]

theorem AttHist.ladder {x : Att n K} (h : AttHist x) (h2 : 2 ≤ x.before.length) : Ladder x := by
  have hk : x.kk + 1 ≤ x.before.length := by rcases h.enough with h | ⟨h, -⟩ <;> omega
  obtain ⟨y, r, hr⟩ := h.start
  have hp0 : (point x 0).1 = x.t0 := by unfold point; rw [hr]; rfl
  have hd : ∀ a b, a < b → b < x.kk + 1 → 0 < ((point x a).1 - (point x b).1) * x.hh := by
    intro a b hab hb
    rw [point_getD x a (by omega), point_getD x b (by omega)]
    exact List.pairwise_iff_getElem.1 h.apart a b (by omega) (by omega) hab
  have hdec : ∀ m, m ≤ x.kk → 0 ≤ ((point x 0).1 - (point x m).1) * x.hh := by
    intro m hm
    rcases Nat.eq_zero_or_pos m with rfl | hm0
    · simp
    · exact (hd 0 m hm0 (by omega)).le
  refine ⟨h.hh, hk, fun m hm => ?_, ?_, by rw [hp0, h.tnew]; ring, hdec⟩
  · have e : (x.tnew - (point x m).1) * x.hh = ((point x 0).1 - (point x m).1) * x.hh + x.hh * x.hh := by
      rw [h.tnew, hp0]; ring
    rw [e]
    exact add_pos_of_nonneg_of_pos (hdec m hm) (mul_self_pos.2 h.hh)
  · intro a ha b hb hab
    rw [coe_range, Set.mem_Iio] at ha hb
    by_contra hne
    rcases Nat.lt_or_gt_of_ne hne with hl | hl
    · have := hd a b hl hb
      rw [show (point x a).1 = (point x b).1 from hab, sub_self, zero_mul] at this
      exact lt_irrefl _ this
    · have := hd b a hl ha
      rw [show (point x a).1 = (point x b).1 from hab, sub_self, zero_mul] at this
      exact lt_irrefl _ this

/-- The difference to the method of the next higher order. -/
theorem AttHist.nextOrder {x : Att n K} (h : AttHist x) (h2 : 2 ≤ x.before.length) {P : Fin n → K[X]} (hP : NextOrder x P)
    (i : Fin n) : x.yy i - (P i).eval x.tnew =
      (1 - (∑ m ∈ range x.kk, ((m : K) + 1)⁻¹) / ∑ m ∈ range (x.kk + 1), stepRatio x m) * x.ee i := by
  have hL := h.ladder h2
  obtain ⟨Q, hQ, hp⟩ := h.extra
  obtain ⟨hd, ht, hs⟩ := hP
  obtain ⟨c, hc⟩ := eq_add_nodePoly (m := x.kk + 1) hL.inj (hd i) (degree_lt_of_natDegree_le (hQ.1 i)) (fun m hm => by
    have hg := point_get (x := x) (m := m) (by have := hL.len; omega)
    rw [ht m (by omega) _ hg i, hQ.2 m (by omega) _ hg i])
  have h1 : (P i).eval x.tnew = x.pred i + c * ∏ m ∈ range (x.kk + 1), (x.tnew - (point x m).1) := by
    rw [hc, eval_add, eval_mul, eval_C, nodePoly_eval, (hp i).1]
  have h3 : x.yp i = x.predp i + c * ((∏ m ∈ range (x.kk + 1), (x.tnew - (point x m).1)) *
      ∑ m ∈ range (x.kk + 1), (x.tnew - (point x m).1)⁻¹) := by
    rw [← hs i, hc, derivative_add, derivative_C_mul, eval_add, eval_mul, eval_C,
      nodePoly_deriv _ _ _ fun m hm => hL.ne (by omega), (hp i).2]
  have h4 : x.yp i = x.predp i + x.cj * x.ee i := by rw [h.yp]; rfl
  have h5 : x.yy i = x.pred i + x.ee i := by rw [h.yy]; rfl
  have h6 : ∑ m ∈ range (x.kk + 1), stepRatio x m = x.hh * ∑ m ∈ range (x.kk + 1), (x.tnew - (point x m).1)⁻¹ := by
    rw [mul_sum]; exact sum_congr rfl fun m _ => div_eq_mul_inv _ _
  have hR := hL.ratios
  have h7 : x.cj = (∑ m ∈ range x.kk, ((m : K) + 1)⁻¹) / x.hh := h.cj
  rw [h6] at hR ⊢
  have hS : (∑ m ∈ range (x.kk + 1), (x.tnew - (point x m).1)⁻¹) ≠ 0 := fun h0 => by
    rw [h0, mul_zero] at hR; exact absurd hR (by norm_num)
  have h8 : c * ∏ m ∈ range (x.kk + 1), (x.tnew - (point x m).1) =
      x.cj * x.ee i / ∑ m ∈ range (x.kk + 1), (x.tnew - (point x m).1)⁻¹ := by
    rw [eq_div_iff hS]; linarith
  rw [h1, h5, h8, h7]
  have := h.hh
  field_simp
  ring

theorem AttHist.factor {x : Att n K} (h : AttHist x) (h2 : 2 ≤ x.before.length) :
    |1 - (∑ m ∈ range x.kk, ((m : K) + 1)⁻¹) / ∑ m ∈ range (x.kk + 1), stepRatio x m| ≤ x.ck := by
  have hR := (h.ladder h2).ratios
  have hR0 : 0 < ∑ m ∈ range (x.kk + 1), stepRatio x m := by linarith
  rw [h.ck]
  refine le_trans ?_ (le_max_left _ _)
  rw [show stepRatio x x.kk + ∑ m ∈ range x.kk, stepRatio x m = ∑ m ∈ range (x.kk + 1), stepRatio x m by
    rw [sum_range_succ]; ring]
  rw [show 1 - (∑ m ∈ range x.kk, ((m : K) + 1)⁻¹) / ∑ m ∈ range (x.kk + 1), stepRatio x m =
    (∑ m ∈ range (x.kk + 1), stepRatio x m - ∑ m ∈ range x.kk, ((m : K) + 1)⁻¹) / ∑ m ∈ range (x.kk + 1), stepRatio x m by
    field_simp, abs_div, abs_of_pos hR0]
  exact div_le_self (abs_nonneg _) hR

theorem AttHist.nextOrder_exists {x : Att n K} (h : AttHist x) (h2 : 2 ≤ x.before.length) : ∃ P, NextOrder x P := by
  have hL := h.ladder h2
  obtain ⟨Q, hQ, hp⟩ := h.extra
  have h6 : ∑ m ∈ range (x.kk + 1), stepRatio x m = x.hh * ∑ m ∈ range (x.kk + 1), (x.tnew - (point x m).1)⁻¹ := by
    rw [mul_sum]; exact sum_congr rfl fun m _ => div_eq_mul_inv _ _
  have hR := hL.ratios
  rw [h6] at hR
  have hS : (∑ m ∈ range (x.kk + 1), (x.tnew - (point x m).1)⁻¹) ≠ 0 := fun h0 => by
    rw [h0, mul_zero] at hR; exact absurd hR (by norm_num)
  have hN : (∏ m ∈ range (x.kk + 1), (x.tnew - (point x m).1)) ≠ 0 :=
    prod_ne_zero_iff.2 fun m hm => hL.ne (by rw [mem_range] at hm; omega)
  refine ⟨fun i => Q i + C ((x.yp i - x.predp i) / ((∏ m ∈ range (x.kk + 1), (x.tnew - (point x m).1)) *
    ∑ m ∈ range (x.kk + 1), (x.tnew - (point x m).1)⁻¹)) * nodePoly (fun m => (point x m).1) (x.kk + 1), fun i => ?_,
    fun m hm p hpt i => ?_, fun i => ?_⟩
  · refine (natDegree_add_le _ _).trans (max_le ((hQ.1 i).trans (Nat.le_succ _)) ?_)
    exact (natDegree_C_mul_le _ _).trans (nodePoly_natDegree _ _).le
  · have hg := point_get (x := x) (m := m) (by have := hL.len; omega)
    rw [hg, Option.some.injEq] at hpt
    subst hpt
    rw [eval_add, eval_mul, nodePoly_zero (fun m => (point x m).1) (by omega), mul_zero, add_zero]
    exact hQ.2 m hm _ hg i
  · rw [derivative_add, derivative_C_mul, eval_add, eval_mul, eval_C,
      nodePoly_deriv _ _ _ fun m hm => hL.ne (by omega), ← (hp i).2, div_mul_cancel₀ _ (mul_ne_zero hN hS)]
    ring

theorem AttHist.nextOrder_unique {x : Att n K} (h : AttHist x) (h2 : 2 ≤ x.before.length) {P P' : Fin n → K[X]}
    (hP : NextOrder x P) (hP' : NextOrder x P') : P = P' := by
  have hL := h.ladder h2
  funext i
  have hv : (P i).eval x.tnew = (P' i).eval x.tnew := by
    have e1 := h.nextOrder h2 hP i
    have e2 := h.nextOrder h2 hP' i
    linarith
  obtain ⟨Q, hQ, hp⟩ := h.extra
  have key : ∀ {P : Fin n → K[X]}, NextOrder x P → ∃ c, P i = Q i + C c * nodePoly (fun m => (point x m).1) (x.kk + 1) :=
    fun hP => eq_add_nodePoly (m := x.kk + 1) hL.inj (hP.1 i) (degree_lt_of_natDegree_le (hQ.1 i)) (fun m hm => by
      have hg := point_get (x := x) (m := m) (by have := hL.len; omega)
      rw [hP.2.1 m (by omega) _ hg i, hQ.2 m (by omega) _ hg i])
  obtain ⟨c, hc⟩ := key hP
  obtain ⟨c', hc'⟩ := key hP'
  have hN : (∏ m ∈ range (x.kk + 1), (x.tnew - (point x m).1)) ≠ 0 :=
    prod_ne_zero_iff.2 fun m hm => hL.ne (by rw [mem_range] at hm; omega)
  have : c = c' := by
    rw [hc, hc', eval_add, eval_add, eval_mul, eval_mul, eval_C, eval_C, nodePoly_eval] at hv
    exact mul_right_cancel₀ hN (add_left_cancel hv)
  rw [hc, hc', this]

/-- Interpolation in the step: the polynomial of degree `k` through the new point and the `k` points before it, compared
with that of degree `k + 1`. -/
theorem AttHist.interp {x : Att n K} (h : AttHist x) (h2 : 2 ≤ x.before.length) {V U : Fin n → K[X]}
    (hV : Through x.kk ((x.tnew, x.yy) :: x.before) V) (hU : Through (x.kk + 1) ((x.tnew, x.yy) :: x.before) U)
    {t : K} (h1 : 0 ≤ (t - x.t0) * x.hh) (h3 : 0 ≤ (x.tnew - t) * x.hh) (i : Fin n) :
    |(U i).eval t - (V i).eval t| ≤ stepRatio x x.kk * |x.ee i| := by
  have hL := h.ladder h2
  have hk1 := h.kk
  obtain ⟨Q, hQ, hp⟩ := h.extra
  have hy : x.yy i = x.pred i + x.ee i := by rw [h.yy]; rfl
  have hg : ∀ m, m ≤ x.kk → x.before[m]? = some (point x m) := fun m hm => point_get (by have := hL.len; omega)
  -- both polynomials through the predictor
  obtain ⟨u, hu⟩ := eq_add_nodePoly (m := x.kk + 1) hL.inj (hU.1 i) (degree_lt_of_natDegree_le (hQ.1 i)) (fun m hm => by
    rw [hQ.2 m (by omega) _ (hg m (by omega)) i, hU.2 (m + 1) (by omega) _ (by
      rw [List.getElem?_cons_succ]; exact hg m (by omega)) i])
  have hinj : Set.InjOn (fun m => (point x m).1) (range x.kk : Finset Nat) :=
    hL.inj.mono (by intro a ha; rw [coe_range, Set.mem_Iio] at ha ⊢; omega)
  have hVQ : ((V i) - (Q i)).natDegree ≤ x.kk := (natDegree_sub_le _ _).trans (max_le (hV.1 i) (hQ.1 i))
  obtain ⟨v, hv⟩ := eq_add_nodePoly (m := x.kk) (P := V i - Q i) (Q := 0) hinj hVQ (by simp [degree_zero]) (fun m hm => by
    rw [eval_sub, eval_zero, hQ.2 m (by omega) _ (hg m (by omega)) i, hV.2 (m + 1) (by omega) _ (by
      rw [List.getElem?_cons_succ]; exact hg m (by omega)) i, sub_self])
  have hNk : (∏ m ∈ range x.kk, (x.tnew - (point x m).1)) ≠ 0 :=
    prod_ne_zero_iff.2 fun m hm => hL.ne (by rw [mem_range] at hm; omega)
  have hue : u * ((∏ m ∈ range x.kk, (x.tnew - (point x m).1)) * (x.tnew - (point x x.kk).1)) = x.ee i := by
    have := hU.2 0 (Nat.zero_le _) _ rfl i
    simp only at this
    rw [hu, eval_add, eval_mul, eval_C, nodePoly_eval, ← (hp i).1, hy, prod_range_succ] at this
    linarith
  have hve : v * (∏ m ∈ range x.kk, (x.tnew - (point x m).1)) = x.ee i := by
    have := hV.2 0 (Nat.zero_le _) _ rfl i
    simp only at this
    rw [show V i = (V i - Q i) + Q i by ring, hv, eval_add, eval_add, eval_mul, eval_C, nodePoly_eval, eval_zero, ← (hp i).1, hy] at this
    linarith
  have hval : (U i).eval t - (V i).eval t =
      x.ee i * (∏ m ∈ range x.kk, ((t - (point x m).1) / (x.tnew - (point x m).1))) *
        ((t - x.tnew) / (x.tnew - (point x x.kk).1)) := by
    rw [hu, show V i = (V i - Q i) + Q i by ring, hv, eval_add, eval_add, eval_add, eval_mul, eval_mul, eval_C, eval_C,
      nodePoly_eval, nodePoly_eval, eval_zero, prod_range_succ, prod_div_distrib]
    have hk := hL.ne (le_refl x.kk)
    rw [← eq_div_iff (mul_ne_zero hNk hk)] at hue
    rw [← eq_div_iff hNk] at hve
    rw [hue, hve]
    field_simp
    ring
  have hfac : ∀ m ∈ range x.kk, |(t - (point x m).1) / (x.tnew - (point x m).1)| ≤ 1 := by
    intro m hm
    rw [mem_range] at hm
    have hpos := hL.pos m (by omega)
    have hdec := hL.dec m (by omega)
    have h0 : (point x 0).1 = x.t0 := by rw [hL.first, h.tnew]; ring
    rw [h0] at hdec
    rw [abs_div, div_le_one (abs_pos.2 (hL.ne (by omega)))]
    have hsum : (t - (point x m).1) * x.hh = (t - x.t0) * x.hh + (x.t0 - (point x m).1) * x.hh := by ring
    rcases lt_or_gt_of_ne h.hh with hn | hpz
    · rw [abs_of_nonpos (by nlinarith), abs_of_neg (by nlinarith)]
      nlinarith
    · rw [abs_of_nonneg (by nlinarith), abs_of_pos (by nlinarith)]
      nlinarith
  have hlast : |(t - x.tnew) / (x.tnew - (point x x.kk).1)| ≤ stepRatio x x.kk := by
    rw [← abs_of_pos (hL.ratio (le_refl x.kk))]
    unfold stepRatio
    rw [abs_div, abs_div]
    refine div_le_div_of_nonneg_right ?_ (abs_nonneg _)
    have htn := h.tnew
    rcases lt_or_gt_of_ne h.hh with hn | hpz
    · rw [abs_of_nonneg (by nlinarith), abs_of_neg hn]; nlinarith
    · rw [abs_of_nonpos (by nlinarith), abs_of_pos hpz]; nlinarith
  rw [hval, abs_mul, abs_mul, abs_prod]
  have hprod : ∏ m ∈ range x.kk, |(t - (point x m).1) / (x.tnew - (point x m).1)| ≤ 1 :=
    prod_le_one (fun m _ => abs_nonneg _) hfac
  have hp0 : 0 ≤ ∏ m ∈ range x.kk, |(t - (point x m).1) / (x.tnew - (point x m).1)| := prod_nonneg fun m _ => abs_nonneg _
  calc |x.ee i| * (∏ m ∈ range x.kk, |(t - (point x m).1) / (x.tnew - (point x m).1)|) *
        |(t - x.tnew) / (x.tnew - (point x x.kk).1)|
      ≤ |x.ee i| * 1 * stepRatio x x.kk := by
        refine mul_le_mul (mul_le_mul_of_nonneg_left hprod (abs_nonneg _)) hlast (abs_nonneg _) (by simp)
    _ = stepRatio x x.kk * |x.ee i| := by ring

end

section
variable {n : Nat} {K : Type u} [Field K] [LinearOrder K] [IsStrictOrderedRing K] [ExactParams K] [ExactLaws K]

open Verif.Proofs.Norm in
/-- The weighted norm is monotone. -/
theorem wrmsNorm_le {id : Fin n → Bool} {a b w : Vec n K} {msk : Bool} {c : K} (hc : 0 ≤ c) (h : ∀ i, |a i| ≤ c * |b i|) :
    wrmsNorm id a w msk ≤ c * wrmsNorm id b w msk := by
  have key : ∀ {a b : Vec n K}, (∀ i, |a i| ≤ c * |b i|) → normWrms a w ≤ c * normWrms b w := by
    intro a b h
    rw [normWrms_eq a]
    refine sqrt_le_of_sq (ms_nonneg a w) (mul_nonneg hc (normWrms_nonneg b w)) ?_
    rw [show c * normWrms b w * (c * normWrms b w) = c ^ 2 * (normWrms b w * normWrms b w) by ring, normWrms_sq, ← mul_div_assoc]
    refine div_le_div_of_nonneg_right ?_ (Nat.cast_nonneg n)
    rw [mul_sum]
    refine sum_le_sum fun i _ => ?_
    have h1 := h i
    have : (a i) ^ 2 ≤ (c * |b i|) ^ 2 := by
      rw [← sq_abs (a i)]; exact pow_le_pow_left₀ (abs_nonneg _) h1 2
    rw [mul_pow, mul_pow, ← mul_assoc]
    refine mul_le_mul_of_nonneg_right ?_ (sq_nonneg _)
    rwa [mul_pow, sq_abs] at this
  unfold wrmsNorm
  cases msk with
  | false => exact key h
  | true =>
    simp only [if_true]
    rw [normWrmsMasked_eq, normWrmsMasked_eq]
    refine key fun i => ?_
    by_cases hi : id i <;> simp [hi, h i]

end

end Verif
