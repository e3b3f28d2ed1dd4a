import Verif.Proofs.StepRules
import Verif.Proofs.Interp
import Mathlib.Algebra.BigOperators.Intervals
import Mathlib.Tactic.LinearCombination

/-! # Closed forms of the coefficient loops, and the Newton form of the history (exact arithmetic) -/

set_option autoImplicit false
set_option linter.unusedSectionVars false
set_option linter.unusedSimpArgs false
set_option linter.unusedVariables false

namespace Verif

open Polynomial Finset

universe u v

section
variable {ν : Type v} {n q : Nat} {K : Type u} [Field K] [LinearOrder K] [IsStrictOrderedRing K] [ExactParams K]

/-- `psi` after a step of size `hh`: the distances of the new time from the nodes. -/
def psiN (hh : K) (psi : Nat → K) : Nat → K
  | 0 => hh
  | i + 1 => psi i + hh

/-- `beta`. -/
def betaP (hh : K) (psi : Nat → K) (j : Nat) : K := ∏ i ∈ range j, psiN hh psi i / psi i

theorem psiN_eq (tn hh : K) (psi : Nat → K) (i : Nat) : tn + hh - node tn psi i = psiN hh psi i := by
  cases i with
  | zero => simp [node, psiN]
  | succ i => simp only [node, psiN]; ring

theorem psiN_congr {hh : K} {p p' : Nat → K} {k : Nat} (h : ∀ i, i < k → p i = p' i) (i : Nat) (hi : i ≤ k) :
    psiN hh p i = psiN hh p' i := by
  cases i with
  | zero => rfl
  | succ i => simp only [psiN]; rw [h i hi]

/-! ## `set_coeffs` -/

/-- What the coefficient loop has computed after `m` passes. -/
structure CoefInv (hh : K) (h : Hist n K) (m : Nat) (l : CoefLoop K) : Prop where
  temp1 : l.temp1 = psiN hh h.psi m
  psi : ∀ i, l.psi i = if i < m then psiN hh h.psi i else h.psi i
  alpha : ∀ i, i ≤ m → l.alpha i = hh / psiN hh h.psi i
  beta : ∀ i, i ≤ m → l.beta i = betaP hh h.psi i
  sigma : ∀ i, i ≤ m → l.sigma i = ∏ j ∈ range i, (((j : Nat) : K) + 1) * (hh / psiN hh h.psi (j + 1))
  gamma : ∀ i, i ≤ m → l.gamma i = ∑ j ∈ range i, (psiN hh h.psi j)⁻¹

theorem coefPass_inv {hh : K} (h0 : hh ≠ 0) {h : Hist n K} {m : Nat} {l : CoefLoop K} (hl : CoefInv hh h m l) :
    CoefInv hh h (m + 1) (coefPass hh m l) := by
  have hp : l.psi m = h.psi m := by rw [hl.psi, if_neg (lt_irrefl m)]
  refine ⟨?_, ?_, ?_, ?_, ?_, ?_⟩
  · show l.psi m + hh = _
    rw [hp]; rfl
  · intro i
    show upd l.psi m l.temp1 i = _
    by_cases hi : i = m
    · subst hi; rw [upd_same, if_pos (by omega), hl.temp1]
    · rw [upd_ne _ _ hi, hl.psi]
      by_cases h1 : i < m
      · rw [if_pos h1, if_pos (by omega)]
      · rw [if_neg h1, if_neg (by omega)]
  · intro i hi
    show upd l.alpha (m + 1) (hh / (l.psi m + hh)) i = _
    by_cases h1 : i = m + 1
    · subst h1; rw [upd_same, hp]; rfl
    · rw [upd_ne _ _ h1, hl.alpha i (by omega)]
  · intro i hi
    show upd l.beta (m + 1) (l.beta m * upd l.psi m l.temp1 m / l.psi m) i = _
    by_cases h1 : i = m + 1
    · subst h1
      rw [upd_same, upd_same, hl.temp1, hp, hl.beta m (le_refl m)]
      unfold betaP; rw [prod_range_succ, mul_div_assoc]
    · rw [upd_ne _ _ h1, hl.beta i (by omega)]
  · intro i hi
    show upd l.sigma (m + 1) (Scalar.ofNat (m + 1) * l.sigma m * upd l.alpha (m + 1) (hh / (l.psi m + hh)) (m + 1)) i = _
    by_cases h1 : i = m + 1
    · subst h1
      rw [upd_same, upd_same, hp, hl.sigma m (le_refl m), prod_range_succ]
      simp only [ex_ofNat, psiN]
      push_cast
      ring
    · rw [upd_ne _ _ h1, hl.sigma i (by omega)]
  · intro i hi
    show upd l.gamma (m + 1) (l.gamma m + upd l.alpha (m + 1) (hh / (l.psi m + hh)) m / hh) i = _
    by_cases h1 : i = m + 1
    · subst h1
      rw [upd_same, upd_ne _ _ (by omega), hl.gamma m (le_refl m), hl.alpha m (le_refl m), sum_range_succ, div_div,
        mul_comm, ← div_div, div_self h0, one_div]
    · rw [upd_ne _ _ h1, hl.gamma i (by omega)]

/-- The result of the coefficient loop. -/
structure Recomputed (kk : Nat) (hh : K) (h h' : Hist n K) : Prop where
  phi : h'.phi = h.phi
  psi : ∀ i, h'.psi i = if i ≤ kk then psiN hh h.psi i else h.psi i
  alpha : ∀ i, i ≤ kk → h'.alpha i = hh / psiN hh h.psi i
  beta : ∀ i, i ≤ kk → h'.beta i = betaP hh h.psi i
  sigma : ∀ i, i ≤ kk → h'.sigma i = ∏ j ∈ range i, (((j : Nat) : K) + 1) * (hh / psiN hh h.psi (j + 1))
  gamma : ∀ i, i ≤ kk → h'.gamma i = ∑ j ∈ range i, (psiN hh h.psi j)⁻¹

theorem recompute_eq (kk : Nat) {hh : K} (h0 : hh ≠ 0) (h : Hist n K) : Recomputed kk hh h (recompute kk hh h) := by
  have key : CoefInv hh h kk (forUp kk (coefPass hh)
    { temp1 := hh, psi := h.psi, alpha := upd h.alpha 0 1, beta := upd h.beta 0 1, sigma := upd h.sigma 0 1
      gamma := upd h.gamma 0 0 }) := by
    refine forUp_inv (fun m l => CoefInv hh h m l) ⟨rfl, fun i => by simp, ?_, ?_, ?_, ?_⟩
      (fun k a _ ha => coefPass_inv h0 ha)
    · intro i hi
      obtain rfl : i = 0 := by omega
      simp [psiN, div_self h0, upd_same]
    · intro i hi
      obtain rfl : i = 0 := by omega
      simp [betaP, upd_same]
    · intro i hi
      obtain rfl : i = 0 := by omega
      simp [upd_same]
    · intro i hi
      obtain rfl : i = 0 := by omega
      simp [upd_same]
  refine ⟨rfl, fun i => ?_, key.alpha, key.beta, key.sigma, key.gamma⟩
  show upd _ kk _ i = _
  by_cases hi : i = kk
  · subst hi; rw [upd_same, if_pos (le_refl _)]; exact key.temp1
  · rw [upd_ne _ _ hi]
    refine (key.psi i).trans ?_
    by_cases h1 : i < kk
    · rw [if_pos h1, if_pos (by omega)]
    · rw [if_neg h1, if_neg (by omega)]

/-- The sum of the reciprocals `1 + 1/2 + ... + 1/k`. -/
def harmonicSum (K : Type u) [Field K] (k : Nat) : K := ∑ i ∈ range k, ((i : K) + 1)⁻¹

theorem alphaSums_eq (alpha : Nat → K) (k : Nat) :
    alphaSums alpha k = (-harmonicSum K k, -∑ i ∈ range k, alpha i) := by
  refine forUp_inv (fun m a => a = (-harmonicSum K m, -∑ i ∈ range m, alpha i)) (by simp [harmonicSum]) ?_
  rintro m _ _ rfl
  refine Prod.ext ?_ ?_
  · simp only [harmonicSum, sum_range_succ, ex_ofNat, one_div]; push_cast; ring
  · simp only [sum_range_succ]; ring

/-- The leading coefficient depends only on order and step size. -/
theorem leadCoef_eq (s : State ν n q K) : leadCoef s = harmonicSum K s.c.kk / s.c.hh := by
  unfold leadCoef; rw [alphaSums_eq, neg_neg]

/-! ## When the coefficients are valid -/

/-- Before an attempt: the entries `set_coeffs` does not touch already have the values they should get. -/
structure CoefReady (s : State ν n q K) : Prop where
  same : ∀ i, i + 1 < nextNs s.c → i < s.c.kk → s.h.psi i = psiN s.c.hh s.h.psi i
  kept : s.c.kk + 1 < nextNs s.c →
    (∀ i, i ≤ s.c.kk → s.h.psi i = psiN s.c.hh s.h.psi i) ∧
    (∀ i, i ≤ s.c.kk → s.h.alpha i = s.c.hh / psiN s.c.hh s.h.psi i) ∧
    (∀ i, i ≤ s.c.kk → s.h.gamma i = ∑ j ∈ range i, (psiN s.c.hh s.h.psi j)⁻¹) ∧
    (∀ i, i ≤ s.c.kk → s.h.sigma i = ∏ j ∈ range i, (((j : Nat) : K) + 1) * (s.c.hh / psiN s.c.hh s.h.psi (j + 1)))

/-- The history after `set_coeffs`: `psi` shifted, `phi` scaled by `beta`. -/
structure Starred (kk : Nat) (hh : K) (h h' : Hist n K) : Prop where
  psi : ∀ i, h'.psi i = if i ≤ kk then psiN hh h.psi i else h.psi i
  phi : ∀ j, h'.phi j = if j ≤ kk then vscale (betaP hh h.psi j) (h.phi j) else h.phi j
  alpha : ∀ i, i ≤ kk → h'.alpha i = hh / psiN hh h.psi i
  gamma : ∀ i, i ≤ kk → h'.gamma i = ∑ j ∈ range i, (psiN hh h.psi j)⁻¹
  sigma : ∀ i, i ≤ kk → h'.sigma i = ∏ j ∈ range i, (((j : Nat) : K) + 1) * (hh / psiN hh h.psi (j + 1))

theorem betaP_one {hh : K} {psi : Nat → K} {j : Nat} (h : ∀ i, i < j → psi i = psiN hh psi i)
    (h0 : ∀ i, i < j → psi i ≠ 0) : betaP hh psi j = 1 := by
  unfold betaP
  refine prod_eq_one fun i hi => ?_
  rw [mem_range] at hi
  rw [← h i hi, div_self (h0 i hi)]

theorem vscale_one (x : Vec n K) : vscale 1 x = x := by funext i; simp [vscale]

theorem coefHist_starred {s : State ν n q K} (h0 : s.c.hh ≠ 0) (hr : CoefReady s)
    (hp : ∀ i, i < s.c.kk → s.h.psi i ≠ 0) : Starred s.c.kk s.c.hh s.h (coefHist s) := by
  have hone : ∀ j, j < nextNs s.c → j ≤ s.c.kk → betaP s.c.hh s.h.psi j = 1 := by
    intro j h1 h2
    exact betaP_one (fun i hi => hr.same i (by omega) (by omega)) (fun i hi => hp i (by omega))
  unfold coefHist
  by_cases hns : s.c.kk + 1 ≥ nextNs s.c
  · have hraw : coefRaw s = recompute s.c.kk s.c.hh s.h := by unfold coefRaw; rw [if_pos hns]
    have hR := recompute_eq s.c.kk h0 s.h
    rw [← hraw] at hR
    refine ⟨hR.psi, fun j => ?_, hR.alpha, hR.gamma, hR.sigma⟩
    show (if _ then _ else _ : Nat → Vec n K) j = _
    by_cases h1 : nextNs s.c ≤ s.c.kk
    · rw [if_pos h1]
      unfold scalePhi
      by_cases h2 : j ≤ s.c.kk
      · rw [if_pos h2]
        by_cases h3 : nextNs s.c ≤ j
        · rw [if_pos ⟨h3, h2⟩, hR.beta j h2, hR.phi]
        · rw [if_neg (fun h => h3 h.1), hone j (by omega) h2, vscale_one, hR.phi]
      · rw [if_neg h2, if_neg (fun h => h2 h.2), hR.phi]
    · rw [if_neg h1, hR.phi]
      by_cases h2 : j ≤ s.c.kk
      · rw [if_pos h2, hone j (by omega) h2, vscale_one]
      · rw [if_neg h2]
  · have hraw : coefRaw s = s.h := by unfold coefRaw; rw [if_neg hns]
    obtain ⟨k1, k2, k3, k4⟩ := hr.kept (by omega)
    rw [hraw, if_neg (by omega)]
    refine ⟨fun i => ?_, fun j => ?_, k2, k3, k4⟩
    · by_cases hi : i ≤ s.c.kk
      · rw [if_pos hi]; exact k1 i hi
      · rw [if_neg hi]
    · by_cases h2 : j ≤ s.c.kk
      · rw [if_pos h2, hone j (by omega) h2, vscale_one]
      · rw [if_neg h2]

/-! ## `restore` -/

theorem restorePsi_eq (kk : Nat) (hh : K) (psi : Nat → K) (i : Nat) :
    forUp kk (fun j0 p => upd p j0 (p (j0 + 1) - hh)) psi i = if i < kk then psi (i + 1) - hh else psi i := by
  have := forUp_inv (n := kk) (f := fun j0 (p : Nat → K) => upd p j0 (p (j0 + 1) - hh)) (s := psi)
    (fun m p => ∀ i, p i = if i < m then psi (i + 1) - hh else psi i) (by simp) (by
      intro k a _ ha i
      by_cases hi : i = k
      · subst hi; rw [upd_same, if_pos (by omega), ha, if_neg (by omega)]
      · rw [upd_ne _ _ hi, ha]
        by_cases h1 : i < k
        · rw [if_pos h1, if_pos (by omega)]
        · rw [if_neg h1, if_neg (by omega)])
  exact this i

/-- A failed attempt leaves `phi` and the `psi` below the order as they were. -/
theorem restored_hist {s s3 : State ν n q K} {t0 : K} (h0 : s.c.hh ≠ 0) (hr : CoefReady s)
    (hp : ∀ i, i < s.c.kk → s.h.psi i ≠ 0) (hpN : ∀ i, i < s.c.kk → psiN s.c.hh s.h.psi i ≠ 0)
    (h3 : s3.h = coefHist s) (h4 : s3.c.kk = s.c.kk) (h5 : s3.c.ns = nextNs s.c) (h6 : s3.c.hh = s.c.hh) :
    (restored s3 t0).h.phi = s.h.phi ∧ (∀ i, i < s.c.kk → (restored s3 t0).h.psi i = s.h.psi i) ∧
    (∀ i, s.c.kk < i → (restored s3 t0).h.psi i = s.h.psi i) ∧
    (restored s3 t0).h.psi s.c.kk = psiN s.c.hh s.h.psi s.c.kk := by
  have hS := coefHist_starred h0 hr hp
  have hpsi : ∀ i, (restored s3 t0).h.psi i = if i < s.c.kk then (coefHist s).psi (i + 1) - s.c.hh else (coefHist s).psi i := by
    intro i
    show forUp s3.c.kk _ s3.h.psi i = _
    rw [restorePsi_eq, h3, h4, h6]
  refine ⟨?_, ?_, ?_, ?_⟩
  · funext j
    show (if s3.c.ns ≤ s3.c.kk then scalePhi s3.h.phi (fun j => Scalar.recip (s3.h.beta j)) s3.c.ns s3.c.kk else s3.h.phi) j = _
    rw [h3, h4, h5]
    by_cases h1 : nextNs s.c ≤ s.c.kk
    · rw [if_pos h1]
      have hraw : coefRaw s = recompute s.c.kk s.c.hh s.h := by unfold coefRaw; rw [if_pos (by omega)]
      have hR := recompute_eq s.c.kk h0 s.h
      rw [← hraw] at hR
      unfold scalePhi
      by_cases h2 : nextNs s.c ≤ j ∧ j ≤ s.c.kk
      · rw [if_pos h2, hS.phi, if_pos h2.2]
        have hb : (coefHist s).beta j = betaP s.c.hh s.h.psi j := hR.beta j h2.2
        have hne : betaP s.c.hh s.h.psi j ≠ 0 := by
          unfold betaP
          rw [prod_ne_zero_iff]
          intro i hi
          rw [mem_range] at hi
          exact div_ne_zero (hpN i (by omega)) (hp i (by omega))
        funext i
        simp only [vscale, ex_recip, hb]
        field_simp
      · rw [if_neg h2, hS.phi]
        by_cases h3 : j ≤ s.c.kk
        · rw [if_pos h3, betaP_one (fun i hi => hr.same i (by omega) (by omega)) (fun i hi => hp i (by omega)), vscale_one]
        · rw [if_neg h3]
    · rw [if_neg h1, hS.phi]
      by_cases h3 : j ≤ s.c.kk
      · rw [if_pos h3, betaP_one (fun i hi => hr.same i (by omega) (by omega)) (fun i hi => hp i (by omega)), vscale_one]
      · rw [if_neg h3]
  · intro i hi
    rw [hpsi, if_pos hi, hS.psi, if_pos (by omega)]
    simp only [psiN]; ring
  · intro i hi
    rw [hpsi, if_neg (by omega), hS.psi, if_neg (by omega)]
  · rw [hpsi, if_neg (lt_irrefl _), hS.psi, if_pos (le_refl _)]

/-! ## `complete_step` -/

theorem updatePhi_eq (maxord k : Nat) (ee : Vec n K) (phi : Nat → Vec n K) :
    (∀ j, j ≤ k → ∀ i, updatePhi maxord k ee phi j i = ee i + ∑ l ∈ Ico j (k + 1), phi l i) ∧
    updatePhi maxord k ee phi (k + 1) = (if k < maxord then ee else phi (k + 1)) ∧
    (∀ j, k + 1 < j → updatePhi maxord k ee phi j = phi j) := by
  have key : ∀ (phi0 : Nat → Vec n K) (r : Vec n K × (Nat → Vec n K)),
      r = forUp (k + 1) (fun i (a : Vec n K × (Nat → Vec n K)) =>
        let j := k - i
        let tmp := vadd a.1 (a.2 j)
        (tmp, upd a.2 j tmp)) (ee, phi0) →
      (∀ j, j ≤ k → ∀ i, r.2 j i = ee i + ∑ l ∈ Ico j (k + 1), phi0 l i) ∧ (∀ j, k < j → r.2 j = phi0 j) := by
    rintro phi0 r rfl
    have := forUp_inv (n := k + 1) (f := fun i (a : Vec n K × (Nat → Vec n K)) =>
      let j := k - i
      let tmp := vadd a.1 (a.2 j)
      (tmp, upd a.2 j tmp)) (s := (ee, phi0)) (fun m r => (∀ i, r.1 i = ee i + ∑ l ∈ Ico (k + 1 - m) (k + 1), phi0 l i) ∧
        (∀ j, k + 1 - m ≤ j → j ≤ k → ∀ i, r.2 j i = ee i + ∑ l ∈ Ico j (k + 1), phi0 l i) ∧
        (∀ j, j < k + 1 - m ∨ k < j → r.2 j = phi0 j)) ⟨by simp, fun j h1 h2 => by omega, fun j _ => rfl⟩ (by
        intro m r hm ⟨h1, h2, h3⟩
        have hj : k + 1 - m = (k - m) + 1 := by omega
        have hj' : k + 1 - (m + 1) = k - m := by omega
        have e1 : ∀ i, vadd r.1 (r.2 (k - m)) i = ee i + ∑ l ∈ Ico (k - m) (k + 1), phi0 l i := by
          intro i
          rw [sum_eq_sum_Ico_succ_bot (by omega : k - m < k + 1)]
          simp only [vadd]
          rw [h1, h3 (k - m) (Or.inl (by omega)), hj]; ring
        refine ⟨fun i => by rw [hj']; exact e1 i, fun j g1 g2 i => ?_, fun j hj => ?_⟩
        · show upd r.2 (k - m) _ j i = _
          by_cases hjm : j = k - m
          · subst hjm; rw [upd_same]; exact e1 i
          · rw [upd_ne _ _ hjm]; exact h2 j (by omega) g2 i
        · show upd r.2 (k - m) _ j = _
          rw [upd_ne _ _ (by omega)]; exact h3 j (by omega))
    obtain ⟨h1, h2, h3⟩ := this
    exact ⟨fun j hj i => h2 j (by omega) hj i, fun j hj => h3 j (Or.inr hj)⟩
  obtain ⟨h1, h2⟩ := key (if k < maxord then upd phi (k + 1) ee else phi) _ rfl
  refine ⟨fun j hj i => ?_, ?_, fun j hj => ?_⟩
  · refine (h1 j hj i).trans ?_
    congr 1
    refine sum_congr rfl fun l hl => ?_
    rw [mem_Ico] at hl
    split
    · rw [upd_ne _ _ (by omega)]
    · rfl
  · refine (h2 (k + 1) (by omega)).trans ?_
    split
    · rw [upd_same]
    · rfl
  · refine (h2 j (by omega)).trans ?_
    split
    · rw [upd_ne _ _ (by omega)]
    · rfl

/-! ## Newton forms before and after a step -/

/-- `∏_{i<l} (X - node i) / psiN i`: zero at the nodes, one at the new time. -/
noncomputable def mb (tn hh : K) (psi : Nat → K) (l : Nat) : K[X] :=
  ∏ i ∈ range l, (C (psiN hh psi i)⁻¹ * (X - C (node tn psi i)))

theorem mb_succ (tn hh : K) (psi : Nat → K) (l : Nat) :
    mb tn hh psi (l + 1) = mb tn hh psi l * (C (psiN hh psi l)⁻¹ * (X - C (node tn psi l))) := by
  simp [mb, prod_range_succ]

theorem mb_node (tn hh : K) (psi : Nat → K) (i l : Nat) (h : i < l) : (mb tn hh psi l).eval (node tn psi i) = 0 := by
  unfold mb
  rw [eval_prod]
  exact prod_eq_zero (mem_range.2 h) (by simp)

theorem betaP_mb (tn : K) {hh : K} {psi : Nat → K} {l : Nat} (h : ∀ i, i < l → psiN hh psi i ≠ 0) :
    C (betaP hh psi l) * mb tn hh psi l = nb tn psi l := by
  unfold betaP mb nb
  rw [map_prod, ← prod_mul_distrib]
  refine prod_congr rfl fun i hi => ?_
  rw [mem_range] at hi
  rw [← mul_assoc, ← C_mul]
  congr 2
  have := h i hi
  rw [div_eq_mul_inv, mul_comm (psiN hh psi i), mul_assoc, mul_inv_cancel₀ this, mul_one]

/-- The new nodes are the new time and the old nodes. -/
theorem node_psiN (tn hh : K) (psi : Nat → K) (i : Nat) : node (tn + hh) (psiN hh psi) (i + 1) = node tn psi i := by
  show tn + hh - psiN hh psi i = _
  rw [← psiN_eq tn hh psi i]; ring

/-- `N'_{l+1} = (X - t') / psi'_l · M_l`. -/
theorem nb_psiN (tn hh : K) (psi : Nat → K) (l : Nat) :
    nb (tn + hh) (psiN hh psi) (l + 1) = mb tn hh psi l * (C (psiN hh psi l)⁻¹ * (X - C (tn + hh))) := by
  induction l with
  | zero => simp [nb_succ, nb_zero, mb, node]
  | succ l ih => rw [nb_succ, ih, mb_succ, node_psiN]; ring

theorem sum_nb_psiN (tn hh : K) (psi : Nat → K) (l : Nat) (h : ∀ i, i < l → psiN hh psi i ≠ 0) :
    ∑ j ∈ range (l + 1), nb (tn + hh) (psiN hh psi) j = mb tn hh psi l := by
  induction l with
  | zero => simp [nb_zero, mb]
  | succ l ih =>
    rw [sum_range_succ, ih (fun i hi => h i (by omega)), nb_psiN, mb_succ]
    have e : (X : K[X]) - C (node tn psi l) = C (psiN hh psi l) + (X - C (tn + hh)) := by
      rw [← psiN_eq tn hh psi l, C_sub]; ring
    have hne := h l (by omega)
    rw [e, mul_add, ← C_mul, inv_mul_cancel₀ hne, C_1]; ring

theorem nb_congr {tn : K} {p p' : Nat → K} {j : Nat} (h : ∀ i, i < j → p i = p' i) : nb tn p j = nb tn p' j := by
  unfold nb
  refine prod_congr rfl fun i hi => ?_
  rw [mem_range] at hi
  rw [h i hi]
  congr 3
  cases i with
  | zero => rfl
  | succ i => simp only [node]; rw [h i (by omega)]

/-- Only the first entries matter. -/
theorem interpPoly_congr {tn : K} {h h' : Hist n K} {k : Nat} (hp : ∀ i, i < k → h.psi i = h'.psi i)
    (hf : ∀ j, j ≤ k → h.phi j = h'.phi j) (i : Fin n) : interpPoly tn h k i = interpPoly tn h' k i := by
  unfold interpPoly
  refine sum_congr rfl fun j hj => ?_
  rw [mem_range] at hj
  rw [hf j (by omega), nb_congr (fun i hi => hp i (by omega))]

/-- At a node, the terms of higher order vanish. -/
theorem interpPoly_eval_node {tn : K} {h : Hist n K} {m k : Nat} (hm : m ≤ k) (i : Fin n) :
    (interpPoly tn h k i).eval (node tn h.psi m) = (interpPoly tn h m i).eval (node tn h.psi m) := by
  unfold interpPoly
  rw [eval_finsetSum, eval_finsetSum]
  symm
  refine sum_subset (range_mono (by omega)) fun j _ hj => ?_
  rw [mem_range, not_lt] at hj
  rw [eval_mul, nb_eval_node _ _ _ _ (by omega), mul_zero]

/-- **The interpolant after a step**: the old one, plus the correction times a polynomial that vanishes at the old
nodes. -/
theorem interpPoly_updated {tn hh : K} {h h' : Hist n K} {k : Nat} {ee : Vec n K} (hs : Starred k hh h h')
    (hN : ∀ i, i ≤ k → psiN hh h.psi i ≠ 0) (maxord : Nat) (i : Fin n) :
    interpPoly (tn + hh) { h' with phi := updatePhi maxord k ee h'.phi } k i =
      interpPoly tn h k i + C (ee i) * mb tn hh h.psi k ∧
    (k < maxord → interpPoly (tn + hh) { h' with phi := updatePhi maxord k ee h'.phi } (k + 1) i =
      interpPoly tn h k i + C (ee i) * mb tn hh h.psi (k + 1)) := by
  obtain ⟨u1, u2, u3⟩ := updatePhi_eq maxord k ee h'.phi
  have hnb : ∀ j, j ≤ k + 1 → nb (tn + hh) h'.psi j = nb (tn + hh) (psiN hh h.psi) j := fun j hj =>
    nb_congr fun i hi => by rw [hs.psi, if_pos (by omega)]
  have e : ∑ j ∈ range (k + 1), C (updatePhi maxord k ee h'.phi j i) * nb (tn + hh) h'.psi j =
      interpPoly tn h k i + C (ee i) * mb tn hh h.psi k := by
    have e1 : ∀ j ∈ range (k + 1), C (updatePhi maxord k ee h'.phi j i) * nb (tn + hh) h'.psi j =
        C (ee i) * nb (tn + hh) (psiN hh h.psi) j +
          ∑ l ∈ Ico j (k + 1), C (h'.phi l i) * nb (tn + hh) (psiN hh h.psi) j := by
      intro j hj
      rw [mem_range] at hj
      rw [u1 j (by omega), hnb j (by omega), C_add, map_sum, add_mul, sum_mul]
    rw [sum_congr rfl e1, sum_add_distrib, ← mul_sum, sum_nb_psiN _ _ _ _ (fun i hi => hN i (by omega)),
      add_comm]
    congr 1
    rw [sum_comm' (s := range (k + 1)) (t := fun j => Ico j (k + 1)) (t' := range (k + 1)) (s' := fun l => range (l + 1))
      (by intro x y; simp only [mem_range, mem_Ico]; omega)]
    unfold interpPoly
    refine sum_congr rfl fun l hl => ?_
    rw [mem_range] at hl
    rw [← mul_sum, sum_nb_psiN _ _ _ _ (fun i hi => hN i (by omega)), hs.phi l, if_pos (by omega)]
    simp only [vscale]
    rw [C_mul, mul_assoc, betaP_mb _ (fun i hi => hN i (by omega))]
  refine ⟨e, fun hk => ?_⟩
  show ∑ j ∈ range (k + 1 + 1), C (updatePhi maxord k ee h'.phi j i) * nb (tn + hh) h'.psi j = _
  rw [sum_range_succ, e, u2, if_pos hk, hnb (k + 1) (le_refl _),
    ← sum_nb_psiN tn hh h.psi (k + 1) (fun i hi => hN i (by omega)), sum_range_succ,
    sum_nb_psiN tn hh h.psi k (fun i hi => hN i (by omega))]
  ring

/-! ## The predictor -/

theorem nb_eval_new (tn hh : K) (psi : Nat → K) (j : Nat) : (nb tn psi j).eval (tn + hh) = betaP hh psi j := by
  rw [nb_eval]; unfold betaP
  exact prod_congr rfl fun i _ => by rw [psiN_eq]

theorem nb_deriv_new (tn hh : K) {psi : Nat → K} (j : Nat) (hN : ∀ i, i < j → psiN hh psi i ≠ 0) :
    (derivative (nb tn psi j)).eval (tn + hh) = betaP hh psi j * ∑ i ∈ range j, (psiN hh psi i)⁻¹ := by
  induction j with
  | zero => simp [nb_zero]
  | succ j ih =>
    rw [nb_succ, derivative_mul, eval_add, eval_mul, ih (fun i hi => hN i (by omega)), sum_range_succ]
    simp only [nb_eval_new, derivative_mul, derivative_C, zero_mul, zero_add, derivative_sub, derivative_X, sub_zero, mul_one, eval_mul,
      eval_C, eval_sub, eval_X, psiN_eq]
    have := hN j (by omega)
    unfold betaP
    rw [prod_range_succ]
    field_simp

theorem predY_eq {s : State ν n q K} (hs : Starred s.c.kk s.c.hh s.h (coefHist s)) (i : Fin n) :
    predY s i = (interpPoly s.e.tn s.h s.c.kk i).eval (s.e.tn + s.c.hh) := by
  unfold predY interpPoly
  rw [forUp_vadd, eval_finsetSum]
  simp only [vzero, zero_add]
  refine sum_congr rfl fun j hj => ?_
  rw [mem_range] at hj
  rw [hs.phi, if_pos (by omega), eval_mul, eval_C, nb_eval_new]
  rfl

theorem predYp_eq {s : State ν n q K} (hs : Starred s.c.kk s.c.hh s.h (coefHist s))
    (hN : ∀ i, i < s.c.kk → psiN s.c.hh s.h.psi i ≠ 0) (i : Fin n) :
    predYp s i = (derivative (interpPoly s.e.tn s.h s.c.kk i)).eval (s.e.tn + s.c.hh) := by
  unfold predYp interpPoly
  rw [forUp_scaledAdd, derivative_sum, eval_finsetSum, sum_range_succ']
  simp only [vzero, zero_add, nb_zero, mul_one, derivative_C, eval_zero, add_zero]
  refine sum_congr rfl fun j hj => ?_
  rw [mem_range] at hj
  rw [hs.phi, if_pos (by omega), hs.gamma _ (by omega), derivative_mul, derivative_C, zero_mul, zero_add, eval_mul, eval_C,
    nb_deriv_new _ _ _ (fun i hi => hN i (by omega))]
  simp only [vscale]; ring

end

end Verif
