import Mathlib.Analysis.Calculus.LocalExtr.Rolle
import Mathlib.Analysis.Calculus.IteratedDeriv.Lemmas
import Mathlib.Analysis.Calculus.Deriv.Polynomial
import Mathlib.Analysis.Calculus.ContDiff.Polynomial
import Mathlib.LinearAlgebra.Lagrange
import Mathlib.Data.Finset.Sort

/-! # The error of polynomial interpolation of smooth functions -/

set_option autoImplicit false

namespace Verif.InterpErr

open Polynomial Finset

/-- Rolle's theorem for several zeros. -/
theorem rolle (m : Nat) : ∀ (f : ℝ → ℝ), ContDiff ℝ m f → ∀ x : Fin (m + 1) → ℝ, StrictMono x → (∀ i, f (x i) = 0) →
    ∃ ξ ∈ Set.Icc (x 0) (x (Fin.last m)), iteratedDeriv m f ξ = 0 := by
  induction m with
  | zero => intro f _ x _ h; exact ⟨x 0, ⟨le_refl _, le_refl _⟩, by rw [iteratedDeriv_zero]; exact h 0⟩
  | succ m ih =>
    intro f hf x hx h
    have hc : ∀ i : Fin (m + 1), ∃ c ∈ Set.Ioo (x i.castSucc) (x i.succ), deriv f c = 0 := fun i =>
      exists_deriv_eq_zero (hx (Fin.castSucc_lt_succ)) hf.continuous.continuousOn (by rw [h, h])
    choose c hc1 hc2 using hc
    have hm : StrictMono c := by
      refine Fin.strictMono_iff_lt_succ.2 fun i => ?_
      refine (hc1 i.castSucc).2.trans ?_
      have : i.castSucc.succ = i.succ.castSucc := rfl
      rw [this]
      exact (hc1 i.succ).1
    obtain ⟨ξ, h1, h2⟩ := ih (deriv f) (ContDiff.iterate_deriv' m 1 (by simpa using hf)) c hm hc2
    refine ⟨ξ, ⟨?_, ?_⟩, by rw [iteratedDeriv_succ']; exact h2⟩
    · exact ((hc1 0).1.le.trans h1.1)
    · exact h1.2.trans ((hc1 (Fin.last m)).2.le)

theorem contDiff_poly (P : ℝ[X]) (m : WithTop ℕ∞) : ContDiff ℝ m (fun u => P.eval u) := by
  have := Polynomial.contDiff_aeval (𝕜 := ℝ) P m
  simpa only [coe_aeval_eq_eval] using this

theorem iteratedDeriv_poly (P : ℝ[X]) (m : Nat) (x : ℝ) :
    iteratedDeriv m (fun u => P.eval u) x = (derivative^[m] P).eval x := by
  induction m generalizing P with
  | zero => simp
  | succ m ih =>
    rw [iteratedDeriv_succ', Function.iterate_succ_apply, ← ih]
    congr 1
    funext u
    exact Polynomial.deriv P

/-- The error of interpolation at `m + 1` distinct points of an interval. -/
theorem error_formula {m : Nat} {f : ℝ → ℝ} (hf : ContDiff ℝ (m + 1 : ℕ) f) {a b : ℝ} (s : Finset ℝ) (hs : s.card = m + 1)
    (hsi : ∀ x ∈ s, x ∈ Set.Icc a b) (Q : ℝ[X]) (hQ : Q.natDegree ≤ m) (hQs : ∀ x ∈ s, Q.eval x = f x) (t : ℝ)
    (ht : t ∈ Set.Icc a b) :
    ∃ ξ ∈ Set.Icc a b, f t - Q.eval t = iteratedDeriv (m + 1) f ξ / (m + 1).factorial * ∏ x ∈ s, (t - x) := by
  by_cases hts : t ∈ s
  · exact ⟨t, ht, by rw [hQs t hts, sub_self, prod_eq_zero hts (sub_self t), mul_zero]⟩
  set W : ℝ[X] := ∏ x ∈ s, (X - C x) with hW
  have hWt : W.eval t = ∏ x ∈ s, (t - x) := by rw [hW, eval_prod]; simp
  have hW0 : W.eval t ≠ 0 := by
    rw [hWt, prod_ne_zero_iff]
    intro x hx h
    exact hts (by rw [sub_eq_zero] at h; rw [h]; exact hx)
  set c := (f t - Q.eval t) / W.eval t with hc
  set R : ℝ[X] := Q + C c * W with hR
  have hWd : W.natDegree = m + 1 := by rw [hW, natDegree_prod_of_monic _ _ fun x _ => monic_X_sub_C x]; simp [hs]
  have hWm : W.Monic := monic_prod_of_monic _ _ fun x _ => monic_X_sub_C x
  have hcoef : R.coeff (m + 1) = c := by
    rw [hR, coeff_add, coeff_C_mul, coeff_eq_zero_of_natDegree_lt (by omega), zero_add]
    have : W.coeff (m + 1) = 1 := by rw [← hWd]; exact hWm.coeff_natDegree
    rw [this, mul_one]
  have hRd : R.natDegree ≤ m + 1 := by
    refine (natDegree_add_le _ _).trans (max_le (by omega) ((natDegree_C_mul_le _ _).trans hWd.le))
  have hder : derivative^[m + 1] R = C (((m + 1).factorial : ℝ) * c) := by
    have hd0 : (derivative^[m + 1] R).natDegree = 0 := by
      have := natDegree_iterate_derivative R (m + 1)
      omega
    rw [eq_C_of_natDegree_eq_zero hd0, coeff_iterate_derivative, zero_add, hcoef, Nat.descFactorial_self, nsmul_eq_mul]
  have hRs : ∀ x ∈ insert t s, f x - R.eval x = 0 := by
    intro x hx
    rcases mem_insert.1 hx with rfl | hx
    · rw [hR, eval_add, eval_mul, eval_C, hc, div_mul_cancel₀ _ hW0]; ring
    · have : W.eval x = 0 := by rw [hW, eval_prod]; exact prod_eq_zero hx (by simp)
      rw [hR, eval_add, eval_mul, this, hQs x hx]; ring
  have hcard : (insert t s).card = m + 2 := by rw [card_insert_of_notMem hts, hs]
  have hcd : ContDiff ℝ (m + 1 : ℕ) (fun u => f u - R.eval u) := hf.sub (contDiff_poly R _)
  obtain ⟨ξ, h1, h2⟩ := rolle (m + 1) (fun u => f u - R.eval u) hcd
    ((insert t s).orderEmbOfFin hcard) ((insert t s).orderEmbOfFin hcard).strictMono
    (fun i => hRs _ (orderEmbOfFin_mem _ hcard i))
  have hin : ∀ x ∈ insert t s, x ∈ Set.Icc a b := by
    intro x hx
    rcases mem_insert.1 hx with rfl | hx
    · exact ht
    · exact hsi x hx
  refine ⟨ξ, ⟨(hin _ (orderEmbOfFin_mem _ hcard 0)).1.trans h1.1, h1.2.trans (hin _ (orderEmbOfFin_mem _ hcard _)).2⟩, ?_⟩
  have h3 : iteratedDeriv (m + 1) (fun u => f u - R.eval u) ξ = iteratedDeriv (m + 1) f ξ - (m + 1).factorial * c := by
    have := iteratedDeriv_fun_sub (n := m + 1) (x := ξ) (f := f) (g := fun u => R.eval u) hf.contDiffAt (contDiff_poly R _).contDiffAt
    rw [this, iteratedDeriv_poly, hder, eval_C]
  rw [h3] at h2
  have hfac : ((m + 1).factorial : ℝ) ≠ 0 := by exact_mod_cast (m + 1).factorial_ne_zero
  have : c = iteratedDeriv (m + 1) f ξ / (m + 1).factorial := by rw [eq_div_iff hfac]; linarith
  rw [← this, ← hWt, hc, div_mul_cancel₀ _ hW0]

/-- The bound. -/
theorem error_bound {m : Nat} {f : ℝ → ℝ} (hf : ContDiff ℝ (m + 1 : ℕ) f) {a b M : ℝ} (s : Finset ℝ) (hs : s.card = m + 1)
    (hsi : ∀ x ∈ s, x ∈ Set.Icc a b) (Q : ℝ[X]) (hQ : Q.natDegree ≤ m) (hQs : ∀ x ∈ s, Q.eval x = f x) (t : ℝ)
    (ht : t ∈ Set.Icc a b) (hM : ∀ ξ ∈ Set.Icc a b, |iteratedDeriv (m + 1) f ξ| ≤ M) :
    |Q.eval t - f t| ≤ M / (m + 1).factorial * ∏ x ∈ s, |t - x| := by
  obtain ⟨ξ, h1, h2⟩ := error_formula hf s hs hsi Q hQ hQs t ht
  have hfac : (0 : ℝ) < (m + 1).factorial := by exact_mod_cast (m + 1).factorial_pos
  rw [abs_sub_comm, h2, abs_mul, abs_div, abs_of_pos hfac, abs_prod]
  exact mul_le_mul_of_nonneg_right (div_le_div_of_nonneg_right (hM ξ h1) hfac.le) (prod_nonneg fun _ _ => abs_nonneg _)

/-- The error of the derivative: increasing nodes, `t` not before the last but one. -/
theorem deriv_bound {m : Nat} {f : ℝ → ℝ} (hf : ContDiff ℝ (m + 2 : ℕ) f) {a b M : ℝ} (x : Fin (m + 2) → ℝ) (hx : StrictMono x)
    (ha : a ≤ x 0) (Q : ℝ[X]) (hQ : Q.natDegree ≤ m + 1) (hQs : ∀ i, Q.eval (x i) = f (x i)) (t : ℝ)
    (ht : x (Fin.last m).castSucc ≤ t) (htb : t ≤ b) (hxb : x (Fin.last (m + 1)) ≤ b)
    (hM : ∀ ξ ∈ Set.Icc a b, |iteratedDeriv (m + 2) f ξ| ≤ M) :
    |(derivative Q).eval t - deriv f t| ≤ M / (m + 1).factorial * ∏ j : Fin (m + 1), |b - x j.castSucc| := by
  have hc : ∀ i : Fin (m + 1), ∃ c ∈ Set.Ioo (x i.castSucc) (x i.succ), deriv (fun u => f u - Q.eval u) c = 0 := fun i =>
    exists_deriv_eq_zero (hx (Fin.castSucc_lt_succ)) (hf.continuous.sub (contDiff_poly Q 0).continuous).continuousOn
      (by rw [hQs, hQs, sub_self, sub_self])
  choose c hc1 hc2 using hc
  have hm : StrictMono c := by
    refine Fin.strictMono_iff_lt_succ.2 fun i => ?_
    refine (hc1 i.castSucc).2.trans ?_
    have : i.castSucc.succ = i.succ.castSucc := rfl
    rw [this]
    exact (hc1 i.succ).1
  have hfd : Differentiable ℝ f := hf.differentiable (by simp)
  have hd : ∀ i, (derivative Q).eval (c i) = deriv f (c i) := by
    intro i
    have h1 := hc2 i
    have h2 : deriv (fun u => f u - Q.eval u) (c i) = deriv f (c i) - deriv (fun u => Q.eval u) (c i) :=
      deriv_fun_sub (hfd _) (Q.differentiable _)
    rw [h2, Polynomial.deriv] at h1
    linarith
  have hxl : ∀ i, x i ≤ x (Fin.last (m + 1)) := fun i => hx.monotone (Fin.le_last i)
  have hx0 : ∀ i, x 0 ≤ x i := fun i => hx.monotone (Fin.zero_le i)
  have key := error_bound (m := m) (f := deriv f) (a := a) (b := b) (M := M) (ContDiff.iterate_deriv' (m + 1) 1 hf)
    (univ.image c) (by rw [card_image_of_injective _ hm.injective, card_univ, Fintype.card_fin])
    (by
      intro y hy
      obtain ⟨i, -, rfl⟩ := mem_image.1 hy
      exact ⟨ha.trans ((hx0 _).trans (hc1 i).1.le), (hc1 i).2.le.trans ((hxl _).trans hxb)⟩)
    (derivative Q) ((natDegree_derivative_le Q).trans (by omega))
    (by
      intro y hy
      obtain ⟨i, -, rfl⟩ := mem_image.1 hy
      exact hd i)
    t ⟨ha.trans ((hx0 _).trans ht), htb⟩ (by intro ξ h; rw [← iteratedDeriv_succ']; exact hM ξ h)
  have hM0 : 0 ≤ M := (abs_nonneg _).trans (hM t ⟨ha.trans ((hx0 _).trans ht), htb⟩)
  refine key.trans (mul_le_mul_of_nonneg_left ?_ (div_nonneg hM0 (Nat.cast_nonneg _)))
  rw [prod_image fun _ _ _ _ h => hm.injective h]
  refine prod_le_prod (fun _ _ => abs_nonneg _) fun j _ => ?_
  have hj := hc1 j
  have hb : x j.castSucc ≤ b := (hxl _).trans hxb
  rw [abs_of_nonneg (sub_nonneg.2 hb), abs_le]
  constructor
  · have h1 : c j ≤ b := hj.2.le.trans ((hxl _).trans hxb)
    have h2 : x j.castSucc ≤ t := (hx.monotone (Fin.castSucc_le_castSucc_iff.2 (Fin.le_last j))).trans ht
    linarith
  · have := hj.1
    linarith

/-! ## Nodes numbered from the most recent one -/

/-- The nodes `τ 0, ..., τ k` follow each other in the direction opposite to `d`. -/
def Descend (τ : ℕ → ℝ) (d : ℝ) (k : ℕ) : Prop := ∀ i j, i < j → j ≤ k → 0 < (τ i - τ j) * d

theorem Descend.inj {τ : ℕ → ℝ} {d : ℝ} {k : ℕ} (h : Descend τ d k) : Set.InjOn τ (range (k + 1)) := by
  intro i hi j hj he
  have hi' : i ≤ k := by have := mem_range.1 hi; omega
  have hj' : j ≤ k := by have := mem_range.1 hj; omega
  rcases lt_trichotomy i j with hl | hl | hl
  · have := h i j hl hj'; rw [he, sub_self, zero_mul] at this; exact absurd this (lt_irrefl _)
  · exact hl
  · have := h j i hl hi'; rw [he, sub_self, zero_mul] at this; exact absurd this (lt_irrefl _)

theorem value_bound {k : ℕ} {τ : ℕ → ℝ} {d : ℝ} (hτ : Descend τ d k) {f : ℝ → ℝ} (hf : ContDiff ℝ (k + 1 : ℕ) f) {a b M : ℝ}
    (hab : ∀ m, m ≤ k → τ m ∈ Set.Icc a b) (Q : ℝ[X]) (hQ : Q.natDegree ≤ k) (hQs : ∀ m, m ≤ k → Q.eval (τ m) = f (τ m)) (t : ℝ)
    (ht : t ∈ Set.Icc a b) (hM : ∀ ξ ∈ Set.Icc a b, |iteratedDeriv (k + 1) f ξ| ≤ M) :
    |Q.eval t - f t| ≤ M / (k + 1).factorial * ∏ m ∈ range (k + 1), |t - τ m| := by
  have := error_bound hf ((range (k + 1)).image τ) (by rw [card_image_of_injOn hτ.inj, card_range])
    (by
      intro y hy
      obtain ⟨i, hi, rfl⟩ := mem_image.1 hy
      exact hab i (by have := mem_range.1 hi; omega)) Q hQ
    (by
      intro y hy
      obtain ⟨i, hi, rfl⟩ := mem_image.1 hy
      exact hQs i (by have := mem_range.1 hi; omega)) t ht hM
  rwa [prod_image hτ.inj] at this

theorem slope_bound_pos {k : ℕ} (hk : 1 ≤ k) {τ : ℕ → ℝ} (hτ : ∀ i j, i < j → j ≤ k → τ j < τ i) {f : ℝ → ℝ}
    (hf : ContDiff ℝ (k + 1 : ℕ) f) {a b M : ℝ} (hab : ∀ m, m ≤ k → τ m ∈ Set.Icc a b) (Q : ℝ[X]) (hQ : Q.natDegree ≤ k)
    (hQs : ∀ m, m ≤ k → Q.eval (τ m) = f (τ m)) (t c : ℝ) (hc : c ∈ Set.Icc a b) (ht : τ 1 ≤ t) (htc : t ≤ c) (h0 : τ 0 ≤ c)
    (hM : ∀ ξ ∈ Set.Icc a b, |iteratedDeriv (k + 1) f ξ| ≤ M) :
    |(derivative Q).eval t - deriv f t| ≤ M / k.factorial * ∏ m ∈ Ico 1 (k + 1), |c - τ m| := by
  obtain ⟨m, rfl⟩ : ∃ m, k = m + 1 := ⟨k - 1, by omega⟩
  have key := deriv_bound (m := m) (f := f) hf (a := a) (b := c) (M := M) (fun i => τ (m + 1 - i.val))
    (fun i j hij => hτ _ _ (by have := i.isLt; have := j.isLt; have : i.val < j.val := hij; omega) (by omega))
    (hab _ (by omega)).1 Q hQ (fun i => hQs _ (by omega)) t
    (by show τ (m + 1 - m) ≤ t; rw [show m + 1 - m = 1 by omega]; exact ht) htc
    (by show τ (m + 1 - (m + 1)) ≤ c; rw [Nat.sub_self]; exact h0) (fun ξ h => hM ξ ⟨h.1, h.2.trans hc.2⟩)
  refine key.trans (le_of_eq ?_)
  congr 1
  have e : ∏ j : Fin (m + 1), |c - τ (m + 1 - (j.castSucc).val)| = ∏ i ∈ range (m + 1), |c - τ (m + 1 - i)| :=
    Fin.prod_univ_eq_prod_range (fun i => |c - τ (m + 1 - i)|) (m + 1)
  rw [e, prod_Ico_eq_prod_range, ← prod_range_reflect, Nat.add_sub_cancel]
  refine prod_congr rfl fun i hi => ?_
  have := mem_range.1 hi
  congr 3
  omega

/-- The error of the derivative at `t`, not before the last but one node; `c` is not before `t` nor any node. -/
theorem slope_bound {k : ℕ} (hk : 1 ≤ k) {τ : ℕ → ℝ} {d : ℝ} (hτ : Descend τ d k) {f : ℝ → ℝ}
    (hf : ContDiff ℝ (k + 1 : ℕ) f) {a b M : ℝ} (hab : ∀ m, m ≤ k → τ m ∈ Set.Icc a b) (Q : ℝ[X]) (hQ : Q.natDegree ≤ k)
    (hQs : ∀ m, m ≤ k → Q.eval (τ m) = f (τ m)) (t c : ℝ) (hc : c ∈ Set.Icc a b) (ht : 0 ≤ (t - τ 1) * d) (htc : 0 ≤ (c - t) * d)
    (h0 : 0 ≤ (c - τ 0) * d) (hM : ∀ ξ ∈ Set.Icc a b, |iteratedDeriv (k + 1) f ξ| ≤ M) :
    |(derivative Q).eval t - deriv f t| ≤ M / k.factorial * ∏ m ∈ Ico 1 (k + 1), |c - τ m| := by
  have hd0 : d ≠ 0 := by intro h; have := hτ 0 1 (by omega) hk; rw [h, mul_zero] at this; exact lt_irrefl _ this
  rcases lt_or_gt_of_ne hd0 with hd | hd
  · have e1 : ∀ x y : ℝ, 0 ≤ (x - y) * d → x ≤ y := fun x y h => by
      by_contra hn
      exact absurd h (not_le.2 (mul_neg_of_pos_of_neg (sub_pos.2 (not_le.1 hn)) hd))
    have e2 : ∀ x y : ℝ, 0 < (x - y) * d → x < y := fun x y h => by
      by_contra hn
      exact absurd h (not_lt.2 (mul_nonpos_of_nonneg_of_nonpos (sub_nonneg.2 (not_lt.1 hn)) hd.le))
    have key := slope_bound_pos hk (τ := fun m => -τ m) (fun i j hi hj => neg_lt_neg (e2 _ _ (hτ i j hi hj)))
      (f := fun u => f (-u)) (hf.comp contDiff_neg) (a := -b) (b := -a) (M := M)
      (fun m hm => ⟨neg_le_neg (hab m hm).2, neg_le_neg (hab m hm).1⟩) (Q.comp (-X))
      (by rw [natDegree_comp, natDegree_neg, natDegree_X, mul_one]; exact hQ)
      (fun m hm => by simp [hQs m hm]) (-t) (-c) ⟨neg_le_neg hc.2, neg_le_neg hc.1⟩
      (neg_le_neg (e1 _ _ ht)) (neg_le_neg (e1 _ _ htc)) (neg_le_neg (e1 _ _ h0))
      (fun ξ h => by
        rw [iteratedDeriv_comp_neg, smul_eq_mul, abs_mul, abs_pow, abs_neg, abs_one, one_pow, one_mul]
        exact hM _ ⟨by linarith [h.2], by linarith [h.1]⟩)
    have h1 : (derivative (Q.comp (-X))).eval (-t) = -(derivative Q).eval t := by
      rw [derivative_comp]; simp
    have h2 : deriv (fun u => f (-u)) (-t) = -deriv f t := by
      rw [deriv_comp_neg, neg_neg]
    rw [h1, h2, show -(derivative Q).eval t - -deriv f t = -((derivative Q).eval t - deriv f t) by ring, abs_neg] at key
    refine key.trans (le_of_eq ?_)
    congr 1
    refine prod_congr rfl fun m _ => ?_
    rw [show -c - -τ m = -(c - τ m) by ring, abs_neg]
  · have e1 : ∀ x y : ℝ, 0 ≤ (x - y) * d → y ≤ x := fun x y h => by
      have := nonneg_of_mul_nonneg_left h hd; linarith
    have e2 : ∀ x y : ℝ, 0 < (x - y) * d → y < x := fun x y h => by
      have := pos_of_mul_pos_left h hd.le; linarith
    exact slope_bound_pos hk (fun i j hi hj => e2 _ _ (hτ i j hi hj)) hf hab Q hQ hQs t c hc (e1 _ _ ht) (e1 _ _ htc) (e1 _ _ h0) hM

/-- Interpolation of perturbed values. -/
theorem perturbed_bound {k : ℕ} {τ : ℕ → ℝ} {d : ℝ} (hτ : Descend τ d k) {f : ℝ → ℝ} (hf : ContDiff ℝ (k + 1 : ℕ) f) {a b M : ℝ}
    (hab : ∀ m, m ≤ k → τ m ∈ Set.Icc a b) (Q : ℝ[X]) (hQ : Q.natDegree ≤ k) (E : ℕ → ℝ)
    (hQs : ∀ m, m ≤ k → |Q.eval (τ m) - f (τ m)| ≤ E m) (t : ℝ) (ht : t ∈ Set.Icc a b)
    (hM : ∀ ξ ∈ Set.Icc a b, |iteratedDeriv (k + 1) f ξ| ≤ M) :
    |Q.eval t - f t| ≤ M / (k + 1).factorial * ∏ m ∈ range (k + 1), |t - τ m| +
      ∑ m ∈ range (k + 1), E m * ∏ j ∈ (range (k + 1)).erase m, |(t - τ j) / (τ m - τ j)| := by
  set D := Lagrange.interpolate (range (k + 1)) τ (fun m => Q.eval (τ m) - f (τ m)) with hD
  have hDd : D.natDegree ≤ k := by
    have := Lagrange.degree_interpolate_lt (r := fun m => Q.eval (τ m) - f (τ m)) hτ.inj
    rw [card_range] at this
    by_cases h0 : D = 0
    · rw [h0]; simp
    · have := (natDegree_lt_iff_degree_lt h0).2 this
      omega
  have hDs : ∀ m, m ≤ k → D.eval (τ m) = Q.eval (τ m) - f (τ m) := fun m hm =>
    Lagrange.eval_interpolate_at_node _ hτ.inj (mem_range.2 (by omega))
  have h1 := value_bound hτ hf hab (Q - D) ((natDegree_sub_le _ _).trans (max_le hQ hDd))
    (fun m hm => by rw [eval_sub, hDs m hm]; ring) t ht hM
  have h2 : |D.eval t| ≤ ∑ m ∈ range (k + 1), E m * ∏ j ∈ (range (k + 1)).erase m, |(t - τ j) / (τ m - τ j)| := by
    rw [hD, Lagrange.interpolate_apply, eval_finsetSum]
    refine (abs_sum_le_sum_abs _ _).trans (sum_le_sum fun m hm => ?_)
    rw [eval_mul, eval_C, abs_mul, Lagrange.basis, eval_prod, abs_prod]
    refine mul_le_mul (hQs m (by have := mem_range.1 hm; omega)) (le_of_eq (prod_congr rfl fun j _ => ?_))
      (prod_nonneg fun _ _ => abs_nonneg _) ((abs_nonneg _).trans (hQs m (by have := mem_range.1 hm; omega)))
    rw [Lagrange.basisDivisor, eval_mul, eval_C, eval_sub, eval_X, eval_C, div_eq_inv_mul]
  rw [eval_sub] at h1
  have h3 : Q.eval t - f t = (Q.eval t - D.eval t - f t) + D.eval t := by ring
  rw [h3]
  exact (abs_add_le _ _).trans (add_le_add h1 h2)

end Verif.InterpErr
