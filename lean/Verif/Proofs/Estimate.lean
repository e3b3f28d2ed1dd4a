import Verif.Proofs.History
import Verif.Spec.Select
import Mathlib.LinearAlgebra.Lagrange

/-! # The error estimates of an attempt in terms of the accepted points (exact arithmetic) -/

set_option autoImplicit false
set_option linter.unusedSectionVars false
set_option linter.unusedSimpArgs false
set_option linter.unusedVariables false

namespace Verif

open Polynomial Finset Verif.Spec

universe u v

section
variable {ν : Type v} {n q : Nat} {K : Type u} [Field K] [LinearOrder K] [IsStrictOrderedRing K] [ExactParams K]
  [EpsLaws K]

/-- Lagrange's formula. -/
theorem lagrange_eval {j : Nat} {t : Nat → K} (ht : Set.InjOn t (range (j + 1) : Finset Nat)) {Q : K[X]} (hQ : Q.natDegree ≤ j) (x : K) :
    Q.eval x = ∑ m ∈ range (j + 1), Q.eval (t m) * ∏ l ∈ (range (j + 1)).erase m, (x - t l) / (t m - t l) := by
  have hdeg : Q.degree < (range (j + 1)).card := by
    rw [card_range]
    exact lt_of_le_of_lt degree_le_natDegree (by exact_mod_cast Nat.lt_succ_of_le hQ)
  have h := Lagrange.eq_interpolate ht hdeg
  have h2 : Q.eval x = (Lagrange.interpolate (range (j + 1)) t fun i => Q.eval (t i)).eval x := by rw [← h]
  rw [h2, Lagrange.interpolate_apply, eval_finsetSum]
  refine sum_congr rfl fun m hm => ?_
  rw [eval_mul, eval_C]
  congr 1
  unfold Lagrange.basis
  rw [eval_prod]
  refine prod_congr rfl fun l hl => ?_
  unfold Lagrange.basisDivisor
  simp only [eval_mul, eval_C, eval_sub, eval_X]
  rw [div_eq_inv_mul]

/-- The extrapolated values are those of the interpolating polynomial. -/
theorem extrapolate_eq {x : Att n K} {h : Hist n K} {D j : Nat} {tn hh d : K} (hd : Data tn h x.before D) (hj : j ≤ D)
    (hlen : j + 1 ≤ x.before.length) (hA : x.before.Pairwise fun a b => 0 < (a.1 - b.1) * d) (i : Fin n) :
    extrapolate x j i = (interpPoly tn h j i).eval x.tnew := by
  have hinj : Set.InjOn (fun m => (point x m).1) (range (j + 1) : Finset Nat) := by
    have key : ∀ a b, a < b → b < j + 1 → (point x a).1 ≠ (point x b).1 := by
      intro a b hab hb he
      rw [point_getD x a (by omega), point_getD x b (by omega)] at he
      have := List.pairwise_iff_getElem.1 hA a b (by omega) (by omega) hab
      rw [he, sub_self, zero_mul] at this
      exact lt_irrefl _ this
    intro a ha b hb hab
    rw [coe_range, Set.mem_Iio] at ha hb
    by_contra hne
    rcases Nat.lt_or_gt_of_ne hne with h | h
    · exact key a b h hb hab
    · exact key b a h ha hab.symm
  have hT := hd.through (k := j) hj
  rw [lagrange_eval hinj (hT.1 i) x.tnew]
  unfold extrapolate
  refine sum_congr rfl fun m hm => ?_
  rw [mem_range] at hm
  congr 1
  rw [point_getD x m (by omega)]
  exact (hT.2 m (by omega) _ (List.getElem?_eq_getElem (by omega)) i).symm

/-- The error estimates of an attempt made in `s`, as computed by the code. -/
structure Estimates (cfg : Cfg ν n q K) (s : State ν n q K) (x : Att n K) (ee : Vec n K) : Prop where
  cur : estimate cfg x s.c.kk = (coefHist s).sigma s.c.kk * wrmsNorm cfg.id ee s.e.ewt cfg.suppressalg
  lower1 : 1 < s.c.kk → estimate cfg x (s.c.kk - 1) =
    (coefHist s).sigma (s.c.kk - 1) * wrmsNorm cfg.id (vadd ((coefHist s).phi s.c.kk) ee) s.e.ewt cfg.suppressalg
  lower2 : 2 < s.c.kk → estimate cfg x (s.c.kk - 2) =
    (coefHist s).sigma (s.c.kk - 2) *
      wrmsNorm cfg.id (vadd (vadd ((coefHist s).phi s.c.kk) ee) ((coefHist s).phi (s.c.kk - 1))) s.e.ewt cfg.suppressalg

theorem interpPoly_pred (tn hh : K) (h : Hist n K) (k : Nat) (i : Fin n) :
    (interpPoly tn h (k + 1) i).eval (tn + hh) =
      (interpPoly tn h k i).eval (tn + hh) + h.phi (k + 1) i * betaP hh h.psi (k + 1) := by
  unfold interpPoly
  rw [sum_range_succ, eval_add, eval_mul, eval_C, nb_eval_new]

/-- The factors are the coefficients `sigma`. -/
theorem errFactor_eq {x : Att n K} {tn hh : K} {psi : Nat → K} {j : Nat} (hx : x.tnew = tn + hh) (hh' : x.hh = hh)
    (ht : ∀ m, m ≤ j → (point x m).1 = node tn psi m) :
    errFactor x j = ∏ i ∈ range j, (((i : Nat) : K) + 1) * (hh / psiN hh psi (i + 1)) := by
  unfold errFactor
  refine prod_congr rfl fun i hi => ?_
  rw [mem_range] at hi
  rw [hx, hh', ht (i + 1) (by omega), psiN_eq]

theorem HistLoop.estimates {cfg : Cfg ν n q K} {s0 s : State ν n q K} (hCtl : CtlInv cfg s0) (hI : HistInv cfg s0)
    (hm : 0 < s0.cnt.nst → s0.c.kk ≤ cfg.maxord) (hw : Within s0.tstop s0.e.tn s0.c.hh)
    (hC : CtlLoop s0 s) (h : HistLoop s0 s) (h0 : s0.c.hh ≠ 0) (ee : Vec n K) (out : AttOut) :
    Estimates cfg s (attRec s s0.e.tn ee out) ee := by
  obtain ⟨hne, hp, hN⟩ := h.pos hI hC h0
  have hs := coefHist_starred hne h.ready (fun i hi => left_ne_zero_of_mul (hp i hi).ne')
  have hd := h.before hI hm hC hs
  have hnt : newTime s = s.e.tn + s.c.hh := newTime_within (hC.within hw)
  have hA := h.attempt hCtl hI hm hw hC h0 ee out
  have hz : s.c.kk ≠ 1 → 0 < s0.cnt.nst := fun h1 => by
    by_contra h2
    exact h1 (h.first (by omega)).1
  have hlen : s.c.kk + 1 ≤ (attRec s s0.e.tn ee out).before.length ∨ (s0.cnt.nst = 0 ∧ s.c.kk = 1) := by
    rcases hA.enough with h1 | ⟨h1, h2⟩
    · exact Or.inl h1
    · by_cases hz0 : s0.cnt.nst = 0
      · exact Or.inr ⟨hz0, h2⟩
      · left
        have hb : (attRec s s0.e.tn ee out).before = s.g.acc := by
          show (if s.cnt.nst = 0 then _ else _) = _
          rw [if_neg (by rw [hC.cnt]; exact hz0)]
        rw [hb, hC.acc, hCtl.len (by omega)]
        have := h.kk (by omega)
        have := (hI.kk (by omega)).2
        omega
  have hfac : ∀ j, j ≤ s.c.kk → errFactor (attRec s s0.e.tn ee out) j = (coefHist s).sigma j := by
    intro j hj
    rw [hs.sigma j hj]
    exact errFactor_eq hnt rfl fun m hm => attRec_time hI hC h hd hlen m (by omega)
  have hext : ∀ j, j ≤ s.c.kk → 1 < s.c.kk → ∀ i, extrapolate (attRec s s0.e.tn ee out) j i =
      (interpPoly s.e.tn s.h j i).eval (s.e.tn + s.c.hh) := by
    intro j hj hk i
    rw [extrapolate_eq (hh := s.c.hh) hd hj (by rcases hlen with h | h <;> omega) hA.apart i]
    show Polynomial.eval (newTime s) _ = _
    rw [hnt]
  have hpy : ∀ i, predY s i = (interpPoly s.e.tn s.h s.c.kk i).eval (s.e.tn + s.c.hh) := predY_eq hs
  have hphi : ∀ j, j ≤ s.c.kk → ∀ i, (coefHist s).phi j i = s.h.phi j i * betaP s.c.hh s.h.psi j := by
    intro j hj i
    rw [hs.phi, if_pos hj]; rfl
  refine ⟨?_, fun hk => ?_, fun hk => ?_⟩
  · unfold estimate
    rw [hfac _ (le_refl _), if_pos (by rfl)]
    congr 2
    funext i
    show (predY s i + ee i) - predY s i = _
    ring
  · unfold estimate
    rw [hfac _ (by omega), if_neg (by show ¬ s.c.kk - 1 = s.c.kk; omega)]
    congr 2
    funext i
    obtain ⟨m, hm'⟩ : ∃ m, s.c.kk = m + 1 := ⟨s.c.kk - 1, by omega⟩
    show (predY s i + ee i) - extrapolate _ (s.c.kk - 1) i = (coefHist s).phi s.c.kk i + ee i
    rw [hext _ (by omega) hk, hpy, hphi _ (le_refl _), hm', Nat.add_sub_cancel, interpPoly_pred]
    ring
  · unfold estimate
    rw [hfac _ (by omega), if_neg (by show ¬ s.c.kk - 2 = s.c.kk; omega)]
    congr 2
    funext i
    obtain ⟨m, hm'⟩ : ∃ m, s.c.kk = m + 1 + 1 := ⟨s.c.kk - 2, by omega⟩
    show (predY s i + ee i) - extrapolate _ (s.c.kk - 2) i = (coefHist s).phi s.c.kk i + ee i + (coefHist s).phi (s.c.kk - 1) i
    rw [hext _ (by omega) (by omega), hpy, hphi _ (le_refl _), hphi _ (by omega), hm', show m + 1 + 1 - 2 = m by omega,
      Nat.add_sub_cancel, interpPoly_pred, interpPoly_pred]
    ring

/-- The estimate for the next higher order, after enough steps of the same size and order. -/
theorem HistLoop.estimate_up {cfg : Cfg ν n q K} {s0 s : State ν n q K} (hCtl : CtlInv cfg s0) (hI : HistInv cfg s0)
    (hm : 0 < s0.cnt.nst → s0.c.kk ≤ cfg.maxord) (hw : Within s0.tstop s0.e.tn s0.c.hh)
    (hC : CtlLoop s0 s) (h : HistLoop s0 s) (h0 : s0.c.hh ≠ 0) (ee : Vec n K) (out : AttOut)
    (hn : 0 < s0.cnt.nst) (he : s.c.hh = s.c.hused ∧ s.c.kk = s.c.kused) (hns : s.c.kk < s.c.ns)
    (hd : Data s.e.tn s.h s.g.acc (s.c.kk + 1)) (hlen : s.c.kk + 2 ≤ s.g.acc.length) :
    estimate cfg (attRec s s0.e.tn ee out) (s.c.kk + 1) =
      wrmsNorm cfg.id (vsub ee ((coefHist s).phi (s.c.kk + 1))) s.e.ewt cfg.suppressalg / ((s.c.kk : K) + 2) := by
  obtain ⟨hne, hp, hN⟩ := h.pos hI hC h0
  have hs := coefHist_starred hne h.ready (fun i hi => left_ne_zero_of_mul (hp i hi).ne')
  have hnt : newTime s = s.e.tn + s.c.hh := newTime_within (hC.within hw)
  have hA := h.attempt hCtl hI hm hw hC h0 ee out
  have hb : (attRec s s0.e.tn ee out).before = s.g.acc := by
    show (if s.cnt.nst = 0 then _ else _) = _
    rw [if_neg (by rw [hC.cnt]; omega)]
  have hall : ∀ i, i < s.c.kk + 1 → s.h.psi i = ((i : K) + 1) * s.c.hh := by
    intro i hi
    rw [he.1]
    by_cases hik : i = s.c.kk
    · subst hik; exact (h.kept he.1 he.2 hns).1
    · exact h.equal he.1 he.2 i (by omega) (by omega)
  have hNe : ∀ i, i ≤ s.c.kk + 1 → psiN s.c.hh s.h.psi i = ((i : K) + 1) * s.c.hh := psiN_equal hall
  have hpos : ∀ i : Nat, ((i : K) + 1) ≠ 0 := fun i => by exact_mod_cast Nat.succ_ne_zero i
  have hbeta : betaP s.c.hh s.h.psi (s.c.kk + 1) = 1 :=
    betaP_one (fun i hi => by rw [hall i hi, hNe i (by omega)]) (fun i hi => by
      rw [hall i hi]; exact mul_ne_zero (hpos i) hne)
  have hfac : errFactor (attRec s s0.e.tn ee out) (s.c.kk + 1) = ((s.c.kk : K) + 2)⁻¹ := by
    rw [errFactor_eq (hh := s.c.hh) (psi := s.h.psi) hnt rfl fun m hm => attRec_time hI hC h (D := s.c.kk + 1) (by rw [hb]; exact hd)
      (Or.inl (by rw [hb]; omega)) m hm]
    have key : ∀ k, k ≤ s.c.kk + 1 → ∏ i ∈ range k, (((i : Nat) : K) + 1) * (s.c.hh / psiN s.c.hh s.h.psi (i + 1)) =
        ((k : K) + 1)⁻¹ := by
      intro k
      induction k with
      | zero => intro _; simp
      | succ k ih =>
        intro hk
        rw [prod_range_succ, ih (by omega), hNe (k + 1) (by omega)]
        have h1 := hpos k
        have h2 := hpos (k + 1)
        push_cast at h2 ⊢
        field_simp
    rw [key _ (le_refl _)]
    push_cast; ring
  unfold estimate
  rw [hfac, if_neg (by show ¬ s.c.kk + 1 = s.c.kk; omega), ← div_eq_inv_mul]
  congr 2
  funext i
  show (predY s i + ee i) - extrapolate _ (s.c.kk + 1) i = ee i - (coefHist s).phi (s.c.kk + 1) i
  rw [extrapolate_eq (hh := s.c.hh) (D := s.c.kk + 1) (by rw [hb]; exact hd) (le_refl _) (by rw [hb]; omega) hA.apart i]
  show (predY s i + ee i) - Polynomial.eval (newTime s) _ = _
  rw [hnt, interpPoly_pred, predY_eq hs, hbeta, hs.phi, if_neg (by omega)]
  ring

end

end Verif
