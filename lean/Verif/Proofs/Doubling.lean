import Verif.Proofs.Affine
import Verif.Proofs.SelectInv
import Verif.Spec.Later

/-! # Step sizes for problems with an affine solution, without stop time (exact scalars) -/

set_option autoImplicit false
set_option linter.unusedSectionVars false
set_option linter.unusedSimpArgs false
set_option linter.unusedVariables false

namespace Verif

open Verif.Spec Polynomial Finset

universe u v

section
variable {ν : Type v} {n q : Nat} {K : Type u} [Field K] [LinearOrder K] [IsStrictOrderedRing K] [ExactParams K] [EpsLaws K]

/-! ## No stop time -/

/-- There is no stop time, and there was none in any attempt. -/
def Unstopped (s : State ν n q K) : Prop := s.tstop = none ∧ ∀ x ∈ s.g.atts, x.stop = none

theorem Unstopped.of_eq {s s' : State ν n q K} (h : Unstopped s) (hg : s'.g = s.g) (ht : s'.tstop = s.tstop) :
    Unstopped s' := by
  unfold Unstopped at *
  rw [hg, ht]; exact h

theorem unstopped_done {cfg : Cfg ν n q K} {s0 s' : State ν n q K} (hI : Unstopped s0) (hD : CtlDone cfg s0 s') :
    Unstopped s' := by
  obtain ⟨x, l, hx, hT, -, -, -, -, -, -, hl⟩ := hD.last
  refine ⟨hD.tstop.trans hI.1, fun z hz => ?_⟩
  rw [hx] at hz
  rcases List.mem_cons.1 hz with rfl | hz
  · exact hT.stop.trans hI.1
  · rcases List.mem_append.1 hz with hz | hz
    · exact (hl z hz).1.stop.trans hI.1
    · exact hI.2 z hz

theorem unstopped_fail {s0 s' : State ν n q K} (hI : Unstopped s0) (hL : CtlLoop s0 s') : Unstopped s' := by
  obtain ⟨l, hx, hl⟩ := hL.atts
  refine ⟨hL.tstop.trans hI.1, fun z hz => ?_⟩
  rw [hx] at hz
  rcases List.mem_append.1 hz with hz | hz
  · exact (hl z hz).1.stop.trans hI.1
  · exact hI.2 z hz

theorem unstopped_micro {cfg : Cfg ν n q K} (hl : NlsLegal cfg) (hm : 0 ≤ cfg.hmaxInv) {s s' : State ν n q K}
    (h : CtlInv cfg s) (hI : Unstopped s) (hM : Micro cfg s s') : Unstopped s' := by
  cases hM with
  | frame hf => exact hI.of_eq hf.g hf.tstop
  | perf => exact hI.of_eq rfl rfl
  | clear => exact ⟨rfl, hI.2⟩
  | clamp ts h1 h2 h3 => rw [hI.1] at h2; cases h2
  | ewt h1 => exact hI.of_eq rfl rfl
  | first tout r h1 h2 => exact hI.of_eq (firstCall_same h2).g (firstCall_same h2).tstop
  | firstStep tout h1 h2 h3 h4 =>
    obtain ⟨g1, g2, g3, g4, -, -⟩ := firstStep_start hm h h1 h2 h3
    have hs := firstCall_same h2
    rcases step_ctl hl hm g3 g4 h4 with ⟨-, hD⟩ | ⟨e, he, -⟩
    · exact unstopped_done (hI.of_eq (by rw [h3.g]; exact hs.g) (by rw [h3.tstop]; exact hs.tstop)) hD
    · cases he
  | step h1 h2 h3 =>
    rcases step_ctl hl hm (h.hmax h1) h2.within h3 with ⟨-, hD⟩ | ⟨e, he, -⟩
    · exact unstopped_done hI hD
    · cases he

theorem unstopped_microFail {cfg : Cfg ν n q K} (hl : NlsLegal cfg) (hm : 0 ≤ cfg.hmaxInv) {s s' : State ν n q K}
    {e : Err} (h : CtlInv cfg s) (hI : Unstopped s) (hM : MicroFail cfg s e s') : Unstopped s' := by
  cases hM with
  | firstStep tout e h1 h2 h3 h4 =>
    obtain ⟨g1, g2, g3, g4, -, -⟩ := firstStep_start hm h h1 h2 h3
    have hs := firstCall_same h2
    rcases step_ctl hl hm g3 g4 h4 with ⟨he, -⟩ | ⟨e, -, hL⟩
    · cases he
    · exact unstopped_fail (hI.of_eq (by rw [h3.g]; exact hs.g) (by rw [h3.tstop]; exact hs.tstop)) hL
  | step e h1 h2 h3 =>
    rcases step_ctl hl hm (h.hmax h1) h2.within h3 with ⟨he, -⟩ | ⟨e, -, hL⟩
    · cases he
    · exact unstopped_fail hI hL

theorem later_unstopped {cfg : Cfg ν n q K} (hl : NlsLegal cfg) (hm : 0 ≤ cfg.hmaxInv) {nls0 : ν} {y0 yp0 : Vec n K}
    {s : State ν n q K} (h : Later cfg (State.new nls0 y0 yp0) s) : Unstopped s := by
  have key : CtlInv cfg s ∧ Unstopped s := by
    induction h with
    | refl => exact ⟨ctlInv_new cfg nls0 y0 yp0 none, rfl, fun x hx => by cases hx⟩
    | call rf sf op r _ he ih =>
      have hM : ∀ s s', (CtlInv cfg s ∧ Unstopped s) → Micro cfg s s' → CtlInv cfg s' ∧ Unstopped s' :=
        fun _ _ h1 h2 => ⟨ctlInv_micro hl hm h1.1 h2, unstopped_micro hl hm h1.1 h1.2 h2⟩
      rcases exec_ends he with ⟨r', -, hend⟩ | ⟨-, hmic⟩
      · cases hend with
        | clean h1 _ => exact h1.inv hM ih
        | failed s1 s2 e h1 h2 h3 _ =>
          have := h1.inv hM ih
          exact hM _ _ ⟨ctlInv_microFail hl hm this.1 h2, unstopped_microFail hl hm this.1 this.2 h2⟩ (.frame h3)
      · exact hmic.inv hM ih
  exact key.2

theorem later_reachFrom {cfg : Cfg ν n q K} {nls0 : ν} {y0 yp0 : Vec n K} {s : State ν n q K}
    (h : Later cfg (State.new nls0 y0 yp0) s) : ReachFrom cfg y0 yp0 s := by
  induction h with
  | refl => exact ReachFrom.new nls0 none
  | call rf sf op r _ he ih => exact .call rf sf op r ih he

/-! ## The estimates are zero -/

/-- Points of the line are extrapolated to the line. -/
theorem extrapolate_line {x : Att n K} {y0 yp0 : Vec n K} {j : Nat} {d : K} (h1 : 1 ≤ j) (hlen : j + 1 ≤ x.before.length)
    (hA : x.before.Pairwise fun a b => 0 < (a.1 - b.1) * d) (hb : ∀ p ∈ x.before, p.2 = line y0 yp0 p.1) :
    extrapolate x j = line y0 yp0 x.tnew := by
  have hinj : Set.InjOn (fun m => (point x m).1) (range (j + 1) : Finset Nat) := by
    have key : ∀ a b, a < b → b < j + 1 → (point x a).1 ≠ (point x b).1 := by
      intro a b hab hb he
      rw [point_getD x a (by omega), point_getD x b (by omega)] at he
      have := List.pairwise_iff_getElem.1 hA a b (by omega) (by omega) hab
      rw [he, sub_self, zero_mul] at this
      exact lt_irrefl _ this
    intro a ha b hb hab
    rw [coe_range, Set.mem_Iio] at ha hb
    by_contra hne
    rcases Nat.lt_or_gt_of_ne hne with h | h
    · exact key a b h hb hab
    · exact key b a h ha hab.symm
  funext i
  have hdeg : (C (y0 i) + C (yp0 i) * X : K[X]).natDegree ≤ j := by
    refine (natDegree_add_le _ _).trans (max_le (by simp) ?_)
    exact (natDegree_C_mul_le _ _).trans ((natDegree_X_le).trans h1)
  have e : ∀ t, (C (y0 i) + C (yp0 i) * X : K[X]).eval t = line y0 yp0 t i := by
    intro t; simp [line]; ring
  rw [← e x.tnew, lagrange_eval hinj hdeg x.tnew]
  unfold extrapolate
  refine sum_congr rfl fun m hm => ?_
  rw [mem_range] at hm
  congr 1
  rw [e, point_getD x m (by omega), hb _ (List.getElem_mem _)]

/-- What is used about every attempt. -/
structure Plain (y0 yp0 : Vec n K) (x : Att n K) : Prop where
  line : OnLine y0 yp0 x
  hist : AttHist x
  stop : x.stop = none
  kk : x.kk ≤ 5

theorem estimate_own {cfg : Cfg ν n q K} (h0 : ExactParams.sqrt (0 : K) = 0) {y0 yp0 : Vec n K} {x : Att n K}
    (h : Plain y0 yp0 x) : estimate cfg x x.kk = 0 := by
  unfold estimate
  rw [if_pos rfl, onLine_yy h.line h.hist.yy, h.line.pred]
  simp only [sub_self]
  rw [wrmsNorm_zero h0, mul_zero]

theorem estimate_below {cfg : Cfg ν n q K} (h0 : ExactParams.sqrt (0 : K) = 0) {y0 yp0 : Vec n K} {x : Att n K}
    (h : Plain y0 yp0 x) (hk : 2 ≤ x.kk) : estimate cfg x (x.kk - 1) = 0 := by
  have hlen : x.kk + 1 ≤ x.before.length := by
    rcases h.hist.enough with h | ⟨-, h⟩
    · exact h
    · omega
  unfold estimate
  rw [if_neg (by omega), onLine_yy h.line h.hist.yy,
    extrapolate_line (j := x.kk - 1) (by omega) (by omega) h.hist.apart h.line.before]
  simp only [sub_self]
  rw [wrmsNorm_zero h0, mul_zero]

/-! ## The sizes -/

/-- The power function at the values used for a vanishing error estimate. -/
def PowerLarge (K : Type u) [Field K] [LinearOrder K] [ExactParams K] : Prop :=
  ∀ k : Nat, 1 ≤ k → k ≤ 5 → (2 : K) ≤ ExactParams.powf (1 / 10000) (-((k + 1 : Nat) : K)⁻¹)

theorem sizeAfter_zero {cfg : Cfg ν n q K} (hz : cfg.hmaxInv = 0) (hp : PowerLarge K) {k : Nat} (h1 : 1 ≤ k) (h5 : k ≤ 5) (h : K) :
    sizeAfter cfg h (ratio k 0) = 2 * h := by
  have : (2 : K) ≤ ratio k 0 := by
    unfold ratio
    rw [mul_zero, zero_add]
    exact hp k h1 h5
  unfold sizeAfter limited
  rw [if_pos this, hz, mul_zero, if_neg (not_lt.2 zero_le_one)]

theorem choice_size {cfg : Cfg ν n q K} (hz : cfg.hmaxInv = 0) (h0 : ExactParams.sqrt (0 : K) = 0) (hp : PowerLarge K)
    {y0 yp0 : Vec n K} {y : Att n K} {l : List (Att n K)} (h : Plain y0 yp0 y) (hl : l ≠ []) (hs : streak (y :: l) ≤ 2) :
    (choice cfg l y).2 = 2 * y.hh := by
  unfold choice
  simp only [h.line.out, if_neg hl]
  split
  · unfold limited
    show (if 1 < |2 * y.hh| * cfg.hmaxInv then _ else _) = _
    rw [hz, mul_zero, if_neg (not_lt.2 zero_le_one)]
  · have h1 := h.hist.kk
    have h5 := h.kk
    have ho : (orderAfter cfg l y = y.kk - 1 ∧ 2 ≤ y.kk) ∨ orderAfter cfg l y = y.kk := by
      unfold orderAfter
      by_cases hlow : lowers cfg y = true
      · left
        simp only [hlow, if_true]
        exact ⟨trivial, lowers_two hlow⟩
      · right
        simp only [hlow, if_false, Bool.false_eq_true]
        rw [if_pos (Or.inr (by omega))]
    rcases ho with ⟨ho, h2⟩ | ho
    · simp only [ho]
      rw [estimate_below h0 h h2]
      exact sizeAfter_zero hz hp (by omega) (by omega) _
    · simp only [ho]
      rw [estimate_own h0 h]
      exact sizeAfter_zero hz hp h1 h5 _

theorem choice_first {cfg : Cfg ν n q K} (hm : cfg.maxord = 5) {y0 yp0 : Vec n K} {y : Att n K} (h : Plain y0 yp0 y) (hk : y.kk = 1) :
    (choice cfg [] y).2 = y.hh := by
  have hs : inStartUp cfg [y] = true := by
    unfold inStartUp lowers
    simp [isAccepted, h.line.out, hk, hm]
  unfold choice
  simp only [h.line.out, hs, if_true]

/-- The first size, the same again, then doubled each time. -/
theorem sizes_of {cfg : Cfg ν n q K} (hz : cfg.hmaxInv = 0) (hm : cfg.maxord = 5) (h0 : ExactParams.sqrt (0 : K) = 0)
    (hp : PowerLarge K) {y0 yp0 : Vec n K} : ∀ (L : List (Att n K)) (z : Att n K), (∀ x ∈ L ++ [z], Plain y0 yp0 x) →
    AllChosen cfg (L ++ [z]) → Lawful cfg (L ++ [z]) →
    ∀ x l, L ++ [z] = x :: l → x.hh = z.hh * 2 ^ (l.length - 1) ∧ x.tnew = z.hh * 2 ^ l.length ∧ streak (x :: l) ≤ 2
  | [], z, hP, hA, hL, x, l, e => by
    cases e
    have ht := (hP z (by simp)).hist.tnew
    have h1 : z.t0 = 0 := (hL.1 : Follows cfg [] (planOf z)).1
    refine ⟨by simp, by simp [ht, h1], by simp [streak]⟩
  | w :: L, z, hP, hA, hL, x, l, e => by
    rw [List.cons_append] at e
    obtain ⟨rfl, rfl⟩ := List.cons.inj e
    obtain ⟨y, r, hr⟩ : ∃ y r, L ++ [z] = y :: r := by
      cases L with
      | nil => exact ⟨z, [], rfl⟩
      | cons a L => exact ⟨a, L ++ [z], rfl⟩
    obtain ⟨i1, i2, i3⟩ := sizes_of hz hm h0 hp L z (fun x hx => hP x (List.mem_cons_of_mem _ hx)) hA.2 hL.2 y r hr
    have hPx := hP w (List.mem_cons_self ..)
    have hPy := hP y (List.mem_cons_of_mem _ (by show y ∈ L ++ [z]; rw [hr]; exact List.mem_cons_self ..))
    have hc : Chosen cfg (L ++ [z]) (planOf w) := hA.1
    have hf : Follows cfg (L ++ [z]) (planOf w) := hL.1
    have hA2 : AllChosen cfg (L ++ [z]) := hA.2
    rw [hr] at hc hf hA2
    have ht0 : w.t0 = y.tnew := by
      unfold Follows at hf
      simp only [hPy.line.out] at hf
      exact hf.t0
    have hsz : w.hh = (choice cfg r y).2 := by
      rcases hc.2 with h | ⟨-, ts, h, -⟩
      · exact h
      · rw [hPy.stop] at h; cases h
    rw [hr]
    have hw : w.hh = if r = [] then y.hh else 2 * y.hh := by
      rw [hsz]
      split
      · rename_i hr0
        subst hr0
        exact choice_first hm hPy hA2.1
      · rename_i hr0
        exact choice_size hz h0 hp hPy hr0 i3
    have hacc : isAccepted y = true := by unfold isAccepted; rw [hPy.line.out]
    have hst : streak (w :: y :: r) = if w.hh = y.hh ∧ w.kk = y.kk then streak (y :: r) + 1 else 1 := by
      conv_lhs => unfold streak
      simp [List.find?, hacc]
    have htn := hPx.hist.tnew
    by_cases hr0 : r = []
    · subst hr0
      rw [if_pos rfl] at hw
      simp only [List.length_nil, List.length_cons, Nat.zero_add, Nat.sub_self, pow_zero, pow_one, mul_one, Nat.zero_sub] at i1 i2 ⊢
      refine ⟨by rw [hw, i1], by rw [htn, ht0, i2, hw, i1]; ring, ?_⟩
      rw [hst]
      have : streak [y] = 1 := by simp [streak]
      rw [this]
      split <;> omega
    · rw [if_neg hr0] at hw
      have hlen : 1 ≤ r.length := List.length_pos_iff.2 hr0
      have e2 : (2 : K) ^ r.length = 2 * 2 ^ (r.length - 1) := by
        rw [← pow_succ']; congr 1; omega
      refine ⟨?_, ?_, ?_⟩
      · rw [hw, i1, List.length_cons, Nat.add_sub_cancel, e2]; ring
      · rw [htn, ht0, i2, hw, i1, List.length_cons, pow_succ, e2]; ring
      · rw [hst, if_neg, ]
        · omega
        · rintro ⟨h, -⟩
          rw [hw] at h
          have := hPy.hist.hh
          apply this
          linarith

end

end Verif
