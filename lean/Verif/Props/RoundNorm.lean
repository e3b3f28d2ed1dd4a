import Verif.Proofs.RoundNorm
import Verif.Props.Norm
import Verif.Props.Accepted
import Verif.FlInst

/-!
# Property C81: tolerances, weighted norm and error test in floating-point arithmetic

`(1-u)^m * a ≤ b` and `(1-u)^m * b ≤ a` together say that `a` and `b` differ by at most about `m` roundings.
-/

set_option autoImplicit false
set_option linter.unusedSectionVars false
set_option linter.unusedVariables false

namespace Verif.Props
open Finset Spec Verif.Proofs Verif.Witness

universe u v w

section
variable {F : Type u} {K : Type v} [Scalar F] [Field K] [LinearOrder K] [IsStrictOrderedRing K] [S : StdModel F K] {n q : Nat}

local notation "μ" => (StdModel.u (F := F) (K := K))

/-- **C81, norm.**  The square of the computed norm is the mean of `(x_i w_i)²` up to `n + 7` roundings. -/
theorem c81_norm (hn : 0 < n) (x w : Vec n F) :
    0 ≤ S.val (normWrms x w) ∧
    (1 - μ) ^ (n + 7) * ((∑ i, (S.val (x i) * S.val (w i)) ^ 2) / n) ≤ S.val (normWrms x w) ^ 2 ∧
    (1 - μ) ^ (n + 7) * S.val (normWrms x w) ^ 2 ≤ (∑ i, (S.val (x i) * S.val (w i)) ^ 2) / n := by
  have h1 : ∀ i : Fin n, 0 ≤ S.val ((x i * w i) * (x i * w i)) ∧
      Near μ 3 (S.val ((x i * w i) * (x i * w i))) ((S.val (x i) * S.val (w i)) ^ 2) := fun i => by
    obtain ⟨c, hc, hv⟩ := fl_mul (K := K) (x i) (w i)
    exact sq_fl hc hv
  obtain ⟨h2, h3⟩ := vsum_fl (K := K) (fun i => (x i * w i) * (x i * w i)) (fun i => (h1 i).1)
  obtain ⟨h4, h5⟩ := norm_fl hn _ _ h2 (h3.trans u0 u1 (Near.sum univ fun i _ => (h1 i).2))
  exact ⟨h4, by have := h5.lo; rwa [show n + 3 + 4 = n + 7 by omega] at this, by
    have := h5.hi; rwa [show n + 3 + 4 = n + 7 by omega] at this⟩

/-- **C81, masked norm.**  Likewise for the norm that leaves out components: `n + 9` roundings. -/
theorem c81_masked_norm (hn : 0 < n) (x w : Vec n F) (id : Fin n → Bool) :
    0 ≤ S.val (normWrmsMasked x w id) ∧
    (1 - μ) ^ (n + 9) * ((∑ i, if id i then (S.val (x i) * S.val (w i)) ^ 2 else 0) / n)
      ≤ S.val (normWrmsMasked x w id) ^ 2 ∧
    (1 - μ) ^ (n + 9) * S.val (normWrmsMasked x w id) ^ 2
      ≤ (∑ i, if id i then (S.val (x i) * S.val (w i)) ^ 2 else 0) / n := by
  let m : Vec n F := fun i => if id i then 1 else 0
  have h1 : ∀ i : Fin n, 0 ≤ S.val ((x i * w i * m i) * (x i * w i * m i)) ∧
      Near μ 5 (S.val ((x i * w i * m i) * (x i * w i * m i)))
        (if id i then (S.val (x i) * S.val (w i)) ^ 2 else 0) := fun i => by
    obtain ⟨c, hc, hv⟩ := fl_mul (K := K) (x i) (w i)
    obtain ⟨d, hd, hw⟩ := fl_mul (K := K) (x i * w i) (m i)
    have h2 := sq_fl (K := K) (a := x i * w i * m i) (b := S.val (x i) * S.val (w i) * S.val (m i)) (hc.mul u0 u1 hd)
      (by rw [hw, hv]; ring)
    have h3 : (S.val (x i) * S.val (w i) * S.val (m i)) ^ 2 =
        if id i then (S.val (x i) * S.val (w i)) ^ 2 else 0 := by
      simp only [m]
      split
      · rw [S.val_one, mul_one]
      · rw [S.val_zero]; ring
    rwa [h3] at h2
  obtain ⟨h2, h3⟩ := vsum_fl (K := K) (fun i => (x i * w i * m i) * (x i * w i * m i)) (fun i => (h1 i).1)
  obtain ⟨h4, h5⟩ := norm_fl hn _ _ h2 (h3.trans u0 u1 (Near.sum univ fun i _ => (h1 i).2))
  exact ⟨h4, by have := h5.lo; rwa [show n + 5 + 4 = n + 9 by omega] at this, by
    have := h5.hi; rwa [show n + 5 + 4 = n + 9 by omega] at this⟩

/-- **C81, weights.**  Every weight is positive and is `1 / (rtol |y_i| + atol_i)` up to three roundings. -/
theorem c81_weights (tc : TolControl n F) (y : Vec n F) (hr : 0 ≤ S.val (rtolOf tc)) (ha : ∀ i, 0 < S.val (atolOf tc i))
    (i : Fin n) :
    0 < S.val (tc.ewtSet y i) ∧
    (1 - μ) ^ 3 * (S.val (rtolOf tc) * |S.val (y i)| + S.val (atolOf tc i))⁻¹ ≤ S.val (tc.ewtSet y i) ∧
    (1 - μ) ^ 3 * S.val (tc.ewtSet y i) ≤ (S.val (rtolOf tc) * |S.val (y i)| + S.val (atolOf tc i))⁻¹ := by
  have key : ∀ r a z : F, 0 ≤ S.val r → 0 < S.val a →
      Near μ 3 (S.val (Scalar.recip (r * Scalar.abs z + a))) (S.val r * |S.val z| + S.val a)⁻¹ := by
    intro r a z hr ha
    obtain ⟨c, hc, hv⟩ := fl_mul (K := K) r (Scalar.abs z)
    obtain ⟨d, hd, hw⟩ := fl_add (K := K) (r * Scalar.abs z) a
    rw [S.val_abs] at hv
    have hz : 0 ≤ S.val r * |S.val z| := mul_nonneg hr (abs_nonneg _)
    have hm : Near μ 1 (S.val (r * Scalar.abs z)) (S.val r * |S.val z|) := by rw [hv]; exact .ofFac u0 u1 hz hc
    have hm0 : 0 ≤ S.val (r * Scalar.abs z) := by rw [hv]; exact mul_nonneg hz (hc.pos u0 u1).le
    have hs : 0 < S.val (r * Scalar.abs z) + S.val a := by linarith
    have h1 : Near μ 2 (S.val (r * Scalar.abs z + a)) (S.val r * |S.val z| + S.val a) := by
      refine Near.trans u0 u1 (N := 1) (M := 1) (b := S.val (r * Scalar.abs z) + S.val a) ?_ (hm.add (.refl u0 u1 _ ha.le))
      rw [hw]; exact .ofFac u0 u1 hs.le hd
    have hp : 0 < S.val (r * Scalar.abs z + a) := by rw [hw]; exact mul_pos hs (hd.pos u0 u1)
    obtain ⟨e, he, hx⟩ := fl_recip (K := K) (r * Scalar.abs z + a) hp.ne'
    rw [hx]
    exact (Near.ofFac u0 u1 (inv_pos.2 hp).le he).trans u0 u1 (h1.inv u0 u1 hp (by linarith))
  have h : Near μ 3 (S.val (tc.ewtSet y i)) (S.val (rtolOf tc) * |S.val (y i)| + S.val (atolOf tc i))⁻¹ := by
    cases tc with
    | ss r a => exact key r a (y i) hr (ha i)
    | sv r a => exact key r (a i) (y i) hr (ha i)
  have hb : 0 < (S.val (rtolOf tc) * |S.val (y i)| + S.val (atolOf tc i))⁻¹ :=
    inv_pos.2 (add_pos_of_nonneg_of_pos (mul_nonneg hr (abs_nonneg _)) (ha i))
  exact ⟨h.pos u0 u1 hb, h.lo, h.hi⟩

/-- **C81, error test.**  In every history, in floating point: an attempt with a successful nonlinear solve is accepted only
if the coefficient of the test times the exact weighted norm of the correction is at most one up to `n + 9` roundings, and is
rejected only if it is more than one up to `n + 9` roundings (squares, to avoid the exact square root). -/
theorem c81_error_test {ν : Type w} (cfg : Cfg ν n q F) (s : State ν n q F) (h : Reach cfg s) (hn : 0 < n)
    (hid : cfg.suppressalg = false) (x : Att n F) (hx : x ∈ s.g.atts) (hc : 0 ≤ S.val x.ck) :
    (x.out = .accepted →
      (1 - μ) ^ (n + 9) * (S.val x.ck ^ 2 * ((∑ i, (S.val (x.ee i) * S.val (x.ewt i)) ^ 2) / n)) ≤ 1) ∧
    (x.out = .testFail →
      (1 - μ) ^ (n + 9) < S.val x.ck ^ 2 * ((∑ i, (S.val (x.ee i) * S.val (x.ewt i)) ^ 2) / n)) := by
  have hd := (c32_test_decides cfg s h).1 x hx
  rw [hid] at hd
  simp only [wrmsNorm, Bool.false_eq_true, if_false] at hd
  rw [S.le_iff, S.val_one] at hd
  obtain ⟨h1, h2, h3⟩ := c81_norm (K := K) hn x.ee x.ewt
  set N := normWrms x.ee x.ewt
  obtain ⟨c, hc', hv⟩ := fl_mul (K := K) x.ck N
  have hm : Near μ (2 + (n + 7)) (S.val (x.ck * N) ^ 2)
      (S.val x.ck ^ 2 * ((∑ i, (S.val (x.ee i) * S.val (x.ewt i)) ^ 2) / n)) := by
    rw [hv, show (S.val x.ck * S.val N * c) ^ 2 = (S.val x.ck ^ 2 * S.val N ^ 2) * (c * c) by ring]
    refine (Near.ofFac u0 u1 (by positivity) (hc'.mul u0 u1 hc')).trans u0 u1 ?_
    have := (Near.refl (u := μ) u0 u1 0 (sq_nonneg (S.val x.ck))).mul u0 u1 (c := S.val N ^ 2) ⟨h2, h3⟩ (sq_nonneg _)
      (sq_nonneg _)
    rwa [Nat.zero_add] at this
  rw [show 2 + (n + 7) = n + 9 by omega] at hm
  have h0 : 0 ≤ S.val (x.ck * N) := by rw [hv]; exact mul_nonneg (mul_nonneg hc h1) (hc'.pos u0 u1).le
  constructor
  · intro ho
    have := (hd (by rw [ho]; intro e; simp)).1 ho
    exact le_trans hm.lo (pow_le_one₀ h0 this)
  · intro ho
    have hf : ¬ (S.val (x.ck * N) ≤ 1) := fun hle => by
      have := (hd (by rw [ho]; intro e; simp)).2 hle
      rw [ho] at this; cases this
    rw [not_le] at hf
    have h5 : 1 < S.val (x.ck * N) ^ 2 := one_lt_pow₀ hf (by norm_num)
    calc (1 - μ) ^ (n + 9) = (1 - μ) ^ (n + 9) * 1 := (mul_one _).symm
      _ < (1 - μ) ^ (n + 9) * S.val (x.ck * N) ^ 2 := mul_lt_mul_of_pos_left h5 (pow_fac_pos u0 u1 _)
      _ ≤ _ := hm.hi

end

section witness

/-- Two components with the tolerances `1e-2`, `1e-3`, all in eight bits: neither the weights nor the norm are exact. -/
example : ((TolControl.ss ⟨1 / 128⟩ ⟨1 / 1024⟩ : TolControl 2 Fl).ewtSet (fun i => if i = 0 then ⟨3⟩ else ⟨-1 / 4⟩) 0).v ≠
    (1 / 128 * 3 + 1 / 1024 : ℚ)⁻¹ ∧ ((normWrms (n := 2) (fun _ => (⟨1 / 3⟩ : Fl)) (fun _ => ⟨1⟩)).v) ^ 2 ≠ (1 / 3 : ℚ) ^ 2 := by
  decide +kernel

example : 0 < ((TolControl.ss ⟨1 / 128⟩ ⟨1 / 1024⟩ : TolControl 2 Fl).ewtSet (fun i => if i = 0 then ⟨3⟩ else ⟨-1 / 4⟩) 0).v :=
  (c81_weights (K := ℚ) (TolControl.ss ⟨1 / 128⟩ ⟨1 / 1024⟩ : TolControl 2 Fl) _ (by show (0 : ℚ) ≤ 1 / 128; norm_num)
    (fun i => by show (0 : ℚ) < 1 / 1024; norm_num) 0).1

/-- The scalar problem `y' + y = 0`, computed with eight bits. -/
def decayFl : Problem 1 0 Fl where
  res _ y yp _ := fun i => yp i + y i
  jac _ cj _ _ _ _ := fun _ _ => cj + 1
  root _ _ _ b := b

def decayFlCfg : Cfg (Newton (Vec 1 Fl)) 1 0 Fl := Cfg.newton decayFl (.ss ⟨1 / 16⟩ ⟨1 / 16⟩) 3

def decayFl0 : State (Newton (Vec 1 Fl)) 1 0 Fl := State.new newton0 (fun _ => 1) (fun _ => -1)

/-- Three steps: all attempts are accepted, with positive coefficients and corrections different from zero. -/
theorem decayFl_run : ((run decayFlCfg 10 10 [.solve ⟨4⟩ 0 .oneStep, .solve ⟨4⟩ 0 .oneStep, .solve ⟨4⟩ 0 .oneStep] decayFl0).map
    fun p => decide (p.1.g.atts.length = 3) && p.1.g.atts.all fun x =>
      decide (x.out = .accepted) && decide (0 ≤ x.ck.v) && decide ((x.ee 0).v ≠ 0)) = some true := by
  decide +kernel

/-- The error test of these steps, as C81 states it. -/
example : ∃ s, Reach decayFlCfg s ∧ s.g.atts.length = 3 ∧ ∀ x ∈ s.g.atts, (x.ee 0).v ≠ 0 ∧
    (1 - 1 / 256 : ℚ) ^ 10 * (x.ck.v ^ 2 * ((∑ i, ((x.ee i).v * (x.ewt i).v) ^ 2) / 1)) ≤ 1 := by
  obtain ⟨s, l, h, hp⟩ := run_witness (cfg := decayFlCfg) (s := decayFl0) (P := fun s _ => decide (s.g.atts.length = 3) && s.g.atts.all fun x =>
      decide (x.out = .accepted) && decide (0 ≤ x.ck.v) && decide ((x.ee 0).v ≠ 0)) decayFl_run
  have hr : Reach decayFlCfg s := run_reach _ (.new newton0 _ _ none) h
  rw [Bool.and_eq_true, decide_eq_true_iff, List.all_eq_true] at hp
  refine ⟨s, hr, hp.1, fun x hx => ?_⟩
  have := hp.2 x hx
  rw [Bool.and_eq_true, Bool.and_eq_true, decide_eq_true_iff, decide_eq_true_iff, decide_eq_true_iff] at this
  obtain ⟨⟨h1, h2⟩, h3⟩ := this
  have h4 := (c81_error_test (K := ℚ) decayFlCfg s hr (by norm_num) rfl x hx h2).1 h1
  simpa [StdModel.val, StdModel.u] using And.intro h3 h4

end witness

end Verif.Props
