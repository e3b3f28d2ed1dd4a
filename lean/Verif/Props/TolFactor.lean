import Verif.Spec.TolFactor
import Verif.Props.RoundNorm
import Verif.Props.Stop
import Verif.Props.FlControl

/-!
# Property C96: the suggested tolerance factor is enough
-/

set_option autoImplicit false
set_option linter.unusedSectionVars false
set_option linter.unusedSimpArgs false
set_option linter.unusedVariables false

namespace Verif.Props
open Finset Spec Verif.Proofs Verif.Witness

universe u v w

section
variable {F : Type u} {K : Type v} [Scalar F] [Field K] [LinearOrder K] [IsStrictOrderedRing K] [S : StdModel F K] {n q : Nat}

local notation "μ" => (StdModel.u (F := F) (K := K))

theorem _root_.Verif.Proofs.Near.symm {u : K} {N : Nat} {a b : K} (h : Near u N a b) : Near u N b a := ⟨h.hi, h.lo⟩

theorem _root_.Verif.Proofs.Near.scale {u : K} {N : Nat} {a b c : K} (h : Near u N a b) (hc : 0 ≤ c) : Near u N (a * c) (b * c) :=
  ⟨by rw [← mul_assoc]; exact mul_le_mul_of_nonneg_right h.lo hc, by rw [← mul_assoc]; exact mul_le_mul_of_nonneg_right h.hi hc⟩

/-- The mean of `(x_i w_i)²` over the components that count. -/
def meanSq (id : Fin n → Bool) (x w : Fin n → K) (mask : Bool) : K :=
  (∑ i, if mask && !id i then 0 else (x i * w i) ^ 2) / n

theorem wrms_near (hn : 0 < n) (id : Fin n → Bool) (x w : Vec n F) (mask : Bool) :
    0 ≤ S.val (wrmsNorm id x w mask) ∧
    Near μ (n + 9) (S.val (wrmsNorm id x w mask) ^ 2) (meanSq id (fun i => S.val (x i)) (fun i => S.val (w i)) mask) := by
  unfold wrmsNorm meanSq
  cases mask with
  | true =>
    obtain ⟨h1, h2, h3⟩ := c81_masked_norm (K := K) hn x w id
    have e : (∑ i, if true && !id i then (0 : K) else (S.val (x i) * S.val (w i)) ^ 2) =
        ∑ i, if id i then (S.val (x i) * S.val (w i)) ^ 2 else 0 := by
      refine sum_congr rfl fun i _ => ?_
      cases id i <;> simp
    rw [if_pos rfl, e]
    exact ⟨h1, h2, h3⟩
  | false =>
    obtain ⟨h1, h2, h3⟩ := c81_norm (K := K) hn x w
    simp only [Bool.false_eq_true, if_false, Bool.false_and]
    exact ⟨h1, Near.mono u0 u1 ⟨h2, h3⟩ (sq_nonneg _) (by omega)⟩

theorem times_near (tc : TolControl n F) (f : F) (y : Vec n F) (hr : 0 ≤ S.val (rtolOf tc)) (ha : ∀ i, 0 < S.val (atolOf tc i))
    (hf : 0 < S.val f) (i : Fin n) :
    Near μ 7 (S.val ((tc.times f).ewtSet y i)) (S.val (tc.ewtSet y i) * (S.val f)⁻¹) := by
  obtain ⟨c, hc, hv⟩ := fl_mul (K := K) (rtolOf tc) f
  obtain ⟨d, hd, hw⟩ := fl_mul (K := K) (atolOf tc i) f
  have er : rtolOf (tc.times f) = rtolOf tc * f := by cases tc <;> rfl
  have ea : ∀ j, atolOf (tc.times f) j = atolOf tc j * f := by intro j; cases tc <;> rfl
  have hr' : 0 ≤ S.val (rtolOf (tc.times f)) := by
    rw [er, hv]; exact mul_nonneg (mul_nonneg hr hf.le) (hc.pos u0 u1).le
  have ha' : ∀ j, 0 < S.val (atolOf (tc.times f) j) := by
    intro j
    obtain ⟨d, hd, hw⟩ := fl_mul (K := K) (atolOf tc j) f
    rw [ea, hw]; exact mul_pos (mul_pos (ha j) hf) (hd.pos u0 u1)
  obtain ⟨p1, l1, u1'⟩ := c81_weights (K := K) (tc.times f) y hr' ha' i
  obtain ⟨p2, l2, u2'⟩ := c81_weights (K := K) tc y hr ha i
  have hT : 0 < S.val (rtolOf tc) * |S.val (y i)| + S.val (atolOf tc i) :=
    add_pos_of_nonneg_of_pos (mul_nonneg hr (abs_nonneg _)) (ha i)
  have hT' : 0 < S.val (rtolOf (tc.times f)) * |S.val (y i)| + S.val (atolOf (tc.times f) i) :=
    add_pos_of_nonneg_of_pos (mul_nonneg hr' (abs_nonneg _)) (ha' i)
  have hn : Near μ 1 (S.val (rtolOf (tc.times f)) * |S.val (y i)| + S.val (atolOf (tc.times f) i))
      ((S.val (rtolOf tc) * |S.val (y i)| + S.val (atolOf tc i)) * S.val f) := by
    rw [er, ea, hv, hw, add_mul]
    refine Near.add ?_ ?_
    · rw [show S.val (rtolOf tc) * S.val f * c * |S.val (y i)| = S.val (rtolOf tc) * |S.val (y i)| * S.val f * c by ring]
      exact .ofFac u0 u1 (mul_nonneg (mul_nonneg hr (abs_nonneg _)) hf.le) hc
    · exact .ofFac u0 u1 (mul_nonneg (ha i).le hf.le) hd
  have h1 : Near μ 3 (S.val ((tc.times f).ewtSet y i)) _ := ⟨l1, u1'⟩
  have h2 : Near μ 3 (S.val (tc.ewtSet y i)) _ := ⟨l2, u2'⟩
  have h3 := hn.inv u0 u1 hT' (mul_pos hT hf)
  rw [mul_inv] at h3
  exact (h1.trans u0 u1 h3).trans u0 u1 (h2.symm.scale (inv_nonneg.2 hf.le))

theorem meanSq_near {N : Nat} (id : Fin n → Bool) (x w w' : Fin n → K) (mask : Bool) (c : K) (hw : ∀ i, 0 ≤ w i)
    (hw' : ∀ i, 0 ≤ w' i) (h : ∀ i, Near μ N (w' i) (w i * c)) :
    Near μ (N + N) (meanSq id x w' mask) (meanSq id x w mask * c ^ 2) := by
  unfold meanSq
  rw [div_eq_mul_inv, div_eq_mul_inv, mul_right_comm]
  have hn0 : (0 : K) ≤ (n : K)⁻¹ := inv_nonneg.2 (Nat.cast_nonneg n)
  refine Near.scale ?_ hn0
  rw [sum_mul]
  refine Near.sum _ fun i _ => ?_
  by_cases hm : (mask && !id i) = true
  · rw [if_pos hm, if_pos hm, zero_mul]; exact .refl u0 u1 _ le_rfl
  · rw [if_neg hm, if_neg hm]
    have := ((h i).mul u0 u1 (h i) (hw' i) (hw' i)).scale (sq_nonneg (x i))
    rwa [show w' i * w' i * x i ^ 2 = (x i * w' i) ^ 2 by ring,
      show w i * c * (w i * c) * x i ^ 2 = (x i * w i) ^ 2 * c ^ 2 by ring] at this

/-- **C96, the factor.** Tolerances with `rtol ≥ 0`, `atol > 0`; the test for too much accuracy fires at the vector `y`.  With the
tolerances multiplied by the factor that `get_tol_scale_factor` returns (ten times the product of the test), it does not.  Any
arithmetic of the standard model whose roundings, `2n + 40` in a row, lose less than a factor of 100. -/
theorem c96_enough (hn : 0 < n) (tc : TolControl n F) (hr : 0 ≤ S.val (rtolOf tc)) (ha : ∀ i, 0 < S.val (atolOf tc i))
    (heps : 0 < S.val (Scalar.eps : F)) (hten : ∃ d, |d| ≤ μ ∧ S.val (Scalar.ten : F) = 10 * (1 + d))
    (hμ : 1 / 100 ≤ (1 - μ) ^ (2 * n + 40)) (id : Fin n → Bool) (mask : Bool) (y : Vec n F)
    (h : Scalar.gt (Scalar.eps * wrmsNorm id y (tc.ewtSet y) mask) 1 = true) :
    Scalar.gt (Scalar.eps * wrmsNorm id y
      ((tc.times (Scalar.eps * wrmsNorm id y (tc.ewtSet y) mask * Scalar.ten)).ewtSet y) mask) 1 = false := by
  set N := wrmsNorm id y (tc.ewtSet y) mask with hN
  set P := Scalar.eps * N with hP
  set f := P * Scalar.ten with hf
  set N' := wrmsNorm id y ((tc.times f).ewtSet y) mask with hN'
  have hP1 : 1 < S.val P := by
    have := (S.lt_iff 1 P).1 h
    rwa [S.val_one] at this
  obtain ⟨c1, hc1, e1⟩ := fl_mul (K := K) Scalar.eps N
  obtain ⟨c2, hc2, e2⟩ := fl_mul (K := K) P Scalar.ten
  obtain ⟨d, hd, e3⟩ := hten
  obtain ⟨c4, hc4, e4⟩ := fl_mul (K := K) Scalar.eps N'
  have hc3 : Fac μ 1 (1 + d) := .ofErr u0 u1 hd
  have g2 := hc2.pos u0 u1
  have g3 := hc3.pos u0 u1
  have hf0 : 0 < S.val f := by
    rw [hf, e2, e3]; positivity
  obtain ⟨hN0, hNn⟩ := wrms_near (K := K) hn id y (tc.ewtSet y) mask
  obtain ⟨hN0', hNn'⟩ := wrms_near (K := K) hn id y ((tc.times f).ewtSet y) mask
  rw [← hN] at hN0 hNn
  rw [← hN'] at hN0' hNn'
  have hw : ∀ i, 0 ≤ S.val (tc.ewtSet y i) := fun i => (c81_weights (K := K) tc y hr ha i).1.le
  have hwn := times_near tc f y hr ha hf0
  have hw' : ∀ i, 0 ≤ S.val ((tc.times f).ewtSet y i) := fun i =>
    ((hwn i).pos u0 u1 (mul_pos (c81_weights (K := K) tc y hr ha i).1 (inv_pos.2 hf0))).le
  have m1 := meanSq_near (F := F) id (fun i => S.val (y i)) (fun i => S.val (tc.ewtSet y i))
    (fun i => S.val ((tc.times f).ewtSet y i)) mask (S.val f)⁻¹ hw hw' hwn
  have m2 := (hNn'.trans u0 u1 m1).trans u0 u1 (hNn.symm.scale (sq_nonneg ((S.val f)⁻¹)))
  have m3 := m2.scale (sq_nonneg (S.val (Scalar.eps : F)))
  -- the new product
  have q1 : Near μ 2 (S.val (Scalar.eps * N') ^ 2) (S.val N' ^ 2 * S.val (Scalar.eps : F) ^ 2) := by
    rw [e4, show (S.val (Scalar.eps : F) * S.val N' * c4) ^ 2 = S.val N' ^ 2 * S.val (Scalar.eps : F) ^ 2 * (c4 * c4) by ring]
    exact .ofFac u0 u1 (mul_nonneg (sq_nonneg _) (sq_nonneg _)) (hc4.mul u0 u1 hc4)
  have q2 : Near μ 2 (S.val P ^ 2) (S.val N ^ 2 * S.val (Scalar.eps : F) ^ 2) := by
    rw [hP, e1, show (S.val (Scalar.eps : F) * S.val N * c1) ^ 2 = S.val N ^ 2 * S.val (Scalar.eps : F) ^ 2 * (c1 * c1) by ring]
    exact .ofFac u0 u1 (mul_nonneg (sq_nonneg _) (sq_nonneg _)) (hc1.mul u0 u1 hc1)
  have q3 : Near μ 4 (S.val P ^ 2 * (S.val f)⁻¹ ^ 2) (1 / 100) := by
    have hPne : S.val P ≠ 0 := by intro h0; rw [h0] at hP1; linarith
    have hfac := ((hc2.mul u0 u1 hc3).mul u0 u1 (hc2.mul u0 u1 hc3)).inv u0 u1
    have : S.val P ^ 2 * (S.val f)⁻¹ ^ 2 = 1 / 100 * (c2 * (1 + d) * (c2 * (1 + d)))⁻¹ := by
      rw [hf, e2, e3]
      field_simp
      norm_num
    rw [this]
    exact .ofFac u0 u1 (by norm_num) hfac
  have q4 := (q1.trans u0 u1 m3).trans u0 u1 (by
    rw [show S.val N ^ 2 * (S.val f)⁻¹ ^ 2 * S.val (Scalar.eps : F) ^ 2 =
      S.val N ^ 2 * S.val (Scalar.eps : F) ^ 2 * (S.val f)⁻¹ ^ 2 by ring]
    exact (q2.symm.scale (sq_nonneg _)).trans u0 u1 q3)
  have q5 : (1 - μ) ^ (2 * n + 40) * S.val (Scalar.eps * N') ^ 2 ≤ 1 / 100 := by
    have := q4.hi
    rwa [show 2 + (n + 9 + (7 + 7) + (n + 9)) + (2 + 4) = 2 * n + 40 by omega] at this
  have hle : S.val (Scalar.eps * N') ^ 2 ≤ 1 := by
    by_contra hc
    rw [not_le] at hc
    have : (1 - μ) ^ (2 * n + 40) * 1 < (1 - μ) ^ (2 * n + 40) * S.val (Scalar.eps * N') ^ 2 :=
      mul_lt_mul_of_pos_left hc (lt_of_lt_of_le (by norm_num) hμ)
    linarith
  have hle1 : S.val (Scalar.eps * N') ≤ 1 := by nlinarith
  cases hg : Scalar.gt (Scalar.eps * N') 1 with
  | false => rfl
  | true =>
    have := (S.lt_iff 1 (Scalar.eps * N')).1 hg
    rw [S.val_one] at this
    linarith

end

/-! ## Histories -/

section
variable {ν : Type v} {n q : Nat} {K : Type u} [Scalar K]

/-- The weights behind a `TooMuchAccuracy`: those of the current solution, after a step or on the very first call. -/
theorem accuracy_weights {cfg : Cfg ν n q K} (hl : NlsLegal cfg) {rf sf : Nat} {s s' : State ν n q K} {tout : K} {task : Task}
    (hs : 0 < getNumSteps s' ∨ s.setupDone = false)
    (h : solve cfg rf sf s tout task = .ret s' (.error (.ida .tooMuchAccuracy))) :
    (∃ b, s'.e.ewt = cfg.ewtSet (s'.h.phi 0) b) ∧ (getNumSteps s' = 0 → s'.h.phi 0 = s.h.phi 0) := by
  cases solve_outcome h with
  | rejected e h0 h1 h2 => have := firstCall_error h1; subst this; cases h2
  | early h0 h1 =>
    exfalso
    cases h1 with
    | close e hq h2 h3 => cases h3; cases rCheck2_error h2
    | root2 _ _ _ _ h2 => cases h2
    | root3 _ _ _ _ _ _ _ h2 => cases h2
    | pending _ _ _ ht _ _ _ _ h2 => cases h2
    | stop s1 h2 h3 _ =>
      cases stopTest1_cases h3 with
      | refused e h5 h6 => obtain ⟨-, h7, -⟩ := getSolution_error h6; cases h7
      | stopBad _ ts e e' h5 h6 h7 h8 =>
        obtain ⟨-, h9, -⟩ := getSolution_error h7
        rcases h8 with h8 | h8
        · rw [h9] at h8; cases h8
        · cases h8
  | loop p k hI h1 =>
    cases h1 with
    | pre h2 =>
      have hp := preStep_cases cfg p k
      rw [h2] at hp
      cases hp with
      | accuracy _ h1 hS hW h3 h4 h5 h6 =>
        have hc : getNumSteps s' = p.cnt.nst := by show s'.cnt.nst = _; rw [hS.cnt]
        rw [hS.h]
        by_cases hpos : 0 < p.cnt.nst
        · unfold WeightsReady at hW
          rw [if_pos hpos] at hW
          exact ⟨⟨_, hW.1⟩, fun h0 => by omega⟩
        · have hd : s.setupDone = false := by rcases hs with hs | hs; · omega
                                              · exact hs
          have hk := hI.nst
          obtain ⟨s1, g1, g2⟩ := hI.first (by omega) (by omega)
          have hb := (begun_same s tout task).2.2.2
          have hphi : p.h.phi 0 = s.h.phi 0 := by
            rw [g2]; show s1.h.phi 0 = _; rw [(firstCall_same g1).phi 0 (by omega), hb.h]
          unfold WeightsReady at hW
          rw [if_neg hpos, g2] at hW
          have hW : s'.e.ewt = s1.e.ewt := hW
          rw [(firstCall_weights g1).1] at hW
          unfold initialSetup at hW
          rw [hb.setupDone, hd, if_neg (by simp), hb.h] at hW
          rw [hphi]
          exact ⟨⟨_, hW⟩, fun _ => rfl⟩
    | failed s1 s2 e h2 h3 h4 =>
      obtain ⟨h5, -⟩ := stepFailed_spec h4
      cases h5
      cases step_failure_kind hl h3
    | post s1 s2 h2 h3 h4 =>
      cases h4 with
      | root _ _ _ _ h5 => cases h5
      | stop s3 h5 h6 h7 => cases stopTest2_cases h6

end

section
variable {F : Type u} {K : Type v} [Scalar F] [Field K] [LinearOrder K] [IsStrictOrderedRing K] [S : StdModel F K] {n q q' : Nat}
  {ν : Type w} {ν' : Type w}

local notation "μ" => (StdModel.u (F := F) (K := K))

/-- **C96, the restart.** A call returns `TooMuchAccuracy`, having been the first call of the solver or at least one step
having been taken.  The user starts anew from the current solution, with the tolerances multiplied by the factor that
`get_tol_scale_factor` returns (any `y'`, any stop time, even another problem or nonlinear solver).  Then the first call of the
new solver can only return `TooMuchAccuracy` after a step has been taken. -/
theorem c96_restart (hn : 0 < n) (tc : TolControl n F) (hr : 0 ≤ S.val (rtolOf tc)) (ha : ∀ i, 0 < S.val (atolOf tc i))
    (heps : 0 < S.val (Scalar.eps : F)) (hten : ∃ d, |d| ≤ μ ∧ S.val (Scalar.ten : F) = 10 * (1 + d))
    (hμ : 1 / 100 ≤ (1 - μ) ^ (2 * n + 40))
    (cfg : Cfg ν n q F) (hl : NlsLegal cfg) (hw : ∀ y b, cfg.ewtSet y b = tc.ewtSet y)
    (rf sf : Nat) (s s' : State ν n q F) (tout tret : F) (task : Task)
    (hs : 0 < getNumSteps s' ∨ ∃ nls0 y0 yp0 ts, s = { State.new nls0 y0 yp0 with tstop := ts })
    (h : exec cfg rf sf s (.solve tout tret task) = some (s', .solved (.error (.ida .tooMuchAccuracy))))
    (cfg' : Cfg ν' n q' F) (hl' : NlsLegal cfg') (hw' : ∀ y b, cfg'.ewtSet y b = (tc.times (getTolScaleFactor s')).ewtSet y)
    (hid : cfg'.id = cfg.id) (hsup : cfg'.suppressalg = cfg.suppressalg)
    (rf' sf' : Nat) (nls0 : ν') (yp0 : Vec n F) (ts : Option F) (tout' tret' : F) (task' : Task) (s2 : State ν' n q' F)
    (h' : exec cfg' rf' sf' { State.new nls0 (s'.h.phi 0) yp0 with tstop := ts } (.solve tout' tret' task') =
      some (s2, .solved (.error (.ida .tooMuchAccuracy)))) :
    0 < getNumSteps s2 := by
  have h1 := exec_solve h
  have h2 := exec_solve h'
  obtain ⟨⟨b, hb⟩, -⟩ := accuracy_weights hl (by
    rcases hs with hs | ⟨_, _, _, _, hs⟩
    · exact Or.inl hs
    · right; rw [hs]; rfl) h1
  obtain ⟨g1, g2, -⟩ := c41_result cfg hl _ _ _ _ _ _ h1
  rw [hb, hw] at g1 g2
  obtain ⟨⟨b', hb'⟩, hy⟩ := accuracy_weights hl' (Or.inr rfl) h2
  obtain ⟨g3, -, -⟩ := c41_result cfg' hl' _ _ _ _ _ _ h2
  by_contra hc
  have hy := hy (by omega)
  rw [hb', hw', hid, hsup, hy, g2] at g3
  have := c96_enough (K := K) hn tc hr ha heps hten hμ cfg.id cfg.suppressalg (s'.h.phi 0) g1
  exact Bool.false_ne_true (this.symm.trans g3)

end

/-! ## Cases -/

section

/-- The tolerances `rtol = 0`, `atol = 2^-52`: at the limit of what binary64 can do for solutions near 1. -/
def edgeTol : TolControl 1 (Bin 52) := .ss 0 (Bin.of ((1 / 2) ^ 52))

def edgeCfg (tc : TolControl 1 (Bin 52)) : Cfg Nat 1 0 (Bin 52) := Cfg.std (decayBin 52) (fun y _ => tc.ewtSet y) (okBin 52 [])

theorem edge_legal (tc : TolControl 1 (Bin 52)) : NlsLegal (edgeCfg tc) := okBin_legal 52 []

def edge0 (y yp : ℚ) : State Nat 1 0 (Bin 52) := State.new 0 (fun _ => Bin.of y) (fun _ => Bin.of yp)

def edgeOps (k : Nat) : List (Op (Bin 52)) := List.replicate k (.solve (Bin.of 1000) 0 .oneStep)

theorem edge_run : ((run (edgeCfg edgeTol) 10 10 (edgeOps 3) (edge0 1 1)).map fun p =>
    p.2.all (Res.isStatus .success) && (match exec (edgeCfg edgeTol) 10 10 p.1 (.solve (Bin.of 1000) 0 .oneStep) with
      | some (s', r) => Res.isError .tooMuchAccuracy r && decide (getNumSteps s' = 3) &&
          decide ((getTolScaleFactor s').v = 5629499534213121 / 562949953421312) &&
          decide ((s'.h.phi 0 0).v = 4503599627370497 / 4503599627370496)
      | none => false)) = some true := by decide +kernel

theorem edge_hyp : 0 < (Scalar.eps : Bin 52).v ∧
    (∃ d, |d| ≤ StdModel.u (F := Bin 52) (K := ℚ) ∧ (Scalar.ten : Bin 52).v = 10 * (1 + d)) ∧
    1 / 100 ≤ (1 - StdModel.u (F := Bin 52) (K := ℚ)) ^ (2 * 1 + 40) := by
  have hu : StdModel.u (F := Bin 52) (K := ℚ) = (1 / 2) ^ 52 := rfl
  refine ⟨by decide +kernel, ⟨0, by rw [hu, abs_zero]; positivity, by decide +kernel⟩, ?_⟩
  rw [hu]
  have h := one_add_mul_le_pow (a := -(1 / 2 : ℚ) ^ 52) (by norm_num) (2 * 1 + 40)
  rw [← sub_eq_add_neg] at h
  refine le_trans ?_ h
  norm_num

/-- The solution grows from 1; three steps are taken, then it is one unit in the last place above 1, which is too large, and the
factor is a little more than 10.  The theorem applies to every restart from there; one such restart takes its step. -/
example : ∃ s s' : State Nat 1 0 (Bin 52), Reach (edgeCfg edgeTol) s ∧ getNumSteps s' = 3 ∧
    exec (edgeCfg edgeTol) 10 10 s (.solve (Bin.of 1000) 0 .oneStep) = some (s', .solved (.error (.ida .tooMuchAccuracy))) ∧
    (∀ rf sf nls0 yp0 ts tout tret task s2, exec (edgeCfg (edgeTol.times (getTolScaleFactor s'))) rf sf
      { State.new nls0 (s'.h.phi 0) yp0 with tstop := ts } (.solve tout tret task) =
        some (s2, .solved (.error (.ida .tooMuchAccuracy))) → 0 < getNumSteps s2) := by
  obtain ⟨s, l, hr, hp⟩ := run_witness (P := fun (s : State Nat 1 0 (Bin 52)) l => l.all (Res.isStatus .success) &&
    (match exec (edgeCfg edgeTol) 10 10 s (.solve (Bin.of 1000) 0 .oneStep) with
      | some (s', r) => Res.isError .tooMuchAccuracy r && decide (getNumSteps s' = 3) &&
          decide ((getTolScaleFactor s').v = 5629499534213121 / 562949953421312) &&
          decide ((s'.h.phi 0 0).v = 4503599627370497 / 4503599627370496)
      | none => false)) edge_run
  simp only [Bool.and_eq_true] at hp
  obtain ⟨-, hp⟩ := hp
  split at hp
  · rename_i s' r he
    simp only [Bool.and_eq_true, decide_eq_true_eq] at hp
    obtain ⟨⟨⟨h1, h2⟩, -⟩, -⟩ := hp
    rw [Res.isError_iff.1 h1] at he
    refine ⟨s, s', run_reach _ (.new 0 _ _ none) hr, h2, he, ?_⟩
    intro rf sf nls0 yp0 ts tout tret task s2 h
    exact c96_restart (K := ℚ) (by omega) edgeTol (by decide +kernel) (by decide +kernel) edge_hyp.1 edge_hyp.2.1 edge_hyp.2.2
      _ (edge_legal _) (fun _ _ => rfl) 10 10 s s' _ _ _ (Or.inl (by omega)) he
      (edgeCfg (edgeTol.times (getTolScaleFactor s'))) (edge_legal _) (fun _ _ => rfl) rfl rfl rf sf
      nls0 yp0 ts tout tret task s2 h
  · cases hp

example : ((run (edgeCfg (edgeTol.times (Bin.of (5629499534213121 / 562949953421312)))) 10 10 (edgeOps 4)
    (edge0 (4503599627370497 / 4503599627370496) 1)).map fun p =>
    p.2.all (Res.isStatus .success) && decide (getNumSteps p.1 = 4)) = some true := by decide +kernel

/-- A first call: with `atol = 2^-53` the factor is 20. -/
example : ((run (edgeCfg (.ss 0 (Bin.of ((1 / 2) ^ 53)))) 10 10 (edgeOps 1) (edge0 1 1)).map fun p =>
    p.2.all (Res.isError .tooMuchAccuracy) && decide (getNumSteps p.1 = 0) && decide ((getTolScaleFactor p.1).v = 20)) =
    some true := by decide +kernel

end

end Verif.Props
