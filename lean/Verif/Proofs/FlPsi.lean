import Verif.Proofs.FlDirection
import Verif.Spec.FlInterp
import Verif.Proofs.FlCoef

/-! # The nodes of the interpolation in floating-point arithmetic -/

set_option autoImplicit false
set_option linter.unusedSectionVars false
set_option linter.unusedSimpArgs false
set_option linter.unusedVariables false

namespace Verif.FlPsi

open Verif Relation Verif.Spec Verif.FlControl

universe u v w

section lawfree
variable {ν : Type w} {n q : Nat} {F : Type u} [Scalar F]

/-- `psi` after a step of size `hh`. -/
def shifted (hh : F) (psi : Nat → F) : Nat → F
  | 0 => hh
  | i + 1 => psi i + hh

theorem recompute_psi (kk : Nat) (hh : F) (h : Hist n F) (i : Nat) :
    (recompute kk hh h).psi i = if i ≤ kk then shifted hh h.psi i else h.psi i := by
  have key : ∀ l0 : CoefLoop F, l0.temp1 = hh → l0.psi = h.psi → (forUp kk (coefPass hh) l0).temp1 = shifted hh h.psi kk ∧
      ∀ i, (forUp kk (coefPass hh) l0).psi i = if i < kk then shifted hh h.psi i else h.psi i := by
    intro l0 q1 q2
    refine forUp_inv (fun m (l : CoefLoop F) => l.temp1 = shifted hh h.psi m ∧
      ∀ i, l.psi i = if i < m then shifted hh h.psi i else h.psi i) ⟨q1, fun i => by simp [q2]⟩ ?_
    rintro m l hm ⟨h1, h2⟩
    refine ⟨?_, fun i => ?_⟩
    · show l.psi m + hh = _
      rw [h2, if_neg (lt_irrefl m)]; rfl
    · show upd l.psi m l.temp1 i = _
      unfold upd
      by_cases hi : i = m
      · subst hi; rw [if_pos rfl, if_pos (by omega), h1]
      · rw [if_neg hi, h2]
        by_cases h3 : i < m
        · rw [if_pos h3, if_pos (by omega)]
        · rw [if_neg h3, if_neg (by omega)]
  unfold recompute
  obtain ⟨k1, k2⟩ := key { temp1 := hh, psi := h.psi, alpha := upd h.alpha 0 1, beta := upd h.beta 0 1, sigma := upd h.sigma 0 1, gamma := upd h.gamma 0 0 } rfl rfl
  simp only [upd] at k1 k2 ⊢
  by_cases hi : i = kk
  · subst hi; rw [if_pos rfl, if_pos le_rfl]; exact k1
  · rw [if_neg hi]
    refine (k2 i).trans ?_
    by_cases h3 : i < kk
    · rw [if_pos h3, if_pos (by omega)]
    · rw [if_neg h3, if_neg (by omega)]

theorem coefHist_psi (s : State ν n q F) (i : Nat) : (coefHist s).psi i =
    if s.c.kk + 1 ≥ nextNs s.c ∧ i ≤ s.c.kk then shifted s.c.hh s.h.psi i else s.h.psi i := by
  show (coefRaw s).psi i = _
  unfold coefRaw
  by_cases h : s.c.kk + 1 ≥ nextNs s.c
  · rw [if_pos h, recompute_psi]
    by_cases hi : i ≤ s.c.kk
    · rw [if_pos hi, if_pos ⟨h, hi⟩]
    · rw [if_neg hi, if_neg (fun x => hi x.2)]
  · rw [if_neg h, if_neg (fun x => h x.1)]

theorem recompute_alpha (kk : Nat) (hh : F) (h : Hist n F) (i : Nat) (hi : i ≤ kk) :
    (recompute kk hh h).alpha i = if i = 0 then 1 else hh / shifted hh h.psi i := by
  have key : ∀ l0 : CoefLoop F, l0.psi = h.psi → l0.alpha 0 = 1 →
      (∀ i, kk ≤ i → (forUp kk (coefPass hh) l0).psi i = h.psi i) ∧
      ∀ i, i ≤ kk → (forUp kk (coefPass hh) l0).alpha i = if i = 0 then 1 else hh / shifted hh h.psi i := by
    intro l0 q1 q2
    refine forUp_inv (fun m (l : CoefLoop F) => (∀ i, m ≤ i → l.psi i = h.psi i) ∧
      ∀ i, i ≤ m → l.alpha i = if i = 0 then 1 else hh / shifted hh h.psi i)
      ⟨fun i _ => by rw [q1], fun i hi => by rw [Nat.le_zero.1 hi, if_pos rfl, q2]⟩ ?_
    rintro m l hm ⟨h1, h2⟩
    refine ⟨fun i hi => ?_, fun i hi => ?_⟩
    · show upd l.psi m l.temp1 i = _
      unfold upd
      rw [if_neg (by omega), h1 i (by omega)]
    · show upd l.alpha (m + 1) (hh / (l.psi m + hh)) i = _
      unfold upd
      by_cases hi' : i = m + 1
      · rw [if_pos hi', hi', if_neg (by omega), h1 m le_rfl]; rfl
      · rw [if_neg hi', h2 i (by omega)]
  unfold recompute
  exact (key { temp1 := hh, psi := h.psi, alpha := upd h.alpha 0 1, beta := upd h.beta 0 1, sigma := upd h.sigma 0 1, gamma := upd h.gamma 0 0 } rfl (by simp [upd])).2 i hi

theorem coefHist_alpha (s : State ν n q F) (i : Nat) (hi : i ≤ s.c.kk) :
    (coefHist s).alpha i = if s.c.kk + 1 ≥ nextNs s.c then (if i = 0 then 1 else s.c.hh / shifted s.c.hh s.h.psi i)
      else s.h.alpha i := by
  show (coefRaw s).alpha i = _
  unfold coefRaw
  by_cases h : s.c.kk + 1 ≥ nextNs s.c
  · rw [if_pos h, if_pos h, recompute_alpha _ _ _ _ hi]
  · rw [if_neg h, if_neg h]

theorem restored_psi (s : State ν n q F) (t0 : F) (i : Nat) :
    (restored s t0).h.psi i = if i < s.c.kk then s.h.psi (i + 1) - s.c.hh else s.h.psi i := by
  show forUp s.c.kk (fun j0 p => upd p j0 (p (j0 + 1) - s.c.hh)) s.h.psi i = _
  revert i
  refine forUp_inv (fun m (p : Nat → F) => ∀ i, p i = if i < m then s.h.psi (i + 1) - s.c.hh else s.h.psi i)
    (fun i => by simp) ?_
  intro m p hm hp i
  unfold upd
  by_cases hi : i = m
  · subst hi; rw [if_pos rfl, if_pos (by omega), hp, if_neg (by omega)]
  · rw [if_neg hi, hp]
    by_cases h3 : i < m
    · rw [if_pos h3, if_pos (by omega)]
    · rw [if_neg h3, if_neg (by omega)]

theorem _root_.Verif.Spec.OnlyRecoverable.legal {cfg : Cfg ν n q F} (h : OnlyRecoverable cfg) : NlsLegal cfg := by
  intro N e m y0 y w tol c N' m' ee err hs
  obtain ⟨rec, h1, rfl⟩ := h err ⟨N, e, m, y0, y, w, tol, c, N', m', ee, hs⟩
  exact h1

theorem passFailed_soft {cfg : Cfg ν n q F} {t0 : F} {s s4 : State ν n q F} {err : Err} {a b : F}
    (hl : OnlyRecoverable cfg) (h : PassFailed cfg t0 s s4 err a b) :
    err = .ida .testFail ∨ ∃ rec, err = .ida (.recoverableFail rec) := by
  obtain ⟨s3, r, out, h1, h2, h3, h4⟩ := h.tried
  obtain ⟨m', hm', hm2⟩ := h1.solve
  rcases h2 with ⟨rfl, -⟩ | ⟨-, rfl, -⟩
  · obtain ⟨rec, -, he⟩ := hl err ⟨_, _, _, _, _, _, _, _, _, _, _, hm'⟩
    exact .inr ⟨rec, he⟩
  · exact .inl rfl

theorem attempt_again'' {cfg : Cfg ν n q F} {t0 : F} {s s' : State ν n q F} {f f' : Fails} (hl : OnlyRecoverable cfg)
    (h : attempt cfg t0 s f = .again s' f') :
    ∃ err a b s5 s6, Restored cfg t0 s s5 err ∧ (err = .ida .testFail ∨ ∃ rec, err = .ida (.recoverableFail rec)) ∧
      Handled cfg s5 a b f err s6 f' (.ok ()) ∧ s' = if s6.cnt.nst = 0 then reset s6 else s6 := by
  obtain ⟨s4, err, a, b, s6, hp, hh, hs⟩ := attempt_again h
  exact ⟨err, a, b, _, s6, hp.restored hl.legal, passFailed_soft hl hp, handleNFlag_handled hh, hs⟩

theorem attempt_fail'' {cfg : Cfg ν n q F} {t0 : F} {s s' : State ν n q F} {f : Fails} {e : Err} (hl : OnlyRecoverable cfg)
    (h : attempt cfg t0 s f = .fail s' e) :
    ∃ err a b f' s5, Restored cfg t0 s s5 err ∧ (err = .ida .testFail ∨ ∃ rec, err = .ida (.recoverableFail rec)) ∧
      Handled cfg s5 a b f err s' f' (.error e) := by
  obtain ⟨s4, err, a, b, f', hp, hh⟩ := attempt_fail h
  exact ⟨err, a, b, f', _, hp.restored hl.legal, passFailed_soft hl hp, handleNFlag_handled hh⟩

end lawfree

section
variable {ν : Type w} {n q : Nat} {F : Type u} {K : Type v} [Scalar F] [Field K] [LinearOrder K] [IsStrictOrderedRing K]
  [S : Correct F K]

local prefix:max "♯" => StdModel.val (F := F) (K := K)
local notation "μ" => (StdModel.u (F := F) (K := K))

theorem abs_add_dir {p h : K} (hd : 0 < p * h) : |p + h| = |p| + |h| := by
  rcases lt_or_gt_of_ne (right_ne_zero_of_mul hd.ne') with hn | hp
  · have : p < 0 := by
      by_contra hc
      have := mul_nonpos_of_nonneg_of_nonpos (not_lt.1 hc) hn.le
      linarith
    rw [abs_of_neg hn, abs_of_neg this, abs_of_neg (by linarith)]; ring
  · have : 0 < p := by
      by_contra hc
      have := mul_nonpos_of_nonpos_of_nonneg (not_lt.1 hc) hp.le
      linarith
    rw [abs_of_pos hp, abs_of_pos this, abs_of_pos (by linarith)]

theorem abs_sub_dir {p h : K} (hd : 0 < p * h) (hl : |h| < |p|) : |p - h| = |p| - |h| ∧ 0 < (p - h) * h := by
  rcases lt_or_gt_of_ne (right_ne_zero_of_mul hd.ne') with hn | hp
  · have : p < 0 := by
      by_contra hc
      have := mul_nonpos_of_nonneg_of_nonpos (not_lt.1 hc) hn.le
      linarith
    rw [abs_of_neg hn, abs_of_neg this] at hl ⊢
    rw [abs_of_neg (by linarith)]
    exact ⟨by ring, mul_pos_of_neg_of_neg (by linarith) hn⟩
  · have : 0 < p := by
      by_contra hc
      have := mul_nonpos_of_nonpos_of_nonneg (not_lt.1 hc) hp.le
      linarith
    rw [abs_of_pos hp, abs_of_pos this] at hl ⊢
    rw [abs_of_pos (by linarith)]
    exact ⟨rfl, mul_pos (by linarith) hp⟩

theorem scale_far {a b : K} {d : K} (hd : |d| ≤ μ) {h : K} (hp : 0 < a * h) :
    0 < a * (1 + d) * h ∧ |a| * (1 - μ) ≤ |a * (1 + d)| := by
  obtain ⟨h1, h2, h3⟩ := fac hd
  refine ⟨?_, ?_⟩
  · rw [mul_right_comm]; exact mul_pos hp h3
  · rw [abs_mul, abs_of_pos h3]; exact mul_le_mul_of_nonneg_left h1 (abs_nonneg _)

theorem add_far {p h : F} (hd : 0 < ♯p * ♯h) :
    0 < ♯(p + h) * ♯h ∧ (|♯p| + |♯h|) * (1 - μ) ≤ |♯(p + h)| := by
  obtain ⟨d, h1, e⟩ := StdModel.val_add (K := K) p h
  rw [e, ← abs_add_dir hd]
  refine scale_far (F := F) (b := 0) h1 ?_
  rw [add_mul]
  exact add_pos hd (mul_self_pos.2 (right_ne_zero_of_mul hd.ne'))

theorem sub_far {p h : F} (hd : 0 < ♯p * ♯h) (hl : |♯h| < |♯p|) :
    0 < ♯(p - h) * ♯h ∧ (|♯p| - |♯h|) * (1 - μ) ≤ |♯(p - h)| := by
  obtain ⟨d, h1, e⟩ := StdModel.val_sub (K := K) p h
  obtain ⟨h2, h3⟩ := abs_sub_dir hd hl
  rw [e, ← h2]
  exact scale_far (F := F) (b := 0) h1 h3

/-- The nodes are as far away as the last step allows, and the coefficients `alpha` are what they should be. -/
def Fresh (s : State ν n q F) : Prop :=
  ∀ i, i ≤ s.c.kused → |♯s.c.hused| ≤ |♯(s.h.psi i)| ∧ (1 ≤ i → 31 / 25 * |♯s.c.hused| ≤ |♯(s.h.psi i)|) ∧
    0 < ♯(s.h.alpha i) ∧ ♯(s.h.alpha i) ≤ 1

/-- The nodes used lie behind, and are not much closer than a step. -/
structure PsiOk (s : State ν n q F) : Prop where
  kk : s.c.kk ≤ s.c.kused + 1
  pos : ∀ i, i ≤ s.c.kused → 0 < ♯(s.h.psi i) * ♯s.c.hh
  lo : ∀ i, i ≤ s.c.kused → |♯s.c.hh| ≤ 4 * |♯(s.h.psi i)|
  fresh : Fresh (K := K) s ∨ s.c.ns ≤ 1 ∨ |♯s.c.hh| < |♯s.c.hused|

/-- The error constant of the attempt is a sensible number. -/
def CkOk (x : Att n F) : Prop := 0 < ♯x.ck ∧ ♯x.ck ≤ 6

/-- Invariant of the attempt loop. -/
structure PsiLoop (cfg : Cfg ν n q F) (s0 s : State ν n q F) (f : Fails) : Prop where
  ord : OrdLoop cfg s
  ctl : CtlLoop (K := K) s0 s
  ok : PsiOk (K := K) s
  two : 2 ≤ f.nef → 0 < s.cnt.nst → |♯s.c.hh| < |♯s.c.hused| ∧ ∀ i, i ≤ s.c.kused → |♯s.c.hh| ≤ 2 * |♯(s.h.psi i)|
  atts : ∀ x ∈ s.g.atts, CkOk (K := K) x

/-- When the coefficients are not computed anew. -/
theorem not_updated {s : State ν n q F} (h : ¬ (s.c.kk + 1 ≥ nextNs s.c)) :
    ♯s.c.hh = ♯s.c.hused ∧ s.c.kk = s.c.kused ∧ s.c.kk < s.c.ns := by
  unfold nextNs at h
  simp only at h
  split at h
  · omega
  · rename_i hc
    rw [Bool.or_eq_true, not_or] at hc
    have h1 : s.c.kk = s.c.kused := by simpa using hc.2
    have h2 : Scalar.eqb s.c.hh s.c.hused = true := by
      have := hc.1
      simpa [Scalar.neb] using this
    exact ⟨(StdModel.eq_iff (K := K) _ _).1 h2, h1, by omega⟩

theorem nextNs_one {s : State ν n q F} (h : ♯s.c.hh ≠ ♯s.c.hused) : nextNs s.c ≤ 1 := by
  unfold nextNs
  have : Scalar.neb s.c.hh s.c.hused = true := by
    by_contra hc
    have h2 : Scalar.eqb s.c.hh s.c.hused = true := by simpa [Scalar.neb] using hc
    exact h ((StdModel.eq_iff (K := K) _ _).1 h2)
  simp only [this, Bool.true_or, if_true]
  omega

theorem PsiOk.stale {s : State ν n q F} (h : PsiOk (K := K) s) (h1 : 1 ≤ s.c.kk) (hn : ¬ (s.c.kk + 1 ≥ nextNs s.c)) :
    Fresh (K := K) s ∧ ♯s.c.hh = ♯s.c.hused ∧ s.c.kk = s.c.kused := by
  obtain ⟨e1, e2, e3⟩ := not_updated (K := K) hn
  rcases h.fresh with hf | hf | hf
  · exact ⟨hf, e1, e2⟩
  · omega
  · rw [e1] at hf; exact absurd hf (lt_irrefl _)

theorem ratio_fl {a b : F} (hu : 1000 * (μ : K) ≤ 1) (hd : 0 < ♯b * ♯a) (hl : 31 / 25 * |♯a| ≤ |♯b|) :
    0 < ♯(a / b) ∧ ♯(a / b) ≤ 1 := by
  have hb : ♯b ≠ 0 := left_ne_zero_of_mul hd.ne'
  obtain ⟨d, h1, e⟩ := StdModel.val_div (K := K) a b hb
  obtain ⟨-, h2, h3⟩ := fac h1
  have hr : 0 < ♯a / ♯b := by
    rw [div_eq_mul_inv, ← mul_pos_iff_of_pos_right (mul_self_pos.2 hb)]
    have : ♯a * (♯b)⁻¹ * (♯b * ♯b) = ♯b * ♯a := by field_simp
    rw [this]; exact hd
  rw [e]
  refine ⟨mul_pos hr h3, ?_⟩
  have h4 : ♯a / ♯b ≤ 25 / 31 := by
    rw [← abs_of_pos hr, abs_div, div_le_iff₀ (abs_pos.2 hb)]
    linarith
  have : ♯a / ♯b * (1 + d) ≤ 25 / 31 * (1 + μ) := mul_le_mul h4 (by linarith) h3.le (by norm_num)
  linarith

/-- The nodes after the coefficients have been computed. -/
theorem PsiOk.coef {s : State ν n q F} (hu : 1000 * (μ : K) ≤ 1) (h : PsiOk (K := K) s) (h1 : 1 ≤ s.c.kk)
    (h0 : ♯s.c.hh ≠ 0) (i : Nat) (hi : i ≤ s.c.kk) :
    0 < ♯((coefHist s).psi i) * ♯s.c.hh ∧ |♯s.c.hh| ≤ |♯((coefHist s).psi i)| ∧
      (1 ≤ i → 31 / 25 * |♯s.c.hh| ≤ |♯((coefHist s).psi i)|) ∧
      0 < ♯((coefHist s).alpha i) ∧ ♯((coefHist s).alpha i) ≤ 1 := by
  have hu0 := FlControl.u0 (F := F) (K := K)
  have ha := abs_nonneg (♯s.c.hh)
  rw [coefHist_psi, coefHist_alpha _ _ hi]
  by_cases hn : s.c.kk + 1 ≥ nextNs s.c
  · rw [if_pos ⟨hn, hi⟩, if_pos hn]
    cases i with
    | zero =>
      rw [if_pos rfl, StdModel.val_one]
      exact ⟨mul_self_pos.2 h0, le_rfl, fun h => by omega, one_pos, le_rfl⟩
    | succ i =>
      have hk := h.kk
      obtain ⟨a1, a2⟩ := add_far (K := K) (h.pos i (by omega))
      have hlo := h.lo i (by omega)
      have : 31 / 25 * |♯s.c.hh| ≤ |♯(s.h.psi i + s.c.hh)| := by
        refine le_trans ?_ a2
        nlinarith
      rw [if_neg (by omega)]
      exact ⟨a1, le_trans (by linarith) this, fun _ => this, ratio_fl hu a1 this⟩
  · obtain ⟨hf, e1, e2⟩ := h.stale h1 hn
    rw [if_neg (fun x => hn x.1), if_neg hn]
    obtain ⟨f1, f2, f3⟩ := hf i (by omega)
    rw [← e1] at f1 f2
    exact ⟨h.pos i (by omega), f1, f2, f3⟩

theorem PsiOk.ck {s : State ν n q F} (hu : 1000 * (μ : K) ≤ 1) (h : PsiOk (K := K) s) (h1 : 1 ≤ s.c.kk)
    (h5 : s.c.kk < mxordp1) (h0 : ♯s.c.hh ≠ 0) (t0 : F) (ee : Vec n F) (out : AttOut) :
    CkOk (K := K) (attRec s t0 ee out) :=
  FlCoef.ck_val _ _ hu h1 (by unfold mxordp1 at h5; omega) fun i hi => (h.coef hu h1 h0 i hi).2.2.2

/-- The nodes after a failed attempt, before the step size is reduced. -/
theorem restored_ok {cfg : Cfg ν n q F} {t0 : F} {s s5 : State ν n q F} {err : Err} (hu : 1000 * (μ : K) ≤ 1)
    (h : PsiOk (K := K) s) (h1 : 1 ≤ s.c.kk) (h0 : ♯s.c.hh ≠ 0) (hR : Restored cfg t0 s s5 err) :
    ∀ i, i ≤ s.c.kused → 0 < ♯(s5.h.psi i) * ♯s.c.hh ∧ 239 / 1000 * |♯s.c.hh| ≤ |♯(s5.h.psi i)| ∧
      (|♯s.c.hh| < |♯s.c.hused| → |♯s.c.hh| ≤ 2 * |♯(s.h.psi i)| → |♯s.c.hh| ≤ 4 * |♯(s5.h.psi i)|) := by
  intro i hi
  have hu0 := FlControl.u0 (F := F) (K := K)
  have ha : 0 < |♯s.c.hh| := abs_pos.2 h0
  obtain ⟨s3, e1, e2, e3, e4, e5⟩ := hR.h
  rw [e5, restored_psi, e1, e2, e4]
  by_cases hik : i < s.c.kk
  · rw [if_pos hik]
    by_cases hn : s.c.kk + 1 ≥ nextNs s.c
    · rw [coefHist_psi, if_pos ⟨hn, hik⟩]
      show 0 < ♯(s.h.psi i + s.c.hh - s.c.hh) * _ ∧ _ ≤ |♯(s.h.psi i + s.c.hh - s.c.hh)| ∧ (_ → _ → _ ≤ 4 * |♯(s.h.psi i + s.c.hh - s.c.hh)|)
      obtain ⟨a1, a2⟩ := add_far (K := K) (h.pos i hi)
      have hlo := h.lo i hi
      have hx := abs_nonneg (♯(s.h.psi i))
      have hm1 : μ * |♯s.c.hh| ≤ 1 / 1000 * |♯s.c.hh| := mul_le_mul_of_nonneg_right (by linarith) ha.le
      have hm2 : μ * |♯(s.h.psi i)| ≤ 1 / 1000 * |♯(s.h.psi i)| := mul_le_mul_of_nonneg_right (by linarith) hx
      have hlt : |♯s.c.hh| < |♯(s.h.psi i + s.c.hh)| := by
        refine lt_of_lt_of_le ?_ a2
        linarith
      obtain ⟨b1, b2⟩ := sub_far (K := K) a1 hlt
      have hy : (|♯(s.h.psi i)| + |♯s.c.hh|) * (1 - μ) - |♯s.c.hh| ≤ |♯(s.h.psi i + s.c.hh)| - |♯s.c.hh| := by linarith
      have hy' : 995 / 1000 * |♯(s.h.psi i)| ≤ |♯(s.h.psi i + s.c.hh)| - |♯s.c.hh| := le_trans (by linarith) hy
      have hz : 990 / 1000 * |♯(s.h.psi i)| ≤ |♯(s.h.psi i + s.c.hh - s.c.hh)| := by
        refine le_trans ?_ b2
        have : 995 / 1000 * |♯(s.h.psi i)| * (999 / 1000) ≤ (|♯(s.h.psi i + s.c.hh)| - |♯s.c.hh|) * (1 - μ) :=
          mul_le_mul hy' (by linarith) (by norm_num) (by linarith)
        linarith
      exact ⟨b1, by linarith, fun _ _ => by linarith⟩
    · obtain ⟨hf, g1, g2⟩ := h.stale h1 hn
      obtain ⟨c1, c2, c3, -⟩ := h.coef hu h1 h0 (i + 1) (by omega)
      have c3 := c3 (by omega)
      obtain ⟨b1, b2⟩ := sub_far (K := K) c1 (by linarith)
      refine ⟨b1, le_trans ?_ b2, fun h => by rw [g1] at h; exact absurd h (lt_irrefl _)⟩
      have : 24 / 100 * |♯s.c.hh| * (999 / 1000) ≤ (|♯((coefHist s).psi (i + 1))| - |♯s.c.hh|) * (1 - μ) :=
        mul_le_mul (by linarith) (by linarith) (by norm_num) (by linarith)
      linarith
  · rw [if_neg hik]
    by_cases hk : i = s.c.kk
    · obtain ⟨c1, c2, c3, -⟩ := h.coef hu h1 h0 i (by omega)
      exact ⟨c1, by linarith, fun _ _ => by linarith⟩
    · rw [coefHist_psi, if_neg (fun x => by omega)]
      exact ⟨h.pos i hi, by linarith [h.lo i hi], fun _ _ => h.lo i hi⟩

/-- The factors by which the step size is reduced. -/
theorem handled_shrink {cfg : Cfg ν n q F} {s s' : State ν n q F} {err : Err} {a b : F} {f f' : Fails}
    {r : Except Err Unit} (hu : 1000 * (μ : K) ≤ 1) (h9 : ♯(Scalar.pt9 : F) ≤ 19 / 20)
    (hleg : err = .ida .testFail ∨ err.fromNls) (hs : err = .ida .testFail ∨ ∃ rec, err = .ida (.recoverableFail rec))
    (h : Handled cfg s a b f err s' f' r) :
    (f'.nef < 2 ∧ |♯s'.c.hh| ≤ 955 / 1000 * |♯s.c.hh| ∨ |♯s'.c.hh| ≤ 26 / 100 * |♯s.c.hh|) ∨
      (2 ≤ f.nef ∧ s'.c.hh = s.c.hh ∧ ∃ e, r = .error e) := by
  have hnc : ∀ rec, err = .ida (.recoverableFail rec) → rec ≠ .constraint := by
    intro rec he
    rcases hleg with h | h
    · rw [h] at he; cases he
    · rw [he] at h; exact h
  have hu0 := FlControl.u0 (F := F) (K := K)
  have key : ∀ (r : F) (c : K), 0 ≤ ♯r → ♯r ≤ c → |♯(s.c.hh * r)| ≤ c * (1001 / 1000) * |♯s.c.hh| := by
    intro r c hr0 hr
    obtain ⟨d, hd, -, hd1, e⟩ := mul_sign (K := K) s.c.hh r
    rw [e, abs_mul, abs_mul, abs_of_pos hd, abs_of_nonneg hr0]
    have : ♯r * d ≤ c * (1001 / 1000) := mul_le_mul hr (by linarith) hd.le (le_trans hr0 hr)
    calc |♯s.c.hh| * ♯r * d = (♯r * d) * |♯s.c.hh| := by ring
      _ ≤ _ := mul_le_mul_of_nonneg_right this (abs_nonneg _)
  have hah := abs_nonneg (♯s.c.hh)
  have hq : |♯(s.c.hh * Scalar.quarter)| ≤ 26 / 100 * |♯s.c.hh| := by
    refine le_trans (key Scalar.quarter (1 / 4) ?_ ?_) ?_
    · rw [Correct.val_quarter]; norm_num
    · rw [Correct.val_quarter]
    · linarith
  cases h with
  | test1 rr h1 h2 =>
    refine .inl (.inl ⟨by show f.nef + 1 < 2; omega, ?_⟩)
    refine le_trans (key rr (19 / 20) ?_ ?_) (by linarith)
    · rw [h2, Correct.val_max, Correct.val_quarter]
      exact le_trans (by norm_num) (le_max_left _ _)
    · rw [h2, Correct.val_max, Correct.val_quarter, Correct.val_min]
      exact max_le (by norm_num) ((min_le_left _ _).trans h9)
  | test2 h1 => exact .inl (.inr hq)
  | test3 h1 h2 => exact .inl (.inr hq)
  | testGiveUp h1 h2 => exact .inr ⟨h1, rfl, _, rfl⟩
  | conv rec h1 =>
    simp only [if_neg (hnc rec rfl)]
    exact .inl (.inr hq)
  | convGiveUp rec h1 =>
    simp only [if_neg (hnc rec rfl)]
    exact .inl (.inr hq)
  | hard e h1 =>
    rcases hs with rfl | ⟨rec, rfl⟩
    · exact absurd rfl (h1 _)
    · exact absurd rfl (h1 _)

theorem psiLoop_init {cfg : Cfg ν n q F} {s0 : State ν n q F} {f : Fails} (hm : 1 ≤ cfg.maxord) (hO : OrdInv cfg s0)
    (hP : 0 < s0.cnt.nst → PsiOk (K := K) s0) (hA : ∀ x ∈ s0.g.atts, CkOk (K := K) x) (h0 : ♯s0.c.hh ≠ 0) (hf : f.nef = 0) :
    PsiLoop (K := K) cfg s0 (firstStepInit s0) f := by
  refine ⟨ordLoop_init hm hO, ctlLoop_init s0 h0, ?_, fun h => by omega, by rw [(firstStepInit_cnt s0).2.1]; exact hA⟩
  by_cases hz : s0.cnt.nst = 0
  · unfold firstStepInit
    rw [if_pos hz]
    refine ⟨le_refl 1, fun i hi => ?_, fun i hi => ?_, .inr (.inl (Nat.zero_le _))⟩
    · have hi : i ≤ 0 := hi
      obtain rfl : i = 0 := by omega
      exact mul_self_pos.2 h0
    · have hi : i ≤ 0 := hi
      obtain rfl : i = 0 := by omega
      show |♯s0.c.hh| ≤ 4 * |♯s0.c.hh|
      linarith [abs_nonneg (♯s0.c.hh)]
  · unfold firstStepInit
    rw [if_neg hz]
    exact hP (by omega)

/-- The order after a failed attempt. -/
theorem handled_kk {cfg : Cfg ν n q F} {t0 : F} {s s5 s6 : State ν n q F} {err : Err} {a b : F} {f f' : Fails}
    {r : Except Err Unit} (hR : Restored cfg t0 s s5 err) (hH : Handled cfg s5 a b f err s6 f' r)
    (hk : s.c.kk ≤ s.c.kused + 1) : s6.c.kk ≤ s6.c.kused + 1 := by
  obtain ⟨h1, h2, -⟩ := handled_ctl hH
  have hku : s6.c.kused = s.c.kused := by rw [h2, hR.c]
  have hkk : s5.c.kk = s.c.kk := by rw [hR.c]
  rw [hku]
  rcases h1 with h1 | ⟨h1 | h1, he, -⟩
  · omega
  · rcases hR.knew he with h3 | ⟨h3, -⟩ <;> omega
  · omega

theorem handled_ok {cfg : Cfg ν n q F} {s0 s s5 s6 : State ν n q F} {err : Err} {a b : F} {f f' : Fails}
    {r : Except Err Unit} (hu : 1000 * (μ : K) ≤ 1) (h9 : ♯(Scalar.pt9 : F) ≤ 19 / 20)
    (hC : CtlInv (K := K) cfg s0) (hI : PsiLoop (K := K) cfg s0 s f) (hR : Restored cfg s0.e.tn s s5 err)
    (hs : err = .ida .testFail ∨ ∃ rec, err = .ida (.recoverableFail rec)) (hH : Handled cfg s5 a b f err s6 f' r) :
    (0 < s6.cnt.nst → PsiOk (K := K) s6) ∧ ((∃ u, r = .ok u) → 2 ≤ f'.nef → 0 < s6.cnt.nst →
      |♯s6.c.hh| < |♯s6.c.hused| ∧ ∀ i, i ≤ s6.c.kused → |♯s6.c.hh| ≤ 2 * |♯(s6.h.psi i)|) ∧
      s6.c.ns = nextNs s.c := by
  obtain ⟨k1, k2, k3, k4, k5, k6, -⟩ := handled_ctl hH
  have hhh : s5.c.hh = s.c.hh := by rw [hR.c]
  have hne : ♯s.c.hh ≠ 0 := hI.ctl.hh.ne
  have ha : 0 < |♯s.c.hh| := abs_pos.2 hne
  have hsh := handled_hh (K := K) hR.legal (by rw [hhh]; exact hne) hH
  have hku : s6.c.kused = s.c.kused := by rw [k2, hR.c]
  have hus : s6.c.hused = s.c.hused := by rw [k4, hR.c]
  have hns : s6.c.ns = nextNs s.c := by rw [k5, hR.c]
  have hnst : s6.cnt.nst = s.cnt.nst := by rw [k3, hR.cnt]
  have hres := restored_ok hu hI.ok hI.ord.kk1 hne hR
  have hfac := handled_shrink (K := K) hu h9 hR.legal hs hH
  rw [hhh] at hsh hfac
  have hu0 := FlControl.u0 (F := F) (K := K)
  have hgrow : 0 < s.cnt.nst → |♯s.c.hh| ≤ 21 / 10 * |♯s.c.hused| ∧ 0 < |♯s.c.hused| := by
    intro hp
    rw [hI.ctl.cnt] at hp
    have h1 : s.c.hused = s0.c.hused := by
      rw [hI.ctl.hused]; unfold firstStepInit; rw [if_neg (by omega)]
    have h2 := hC.grow hp
    have h3 : 0 < |♯s0.c.hused| := abs_pos.2 (right_ne_zero_of_mul (hC.used hp).ne')
    rw [h1]
    refine ⟨le_trans hI.ctl.hh.le (le_trans h2 (mul_le_mul_of_nonneg_right ?_ h3.le)), h3⟩
    nlinarith
  refine ⟨fun hp => ⟨handled_kk hR hH hI.ok.kk, fun i hi => ?_, fun i hi => ?_, ?_⟩, fun ⟨w, hw⟩ hnef hp => ⟨?_, fun i hi => ?_⟩, hns⟩
  · rw [hku] at hi
    rw [k6]
    exact dir_trans (hres i hi).1 (by rw [mul_comm]; exact hsh.dir)
  · rw [hku] at hi
    obtain ⟨r1, r2, r3⟩ := hres i hi
    rw [k6]
    rcases hfac with (⟨-, hf⟩ | hf) | ⟨hf, he, -⟩
    · linarith
    · linarith
    · rw [he]
      obtain ⟨t1, t2⟩ := hI.two hf (by rw [← hnst]; exact hp)
      exact r3 t1 (t2 i hi)
  · rw [hns, hus]
    right
    by_cases hx : ♯s.c.hh = ♯s.c.hused
    · rcases hfac with (⟨-, hf⟩ | hf) | ⟨hf, he, -⟩
      · right; rw [← hx]; linarith
      · right; rw [← hx]; linarith
      · right
        rw [he]
        exact (hI.two hf (by rw [← hnst]; exact hp)).1
    · exact .inl (nextNs_one hx)
  · rw [hus]
    obtain ⟨g1, g2⟩ := hgrow (by rw [← hnst]; exact hp)
    rcases hfac with (⟨hc, -⟩ | hf) | ⟨-, -, e, he⟩
    · omega
    · linarith
    · rw [hw] at he; cases he
  · rw [hku] at hi
    obtain ⟨r1, r2, r3⟩ := hres i hi
    rw [k6]
    rcases hfac with (⟨hc, -⟩ | hf) | ⟨-, -, e, he⟩
    · omega
    · linarith
    · rw [hw] at he; cases he

theorem handled_atts {cfg : Cfg ν n q F} {s0 s s5 s6 : State ν n q F} {err : Err} {a b : F} {f f' : Fails}
    {r : Except Err Unit} (hu : 1000 * (μ : K) ≤ 1) (hI : PsiLoop (K := K) cfg s0 s f) (hR : Restored cfg s0.e.tn s s5 err)
    (hH : Handled cfg s5 a b f err s6 f' r) : ∀ x ∈ s6.g.atts, CkOk (K := K) x := by
  obtain ⟨ee, hg⟩ := hR.ghost
  have h1 : s6.g = s5.g := (handled_ctl hH).2.2.2.2.2.2.2.1
  rw [h1, hg]
  intro x hx
  rcases List.mem_cons.1 hx with rfl | hx
  · exact hI.ok.ck hu hI.ord.kk1 hR.kk hI.ctl.hh.ne _ _ _
  · exact hI.atts x hx

theorem psiLoop_again {cfg : Cfg ν n q F} {s0 s s' : State ν n q F} {f f' : Fails} (hl : OnlyRecoverable cfg)
    (hm : 1 ≤ cfg.maxord) (hu : 1000 * (μ : K) ≤ 1) (h9 : ♯(Scalar.pt9 : F) ≤ 19 / 20)
    (hC : CtlInv (K := K) cfg s0) (hw : Within (K := K) s0.tstop s0.e.tn s0.c.hh)
    (hI : PsiLoop (K := K) cfg s0 s f) (h : attempt cfg s0.e.tn s f = .again s' f') : PsiLoop (K := K) cfg s0 s' f' := by
  have hord := ordLoop_again hl.legal hm hI.ord h
  obtain ⟨err, a, b, s5, s6, hR, hs, hH, rfl⟩ := attempt_again'' hl h
  have hctl := (ctlLoop_handled hw hI.ctl hR hH).of_reset (s6.cnt.nst = 0)
  obtain ⟨p1, p2, p3⟩ := handled_ok hu h9 hC hI hR hs hH
  refine ⟨hord, hctl, ?_, ?_, by
    rw [(ite_reset_ctl s6 (s6.cnt.nst = 0)).2.2.2.1]; exact handled_atts hu hI hR hH⟩
  · by_cases hz : s6.cnt.nst = 0
    · have hku : s6.c.kused = 0 := by
        have h1 := hord.kused0
        rw [if_pos hz] at h1
        exact h1.2 hz
      have hne : ♯s6.c.hh ≠ 0 := by
        have h1 := hctl.hh.ne
        rw [if_pos hz] at h1
        exact h1
      have hus : ♯s.c.hused = 0 := by
        have h1 := hI.ctl.hused
        have h2 : s0.cnt.nst = 0 := by
          have := hctl.cnt
          rw [if_pos hz] at this
          exact this.symm.trans hz
        unfold firstStepInit at h1
        rw [if_pos h2] at h1
        rw [h1]; exact StdModel.val_zero
      rw [if_pos hz]
      have hkk := handled_kk hR hH hI.ok.kk
      refine ⟨hkk, fun i hi => ?_, fun i hi => ?_, .inr (.inl ?_)⟩
      · have hi : i ≤ s6.c.kused := hi
        obtain rfl : i = 0 := by omega
        exact mul_self_pos.2 hne
      · have hi : i ≤ s6.c.kused := hi
        obtain rfl : i = 0 := by omega
        show |♯s6.c.hh| ≤ 4 * |♯s6.c.hh|
        linarith [abs_nonneg (♯s6.c.hh)]
      · show s6.c.ns ≤ 1
        rw [p3]
        exact nextNs_one (K := K) (by rw [hus]; exact hI.ctl.hh.ne)
    · rw [if_neg hz]
      exact p1 (by omega)
  · by_cases hz : s6.cnt.nst = 0
    · intro _ hp
      rw [if_pos hz] at hp
      have hp : 0 < s6.cnt.nst := hp
      omega
    · rw [if_neg hz]
      exact p2 ⟨(), rfl⟩

theorem psiLoop_fail {cfg : Cfg ν n q F} {s0 s s' : State ν n q F} {f : Fails} {e : Err} (hl : OnlyRecoverable cfg)
    (hu : 1000 * (μ : K) ≤ 1) (h9 : ♯(Scalar.pt9 : F) ≤ 19 / 20)
    (hC : CtlInv (K := K) cfg s0) (hI : PsiLoop (K := K) cfg s0 s f) (h : attempt cfg s0.e.tn s f = .fail s' e) :
    (0 < s'.cnt.nst → PsiOk (K := K) s') ∧ ∀ x ∈ s'.g.atts, CkOk (K := K) x := by
  obtain ⟨err, a, b, f', s5, hR, hs, hH⟩ := attempt_fail'' hl h
  exact ⟨(handled_ok hu h9 hC hI hR hs hH).1, handled_atts hu hI hR hH⟩

theorem psiLoop_done {cfg : Cfg ν n q F} {s0 s s1 s' : State ν n q F} {f : Fails} {ck a b : F}
    (hu : 1000 * (μ : K) ≤ 1) (hm : 0 ≤ ♯cfg.hmaxInv) (hb : |♯s0.c.hh| * ♯cfg.hmaxInv ≤ hbound F)
    (hI : PsiLoop (K := K) cfg s0 s f) (h : attempt cfg s0.e.tn s f = .done s1 ck a b)
    (hc : completeStep cfg s1 a b = some s') : PsiOk (K := K) s' ∧ ∀ x ∈ s'.g.atts, CkOk (K := K) x := by
  obtain ⟨s3, h3, -, -, -, -, rfl⟩ := attempt_done h
  have hC := completeStep_eq hc
  have hA : ∀ x ∈ s'.g.atts, CkOk (K := K) x := by
    rw [hC.g.trans (done_ghost h3)]
    intro x hx
    rcases List.mem_cons.1 hx with rfl | hx
    · exact hI.ok.ck hu hI.ord.kk1 h3.kk hI.ctl.hh.ne _ _ _
    · exact hI.atts x hx
  have hne : ♯s.c.hh ≠ 0 := hI.ctl.hh.ne
  have h3hh : s3.c.hh = s.c.hh := by rw [h3.c]
  have h3kk : s3.c.kk = s.c.kk := by rw [h3.c]
  have hd := completeStep_hh (K := K) hm (s := (s3.note s0.e.tn (errCoef s) .accepted).noteAcc s0.e.tn)
    (by show ♯s3.c.hh ≠ 0; rw [h3hh]; exact hne)
    (by show |♯s3.c.hh| * _ ≤ _; rw [h3hh]; exact shrunk_bound hI.ctl.hh hm hb) hc
  have hN : NextSize (K := K) cfg s.c.hh s'.c.hh := by rw [← h3hh]; exact hd
  have hpsi : s'.h.psi = (coefHist s).psi ∧ s'.h.alpha = (coefHist s).alpha := by
    rw [hC.phi]; show s3.h.psi = _ ∧ s3.h.alpha = _; rw [h3.h]; exact ⟨rfl, rfl⟩
  obtain ⟨hpsi, hal⟩ := hpsi
  have hku : s'.c.kused = s.c.kk := hC.kused.trans h3kk
  have hus : s'.c.hused = s.c.hh := hC.hused.trans h3hh
  have hu0 := FlControl.u0 (F := F) (K := K)
  have hco := hI.ok.coef hu hI.ord.kk1 hne
  have ha := abs_nonneg (♯s.c.hh)
  refine ⟨⟨?_, fun i hi => ?_, fun i hi => ?_, .inl fun i hi => ?_⟩, hA⟩
  · have := hC.up
    have e : ((s3.note s0.e.tn (errCoef s) .accepted).noteAcc s0.e.tn).c.kk = s.c.kk := h3kk
    rw [e] at this
    omega
  · rw [hku] at hi
    rw [hpsi]
    exact dir_trans (hco i hi).1 (by rw [mul_comm]; exact hN.dir)
  · rw [hku] at hi
    rw [hpsi]
    have h1 := (hco i hi).2.1
    refine le_trans hN.hi ?_
    have : 2 * (1 + (μ : K)) ^ 2 * |♯s.c.hh| ≤ 4 * |♯s.c.hh| := mul_le_mul_of_nonneg_right (by nlinarith) ha
    linarith
  · rw [hku] at hi
    rw [hpsi, hal, hus]
    exact (hco i hi).2

theorem step_psi {cfg : Cfg ν n q F} {s0 s' : State ν n q F} {r : Except Err Unit} (hl : OnlyRecoverable cfg)
    (ho : 1 ≤ cfg.maxord) (hu : 1000 * (μ : K) ≤ 1) (h9 : ♯(Scalar.pt9 : F) ≤ 19 / 20)
    (hm : 0 ≤ ♯cfg.hmaxInv) (h0 : ♯s0.c.hh ≠ 0) (hb : |♯s0.c.hh| * ♯cfg.hmaxInv ≤ hbound F)
    (hw : Within (K := K) s0.tstop s0.e.tn s0.c.hh) (hC : CtlInv (K := K) cfg s0) (hO : OrdInv cfg s0)
    (hP : 0 < s0.cnt.nst → PsiOk (K := K) s0) (hA : ∀ x ∈ s0.g.atts, CkOk (K := K) x) (h : step cfg s0 = .ret s' r) :
    (0 < s'.cnt.nst → PsiOk (K := K) s') ∧ ∀ x ∈ s'.g.atts, CkOk (K := K) x := by
  have := step_rule (cfg := cfg) (fun s f => PsiLoop (K := K) cfg s0 s f)
    (fun s => PsiOk (K := K) s ∧ ∀ x ∈ s.g.atts, CkOk (K := K) x)
    (fun s _ => (0 < s.cnt.nst → PsiOk (K := K) s) ∧ ∀ x ∈ s.g.atts, CkOk (K := K) x)
    (psiLoop_init ho hO hP hA h0 rfl)
    (fun s1 f s' f' hI h => psiLoop_again hl ho hu h9 hC hw hI h)
    (fun s1 f s2 ck a b s' hI h hc => by
      obtain ⟨this, hA⟩ := psiLoop_done hu hm hb hI h hc
      exact ⟨⟨this.kk, this.pos, this.lo, this.fresh⟩, hA⟩)
    (fun s1 f s' e hI h => psiLoop_fail hl hu h9 hC hI h) h
  rcases this with ⟨-, h⟩ | ⟨-, -, h⟩
  · exact ⟨fun _ => h.1, h.2⟩
  · exact h

/-! ## The invariant -/

structure PsiInv (cfg : Cfg ν n q F) (s : State ν n q F) : Prop where
  ctl : CtlInv (K := K) cfg s
  ord : OrdInv cfg s
  psi : 0 < s.cnt.nst → PsiOk (K := K) s
  atts : ∀ x ∈ s.g.atts, CkOk (K := K) x

theorem PsiOk.of_shrunk {s s' : State ν n q F} (h : PsiOk (K := K) s) (hk : s'.c.kk = s.c.kk) (hku : s'.c.kused = s.c.kused)
    (hh : Shrunk ♯s'.c.hh ♯s.c.hh) (hu : s'.c.hused = s.c.hused) (hn : s'.c.ns = s.c.ns) (hp : s'.h = s.h) :
    PsiOk (K := K) s' := by
  refine ⟨by rw [hk, hku]; exact h.kk, fun i hi => ?_, fun i hi => ?_, ?_⟩
  · rw [hku] at hi
    rw [hp]; exact dir_trans (h.pos i hi) (by rw [mul_comm]; exact hh.dir)
  · rw [hku] at hi
    rw [hp]; exact hh.le.trans (h.lo i hi)
  · rcases h.fresh with hf | hf | hf
    · left
      intro i hi
      rw [hku] at hi
      rw [hu, hp]; exact hf i hi
    · right; left; omega
    · right; right; rw [hu]; exact lt_of_le_of_lt hh.le hf

theorem psiInv_micro {cfg : Cfg ν n q F} (hl : OnlyRecoverable cfg) (ho : 1 ≤ cfg.maxord) (hu : 1000 * (μ : K) ≤ 1)
    (h9 : ♯(Scalar.pt9 : F) ≤ 19 / 20) (hm : 0 ≤ ♯cfg.hmaxInv) {s s' : State ν n q F}
    (h : PsiInv (K := K) cfg s) (hM : Micro cfg s s') : PsiInv (K := K) cfg s' := by
  suffices hx : (0 < s'.cnt.nst → PsiOk (K := K) s') ∧ ∀ x ∈ s'.g.atts, CkOk (K := K) x from
    ⟨ctlInv_micro hl.legal hm h.ctl hM, ordInv_micro hl.legal ho h.ord hM, hx.1, hx.2⟩
  have one : 0 < s.cnt.nst → Shrunk ♯s.c.hh ♯s.c.hh := fun h0 => .refl (h.ctl.ne h0)
  cases hM with
  | frame hf =>
    refine ⟨fun hp => ?_, by rw [hf.g]; exact h.atts⟩
    have hp : 0 < s.cnt.nst := by rw [← hf.cnt]; exact hp
    exact (h.psi hp).of_shrunk (by rw [hf.c]) (by rw [hf.c]) (by rw [hf.c]; exact one hp) (by rw [hf.c]) (by rw [hf.c])
      hf.h
  | perf => exact ⟨fun hp => (h.psi hp).of_shrunk rfl rfl (one hp) rfl rfl rfl, h.atts⟩
  | clear => exact ⟨fun hp => (h.psi hp).of_shrunk rfl rfl (one hp) rfl rfl rfl, h.atts⟩
  | clamp ts h1 h2 h3 =>
    refine ⟨fun _ => ?_, by rw [(clampToStop_same s ts).g]; exact h.atts⟩
    have hs := clampToStop_same s ts
    have hc := clamp_spec (clamp_near h.ctl h1 h2 h3)
    have hx : (clampToStop s ts).c.kk = s.c.kk ∧ (clampToStop s ts).c.kused = s.c.kused ∧ (clampToStop s ts).c.ns = s.c.ns ∧
        (clampToStop s ts).h = s.h := by
      unfold clampToStop; split <;> exact ⟨rfl, rfl, rfl, rfl⟩
    exact (h.psi h1).of_shrunk hx.1 hx.2.1 hc hs.hused hx.2.2.1 hx.2.2.2
  | ewt h1 => exact ⟨fun hp => (h.psi hp).of_shrunk rfl rfl (one hp) rfl rfl rfl, h.atts⟩
  | first tout r h1 h2 =>
    refine ⟨fun hp => ?_, by rw [(firstCall_same h2).g]; exact h.atts⟩
    rw [(firstCall_same h2).cnt] at hp
    omega
  | firstStep tout h1 h2 h3 h4 =>
    obtain ⟨g1, g2, g3, g4, g5, -⟩ := firstStep_start hm h.ctl h1 h2 h3
    exact step_psi hl ho hu h9 hm (right_ne_zero_of_mul g2.ne') g3 g4 g1
      (ordInv_frame h3 (ordInv_perf (ordInv_first h1 h2 h.ord))) (fun hp => by omega)
      (by
        have e : (perfReset _).g = s.g := (firstCall_same h2).g
        rw [h3.g, e]; exact h.atts) h4
  | step h1 h2 h3 =>
    exact step_psi hl ho hu h9 hm (h.ctl.ne h1) (h.ctl.hmax h1) (stopReady_within h2) h.ctl h.ord h.psi h.atts h3

theorem psiInv_microFail {cfg : Cfg ν n q F} (hl : OnlyRecoverable cfg) (ho : 1 ≤ cfg.maxord) (hu : 1000 * (μ : K) ≤ 1)
    (h9 : ♯(Scalar.pt9 : F) ≤ 19 / 20) (hm : 0 ≤ ♯cfg.hmaxInv) {s s' : State ν n q F} {e : Err}
    (h : PsiInv (K := K) cfg s) (hM : MicroFail cfg s e s') : PsiInv (K := K) cfg s' := by
  suffices hx : (0 < s'.cnt.nst → PsiOk (K := K) s') ∧ ∀ x ∈ s'.g.atts, CkOk (K := K) x from
    ⟨ctlInv_microFail hl.legal hm h.ctl hM, ordInv_fail hl.legal ho h.ord hM, hx.1, hx.2⟩
  cases hM with
  | firstStep tout e h1 h2 h3 h4 =>
    obtain ⟨g1, g2, g3, g4, g5, -⟩ := firstStep_start hm h.ctl h1 h2 h3
    exact step_psi hl ho hu h9 hm (right_ne_zero_of_mul g2.ne') g3 g4 g1
      (ordInv_frame h3 (ordInv_perf (ordInv_first h1 h2 h.ord))) (fun hp => by omega)
      (by
        have e : (perfReset _).g = s.g := (firstCall_same h2).g
        rw [h3.g, e]; exact h.atts) h4
  | step e h1 h2 h3 =>
    exact step_psi hl ho hu h9 hm (h.ctl.ne h1) (h.ctl.hmax h1) (stopReady_within h2) h.ctl h.ord h.psi h.atts h3

theorem reach_psi {cfg : Cfg ν n q F} (hl : OnlyRecoverable cfg) (ho : 1 ≤ cfg.maxord) (hu : 1000 * (μ : K) ≤ 1)
    (h9 : ♯(Scalar.pt9 : F) ≤ 19 / 20) (hm : 0 ≤ ♯cfg.hmaxInv) {s : State ν n q F} (h : Reach cfg s) :
    PsiInv (K := K) cfg s :=
  h.inv (PsiInv (K := K) cfg)
    (fun a b c d => ⟨ctlInv_new cfg a b c d, ordInv_new cfg a b c d, fun h => (by cases h), fun x hx => (by cases hx)⟩)
    (fun _ _ h1 h2 => psiInv_micro hl ho hu h9 hm h1 h2)
    (fun _ _ _ h1 h2 => psiInv_microFail hl ho hu h9 hm h1 h2)

end

end Verif.FlPsi
