import Verif.Spec.FlRoot
import Mathlib.Tactic.Linarith
import Mathlib.Tactic.FieldSimp
import Mathlib.Tactic.Positivity
import Mathlib.Tactic.Ring

/-! # The trial point of the root search in floating-point arithmetic -/

set_option autoImplicit false
set_option linter.unusedSectionVars false
set_option linter.unusedSimpArgs false
set_option linter.unusedVariables false

namespace Verif

open Verif.Spec

universe u v w

section
variable {F : Type u} {K : Type v} [Scalar F] [Field K] [LinearOrder K] [IsStrictOrderedRing K] [StdModel F K] [RootLits F K]

local prefix:max "♯" => StdModel.val (F := F) (K := K)
local notation "μ" => (StdModel.u (F := F) (K := K))

/-- A product of factors `1 + d` stays near one. -/
theorem near {u d : K} (hd : |d| ≤ u) (hu : 200 * u ≤ 1) : 199 / 200 ≤ 1 + d ∧ 1 + d ≤ 201 / 200 := by
  obtain ⟨h1, h2⟩ := abs_le.1 hd
  constructor <;> linarith

theorem three_over_one {u d1 d2 d5 d4 : K} (u0 : 0 ≤ u) (hu : 200 * u ≤ 1) (h1 : |d1| ≤ u) (h2 : |d2| ≤ u) (h5 : |d5| ≤ u)
    (h4 : |d4| ≤ u) : (1 + d1) * (1 + d2) * (1 + d5) / (1 + d4) ≤ 1 + 5 * u := by
  obtain ⟨n1, -⟩ := near h1 hu
  obtain ⟨n2, -⟩ := near h2 hu
  obtain ⟨n4, -⟩ := near h4 hu
  obtain ⟨n5, -⟩ := near h5 hu
  rw [div_le_iff₀ (by linarith)]
  have t1 := (abs_le.1 h1).2
  have t2 := (abs_le.1 h2).2
  have t5 := (abs_le.1 h5).2
  have b1 : (1 + d1) * (1 + d2) * (1 + d5) ≤ (1 + u) * (1 + u) * (1 + u) := by
    have := mul_le_mul (show 1 + d1 ≤ 1 + u by linarith) (show 1 + d2 ≤ 1 + u by linarith) (by linarith) (by linarith)
    exact mul_le_mul this (by linarith) (by linarith) (mul_nonneg (by linarith) (by linarith))
  have b2 : (1 + 5 * u) * (1 - u) ≤ (1 + 5 * u) * (1 + d4) :=
    mul_le_mul_of_nonneg_left (by have := (abs_le.1 h4).1; linarith) (by linarith)
  have b3 : (1 + u) * (1 + u) * (1 + u) ≤ (1 + 5 * u) * (1 - u) := by
    have e : (1 + 5 * u) * (1 - u) - (1 + u) * (1 + u) * (1 + u) = u * (1 - 8 * u - u * u) := by ring
    have : 0 ≤ u * (1 - 8 * u - u * u) := mul_nonneg u0 (by
      have : u * u ≤ 1 * u := mul_le_mul_of_nonneg_right (by linarith) u0
      linarith)
    linarith
  linarith

/-- The secant point: the amount subtracted from the upper end is a fraction of the width, at most `1 + 5 u`. -/
theorem secant_frac (hu : 200 * μ ≤ 1) {thi tlo ghi glo alph : F} (hg : ♯glo * ♯ghi < 0) (ha : 0 < ♯alph) :
    ∃ c, 0 < c ∧ c ≤ 1 + 5 * μ ∧
      ♯((thi - tlo) * ghi / (ghi - alph * glo)) = c * (♯thi - ♯tlo) := by
  obtain ⟨d1, h1, e1⟩ := StdModel.val_sub thi tlo
  obtain ⟨d2, h2, e2⟩ := StdModel.val_mul (thi - tlo) ghi
  obtain ⟨d3, h3, e3⟩ := StdModel.val_mul alph glo
  obtain ⟨d4, h4, e4⟩ := StdModel.val_sub ghi (alph * glo)
  have u0 := StdModel.u_nonneg (F := F) (K := K)
  obtain ⟨n1, m1⟩ := near h1 hu
  obtain ⟨n2, m2⟩ := near h2 hu
  obtain ⟨n3, m3⟩ := near h3 hu
  obtain ⟨n4, m4⟩ := near h4 hu
  have p3 : 0 < ♯alph * (1 + d3) := mul_pos ha (by linarith)
  obtain ⟨w, hw⟩ : ∃ w, w = ♯ghi - ♯alph * ♯glo * (1 + d3) := ⟨_, rfl⟩
  have hwr : w ≠ 0 ∧ 0 < ♯ghi / w ∧ ♯ghi / w < 1 := by
    rcases mul_neg_iff.1 hg with ⟨a1, a2⟩ | ⟨a1, a2⟩
    · have : w < ♯ghi := by rw [hw]; have := mul_pos p3 a1; nlinarith
      exact ⟨by linarith, div_pos_of_neg_of_neg a2 (by linarith), by rw [div_lt_one_of_neg (by linarith)]; exact this⟩
    · have : ♯ghi < w := by rw [hw]; have := mul_neg_of_pos_of_neg p3 a1; nlinarith
      exact ⟨by linarith, div_pos a2 (by linarith), by rw [div_lt_one (by linarith)]; exact this⟩
  obtain ⟨w0, r0, r1⟩ := hwr
  rw [e3, ← hw] at e4
  have hden : ♯(ghi - alph * glo) ≠ 0 := by rw [e4]; exact mul_ne_zero w0 (by linarith)
  obtain ⟨d5, h5, e5⟩ := StdModel.val_div ((thi - tlo) * ghi) (ghi - alph * glo) hden
  obtain ⟨n5, m5⟩ := near h5 hu
  refine ⟨♯ghi / w * ((1 + d1) * (1 + d2) * (1 + d5) / (1 + d4)), ?_, ?_, ?_⟩
  · have : 0 < (1 + d1) * (1 + d2) * (1 + d5) / (1 + d4) :=
      div_pos (mul_pos (mul_pos (by linarith) (by linarith)) (by linarith)) (by linarith)
    exact mul_pos r0 this
  · have hb := three_over_one u0 hu h1 h2 h5 h4
    calc _ ≤ 1 * ((1 + d1) * (1 + d2) * (1 + d5) / (1 + d4)) := by
          apply mul_le_mul_of_nonneg_right r1.le
          exact (div_pos (mul_pos (mul_pos (by linarith) (by linarith)) (by linarith)) (by linarith)).le
      _ ≤ _ := by rw [one_mul]; exact hb
  · rw [e5, e2, e1, e4]
    have : (1 + d4) ≠ 0 := by linarith
    field_simp

/-- The fraction used to move the trial point away from an end of the bracket. -/
theorem fracSub_fl (hu : 200 * μ ≤ 1) {thi tlo ttol : F} (ht : 0 < ♯ttol) (hD : ♯ttol < ♯(Scalar.abs (thi - tlo))) :
    ∃ c, ♯(fracSub thi tlo ttol * (thi - tlo)) = c * (♯thi - ♯tlo) ∧ 0 < c ∧ c < 1 ∧
      47 / 100 * ♯ttol ≤ c * |♯thi - ♯tlo| ∧ 46 / 100 * ♯ttol ≤ (1 - c) * |♯thi - ♯tlo| := by
  obtain ⟨d1, h1, e1⟩ := StdModel.val_sub thi tlo
  obtain ⟨d2, h2, e2⟩ := StdModel.val_mul (fracSub thi tlo ttol) (thi - tlo)
  obtain ⟨d3, h3, e3⟩ := StdModel.val_div (Scalar.abs (thi - tlo)) ttol ht.ne'
  obtain ⟨n1, m1⟩ := near h1 hu
  obtain ⟨n2, m2⟩ := near h2 hu
  obtain ⟨n3, m3⟩ := near h3 hu
  have eA : ♯(Scalar.abs (thi - tlo)) = |♯thi - ♯tlo| * (1 + d1) := by
    rw [StdModel.val_abs, e1, abs_mul, abs_of_pos (show 0 < 1 + d1 by linarith)]
  obtain ⟨W, hW⟩ : ∃ W, W = |♯thi - ♯tlo| := ⟨_, rfl⟩
  obtain ⟨T, hT⟩ : ∃ T, T = ♯ttol := ⟨_, rfl⟩
  rw [← hW] at eA ⊢
  rw [← hT] at ht hD e3 ⊢
  rw [eA] at hD e3
  have W0 : 0 < W := by
    have : 0 < W * (1 + d1) := ht.trans hD
    exact (mul_pos_iff_of_pos_right (show 0 < 1 + d1 by linarith)).1 this
  have hWT : T * (199 / 200) ≤ W := by
    have : W * (1 + d1) ≤ W * (201 / 200) := mul_le_mul_of_nonneg_left m1 W0.le
    linarith
  refine ⟨♯(fracSub thi tlo ttol) * ((1 + d1) * (1 + d2)), by rw [e2, e1]; ring, ?_⟩
  have k0 : (198 / 200 : K) ≤ (1 + d1) * (1 + d2) := by
    have := mul_le_mul n1 n2 (by norm_num) (by linarith)
    norm_num at this ⊢; linarith
  have k1 : (1 + d1) * (1 + d2) ≤ 203 / 200 := by
    have := mul_le_mul m1 m2 (by linarith) (by norm_num)
    norm_num at this ⊢; linarith
  obtain ⟨κ, hκ⟩ : ∃ κ, κ = (1 + d1) * (1 + d2) := ⟨_, rfl⟩
  rw [← hκ] at k0 k1 ⊢
  unfold fracSub
  simp only
  split
  · rename_i hf
    obtain ⟨d5, h5, e5⟩ := RootLits.five (F := F) (K := K)
    obtain ⟨d6, h6, e6⟩ := RootLits.pt1 (F := F) (K := K)
    obtain ⟨n5, m5⟩ := near h5 hu
    obtain ⟨n6, m6⟩ := near h6 hu
    have hf := (StdModel.lt_iff _ _).1 hf
    rw [e3, e5] at hf
    have big : 49 / 10 * T ≤ W := by
      have e : W * (1 + d1) / T * (1 + d3) = W / T * ((1 + d1) * (1 + d3)) := by ring
      rw [e] at hf
      have q0 : 0 < W / T := div_pos W0 ht
      have : (1 + d1) * (1 + d3) ≤ 203 / 200 := by
        have := mul_le_mul m1 m3 (by linarith) (by norm_num)
        norm_num at this ⊢; linarith
      have := mul_le_mul_of_nonneg_left this q0.le
      have : 49 / 10 ≤ W / T := by linarith
      rwa [le_div_iff₀ ht] at this
    rw [e6]
    have c0 : 98 / 1000 ≤ 1 / 10 * (1 + d6) * κ := by
      have := mul_le_mul n6 k0 (by norm_num) (by linarith)
      norm_num at this ⊢; linarith
    have c1 : 1 / 10 * (1 + d6) * κ ≤ 103 / 1000 := by
      have := mul_le_mul m6 k1 (by linarith) (by norm_num)
      norm_num at this ⊢; linarith
    refine ⟨by linarith, by linarith, ?_, ?_⟩
    · have := mul_le_mul_of_nonneg_right c0 W0.le
      linarith
    · have := mul_le_mul_of_nonneg_right c1 W0.le
      linarith
  · have f0 : 0 < ♯(Scalar.abs (thi - tlo) / ttol) := by
      rw [e3]
      exact mul_pos (div_pos (mul_pos W0 (by linarith)) ht) (by linarith)
    obtain ⟨d7, h7, e7⟩ := StdModel.val_div (Scalar.half : F) (Scalar.abs (thi - tlo) / ttol) f0.ne'
    obtain ⟨n7, m7⟩ := near h7 hu
    rw [e7, e3, RootLits.half (F := F)]
    have e : 1 / 2 / (W * (1 + d1) / T * (1 + d3)) * (1 + d7) * κ = 1 / 2 * (T / W) * ((1 + d2) * (1 + d7) / (1 + d3)) := by
      rw [hκ]
      have a1 : (1 + d1) ≠ 0 := by linarith
      have a3 : (1 + d3) ≠ 0 := by linarith
      field_simp
    rw [e]
    obtain ⟨z, hz⟩ : ∃ z, z = (1 + d2) * (1 + d7) / (1 + d3) := ⟨_, rfl⟩
    have z0 : 98 / 100 ≤ z := by
      rw [hz, le_div_iff₀ (by linarith)]
      have := mul_le_mul n2 n7 (by norm_num) (by linarith)
      norm_num at this ⊢; linarith
    have z1 : z ≤ 102 / 100 := by
      rw [hz, div_le_iff₀ (by linarith)]
      have := mul_le_mul m2 m7 (by linarith) (by norm_num)
      norm_num at this ⊢; linarith
    rw [← hz]
    have e8 : 1 / 2 * (T / W) * z * W = 1 / 2 * T * z := by field_simp
    have q0 : 0 < T / W := div_pos ht W0
    have hTz : T * z ≤ T * (102 / 100) := mul_le_mul_of_nonneg_left z1 ht.le
    have hTz0 : T * (98 / 100) ≤ T * z := mul_le_mul_of_nonneg_left z0 ht.le
    have p4 : 46 / 100 * T ≤ (1 - 1 / 2 * (T / W) * z) * W := by
      rw [sub_mul, one_mul, e8]; linarith
    refine ⟨by have : 0 < z := by linarith
               positivity, ?_, by rw [e8]; linarith, p4⟩
    by_contra hc
    have := mul_nonpos_of_nonpos_of_nonneg (show 1 - 1 / 2 * (T / W) * z ≤ 0 by linarith) W0.le
    linarith

/-- A point computed at a fraction of the bracket. -/
theorem frac_point {L H M c d u T t : K} (hL : |L| ≤ M) (hH : |H| ≤ M) (hT : 50 * (u * M) ≤ T) (hd : |d| ≤ u)
    (c0 : 0 ≤ c) (c1 : c ≤ 1) (ht : t = (L + c * (H - L)) * (1 + d)) :
    |t - (L + c * (H - L))| ≤ T / 50 := by
  have e : t - (L + c * (H - L)) = (L + c * (H - L)) * d := by rw [ht]; ring
  rw [e, abs_mul]
  have hM : |L + c * (H - L)| ≤ M := by
    have : L + c * (H - L) = (1 - c) * L + c * H := by ring
    rw [this]
    refine (abs_add_le _ _).trans ?_
    rw [abs_mul, abs_mul, abs_of_nonneg c0, abs_of_nonneg (by linarith : 0 ≤ 1 - c)]
    have := mul_le_mul_of_nonneg_left hL (by linarith : 0 ≤ 1 - c)
    have := mul_le_mul_of_nonneg_left hH c0
    linarith
  have : |L + c * (H - L)| * |d| ≤ M * u := mul_le_mul hM hd (abs_nonneg _) ((abs_nonneg _).trans hM)
  rw [mul_comm M u] at this
  linarith

/-- **The trial point.** It lies inside the bracket, at least two fifths of the tolerance away from both ends. -/
theorem trialPoint_fl (hu : 200 * μ ≤ 1) {thi tlo ttol ghi glo alph : F} {M : K} (hlo : |♯tlo| ≤ M) (hhi : |♯thi| ≤ M)
    (hM : 50 * (μ * M) ≤ ♯ttol) (ht : 0 < ♯ttol) (hD : ♯ttol < ♯(Scalar.abs (thi - tlo)))
    (hg : ♯glo * ♯ghi < 0) (ha : 0 < ♯alph) :
    ∃ c, 0 < c ∧ c < 1 ∧ ♯(trialPoint thi tlo ttol ghi glo alph) = ♯tlo + c * (♯thi - ♯tlo) ∧
      2 / 5 * ♯ttol ≤ c * |♯thi - ♯tlo| ∧ 2 / 5 * ♯ttol ≤ (1 - c) * |♯thi - ♯tlo| := by
  have u0 := StdModel.u_nonneg (F := F) (K := K)
  -- enough: distances along the bracket
  obtain ⟨σ, hσ, hσD⟩ : ∃ σ : K, σ * σ = 1 ∧ σ * (♯thi - ♯tlo) = |♯thi - ♯tlo| := by
    rcases le_total 0 (♯thi - ♯tlo) with h | h
    · exact ⟨1, by ring, by rw [abs_of_nonneg h, one_mul]⟩
    · exact ⟨-1, by ring, by rw [abs_of_nonpos h]; ring⟩
  have hσa : ∀ x : K, |σ * x| = |x| := by
    intro x
    rw [abs_mul]
    have : |σ| = 1 := by
      have h2 : |σ| * |σ| = 1 := by rw [← abs_mul, hσ, abs_one]
      nlinarith [abs_nonneg σ]
    rw [this, one_mul]
  obtain ⟨L, hL⟩ : ∃ L, L = ♯tlo := ⟨_, rfl⟩
  obtain ⟨H, hH⟩ : ∃ H, H = ♯thi := ⟨_, rfl⟩
  obtain ⟨T, hT⟩ : ∃ T, T = ♯ttol := ⟨_, rfl⟩
  obtain ⟨W, hW⟩ : ∃ W, W = |H - L| := ⟨_, rfl⟩
  obtain ⟨f, f1, f2, f3, f4, f5⟩ := fracSub_fl hu ht hD
  rw [← hL, ← hH] at f1 f4 f5 hσD
  rw [← hT] at f4 f5
  have hWpos : 0 < W := by
    rw [hW, abs_pos]
    intro h0
    rw [h0, abs_zero, mul_zero, hT] at f4
    linarith
  have hM0 : 0 ≤ M := (abs_nonneg _).trans hlo
  have hW2 : W ≤ 2 * M := by
    rw [hW]
    calc |H - L| ≤ |H| + |L| := abs_sub _ _
      _ ≤ _ := by rw [hH, hL]; linarith
  have enough : ∀ t : K, 2 / 5 * T ≤ σ * (t - L) → 2 / 5 * T ≤ σ * (H - t) →
      ∃ c, 0 < c ∧ c < 1 ∧ t = L + c * (H - L) ∧ 2 / 5 * T ≤ c * |H - L| ∧ 2 / 5 * T ≤ (1 - c) * |H - L| := by
    intro t h1 h2
    have hT0 : 0 < T := by rw [hT]; exact ht
    have e1 : σ * (t - L) / W * W = σ * (t - L) := div_mul_cancel₀ _ hWpos.ne'
    have e2 : σ * (H - t) = W - σ * (t - L) := by rw [hW, ← hσD]; ring
    refine ⟨σ * (t - L) / W, div_pos (by linarith) hWpos, ?_, ?_, ?_, ?_⟩
    · rw [div_lt_one hWpos]; linarith
    · have hne : H - L ≠ 0 := fun h0 => by rw [hW, h0, abs_zero] at hWpos; exact lt_irrefl _ hWpos
      have hs : σ ≠ 0 := fun h0 => by rw [h0, zero_mul] at hσ; exact zero_ne_one hσ
      rw [hW, ← hσD]
      field_simp
      ring
    · rw [← hW, e1]; exact h1
    · rw [← hW, sub_mul, one_mul, e1]; linarith
  -- the fraction points
  have σD : σ * (H - L) = W := by rw [hW]; exact hσD
  rw [← hW] at f4 f5
  have lowPt : 2 / 5 * T ≤ σ * (♯(tlo + fracSub thi tlo ttol * (thi - tlo)) - L) ∧
      2 / 5 * T ≤ σ * (H - ♯(tlo + fracSub thi tlo ttol * (thi - tlo))) := by
    obtain ⟨d, hd, e⟩ := StdModel.val_add tlo (fracSub thi tlo ttol * (thi - tlo))
    rw [f1, ← hL] at e
    have hp := frac_point (L := L) (H := H) (M := M) (T := T) (u := μ) (by rw [hL]; exact hlo) (by rw [hH]; exact hhi)
      (by rw [hT]; exact hM) hd f2.le f3.le e
    obtain ⟨t, hte⟩ : ∃ t, t = ♯(tlo + fracSub thi tlo ttol * (thi - tlo)) := ⟨_, rfl⟩
    rw [← hte] at hp ⊢
    rw [← hσa] at hp
    obtain ⟨p1, p2⟩ := abs_le.1 hp
    have q1 : σ * (t - (L + f * (H - L))) = σ * (t - L) - f * W := by rw [← σD]; ring
    have q2 : σ * (H - t) = W - σ * (t - L) := by rw [← σD]; ring
    rw [q1] at p1 p2
    constructor <;> linarith
  have highPt : 2 / 5 * T ≤ σ * (♯(thi - fracSub thi tlo ttol * (thi - tlo)) - L) ∧
      2 / 5 * T ≤ σ * (H - ♯(thi - fracSub thi tlo ttol * (thi - tlo))) := by
    obtain ⟨d, hd, e⟩ := StdModel.val_sub thi (fracSub thi tlo ttol * (thi - tlo))
    rw [f1, ← hH] at e
    have e' : ♯(thi - fracSub thi tlo ttol * (thi - tlo)) = (L + (1 - f) * (H - L)) * (1 + d) := by rw [e]; ring
    have hp := frac_point (L := L) (H := H) (M := M) (T := T) (u := μ) (by rw [hL]; exact hlo) (by rw [hH]; exact hhi)
      (by rw [hT]; exact hM) hd (by linarith) (by linarith) e'
    obtain ⟨t, hte⟩ : ∃ t, t = ♯(thi - fracSub thi tlo ttol * (thi - tlo)) := ⟨_, rfl⟩
    rw [← hte] at hp ⊢
    rw [← hσa] at hp
    obtain ⟨p1, p2⟩ := abs_le.1 hp
    have q1 : σ * (t - (L + (1 - f) * (H - L))) = σ * (t - L) - (W - f * W) := by rw [← σD]; ring
    have q2 : σ * (H - t) = W - σ * (t - L) := by rw [← σD]; ring
    rw [q1] at p1 p2
    constructor <;> linarith
  -- the secant point is inside, or a little outside
  obtain ⟨tm, htm⟩ : ∃ tm, tm = thi - (thi - tlo) * ghi / (ghi - alph * glo) := ⟨_, rfl⟩
  have rawPt : -(1 / 4) * T ≤ σ * (♯tm - L) ∧ -(1 / 4) * T ≤ σ * (H - ♯tm) := by
    obtain ⟨c, c0, c1, ec⟩ := secant_frac hu (thi := thi) (tlo := tlo) hg ha
    obtain ⟨d, hd, e⟩ := StdModel.val_sub thi ((thi - tlo) * ghi / (ghi - alph * glo))
    rw [ec, ← htm, ← hH, ← hL] at e
    have hb : |(H - c * (H - L)) * d| ≤ (M + 10 * (μ * M)) * μ := by
      rw [abs_mul]
      refine mul_le_mul ?_ hd (abs_nonneg _) (by have := mul_nonneg u0 hM0; linarith)
      rcases le_total c 1 with hc | hc
      · have e9 : H - c * (H - L) = (1 - c) * H + c * L := by ring
        rw [e9]
        refine (abs_add_le _ _).trans ?_
        rw [abs_mul, abs_mul, abs_of_nonneg c0.le, abs_of_nonneg (by linarith : 0 ≤ 1 - c)]
        have g1 : (1 - c) * |H| ≤ (1 - c) * M := mul_le_mul_of_nonneg_left (by rw [hH]; exact hhi) (by linarith)
        have g2 : c * |L| ≤ c * M := mul_le_mul_of_nonneg_left (by rw [hL]; exact hlo) c0.le
        have := mul_nonneg u0 hM0
        linarith
      · have e9 : H - c * (H - L) = L + (1 - c) * (H - L) := by ring
        rw [e9]
        refine (abs_add_le _ _).trans ?_
        rw [abs_mul, ← hW, abs_of_nonpos (by linarith : 1 - c ≤ 0)]
        have g1 : |L| ≤ M := by rw [hL]; exact hlo
        have g2 : -(1 - c) * W ≤ (5 * μ) * (2 * M) := mul_le_mul (by linarith) hW2 hWpos.le (by linarith)
        linarith
    have hM1 : (M + 10 * (μ * M)) * μ ≤ T * (21 / 1000) := by
      have : (M + 10 * (μ * M)) * μ = (μ * M) * (1 + 10 * μ) := by ring
      rw [this]
      have h3 : (μ * M) * (1 + 10 * μ) ≤ (μ * M) * (105 / 100) :=
        mul_le_mul_of_nonneg_left (by linarith) (mul_nonneg u0 hM0)
      rw [hT]; linarith
    have hW5 : (5 * μ) * W ≤ T / 5 := by
      have : (5 * μ) * W ≤ (5 * μ) * (2 * M) := mul_le_mul_of_nonneg_left hW2 (by linarith)
      rw [hT]; linarith
    have e10 : σ * (♯tm - L) = (1 - c) * W + σ * ((H - c * (H - L)) * d) := by rw [e, ← σD]; ring
    have e11 : σ * (H - ♯tm) = c * W - σ * ((H - c * (H - L)) * d) := by rw [e, ← σD]; ring
    rw [e10, e11]
    rw [← hσa] at hb
    obtain ⟨b1, b2⟩ := abs_le.1 hb
    have cW : 0 ≤ c * W := mul_nonneg c0.le hWpos.le
    have cW2 : -((5 * μ) * W) ≤ (1 - c) * W := by
      have := mul_le_mul_of_nonneg_right (show -(5 * μ) ≤ 1 - c by linarith) hWpos.le
      linarith
    have hT0 : 0 < T := by rw [hT]; exact ht
    constructor <;> linarith
  -- the guards
  have guard : ∀ a b : F, ¬ Scalar.lt (Scalar.abs (a - b)) (Scalar.half * ttol) = true → 49 / 100 * T ≤ |♯a - ♯b| := by
    intro a b h
    obtain ⟨d1, h1, e1⟩ := StdModel.val_sub a b
    obtain ⟨d2, h2, e2⟩ := StdModel.val_mul (Scalar.half : F) ttol
    obtain ⟨n1, m1⟩ := near h1 hu
    obtain ⟨n2, m2⟩ := near h2 hu
    rw [StdModel.lt_iff, not_lt, StdModel.val_abs, e1, e2, RootLits.half (F := F), abs_mul,
      abs_of_pos (show 0 < 1 + d1 by linarith), ← hT] at h
    have hT0 : 0 < T := by rw [hT]; exact ht
    have k1 : |♯a - ♯b| * (1 + d1) ≤ |♯a - ♯b| * (201 / 200) := mul_le_mul_of_nonneg_left m1 (abs_nonneg _)
    have k2 : 1 / 2 * T * (199 / 200) ≤ 1 / 2 * T * (1 + d2) := mul_le_mul_of_nonneg_left n2 (by linarith)
    linarith
  have hT0 : 0 < T := by rw [hT]; exact ht
  have first : ∀ t1 : F, t1 = (if Scalar.lt (Scalar.abs (tm - tlo)) (Scalar.half * ttol)
      then tlo + fracSub thi tlo ttol * (thi - tlo) else tm) →
      2 / 5 * T ≤ σ * (♯t1 - L) ∧ -(1 / 4) * T ≤ σ * (H - ♯t1) := by
    rintro t1 rfl
    split
    · exact ⟨lowPt.1, by linarith [lowPt.2]⟩
    · rename_i h
      have := guard _ _ h
      rw [← hL, ← hσa] at this
      refine ⟨?_, rawPt.2⟩
      rcases le_abs'.1 this with h1 | h1
      · linarith [rawPt.1]
      · linarith
  unfold trialPoint
  simp only
  rw [← htm, ← hL, ← hH, ← hT]
  obtain ⟨t1, ht1⟩ : ∃ t1, t1 = (if Scalar.lt (Scalar.abs (tm - tlo)) (Scalar.half * ttol)
      then tlo + fracSub thi tlo ttol * (thi - tlo) else tm) := ⟨_, rfl⟩
  obtain ⟨a1, a2⟩ := first t1 ht1
  rw [← ht1]
  split
  · exact enough _ highPt.1 highPt.2
  · rename_i h
    have := guard _ _ h
    rw [← hH, ← hσa] at this
    refine enough _ a1 ?_
    rcases le_abs'.1 this with h1 | h1
    · linarith
    · linarith

end

end Verif
