import Verif.Proofs.AttOrd
import Verif.Spec.Correct
import Mathlib.Tactic.FieldSimp
import Mathlib.Tactic.Positivity

/-! # Step sizes, direction and stop time in floating-point arithmetic -/

set_option autoImplicit false
set_option linter.unusedSectionVars false
set_option linter.unusedSimpArgs false
set_option linter.unusedVariables false

namespace Verif.FlControl

open Verif Relation Verif.Spec

universe u v w

section
variable {ν : Type w} {n q : Nat} {F : Type u} {K : Type v} [Scalar F] [Field K] [LinearOrder K] [IsStrictOrderedRing K]
  [S : Correct F K]

local prefix:max "♯" => StdModel.val (F := F) (K := K)
local notation "μ" => (StdModel.u (F := F) (K := K))

theorem u0 : (0 : K) ≤ μ := StdModel.u_nonneg
theorem u16 : 16 * (μ : K) ≤ 1 := by
  have h1 := Correct.eps_ge (F := F) (K := K)
  have h2 := Correct.eps_le (F := F) (K := K)
  linarith

theorem fac {d : K} (h : |d| ≤ μ) : 1 - μ ≤ 1 + d ∧ 1 + d ≤ 1 + μ ∧ 0 < 1 + d := by
  have h1 := abs_le.1 h
  have h2 := u16 (F := F) (K := K)
  refine ⟨by linarith, by linarith, by linarith⟩

/-- Rounding is exact on floating-point numbers and monotone. -/
theorem rd_le {x : K} {c : F} (h : x ≤ ♯c) : S.rd x ≤ ♯c := by
  have := Correct.rd_mono (F := F) _ _ h
  rwa [Correct.rd_val] at this

theorem le_rd {x : K} {c : F} (h : ♯c ≤ x) : ♯c ≤ S.rd x := by
  have := Correct.rd_mono (F := F) _ _ h
  rwa [Correct.rd_val] at this

theorem sub_sign (a b : F) : ∃ c : K, 0 < c ∧ c ≤ 1 + μ ∧ ♯(a - b) = (♯a - ♯b) * c := by
  obtain ⟨d, hd, h⟩ := StdModel.val_sub (K := K) a b
  exact ⟨1 + d, (fac hd).2.2, (fac hd).2.1, h⟩

theorem mul_sign (a b : F) : ∃ c : K, 0 < c ∧ 1 - μ ≤ c ∧ c ≤ 1 + μ ∧ ♯(a * b) = ♯a * ♯b * c := by
  obtain ⟨d, hd, h⟩ := StdModel.val_mul (K := K) a b
  exact ⟨1 + d, (fac hd).2.2, (fac hd).1, (fac hd).2.1, h⟩

/-- Same direction, not larger. -/
structure Shrunk (x y : K) : Prop where
  dir : 0 < x * y
  le : |x| ≤ |y|

theorem Shrunk.refl {x : K} (h : x ≠ 0) : Shrunk x x := ⟨mul_self_pos.2 h, le_refl _⟩

theorem Shrunk.ne {x y : K} (h : Shrunk x y) : x ≠ 0 := left_ne_zero_of_mul h.dir.ne'

theorem dir_trans {x y z : K} (h1 : 0 < x * y) (h2 : 0 < y * z) : 0 < x * z := by
  have hy : 0 < y * y := mul_self_pos.2 (right_ne_zero_of_mul h1.ne')
  have : 0 < (x * z) * (y * y) := by
    have := mul_pos h1 h2
    calc 0 < x * y * (y * z) := this
      _ = _ := by ring
  by_contra hn
  have := mul_nonpos_of_nonpos_of_nonneg (not_lt.1 hn) hy.le
  linarith

theorem Shrunk.trans {x y z : K} (h1 : Shrunk x y) (h2 : Shrunk y z) : Shrunk x z :=
  ⟨dir_trans h1.dir h2.dir, h1.le.trans h2.le⟩

/-- A nonpositive product keeps its sign when a factor is replaced by one of the same direction. -/
theorem nonpos_dir {a x y : K} (h : a * x ≤ 0) (hd : 0 < x * y) : a * y ≤ 0 := by
  have hx : 0 < x * x := mul_self_pos.2 (left_ne_zero_of_mul hd.ne')
  by_contra hn
  have h1 : 0 < (a * y) * (x * x) := mul_pos (not_le.1 hn) hx
  have h2 : (a * x) * (x * y) ≤ 0 := mul_nonpos_of_nonpos_of_nonneg h hd.le
  have : (a * y) * (x * x) = (a * x) * (x * y) := by ring
  linarith

theorem nonneg_dir {a x y : K} (h : 0 ≤ a * x) (hd : 0 < x * y) : 0 ≤ a * y := by
  have := nonpos_dir (a := -a) (by linarith : -a * x ≤ 0) hd
  linarith

theorem pos_dir {a x y : K} (h : 0 < a * x) (hd : 0 < x * y) : 0 < a * y := dir_trans h hd

/-- Multiplication by a factor in `(0, 1]`. -/
theorem shrunk_mul {h r : F} (h0 : ♯h ≠ 0) (hr : 0 < ♯r) (hr1 : ♯r ≤ 1) : Shrunk ♯(h * r) ♯h := by
  obtain ⟨c, hc, -, -, he⟩ := mul_sign (K := K) h r
  refine ⟨?_, ?_⟩
  · rw [he]
    have : ♯h * ♯r * c * ♯h = ♯h * ♯h * (♯r * c) := by ring
    rw [this]
    exact mul_pos (mul_self_pos.2 h0) (mul_pos hr hc)
  · rcases lt_or_gt_of_ne h0 with hn | hp
    · have h1 : ♯(h * r) ≤ 0 := by
        rw [he]
        exact mul_nonpos_of_nonpos_of_nonneg (mul_nonpos_of_nonpos_of_nonneg hn.le hr.le) hc.le
      have h2 : ♯h ≤ ♯(h * r) := by
        rw [Correct.mul_rd]
        refine le_rd ?_
        nlinarith
      rw [abs_of_nonpos h1, abs_of_neg hn]; linarith
    · have h1 : 0 ≤ ♯(h * r) := by
        rw [he]
        exact mul_nonneg (mul_nonneg hp.le hr.le) hc.le
      have h2 : ♯(h * r) ≤ ♯h := by
        rw [Correct.mul_rd]
        refine rd_le ?_
        nlinarith
      rw [abs_of_nonneg h1, abs_of_pos hp]; exact h2

/-! ## The stop time -/

/-- A step of size `hh` from `tn` does not pass the stop time. -/
def Within (tstop : Option F) (tn hh : F) : Prop := ∀ ts, tstop = some ts → (♯(tn + hh) - ♯ts) * ♯hh ≤ 0

theorem add_shrunk {tn hh h' ts : F} (h : (♯(tn + hh) - ♯ts) * ♯hh ≤ 0) (hs : Shrunk ♯h' ♯hh) :
    (♯(tn + h') - ♯ts) * ♯h' ≤ 0 := by
  have h0 : ♯hh ≠ 0 := right_ne_zero_of_mul hs.dir.ne'
  rcases lt_or_gt_of_ne h0 with hn | hp
  · have h1 : ♯h' < 0 := by
      by_contra hc
      have := mul_nonpos_of_nonneg_of_nonpos (not_lt.1 hc) hn.le
      linarith [hs.dir]
    have h2 : ♯hh ≤ ♯h' := by have := hs.le; rw [abs_of_neg h1, abs_of_neg hn] at this; linarith
    have h3 : ♯ts ≤ ♯(tn + hh) := by
      by_contra hc
      have : 0 < (♯(tn + hh) - ♯ts) * ♯hh := mul_pos_of_neg_of_neg (by linarith [not_le.1 hc]) hn
      linarith
    have h4 : ♯(tn + hh) ≤ ♯(tn + h') := by
      rw [Correct.add_rd, Correct.add_rd]
      exact Correct.rd_mono (F := F) _ _ (by linarith)
    exact mul_nonpos_of_nonneg_of_nonpos (by linarith) h1.le
  · have h1 : 0 < ♯h' := by
      by_contra hc
      have := mul_nonpos_of_nonpos_of_nonneg (not_lt.1 hc) hp.le
      linarith [hs.dir]
    have h2 : ♯h' ≤ ♯hh := by have := hs.le; rw [abs_of_pos h1, abs_of_pos hp] at this; linarith
    have h3 : ♯(tn + hh) ≤ ♯ts := by
      by_contra hc
      have : 0 < (♯(tn + hh) - ♯ts) * ♯hh := mul_pos (by linarith [not_le.1 hc]) hp
      linarith
    have h4 : ♯(tn + h') ≤ ♯(tn + hh) := by
      rw [Correct.add_rd, Correct.add_rd]
      exact Correct.rd_mono (F := F) _ _ (by linarith)
    exact mul_nonpos_of_nonpos_of_nonneg (by linarith) h1.le

theorem Within.scale {tstop : Option F} {tn hh h' : F} (h : Within tstop tn hh) (hs : Shrunk ♯h' ♯hh) :
    Within tstop tn h' := fun ts hts => add_shrunk (h ts hts) hs

/-- The factor `1 - 4 eps` as computed. -/
theorem clampFac : 0 < ♯(1 - Scalar.four * Scalar.eps : F) ∧ ♯(1 - Scalar.four * Scalar.eps : F) * (1 + μ) ^ 2 ≤ 1 := by
  obtain ⟨d1, hd1, e1⟩ := StdModel.val_mul (K := K) (Scalar.four : F) Scalar.eps
  obtain ⟨d2, hd2, e2⟩ := StdModel.val_sub (K := K) (1 : F) (Scalar.four * Scalar.eps)
  have h1 := Correct.eps_ge (F := F) (K := K)
  have h2 := Correct.eps_le (F := F) (K := K)
  have h3 := u0 (F := F) (K := K)
  obtain ⟨a1, a2, a3⟩ := fac hd1
  obtain ⟨b1, b2, b3⟩ := fac hd2
  rw [e2, e1, StdModel.val_one, Correct.val_four]
  generalize ♯(Scalar.eps : F) = e at *
  generalize (μ : K) = m at *
  have he : 0 ≤ e := h3.trans h1
  have hm : m ≤ 1 / 16 := by linarith
  have k1 : 4 * e * (1 + d1) ≤ 4 * e * (1 + 1 / 16) := mul_le_mul_of_nonneg_left (by linarith) (by linarith)
  have k2 : 4 * e * (1 - e) ≤ 4 * e * (1 + d1) := mul_le_mul_of_nonneg_left (by linarith) (by linarith)
  have k0 : 0 < 1 - 4 * e * (1 + d1) := by linarith
  refine ⟨mul_pos k0 b3, ?_⟩
  have k3 : (1 - 4 * e * (1 + d1)) * (1 + d2) ≤ (1 - 4 * e * (1 - e)) * (1 + e) :=
    mul_le_mul (by linarith) (by linarith) b3.le (by nlinarith)
  have k4 : (1 + m) ^ 2 ≤ (1 + e) ^ 2 := pow_le_pow_left₀ (by linarith) (by linarith) 2
  calc (1 - 4 * e * (1 + d1)) * (1 + d2) * (1 + m) ^ 2 ≤ (1 - 4 * e * (1 - e)) * (1 + e) * (1 + e) ^ 2 :=
        mul_le_mul k3 k4 (by positivity) (mul_nonneg (by nlinarith) (by linarith))
    _ ≤ 1 := by
        have : (1 - 4 * e * (1 - e)) * (1 + e) * (1 + e) ^ 2 = 1 - e * (1 + 5 * e - e ^ 2 - 8 * e ^ 3 - 4 * e ^ 4) := by ring
        rw [this]
        have e1 : e ≤ 1 / 16 := by linarith
        have e2 : e ^ 2 ≤ 1 / 16 * e := by nlinarith
        have e3 : e ^ 3 ≤ 1 / 16 * e := by nlinarith [mul_nonneg he he]
        have e4 : e ^ 4 ≤ 1 / 16 * e := by nlinarith [mul_nonneg he he, mul_nonneg (mul_nonneg he he) he]
        have : 0 ≤ e * (1 + 5 * e - e ^ 2 - 8 * e ^ 3 - 4 * e ^ 4) := mul_nonneg he (by linarith)
        linarith

/-- The clamped step size points to the stop time and is not larger than the distance. -/
theorem clamped (ts tn : F) (h : ♯ts - ♯tn ≠ 0) :
    Shrunk ♯((ts - tn) * (1 - Scalar.four * Scalar.eps)) (♯ts - ♯tn) := by
  obtain ⟨c, hc, hc1, e1⟩ := sub_sign (K := K) ts tn
  obtain ⟨d, hd, -, hd1, e2⟩ := mul_sign (K := K) (ts - tn) (1 - Scalar.four * Scalar.eps)
  obtain ⟨f1, f2⟩ := clampFac (F := F) (K := K)
  rw [e2, e1]
  generalize ♯(1 - Scalar.four * Scalar.eps : F) = r at *
  have hk : 0 < c * r * d := mul_pos (mul_pos hc f1) hd
  have hk1 : c * r * d ≤ 1 := by
    have h3 := u0 (F := F) (K := K)
    calc c * r * d = r * (c * d) := by ring
      _ ≤ r * ((1 + μ) * (1 + μ)) := mul_le_mul_of_nonneg_left (mul_le_mul hc1 hd1 hd.le (by linarith)) f1.le
      _ = r * (1 + μ) ^ 2 := by ring
      _ ≤ 1 := f2
  refine ⟨?_, ?_⟩
  · have : (♯ts - ♯tn) * c * r * d * (♯ts - ♯tn) = (♯ts - ♯tn) * (♯ts - ♯tn) * (c * r * d) := by ring
    rw [this]
    exact mul_pos (mul_self_pos.2 h) hk
  · have : (♯ts - ♯tn) * c * r * d = (c * r * d) * (♯ts - ♯tn) := by ring
    rw [this, abs_mul, abs_of_pos hk]
    exact mul_le_of_le_one_left (abs_nonneg _) hk1

theorem clamp_within {ts tn h : F} (hh : h = (ts - tn) * (1 - Scalar.four * Scalar.eps)) : (♯(tn + h) - ♯ts) * ♯h ≤ 0 := by
  by_cases h0 : ♯ts - ♯tn = 0
  · obtain ⟨c, hc, hc1, e1⟩ := sub_sign (K := K) ts tn
    obtain ⟨d, hd, -, hd1, e2⟩ := mul_sign (K := K) (ts - tn) (1 - Scalar.four * Scalar.eps)
    have : ♯h = 0 := by rw [hh, e2, e1, h0]; ring
    rw [this, mul_zero]
  · have hs := clamped (K := K) ts tn h0
    rw [← hh] at hs
    rcases lt_or_gt_of_ne h0 with hn | hp
    · have h1 : ♯h < 0 := by
        by_contra hc
        have := mul_nonpos_of_nonneg_of_nonpos (not_lt.1 hc) hn.le
        linarith [hs.dir]
      have h2 := hs.le
      rw [abs_of_neg h1, abs_of_neg hn] at h2
      refine mul_nonpos_of_nonneg_of_nonpos ?_ h1.le
      rw [Correct.add_rd]
      have := le_rd (F := F) (c := ts) (x := ♯tn + ♯h) (by linarith)
      linarith
    · have h1 : 0 < ♯h := by
        by_contra hc
        have := mul_nonpos_of_nonpos_of_nonneg (not_lt.1 hc) hp.le
        linarith [hs.dir]
      have h2 := hs.le
      rw [abs_of_pos h1, abs_of_pos hp] at h2
      refine mul_nonpos_of_nonpos_of_nonneg ?_ h1.le
      rw [Correct.add_rd]
      have := rd_le (F := F) (c := ts) (x := ♯tn + ♯h) (by linarith)
      linarith

/-- The comparison `(t - ts) * h > 0` decides the sign exactly. -/
theorem gt_sign (a b h : F) : Scalar.gt ((a - b) * h) 0 = true ↔ 0 < (♯a - ♯b) * ♯h := by
  obtain ⟨c, hc, -, e1⟩ := sub_sign (K := K) a b
  obtain ⟨d, hd, -, -, e2⟩ := mul_sign (K := K) (a - b) h
  show Scalar.lt 0 _ = true ↔ _
  rw [StdModel.lt_iff (K := K), e2, e1, StdModel.val_zero]
  have : (♯a - ♯b) * c * ♯h * d = (♯a - ♯b) * ♯h * (c * d) := by ring
  rw [this]
  exact ⟨fun h => by
    by_contra hn
    have := mul_nonpos_of_nonpos_of_nonneg (not_lt.1 hn) (mul_pos hc hd).le
    linarith, fun h => mul_pos h (mul_pos hc hd)⟩

theorem stopReady_within {s : State ν n q F} (h : StopReady s) : Within (K := K) s.tstop s.e.tn s.c.hh := by
  intro ts hts
  rcases h ts hts with h | h
  · by_contra hn
    rw [(gt_sign (K := K) _ _ _).2 (not_le.1 hn)] at h
    cases h
  · exact clamp_within h

theorem newTime_within {s : State ν n q F} (h : Within (K := K) s.tstop s.e.tn s.c.hh) : newTime s = s.e.tn + s.c.hh := by
  unfold newTime advanceTime
  simp only
  split
  · rename_i ts hts
    have h1 := h ts hts
    rw [if_neg]
    intro hc
    have h2 : Scalar.lt 1 ((s.e.tn + s.c.hh - ts) * s.c.hh) = true := hc
    rw [StdModel.lt_iff (K := K), StdModel.val_one] at h2
    have h3 : Scalar.gt ((s.e.tn + s.c.hh - ts) * s.c.hh) 0 = true := by
      show Scalar.lt 0 _ = true
      rw [StdModel.lt_iff (K := K), StdModel.val_zero]; linarith
    have := (gt_sign (K := K) _ _ _).1 h3
    linarith
  · rfl

/-! ## The step size after an accepted step -/

/-- The bound of `|h| / hmax` in floating point. -/
def hbound (F : Type u) {K : Type v} [Scalar F] [Field K] [LinearOrder K] [IsStrictOrderedRing K] [Correct F K] : K :=
  (1 + StdModel.u (F := F) (K := K)) / (1 - StdModel.u (F := F) (K := K))

theorem um : 0 < 1 - (μ : K) := by have := u16 (F := F) (K := K); linarith

theorem hbound_ge : (1 : K) ≤ hbound F := by
  unfold hbound
  rw [le_div_iff₀ um]
  have := u0 (F := F) (K := K)
  linarith

/-- Limiting a step size by the maximum. -/
theorem limited {m x : F} (hm : 0 ≤ ♯m) (hx : ♯x ≠ 0) {y : F}
    (hy : y = if Scalar.gt (Scalar.abs x * m) 1 then x / (Scalar.abs x * m) else x) :
    0 < ♯y * ♯x ∧ |♯y| * ♯m ≤ hbound F ∧ |♯y| ≤ |♯x| * (1 + μ) ∧
      ∀ b, |♯x| * ♯m ≤ b → 1 ≤ b → (1 - μ) / (1 + μ) / b * |♯x| ≤ |♯y| := by
  obtain ⟨c, hc, hc0, hc1, e⟩ := mul_sign (K := K) (Scalar.abs x) m
  rw [StdModel.val_abs] at e
  have h3 := u0 (F := F) (K := K)
  have h4 := um (F := F) (K := K)
  have hax : 0 < |♯x| := abs_pos.2 hx
  rw [hy]
  by_cases hg : Scalar.gt (Scalar.abs x * m) 1 = true
  · rw [if_pos hg]
    have hg' : Scalar.lt 1 (Scalar.abs x * m) = true := hg
    rw [StdModel.lt_iff (K := K), StdModel.val_one] at hg'
    obtain ⟨d, hd, e'⟩ := StdModel.val_div (K := K) x (Scalar.abs x * m) (by linarith)
    obtain ⟨d1, d2, d3⟩ := fac hd
    have ht : 0 < ♯(Scalar.abs x * m) := by linarith
    have hxm : 0 < |♯x| * ♯m := by
      by_contra hn
      have : ♯(Scalar.abs x * m) ≤ 0 := by rw [e]; exact mul_nonpos_of_nonpos_of_nonneg (not_lt.1 hn) hc.le
      linarith
    have hm' : 0 < ♯m := by
      rcases hm.lt_or_eq with h | h
      · exact h
      · rw [← h, mul_zero] at hxm; exact absurd hxm (lt_irrefl _)
    have habs : |♯(x / (Scalar.abs x * m))| = |♯x| / ♯(Scalar.abs x * m) * (1 + d) := by
      rw [e', abs_mul, abs_div, abs_of_pos ht, abs_of_pos d3]
    refine ⟨?_, ?_, ?_, ?_⟩
    · rw [e']
      have : ♯x / ♯(Scalar.abs x * m) * (1 + d) * ♯x = ♯x * ♯x * ((1 + d) / ♯(Scalar.abs x * m)) := by ring
      rw [this]
      exact mul_pos (mul_self_pos.2 hx) (div_pos d3 ht)
    · rw [habs, e]
      have : |♯x| / (|♯x| * ♯m * c) * (1 + d) * ♯m = (1 + d) / c := by field_simp
      rw [this]
      unfold hbound
      exact div_le_div₀ (by linarith) d2 h4 hc0
    · rw [habs]
      have h1 : |♯x| / ♯(Scalar.abs x * m) ≤ |♯x| := div_le_self hax.le hg'.le
      exact mul_le_mul h1 d2 d3.le hax.le
    · intro b hb hb1
      have hb0 : 0 < b := by linarith
      rw [habs]
      have h1 : ♯(Scalar.abs x * m) ≤ b * (1 + μ) := by
        rw [e]; exact mul_le_mul hb hc1 hc.le hb0.le
      calc (1 - μ) / (1 + μ) / b * |♯x| = |♯x| / (b * (1 + μ)) * (1 - μ) := by field_simp
        _ ≤ |♯x| / ♯(Scalar.abs x * m) * (1 + d) := by
          refine mul_le_mul (div_le_div_of_nonneg_left hax.le ht h1) d1 h4.le (div_nonneg hax.le ht.le)
  · rw [if_neg hg]
    have hg' : ♯(Scalar.abs x * m) ≤ 1 := by
      by_contra hn
      exact hg (by show Scalar.lt _ _ = true; rw [StdModel.lt_iff (K := K), StdModel.val_one]; exact not_le.1 hn)
    refine ⟨mul_self_pos.2 hx, ?_, ?_, ?_⟩
    · rw [e] at hg'
      unfold hbound
      rw [le_div_iff₀ h4]
      have : |♯x| * ♯m * (1 - μ) ≤ |♯x| * ♯m * c := mul_le_mul_of_nonneg_left hc0 (mul_nonneg hax.le hm)
      linarith
    · calc |♯x| = |♯x| * 1 := by ring
        _ ≤ |♯x| * (1 + μ) := mul_le_mul_of_nonneg_left (by linarith) hax.le
    · intro b hb hb1
      have hb0 : 0 < b := by linarith
      have : (1 - μ) / (1 + μ) / b ≤ 1 := by
        rw [div_div, div_le_one (by positivity)]
        nlinarith
      exact mul_le_of_le_one_left hax.le this

/-- What the step size may become after an accepted step. -/
structure NextSize (cfg : Cfg ν n q F) (h h' : F) : Prop where
  dir : 0 < ♯h' * ♯h
  hi : |♯h'| ≤ 2 * (1 + μ) ^ 2 * |♯h|
  lo : (1 - μ) / 2 * |♯h| ≤ |♯h'|
  hmax : |♯h'| * ♯cfg.hmaxInv ≤ hbound F

theorem NextSize.same {cfg : Cfg ν n q F} {h : F} (h0 : ♯h ≠ 0) (hb : |♯h| * ♯cfg.hmaxInv ≤ hbound F) :
    NextSize (K := K) cfg h h := by
  have h3 := u0 (F := F) (K := K)
  have h4 := um (F := F) (K := K)
  have ha := abs_nonneg (♯h)
  refine ⟨mul_self_pos.2 h0, ?_, ?_, hb⟩
  · have : 1 ≤ 2 * (1 + (μ : K)) ^ 2 := by nlinarith
    exact le_mul_of_one_le_left ha this
  · exact mul_le_of_le_one_left ha (by linarith)

theorem doubled_spec {cfg : Cfg ν n q F} (hm : 0 ≤ ♯cfg.hmaxInv) {hh : F} (h0 : ♯hh ≠ 0)
    (h : |♯hh| * ♯cfg.hmaxInv ≤ hbound F) : NextSize (K := K) cfg hh (doubled cfg hh) := by
  have h3 := u0 (F := F) (K := K)
  have h4 := um (F := F) (K := K)
  have h5 := u16 (F := F) (K := K)
  obtain ⟨c, hc, hc0, hc1, e⟩ := mul_sign (K := K) (Scalar.two : F) hh
  rw [Correct.val_two] at e
  have h2 : ♯(Scalar.two * hh) ≠ 0 := by rw [e]; exact mul_ne_zero (mul_ne_zero two_ne_zero h0) hc.ne'
  have ha : |♯(Scalar.two * hh)| = 2 * |♯hh| * c := by rw [e, abs_mul, abs_mul, abs_two, abs_of_pos hc]
  obtain ⟨k1, k2, k3, k4⟩ := limited (K := K) hm h2 (y := doubled cfg hh) rfl
  have hah := abs_pos.2 h0
  refine ⟨?_, ?_, ?_, k2⟩
  · refine dir_trans k1 ?_
    rw [e]
    have : 2 * ♯hh * c * ♯hh = ♯hh * ♯hh * (2 * c) := by ring
    rw [this]
    exact mul_pos (mul_self_pos.2 h0) (by linarith)
  · rw [ha] at k3
    calc _ ≤ 2 * |♯hh| * c * (1 + μ) := k3
      _ ≤ 2 * |♯hh| * (1 + μ) * (1 + μ) :=
        mul_le_mul_of_nonneg_right (mul_le_mul_of_nonneg_left hc1 (by linarith)) (by linarith)
      _ = _ := by ring
  · have hb1 : (1 : K) ≤ hbound F := hbound_ge
    have hb0 : 0 < (hbound F : K) := by linarith
    have hB : |♯(Scalar.two * hh)| * ♯cfg.hmaxInv ≤ 2 * hbound F * (1 + μ) := by
      rw [ha]
      calc 2 * |♯hh| * c * ♯cfg.hmaxInv = 2 * (|♯hh| * ♯cfg.hmaxInv) * c := by ring
        _ ≤ 2 * hbound F * (1 + μ) := mul_le_mul (by linarith) hc1 hc.le (by linarith)
    have := k4 (2 * hbound F * (1 + μ)) hB (by nlinarith)
    refine le_trans ?_ this
    rw [ha]
    have hk : (1 - μ) / (1 + μ) / (2 * hbound F * (1 + μ)) * (2 * |♯hh| * c) =
        (1 - μ) * (c / (hbound F * (1 + μ) ^ 2)) * |♯hh| := by field_simp
    rw [hk]
    refine mul_le_mul_of_nonneg_right ?_ hah.le
    rw [div_eq_mul_inv]
    refine mul_le_mul_of_nonneg_left ?_ h4.le
    rw [le_div_iff₀ (by positivity)]
    have : hbound F * (1 + μ) ^ 2 = (1 + (μ : K)) ^ 3 / (1 - μ) := by unfold hbound; field_simp
    rw [this, ← mul_div_assoc, div_le_iff₀ h4]
    have hmu : (μ : K) ≤ 1 / 16 := by linarith
    have p1 : (1 + (μ : K)) ^ 3 ≤ (1 + 1 / 16) ^ 3 := pow_le_pow_left₀ (by linarith) (by linarith) 3
    have p2 : (1 - 1 / 16 : K) * (1 - 1 / 16) ≤ c * (1 - μ) := mul_le_mul (by linarith) (by linarith) (by norm_num) hc.le
    have p3 : (2 : K)⁻¹ * (1 + 1 / 16) ^ 3 ≤ (1 - 1 / 16 : K) * (1 - 1 / 16) := by norm_num
    have p4 : (2 : K)⁻¹ * (1 + μ) ^ 3 ≤ 2⁻¹ * (1 + 1 / 16) ^ 3 := mul_le_mul_of_nonneg_left p1 (by norm_num)
    linarith

theorem selectStep_spec {cfg : Cfg ν n q F} (hm : 0 ≤ ♯cfg.hmaxInv) {hh : F} (h0 : ♯hh ≠ 0)
    (h : |♯hh| * ♯cfg.hmaxInv ≤ hbound F) (k : Nat) (e : F) : NextSize (K := K) cfg hh (selectStep cfg hh k e).2 := by
  unfold selectStep
  simp only
  split
  · exact doubled_spec hm h0 h
  · split
    · generalize Scalar.powf (_ : F) _ = p
      have hx : (1 / 2 : K) ≤ ♯(Scalar.max Scalar.half (Scalar.min p Scalar.pt9) : F) := by
        rw [Correct.val_max, Correct.val_half]; exact le_max_left _ _
      have hy : ♯(Scalar.max Scalar.half (Scalar.min p Scalar.pt9) : F) ≤ (1 : K) := by
        rw [Correct.val_max, Correct.val_half, Correct.val_min]
        exact max_le (by norm_num) (le_trans (min_le_right _ _) Correct.pt9_hi)
      generalize (Scalar.max Scalar.half (Scalar.min p Scalar.pt9) : F) = r at hx hy ⊢
      have hs := shrunk_mul (K := K) h0 (by linarith) hy
      obtain ⟨c, hc, hc0, hc1, e⟩ := mul_sign (K := K) hh r
      have h3 := u0 (F := F) (K := K)
      have h4 := um (F := F) (K := K)
      have ha := abs_nonneg (♯hh)
      refine ⟨hs.dir, hs.le.trans ?_, ?_, (mul_le_mul_of_nonneg_right hs.le hm).trans h⟩
      · have : 1 ≤ 2 * (1 + (μ : K)) ^ 2 := by nlinarith
        exact le_mul_of_one_le_left ha this
      · show _ ≤ |♯(hh * r)|
        rw [e, abs_mul, abs_mul, abs_of_pos hc, abs_of_pos (by linarith : (0 : K) < ♯r)]
        calc (1 - μ) / 2 * |♯hh| = |♯hh| * (1 / 2) * (1 - μ) := by ring
          _ ≤ |♯hh| * ♯r * c := mul_le_mul (mul_le_mul_of_nonneg_left hx ha) hc0 h4.le (mul_nonneg ha (by linarith))
    · exact .same h0 h

theorem chooseNext_hh {cfg : Cfg ν n q F} {s s' : State ν n q F} {k : Bool} {a b : F} (hm : 0 ≤ ♯cfg.hmaxInv)
    (h0 : ♯s.c.hh ≠ 0) (hb : |♯s.c.hh| * ♯cfg.hmaxInv ≤ hbound F) (h : chooseNext cfg s k a b = some s') :
    NextSize (K := K) cfg s.c.hh s'.c.hh := by
  unfold chooseNext at h
  split at h
  · split at h
    · cases h
      exact doubled_spec hm h0 hb
    · cases h
      exact .same h0 hb
  · split at h
    · cases h
    · cases h
      exact selectStep_spec hm h0 hb _ _

theorem completeStep_hh {cfg : Cfg ν n q F} {s s' : State ν n q F} {a b : F} (hm : 0 ≤ ♯cfg.hmaxInv)
    (h0 : ♯s.c.hh ≠ 0) (hb : |♯s.c.hh| * ♯cfg.hmaxInv ≤ hbound F) (h : completeStep cfg s a b = some s') :
    NextSize (K := K) cfg s.c.hh s'.c.hh := by
  obtain ⟨s1, hs1, hc⟩ := completeStep_choose h
  have hh : (chosenFrom cfg s).c.hh = s.c.hh := by unfold chosenFrom; rw [markPhase_eq]
  rw [hc, ← hh]
  exact chooseNext_hh hm (by rw [hh]; exact h0) (by rw [hh]; exact hb) hs1

/-! ## The step size after a failed attempt -/

theorem handled_hh {cfg : Cfg ν n q F} {s s' : State ν n q F} {err : Err} {a b : F} {f f' : Fails}
    {r : Except Err Unit} (hleg : err = .ida .testFail ∨ err.fromNls) (h0 : ♯s.c.hh ≠ 0)
    (h : Handled cfg s a b f err s' f' r) : Shrunk ♯s'.c.hh ♯s.c.hh := by
  have hnc : ∀ rec, err = .ida (.recoverableFail rec) → rec ≠ .constraint := by
    intro rec he
    rcases hleg with h | h
    · rw [h] at he; cases he
    · rw [he] at h; exact h
  have hq : Shrunk ♯(s.c.hh * Scalar.quarter) ♯s.c.hh :=
    shrunk_mul h0 (by rw [Correct.val_quarter]; norm_num) (by rw [Correct.val_quarter]; norm_num)
  cases h with
  | test1 rr h1 h2 =>
    refine shrunk_mul h0 ?_ ?_
    · rw [h2, Correct.val_max, Correct.val_quarter]
      exact lt_of_lt_of_le (by norm_num) (le_max_left _ _)
    · rw [h2, Correct.val_max, Correct.val_quarter, Correct.val_min]
      exact max_le (by norm_num) ((min_le_left _ _).trans Correct.pt9_hi)
  | test2 h1 => exact hq
  | test3 h1 h2 => exact hq
  | testGiveUp h1 h2 => exact .refl h0
  | conv rec h1 =>
    simp only [if_neg (hnc rec rfl)]
    exact hq
  | convGiveUp rec h1 =>
    simp only [if_neg (hnc rec rfl)]
    exact hq
  | hard e h1 => exact .refl h0

end

end Verif.FlControl
