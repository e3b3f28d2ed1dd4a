import Verif.Proofs.NoPanic
import Mathlib.Tactic.Linarith
import Mathlib.Tactic.FieldSimp
import Mathlib.Tactic.Positivity

/-! # The scans and the trial point of the root search in exact arithmetic -/

set_option autoImplicit false
set_option linter.unusedSectionVars false
set_option linter.unusedSimpArgs false
set_option linter.unusedVariables false

namespace Verif

universe u v

section
variable {ν : Type v} {n q : Nat} {K : Type u} [Field K] [LinearOrder K] [IsStrictOrderedRing K] [ExactParams K]

/-- The direction filter lets component `i` through: `rootdir_i * glo_i ≤ 0`. -/
def DirAllows (cfg : Cfg ν n q K) (glo : Vec q K) (i : Fin q) : Prop := (cfg.rootdir i : K) * glo i ≤ 0

theorem dirOk_iff (cfg : Cfg ν n q K) (glo : Vec q K) (i : Fin q) : dirOk cfg glo i = true ↔ DirAllows cfg glo i := by
  unfold dirOk DirAllows
  simp

/-- A component that the search may report as crossing zero between the values `glo` and `g`. -/
def Crosses (cfg : Cfg ν n q K) (act : Fin q → Bool) (glo g : Vec q K) (i : Fin q) : Prop :=
  act i = true ∧ DirAllows cfg glo i ∧ glo i * g i < 0

/-- A component that the search may report as zero at the upper point. -/
def Vanishes (cfg : Cfg ν n q K) (act : Fin q → Bool) (glo g : Vec q K) (i : Fin q) : Prop :=
  act i = true ∧ DirAllows cfg glo i ∧ g i = 0

/-- Invariant of both scans after `k` components. -/
structure ScanInv (cfg : Cfg ν n q K) (act : Fin q → Bool) (glo g : Vec q K) (im : Nat) (k : Nat) (a : Scan K) : Prop where
  zero : a.zroot = true ↔ ∃ i : Fin q, i.val < k ∧ Vanishes cfg act glo g i
  found : a.sgnchg = true → ∃ h : a.imax < q, Crosses cfg act glo g ⟨a.imax, h⟩
  none : a.sgnchg = false → a.imax = im ∧ a.maxfrac = 0 ∧ ∀ i : Fin q, i.val < k → ¬ Crosses cfg act glo g i

theorem fold_rule {α : Type u} {m : Nat} (f : α → Fin m → α) (a : α) (P : Nat → α → Prop) (h0 : P 0 a)
    (hs : ∀ a (i : Fin m), P i.val a → P (i.val + 1) (f a i)) : P m (Fin.foldl m f a) := by
  induction m with
  | zero => rw [Fin.foldl_zero]; exact h0
  | succ m ih =>
    rw [Fin.foldl_succ_last]
    have := ih (fun a i => f a i.castSucc) (fun a i h => hs a i.castSucc h)
    exact hs _ (Fin.last m) this

theorem ScanInv.next {cfg : Cfg ν n q K} {act : Fin q → Bool} {glo g : Vec q K} {im : Nat} {a a' : Scan K} {i : Fin q}
    (h : ScanInv cfg act glo g im i.val a)
    (hz : a'.zroot = true ↔ a.zroot = true ∨ Vanishes cfg act glo g i)
    (hc : (a'.sgnchg = a.sgnchg ∧ a'.imax = a.imax ∧ a'.maxfrac = a.maxfrac ∧ (a.sgnchg = false → ¬ Crosses cfg act glo g i)) ∨
      (a'.sgnchg = true ∧ a'.imax = i.val ∧ Crosses cfg act glo g i)) :
    ScanInv cfg act glo g im (i.val + 1) a' := by
  refine ⟨?_, ?_, ?_⟩
  · rw [hz, h.zero]
    constructor
    · rintro (⟨j, hj, hv⟩ | hv)
      · exact ⟨j, by omega, hv⟩
      · exact ⟨i, by omega, hv⟩
    · rintro ⟨j, hj, hv⟩
      by_cases hji : j = i
      · exact Or.inr (hji ▸ hv)
      · exact Or.inl ⟨j, by have : j.val ≠ i.val := fun h => hji (Fin.ext h); omega, hv⟩
  · intro hs
    rcases hc with ⟨h1, h2, -, -⟩ | ⟨-, h2, h3⟩
    · rw [h1] at hs
      rw [h2]; exact h.found hs
    · have hq : a'.imax < q := by rw [h2]; exact i.isLt
      refine ⟨hq, ?_⟩
      have : (⟨a'.imax, hq⟩ : Fin q) = i := Fin.ext h2
      rw [this]; exact h3
  · intro hs
    rcases hc with ⟨h1, h2, h3, h4⟩ | ⟨h1, -, -⟩
    · rw [h1] at hs
      obtain ⟨e1, e2, e3⟩ := h.none hs
      refine ⟨h2.trans e1, h3.trans e2, fun j hj => ?_⟩
      by_cases hji : j = i
      · rw [hji]; exact h4 hs
      · exact e3 j (by have : j.val ≠ i.val := fun h => hji (Fin.ext h); omega)
    · rw [h1] at hs; cases hs

theorem scanSign_spec {cfg : Cfg ν n q K} {act : Fin q → Bool} {glo g : Vec q K} {im : Nat} {a : Scan K} {i : Fin q}
    (ha : act i = true) (h : ScanInv cfg act glo g im i.val a) :
    (scanSign cfg glo g a i).zroot = a.zroot ∧
    (((scanSign cfg glo g a i).sgnchg = a.sgnchg ∧ (scanSign cfg glo g a i).imax = a.imax ∧
        (scanSign cfg glo g a i).maxfrac = a.maxfrac ∧ (a.sgnchg = false → ¬ Crosses cfg act glo g i)) ∨
      ((scanSign cfg glo g a i).sgnchg = true ∧ (scanSign cfg glo g a i).imax = i.val ∧ Crosses cfg act glo g i)) := by
  unfold scanSign
  split
  · rename_i hx
    rw [Bool.and_eq_true, dirOk_iff] at hx
    have hneg : glo i * g i < 0 := by simpa using hx.1
    simp only
    split
    · exact ⟨rfl, Or.inr ⟨rfl, rfl, ha, hx.2, hneg⟩⟩
    · rename_i hy
      refine ⟨rfl, Or.inl ⟨rfl, rfl, rfl, fun hs => ?_⟩⟩
      have hm := (h.none hs).2.1
      rw [hm] at hy
      have hg : g i ≠ 0 := fun h0 => by rw [h0, mul_zero] at hneg; exact lt_irrefl _ hneg
      have hd : g i - glo i ≠ 0 := fun h0 => by
        have : g i = glo i := sub_eq_zero.1 h0
        rw [this] at hneg
        exact absurd (mul_self_nonneg (glo i)) (not_le.2 hneg)
      have : (0 : K) < |g i / (g i - glo i)| := abs_pos.2 (div_ne_zero hg hd)
      exact absurd (by simpa [Scalar.gt] using this) hy
  · rename_i hx
    refine ⟨rfl, Or.inl ⟨rfl, rfl, rfl, fun _ hc => hx ?_⟩⟩
    rw [Bool.and_eq_true, dirOk_iff]
    exact ⟨by simpa using hc.2.2, hc.2.1⟩

theorem scan1_spec (cfg : Cfg ν n q K) (act : Fin q → Bool) (glo g : Vec q K) :
    ScanInv cfg act glo g 0 q (scan1 cfg act glo g) := by
  unfold scan1
  refine fold_rule _ _ (fun k a => ScanInv cfg act glo g 0 k a) ⟨by simp, by simp, by simp⟩ ?_
  intro a i h
  split
  · rename_i ha
    split
    · rename_i hz
      have hz : g i = 0 := by simpa using hz
      have hnc : ¬ Crosses cfg act glo g i := fun hc => by
        have := hc.2.2
        rw [hz, mul_zero] at this; exact lt_irrefl _ this
      split
      · rename_i hd
        rw [dirOk_iff] at hd
        exact h.next (by simp; exact Or.inr ⟨ha, hd, hz⟩) (Or.inl ⟨rfl, rfl, rfl, fun _ => hnc⟩)
      · rename_i hd
        rw [dirOk_iff] at hd
        exact h.next ⟨Or.inl, fun hx => hx.resolve_right (fun hv => hd hv.2.1)⟩ (Or.inl ⟨rfl, rfl, rfl, fun _ => hnc⟩)
    · rename_i hz
      have hz : g i ≠ 0 := by simpa using hz
      obtain ⟨h1, h2⟩ := scanSign_spec ha h
      refine h.next ?_ h2
      rw [h1]
      exact ⟨Or.inl, fun hx => hx.resolve_right (fun hv => hz hv.2.2)⟩
  · rename_i ha
    exact h.next ⟨Or.inl, fun hx => hx.resolve_right (fun hv => ha hv.1)⟩
      (Or.inl ⟨rfl, rfl, rfl, fun _ hc => ha hc.1⟩)

theorem scan2_spec (cfg : Cfg ν n q K) (act : Fin q → Bool) (glo g : Vec q K) (im : Nat) :
    ScanInv cfg act glo g im q (scan2 cfg act glo g im) := by
  unfold scan2
  refine fold_rule _ _ (fun k a => ScanInv cfg act glo g im k a) ⟨by simp, by simp, by simp⟩ ?_
  intro a i h
  split
  · rename_i ha
    split
    · rename_i hz
      rw [Bool.and_eq_true, dirOk_iff] at hz
      obtain ⟨hz, hd⟩ := hz
      have hz : g i = 0 := by simpa using hz
      have hnc : ¬ Crosses cfg act glo g i := fun hc => by
        have := hc.2.2
        rw [hz, mul_zero] at this; exact lt_irrefl _ this
      exact h.next (by simp; exact Or.inr ⟨ha, hd, hz⟩) (Or.inl ⟨rfl, rfl, rfl, fun _ => hnc⟩)
    · rename_i hz
      rw [Bool.and_eq_true, dirOk_iff] at hz
      obtain ⟨h1, h2⟩ := scanSign_spec ha h
      refine h.next ?_ h2
      rw [h1]
      exact ⟨Or.inl, fun hx => hx.resolve_right (fun hv => hz ⟨by simpa using hv.2.2, hv.2.1⟩)⟩
  · rename_i ha
    exact h.next ⟨Or.inl, fun hx => hx.resolve_right (fun hv => ha hv.1)⟩
      (Or.inl ⟨rfl, rfl, rfl, fun _ hc => ha hc.1⟩)

/-! ## The trial point -/

/-- The fraction used to move the trial point away from an end of the bracket. -/
theorem fracSub_spec {thi tlo ttol : K} (ht : 0 < ttol) (hD : ttol < |thi - tlo|) :
    0 < fracSub thi tlo ttol ∧ ttol / 2 ≤ fracSub thi tlo ttol * |thi - tlo| ∧
      ttol / 2 ≤ (1 - fracSub thi tlo ttol) * |thi - tlo| ∧ fracSub thi tlo ttol < 1 := by
  have hpos : 0 < |thi - tlo| := ht.trans hD
  unfold fracSub
  simp only [ex_abs, Scalar.gt, ex_lt, ex_five, ex_pt1, ex_half, decide_eq_true_eq]
  split
  · rename_i h
    rw [lt_div_iff₀ ht] at h
    refine ⟨by norm_num, ?_, ?_, by norm_num⟩ <;> linarith
  · have e : (1 / 2 : K) / (|thi - tlo| / ttol) = ttol / 2 / |thi - tlo| := by
      field_simp
    rw [e]
    have e2 : ttol / 2 / |thi - tlo| * |thi - tlo| = ttol / 2 := div_mul_cancel₀ _ hpos.ne'
    refine ⟨by positivity, e2.ge, ?_, ?_⟩
    · rw [sub_mul, one_mul, e2]; linarith
    · rw [div_lt_one hpos]; linarith

/-- The trial point lies inside the bracket, at least half a tolerance away from both ends. -/
theorem trialPoint_spec {thi tlo ttol ghi glo alph : K} (ht : 0 < ttol) (hD : ttol < |thi - tlo|)
    (hg : glo * ghi < 0) (ha : 0 < alph) :
    ∃ c, 0 < c ∧ c < 1 ∧ trialPoint thi tlo ttol ghi glo alph = tlo + c * (thi - tlo) ∧
      ttol / 2 ≤ c * |thi - tlo| ∧ ttol / 2 ≤ (1 - c) * |thi - tlo| := by
  have hpos : 0 < |thi - tlo| := ht.trans hD
  obtain ⟨f0, f1, f2, f3⟩ := fracSub_spec ht hD
  -- the raw trial point
  have hw : ∃ w, 0 < w ∧ w < 1 ∧ ghi / (ghi - alph * glo) = w := by
    refine ⟨_, ?_, ?_, rfl⟩
    · rcases mul_neg_iff.1 hg with ⟨h1, h2⟩ | ⟨h1, h2⟩
      · exact div_pos_of_neg_of_neg h2 (by have := mul_pos ha h1; linarith)
      · exact div_pos h2 (by have := mul_neg_of_pos_of_neg ha h1; linarith)
    · rcases mul_neg_iff.1 hg with ⟨h1, h2⟩ | ⟨h1, h2⟩
      · rw [div_lt_one_of_neg (by have := mul_pos ha h1; linarith)]
        have := mul_pos ha h1; linarith
      · rw [div_lt_one (by have := mul_neg_of_pos_of_neg ha h1; linarith)]
        have := mul_neg_of_pos_of_neg ha h1; linarith
  obtain ⟨w, w0, w1, hw⟩ := hw
  have e0 : thi - (thi - tlo) * ghi / (ghi - alph * glo) = tlo + (1 - w) * (thi - tlo) := by
    rw [mul_div_assoc, hw]; ring
  unfold trialPoint
  simp only [ex_abs, ex_lt, ex_half, decide_eq_true_eq]
  rw [e0]
  have a1 : ∀ c : K, |tlo + c * (thi - tlo) - tlo| = |c| * |thi - tlo| := fun c => by
    rw [add_sub_cancel_left, abs_mul]
  have a2 : ∀ c : K, |thi - (tlo + c * (thi - tlo))| = |1 - c| * |thi - tlo| := fun c => by
    rw [← abs_mul]; congr 1; ring
  have key : ∃ c, 0 < c ∧ c < 1 ∧ ttol / 2 ≤ c * |thi - tlo| ∧
      (if |tlo + (1 - w) * (thi - tlo) - tlo| < 1 / 2 * ttol then tlo + fracSub thi tlo ttol * (thi - tlo)
        else tlo + (1 - w) * (thi - tlo)) = tlo + c * (thi - tlo) := by
    split
    · exact ⟨_, f0, f3, f1, rfl⟩
    · rename_i h
      rw [a1, abs_of_pos (by linarith)] at h
      exact ⟨1 - w, by linarith, by linarith, by linarith, rfl⟩
  obtain ⟨c, c0, c1, c2, hc⟩ := key
  rw [hc, a2, abs_of_pos (by linarith)]
  split
  · refine ⟨1 - fracSub thi tlo ttol, by linarith, by linarith, by ring, f2, ?_⟩
    rw [sub_sub_cancel]; exact f1
  · rename_i h
    exact ⟨c, c0, c1, rfl, c2, by linarith⟩

theorem nextAlph_pos {l : RfLoc K} (h : 0 < l.alph) : 0 < nextAlph l := by
  unfold nextAlph
  simp only [ex_two, ex_half]
  split
  · split
    · positivity
    · positivity
  · exact one_pos

theorem bracketSmall_iff (r : RootSt q K) : bracketSmall r = true ↔ |r.thi - r.tlo| ≤ r.ttol := by
  unfold bracketSmall
  simp

end

end Verif
