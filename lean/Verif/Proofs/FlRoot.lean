import Verif.Proofs.FlTrial
import Verif.Proofs.Root

/-! # The root search in floating-point arithmetic -/

set_option autoImplicit false
set_option linter.unusedSectionVars false
set_option linter.unusedSimpArgs false
set_option linter.unusedVariables false

namespace Verif

open Verif.Spec Verif.Props

universe u v w

section
variable {ν : Type w} {n q : Nat} {F : Type u} {K : Type v} [Scalar F] [Field K] [LinearOrder K] [IsStrictOrderedRing K]
  [StdModel F K] [RootLits F K]

local prefix:max "♯" => StdModel.val (F := F) (K := K)
local notation "μ" => (StdModel.u (F := F) (K := K))

/-! ## Signs -/

theorem one_add_pos {d : K} (h : |d| ≤ μ) : 0 < 1 + d := by
  have := StdModel.u_lt (F := F) (K := K)
  have := (abs_le.1 h).1
  linarith

/-- A computed product has the sign of the product. -/
theorem mul_neg_fl (a b : F) : Scalar.lt (a * b) 0 = true ↔ ♯a * ♯b < 0 := by
  obtain ⟨d, hd, e⟩ := StdModel.val_mul a b
  have := one_add_pos hd
  rw [StdModel.lt_iff, e, StdModel.val_zero]
  constructor
  · intro h
    by_contra hc
    exact absurd h (not_lt.2 (mul_nonneg (not_lt.1 hc) this.le))
  · intro h
    exact mul_neg_of_neg_of_pos h this

theorem eqz_fl (a : F) : Scalar.eqb (Scalar.abs a) 0 = true ↔ ♯a = 0 := by
  rw [StdModel.eq_iff, StdModel.val_abs, StdModel.val_zero, abs_eq_zero]

theorem dirOk_fl (cfg : Cfg ν n q F) (glo : Vec q F) (i : Fin q) :
    dirOk cfg glo i = true ↔ Allowed (K := K) cfg i (glo i) := by
  unfold dirOk Allowed
  obtain ⟨d, hd, e⟩ := StdModel.val_mul (Scalar.ofNat (cfg.rootdir i)) (glo i)
  obtain ⟨d', hd', e'⟩ := StdModel.val_ofNat (F := F) (K := K) (cfg.rootdir i)
  have h1 := one_add_pos hd
  have h2 := one_add_pos hd'
  rw [StdModel.le_iff, e, e', StdModel.val_zero]
  have : (cfg.rootdir i : K) * (1 + d') * ♯(glo i) * (1 + d) = ((cfg.rootdir i : K) * ♯(glo i)) * ((1 + d') * (1 + d)) := by ring
  rw [this]
  have h3 := mul_pos h2 h1
  constructor
  · intro h
    by_contra hc
    exact absurd h (not_le.2 (mul_pos (not_le.1 hc) h3))
  · intro h
    exact mul_nonpos_of_nonpos_of_nonneg h h3.le

/-! ## The scans -/

/-- Invariant of both scans after `k` components. -/
structure FScan (cfg : Cfg ν n q F) (act : Fin q → Bool) (glo g : Vec q F) (im : Nat) (k : Nat) (a : Scan F) : Prop where
  zero : a.zroot = true ↔ ∃ i : Fin q, i.val < k ∧ IsZero (K := K) cfg act i (glo i) (g i)
  found : a.sgnchg = true → ∃ h : a.imax < q, Changes (K := K) cfg act ⟨a.imax, h⟩ (glo ⟨a.imax, h⟩) (g ⟨a.imax, h⟩)
  none : a.sgnchg = false → a.imax = im ∧ a.maxfrac = 0 ∧ ∀ i : Fin q, i.val < k → ¬ Changes (K := K) cfg act i (glo i) (g i)

theorem FScan.next {cfg : Cfg ν n q F} {act : Fin q → Bool} {glo g : Vec q F} {im : Nat} {a a' : Scan F} {i : Fin q}
    (h : FScan (K := K) cfg act glo g im i.val a)
    (hz : a'.zroot = true ↔ a.zroot = true ∨ IsZero (K := K) cfg act i (glo i) (g i))
    (hc : (a'.sgnchg = a.sgnchg ∧ a'.imax = a.imax ∧ a'.maxfrac = a.maxfrac ∧
        (a.sgnchg = false → ¬ Changes (K := K) cfg act i (glo i) (g i))) ∨
      (a'.sgnchg = true ∧ a'.imax = i.val ∧ Changes (K := K) cfg act i (glo i) (g i))) :
    FScan (K := K) cfg act glo g im (i.val + 1) a' := by
  refine ⟨?_, ?_, ?_⟩
  · rw [hz, h.zero]
    constructor
    · rintro (⟨j, hj, hv⟩ | hv)
      · exact ⟨j, by omega, hv⟩
      · exact ⟨i, by omega, hv⟩
    · rintro ⟨j, hj, hv⟩
      by_cases hji : j = i
      · exact Or.inr (hji ▸ hv)
      · exact Or.inl ⟨j, by have : j.val ≠ i.val := fun h => hji (Fin.ext h); omega, hv⟩
  · intro hs
    rcases hc with ⟨h1, h2, -, -⟩ | ⟨-, h2, h3⟩
    · rw [h1] at hs
      rw [h2]; exact h.found hs
    · have hq : a'.imax < q := by rw [h2]; exact i.isLt
      refine ⟨hq, ?_⟩
      have : (⟨a'.imax, hq⟩ : Fin q) = i := Fin.ext h2
      rw [this]; exact h3
  · intro hs
    rcases hc with ⟨h1, h2, h3, h4⟩ | ⟨h1, -, -⟩
    · rw [h1] at hs
      obtain ⟨e1, e2, e3⟩ := h.none hs
      refine ⟨h2.trans e1, h3.trans e2, fun j hj => ?_⟩
      by_cases hji : j = i
      · rw [hji]; exact h4 hs
      · exact e3 j (by have : j.val ≠ i.val := fun h => hji (Fin.ext h); omega)
    · rw [h1] at hs; cases hs

theorem scanSign_fl {cfg : Cfg ν n q F} {act : Fin q → Bool} {glo g : Vec q F} {im : Nat} {a : Scan F} {i : Fin q}
    (ha : act i = true) (h : FScan (K := K) cfg act glo g im i.val a) :
    (scanSign cfg glo g a i).zroot = a.zroot ∧
    (((scanSign cfg glo g a i).sgnchg = a.sgnchg ∧ (scanSign cfg glo g a i).imax = a.imax ∧
        (scanSign cfg glo g a i).maxfrac = a.maxfrac ∧ (a.sgnchg = false → ¬ Changes (K := K) cfg act i (glo i) (g i))) ∨
      ((scanSign cfg glo g a i).sgnchg = true ∧ (scanSign cfg glo g a i).imax = i.val ∧
        Changes (K := K) cfg act i (glo i) (g i))) := by
  unfold scanSign
  split
  · rename_i hx
    rw [Bool.and_eq_true, dirOk_fl (K := K), mul_neg_fl (K := K)] at hx
    obtain ⟨hneg, hd⟩ := hx
    simp only
    split
    · exact ⟨rfl, Or.inr ⟨rfl, rfl, ha, hd, hneg⟩⟩
    · rename_i hy
      refine ⟨rfl, Or.inl ⟨rfl, rfl, rfl, fun hs => ?_⟩⟩
      have hm := (h.none hs).2.1
      rw [hm] at hy
      refine absurd ?_ hy
      have hg : ♯(g i) ≠ 0 := fun h0 => by rw [h0, mul_zero] at hneg; exact lt_irrefl _ hneg
      obtain ⟨d1, h1, e1⟩ := StdModel.val_sub (g i) (glo i)
      have hd0 : ♯(g i - glo i) ≠ 0 := by
        rw [e1]
        refine mul_ne_zero (fun h0 => ?_) (one_add_pos h1).ne'
        have : ♯(g i) = ♯(glo i) := sub_eq_zero.1 h0
        rw [this] at hneg
        exact absurd (mul_self_nonneg (♯(glo i))) (not_le.2 hneg)
      obtain ⟨d2, h2, e2⟩ := StdModel.val_div (g i) (g i - glo i) hd0
      unfold Scalar.gt
      rw [StdModel.lt_iff, StdModel.val_zero, StdModel.val_abs, e2, abs_pos]
      exact mul_ne_zero (div_ne_zero hg hd0) (one_add_pos h2).ne'
  · rename_i hx
    refine ⟨rfl, Or.inl ⟨rfl, rfl, rfl, fun _ hc => hx ?_⟩⟩
    rw [Bool.and_eq_true, dirOk_fl (K := K), mul_neg_fl (K := K)]
    exact ⟨hc.2.2, hc.2.1⟩

theorem scan1_fl (cfg : Cfg ν n q F) (act : Fin q → Bool) (glo g : Vec q F) :
    FScan (K := K) cfg act glo g 0 q (scan1 cfg act glo g) := by
  unfold scan1
  refine fold_rule _ _ (fun k a => FScan (K := K) cfg act glo g 0 k a) ⟨by simp, by simp, by simp⟩ ?_
  intro a i h
  split
  · rename_i ha
    split
    · rename_i hz
      have hz : ♯(g i) = 0 := (eqz_fl _).1 hz
      have hnc : ¬ Changes (K := K) cfg act i (glo i) (g i) := fun hc => by
        have := hc.2.2
        rw [hz, mul_zero] at this; exact lt_irrefl _ this
      split
      · rename_i hd
        rw [dirOk_fl (K := K)] at hd
        exact h.next (by simp; exact Or.inr ⟨ha, hd, hz⟩) (Or.inl ⟨rfl, rfl, rfl, fun _ => hnc⟩)
      · rename_i hd
        rw [dirOk_fl (K := K)] at hd
        exact h.next ⟨Or.inl, fun hx => hx.resolve_right (fun hv => hd hv.2.1)⟩ (Or.inl ⟨rfl, rfl, rfl, fun _ => hnc⟩)
    · rename_i hz
      have hz : ♯(g i) ≠ 0 := fun h0 => hz ((eqz_fl _).2 h0)
      obtain ⟨h1, h2⟩ := scanSign_fl ha h
      refine h.next ?_ h2
      rw [h1]
      exact ⟨Or.inl, fun hx => hx.resolve_right (fun hv => hz hv.2.2)⟩
  · rename_i ha
    exact h.next ⟨Or.inl, fun hx => hx.resolve_right (fun hv => ha hv.1)⟩
      (Or.inl ⟨rfl, rfl, rfl, fun _ hc => ha hc.1⟩)

theorem scan2_fl (cfg : Cfg ν n q F) (act : Fin q → Bool) (glo g : Vec q F) (im : Nat) :
    FScan (K := K) cfg act glo g im q (scan2 cfg act glo g im) := by
  unfold scan2
  refine fold_rule _ _ (fun k a => FScan (K := K) cfg act glo g im k a) ⟨by simp, by simp, by simp⟩ ?_
  intro a i h
  split
  · rename_i ha
    split
    · rename_i hz
      rw [Bool.and_eq_true, dirOk_fl (K := K), eqz_fl (K := K)] at hz
      obtain ⟨hz, hd⟩ := hz
      have hnc : ¬ Changes (K := K) cfg act i (glo i) (g i) := fun hc => by
        have := hc.2.2
        rw [hz, mul_zero] at this; exact lt_irrefl _ this
      exact h.next (by simp; exact Or.inr ⟨ha, hd, hz⟩) (Or.inl ⟨rfl, rfl, rfl, fun _ => hnc⟩)
    · rename_i hz
      rw [Bool.and_eq_true, dirOk_fl (K := K), eqz_fl (K := K)] at hz
      obtain ⟨h1, h2⟩ := scanSign_fl ha h
      refine h.next ?_ h2
      rw [h1]
      exact ⟨Or.inl, fun hx => hx.resolve_right (fun hv => hz ⟨hv.2.2, hv.2.1⟩)⟩
  · rename_i ha
    exact h.next ⟨Or.inl, fun hx => hx.resolve_right (fun hv => ha hv.1)⟩
      (Or.inl ⟨rfl, rfl, rfl, fun _ hc => ha hc.1⟩)

theorem nextAlph_fl {l : RfLoc F} (h : 0 < ♯l.alph) : 0 < ♯(nextAlph l) := by
  have key : ∀ c : F, 0 < ♯c → 0 < ♯(l.alph * c) := by
    intro c hc
    obtain ⟨d, hd, e⟩ := StdModel.val_mul l.alph c
    rw [e]
    exact mul_pos (mul_pos h hc) (one_add_pos hd)
  unfold nextAlph
  split
  · split
    · exact key _ (RootLits.two (F := F))
    · exact key _ (by rw [RootLits.half (F := F)]; norm_num)
  · rw [StdModel.val_one]; exact one_pos

theorem bracketSmall_fl (r : RootSt q F) : bracketSmall r = true ↔ ♯(Scalar.abs (r.thi - r.tlo)) ≤ ♯r.ttol := by
  unfold bracketSmall
  rw [StdModel.le_iff]

/-! ## The loop -/

theorem Spec.SeenAt.mono {cfg : Cfg ν n q F} {s s' : State ν n q F} {t x : F} {i : Fin q} (h : SeenAt cfg s t i x)
    (hl : ∀ c, c ∈ s.m.log → c ∈ s'.m.log) : SeenAt cfg s' t i x := by
  obtain ⟨v, vp, buf, h1, h2⟩ := h
  exact ⟨v, vp, buf, hl _ h1, h2⟩

theorem Frame.log_subF {s s' : State ν n q F} (h : Frame s s') : ∀ c, c ∈ s.m.log → c ∈ s'.m.log := by
  obtain ⟨l, h1, -⟩ := h.log
  intro c hc
  rw [h1]; exact List.mem_append_right _ hc

/-- The bracket during a search that started in `s0`; its ends are at most `M`. -/
structure FBracket (cfg : Cfg ν n q F) (M : K) (s0 s : State ν n q F) (l : RfLoc F) : Prop where
  frame : Frame s0 s
  quiet : Quiet s0 s
  gactive : s.r.gactive = s0.r.gactive
  ttol : s.r.ttol = s0.r.ttol
  irfnd : s.r.irfnd = s0.r.irfnd
  imax : ∃ h : l.imax < q, Changes (K := K) cfg s.r.gactive ⟨l.imax, h⟩ (s.r.glo ⟨l.imax, h⟩) (s.r.ghi ⟨l.imax, h⟩)
  alph : 0 < ♯l.alph
  blo : |♯s.r.tlo| ≤ M
  bhi : |♯s.r.thi| ≤ M
  lo : s.r.tlo = s0.r.tlo ∧ s.r.glo = s0.r.glo ∨ ∀ i, SeenAt cfg s s.r.tlo i (s.r.glo i)
  hi : ∀ i, SeenAt cfg s s.r.thi i (s.r.ghi i)

/-- The bracket at the end of the loop. -/
structure FFound (cfg : Cfg ν n q F) (s0 s : State ν n q F) : Prop where
  frame : Frame s0 s
  quiet : Quiet s0 s
  gactive : s.r.gactive = s0.r.gactive
  ttol : s.r.ttol = s0.r.ttol
  irfnd : s.r.irfnd = s0.r.irfnd
  lo : s.r.tlo = s0.r.tlo ∧ s.r.glo = s0.r.glo ∨ ∀ i, SeenAt cfg s s.r.tlo i (s.r.glo i)
  hi : ∀ i, SeenAt cfg s s.r.thi i (s.r.ghi i)
  ends : ((∃ i, IsZero (K := K) cfg s.r.gactive i (s.r.glo i) (s.r.ghi i)) ∧
      ∀ i, ¬ Changes (K := K) cfg s.r.gactive i (s.r.glo i) (s.r.ghi i)) ∨
    ((∃ i, Changes (K := K) cfg s.r.gactive i (s.r.glo i) (s.r.ghi i)) ∧ ♯(Scalar.abs (s.r.thi - s.r.tlo)) ≤ ♯s.r.ttol)

theorem FBracket.found {cfg : Cfg ν n q F} {M : K} {s0 s : State ν n q F} {l : RfLoc F} (h : FBracket cfg M s0 s l)
    (hs : ♯(Scalar.abs (s.r.thi - s.r.tlo)) ≤ ♯s.r.ttol) : FFound (K := K) cfg s0 s := by
  obtain ⟨hi, hc⟩ := h.imax
  exact ⟨h.frame, h.quiet, h.gactive, h.ttol, h.irfnd, h.lo, h.hi, Or.inr ⟨⟨_, hc⟩, hs⟩⟩

/-- How a pass changes the bracket. -/
structure FPass (s s' : State ν n q F) : Prop where
  /-- one more evaluation, strictly inside the old bracket -/
  call : ∃ t v vp, s'.m.log = .root t v vp :: s.m.log ∧ Inside ♯s.r.tlo ♯t ♯s.r.thi ∧
    (s'.r.tlo = s.r.tlo ∧ s'.r.thi = t ∨ s'.r.tlo = t ∧ s'.r.thi = s.r.thi)
  nge : s'.r.nge = s.r.nge + 1
  /-- the bracket has shrunk -/
  shrink : |♯s'.r.thi - ♯s'.r.tlo| + 2 / 5 * ♯s.r.ttol ≤ |♯s.r.thi - ♯s.r.tlo|

/-- The state after a pass that moves the upper end. -/
def upperEndF (s : State ν n q F) (t : F) (g : Vec q F) : State ν n q F :=
  { s with
    m.log := .root t s.m.yy s.m.yp :: s.m.log
    r.grout := g
    r.nge := s.r.nge + 1
    r.thi := t
    r.ghi := g }

/-- The state after a pass that moves the lower end. -/
def lowerEndF (s : State ν n q F) (t : F) (g : Vec q F) : State ν n q F :=
  { s with
    m.log := .root t s.m.yy s.m.yp :: s.m.log
    r.grout := g
    r.nge := s.r.nge + 1
    r.tlo := t
    r.glo := g }

theorem abs_frac_le {L H M c : K} (hL : |L| ≤ M) (hH : |H| ≤ M) (c0 : 0 ≤ c) (c1 : c ≤ 1) : |L + c * (H - L)| ≤ M := by
  have : L + c * (H - L) = (1 - c) * L + c * H := by ring
  rw [this]
  refine (abs_add_le _ _).trans ?_
  rw [abs_mul, abs_mul, abs_of_nonneg c0, abs_of_nonneg (by linarith : 0 ≤ 1 - c)]
  have := mul_le_mul_of_nonneg_left hL (by linarith : 0 ≤ 1 - c)
  have := mul_le_mul_of_nonneg_left hH c0
  linarith

theorem inside_frac {a b c : K} (h0 : 0 < c) (h1 : c < 1) (hab : a ≠ b) : Inside a (a + c * (b - a)) b := by
  rcases lt_or_gt_of_ne hab with h | h
  · left
    constructor
    · nlinarith [mul_pos h0 (sub_pos.2 h)]
    · nlinarith [mul_pos (sub_pos.2 h1) (sub_pos.2 h)]
  · right
    constructor
    · nlinarith [mul_pos (sub_pos.2 h1) (sub_pos.2 h)]
    · nlinarith [mul_pos h0 (sub_pos.2 h)]

theorem rootPass_fl (hu : 200 * μ ≤ 1) {cfg : Cfg ν n q F} {M : K} {s0 s : State ν n q F} {l : RfLoc F}
    (h : FBracket cfg M s0 s l) (hM : 50 * (μ * M) ≤ ♯s.r.ttol) (ht : 0 < ♯s.r.ttol)
    (hD : ♯s.r.ttol < ♯(Scalar.abs (s.r.thi - s.r.tlo))) :
    (∀ s', rootPass cfg s l = .stop s' → FFound (K := K) cfg s0 s' ∧ FPass (K := K) s s') ∧
    (∀ s' l', rootPass cfg s l = .more s' l' → FBracket cfg M s0 s' l' ∧ FPass (K := K) s s') := by
  obtain ⟨hi, hc⟩ := h.imax
  obtain ⟨c, c0, c1, hc2, c3, c4⟩ := trialPoint_fl hu h.blo h.bhi hM ht hD hc.2.2 (nextAlph_fl h.alph)
  unfold rootPass callRoot
  rw [dif_pos hi]
  simp only
  generalize trialPoint s.r.thi s.r.tlo s.r.ttol (s.r.ghi ⟨l.imax, hi⟩) (s.r.glo ⟨l.imax, hi⟩) (nextAlph l) = tmid at hc2
  cases hg : getSolution' s tmid with
  | none => simp
  | some s1 =>
    simp only
    obtain ⟨hf1, yy, yp, e1⟩ := getSolution'_frame hg
    have hlog : s1.m.log = s.m.log := by rw [e1]
    have hr : s1.r = s.r := by rw [e1]
    have hq1 : Quiet s s1 := getSolution'_quiet hg
    have hseen : ∀ s' : State ν n q F, s'.m.log = .root tmid s1.m.yy s1.m.yp :: s1.m.log → ∀ i,
        SeenAt cfg s' tmid i (cfg.prob.root tmid s1.m.yy s1.m.yp s1.r.grout i) :=
      fun s' hl i => ⟨_, _, _, by rw [hl]; exact List.mem_cons_self, rfl⟩
    set g := cfg.prob.root tmid s1.m.yy s1.m.yp s1.r.grout with hgdef
    clear_value g
    have hne : ♯s.r.tlo ≠ ♯s.r.thi := fun he => by
      rw [he, sub_self, abs_zero, mul_zero] at c3
      linarith
    have hins : Inside ♯s.r.tlo ♯tmid ♯s.r.thi := by
      rw [hc2]; exact inside_frac c0 c1 hne
    have hbm : |♯tmid| ≤ M := by rw [hc2]; exact abs_frac_le h.blo h.bhi c0.le c1.le
    have dlo : |♯tmid - ♯s.r.tlo| = c * |♯s.r.thi - ♯s.r.tlo| := by
      rw [hc2, add_sub_cancel_left, abs_mul, abs_of_pos c0]
    have dhi : |♯s.r.thi - ♯tmid| = (1 - c) * |♯s.r.thi - ♯s.r.tlo| := by
      rw [hc2]
      have : ♯s.r.thi - (♯s.r.tlo + c * (♯s.r.thi - ♯s.r.tlo)) = (1 - c) * (♯s.r.thi - ♯s.r.tlo) := by ring
      rw [this, abs_mul, abs_of_pos (by linarith)]
    have sp := scan2_fl (K := K) cfg s1.r.gactive s1.r.glo g l.imax
    generalize scan2 cfg s1.r.gactive s1.r.glo g l.imax = A at sp
    have hsub : ∀ s' : State ν n q F, s'.m.log = .root tmid s1.m.yy s1.m.yp :: s1.m.log → ∀ x, x ∈ s.m.log → x ∈ s'.m.log :=
      fun s' hl x hx => by rw [hl, hlog]; exact List.mem_cons_of_mem _ hx
    -- the two new brackets
    have upper : ∀ s' : State ν n q F, s' = upperEndF s1 tmid g →
        Frame s0 s' ∧ Quiet s0 s' ∧ s'.r.gactive = s0.r.gactive ∧ s'.r.ttol = s0.r.ttol ∧ s'.r.irfnd = s0.r.irfnd ∧
        (s'.r.tlo = s0.r.tlo ∧ s'.r.glo = s0.r.glo ∨ ∀ i, SeenAt cfg s' s'.r.tlo i (s'.r.glo i)) ∧
        (∀ i, SeenAt cfg s' s'.r.thi i (s'.r.ghi i)) ∧ FPass (K := K) s s' := by
      rintro s' rfl
      have hf2 : Frame s1 (upperEndF s1 tmid g) := by frame_call
      have hf := hf1.trans hf2
      refine ⟨h.frame.trans hf, (h.quiet.trans hq1).trans (by quiet_rfl), ?_, ?_, ?_, ?_, ?_, ?_, ?_, ?_⟩
      · show s1.r.gactive = _; rw [hr]; exact h.gactive
      · show s1.r.ttol = _; rw [hr]; exact h.ttol
      · show s1.r.irfnd = _; rw [hr]; exact h.irfnd
      · show s1.r.tlo = _ ∧ s1.r.glo = _ ∨ ∀ i, SeenAt cfg _ s1.r.tlo i (s1.r.glo i)
        rw [hr]
        exact h.lo.imp id (fun hx i => (hx i).mono (hsub _ rfl))
      · intro i
        exact hseen _ rfl i
      · exact ⟨tmid, s1.m.yy, s1.m.yp, by show _ :: s1.m.log = _; rw [hlog], hins, Or.inl ⟨by show s1.r.tlo = _; rw [hr], rfl⟩⟩
      · show s1.r.nge + 1 = _; rw [hr]
      · show |♯tmid - ♯s1.r.tlo| + _ ≤ _
        rw [hr, dlo]; linarith
    have lower : ∀ s' : State ν n q F, s' = lowerEndF s1 tmid g →
        Frame s0 s' ∧ Quiet s0 s' ∧ s'.r.gactive = s0.r.gactive ∧ s'.r.ttol = s0.r.ttol ∧ s'.r.irfnd = s0.r.irfnd ∧
        (∀ i, SeenAt cfg s' s'.r.tlo i (s'.r.glo i)) ∧
        (∀ i, SeenAt cfg s' s'.r.thi i (s'.r.ghi i)) ∧ FPass (K := K) s s' := by
      rintro s' rfl
      have hf2 : Frame s1 (lowerEndF s1 tmid g) := by frame_call
      have hf := hf1.trans hf2
      refine ⟨h.frame.trans hf, (h.quiet.trans hq1).trans (by quiet_rfl), ?_, ?_, ?_, ?_, ?_, ?_, ?_, ?_⟩
      · show s1.r.gactive = _; rw [hr]; exact h.gactive
      · show s1.r.ttol = _; rw [hr]; exact h.ttol
      · show s1.r.irfnd = _; rw [hr]; exact h.irfnd
      · intro i
        exact hseen _ rfl i
      · show ∀ i, SeenAt cfg _ s1.r.thi i (s1.r.ghi i)
        rw [hr]
        exact fun i => (h.hi i).mono (hsub _ rfl)
      · exact ⟨tmid, s1.m.yy, s1.m.yp, by show _ :: s1.m.log = _; rw [hlog], hins, Or.inr ⟨rfl, by show s1.r.thi = _; rw [hr]⟩⟩
      · show s1.r.nge + 1 = _; rw [hr]
      · show |♯s1.r.thi - ♯tmid| + _ ≤ _
        rw [hr, dhi]; linarith
    have halph := nextAlph_fl h.alph
    have blo' : |♯s1.r.tlo| ≤ M := by rw [hr]; exact h.blo
    have bhi' : |♯s1.r.thi| ≤ M := by rw [hr]; exact h.bhi
    unfold rootNarrow
    simp only
    by_cases hsg : A.sgnchg = true
    · obtain ⟨u1, u2, u3, u4, u5, u7, u8, u9⟩ := upper _ rfl
      simp only [hsg, if_true]
      split
      · rename_i hb
        rw [bracketSmall_fl (K := K)] at hb
        refine ⟨fun s' he => ?_, fun s' l' he => by cases he⟩
        cases he
        obtain ⟨hA, hx⟩ := sp.found hsg
        exact ⟨⟨u1, u2, u3, u4, u5, u7, u8, Or.inr ⟨⟨_, hx⟩, hb⟩⟩, u9⟩
      · refine ⟨fun s' he => (by cases he), fun s' l' he => ?_⟩
        cases he
        exact ⟨⟨u1, u2, u3, u4, u5, sp.found hsg, halph, blo', hbm, u7, u8⟩, u9⟩
    · have hsg : A.sgnchg = false := by simpa using hsg
      obtain ⟨n1, -, n2⟩ := sp.none hsg
      have n2 : ∀ i, ¬ Changes (K := K) cfg s1.r.gactive i (s1.r.glo i) (g i) := fun i => n2 i i.isLt
      simp only [hsg, Bool.false_eq_true, if_false]
      by_cases hz : A.zroot = true
      · obtain ⟨u1, u2, u3, u4, u5, u7, u8, u9⟩ := upper _ rfl
        simp only [hz, if_true]
        refine ⟨fun s' he => ?_, fun s' l' he => by cases he⟩
        cases he
        obtain ⟨i, -, hv⟩ := sp.zero.1 hz
        exact ⟨⟨u1, u2, u3, u4, u5, u7, u8, Or.inl ⟨⟨i, hv⟩, n2⟩⟩, u9⟩
      · obtain ⟨u1, u2, u3, u4, u5, u7, u8, u9⟩ := lower _ rfl
        have hzf : A.zroot = false := by simpa using hz
        simp only [hzf, Bool.false_eq_true, if_false]
        -- the component that changes sign keeps its sign at the trial point
        have hcr : Changes (K := K) cfg s1.r.gactive ⟨l.imax, hi⟩ (g ⟨l.imax, hi⟩) (s1.r.ghi ⟨l.imax, hi⟩) := by
          have hx := hc
          rw [← hr] at hx
          have hne : ♯(g ⟨l.imax, hi⟩) ≠ 0 := fun h0 => hz (sp.zero.2 ⟨⟨l.imax, hi⟩, hi, hx.1, hx.2.1, h0⟩)
          have hnn : 0 ≤ ♯(s1.r.glo ⟨l.imax, hi⟩) * ♯(g ⟨l.imax, hi⟩) := not_lt.1 (fun hlt => n2 _ ⟨hx.1, hx.2.1, hlt⟩)
          have hlo : ♯(s1.r.glo ⟨l.imax, hi⟩) ≠ 0 := fun h0 => by
            have := hx.2.2
            rw [h0, zero_mul] at this; exact lt_irrefl _ this
          have hpos : 0 < ♯(s1.r.glo ⟨l.imax, hi⟩) * ♯(g ⟨l.imax, hi⟩) := lt_of_le_of_ne hnn (mul_ne_zero hlo hne).symm
          have hdir := hx.2.1
          have hneg := hx.2.2
          unfold Allowed at hdir
          have hcast : (0 : K) ≤ (cfg.rootdir ⟨l.imax, hi⟩ : K) := Nat.cast_nonneg _
          refine ⟨hx.1, ?_, ?_⟩
          · unfold Allowed
            rcases mul_pos_iff.1 hpos with ⟨p1, p2⟩ | ⟨p1, p2⟩
            · have : (cfg.rootdir ⟨l.imax, hi⟩ : K) = 0 := by
                by_contra hne0
                exact absurd hdir (not_le.2 (mul_pos (lt_of_le_of_ne hcast (Ne.symm hne0)) p1))
              rw [this, zero_mul]
            · exact mul_nonpos_of_nonneg_of_nonpos hcast p2.le
          · rcases mul_pos_iff.1 hpos with ⟨p1, p2⟩ | ⟨p1, p2⟩
            · have := (mul_neg_iff.1 hneg).resolve_right (fun x => absurd x.1 (not_lt.2 p1.le))
              exact mul_neg_of_pos_of_neg p2 this.2
            · have := (mul_neg_iff.1 hneg).resolve_left (fun x => absurd x.1 (not_lt.2 p1.le))
              exact mul_neg_of_neg_of_pos p2 this.2
        split
        · rename_i hb
          rw [bracketSmall_fl (K := K)] at hb
          refine ⟨fun s' he => ?_, fun s' l' he => by cases he⟩
          cases he
          exact ⟨⟨u1, u2, u3, u4, u5, Or.inr u7, u8, Or.inr ⟨⟨_, hcr⟩, hb⟩⟩, u9⟩
        · refine ⟨fun s' he => (by cases he), fun s' l' he => ?_⟩
          cases he
          exact ⟨⟨u1, u2, u3, u4, u5, by rw [n1]; exact ⟨hi, hcr⟩, halph, hbm, bhi', Or.inr u7, u8⟩, u9⟩

theorem rootLoop_fl (hu : 200 * μ ≤ 1) {cfg : Cfg ν n q F} {M : K} {s0 : State ν n q F} (hM : 50 * (μ * M) ≤ ♯s0.r.ttol)
    (ht : 0 < ♯s0.r.ttol) (fuel : Nat) {s : State ν n q F} {l : RfLoc F} (h : FBracket cfg M s0 s l) :
    (∀ s' r, rootLoop cfg fuel s l = .ret s' r → r = .ok () ∧ FFound (K := K) cfg s0 s' ∧
      ∃ ts : List F, CallsAt s s' ts ∧ Narrowing (4 / 5 * ♯s0.r.ttol) ♯s.r.tlo ♯s.r.thi (ts.map (StdModel.val (K := K)))
        ♯s'.r.tlo ♯s'.r.thi) ∧
    (|♯s.r.thi - ♯s.r.tlo| < fuel * (2 / 5 * ♯s0.r.ttol) → rootLoop cfg fuel s l ≠ .diverge) := by
  induction fuel generalizing s l with
  | zero =>
    refine ⟨fun s' r h => (by cases h), fun hf => ?_⟩
    have := abs_nonneg (♯s.r.thi - ♯s.r.tlo)
    simp at hf
    exact absurd this (not_le.2 hf)
  | succ fuel ih =>
    unfold rootLoop
    by_cases hb : bracketSmall s.r = true
    · rw [if_pos hb]
      rw [bracketSmall_fl (K := K)] at hb
      refine ⟨fun s' r he => ?_, fun _ => by simp⟩
      cases he
      exact ⟨rfl, h.found hb, [], CallsAt.refl _, .done _ _⟩
    · rw [if_neg hb]
      rw [bracketSmall_fl (K := K), not_le] at hb
      obtain ⟨p1, p2⟩ := rootPass_fl hu h (by rw [h.ttol]; exact hM) (by rw [h.ttol]; exact ht) hb
      have hone : ∀ s1 : State ν n q F, FPass (K := K) s s1 → ∃ t : F, CallsAt s s1 [t] ∧
          ∀ ts a b, Narrowing (4 / 5 * ♯s0.r.ttol) ♯s1.r.tlo ♯s1.r.thi ts a b →
            Narrowing (4 / 5 * ♯s0.r.ttol) ♯s.r.tlo ♯s.r.thi (♯t :: ts) a b := by
        intro s1 hp
        obtain ⟨t, v, vp, hl, hin, hcase⟩ := hp.call
        have hs := hp.shrink
        rw [h.ttol] at hs
        refine ⟨t, ⟨[.root t v vp], by simp [hl], by simp [UCall.isRoot], by simp [rootTimes], by simp [hp.nge]⟩, ?_⟩
        intro ts a b hn
        rcases hcase with ⟨e1, e2⟩ | ⟨e1, e2⟩
        · rw [e1, e2] at hn hs; exact .upper hin (by linarith) hn
        · rw [e1, e2] at hn hs; exact .lower hin (by linarith) hn
      cases hp : rootPass cfg s l with
      | panic => simp
      | stop s1 =>
        obtain ⟨f1, f2⟩ := p1 s1 hp
        obtain ⟨t, t1, t2⟩ := hone s1 f2
        refine ⟨fun s' r he => ?_, fun _ => by simp⟩
        cases he
        exact ⟨rfl, f1, [t], t1, t2 _ _ _ (.done _ _)⟩
      | more s1 l1 =>
        obtain ⟨f1, f2⟩ := p2 s1 l1 hp
        obtain ⟨t, t1, t2⟩ := hone s1 f2
        obtain ⟨i1, i2⟩ := ih f1
        refine ⟨fun s' r he => ?_, fun hf => i2 ?_⟩
        · obtain ⟨a1, a2, ts, a3, a4⟩ := i1 s' r he
          exact ⟨a1, a2, t :: ts, t1.trans a3, t2 _ _ _ a4⟩
        · have := f2.shrink
          rw [h.ttol] at this
          push_cast at hf
          linarith

/-! ## One search -/

/-- Component `i` may be reported when the root function has the values `x` before and `y` at the reported time. -/
def FReport (cfg : Cfg ν n q F) (act : Fin q → Bool) (i : Fin q) (x y : F) : Prop :=
  Changes (K := K) cfg act i x y ∨ IsZero (K := K) cfg act i x y

theorem finalIroots_fl (cfg : Cfg ν n q F) (r : RootSt q F) (i : Fin q) :
    (FReport (K := K) cfg r.gactive i (r.glo i) (r.ghi i) → finalIroots cfg r i = Scalar.signum (r.glo i)) ∧
    (¬ FReport (K := K) cfg r.gactive i (r.glo i) (r.ghi i) → finalIroots cfg r i = 0) := by
  have key : (r.gactive i && (dirOk cfg r.glo i &&
      (Scalar.eqb (Scalar.abs (r.ghi i)) 0 || Scalar.lt (r.glo i * r.ghi i) 0))) = true ↔
      FReport (K := K) cfg r.gactive i (r.glo i) (r.ghi i) := by
    unfold FReport Changes IsZero
    rw [Bool.and_eq_true, Bool.and_eq_true, Bool.or_eq_true, dirOk_fl (K := K), eqz_fl (K := K), mul_neg_fl (K := K)]
    tauto
  unfold finalIroots
  constructor
  · intro h; rw [if_pos (key.2 h)]
  · intro h; rw [if_neg (fun hx => h (key.1 hx))]

/-- What `root_find` is given. -/
structure FReady (cfg : Cfg ν n q F) (M : K) (s : State ν n q F) : Prop where
  ttol : 0 < ♯s.r.ttol
  big : 50 * (μ * M) ≤ ♯s.r.ttol
  blo : |♯s.r.tlo| ≤ M
  bhi : |♯s.r.thi| ≤ M
  hi : ∀ i, SeenAt cfg s s.r.thi i (s.r.ghi i)

theorem rootFind_fl (hu : 200 * μ ≤ 1) {cfg : Cfg ν n q F} {M : K} {s : State ν n q F} (h : FReady cfg M s) (fuel : Nat) :
    (∀ s' r, rootFind cfg fuel s = .ret s' r → ∃ st, r = .ok st ∧
      Frame s s' ∧ Quiet s s' ∧ s'.r.irfnd = s.r.irfnd ∧ s'.r.gactive = s.r.gactive ∧
      (∀ i, SeenAt cfg s' s'.r.trout i (s'.r.grout i)) ∧
      (st = .rootFound ↔ ∃ i, FReport (K := K) cfg s.r.gactive i (s.r.glo i) (s.r.ghi i)) ∧
      (st = .continue_ → s'.r.trout = s.r.thi ∧ s'.r.grout = s.r.ghi ∧ s'.r.iroots = s.r.iroots) ∧
      ∃ (ts : List F) (tl : F), CallsAt s s' ts ∧
        Narrowing (4 / 5 * ♯s.r.ttol) ♯s.r.tlo ♯s.r.thi (ts.map (StdModel.val (K := K))) ♯tl ♯s'.r.trout ∧
        (st = .rootFound → ∃ gl : Vec q F,
          (tl = s.r.tlo ∧ gl = s.r.glo ∨ ∀ i, SeenAt cfg s' tl i (gl i)) ∧
          (∀ i, FReport (K := K) cfg s.r.gactive i (gl i) (s'.r.grout i) → s'.r.iroots i = Scalar.signum (gl i)) ∧
          (∀ i, ¬ FReport (K := K) cfg s.r.gactive i (gl i) (s'.r.grout i) → s'.r.iroots i = 0) ∧
          (∃ i, FReport (K := K) cfg s.r.gactive i (gl i) (s'.r.grout i)) ∧
          (∀ i, Changes (K := K) cfg s.r.gactive i (gl i) (s'.r.grout i) → ♯(Scalar.abs (s'.r.trout - tl)) ≤ ♯s.r.ttol))) ∧
    (|♯s.r.thi - ♯s.r.tlo| < fuel * (2 / 5 * ♯s.r.ttol) → rootFind cfg fuel s ≠ .diverge) := by
  have sp := scan1_fl (K := K) cfg s.r.gactive s.r.glo s.r.ghi
  unfold rootFind
  simp only
  generalize scan1 cfg s.r.gactive s.r.glo s.r.ghi = A at sp
  have hcalls : ∀ s' : State ν n q F, s'.m.log = s.m.log → s'.r.nge = s.r.nge → CallsAt s s' [] :=
    fun s' h1 h2 => ⟨[], by simp [h1], by simp, by simp [rootTimes], by simp [h2]⟩
  by_cases hsg : A.sgnchg = true
  · have hne : ¬ (A.sgnchg = false) := by rw [hsg]; simp
    rw [if_neg hne]
    obtain ⟨hA, hx⟩ := sp.found hsg
    have hB : FBracket cfg M s s { alph := 1, side := 0, sideprev := -1, imax := A.imax } :=
      ⟨Frame.refl _, Quiet.refl _, rfl, rfl, rfl, ⟨hA, hx⟩, by rw [StdModel.val_one]; exact one_pos, h.blo, h.bhi,
        Or.inl ⟨rfl, rfl⟩, h.hi⟩
    obtain ⟨l1, l2⟩ := rootLoop_fl hu h.big h.ttol fuel hB
    constructor
    · intro s' r he
      rcases Out.bind_eq_ret he with ⟨s1, u, he1, he2⟩ | ⟨e, he1, he2⟩
      · obtain ⟨-, hF, ts, hc, hn⟩ := l1 s1 _ he1
        cases he2
        have hf : Frame s1 { s1 with r.trout := s1.r.thi, r.grout := s1.r.ghi, r.iroots := finalIroots cfg s1.r } := by
          frame_rfl
        have hfin := finalIroots_fl (K := K) cfg s1.r
        rw [hF.gactive] at hfin
        refine ⟨.rootFound, rfl, hF.frame.trans hf, hF.quiet.trans (by quiet_rfl), hF.irfnd, hF.gactive,
          fun i => (hF.hi i).mono (fun _ h => h), ⟨fun _ => ⟨_, Or.inl hx⟩, fun _ => rfl⟩, fun h => (by cases h),
          ts, s1.r.tlo, hc, hn, fun _ => ?_⟩
        refine ⟨s1.r.glo, hF.lo.imp id (fun hx i => (hx i).mono (fun _ h => h)), fun i hi => (hfin i).1 hi,
          fun i hi => (hfin i).2 hi, ?_, ?_⟩
        · have he := hF.ends
          rw [hF.gactive] at he
          rcases he with ⟨⟨i, hv⟩, -⟩ | ⟨⟨i, hv⟩, -⟩
          · exact ⟨i, Or.inr hv⟩
          · exact ⟨i, Or.inl hv⟩
        · intro i hi
          have he := hF.ends
          rw [hF.gactive] at he
          rcases he with ⟨-, hno⟩ | ⟨-, hs⟩
          · exact absurd hi (hno i)
          · rw [← hF.ttol]; exact hs
      · obtain ⟨hu, -⟩ := l1 _ _ he1
        cases hu
    · intro hf
      have := l2 hf
      intro hd
      unfold Out.bind at hd
      split at hd <;> first | exact this (by assumption) | cases hd
  · have hsg : A.sgnchg = false := by simpa using hsg
    obtain ⟨-, -, hno⟩ := sp.none hsg
    have hno : ∀ i, ¬ Changes (K := K) cfg s.r.gactive i (s.r.glo i) (s.r.ghi i) := fun i => hno i i.isLt
    rw [if_pos hsg]
    by_cases hz : A.zroot = true
    · have hz' : ¬ (A.zroot = false) := by rw [hz]; simp
      obtain ⟨i0, -, hi0⟩ := sp.zero.1 hz
      rw [if_neg hz']
      refine ⟨fun s' r he => ?_, fun _ => by simp⟩
      cases he
      have key : ∀ i, (s.r.gactive i && (Scalar.eqb (Scalar.abs (s.r.ghi i)) 0 && dirOk cfg s.r.glo i)) = true ↔
          FReport (K := K) cfg s.r.gactive i (s.r.glo i) (s.r.ghi i) := by
        intro i
        unfold FReport
        rw [Bool.and_eq_true, Bool.and_eq_true, dirOk_fl (K := K), eqz_fl (K := K)]
        constructor
        · intro hx
          exact Or.inr ⟨hx.1, hx.2.2, hx.2.1⟩
        · rintro (hx | hx)
          · exact absurd hx (hno i)
          · exact ⟨hx.1, hx.2.2, hx.2.1⟩
      refine ⟨.rootFound, rfl, by frame_rfl, by quiet_rfl, rfl, rfl, fun i => (h.hi i).mono (fun _ h => h),
        ⟨fun _ => ⟨i0, Or.inr hi0⟩, fun _ => rfl⟩, fun h => (by cases h), [], s.r.tlo, hcalls _ rfl rfl, .done _ _, fun _ => ?_⟩
      refine ⟨s.r.glo, Or.inl ⟨rfl, rfl⟩, ?_, ?_, ⟨i0, Or.inr hi0⟩, ?_⟩
      · intro i hi
        show (if _ then _ else _) = _
        rw [if_pos ((key i).2 hi)]
      · intro i hi
        show (if _ then _ else _) = _
        rw [if_neg (fun hx => hi ((key i).1 hx))]
      · intro i hi
        exact absurd hi (hno i)
    · have hz' : A.zroot = false := by simpa using hz
      rw [if_pos hz']
      refine ⟨fun s' r he => ?_, fun _ => by simp⟩
      cases he
      refine ⟨.continue_, rfl, by frame_rfl, by quiet_rfl, rfl, rfl, fun i => (h.hi i).mono (fun _ h => h),
        ⟨fun h => (by cases h), ?_⟩, fun _ => ⟨rfl, rfl, rfl⟩, [], s.r.tlo, hcalls _ rfl rfl, .done _ _, fun h => (by cases h)⟩
      rintro ⟨i, hi | hi⟩
      · exact absurd hi (hno i)
      · exact absurd (sp.zero.2 ⟨i, i.isLt, hi⟩) hz

/-- A search from the state `s` to the state `s'`. -/
structure FSearched (cfg : Cfg ν n q F) (s s' : State ν n q F) (r : RootStatus) : Prop where
  frame : Frame s s'
  quiet : Quiet s s'
  irfnd : s'.r.irfnd = s.r.irfnd
  gactive : ∀ i, s'.r.gactive i = true ↔ s.r.gactive i = true ∨ ♯(s'.r.glo i) ≠ 0
  seen : ∀ i, SeenAt cfg s' s'.r.tlo i (s'.r.glo i)
  atEnd : ∃ gend : Vec q F, (∀ i, SeenAt cfg s' (searchEnd s) i (gend i)) ∧
    (r = .rootFound ↔ ∃ i, FReport (K := K) cfg s.r.gactive i (s.r.glo i) (gend i)) ∧
    (r = .continue_ → s'.r.tlo = searchEnd s ∧ s'.r.glo = gend)
  calls : ∃ (ts : List F) (tl : F), CallsAt s s' (searchEnd s :: ts) ∧
    Narrowing (4 / 5 * ♯(rootTol s)) ♯s.r.tlo ♯(searchEnd s) (ts.map (StdModel.val (K := K))) ♯tl ♯s'.r.tlo ∧
    (r = .rootFound → ∃ gl : Vec q F,
      (tl = s.r.tlo ∧ gl = s.r.glo ∨ ∀ i, SeenAt cfg s' tl i (gl i)) ∧
      (∀ i, FReport (K := K) cfg s.r.gactive i (gl i) (s'.r.glo i) → s'.r.iroots i = Scalar.signum (gl i)) ∧
      (∀ i, ¬ FReport (K := K) cfg s.r.gactive i (gl i) (s'.r.glo i) → s'.r.iroots i = 0) ∧
      (∃ i, FReport (K := K) cfg s.r.gactive i (gl i) (s'.r.glo i)) ∧
      (∀ i, Changes (K := K) cfg s.r.gactive i (gl i) (s'.r.glo i) → ♯(Scalar.abs (s'.r.tlo - tl)) ≤ ♯(rootTol s)))

/-- The computed root tolerance. -/
theorem rootTol_fl (hu : 200 * μ ≤ 1) (s : State ν n q F) :
    98 * ♯Scalar.eps * (|♯s.e.tn| + |♯s.c.hh|) ≤ ♯(rootTol s) ∧
    ♯(rootTol s) ≤ 103 * ♯Scalar.eps * (|♯s.e.tn| + |♯s.c.hh|) := by
  have he := RootLits.eps_pos (F := F) (K := K)
  unfold rootTol
  obtain ⟨d1, h1, e1⟩ := StdModel.val_add (Scalar.abs s.e.tn) (Scalar.abs s.c.hh)
  obtain ⟨d2, h2, e2⟩ := StdModel.val_mul (Scalar.abs s.e.tn + Scalar.abs s.c.hh) Scalar.eps
  obtain ⟨d3, h3, e3⟩ := StdModel.val_mul ((Scalar.abs s.e.tn + Scalar.abs s.c.hh) * Scalar.eps) Scalar.hundred
  obtain ⟨d4, h4, e4⟩ := RootLits.hundred (F := F) (K := K)
  obtain ⟨n1, m1⟩ := near h1 hu
  obtain ⟨n2, m2⟩ := near h2 hu
  obtain ⟨n3, m3⟩ := near h3 hu
  obtain ⟨n4, m4⟩ := near h4 hu
  rw [e3, e2, e1, e4, StdModel.val_abs, StdModel.val_abs]
  obtain ⟨X, hX⟩ : ∃ X, X = ♯Scalar.eps * (|♯s.e.tn| + |♯s.c.hh|) := ⟨_, rfl⟩
  have X0 : 0 ≤ X := by rw [hX]; exact mul_nonneg he.le (add_nonneg (abs_nonneg _) (abs_nonneg _))
  have e : (|♯s.e.tn| + |♯s.c.hh|) * (1 + d1) * ♯Scalar.eps * (1 + d2) * (100 * (1 + d4)) * (1 + d3) =
      100 * X * (((1 + d1) * (1 + d2)) * ((1 + d3) * (1 + d4))) := by rw [hX]; ring
  rw [e]
  have a1 : (99 / 100 : K) ≤ (1 + d1) * (1 + d2) := by
    have := mul_le_mul n1 n2 (by norm_num) (by linarith)
    norm_num at this ⊢; linarith
  have a2 : (99 / 100 : K) ≤ (1 + d3) * (1 + d4) := by
    have := mul_le_mul n3 n4 (by norm_num) (by linarith)
    norm_num at this ⊢; linarith
  have b1 : (1 + d1) * (1 + d2) ≤ 10101 / 10000 := by
    have := mul_le_mul m1 m2 (by linarith) (by norm_num)
    norm_num at this ⊢; linarith
  have b2 : (1 + d3) * (1 + d4) ≤ 10101 / 10000 := by
    have := mul_le_mul m3 m4 (by linarith) (by norm_num)
    norm_num at this ⊢; linarith
  have a3 := mul_le_mul a1 a2 (by norm_num) (by linarith)
  have b3 := mul_le_mul b1 b2 (by linarith) (by norm_num)
  have a4 := mul_le_mul_of_nonneg_left a3 (show 0 ≤ 100 * X by linarith)
  have b4 := mul_le_mul_of_nonneg_left b3 (show 0 ≤ 100 * X by linarith)
  have e5 : 98 * ♯Scalar.eps * (|♯s.e.tn| + |♯s.c.hh|) = 98 * X := by rw [hX]; ring
  have e6 : 103 * ♯Scalar.eps * (|♯s.e.tn| + |♯s.c.hh|) = 103 * X := by rw [hX]; ring
  rw [e5, e6]
  norm_num at a4 b4
  constructor <;> linarith

/-- The state after the evaluation at the end of the searched interval. -/
def evalEndF (cfg : Cfg ν n q F) (s : State ν n q F) : State ν n q F :=
  { s with
    m.log := .root s.r.thi s.m.yy s.m.yp :: s.m.log
    r.ghi := cfg.prob.root s.r.thi s.m.yy s.m.yp s.r.ghi
    r.nge := s.r.nge + 1
    r.ttol := rootTol s }

theorem rCheck3_fl (hu : 200 * μ ≤ 1) {cfg : Cfg ν n q F} {s : State ν n q F} (hh : ♯s.c.hh ≠ 0)
    (hlo : |♯s.r.tlo| ≤ |♯s.e.tn| + |♯s.c.hh|) (hend : |♯(searchEnd s)| ≤ |♯s.e.tn| + |♯s.c.hh|) (fuel : Nat) :
    (∀ s' r, rCheck3 cfg fuel s = .ret s' r → ∃ st, r = .ok st ∧ FSearched (K := K) cfg s s' st) ∧
    (|♯(searchEnd s) - ♯s.r.tlo| < fuel * (2 / 5 * ♯(rootTol s)) → rCheck3 cfg fuel s ≠ .diverge) := by
  obtain ⟨M, hM⟩ : ∃ M, M = |♯s.e.tn| + |♯s.c.hh| := ⟨_, rfl⟩
  have hMpos : 0 < M := by
    rw [hM]; have := abs_pos.2 hh; have := abs_nonneg ♯s.e.tn; linarith
  have htol := (rootTol_fl hu s).1
  have he0 := RootLits.eps_pos (F := F) (K := K)
  have heu := RootLits.eps (F := F) (K := K)
  rw [← hM] at htol hlo hend
  have tpos : 0 < ♯(rootTol s) := lt_of_lt_of_le (mul_pos (by linarith) hMpos) htol
  have tbig : 50 * (μ * M) ≤ ♯(rootTol s) := by
    have := mul_le_mul_of_nonneg_right heu hMpos.le
    have h0 := mul_nonneg he0.le hMpos.le
    linarith
  unfold rCheck3 callRoot
  simp only
  cases hg : getSolution' ({ s with r.thi := searchEnd s } : State ν n q F) (searchEnd s) with
  | none => simp
  | some s1 =>
    simp only
    obtain ⟨hf1, yy, yp, e1⟩ := getSolution'_frame hg
    have hq1 := getSolution'_quiet hg
    have ethi : s1.r.thi = searchEnd s := by rw [e1]
    have etol : rootTol s1 = rootTol s := by rw [e1]; rfl
    have er : s1.r = { s.r with thi := searchEnd s } := by rw [e1]
    have el : s1.m.log = s.m.log := by rw [e1]
    have hf0 : Frame s s1 := Frame.trans (by frame_rfl) hf1
    have hq0 : Quiet s s1 := Quiet.trans (by quiet_rfl) hq1
    -- the state given to `root_find`
    have key : ∀ s2 : State ν n q F, s2 = evalEndF cfg s1 →
        FReady cfg M s2 ∧ Frame s s2 ∧ Quiet s s2 ∧ s2.r.irfnd = s.r.irfnd ∧ s2.r.gactive = s.r.gactive ∧
        s2.r.tlo = s.r.tlo ∧ s2.r.glo = s.r.glo ∧ s2.r.thi = searchEnd s ∧ s2.r.ttol = rootTol s ∧
        CallsAt s s2 [searchEnd s] := by
      rintro s2 rfl
      have hf2 : Frame s1 (evalEndF cfg s1) := by frame_call
      refine ⟨⟨?_, ?_, ?_, ?_, ?_⟩, hf0.trans hf2, hq0.trans (by quiet_rfl), by simp [evalEndF, er], by simp [evalEndF, er],
        by simp [evalEndF, er], by simp [evalEndF, er], ethi, etol, [.root s1.r.thi s1.m.yy s1.m.yp], by simp [evalEndF, el],
        by simp [UCall.isRoot], by simp [rootTimes, ethi], by simp [evalEndF, er]⟩
      · show 0 < ♯(rootTol s1)
        rw [etol]; exact tpos
      · show _ ≤ ♯(rootTol s1)
        rw [etol]; exact tbig
      · show |♯s1.r.tlo| ≤ M
        rw [er]; exact hlo
      · show |♯s1.r.thi| ≤ M
        rw [ethi]; exact hend
      · intro i
        exact ⟨_, _, _, List.mem_cons_self, rfl⟩
    obtain ⟨k1, k2, k3, k4, k5, k6, k7, k8, k9, k10⟩ := key _ rfl
    obtain ⟨s2, hs2⟩ : ∃ s2, s2 = evalEndF cfg s1 := ⟨_, rfl⟩
    rw [← hs2] at k1 k2 k3 k4 k5 k6 k7 k8 k9 k10
    obtain ⟨f1, f2⟩ := rootFind_fl hu k1 fuel
    constructor
    · intro s' r he
      rcases Out.bind_eq_ret he with ⟨s3, st, he1, he2⟩ | ⟨e, he1, he2⟩
      · obtain ⟨st', hst, a1, a2, a3, a4, a5, a6, a7, ts, tl, a9, a10, a8⟩ := f1 _ _ (by rw [hs2]; exact he1)
        cases hst
        rw [k5, k7] at a6
        -- the state before the final `get_solution`
        have fin : ∀ s4 : State ν n q F, s4 = ({ s3 with
              r.gactive := fun i => if !s3.r.gactive i && Scalar.neb (s3.r.grout i) 0 then true else s3.r.gactive i
              r.tlo := s3.r.trout
              r.glo := s3.r.grout } : State ν n q F) → ∀ s5 : State ν n q F, Frame s4 s5 → Quiet s4 s5 → s5.r = s4.r →
              s5.m.log = s4.m.log → FSearched (K := K) cfg s s5 st := by
          rintro s4 rfl s5 hf5 hq5 hr5 hl5
          have hf35 : Frame s3 s5 := Frame.trans (by frame_rfl) hf5
          have hq35 : Quiet s3 s5 := Quiet.trans (by quiet_rfl) hq5
          have t5 : s5.r.tlo = s3.r.trout := by rw [hr5]
          have g5 : s5.r.glo = s3.r.grout := by rw [hr5]
          have act5 : ∀ i, s5.r.gactive i = (if !s3.r.gactive i && Scalar.neb (s3.r.grout i) 0 then true else s3.r.gactive i) := by
            intro i; rw [hr5]
          have ir5 : s5.r.iroots = s3.r.iroots := by rw [hr5]
          have c5 : CallsAt s3 s5 [] :=
            ⟨[], by rw [hl5]; rfl, by simp, by simp [rootTimes], by rw [hr5]; simp⟩
          have l35 : ∀ c, c ∈ s3.m.log → c ∈ s5.m.log := fun c hc => by rw [hl5]; exact hc
          refine ⟨(k2.trans a1).trans hf35, (k3.trans a2).trans hq35, by rw [hr5]; exact a3.trans k4, ?_, ?_, ?_, ?_⟩
          · intro i
            have hz : Scalar.neb (s3.r.grout i) 0 = true ↔ ♯(s3.r.grout i) ≠ 0 := by
              unfold Scalar.neb
              rw [Bool.not_eq_true', ← Bool.not_eq_true, StdModel.eq_iff, StdModel.val_zero]
            rw [act5, g5, a4, k5, ← hz]
            by_cases hx : s.r.gactive i = true
            · simp [hx]
            · simp [hx]
          · intro i
            rw [t5, g5]; exact (a5 i).mono l35
          · refine ⟨s2.r.ghi, fun i => ?_, a6, fun hc => ?_⟩
            · rw [← k8]; exact ((k1.hi i).mono a1.log_subF).mono l35
            · obtain ⟨b1, b2, -⟩ := a7 hc
              exact ⟨by rw [t5, b1, k8], by rw [g5, b2]⟩
          · have := (k10.trans a9).trans c5
            simp only [List.append_nil, List.cons_append, List.nil_append] at this
            refine ⟨ts, tl, this, by rw [t5, ← k6, ← k8, ← k9]; exact a10, fun hst => ?_⟩
            obtain ⟨gl, p1, p3, p4, p5, p6⟩ := a8 hst
            rw [k6, k7] at p1
            rw [k5] at p3 p4 p5 p6
            rw [k9] at p6
            refine ⟨gl, p1.imp id (fun hx i => (hx i).mono l35), ?_, ?_, ?_, ?_⟩
            · rw [g5, ir5]; exact p3
            · rw [g5, ir5]; exact p4
            · rw [g5]; exact p5
            · rw [g5, t5]; exact p6
        cases st with
        | continue_ =>
          simp only [reduceCtorEq, if_false] at he2
          cases he2
          exact ⟨.continue_, rfl, fin _ rfl _ (Frame.refl _) (Quiet.refl _) rfl rfl⟩
        | rootFound =>
          simp only [if_true] at he2
          split at he2
          · cases he2
          · rename_i s5 hg5
            cases he2
            obtain ⟨hf5, yy5, yp5, e5⟩ := getSolution'_frame hg5
            have hq5 := getSolution'_quiet hg5
            exact ⟨.rootFound, rfl, fin _ rfl _ hf5 hq5 (by rw [e5]) (by rw [e5])⟩
      · obtain ⟨st', hst, -⟩ := f1 _ _ (by rw [hs2]; exact he1)
        cases hst
    · intro hf
      rw [← k6, ← k9, ← k8] at hf
      have := f2 hf
      intro hd
      unfold Out.bind at hd
      split at hd
      · simp only at hd
        split at hd
        · split at hd <;> cases hd
        · cases hd
      · cases hd
      · cases hd
      · exact this (by rw [hs2]; assumption)

end

end Verif
