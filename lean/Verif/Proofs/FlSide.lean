import Verif.Proofs.FlRoot
import Verif.Proofs.FlDirection
import Verif.Proofs.RootInv

/-!
# The root search in floating-point arithmetic, in every history

If no call asks for a time on the other side of the initial time, every search takes place between the initial time and the
internal time, so the root tolerance is large compared with the rounding errors of all the times involved.
-/

set_option autoImplicit false
set_option linter.unusedSectionVars false
set_option linter.unusedSimpArgs false
set_option linter.unusedVariables false

namespace Verif.FlControl

open Verif Relation Verif.Spec Verif.Props

universe u v w

section
variable {ν : Type w} {n q : Nat} {F : Type u} {K : Type v} [Scalar F] [Field K] [LinearOrder K] [IsStrictOrderedRing K]
  [S : Correct F K] [RootLits F K]

local prefix:max "♯" => StdModel.val (F := F) (K := K)
local notation "μ" => (StdModel.u (F := F) (K := K))

/-! ## Positions -/

omit [Scalar F] S [RootLits F K] in
theorem abs_le_side {σ x y : K} (hσ : σ = 1 ∨ σ = -1) (h1 : 0 ≤ σ * x) (h2 : 0 ≤ σ * (y - x)) : |x| ≤ |y| := by
  rcases hσ with rfl | rfl
  · rw [abs_of_nonneg (by linarith : 0 ≤ x), abs_of_nonneg (by linarith : 0 ≤ y)]; linarith
  · rw [abs_of_nonpos (by linarith : x ≤ 0), abs_of_nonpos (by linarith : y ≤ 0)]; linarith

omit [Scalar F] S [RootLits F K] in
theorem dist_le_side {σ x y z : K} (hσ : σ = 1 ∨ σ = -1) (h1 : 0 ≤ σ * x) (h2 : 0 ≤ σ * (z - x)) (h3 : 0 ≤ σ * y)
    (h4 : 0 ≤ σ * (z - y)) : |y - x| ≤ |z| := by
  rcases hσ with rfl | rfl
  · rw [abs_of_nonneg (by linarith : 0 ≤ z)]; exact abs_le.2 ⟨by linarith, by linarith⟩
  · rw [abs_of_nonpos (by linarith : z ≤ 0)]; exact abs_le.2 ⟨by linarith, by linarith⟩

omit [IsStrictOrderedRing K] in
theorem narrowing_between {tol a b a' b' : K} {ts : List K} (h : Narrowing tol a b ts a' b') :
    Between a a' b ∧ Between a b' b := by
  induction h with
  | done a b => exact ⟨by unfold Between; rcases le_total a b with h | h <;> simp [h],
      by unfold Between; rcases le_total a b with h | h <;> simp [h]⟩
  | upper h1 _ _ ih =>
    unfold Between Inside at *
    obtain ⟨i1, i2⟩ := ih
    constructor <;> (rcases h1 with ⟨x, y⟩ | ⟨x, y⟩)
    · rcases i1 with ⟨z, w⟩ | ⟨z, w⟩
      · exact Or.inl ⟨z, w.trans y.le⟩
      · exact Or.inl ⟨x.le.trans z, w.trans (x.le.trans y.le)⟩
    · rcases i1 with ⟨z, w⟩ | ⟨z, w⟩
      · exact Or.inr ⟨(x.le.trans y.le).trans z, w.trans y.le⟩
      · exact Or.inr ⟨x.le.trans z, w⟩
    · rcases i2 with ⟨z, w⟩ | ⟨z, w⟩
      · exact Or.inl ⟨z, w.trans y.le⟩
      · exact Or.inl ⟨x.le.trans z, w.trans (x.le.trans y.le)⟩
    · rcases i2 with ⟨z, w⟩ | ⟨z, w⟩
      · exact Or.inr ⟨(x.le.trans y.le).trans z, w.trans y.le⟩
      · exact Or.inr ⟨x.le.trans z, w⟩
  | lower h1 _ _ ih =>
    unfold Between Inside at *
    obtain ⟨i1, i2⟩ := ih
    constructor <;> (rcases h1 with ⟨x, y⟩ | ⟨x, y⟩)
    · rcases i1 with ⟨z, w⟩ | ⟨z, w⟩
      · exact Or.inl ⟨x.le.trans z, w⟩
      · exact Or.inl ⟨(x.le.trans y.le).trans z, w.trans y.le⟩
    · rcases i1 with ⟨z, w⟩ | ⟨z, w⟩
      · exact Or.inr ⟨x.le.trans z, w.trans (x.le.trans y.le)⟩
      · exact Or.inr ⟨z, w.trans y.le⟩
    · rcases i2 with ⟨z, w⟩ | ⟨z, w⟩
      · exact Or.inl ⟨x.le.trans z, w⟩
      · exact Or.inl ⟨(x.le.trans y.le).trans z, w.trans y.le⟩
    · rcases i2 with ⟨z, w⟩ | ⟨z, w⟩
      · exact Or.inr ⟨x.le.trans z, w.trans (x.le.trans y.le)⟩
      · exact Or.inr ⟨z, w.trans y.le⟩

omit [Scalar F] S [RootLits F K] in
theorem between_side {σ a b x z : K} (hσ : σ = 1 ∨ σ = -1) (h : Between a x b) (a1 : 0 ≤ σ * a) (a2 : 0 ≤ σ * (z - a))
    (b1 : 0 ≤ σ * b) (b2 : 0 ≤ σ * (z - b)) : 0 ≤ σ * x ∧ 0 ≤ σ * (z - x) := by
  rcases hσ with rfl | rfl <;> rcases h with ⟨h1, h2⟩ | ⟨h1, h2⟩ <;> constructor <;> linarith

/-! ## The invariant -/

/-- Every component is monitored or was seen to vanish at the start of the next search. -/
def Mon (cfg : Cfg ν n q F) (s : State ν n q F) : Prop :=
  ∀ i, s.r.gactive i = true ∨ ∃ z, ♯z = 0 ∧ SeenAt cfg s s.r.tlo i z

theorem Mon.keep {cfg : Cfg ν n q F} {s s' : State ν n q F} (h : Mon (K := K) cfg s)
    (hl : ∀ c, c ∈ s.m.log → c ∈ s'.m.log) (ha : s'.r.gactive = s.r.gactive) (ht : s'.r.tlo = s.r.tlo) :
    Mon (K := K) cfg s' := by
  intro i
  rw [ha, ht]
  refine (h i).imp id ?_
  rintro ⟨z, h1, h2⟩
  exact ⟨z, h1, h2.mono hl⟩

/-- The start of the next search, in the direction `σ`. -/
structure Side (σ : K) (cfg : Cfg ν n q F) (k : Nat) (s : State ν n q F) : Prop where
  dir : 0 < σ * ♯s.c.hh
  lo : 0 < q → 0 ≤ σ * ♯s.r.tlo
  ahead : 0 < q → 0 ≤ σ * (♯s.e.tn - ♯s.r.tlo)
  start : ∀ i, StartsWith σ cfg s s.r.tlo i (s.r.glo i)
  mon : k < s.cnt.nst → Mon (K := K) cfg s

theorem _root_.Verif.Spec.StartsWith.mono {σ : K} {cfg : Cfg ν n q F} {s s' : State ν n q F} {t x : F} {i : Fin q}
    (h : StartsWith σ cfg s t i x) (hl : ∀ c, c ∈ s.m.log → c ∈ s'.m.log) : StartsWith σ cfg s' t i x := by
  rcases h with h | ⟨⟨t', h1, h2⟩, h3⟩
  · exact Or.inl (h.mono hl)
  · refine Or.inr ⟨⟨t', h1, h2.mono hl⟩, h3.imp id ?_⟩
    rintro ⟨z, h4, h5⟩
    exact ⟨z, h4, h5.mono hl⟩

/-- The rootfinding data of `s` carry over to `s'`. -/
structure FKeep (s s' : State ν n q F) : Prop where
  log : ∀ c, c ∈ s.m.log → c ∈ s'.m.log
  tlo : s'.r.tlo = s.r.tlo
  glo : s'.r.glo = s.r.glo
  act : s'.r.gactive = s.r.gactive
  dir : ♯s.c.hh ≠ 0 → 0 < ♯s.c.hh * ♯s'.c.hh
  tn : s'.e.tn = s.e.tn
  nst : s'.cnt.nst = s.cnt.nst

theorem FKeep.of_eq {s s' : State ν n q F} (hl : s'.m.log = s.m.log) (hr : s'.r = s.r) (hc : s'.c = s.c)
    (he : s'.e.tn = s.e.tn) (hn : s'.cnt = s.cnt) : FKeep (K := K) s s' :=
  ⟨by rw [hl]; exact fun c h => h, by rw [hr], by rw [hr], by rw [hr], fun h => by rw [hc]; exact mul_self_pos.2 h, he, by rw [hn]⟩

theorem Side.ne {σ : K} {cfg : Cfg ν n q F} {k : Nat} {s : State ν n q F} (h : Side σ cfg k s) : ♯s.c.hh ≠ 0 :=
  right_ne_zero_of_mul h.dir.ne'

theorem FKeep.side {σ : K} {cfg : Cfg ν n q F} {k : Nat} {s s' : State ν n q F} (h : FKeep (K := K) s s')
    (hI : Side σ cfg k s) : Side σ cfg k s' := by
  refine ⟨pos_dir hI.dir (h.dir hI.ne), fun hq => by rw [h.tlo]; exact hI.lo hq, fun hq => by rw [h.tlo, h.tn]; exact hI.ahead hq,
    fun i => ?_, fun hk => (hI.mon (by rw [h.nst] at hk; exact hk)).keep h.log h.act h.tlo⟩
  rw [h.tlo, h.glo]
  exact (hI.start i).mono h.log

/-- The invariant between calls. -/
structure SideInv (σ : K) (cfg : Cfg ν n q F) (s : State ν n q F) : Prop where
  zero : s.cnt.nst = 0 → ♯s.r.tlo = 0
  side : 0 < s.cnt.nst → Side σ cfg 0 s

theorem FKeep.inv {σ : K} {cfg : Cfg ν n q F} {s s' : State ν n q F} (h : FKeep (K := K) s s') (hI : SideInv σ cfg s) :
    SideInv σ cfg s' :=
  ⟨by rw [h.nst, h.tlo]; exact hI.zero, by rw [h.nst]; exact fun hn => h.side (hI.side hn)⟩

theorem Side.inv {σ : K} {cfg : Cfg ν n q F} {s : State ν n q F} (h : Side σ cfg 0 s) (hz : s.cnt.nst = 0 → ♯s.r.tlo = 0) :
    SideInv σ cfg s := ⟨hz, fun _ => h⟩

/-! ## Searches -/

theorem searchEnd_side {σ : K} {cfg : Cfg ν n q F} {k : Nat} {s : State ν n q F} (hq : 0 < q) (h : Side σ cfg k s)
    (ht : s.r.taskc = .normal → 0 ≤ σ * ♯s.r.toutc) :
    0 ≤ σ * ♯(searchEnd s) ∧ 0 ≤ σ * (♯s.e.tn - ♯(searchEnd s)) := by
  have h1 := h.lo hq
  have h2 := h.ahead hq
  have htn : 0 ≤ σ * ♯s.e.tn := by
    have : σ * ♯s.e.tn = σ * ♯s.r.tlo + σ * (♯s.e.tn - ♯s.r.tlo) := by ring
    rw [this]; exact add_nonneg h1 h2
  unfold searchEnd
  split
  · exact ⟨htn, by simp⟩
  · rename_i hn
    split
    · exact ⟨htn, by simp⟩
    · rename_i hge
      refine ⟨ht hn, ?_⟩
      have hge : ¬ 0 ≤ ♯((s.r.toutc - s.e.tn) * s.c.hh) := fun hx => hge (by
        show Scalar.le 0 _ = true
        rw [StdModel.le_iff (K := K), StdModel.val_zero]; exact hx)
      obtain ⟨c, hc, -, e1⟩ := sub_sign (K := K) s.r.toutc s.e.tn
      obtain ⟨d, hd, -, -, e2⟩ := mul_sign (K := K) (s.r.toutc - s.e.tn) s.c.hh
      rw [e2, e1] at hge
      have h3 : 0 < (♯s.e.tn - ♯s.r.toutc) * ♯s.c.hh := by
        by_contra hx
        apply hge
        have : (♯s.r.toutc - ♯s.e.tn) * c * ♯s.c.hh * d = -((♯s.e.tn - ♯s.r.toutc) * ♯s.c.hh) * (c * d) := by ring
        rw [this]
        exact mul_nonneg (by linarith) (mul_pos hc hd).le
      have := dir_trans h3 (by rw [mul_comm]; exact h.dir : 0 < ♯s.c.hh * σ)
      rw [mul_comm]; exact this.le

/-- `rf` turns suffice for every search. -/
def EnoughF (F : Type u) {K : Type v} [Scalar F] [Field K] [LinearOrder K] [IsStrictOrderedRing K] [StdModel F K]
    (rf : Nat) : Prop := 1 ≤ (rf : K) * (39 * StdModel.val (F := F) (K := K) Scalar.eps)

theorem rCheck3_side (hu : 200 * μ ≤ 1) {σ : K} (hσ : σ = 1 ∨ σ = -1) {cfg : Cfg ν n q F} {k : Nat} {s : State ν n q F}
    (hq : 0 < q) (h : Side σ cfg k s) (ht : s.r.taskc = .normal → 0 ≤ σ * ♯s.r.toutc) (rf : Nat) :
    (∀ s' r, rCheck3 cfg rf s = .ret s' r → ∃ st, r = .ok st ∧ FSearched (K := K) cfg s s' st ∧ Side σ cfg 0 s') ∧
    (EnoughF F rf → rCheck3 cfg rf s ≠ .diverge) := by
  obtain ⟨e1, e2⟩ := searchEnd_side hq h ht
  have b1 := abs_le_side hσ (h.lo hq) (h.ahead hq)
  have b2 := abs_le_side hσ e1 e2
  have b3 := dist_le_side hσ (h.lo hq) (h.ahead hq) e1 e2
  have hh := abs_pos.2 h.ne
  have hM := abs_nonneg ♯s.e.tn
  have key := rCheck3_fl hu (cfg := cfg) h.ne (by linarith) (by linarith) rf
  refine ⟨fun s' r hr => ?_, fun hE => key.2 ?_⟩
  · obtain ⟨st, h1, h2⟩ := key.1 s' r hr
    refine ⟨st, h1, h2, ?_⟩
    obtain ⟨ts, tl, -, hN, -⟩ := h2.calls
    have hb := between_side hσ (narrowing_between hN).2 (h.lo hq) (h.ahead hq) e1 e2
    refine ⟨by rw [h2.frame.c]; exact h.dir, fun _ => hb.1, fun _ => by rw [h2.frame.e]; exact hb.2, fun i => Or.inl (h2.seen i),
      fun _ i => ?_⟩
    by_cases hz : ♯(s'.r.glo i) = 0
    · exact Or.inr ⟨_, hz, h2.seen i⟩
    · exact Or.inl ((h2.gactive i).2 (Or.inr hz))
  · have htol := (rootTol_fl hu s).1
    have he := RootLits.eps_pos (F := F) (K := K)
    have hrf : (0 : K) ≤ rf := Nat.cast_nonneg _
    unfold EnoughF at hE
    have h3 : (rf : K) * (2 / 5 * (98 * ♯Scalar.eps * (|♯s.e.tn| + |♯s.c.hh|))) ≤ rf * (2 / 5 * ♯(rootTol s)) :=
      mul_le_mul_of_nonneg_left (by linarith) hrf
    have h4 : (rf : K) * (2 / 5 * (98 * ♯Scalar.eps * (|♯s.e.tn| + |♯s.c.hh|))) =
        (rf * (39 * ♯Scalar.eps)) * ((|♯s.e.tn| + |♯s.c.hh|) * (196 / 195)) := by ring
    have h5 : (|♯s.e.tn| + |♯s.c.hh|) * (196 / 195) ≤ (rf * (39 * ♯Scalar.eps)) * ((|♯s.e.tn| + |♯s.c.hh|) * (196 / 195)) :=
      le_mul_of_one_le_left (by linarith) hE
    linarith

/-! ## The check right after a reported root -/

/-- A step in the direction of integration does not go back. -/
theorem add_side {σ : K} {t h : F} (hσ : 0 < σ * ♯h) : 0 ≤ σ * (♯(t + h) - ♯t) := by
  have := nonneg_dir (tnew_ge (K := K) (t := t) (h := h)) (by rw [mul_comm]; exact hσ : 0 < ♯h * σ)
  rw [mul_comm]; exact this

theorem rootTol_pos_fl (hu : 200 * μ ≤ 1) {s : State ν n q F} (h : ♯s.c.hh ≠ 0) : 0 < ♯(rootTol s) := by
  have h1 := (rootTol_fl hu s).1
  have he := RootLits.eps_pos (F := F) (K := K)
  have := abs_pos.2 h
  have := abs_nonneg ♯s.e.tn
  exact lt_of_lt_of_le (mul_pos (by linarith) (by linarith)) h1

theorem plus_side (hu : 200 * μ ≤ 1) {σ : K} {s : State ν n q F} (h : 0 < σ * ♯s.c.hh) (t : F) :
    0 ≤ σ * (♯(t + rootTol s * Scalar.signum s.c.hh) - ♯t) := by
  have h0 : ♯s.c.hh ≠ 0 := right_ne_zero_of_mul h.ne'
  have hp := rootTol_pos_fl hu h0
  apply add_side
  obtain ⟨c, hc, -, -, e⟩ := mul_sign (K := K) (rootTol s) (Scalar.signum s.c.hh)
  rw [e]
  have hs : 0 < σ * ♯(Scalar.signum s.c.hh) := by
    rcases lt_or_gt_of_ne h0 with hn | hp
    · rw [RootLits.signum_neg _ hn]
      have : σ < 0 := by
        by_contra hx
        exact absurd h (not_lt.2 (mul_nonpos_of_nonneg_of_nonpos (not_lt.1 hx) hn.le))
      linarith
    · rw [RootLits.signum_pos _ hp, mul_one]
      exact pos_of_mul_pos_left h hp.le
  have : σ * (♯(rootTol s) * ♯(Scalar.signum s.c.hh) * c) = (σ * ♯(Scalar.signum s.c.hh)) * (♯(rootTol s) * c) := by ring
  rw [this]
  exact mul_pos hs (mul_pos hp hc)

theorem r2Fold_fl (act : Fin q → Bool) (g1 iroots glo : Vec q F) :
    (∀ i, (r2Fold act g1 iroots glo).glo i = glo i ∨
      (r2Fold act g1 iroots glo).glo i = g1 i ∧ Scalar.gt (iroots i) 0 = true) ∧
    ((r2Fold act g1 iroots glo).zroot = true → ∃ i, act i = true ∧ Scalar.eqb (Scalar.abs (g1 i)) 0 = true) := by
  have := fold_rule (fun (a : R2Fold q F) i =>
    if a.done then a
    else if act i then
      if Scalar.eqb (Scalar.abs (g1 i)) 0 then
        if Scalar.gt (a.iroots i) 0 then { a with done := true }
        else { a with zroot := true, iroots := fun j => if j = i then 1 else a.iroots j }
      else if Scalar.gt (a.iroots i) 0 then { a with glo := fun j => if j = i then g1 i else a.glo j }
      else a
    else a) { done := false, zroot := false, iroots := iroots, glo := glo }
    (fun k a => (∀ i, a.glo i = glo i ∨ a.glo i = g1 i ∧ Scalar.gt (iroots i) 0 = true) ∧
      (a.zroot = true → ∃ i, act i = true ∧ Scalar.eqb (Scalar.abs (g1 i)) 0 = true) ∧
      ∀ i : Fin q, k ≤ i.val → a.iroots i = iroots i)
    ⟨fun i => Or.inl rfl, by simp, fun _ _ => rfl⟩ ?_
  · exact ⟨this.1, this.2.1⟩
  · rintro a i ⟨h1, h2, h3⟩
    have h3' : ∀ j : Fin q, i.val + 1 ≤ j.val → a.iroots j = iroots j := fun j hj => h3 j (by omega)
    split
    · exact ⟨h1, h2, h3'⟩
    · split
      · rename_i ha
        split
        · rename_i hz
          split
          · exact ⟨h1, h2, h3'⟩
          · refine ⟨h1, fun _ => ⟨i, ha, hz⟩, fun j hj => ?_⟩
            have : j ≠ i := fun hx => by rw [hx] at hj; omega
            simp only [if_neg this]
            exact h3' j hj
        · split
          · rename_i hg
            refine ⟨fun j => ?_, h2, h3'⟩
            by_cases hj : j = i
            · subst hj
              refine Or.inr ⟨by simp, ?_⟩
              rw [h3 j (le_refl _)] at hg; exact hg
            · simp only [if_neg hj]; exact h1 j
          · exact ⟨h1, h2, h3'⟩
      · exact ⟨h1, h2, h3'⟩

theorem rCheck2_side (hu : 200 * μ ≤ 1) {σ : K} {cfg : Cfg ν n q F} {k : Nat} {s s' : State ν n q F}
    {r : Except Err RootStatus} (hI : Side σ cfg k s) (h : rCheck2 cfg s = .ret s' r) :
    Side σ cfg k s' ∧ s'.r.tlo = s.r.tlo ∧
    (r = .ok .rootFound → s.r.irfnd = true ∧ ∃ i t g, 0 ≤ σ * (♯t - ♯s.r.tlo) ∧ SeenAt cfg s' t i g ∧ ♯g = 0) := by
  have hf := rCheck2_frame h
  suffices hx : (s'.r.tlo = s.r.tlo ∧ s'.r.gactive = s.r.gactive) ∧ (∀ i, StartsWith σ cfg s' s.r.tlo i (s'.r.glo i)) ∧
      (r = .ok .rootFound → s.r.irfnd = true ∧ ∃ i t g, 0 ≤ σ * (♯t - ♯s.r.tlo) ∧ SeenAt cfg s' t i g ∧ ♯g = 0) by
    obtain ⟨⟨h1, h1a⟩, h2, h3⟩ := hx
    exact ⟨⟨by rw [hf.c]; exact hI.dir, by rw [h1]; exact hI.lo, by rw [h1, hf.e]; exact hI.ahead, by rw [h1]; exact h2,
      fun hk => (hI.mon (by rw [hf.cnt] at hk; exact hk)).keep hf.log_subF h1a h1⟩, h1, h3⟩
  clear hf
  unfold rCheck2 callRoot at h
  split at h
  · cases h
    exact ⟨⟨rfl, rfl⟩, hI.start, by simp⟩
  · rename_i h0
    have h0 : s.r.irfnd = true := by simpa using h0
    cases hg : getSolution' s s.r.tlo with
    | none => rw [hg] at h; cases h
    | some s1 =>
      rw [hg] at h
      simp only at h
      obtain ⟨hf1, yy, yp, e1⟩ := getSolution'_frame hg
      have er : s1.r = s.r := by rw [e1]
      have hP := plus_side hu hI.dir s.r.tlo
      rw [er] at h
      generalize hG0 : cfg.prob.root s.r.tlo s1.m.yy s1.m.yp s.r.glo = g0 at h
      split at h
      · simp only [rootTol, hf1.e, hf1.c] at h
        have hPe : s.r.tlo + rootTol s * Scalar.signum s.c.hh =
            s.r.tlo + (Scalar.abs s.e.tn + Scalar.abs s.c.hh) * Scalar.eps * Scalar.hundred * Scalar.signum s.c.hh := rfl
        rw [hPe] at hP
        generalize s.r.tlo + (Scalar.abs s.e.tn + Scalar.abs s.c.hh) * Scalar.eps * Scalar.hundred * Scalar.signum s.c.hh = tp at h hP
        split at h
        · cases h
        · rename_i s2 hs2
          have hx : (s2.r.tlo = s.r.tlo ∧ s2.r.gactive = s.r.gactive) ∧ s2.r.glo = g0 ∧ s2.m.log = .root s.r.tlo s1.m.yy s1.m.yp :: s1.m.log ∧
              s2.r.iroots = fun i => if (s.r.gactive i && Scalar.eqb (Scalar.abs (g0 i)) 0) = true then 1 else 0 := by
            split at hs2
            · cases hs2
              exact ⟨⟨by simp only [er], by simp only [er]⟩, rfl, rfl, by simp only [er]⟩
            · obtain ⟨-, yy2, yp2, e2⟩ := getSolution'_frame hs2
              rw [e2]
              exact ⟨⟨by simp only [er], by simp only [er]⟩, rfl, rfl, by simp only [er]⟩
          obtain ⟨⟨x1, x1a⟩, x2, x3, x4⟩ := hx
          generalize hG1 : cfg.prob.root tp s2.m.yy s2.m.yp s2.r.ghi = g1 at h
          have hS := r2Fold_fl s2.r.gactive g1 s2.r.iroots s2.r.glo
          generalize r2Fold s2.r.gactive g1 s2.r.iroots s2.r.glo = a at h hS
          have hsolve : (s'.r.tlo = s2.r.tlo ∧ s'.r.gactive = s2.r.gactive) ∧ s'.r.glo = a.glo ∧ s'.m.log = .root tp s2.m.yy s2.m.yp :: s2.m.log ∧
              (r = .ok .rootFound → a.zroot = true) := by
            split at h
            · cases h; exact ⟨⟨rfl, rfl⟩, rfl, rfl, by simp⟩
            · split at h
              · rename_i hz
                cases h; exact ⟨⟨rfl, rfl⟩, rfl, rfl, fun _ => hz⟩
              · cases h; exact ⟨⟨rfl, rfl⟩, rfl, rfl, by simp⟩
          obtain ⟨⟨y1, y1a⟩, y2, y3, y4⟩ := hsolve
          have seen0 : ∀ i, SeenAt cfg s' s.r.tlo i (g0 i) := fun i =>
            ⟨_, _, _, by rw [y3, x3]; exact List.mem_cons_of_mem _ List.mem_cons_self, by rw [hG0]⟩
          have seen1 : ∀ i, SeenAt cfg s' tp i (g1 i) := fun i =>
            ⟨_, _, _, by rw [y3]; exact List.mem_cons_self, by rw [hG1]⟩
          refine ⟨⟨y1.trans x1, y1a.trans x1a⟩, fun i => ?_, fun hr => ⟨h0, ?_⟩⟩
          · rw [y2]
            rcases hS.1 i with e | ⟨e, hgt⟩
            · rw [e, x2]; exact Or.inl (seen0 i)
            · rw [e]
              refine Or.inr ⟨⟨tp, hP, seen1 i⟩, Or.inr ⟨g0 i, ?_, seen0 i⟩⟩
              rw [x4] at hgt
              simp only at hgt
              split at hgt
              · rename_i hz
                rw [Bool.and_eq_true] at hz
                exact (eqz_fl _).1 hz.2
              · have : ♯(0 : F) < ♯(0 : F) := (StdModel.lt_iff _ _).1 hgt
                exact absurd this (lt_irrefl _)
          · obtain ⟨i, -, hz⟩ := hS.2 (y4 hr)
            exact ⟨i, tp, g1 i, hP, seen1 i, (eqz_fl _).1 hz⟩
      · cases h
        refine ⟨⟨rfl, by simp only [er]⟩, fun i => Or.inl ⟨_, _, s.r.glo, List.mem_cons_self, ?_⟩, by simp⟩
        rw [hG0]

/-! ## The first call -/

theorem rCheck1_side {σ : K} {cfg : Cfg ν n q F} {s : State ν n q F} (hh : 0 < σ * ♯s.c.hh) (h0 : s.e.tn = 0)
    (hn : s.cnt.nst = 0) :
    Side σ cfg 0 (rCheck1 cfg s) := by
  have hs := rCheck1_same cfg s
  have htlo : (rCheck1 cfg s).r.tlo = s.e.tn := by
    unfold rCheck1 callRoot
    simp only
    split <;> rfl
  have hz : ♯s.e.tn = 0 := by rw [h0, StdModel.val_zero]
  refine ⟨by rw [hs.2.1]; exact hh, fun _ => by rw [htlo, hz]; simp, fun _ => by rw [hs.2.2.1, htlo]; simp, fun i => ?_,
    fun hx => absurd hx (by rw [hs.2.2.2.1, hn]; omega)⟩
  rw [htlo]
  unfold rCheck1 callRoot
  simp only
  split
  · dsimp only
    refine ite_prop (P := fun x => StartsWith σ cfg _ s.e.tn i x) ?_ ?_
    · refine Or.inr ⟨⟨s.e.tn + Scalar.max (rootTol s / Scalar.abs s.c.hh) Scalar.pt1 * s.c.hh, add_side ?_, ⟨_, _, _, ?_, rfl⟩⟩,
        Or.inl hz⟩
      · obtain ⟨c, hc, -, -, e⟩ := mul_sign (K := K) (Scalar.max (rootTol s / Scalar.abs s.c.hh) Scalar.pt1) s.c.hh
        have hp : 0 < ♯(Scalar.max (rootTol s / Scalar.abs s.c.hh) Scalar.pt1) := by
          refine lt_of_lt_of_le ?_ (RootLits.max _ _)
          obtain ⟨d, hd, e⟩ := RootLits.pt1 (F := F) (K := K)
          rw [e]
          exact mul_pos (by norm_num) (fac hd).2.2
        rw [e]
        have : ∀ m : K, σ * (m * ♯s.c.hh * c) = (σ * ♯s.c.hh) * (m * c) := fun m => by ring
        rw [this]
        exact mul_pos hh (mul_pos hp hc)
      · exact List.mem_cons_self
    · exact Or.inl ⟨_, _, _, List.mem_cons_of_mem _ List.mem_cons_self, rfl⟩
  · exact Or.inl ⟨_, _, _, List.mem_cons_self, rfl⟩

theorem firstReady_side {σ : K} {cfg : Cfg ν n q F} {s : State ν n q F} (hh : 0 < σ * ♯s.c.hh) (h0 : s.e.tn = 0)
    (hn : s.cnt.nst = 0) (ht : ♯s.r.tlo = 0) : Side σ cfg 0 (firstReady cfg s) ∧ ♯(firstReady cfg s).r.tlo = 0 := by
  by_cases hq : 0 < q
  · have h1 := rCheck1_side (cfg := cfg) (σ := σ) (s := { s with
      h0u := s.c.hh
      c.kk := 0
      c.kused := 0 }) hh h0 hn
    have e : firstReady cfg s = (fun s : State ν n q F => { s with
        h.phi := upd s.h.phi 1 (vscale s.c.hh (s.h.phi 1))
        epsNewt := cfg.epcon
        e.toldel := Scalar.pt0001 * cfg.epcon }) (rCheck1 cfg ({ s with
      h0u := s.c.hh
      c.kk := 0
      c.kused := 0 } : State ν n q F)) := by
      unfold firstReady; simp only [if_pos hq]
    have htlo : (rCheck1 cfg ({ s with
      h0u := s.c.hh
      c.kk := 0
      c.kused := 0 } : State ν n q F)).r.tlo = s.e.tn := by
      unfold rCheck1 callRoot
      simp only
      split <;> rfl
    rw [e]
    refine ⟨FKeep.side (FKeep.of_eq (s := rCheck1 cfg _) rfl rfl rfl rfl rfl) h1, ?_⟩
    show ♯(rCheck1 cfg _).r.tlo = 0
    rw [htlo, h0, StdModel.val_zero]
  · have hq : q = 0 := by omega
    subst hq
    refine ⟨⟨?_, fun h => by omega, fun h => by omega, fun i => i.elim0, fun _ i => i.elim0⟩, ?_⟩
    · unfold firstReady; simp only [lt_irrefl, if_false]; exact hh
    · unfold firstReady; simp only [lt_irrefl, if_false]; exact ht

theorem side_of_tout {σ t h : K} (hσ : σ = 1 ∨ σ = -1) (ht : 0 ≤ σ * t) (h1 : 0 < t * h) : 0 < σ * h := by
  rcases hσ with rfl | rfl
  · have : 0 < t := lt_of_le_of_ne (by linarith) (Ne.symm (left_ne_zero_of_mul h1.ne'))
    rw [one_mul]; exact pos_of_mul_pos_right h1 this.le
  · have : t < 0 := lt_of_le_of_ne (by linarith) (left_ne_zero_of_mul h1.ne')
    have : h < 0 := by
      by_contra hx
      exact absurd h1 (not_lt.2 (mul_nonpos_of_nonpos_of_nonneg this.le (not_lt.1 hx)))
    linarith

theorem firstCall_side {σ : K} (hσ : σ = 1 ∨ σ = -1) {cfg : Cfg ν n q F} (hm : 0 ≤ ♯cfg.hmaxInv) {s s' : State ν n q F}
    {tout : F} {r : Except Err Unit} (h : firstCall cfg s tout = .ret s' r) (h0 : s.e.tn = 0) (hn : s.cnt.nst = 0)
    (ht : ♯s.r.tlo = 0) (hs : 0 ≤ σ * ♯tout) : ♯s'.r.tlo = 0 ∧ (r = .ok () → Side σ cfg 0 s') := by
  have e0 : (initialSetup cfg s).r = s.r := by unfold initialSetup; split <;> rfl
  rcases firstCall_cases h with ⟨-, h1, h2⟩ | ⟨-, h1, h2⟩ | ⟨hh, -, -, -, ⟨-, h1, h2⟩ | ⟨s1, h1, h2, h3⟩⟩
  · subst h1 h2; exact ⟨by rw [e0]; exact ht, by simp⟩
  · subst h1 h2; exact ⟨by show ♯(initialSetup cfg s).r.tlo = 0; rw [e0]; exact ht, by simp⟩
  · subst h1 h2; exact ⟨by show ♯(initialSetup cfg s).r.tlo = 0; rw [e0]; exact ht, by simp⟩
  · subst h2 h3
    obtain ⟨a1, -, -⟩ := firstCall_spec (K := K) hm h
    have hf : (firstReady cfg s1).c.hh = s1.c.hh := by
      unfold firstReady
      simp only
      split
      · show (rCheck1 cfg _).c.hh = _
        rw [(rCheck1_same cfg _).2.1]
      · rfl
    have h2 := firstStop_same h1
    have e1 : s1.r = s.r := by
      rw [← e0]
      unfold firstStop at h1
      split at h1
      · split at h1
        · cases h1
        · cases h1; rw [(clampToStop_m _ _).2]
      · cases h1; rfl
    rw [hf, h0, StdModel.val_zero, sub_zero] at a1
    have := firstReady_side (cfg := cfg) (s := s1) (side_of_tout hσ hs a1)
      (by rw [h2.tn]; show (initialSetup cfg s).e.tn = 0; rw [(initialSetup_same cfg s).tn]; exact h0)
      (by rw [h2.cnt, (initialSetup_same cfg s).cnt]; exact hn) (by rw [e1]; exact ht)
    exact ⟨this.2, fun _ => this.1⟩

/-! ## Calls -/

theorem ctlInv_micros {cfg : Cfg ν n q F} (hl : NlsLegal cfg) (hm : 0 ≤ ♯cfg.hmaxInv) {s s' : State ν n q F}
    (h : CtlInv (K := K) cfg s) (hM : Micros cfg s s') : CtlInv (K := K) cfg s' := by
  induction hM with
  | refl => exact h
  | tail _ h2 ih => exact ctlInv_micro hl hm ih h2

/-- The state in which an internal step of a call starts. -/
structure StepAt (cfg : Cfg ν n q F) (p : State ν n q F) : Prop where
  ctl : CtlInv (K := K) cfg p
  ne : ♯p.c.hh ≠ 0
  max : |♯p.c.hh| * ♯cfg.hmaxInv ≤ hbound F
  within : Within (K := K) p.tstop p.e.tn p.c.hh

theorem stepAt {cfg : Cfg ν n q F} (hl : NlsLegal cfg) (hm : 0 ≤ ♯cfg.hmaxInv) {rf : Nat} {s p p1 : State ν n q F}
    {tout : F} {task : Task} {k : Nat} (hC : CtlInv (K := K) cfg s) (h : LoopAt cfg rf s tout task p k)
    (hp : preStep cfg p k = .go p1) : StepAt (K := K) cfg p1 := by
  obtain ⟨m1, m2, m3, m4, -⟩ := preStep_micro.1 p1 hp
  by_cases hn : p.cnt.nst = 0
  · have hk : k = 0 := by have := h.nst; omega
    have hs0 : s.cnt.nst = 0 := by have := h.nst; omega
    obtain ⟨s1, hf, rfl⟩ := h.first hs0 hk
    have hb := (begun_same s tout task).2.2.2
    obtain ⟨g1, g2, g3, g4, -, -⟩ := firstStep_start hm (hC.of_frame hm hb) (by rw [hb.cnt]; exact hs0) hf (m4 hn)
    exact ⟨g1, right_ne_zero_of_mul g2.ne', g3, g4⟩
  · have hn : 0 < p.cnt.nst := by omega
    obtain ⟨r1, r2⟩ := h.ready hn
    have hC1 := ctlInv_micros hl hm hC (r1.trans m1)
    have hn1 : 0 < p1.cnt.nst := by rw [m2]; exact hn
    exact ⟨hC1, hC1.ne hn1, hC1.hmax hn1, stopReady_within (m3 r2)⟩

theorem clampToStop_fkeep {cfg : Cfg ν n q F} {s : State ν n q F} {ts : F} (hC : CtlInv (K := K) cfg s) (hn : 0 < s.cnt.nst)
    (h1 : s.tstop = some ts) (h2 : nearStop s ts = false) : FKeep (K := K) s (clampToStop s ts) := by
  have hc := clamp_spec (clamp_near hC hn h1 h2)
  exact ⟨by rw [(clampToStop_m s ts).1]; exact fun c h => h, by rw [(clampToStop_m s ts).2], by rw [(clampToStop_m s ts).2],
    by rw [(clampToStop_m s ts).2],
    fun _ => by rw [mul_comm]; exact hc.dir, by rw [clampToStop_tn], by rw [(clampToStop_same s ts).cnt]⟩

theorem stopTest1_fkeep {cfg : Cfg ν n q F} {s s' : State ν n q F} {tout : F} {task : Task} {r : Except Err Status}
    (hC : CtlInv (K := K) cfg s) (hn : 0 < s.cnt.nst) (h : stopTest1 s tout task = .ret s' r) : FKeep (K := K) s s' := by
  cases stopTest1_cases h with
  | past _ _ => exact .of_eq rfl rfl rfl rfl rfl
  | same _ => exact .of_eq rfl rfl rfl rfl rfl
  | reached _ _ h5 => obtain ⟨-, yy, yp, rfl⟩ := getSolution_frame h5; exact .of_eq rfl rfl rfl rfl rfl
  | refused _ _ _ => exact .of_eq rfl rfl rfl rfl rfl
  | pending _ _ h5 => obtain ⟨-, yy, yp, rfl⟩ := getSolution'_frame h5; exact .of_eq rfl rfl rfl rfl rfl
  | stopNormal _ _ _ _ _ h5 => obtain ⟨-, yy, yp, rfl⟩ := getSolution_frame h5; exact .of_eq rfl rfl rfl rfl rfl
  | stopOne _ _ _ _ _ h5 => obtain ⟨-, yy, yp, rfl⟩ := getSolution_frame h5; exact .of_eq rfl rfl rfl rfl rfl
  | stopBad _ _ _ _ _ _ _ _ => exact .of_eq rfl rfl rfl rfl rfl
  | clamp _ _ h1 h2 _ _ => exact clampToStop_fkeep hC hn h1 h2
  | free _ _ _ _ => exact .of_eq rfl rfl rfl rfl rfl

theorem stopTest2_fkeep {cfg : Cfg ν n q F} {s s' : State ν n q F} {tout : F} {task : Task} {r : Except Err Status}
    (hC : CtlInv (K := K) cfg s) (hn : 0 < s.cnt.nst) (h : stopTest2 s tout task = .ret s' r) : FKeep (K := K) s s' := by
  cases stopTest2_cases h with
  | reached _ _ h5 => obtain ⟨-, yy, yp, rfl⟩ := getSolution'_frame h5; exact .of_eq rfl rfl rfl rfl rfl
  | stopped _ _ _ _ _ _ h5 => obtain ⟨-, yy, yp, rfl⟩ := getSolution'_frame h5; exact .of_eq rfl rfl rfl rfl rfl
  | clamp _ _ h1 h2 => exact clampToStop_fkeep hC hn h1 h2
  | free _ _ => exact .of_eq rfl rfl rfl rfl rfl
  | oneClamp _ h1 h2 =>
    have := clampToStop_fkeep hC hn h1 h2
    exact ⟨this.log, this.tlo, this.glo, this.act, this.dir, this.tn, this.nst⟩
  | oneFree _ => exact .of_eq rfl rfl rfl rfl rfl

theorem fkeep_pre {s s' : State ν n q F} (h : PreSame s s') : FKeep (K := K) s s' := .of_eq h.log h.r h.c h.tn h.cnt

theorem pre_same {cfg : Cfg ν n q F} {p p1 : State ν n q F} {k : Nat} (h : preStep cfg p k = .go p1) : PreSame p p1 := by
  have := preStep_cases cfg p k
  rw [h] at this
  cases this with
  | go _ _ hs _ _ _ _ _ _ _ _ => exact hs

theorem stepError_fkeep {cfg : Cfg ν n q F} (hl : NlsLegal cfg) (hm : 0 ≤ ♯cfg.hmaxInv) (hk : NlsKeepsLog cfg)
    {p1 p2 : State ν n q F} {e : Err} (h : StepAt (K := K) cfg p1) (hs : step cfg p1 = .ret p2 (.error e)) :
    FKeep (K := K) p1 p2 := by
  obtain ⟨h1, h2⟩ := step_log hk hs
  rcases step_ctl hl hm h.ne h.max h.within hs with ⟨he, -⟩ | ⟨e, -, hL⟩
  · cases he
  · exact ⟨h1, by rw [h2], by rw [h2], by rw [h2], fun _ => by rw [mul_comm]; exact hL.hh.dir, hL.tn, hL.cnt⟩

/-- The state in which the search after an internal step starts. -/
structure SideAt (σ : K) (cfg : Cfg ν n q F) (s : State ν n q F) (tout : F) (task : Task) (p : State ν n q F) : Prop where
  side : Side σ cfg 1 p
  ctl : CtlInv (K := K) cfg p
  nst : s.cnt.nst < p.cnt.nst
  toutc : task = .normal → p.r.toutc = tout
  taskc : p.r.taskc = task

theorem step_side {σ : K} {cfg : Cfg ν n q F} (hl : NlsLegal cfg) (hm : 0 ≤ ♯cfg.hmaxInv) (hk : NlsKeepsLog cfg) {rf : Nat}
    {s p p1 p2 : State ν n q F} {tout : F} {task : Task} {k : Nat} (hC : CtlInv (K := K) cfg s)
    (hL : LoopAt cfg rf s tout task p k) (hp : preStep cfg p k = .go p1) (hs : step cfg p1 = .ret p2 (.ok ()))
    (hI : Side σ cfg 0 p) : SideAt σ cfg s tout task p2 := by
  have hP := stepAt hl hm hC hL hp
  have hI1 := (fkeep_pre (pre_same hp)).side hI
  obtain ⟨a1, a2, a3, a4⟩ := loopAt_step hL hp hs
  obtain ⟨h1, h2⟩ := step_log hk hs
  rcases step_ctl hl hm hP.ne hP.max hP.within hs with ⟨-, hD⟩ | ⟨e, he, -⟩
  · have hC2 := ctlInv_done hm hP.ctl hP.max hP.within hD
    obtain ⟨d1, d2, -⟩ := onward_done hD
    obtain ⟨x, l, hx, hT, -, htn, hus, -, hN, -⟩ := hD.last
    have hgo : 0 ≤ σ * (♯p2.e.tn - ♯p1.e.tn) := by
      rw [htn, hT.tnew, hT.t0]
      exact add_side (pos_dir hI1.dir (by rw [mul_comm]; exact hT.hh.dir))
    refine ⟨⟨pos_dir hI1.dir d2, fun hq => by rw [h2]; exact hI1.lo hq, fun hq => ?_, fun i => ?_, fun hx => ?_⟩, hC2, by rw [a2]; omega,
      a1.toutc, a1.taskc⟩
    · rw [h2]
      have : σ * (♯p2.e.tn - ♯p1.r.tlo) = σ * (♯p2.e.tn - ♯p1.e.tn) + σ * (♯p1.e.tn - ♯p1.r.tlo) := by ring
      rw [this]
      exact add_nonneg hgo (hI1.ahead hq)
    · rw [h2]
      exact (hI1.start i).mono h1
    · exact (hI1.mon (by rw [a2] at hx; rw [(fkeep_pre (K := K) (pre_same hp)).nst]; have := hL.nst; omega)).keep h1 (by rw [h2]) (by rw [h2])
  · cases he

theorem SideAt.check {σ : K} (hu : 200 * μ ≤ 1) (hσ : σ = 1 ∨ σ = -1) {cfg : Cfg ν n q F} {s p : State ν n q F} {tout : F}
    {task : Task} (h : SideAt σ cfg s tout task p) (hq : 0 < q) (ht : 0 ≤ σ * ♯tout) (rf : Nat) :
    (∀ s' r, rCheck3 cfg rf p = .ret s' r → ∃ st, r = .ok st ∧ FSearched (K := K) cfg p s' st ∧ Side σ cfg 0 s') ∧
    (EnoughF F rf → rCheck3 cfg rf p ≠ .diverge) :=
  rCheck3_side hu hσ hq h.side (fun hn => by rw [h.toutc (h.taskc.symm.trans hn)]; exact ht) rf

theorem noRootAfter_side {σ : K} (hu : 200 * μ ≤ 1) (hσ : σ = 1 ∨ σ = -1) {cfg : Cfg ν n q F} {rf : Nat}
    {s p p1 : State ν n q F} {tout : F} {task : Task} (ht : 0 ≤ σ * ♯tout) (hP : SideAt σ cfg s tout task p)
    (h : NoRootAfter cfg rf p p1) : Side σ cfg 0 p1 := by
  rcases h with ⟨hq, rfl⟩ | ⟨hq, h⟩
  · subst hq
    exact ⟨hP.side.dir, fun h => by omega, fun h => by omega, fun i => i.elim0, fun _ i => i.elim0⟩
  · obtain ⟨st, -, -, h2⟩ := (hP.check hu hσ hq ht rf).1 _ _ h
    exact h2

theorem side_next {σ : K} (hu : 200 * μ ≤ 1) (hσ : σ = 1 ∨ σ = -1) {cfg : Cfg ν n q F} (hl : NlsLegal cfg)
    (hm : 0 ≤ ♯cfg.hmaxInv) (hk : NlsKeepsLog cfg) {rf : Nat} {s p p' : State ν n q F} {tout : F} {task : Task} {k : Nat}
    (ht : 0 ≤ σ * ♯tout) (hC : CtlInv (K := K) cfg s) (hL : LoopAt cfg rf s tout task p k) (hI : Side σ cfg 0 p)
    (hp : solvePass cfg rf p tout task k = .go p') : Side σ cfg 0 p' := by
  obtain ⟨p1, p2, p3, h1, h2, h3, h4⟩ := solvePass_ends.1 p' hp
  have a1 := step_side hl hm hk hC hL h1 h2 hI
  have b1 := noRootAfter_side hu hσ ht a1 h3
  have hf := (noRootAfter_frame h3).1
  have hn := a1.nst
  exact (stopTest2_fkeep (a1.ctl.of_frame hm hf) (by rw [hf.cnt]; omega) h4).side b1

theorem begin_fkeep (s : State ν n q F) (tout : F) (task : Task) :
    FKeep (K := K) s (perfReset (begun s tout task)) ∧ (perfReset (begun s tout task)).r.irfnd = s.r.irfnd ∧
    (task = .normal → (perfReset (begun s tout task)).r.toutc = tout) ∧ (perfReset (begun s tout task)).r.taskc = task ∧
    (perfReset (begun s tout task)).cnt = s.cnt := by
  have hi := begun_idle s tout task
  obtain ⟨e1, e2, e3, hf⟩ := begun_same s tout task
  have hr : (perfReset (begun s tout task)).r = (begun s tout task).r := rfl
  refine ⟨⟨?_, ?_, ?_, ?_, ?_, congrArg _ hi.e, congrArg _ hi.cnt⟩, ?_, ?_, ?_, hi.cnt⟩
  · show ∀ c, _ → c ∈ (begun s tout task).m.log
    exact hf.log_subF
  · rw [hr, e2]
  · rw [hr, e2]
  · rw [hr, e2]
  · intro h
    have : (perfReset (begun s tout task)).c = s.c := hi.c
    rw [this]; exact mul_self_pos.2 h
  · rw [hr, e2]
  · rw [hr]; exact e3
  · rw [hr, e2]

theorem noRootBefore_side {σ : K} (hu : 200 * μ ≤ 1) (hσ : σ = 1 ∨ σ = -1) {cfg : Cfg ν n q F} {rf : Nat}
    {s s1 : State ν n q F} {task : Task} (hI : Side σ cfg 0 s) (ht : s.r.taskc = .normal → 0 ≤ σ * ♯s.r.toutc)
    (h : NoRootBefore cfg rf s task s1) : Side σ cfg 0 s1 := by
  rcases h with ⟨-, rfl⟩ | ⟨hq, h1, -⟩ | ⟨hq, a, b, h1, -, h2, -, rfl⟩
  · exact hI
  · exact (rCheck2_side hu hI h1).1
  · have hqt := rCheck2_quiet h1
    obtain ⟨st, -, -, hb⟩ := (rCheck3_side hu hσ hq (rCheck2_side hu hI h1).1 (by rw [hqt.taskc, hqt.toutc]; exact ht) rf).1 _ _ h2
    exact FKeep.side (s := b) ⟨fun c h => h, rfl, rfl, rfl, fun h => mul_self_pos.2 h, rfl, rfl⟩ hb

theorem side_later {σ : K} (hu : 200 * μ ≤ 1) (hσ : σ = 1 ∨ σ = -1) {cfg : Cfg ν n q F} (hl : NlsLegal cfg)
    (hm : 0 ≤ ♯cfg.hmaxInv) {rf : Nat} {s s1 : State ν n q F} {tout : F} {task : Task} (ht : 0 ≤ σ * ♯tout)
    (hC : CtlInv (K := K) cfg s) (hI : SideInv σ cfg s) (h0 : 0 < s.cnt.nst)
    (h1 : laterCall cfg rf (perfReset (begun s tout task)) tout task = .go s1) : Side σ cfg 0 s1 := by
  obtain ⟨f1, -, f3, f4, f5⟩ := begin_fkeep (K := K) s tout task
  have hC1 : CtlInv (K := K) cfg (perfReset (begun s tout task)) := ctlInv_micros hl hm hC
    ((Micros.frame (begun_same s tout task).2.2.2).tail (.perf _))
  obtain ⟨s2, h3, h4⟩ := laterCall_ends.1 s1 h1
  have j1 := noRootBefore_side hu hσ (f1.side (hI.side h0)) (fun hn => by rw [f3 (f4.symm.trans hn)]; exact ht) h3
  have hf := (noRootBefore_frame h3).1
  exact (stopTest1_fkeep (hC1.of_frame hm hf) (by rw [hf.cnt, f5]; exact h0) h4).side j1

theorem side_first {σ : K} (hσ : σ = 1 ∨ σ = -1) {cfg : Cfg ν n q F} (hm : 0 ≤ ♯cfg.hmaxInv) {s s1 : State ν n q F}
    {tout : F} {task : Task} {r : Except Err Unit} (ht : 0 ≤ σ * ♯tout) (hC : CtlInv (K := K) cfg s) (hI : SideInv σ cfg s)
    (h0 : s.cnt.nst = 0) (h1 : firstCall cfg (begun s tout task) tout = .ret s1 r) :
    ♯s1.r.tlo = 0 ∧ (r = .ok () → Side σ cfg 0 (perfReset s1)) := by
  obtain ⟨f1, -⟩ := begin_fkeep (K := K) s tout task
  have hb := (begun_same s tout task).2.2.2
  have e : (begun s tout task).r.tlo = s.r.tlo := f1.tlo
  obtain ⟨g1, g2⟩ := firstCall_side hσ hm h1 (by rw [hb.e]; exact (hC.zero h0).1) (by rw [hb.cnt]; exact h0) (by rw [e]; exact hI.zero h0) ht
  exact ⟨g1, fun hr => FKeep.side (s := s1) (.of_eq rfl rfl rfl rfl rfl) (g2 hr)⟩

/-- A call of `solve` ends. -/
theorem solve_ends_side {σ : K} (hu : 200 * μ ≤ 1) (hσ : σ = 1 ∨ σ = -1) {cfg : Cfg ν n q F} (hl : NlsLegal cfg)
    (hm : 0 ≤ ♯cfg.hmaxInv) (hk : NlsKeepsLog cfg) (hx : 0 < cfg.mxstep) {rf sf : Nat} (hsf : cfg.mxstep < sf)
    {s : State ν n q F} (hs : ∀ p, step cfg p ≠ .diverge) {tout : F} {task : Task} (ht : 0 ≤ σ * ♯tout)
    (hC : CtlInv (K := K) cfg s) (hI : SideInv σ cfg s) (hE : EnoughF F rf) : solve cfg rf sf s tout task ≠ .diverge := by
  have key : ∀ p, LoopAt cfg rf s tout task p 0 → Side σ cfg 0 p → solveLoop cfg rf tout task sf p 0 ≠ .diverge :=
    fun p hL hA => solveLoop_noDiverge (fun p k => LoopAt cfg rf s tout task p k ∧ Side σ cfg 0 p)
      (fun p k p1 hI hp => hs p1)
      (fun p k hI => hI.1.limit hx)
      (fun p k p' hI hp => ⟨loopAt_next hI.1 hp, side_next hu hσ hl hm hk ht hC hI.1 hI.2 hp⟩)
      (fun p k p1 p2 hI h1 h2 hq => ((step_side hl hm hk hC hI.1 h1 h2 hI.2).check hu hσ hq ht rf).2 hE)
      sf p 0 ⟨hL, hA⟩ (by omega)
  rw [solve_eq]
  split
  · rename_i h0
    cases hf : firstCall cfg (begun s tout task) tout with
    | panic => simp [Out.bind]
    | diverge => exact absurd hf (firstCall_noDiverge _ _ _)
    | ret s1 r1 =>
      cases r1 with
      | error e => simp [Out.bind]
      | ok a => exact key _ (loopAt_first h0 hf) ((side_first hσ hm ht hC hI h0 hf).2 rfl)
  · rename_i h0
    have h0 : 0 < s.cnt.nst := by omega
    obtain ⟨f1, -, f3, f4, f5⟩ := begin_fkeep (K := K) s tout task
    cases hl' : laterCall cfg rf (perfReset (begun s tout task)) tout task with
    | panic => simp [Flow.andThen]
    | diverge =>
      refine absurd hl' (laterCall_noDiverge (fun s1 hq h2 => ?_) _ _)
      have hqt := rCheck2_quiet h2
      exact (rCheck3_side hu hσ hq (rCheck2_side hu (f1.side (hI.side h0)) h2).1
        (by rw [hqt.taskc, hqt.toutc]; exact fun hn => by rw [f3 (f4.symm.trans hn)]; exact ht) rf).2 hE
    | ret s1 r1 => simp [Flow.andThen]
    | go s1 => exact key _ (loopAt_later h0 hl') (side_later hu hσ hl hm ht hC hI h0 hl')

/-! ## Results -/

/-- What a call that returns `Root` has seen. -/
def RootSeen (σ : K) (cfg : Cfg ν n q F) (s s' : State ν n q F) : Prop :=
  (s.r.irfnd = true ∧ s'.tret = s.r.tlo ∧ ∃ i t g, 0 ≤ σ * (♯t - ♯s'.tret) ∧ SeenAt cfg s' t i g ∧ ♯g = 0) ∨
  ((∃ i, CrossesAt σ cfg s' (104 * ♯Scalar.eps * (|♯s'.e.tn| + |♯s'.c.hh|)) s'.tret i) ∧
    0 ≤ σ * ♯s'.tret ∧ 0 ≤ σ * (♯s'.e.tn - ♯s'.tret))

theorem searched_crosses {σ : K} (hu : 200 * μ ≤ 1) {cfg : Cfg ν n q F} {k : Nat} {p s1 : State ν n q F} (hI : Side σ cfg k p)
    (h : FSearched (K := K) cfg p s1 .rootFound) :
    ∃ i, CrossesAt σ cfg s1 (104 * ♯Scalar.eps * (|♯s1.e.tn| + |♯s1.c.hh|)) s1.r.tlo i := by
  obtain ⟨ts, tl, -, -, hx⟩ := h.calls
  obtain ⟨gl, h1, -, -, ⟨i, h4⟩, h5⟩ := hx rfl
  refine ⟨i, s1.r.glo i, h.seen i, ?_⟩
  rcases h4 with h4 | h4
  · refine Or.inr ⟨tl, gl i, ?_, h4.2.2, h4.2.1, ?_⟩
    · have h6 := h5 i h4
      rw [StdModel.val_abs] at h6
      obtain ⟨d, hd, e⟩ := StdModel.val_sub (K := K) s1.r.tlo tl
      rw [e, abs_mul] at h6
      have h7 := (rootTol_fl hu p).2
      rw [h.frame.e, h.frame.c]
      have hd2 := abs_le.1 hd
      have hp : 199 / 200 ≤ |1 + d| := by
        rw [abs_of_pos (fac hd).2.2]; linarith
      have h8 : |♯s1.r.tlo - ♯tl| * (199 / 200) ≤ 103 * ♯Scalar.eps * (|♯p.e.tn| + |♯p.c.hh|) :=
        ((mul_le_mul_of_nonneg_left hp (abs_nonneg _)).trans h6).trans h7
      have he := RootLits.eps_pos (F := F) (K := K)
      have h9 : 0 ≤ ♯Scalar.eps * (|♯p.e.tn| + |♯p.c.hh|) := mul_nonneg he.le (add_nonneg (abs_nonneg _) (abs_nonneg _))
      nlinarith
    · rcases h1 with ⟨rfl, rfl⟩ | h1
      · exact (hI.start i).mono h.frame.log_subF
      · exact Or.inl (h1 i)
  · exact Or.inl h4.2.2

/-- The last search of a call that took a step and returned no root. -/
def LastSearch (σ : K) (cfg : Cfg ν n q F) (s : State ν n q F) (tout : F) (task : Task) (s' : State ν n q F)
    (r : Except Err Status) : Prop :=
  ∀ st, r = .ok st → st ≠ .root → 0 < q → s.cnt.nst < s'.cnt.nst →
    ∃ p s1, SideAt σ cfg s tout task p ∧ FSearched (K := K) cfg p s1 .continue_ ∧ FKeep (K := K) s1 s'

/-- Every call of `solve` keeps the invariant; what it has seen if it returns `Root`. -/
theorem solve_side {σ : K} (hu : 200 * μ ≤ 1) (hσ : σ = 1 ∨ σ = -1) {cfg : Cfg ν n q F} (hl : NlsLegal cfg)
    (hm : 0 ≤ ♯cfg.hmaxInv) (hk : NlsKeepsLog cfg) {rf sf : Nat} {s s' : State ν n q F} {tout : F} {task : Task}
    {r : Except Err Status} (ht : 0 ≤ σ * ♯tout) (hC : CtlInv (K := K) cfg s) (hI : SideInv σ cfg s)
    (h : solve cfg rf sf s tout task = .ret s' r) :
    SideInv σ cfg s' ∧ (r = .ok .root → RootSeen σ cfg s s') ∧ LastSearch σ cfg s tout task s' r := by
  have found : ∀ (k : Nat) (p s1 : State ν n q F), 0 < q → Side σ cfg k p → FSearched (K := K) cfg p s1 .rootFound → Side σ cfg 0 s1 →
      0 < p.cnt.nst → SideInv σ cfg (State.setTret { s1 with r.irfnd := true } s1.r.tlo) ∧
        RootSeen σ cfg s (State.setTret { s1 with r.irfnd := true } s1.r.tlo) := by
    intro k p s1 hq h1 h2 h3 hn
    refine ⟨Side.inv (FKeep.side (s := s1) ⟨fun c h => h, rfl, rfl, rfl, fun h => mul_self_pos.2 h, rfl, rfl⟩ h3) (fun h0 => ?_), Or.inr ⟨?_, h3.lo hq, h3.ahead hq⟩⟩
    · have h0 : s1.cnt.nst = 0 := h0
      rw [h2.frame.cnt] at h0; omega
    · have h6 := searched_crosses hu h1 h2
      exact h6
  have key : ∀ sf p, LoopAt cfg rf s tout task p 0 ∧ Side σ cfg 0 p ∧ (p.cnt.nst = 0 → ♯p.r.tlo = 0) →
      solveLoop cfg rf tout task sf p 0 = .ret s' r → SideInv σ cfg s' ∧ (r = .ok .root → RootSeen σ cfg s s') ∧ LastSearch σ cfg s tout task s' r := fun sf p hI h => by
    refine solveLoop_rule (fun p k => LoopAt cfg rf s tout task p k ∧ Side σ cfg 0 p ∧ (p.cnt.nst = 0 → ♯p.r.tlo = 0))
      (fun s' r => SideInv σ cfg s' ∧ (r = .ok .root → RootSeen σ cfg s s') ∧ LastSearch σ cfg s tout task s' r)
      (fun p k p' hI hp => ⟨loopAt_next hI.1 hp, side_next hu hσ hl hm hk ht hC hI.1 hI.2.1 hp, fun h0 => ?_⟩)
      (fun p k s' r hI hp => ?_) sf p 0 hI s' r h
    · have := (loopAt_next hI.1 hp).nst; omega
    · obtain ⟨hL, hA, hz⟩ := hI
      have hA' := hA.inv hz
      cases solvePass_ends.2 s' r hp with
      | pre h1 =>
        have hc := preStep_cases cfg p k
        rw [h1] at hc
        cases hc with
        | limit _ _ => exact ⟨FKeep.inv (FKeep.of_eq (s := p) (s' := p.setTret p.e.tn) rfl rfl rfl rfl rfl) hA', by simp, by simp [LastSearch]⟩
        | weights _ _ _ h2 _ _ _ _ _ => exact ⟨(fkeep_pre h2).inv hA', by simp, by simp [LastSearch]⟩
        | accuracy _ _ h2 _ _ _ _ _ => exact ⟨(fkeep_pre h2).inv hA', by simp, by simp [LastSearch]⟩
      | failed p1 p2 e h1 h2 h3 =>
        have k1 := stepError_fkeep hl hm hk (stepAt hl hm hC hL h1) h2
        have k2 : FKeep (K := K) p2 s' := by
          unfold stepFailed at h3
          split at h3
          · rename_i h4
            obtain ⟨-, yy, yp, rfl⟩ := getSolution_frame h4
            cases h3; exact .of_eq rfl rfl rfl rfl rfl
          · rename_i h4
            obtain ⟨-, yy, yp, rfl⟩ := getSolution_frame h4
            cases h3; exact .of_eq rfl rfl rfl rfl rfl
          · cases h3
          · cases h3
        refine ⟨k2.inv (k1.inv ((fkeep_pre (pre_same h1)).inv hA')), ?_, ?_⟩ <;> rw [(stepFailed_frame h3).2] <;> simp [LastSearch]
      | post p1 p2 h1 h2 h3 =>
        have a1 := step_side hl hm hk hC hL h1 h2 hA
        have hn := a1.nst
        cases h3 with
        | root s1 hq h4 h5 h6 =>
          obtain ⟨st, e1, e2, e3⟩ := (a1.check hu hσ hq ht rf).1 _ _ h4
          cases e1
          subst h5 h6
          obtain ⟨c1, c2⟩ := found _ p2 s1 hq a1.side e2 e3 (by omega)
          exact ⟨c1, fun _ => c2, fun st e1 e2 => by cases e1; exact absurd rfl e2⟩
        | stop s1 h4 h5 h6 =>
          have b1 := noRootAfter_side hu hσ ht a1 h4
          have hf := (noRootAfter_frame h4).1
          have hk2 := stopTest2_fkeep (a1.ctl.of_frame hm hf) (by rw [hf.cnt]; omega) h5
          refine ⟨hk2.inv (b1.inv (fun h0 => by rw [hf.cnt] at h0; omega)), ?_, fun st _ _ hq _ => ?_⟩
          · rintro rfl
            cases stopTest2_cases h5
          · rcases h4 with ⟨hq0, -⟩ | ⟨-, h4⟩
            · omega
            · obtain ⟨st, e1, e2, e3⟩ := (a1.check hu hσ hq ht rf).1 _ _ h4
              cases e1
              exact ⟨p2, s1, a1, e2, hk2⟩
  obtain ⟨f1, f2, f3, f4, f5⟩ := begin_fkeep (K := K) s tout task
  have hC1 : CtlInv (K := K) cfg (perfReset (begun s tout task)) := ctlInv_micros hl hm hC
    ((Micros.frame (begun_same s tout task).2.2.2).tail (.perf _))
  have htask : (perfReset (begun s tout task)).r.taskc = .normal → 0 ≤ σ * ♯(perfReset (begun s tout task)).r.toutc :=
    fun hn => by rw [f3 (f4.symm.trans hn)]; exact ht
  cases solve_solveEnds h with
  | rejected e h0 h1 h2 =>
    have hc : s'.cnt.nst = 0 := by rw [firstCall_cnt h1, (begun_same s tout task).2.2.2.cnt]; exact h0
    subst h2
    exact ⟨⟨fun _ => (side_first hσ hm ht hC hI h0 h1).1, fun h => by omega⟩, by simp, by simp [LastSearch]⟩
  | first s1 h0 h1 h2 =>
    obtain ⟨g1, g2⟩ := side_first hσ hm ht hC hI h0 h1
    exact key sf _ ⟨loopAt_first h0 h1, g2 rfl, fun _ => g1⟩ h2
  | early h0 h1 =>
    have hI1 := f1.side (hI.side h0)
    have hn1 : (perfReset (begun s tout task)).cnt.nst ≠ 0 := by rw [f5]; omega
    cases laterCall_ends.2 _ _ h1 with
    | close e hq h2 h3 =>
      have hf := rCheck2_frame h2
      subst h3
      exact ⟨(rCheck2_side hu hI1 h2).1.inv (fun h => absurd h (by rw [hf.cnt]; exact hn1)), by simp, by simp [LastSearch]⟩
    | root2 s1 hq h2 h3 h4 =>
      have hf := rCheck2_frame h2
      obtain ⟨c1, c2, c3⟩ := rCheck2_side hu hI1 h2
      subst h3 h4
      refine ⟨FKeep.inv (FKeep.of_eq (s := s1) rfl rfl rfl rfl rfl) (c1.inv (fun h => absurd h (by rw [hf.cnt]; exact hn1))), fun _ => Or.inl ?_,
        fun st e1 e2 => by cases e1; exact absurd rfl e2⟩
      obtain ⟨d1, i, t, g, d2, d3, d4⟩ := c3 rfl
      refine ⟨f2.symm.trans d1, c2.trans f1.tlo, i, t, g, ?_, d3, d4⟩
      show 0 ≤ σ * (♯t - ♯s1.r.tlo)
      rw [c2]; exact d2
    | root3 s1 s2 hq h2 h3 h4 h5 h6 =>
      have hf := rCheck2_frame h2
      have hqt := rCheck2_quiet h2
      have i1 := (rCheck2_side hu hI1 h2).1
      obtain ⟨st, e1, e2, e3⟩ := (rCheck3_side hu hσ hq i1 (by rw [hqt.taskc, hqt.toutc]; exact htask) rf).1 _ _ h4
      cases e1
      subst h5
      obtain ⟨c1, c2⟩ := found _ s1 s2 hq i1 e2 e3 (by rw [hf.cnt]; omega)
      subst h6
      exact ⟨c1, fun _ => c2, fun st e1 e2 => by cases e1; exact absurd rfl e2⟩
    | pending s1 s2 hq htk h2 h3 h4 h5 h6 =>
      have hf := rCheck2_frame h2
      have hqt := rCheck2_quiet h2
      have i1 := (rCheck2_side hu hI1 h2).1
      obtain ⟨st, e1, e2, e3⟩ := (rCheck3_side hu hσ hq i1 (by rw [hqt.taskc, hqt.toutc]; exact htask) rf).1 _ _ h4
      obtain ⟨-, yy, yp, rfl⟩ := getSolution'_frame h5
      subst h6
      refine ⟨FKeep.inv (s := s2) ⟨fun c h => h, rfl, rfl, rfl, fun h => mul_self_pos.2 h, rfl, rfl⟩ (e3.inv (fun h => absurd h ?_)), by simp, fun st _ _ _ hlt => absurd hlt ?_⟩
      · rw [e2.frame.cnt, hf.cnt]; exact hn1
      · show ¬ s.cnt.nst < s2.cnt.nst
        rw [e2.frame.cnt, hf.cnt, f5]; omega
    | stop s1 h2 h3 h4 =>
      have j1 := noRootBefore_side hu hσ hI1 htask h2
      have hf := (noRootBefore_frame h2).1
      have hk2 := stopTest1_fkeep (hC1.of_frame hm hf) (by rw [hf.cnt]; omega) h3
      refine ⟨hk2.inv (j1.inv (fun h => absurd h (by rw [hf.cnt]; exact hn1))), ?_, fun st _ _ _ hlt => absurd hlt ?_⟩
      · rintro rfl
        cases stopTest1_cases h3
      · rw [hk2.nst, hf.cnt, f5]; omega
  | later s1 h0 h1 h2 =>
    refine key sf _ ⟨loopAt_later h0 h1, side_later hu hσ hl hm ht hC hI h0 h1, fun hz => ?_⟩ h2
    have := (loopAt_later h0 h1).nst; omega

theorem reachSide_reach {σ : K} {cfg : Cfg ν n q F} {s : State ν n q F} (h : ReachSide σ cfg s) : Reach cfg s := by
  induction h with
  | new nls0 yy0 yp0 ts => exact .new nls0 yy0 yp0 ts
  | call rf sf op r _ _ h2 ih => exact .call rf sf op r ih h2

theorem reachSide_inv {σ : K} (hu : 200 * μ ≤ 1) (hσ : σ = 1 ∨ σ = -1) {cfg : Cfg ν n q F} (hl : NlsLegal cfg)
    (hm : 0 ≤ ♯cfg.hmaxInv) (hk : NlsKeepsLog cfg) {s : State ν n q F} (h : ReachSide σ cfg s) : SideInv σ cfg s := by
  induction h with
  | new nls0 yy0 yp0 ts =>
    exact ⟨fun _ => StdModel.val_zero, fun h => absurd h (by show ¬ 0 < 0; omega)⟩
  | @call s0 s9 rf sf op r h1 hs h2 ih =>
    cases op with
    | solve tout tret task =>
      unfold exec at h2
      simp only at h2
      split at h2
      · rename_i h3
        cases h2
        have i1 : CtlInv (K := K) cfg { s0 with tret := tret } := (reach_ctl hl hm (reachSide_reach h1)).of_frame hm (by frame_rfl)
        have i2 : SideInv σ cfg { s0 with tret := tret } := FKeep.inv (FKeep.of_eq (s := s0) rfl rfl rfl rfl rfl) ih
        exact (solve_side hu hσ hl hm hk (hs _ _ _ rfl) i1 i2 h3).1
      · cases h2
    | getSolution t =>
      unfold exec at h2
      simp only at h2
      split at h2
      · rename_i h3
        cases h2
        obtain ⟨-, yy, yp, e⟩ := getSolution_frame h3
        exact FKeep.inv (.of_eq (by rw [e]) (by rw [e]) (by rw [e]) (by rw [e]) (by rw [e])) ih
      · cases h2
    | getDky t k =>
      unfold exec at h2
      simp only at h2
      split at h2
      · rename_i h3
        cases h2
        unfold getDky at h3
        split at h3
        · cases h3; exact ih
        · split at h3
          · cases h3; exact ih
          · split at h3
            · cases h3; exact ih
            · cases h3
      · cases h2

end

end Verif.FlControl
