import Verif.Proofs.Coef
import Verif.Proofs.Trace
import Verif.Spec.History
import Verif.Spec.LocalErr

/-! # The history of accepted points: invariant of the histories without step failure (exact arithmetic) -/

set_option autoImplicit false
set_option linter.unusedSectionVars false
set_option linter.unusedSimpArgs false
set_option linter.unusedVariables false

namespace Verif

open Polynomial Finset Verif.Spec

universe u v

section
variable {ν : Type v} {n q : Nat} {K : Type u} [Field K] [LinearOrder K] [IsStrictOrderedRing K] [ExactParams K]
  [EpsLaws K]

/-- The points `A`, as far as the first `D + 1` of them exist, are the nodes and the values there. -/
def Data (tn : K) (h : Hist n K) (A : List (K × Vec n K)) (D : Nat) : Prop :=
  ∀ m, m ≤ D → ∀ p, A[m]? = some p → p.1 = node tn h.psi m ∧ ∀ i, (interpPoly tn h m i).eval p.1 = p.2 i

theorem node_congr {tn : K} {p p' : Nat → K} {m : Nat} (h : ∀ i, i < m → p i = p' i) : node tn p m = node tn p' m := by
  cases m with
  | zero => rfl
  | succ m => simp only [node]; rw [h m (by omega)]

theorem Data.congr {tn : K} {h h' : Hist n K} {A : List (K × Vec n K)} {D D' : Nat} (hd : Data tn h A D) (hD : D' ≤ D)
    (hp : ∀ i, i < D' → h'.psi i = h.psi i) (hf : ∀ j, j ≤ D' → h'.phi j = h.phi j) : Data tn h' A D' := by
  intro m hm p hpt
  obtain ⟨h1, h2⟩ := hd m (by omega) p hpt
  refine ⟨by rw [h1]; exact (node_congr fun i hi => hp i (by omega)).symm, fun i => ?_⟩
  rw [interpPoly_congr (h' := h) (fun i hi => hp i (by omega)) (fun j hj => hf j (by omega))]
  exact h2 i

/-- The interpolating polynomial passes through the points. -/
theorem Data.through {tn : K} {h : Hist n K} {A : List (K × Vec n K)} {D k : Nat} (hd : Data tn h A D) (hk : k ≤ D) :
    Through k A (fun i => interpPoly tn h k i) := by
  refine ⟨fun i => interpPoly_natDegree _ _ _ _, fun m hm p hp i => ?_⟩
  obtain ⟨h1, h2⟩ := hd m (by omega) p hp
  rw [← h2 i, h1]
  exact interpPoly_eval_node hm i

/-- **Accepting a step.** -/
theorem Data.accept {tn hh : K} {h h' : Hist n K} {A : List (K × Vec n K)} {k : Nat} {ee y : Vec n K} {maxord : Nat}
    (hd : Data tn h A k) (hs : Starred k hh h h') (hN : ∀ i, i ≤ k → psiN hh h.psi i ≠ 0)
    (hy : ∀ i, y i = ee i + ∑ l ∈ range (k + 1), h'.phi l i) :
    Data (tn + hh) { h' with phi := updatePhi maxord k ee h'.phi } ((tn + hh, y) :: A) (min (k + 1) maxord) := by
  intro m hm p hp
  have hmk : m ≤ k + 1 := by omega
  cases m with
  | zero =>
    simp only [List.getElem?_cons_zero, Option.some.injEq] at hp
    subst hp
    refine ⟨rfl, fun i => ?_⟩
    obtain ⟨u1, -, -⟩ := updatePhi_eq maxord k ee h'.phi
    unfold interpPoly
    simp only [range_one, sum_singleton, nb_zero, mul_one, eval_C, zero_add]
    rw [u1 0 (Nat.zero_le _), hy i, range_eq_Ico]
  | succ m =>
    simp only [List.getElem?_cons_succ] at hp
    obtain ⟨h1, h2⟩ := hd m (by omega) p hp
    have hnode : node (tn + hh) h'.psi (m + 1) = node tn h.psi m := by
      rw [← node_psiN tn hh h.psi m]
      exact node_congr fun i hi => by rw [hs.psi, if_pos (by omega)]
    refine ⟨by rw [h1]; exact hnode.symm, fun i => ?_⟩
    obtain ⟨e1, e2⟩ := interpPoly_updated (tn := tn) (ee := ee) hs hN maxord i
    by_cases hk : m + 1 ≤ k
    · have e := interpPoly_eval_node (tn := tn + hh) (h := { h' with phi := updatePhi maxord k ee h'.phi }) hk i
      rw [show node (tn + hh) ({ h' with phi := updatePhi maxord k ee h'.phi } : Hist n K).psi (m + 1) = p.1 from
        hnode.trans h1.symm] at e
      rw [← e, e1, eval_add, eval_mul, h1, mb_node _ _ _ _ _ (by omega), mul_zero, add_zero, ← h2 i, h1]
      exact interpPoly_eval_node (by omega) i
    · obtain rfl : m = k := by omega
      rw [e2 (by omega), eval_add, eval_mul, h1, mb_node _ _ _ _ _ (by omega), mul_zero, add_zero, ← h2 i, h1]

/-! ## The invariant -/

/-- What is known about every recorded attempt. -/
structure AttHist (x : Att n K) : Prop where
  extra : Extrapolates x
  cj : x.cj = harmonicSum K x.kk / x.hh
  kk : 1 ≤ x.kk
  hh : x.hh ≠ 0
  tnew : x.tnew = x.t0 + x.hh
  start : ∃ y r, x.before = (x.t0, y) :: r
  enough : x.kk + 1 ≤ x.before.length ∨ (x.before.length = 1 ∧ x.kk = 1)
  apart : x.before.Pairwise fun a b => 0 < (a.1 - b.1) * x.hh
  yy : x.yy = vadd x.pred x.ee
  yp : x.yp = scaledAdd x.predp x.cj x.ee
  ck : x.ck = testFactor x

/-- Invariant of the histories without step failure. -/
structure HistInv (cfg : Cfg ν n q K) (s : State ν n q K) : Prop where
  psi : 0 < s.cnt.nst → ∀ i, i ≤ s.c.kused → 0 < s.h.psi i * s.c.hh
  psi0 : 0 < s.cnt.nst → s.h.psi 0 = s.c.hused
  kused : 0 < s.cnt.nst → 1 ≤ s.c.kused ∧ s.c.kused ≤ s.cnt.nst
  kk : 0 < s.cnt.nst → s.c.kk ≤ s.c.kused + 1 ∧ s.c.kk ≤ s.cnt.nst
  data : 0 < s.cnt.nst → Data s.e.tn s.h s.g.acc (min (s.c.kused + 1) cfg.maxord)
  equal : 0 < s.cnt.nst → ∀ i, i < s.c.ns → i ≤ s.c.kused → s.h.psi i = ((i : K) + 1) * s.c.hused
  coef : 0 < s.cnt.nst → ∀ i, i ≤ s.c.kused →
    s.h.alpha i = s.c.hused / s.h.psi i ∧ s.h.gamma i = ∑ j ∈ range i, (s.h.psi j)⁻¹ ∧
    s.h.sigma i = ∏ j ∈ range i, (((j : Nat) : K) + 1) * (s.c.hused / s.h.psi (j + 1))
  atts : ∀ x ∈ s.g.atts, AttHist x
  suffix : ∀ x ∈ s.g.atts, 2 ≤ x.before.length → x.before <:+ s.g.acc

/-- Invariant of the attempt loop of a step that starts in `s0`. -/
structure HistLoop (s0 s : State ν n q K) : Prop where
  kk1 : 1 ≤ s.c.kk
  first : s0.cnt.nst = 0 → s.c.kk = 1 ∧ s.c.kused = 0 ∧ s.c.hused = 0 ∧ s.h.psi 0 = s.c.hh
  phi : 0 < s0.cnt.nst → s.h.phi = s0.h.phi
  psi : 0 < s0.cnt.nst → ∀ i, i < s.c.kk → s.h.psi i = s0.h.psi i
  kk : 0 < s0.cnt.nst → s.c.kk ≤ s0.c.kk
  used : 0 < s0.cnt.nst → s.c.kused = s0.c.kused ∧ s.c.hused = s0.c.hused
  equal : s.c.hh = s.c.hused → s.c.kk = s.c.kused → ∀ i, i < s.c.ns → i < s.c.kk → s.h.psi i = ((i : K) + 1) * s.c.hused
  kept : s.c.hh = s.c.hused → s.c.kk = s.c.kused → s.c.kk < s.c.ns →
    s.h.psi s.c.kk = ((s.c.kk : K) + 1) * s.c.hused ∧
    ∀ i, i ≤ s.c.kk → s.h.alpha i = s.c.hused / s.h.psi i ∧ s.h.gamma i = ∑ j ∈ range i, (s.h.psi j)⁻¹ ∧
      s.h.sigma i = ∏ j ∈ range i, (((j : Nat) : K) + 1) * (s.c.hused / s.h.psi (j + 1))
  keep : 0 < s0.cnt.nst → ∃ l, s.g.atts = l ++ s0.g.atts ∧ (∀ x ∈ l, x.out ≠ .accepted) ∧
    ((∀ x ∈ l, s0.c.kused ≤ x.kk) → ∀ i, i < s0.c.kused → s.h.psi i = s0.h.psi i)
  atts : ∀ x ∈ s.g.atts, AttHist x
  suffix : ∀ x ∈ s.g.atts, 2 ≤ x.before.length → x.before <:+ s.g.acc
  nz : 0 < s0.cnt.nst → ∀ i, i ≤ s0.c.kused → 0 < s.h.psi i * s0.c.hh

theorem psiN_equal {hh : K} {psi : Nat → K} {k : Nat} (h : ∀ i, i < k → psi i = ((i : K) + 1) * hh) (i : Nat) (hi : i ≤ k) :
    psiN hh psi i = ((i : K) + 1) * hh := by
  cases i with
  | zero => simp [psiN]
  | succ i => simp only [psiN]; rw [h i hi]; push_cast; ring

theorem HistLoop.ready {s0 s : State ν n q K} (h : HistLoop s0 s) : CoefReady s := by
  have hns := nextNs_le s.c
  by_cases he : s.c.hh = s.c.hused ∧ s.c.kk = s.c.kused
  · rw [if_pos he] at hns
    have heq := h.equal he.1 he.2
    refine ⟨fun i h1 h2 => ?_, fun hk => ?_⟩
    · rw [heq i (by omega) h2, he.1, psiN_equal (k := i) (fun j hj => heq j (by omega) (by omega)) i (le_refl _)]
    · obtain ⟨k1, k2⟩ := h.kept he.1 he.2 (by omega)
      have hall : ∀ i, i ≤ s.c.kk → s.h.psi i = ((i : K) + 1) * s.c.hused := by
        intro i hi
        by_cases hik : i = s.c.kk
        · subst hik; exact k1
        · exact heq i (by omega) (by omega)
      have hN : ∀ i, i ≤ s.c.kk → psiN s.c.hh s.h.psi i = s.h.psi i := by
        intro i hi
        rw [hall i hi, he.1, psiN_equal (k := i) (fun j hj => hall j (by omega)) i (le_refl _)]
      refine ⟨fun i hi => (hN i hi).symm, fun i hi => ?_, fun i hi => ?_, fun i hi => ?_⟩
      · rw [hN i hi, he.1]; exact (k2 i hi).1
      · rw [(k2 i hi).2.1]
        refine sum_congr rfl fun j hj => ?_
        rw [mem_range] at hj
        rw [hN j (by omega)]
      · rw [(k2 i hi).2.2]
        refine prod_congr rfl fun j hj => ?_
        rw [mem_range] at hj
        rw [hN (j + 1) (by omega), he.1]
  · rw [if_neg he] at hns
    exact ⟨fun i h1 h2 => by omega, fun hk => by omega⟩

/-- Signs of the `psi` used by an attempt. -/
theorem HistLoop.pos {cfg : Cfg ν n q K} {s0 s : State ν n q K} (hI : HistInv cfg s0) (hC : CtlLoop s0 s) (h : HistLoop s0 s)
    (h0 : s0.c.hh ≠ 0) : s.c.hh ≠ 0 ∧ (∀ i, i < s.c.kk → 0 < s.h.psi i * s.c.hh) ∧
      (∀ i, i ≤ s.c.kk → 0 < psiN s.c.hh s.h.psi i * s.c.hh) := by
  obtain ⟨c, hc1, hc2, hc3⟩ := hC.hh
  have hne : s.c.hh ≠ 0 := by rw [hc3]; exact mul_ne_zero hc1.ne' h0
  have hsq : 0 < s.c.hh * s.c.hh := mul_self_pos.2 hne
  have h1 : ∀ i, i < s.c.kk → 0 < s.h.psi i * s.c.hh := by
    intro i hi
    by_cases hz : s0.cnt.nst = 0
    · obtain ⟨f1, -, -, f4⟩ := h.first hz
      obtain rfl : i = 0 := by omega
      rw [f4]; exact hsq
    · have hp : 0 < s0.cnt.nst := by omega
      rw [h.psi hp i hi, hc3]
      have hk := h.kk hp
      have := hI.psi hp i (by have := (hI.kk hp).1; omega)
      have e : s0.h.psi i * (c * s0.c.hh) = c * (s0.h.psi i * s0.c.hh) := by ring
      rw [e]; exact mul_pos hc1 this
  refine ⟨hne, h1, fun i hi => ?_⟩
  cases i with
  | zero => exact hsq
  | succ i => simp only [psiN]; rw [add_mul]; exact add_pos (h1 i hi) hsq

theorem HistLoop.data {cfg : Cfg ν n q K} {s0 s : State ν n q K} (hI : HistInv cfg s0)
    (hm : 0 < s0.cnt.nst → s0.c.kk ≤ cfg.maxord) (hC : CtlLoop s0 s) (h : HistLoop s0 s) :
    Data s.e.tn s.h (if s.cnt.nst = 0 then [(s0.e.tn, (coefHist s).phi 0)] else s.g.acc) s.c.kk ∨ s0.cnt.nst = 0 := by
  by_cases hz : s0.cnt.nst = 0
  · exact Or.inr hz
  · left
    have hp : 0 < s0.cnt.nst := by omega
    rw [if_neg (by rw [hC.cnt]; exact hz), hC.acc, hC.tn]
    have h1 := h.kk hp
    have h2 := (hI.kk hp).1
    have h3 := hm hp
    refine (hI.data hp).congr (by omega) (fun i hi => h.psi hp i hi) (fun j hj => by rw [h.phi hp])

theorem HistLoop.before {cfg : Cfg ν n q K} {s0 s : State ν n q K} (hI : HistInv cfg s0)
    (hm : 0 < s0.cnt.nst → s0.c.kk ≤ cfg.maxord) (hC : CtlLoop s0 s) (h : HistLoop s0 s)
    (hs : Starred s.c.kk s.c.hh s.h (coefHist s)) :
    Data s.e.tn s.h (if s.cnt.nst = 0 then [(s0.e.tn, (coefHist s).phi 0)] else s.g.acc) s.c.kk := by
  rcases h.data hI hm hC with hd | hz
  · exact hd
  · intro m hm p hp
    rw [if_pos (by rw [hC.cnt]; exact hz)] at hp
    cases m with
    | zero =>
      simp only [List.getElem?_cons_zero, Option.some.injEq] at hp
      subst hp
      refine ⟨hC.tn.symm, fun i => ?_⟩
      unfold interpPoly
      simp only [range_one, sum_singleton, nb_zero, mul_one, eval_C, zero_add]
      rw [hs.phi, if_pos (Nat.zero_le _)]
      simp [betaP, vscale]
    | succ m => simp at hp

theorem point_getD (x : Att n K) (m : Nat) (hm : m < x.before.length) : point x m = x.before[m] := by
  unfold point
  rw [List.getD_eq_getElem?_getD, List.getElem?_eq_getElem hm]; rfl

theorem attRec_time {cfg : Cfg ν n q K} {s0 s : State ν n q K} (hI : HistInv cfg s0)
    (hC : CtlLoop s0 s) (h : HistLoop s0 s)
    {D : Nat} {ee : Vec n K} {out : AttOut} (hd : Data s.e.tn s.h (attRec s s0.e.tn ee out).before D)
    (hlen : D + 1 ≤ (attRec s s0.e.tn ee out).before.length ∨ (s0.cnt.nst = 0 ∧ D = 1)) (m : Nat) (hm : m ≤ D) :
    (point (attRec s s0.e.tn ee out) m).1 = node s.e.tn s.h.psi m := by
  by_cases hl : m < (attRec s s0.e.tn ee out).before.length
  · rw [point_getD _ m hl]
    exact (hd m hm _ (List.getElem?_eq_getElem hl)).1
  · rcases hlen with hlen | ⟨hz, hD⟩
    · omega
    · have hm1 : m = 1 := by
        have e : (attRec s s0.e.tn ee out).before = [(s0.e.tn, (coefHist s).phi 0)] := by
          show (if s.cnt.nst = 0 then _ else _) = _
          rw [if_pos (by rw [hC.cnt]; exact hz)]
        rw [e] at hl
        simp only [List.length_cons, List.length_nil] at hl
        omega
      subst hm1
      unfold point
      rw [List.getD_eq_getElem?_getD, List.getElem?_eq_none (by omega)]
      show s0.e.tn - ((1 : Nat) : K) * s.c.hh = s.e.tn - s.h.psi 0
      rw [(h.first hz).2.2.2, hC.tn]; simp

/-- An attempt that is going to be made. -/
theorem HistLoop.attempt {cfg : Cfg ν n q K} {s0 s : State ν n q K} (hCtl : CtlInv cfg s0) (hI : HistInv cfg s0)
    (hm : 0 < s0.cnt.nst → s0.c.kk ≤ cfg.maxord) (hw : Within s0.tstop s0.e.tn s0.c.hh)
    (hC : CtlLoop s0 s) (h : HistLoop s0 s) (h0 : s0.c.hh ≠ 0) (ee : Vec n K) (out : AttOut) :
    AttHist (attRec s s0.e.tn ee out) := by
  obtain ⟨hne, hp, hN⟩ := h.pos hI hC h0
  have hs := coefHist_starred hne h.ready (fun i hi => left_ne_zero_of_mul (hp i hi).ne')
  have hd := h.before hI hm hC hs
  have hnt : newTime s = s.e.tn + s.c.hh := newTime_within (hC.within hw)
  obtain ⟨c, hc1, hc2, hc3⟩ := hC.hh
  refine ⟨⟨fun i => interpPoly s.e.tn s.h s.c.kk i, hd.through (le_refl _), fun i => ?_⟩, leadCoef_eq s, h.kk1, hne, ?_, ?_, ?_,
    ?_, rfl, rfl, ?_⟩
  · show predY s i = Polynomial.eval (newTime s) _ ∧ predYp s i = Polynomial.eval (newTime s) _
    rw [hnt]
    exact ⟨predY_eq hs i, predYp_eq hs (fun i hi => left_ne_zero_of_mul (hN i (by omega)).ne') i⟩
  · show newTime s = s0.e.tn + s.c.hh
    rw [hnt, hC.tn]
  · show ∃ y r, (if s.cnt.nst = 0 then _ else _) = (s0.e.tn, y) :: r
    by_cases hz : s.cnt.nst = 0
    · rw [if_pos hz]; exact ⟨_, _, rfl⟩
    · rw [if_neg hz, hC.acc]
      obtain ⟨y, r, hy⟩ := hCtl.last (by have := hC.cnt; omega)
      exact ⟨y, r, hy⟩
  · show s.c.kk + 1 ≤ (if s.cnt.nst = 0 then _ else _ : List (K × Vec n K)).length ∨ _
    by_cases hz : s.cnt.nst = 0
    · right
      rw [hC.cnt] at hz
      refine ⟨?_, (h.first hz).1⟩
      show (if s.cnt.nst = 0 then _ else _ : List (K × Vec n K)).length = 1
      rw [if_pos (by rw [hC.cnt]; exact hz)]; rfl
    · left
      have hp0 : 0 < s0.cnt.nst := by have := hC.cnt; omega
      rw [if_neg hz, hC.acc, hCtl.len hp0]
      have := h.kk hp0
      have := (hI.kk hp0).2
      omega
  · show (if s.cnt.nst = 0 then _ else _ : List (K × Vec n K)).Pairwise fun a b => 0 < (a.1 - b.1) * s.c.hh
    by_cases hz : s.cnt.nst = 0
    · rw [if_pos hz]; simp
    · rw [if_neg hz, hC.acc]
      refine hCtl.chain.imp fun {a b} hab => ?_
      rw [hc3]
      have e : (a.1 - b.1) * (c * s0.c.hh) = c * ((a.1 - b.1) * s0.c.hh) := by ring
      rw [e]; exact mul_pos hc1 hab
  · have hlen : s.c.kk + 1 ≤ (attRec s s0.e.tn ee out).before.length ∨ (s0.cnt.nst = 0 ∧ s.c.kk = 1) := by
      show s.c.kk + 1 ≤ (if s.cnt.nst = 0 then _ else _ : List (K × Vec n K)).length ∨ _
      by_cases hz : s0.cnt.nst = 0
      · exact Or.inr ⟨hz, (h.first hz).1⟩
      · left
        rw [if_neg (by rw [hC.cnt]; exact hz), hC.acc, hCtl.len (by omega)]
        have := h.kk (by omega)
        have := (hI.kk (by omega)).2
        omega
    have ht := attRec_time (ee := ee) (out := out) hI hC h hd hlen
    have hr : ∀ m, m ≤ s.c.kk → stepRatio (attRec s s0.e.tn ee out) m = (coefHist s).alpha m := by
      intro m hm'
      rw [hs.alpha m hm', ← psiN_eq s.e.tn]
      show s.c.hh / (newTime s - _) = _
      rw [ht m hm', hnt]
    show errCoef s = max |stepRatio _ s.c.kk + ∑ m ∈ range s.c.kk, stepRatio _ m - ∑ m ∈ range s.c.kk, ((m : K) + 1)⁻¹|
      (stepRatio _ s.c.kk)
    rw [hr _ (le_refl _), sum_congr rfl fun m hm' => hr m (by rw [mem_range] at hm'; omega)]
    unfold errCoef
    have ea : (coefHist s).alpha = (coefRaw s).alpha := rfl
    rw [alphaSums_eq, ea]
    simp only [ex_max, ex_abs]
    congr 2
    unfold harmonicSum
    ring

theorem histLoop_init {cfg : Cfg ν n q K} {s : State ν n q K} (hI : HistInv cfg s) (hO : OrdInv cfg s) :
    HistLoop s (firstStepInit s) := by
  have hi := firstStepInit_cnt s
  by_cases hz : s.cnt.nst = 0
  · have e : firstStepInit s = { s with c.kk := 1, c.kused := 0, c.hused := 0, h.psi := upd s.h.psi 0 s.c.hh, e.cj := Scalar.recip s.c.hh
                                        c.phase := 0, c.ns := 0 } := by
      unfold firstStepInit; rw [if_pos hz]
    rw [e]
    have hps : upd s.h.psi 0 s.c.hh 0 = s.c.hh := upd_same _ _ _
    have h10 : (1 : Nat) = 0 → False := by omega
    exact ⟨le_refl _, fun _ => ⟨rfl, rfl, rfl, hps⟩, (fun h => by omega), (fun h => by omega), (fun h => by omega),
      (fun h => by omega), (fun _ h => (h10 h).elim), (fun _ h => (h10 h).elim), (fun h => by omega), hI.atts, hI.suffix, (fun h => by omega)⟩
  · have e : firstStepInit s = s := by unfold firstStepInit; rw [if_neg hz]
    have hp : 0 < s.cnt.nst := by omega
    rw [e]
    refine ⟨(hO.kk hp).1, fun h => by omega, fun _ => rfl, fun _ _ _ => rfl, fun _ => le_refl _, fun _ => ⟨rfl, rfl⟩,
      fun h1 h2 i h3 h4 => hI.equal hp i h3 (by omega), fun h1 h2 h3 => ⟨?_, fun i hi => ?_⟩,
      fun _ => ⟨[], rfl, (fun x hx => by cases hx), fun _ _ _ => rfl⟩, hI.atts, hI.suffix, fun _ => hI.psi hp⟩
    · rw [h2] at h3 ⊢
      exact hI.equal hp _ h3 (le_refl _)
    · exact hI.coef hp i (by omega)

theorem attRec_suffix {s : State ν n q K} {t0 : K} {ee : Vec n K} {out : AttOut}
    (h : 2 ≤ (attRec s t0 ee out).before.length) : (attRec s t0 ee out).before <:+ s.g.acc := by
  have e : (attRec s t0 ee out).before = if s.cnt.nst = 0 then [(t0, (coefHist s).phi 0)] else s.g.acc := rfl
  rw [e] at h ⊢
  by_cases hz : s.cnt.nst = 0
  · rw [if_pos hz] at h; simp at h
  · rw [if_neg hz]

/-- A failed attempt. -/
theorem hist_handled {cfg : Cfg ν n q K} {s0 s s5 s6 : State ν n q K} {err : Err} {a b : K} {f f' : Fails}
    {r : Except Err Unit} (hCtl : CtlInv cfg s0) (hI : HistInv cfg s0)
    (hm : 0 < s0.cnt.nst → s0.c.kk ≤ cfg.maxord) (hw : Within s0.tstop s0.e.tn s0.c.hh) (h0 : s0.c.hh ≠ 0)
    (hC : CtlLoop s0 s) (h : HistLoop s0 s)
    (hR : Restored cfg s0.e.tn s s5 err) (hH : Handled cfg s5 a b f err s6 f' r) :
    (r = .ok () → HistLoop s0 (if s6.cnt.nst = 0 then reset s6 else s6)) ∧
    (∀ x ∈ s6.g.atts, AttHist x) ∧ (∀ x ∈ s6.g.atts, 2 ≤ x.before.length → x.before <:+ s6.g.acc) ∧
    (0 < s0.cnt.nst → (∀ i, i ≤ s0.c.kused → 0 < s6.h.psi i * s0.c.hh) ∧ s6.h.phi = s0.h.phi ∧ s6.c.kused = s0.c.kused ∧ s6.c.hused = s0.c.hused ∧
      ∃ l, s6.g.atts = l ++ s0.g.atts ∧ (∀ x ∈ l, x.out ≠ .accepted) ∧
        ((∀ x ∈ l, s0.c.kused ≤ x.kk) → ∀ i, i < s0.c.kused → s6.h.psi i = s0.h.psi i)) := by
  obtain ⟨c1, c2, c3, c4, c5, c6, c7, c8, -, -, -, -, -⟩ := handled_ctl hH
  obtain ⟨ee, hg⟩ := hR.ghost
  obtain ⟨d, hd1, hd2, hd3, hd4⟩ := handled_hh hR.legal hH
  obtain ⟨hne, hp, hN⟩ := h.pos hI hC h0
  obtain ⟨s3, g1, g2, g3, g4, g5⟩ := hR.h
  obtain ⟨r1, r2, r3, r4⟩ := restored_hist (t0 := s0.e.tn) hne h.ready (fun i hi => left_ne_zero_of_mul (hp i hi).ne')
    (fun i hi => left_ne_zero_of_mul (hN i (by omega)).ne') g1 g2 g3 g4
  rw [← g5, ← c6] at r1 r2 r3 r4
  have h5 : s5.c.hh = s.c.hh := by rw [hR.c]
  have h5k : s5.c.kk = s.c.kk := by rw [hR.c]
  have hk6 : s6.c.kk ≤ s.c.kk ∧ 1 ≤ s6.c.kk := by
    have := h.kk1
    rcases c1 with c1 | ⟨c1 | c1, c1', -⟩
    · omega
    · rcases hR.knew c1' with h | ⟨h, h'⟩ <;> omega
    · omega
  have hat : s6.g.atts = attRec s s0.e.tn ee (if err = .ida .testFail then .testFail else .nlsFail err) :: s.g.atts := by
    rw [c8, hg]
  have hA : ∀ x ∈ s6.g.atts, AttHist x := by
    rw [hat]
    intro x hx
    rcases List.mem_cons.1 hx with rfl | hx
    · exact h.attempt hCtl hI hm hw hC h0 _ _
    · exact h.atts x hx
  have hS : ∀ x ∈ s6.g.atts, 2 ≤ x.before.length → x.before <:+ s6.g.acc := by
    rw [hat, show s6.g.acc = s.g.acc by rw [c8, hg]]
    intro x hx h2
    rcases List.mem_cons.1 hx with rfl | hx
    · exact attRec_suffix h2
    · exact h.suffix x hx h2
  have hkeep : 0 < s0.cnt.nst → ∃ l, s6.g.atts = l ++ s0.g.atts ∧ (∀ x ∈ l, x.out ≠ .accepted) ∧
        ((∀ x ∈ l, s0.c.kused ≤ x.kk) → ∀ i, i < s0.c.kused → s6.h.psi i = s0.h.psi i) := by
    intro hpos
    obtain ⟨l, hl1, hl3, hl2⟩ := h.keep hpos
    refine ⟨_ :: l, by rw [hat, hl1]; rfl, fun x hx => ?_, fun hall i hi => ?_⟩
    · rcases List.mem_cons.1 hx with rfl | hx
      · show (if err = .ida .testFail then AttOut.testFail else .nlsFail err) ≠ .accepted
        split <;> simp
      · exact hl3 x hx
    have hxk : s0.c.kused ≤ s.c.kk := hall _ (List.mem_cons_self ..)
    rw [r2 i (by omega)]
    exact hl2 (fun x hx => hall x (List.mem_cons_of_mem _ hx)) i hi
  have hnz : 0 < s0.cnt.nst → ∀ i, i ≤ s0.c.kused → 0 < s6.h.psi i * s0.c.hh := by
    intro hpos i hi
    rcases Nat.lt_trichotomy i s.c.kk with hlt | rfl | hlt
    · rw [r2 i hlt]; exact h.nz hpos i hi
    · rw [r4]
      obtain ⟨c, hc1, hc2, hc3⟩ := hC.hh
      have h7 := hN s.c.kk (le_refl _)
      have e : psiN s.c.hh s.h.psi s.c.kk * s.c.hh = c * (psiN s.c.hh s.h.psi s.c.kk * s0.c.hh) := by
        generalize psiN s.c.hh s.h.psi s.c.kk = z
        rw [hc3]; ring
      rw [e] at h7
      exact (mul_pos_iff_of_pos_left hc1).1 h7
    · rw [r3 i hlt]; exact h.nz hpos i hi
  have hns : s6.c.ns = nextNs s.c := by rw [c5, hR.c]
  have hus : s6.c.hused = s.c.hused := by rw [c4, hR.c]
  have huk : s6.c.kused = s.c.kused := by rw [c2, hR.c]
  refine ⟨fun hr => ?_, hA, hS, fun hpos => ⟨hnz hpos, by rw [r1]; exact h.phi hpos, by rw [huk]; exact (h.used hpos).1,
    by rw [hus]; exact (h.used hpos).2, hkeep hpos⟩⟩
  have hn6 : s6.cnt.nst = s0.cnt.nst := by rw [c3, hR.cnt, hC.cnt]
  -- the counter is at most one if size and order are again those last used
  have hns1 : s6.c.hh = s6.c.hused → s6.c.ns ≤ 1 := by
    intro hh
    rw [hns]
    have hle := nextNs_le s.c
    by_cases he : s.c.hh = s.c.hused ∧ s.c.kk = s.c.kused
    · exfalso
      have h6 : s6.c.hh = d * s.c.hh := by rw [hd3, h5]
      rw [hh, hus, ← he.1] at h6
      have h7 : (1 - d) * s.c.hh = 0 := by linear_combination h6
      rcases mul_eq_zero.1 h7 with h8 | h8
      · have := hd4 hr
        have h9 : d = 1 := by linear_combination -h8
        rw [h9] at this; norm_num at this
      · exact hne h8
    · rw [if_neg he] at hle; exact hle
  obtain ⟨e1, e2, e3, e4, -⟩ := ite_reset_ctl s6 (s6.cnt.nst = 0)
  by_cases hz : s0.cnt.nst = 0
  · obtain ⟨f1, f2, f3, f4⟩ := h.first hz
    have hpsi : (if s6.cnt.nst = 0 then reset s6 else s6).h.psi 0 = s6.c.hh := by
      rw [if_pos (by rw [hn6]; exact hz)]; simp [reset, upd_same]
    refine ⟨by rw [e1]; exact hk6.2, fun _ => ⟨by rw [e1]; omega, by rw [e1, huk]; exact f2, by rw [e1, hus]; exact f3,
      by rw [e1]; exact hpsi⟩, fun h => by omega, fun h => by omega, fun h => by omega, fun h => by omega, ?_, ?_,
      fun h => by omega, by rw [e4]; exact hA, by rw [e4]; exact hS, fun h => by omega⟩
    · intro _ hkk
      rw [e1, huk, f2] at hkk
      exact absurd hkk (by omega)
    · intro _ hkk
      rw [e1, huk, f2] at hkk
      exact absurd hkk (by omega)
  · have hpos : 0 < s0.cnt.nst := by omega
    have eh : (if s6.cnt.nst = 0 then reset s6 else s6) = s6 := by rw [if_neg (by rw [hn6]; exact hz)]
    rw [eh]
    have hpsi : ∀ i, i < s6.c.kk → s6.h.psi i = s0.h.psi i := fun i hi => by
      rw [r2 i (by omega)]; exact h.psi hpos i (by omega)
    refine ⟨hk6.2, fun h => by omega, fun _ => by rw [r1]; exact h.phi hpos, fun _ => hpsi,
      fun _ => by have := h.kk hpos; omega, fun _ => ⟨by rw [huk]; exact (h.used hpos).1, by rw [hus]; exact (h.used hpos).2⟩,
      fun hh _ i h1 h2 => ?_, fun hh _ h1 => ?_, hkeep, hA, hS, hnz⟩
    · have := hns1 hh
      obtain rfl : i = 0 := by omega
      rw [hpsi 0 h2, hus, (h.used hpos).2, hI.psi0 hpos]; simp
    · have := hns1 hh
      have := hk6.2
      omega

/-- The order stays one after the first step. -/
theorem completeStep_first {cfg : Cfg ν n q K} {s s' : State ν n q K} {a b : K} (hn : s.cnt.nst = 0) (hk : s.c.kk = 1)
    (hkn : s.c.knew = 1) (hns : s.c.ns ≤ 2) (h : completeStep cfg s a b = some s') : s'.c.kk = 1 := by
  obtain ⟨s1, hs1, hc⟩ := completeStep_choose h
  rw [hc]
  have h1 : (chosenFrom cfg s).c.kk = 1 := by unfold chosenFrom; rw [markPhase_eq]; exact hk
  have h2 : (chosenFrom cfg s).cnt.nst = 1 := by unfold chosenFrom; rw [markPhase_eq]; simp [hn]
  have h3 : (chosenFrom cfg s).c.knew = 1 := by unfold chosenFrom; rw [markPhase_eq]; exact hkn
  have h4 : (chosenFrom cfg s).c.ns ≤ 2 := by unfold chosenFrom; rw [markPhase_eq]; exact hns
  unfold chooseNext at hs1
  split at hs1
  · rw [h2, if_neg (by omega)] at hs1
    cases hs1; exact h1
  · have hact : orderAction cfg (chosenFrom cfg s) (decide (s.c.kk = s.c.kused + 1)) a b = some (.maintain, 0) := by
      unfold orderAction
      simp only
      rw [if_neg (by rw [h1, h3]; omega)]
      split
      · rfl
      · rw [if_pos (by rw [h1]; simp; omega)]
    rw [hact] at hs1
    cases hs1
    exact h1

/-- An accepted attempt. -/
theorem hist_done {cfg : Cfg ν n q K} {s0 s s1 s' : State ν n q K} {f : Fails} {ck a b : K} (hCtl : CtlInv cfg s0)
    (hI : HistInv cfg s0) (hm : 0 < s0.cnt.nst → s0.c.kk ≤ cfg.maxord) (hmI : 0 ≤ cfg.hmaxInv)
    (hb : |s0.c.hh| * cfg.hmaxInv ≤ 1) (hw : Within s0.tstop s0.e.tn s0.c.hh) (h0 : s0.c.hh ≠ 0)
    (hC : CtlLoop s0 s) (h : HistLoop s0 s) (ha : attempt cfg s0.e.tn s f = .done s1 ck a b)
    (hc : completeStep cfg s1 a b = some s') : HistInv cfg s' := by
  have hD := ctlLoop_done hmI hb hw hC ha hc
  obtain ⟨s3, h3, -, -, -, -, rfl⟩ := attempt_done ha
  have hCo := completeStep_eq hc
  obtain ⟨hne, hp, hN⟩ := h.pos hI hC h0
  have hs := coefHist_starred hne h.ready (fun i hi => left_ne_zero_of_mul (hp i hi).ne')
  have hd := h.before hI hm hC hs
  have hnt : newTime s = s.e.tn + s.c.hh := newTime_within (hC.within hw)
  have hg := hCo.g.trans (done_ghost h3)
  have h3k : s3.c.kk = s.c.kk := by rw [h3.c]
  have h3h : s3.c.hh = s.c.hh := by rw [h3.c]
  have hkused : s'.c.kused = s.c.kk := by rw [hCo.kused]; exact h3k
  have hhused : s'.c.hused = s.c.hh := by rw [hCo.hused]; exact h3h
  have hns : s'.c.ns = nextNs s.c := by rw [hCo.ns]; show s3.c.ns = _; rw [h3.c]
  have hh' : s'.h = { coefHist s with phi := updatePhi cfg.maxord s.c.kk s3.ee (coefHist s).phi } := by
    rw [hCo.phi]
    show ({ s3.h with phi := updatePhi cfg.maxord s3.c.kk s3.ee s3.h.phi } : Hist n K) = _
    rw [h3.h, h3k]
  have htn : s'.e.tn = s.e.tn + s.c.hh := by
    rw [hCo.e]; show s3.e.tn = _; rw [h3.e]; exact hnt
  have hnst : s'.cnt.nst = s0.cnt.nst + 1 := hD.nst
  have hpsi : ∀ i, i ≤ s.c.kk → s'.h.psi i = psiN s.c.hh s.h.psi i := by
    intro i hi; rw [hh']; show (coefHist s).psi i = _; rw [hs.psi, if_pos hi]
  have hkk0 : s0.cnt.nst = 0 → s'.c.kk = 1 := by
    intro hz
    obtain ⟨f1, f2, f3, f4⟩ := h.first hz
    refine completeStep_first (s := (s3.note s0.e.tn (errCoef s) .accepted).noteAcc s0.e.tn) ?_ ?_ ?_ ?_ hc
    · show s3.cnt.nst = 0; rw [h3.cnt, hC.cnt, hz]
    · show s3.c.kk = 1; rw [h3k, f1]
    · show s3.c.knew = 1
      rcases h3.knew () rfl with hh | ⟨hh, hlt⟩ <;> omega
    · show s3.c.ns ≤ 2
      have : s3.c.ns = nextNs s.c := by rw [h3.c]
      rw [this]
      have hle := nextNs_le s.c
      rw [if_neg (by rw [f1, f2]; omega)] at hle
      omega
  have hkkle : s.c.kk ≤ s0.cnt.nst + 1 ∧ (0 < s0.cnt.nst → s.c.kk ≤ s0.cnt.nst) := by
    by_cases hz : s0.cnt.nst = 0
    · have := (h.first hz).1; omega
    · have hpos : 0 < s0.cnt.nst := by omega
      have := h.kk hpos
      have := (hI.kk hpos).2
      omega
  have hup : s'.c.kk ≤ s.c.kk + 1 := by have := hCo.up; rw [show ((s3.note s0.e.tn (errCoef s) .accepted).noteAcc s0.e.tn).c.kk = s3.c.kk from rfl, h3k] at this; exact this
  obtain ⟨x, l, hx, hx1, hx2, hx3, hx4, hx5, ⟨c, hc1, hc2, hc3⟩, -⟩ := hD.last
  have hxh : x.hh = s.c.hh := by rw [← hx4]; exact hhused
  refine ⟨fun _ i hi => ?_, fun _ => ?_, fun _ => ?_, fun _ => ?_, fun _ => ?_, fun _ i h1 h2 => ?_, fun _ i hi => ?_, ?_, ?_⟩
  · rw [hkused] at hi
    rw [hpsi i hi, hc3, hxh]
    have e : psiN s.c.hh s.h.psi i * (c * s.c.hh) = c * (psiN s.c.hh s.h.psi i * s.c.hh) := by ring
    rw [e]; exact mul_pos (by linarith) (hN i hi)
  · rw [hpsi 0 (Nat.zero_le _), hhused]; rfl
  · rw [hkused, hnst]; exact ⟨h.kk1, hkkle.1⟩
  · rw [hkused, hnst]
    refine ⟨hup, ?_⟩
    by_cases hz : s0.cnt.nst = 0
    · have := hkk0 hz; omega
    · have := hkkle.2 (by omega); omega
  · rw [hg, htn, hkused, hh', hnt]
    refine hd.accept hs (fun i hi => left_ne_zero_of_mul (hN i hi).ne') (fun i => ?_)
    show predY s i + s3.ee i = _
    unfold predY
    rw [forUp_vadd]
    simp only [vzero, zero_add]
    rw [add_comm]
  · rw [hkused] at h2
    rw [hns] at h1
    rw [hpsi i h2, hhused]
    have hle := nextNs_le s.c
    by_cases he : s.c.hh = s.c.hused ∧ s.c.kk = s.c.kused
    · rw [if_pos he] at hle
      refine psiN_equal (k := i) (fun j hj => ?_) i (le_refl _)
      rw [he.1]; exact h.equal he.1 he.2 j (by omega) (by omega)
    · rw [if_neg he] at hle
      obtain rfl : i = 0 := by omega
      simp [psiN]
  · rw [hkused] at hi
    rw [hhused, hpsi i hi]
    refine ⟨by rw [hh']; exact hs.alpha i hi, ?_, ?_⟩
    · rw [show s'.h.gamma i = (coefHist s).gamma i by rw [hh'], hs.gamma i hi]
      refine sum_congr rfl fun j hj => ?_
      rw [mem_range] at hj
      rw [hpsi j (by omega)]
    · rw [show s'.h.sigma i = (coefHist s).sigma i by rw [hh'], hs.sigma i hi]
      refine prod_congr rfl fun j hj => ?_
      rw [mem_range] at hj
      rw [hpsi (j + 1) (by omega)]
  · rw [hg]
    intro z hz
    rcases List.mem_cons.1 hz with rfl | hz
    · exact h.attempt hCtl hI hm hw hC h0 _ _
    · exact h.atts z hz
  · rw [hg]
    intro z hz h2
    rcases List.mem_cons.1 hz with rfl | hz
    · have e : (attRec s s0.e.tn s3.ee .accepted).before =
          if s.cnt.nst = 0 then [(s0.e.tn, (coefHist s).phi 0)] else s.g.acc := rfl
      rw [e]; exact List.suffix_cons _ _
    · refine (h.suffix z hz h2).trans (List.IsSuffix.trans ?_ (List.suffix_cons _ _))
      by_cases hz0 : s.cnt.nst = 0
      · rw [hC.acc, (hCtl.zero (by rw [← hC.cnt]; exact hz0)).2]; exact List.nil_suffix
      · rw [if_neg hz0]

/-- What a failed step leaves behind. -/
structure HistFail (s0 s' : State ν n q K) : Prop where
  atts : ∀ x ∈ s'.g.atts, AttHist x
  suffix : ∀ x ∈ s'.g.atts, 2 ≤ x.before.length → x.before <:+ s'.g.acc
  tn : s'.e.tn = s0.e.tn
  acc : s'.g.acc = s0.g.acc
  nst : s'.cnt.nst = s0.cnt.nst
  hh : ∃ c, 0 < c ∧ c ≤ 1 ∧ s'.c.hh = c * s0.c.hh
  same : 0 < s0.cnt.nst → (∀ i, i ≤ s0.c.kused → 0 < s'.h.psi i * s0.c.hh) ∧ s'.h.phi = s0.h.phi ∧ s'.c.kused = s0.c.kused ∧ s'.c.hused = s0.c.hused ∧
      ∃ l, s'.g.atts = l ++ s0.g.atts ∧ (∀ x ∈ l, x.out ≠ .accepted) ∧
        ((∀ x ∈ l, s0.c.kused ≤ x.kk) → ∀ i, i < s0.c.kused → s'.h.psi i = s0.h.psi i)

theorem step_hist {cfg : Cfg ν n q K} {s0 s' : State ν n q K} {r : Except Err Unit} (hl : NlsLegal cfg)
    (hmI : 0 ≤ cfg.hmaxInv) (hCtl : CtlInv cfg s0) (hO : OrdInv cfg s0) (hI : HistInv cfg s0)
    (hb : |s0.c.hh| * cfg.hmaxInv ≤ 1) (hw : Within s0.tstop s0.e.tn s0.c.hh) (h0 : s0.c.hh ≠ 0)
    (h : step cfg s0 = .ret s' r) :
    (r = .ok () ∧ HistInv cfg s') ∨ (∃ e, r = .error e ∧ HistFail s0 s') :=
  have hm : 0 < s0.cnt.nst → s0.c.kk ≤ cfg.maxord := fun hp => (hO.kk hp).2
  step_rule (cfg := cfg) (fun s _ => CtlLoop s0 s ∧ HistLoop s0 s) (HistInv cfg) (fun s _ => HistFail s0 s)
    ⟨ctlLoop_init s0, histLoop_init hI hO⟩
    (fun s1 f s' f' hL h => by
      obtain ⟨err, a, b, s5, s6, hR, hH, rfl⟩ := attempt_again' hl h
      exact ⟨(ctlLoop_handled hw hL.1 hR hH).of_reset _, (hist_handled hCtl hI hm hw h0 hL.1 hL.2 hR hH).1 rfl⟩)
    (fun s1 f s2 ck a b s' hL h hc => by
      have := hist_done hCtl hI hm hmI hb hw h0 hL.1 hL.2 h hc
      exact ⟨this.psi, this.psi0, this.kused, this.kk, this.data, this.equal, this.coef, this.atts, this.suffix⟩)
    (fun s1 f s' e hL h => by
      obtain ⟨err, a, b, f', s5, hR, hH⟩ := attempt_fail' hl h
      obtain ⟨-, h1, h2, h3⟩ := hist_handled hCtl hI hm hw h0 hL.1 hL.2 hR hH
      have hC := ctlLoop_handled hw hL.1 hR hH
      exact ⟨h1, h2, hC.tn, hC.acc, hC.cnt, hC.hh, h3⟩) h

/-! ## The invariant over histories -/

theorem HistInv.of_first {cfg : Cfg ν n q K} {s s' : State ν n q K} (h : HistInv cfg s) (hz : s.cnt.nst = 0)
    (hs : FirstSame s s') : HistInv cfg s' := by
  have hn : s'.cnt.nst = 0 := by rw [hs.cnt]; exact hz
  exact ⟨fun h => by omega, fun h => by omega, fun h => by omega, fun h => by omega, fun h => by omega, fun h => by omega,
    fun h => by omega, by rw [hs.g]; exact h.atts, by rw [hs.g]; exact h.suffix⟩

theorem HistInv.of_scale {cfg : Cfg ν n q K} {s s' : State ν n q K} (h : HistInv cfg s) (hg : s'.g = s.g) (hh : s'.h = s.h)
    (hn : s'.cnt.nst = s.cnt.nst) (htn : s'.e.tn = s.e.tn) (hk : s'.c.kk = s.c.kk) (hu : s'.c.kused = s.c.kused)
    (hus : s'.c.hused = s.c.hused) (hns : s'.c.ns = s.c.ns) (hsc : ∃ c : K, 0 < c ∧ c ≤ 1 ∧ s'.c.hh = c * s.c.hh) :
    HistInv cfg s' := by
  obtain ⟨c, hc1, -, hc3⟩ := hsc
  refine ⟨?_, by rw [hn, hh, hus]; exact h.psi0, by rw [hn, hu]; exact h.kused, by rw [hn, hk, hu]; exact h.kk,
    by rw [hn, htn, hh, hg, hu]; exact h.data, by rw [hn, hns, hu, hh, hus]; exact h.equal,
    by rw [hn, hu, hh, hus]; exact h.coef, by rw [hg]; exact h.atts, by rw [hg]; exact h.suffix⟩
  rw [hn, hu, hh, hc3]
  intro hp i hi
  have e : s.h.psi i * (c * s.c.hh) = c * (s.h.psi i * s.c.hh) := by ring
  rw [e]; exact mul_pos hc1 (h.psi hp i hi)

theorem HistInv.of_frame {cfg : Cfg ν n q K} {s s' : State ν n q K} (h : HistInv cfg s) (hs : Frame s s') :
    HistInv cfg s' :=
  h.of_scale hs.g hs.h (by rw [hs.cnt]) (by rw [hs.e]) (by rw [hs.c]) (by rw [hs.c]) (by rw [hs.c]) (by rw [hs.c])
    ⟨1, one_pos, le_refl _, by rw [hs.c, one_mul]⟩

theorem OrdInv.of_firstStart {cfg : Cfg ν n q K} {s s1 s2 : State ν n q K} {tout : K} (h : OrdInv cfg s)
    (hz : s.cnt.nst = 0) (h1 : firstCall cfg s tout = .ret s1 (.ok ())) (h2 : Frame (perfReset s1) s2) :
    0 < s2.cnt.nst → 1 ≤ s2.c.kk ∧ s2.c.kk ≤ cfg.maxord := by
  intro hp
  exfalso
  rw [h2.cnt] at hp
  have : s1.cnt.nst = 0 := by rw [(firstCall_same h1).cnt]; exact hz
  have e : (perfReset s1).cnt.nst = s1.cnt.nst := rfl
  omega

/-- All invariants of the histories without step failure. -/
structure FullInv (cfg : Cfg ν n q K) (s : State ν n q K) : Prop where
  ok : OkInv cfg s
  hist : HistInv cfg s

theorem histInv_firstStep {cfg : Cfg ν n q K} (hl : NlsLegal cfg) (hm1 : 1 ≤ cfg.maxord) (hm : 0 ≤ cfg.hmaxInv)
    {s s1 s2 s' : State ν n q K} {tout : K} {r : Except Err Unit} (h : FullInv cfg s) (hz : s.cnt.nst = 0)
    (h1 : firstCall cfg s tout = .ret s1 (.ok ())) (h2 : Frame (perfReset s1) s2) (h3 : step cfg s2 = .ret s' r) :
    (r = .ok () ∧ HistInv cfg s') ∨ (∃ e, r = .error e ∧ HistFail s2 s') := by
  obtain ⟨g1, g2, g3, g4, g5, -⟩ := firstStep_start hm h.ok.ctl hz h1 h2
  have hH : HistInv cfg s2 := ((h.hist.of_first hz (firstCall_same h1)).of_scale (s' := perfReset s1) rfl rfl rfl rfl rfl rfl
    rfl rfl ⟨1, one_pos, le_refl _, by rw [one_mul]; rfl⟩).of_frame h2
  have hO : OrdInv cfg s2 := by
    have h4 := ordInv_micro hl hm1 h.ok.ord (.first tout (.ok ()) hz h1)
    have h5 := ordInv_micro hl hm1 h4 (.perf _)
    exact ordInv_micro hl hm1 h5 (.frame h2)
  exact step_hist hl hm g1 hO hH g3 g4 (right_ne_zero_of_mul g2.ne') h3

theorem histInv_micro {cfg : Cfg ν n q K} (hl : NlsLegal cfg) (hm1 : 1 ≤ cfg.maxord) (hm : 0 ≤ cfg.hmaxInv)
    {s s' : State ν n q K} (hF : FullInv cfg s) (hM : Micro cfg s s') : HistInv cfg s' := by
  have one : ∃ c : K, 0 < c ∧ c ≤ 1 ∧ s.c.hh = c * s.c.hh := ⟨1, one_pos, le_refl _, by rw [one_mul]⟩
  have h := hF.hist
  have hC := hF.ok.ctl
  cases hM with
  | frame hf => exact h.of_frame hf
  | perf => exact h.of_scale rfl rfl rfl rfl rfl rfl rfl rfl one
  | clear => exact h.of_scale rfl rfl rfl rfl rfl rfl rfl rfl one
  | clamp ts h1 h2 h3 =>
    have hsc := clamp_spec (clamp_near hC h1 h2 h3)
    unfold clampToStop at hsc ⊢
    split
    · rename_i hcl
      rw [if_pos hcl] at hsc
      exact h.of_scale rfl rfl rfl rfl rfl rfl rfl rfl hsc
    · exact h
  | ewt h1 => exact h.of_scale rfl rfl rfl rfl rfl rfl rfl rfl one
  | first tout r h1 h2 => exact h.of_first h1 (firstCall_same h2)
  | firstStep tout h1 h2 h3 h4 =>
    rcases histInv_firstStep hl hm1 hm hF h1 h2 h3 h4 with ⟨-, h⟩ | ⟨e, he, -⟩
    · exact h
    · cases he
  | step h1 h2 h3 =>
    rcases step_hist hl hm hC hF.ok.ord h (hC.hmax h1) h2.within (left_ne_zero_of_mul (hC.used h1).ne') h3 with
      ⟨-, h⟩ | ⟨e, he, -⟩
    · exact h
    · cases he

theorem histInv_new (cfg : Cfg ν n q K) (nls0 : ν) (yy0 yp0 : Vec n K) (tstop : Option K) :
    HistInv cfg { State.new nls0 yy0 yp0 with tstop := tstop } :=
  ⟨(fun h => by cases h), (fun h => by cases h), (fun h => by cases h), (fun h => by cases h), (fun h => by cases h),
    (fun h => by cases h), (fun h => by cases h), (fun x hx => by cases hx), (fun x hx => by cases hx)⟩

theorem fullInv_micro {cfg : Cfg ν n q K} (hl : NlsLegal cfg) (hm1 : 1 ≤ cfg.maxord) (hm : 0 ≤ cfg.hmaxInv)
    {s s' : State ν n q K} (h : FullInv cfg s) (hM : Micro cfg s s') : FullInv cfg s' :=
  ⟨okInv_micro hl hm1 hm h.ok hM, histInv_micro hl hm1 hm h hM⟩

theorem ReachOk.full {cfg : Cfg ν n q K} (hl : NlsLegal cfg) (hm1 : 1 ≤ cfg.maxord) (hm : 0 ≤ cfg.hmaxInv)
    {s : State ν n q K} (h : ReachOk cfg s) : FullInv cfg s :=
  h.inv (FullInv cfg) (fun a b c d => ⟨⟨ctlInv_new cfg a b c d, ordInv_new cfg a b c d, traceInv_new cfg a b c d⟩,
    histInv_new cfg a b c d⟩) (fun _ _ => fullInv_micro hl hm1 hm)

/-- How a call ends in a history without earlier step failure. -/
theorem exec_hist {cfg : Cfg ν n q K} (hl : NlsLegal cfg) (hm1 : 1 ≤ cfg.maxord) (hm : 0 ≤ cfg.hmaxInv) {rf sf : Nat}
    {s s' : State ν n q K} {op : Op K} {r : Res n K} (hs : ReachOk cfg s) (h : exec cfg rf sf s op = some (s', r)) :
    (FullInv cfg s' ∧ Micros cfg s s' ∧ ∀ e, r = .solved (.error e) → e.isStepFailure = false) ∨
    ∃ s1 s2 e, FullInv cfg s1 ∧ Micros cfg s s1 ∧ HistFail s2 s' ∧
      (0 < s1.cnt.nst → s2 = s1) ∧ s2.cnt.nst = s1.cnt.nst ∧ s2.g = s1.g ∧ r = .solved (.error e) ∧
      e.isStepFailure = true := by
  have hI := hs.full hl hm1 hm
  rcases exec_ends h with ⟨r', hr', hend⟩ | ⟨hno, hmic⟩
  · cases hend with
    | clean h1 hb =>
      refine Or.inl ⟨h1.inv (fun _ _ => fullInv_micro hl hm1 hm) hI, h1, fun e he => ?_⟩
      rw [hr'] at he; cases he; exact hb e rfl
    | failed s1 s2 e h1 h2 h3 h4 =>
      have hI1 := h1.inv (fun _ _ => fullInv_micro hl hm1 hm) hI
      have hfr : ∀ s0 : State ν n q K, HistFail s0 s2 → HistFail s0 s' := fun s0 hF =>
        ⟨by rw [h3.g]; exact hF.atts, by rw [h3.g]; exact hF.suffix, by rw [h3.e]; exact hF.tn, by rw [h3.g]; exact hF.acc,
          by rw [h3.cnt]; exact hF.nst, by rw [h3.c]; exact hF.hh, by rw [h3.h, h3.c, h3.g]; exact hF.same⟩
      right
      have hf := h2.isStepFailure
      cases h2 with
      | firstStep tout e g1 g2 g3 g4 =>
        rename_i sa sb
        rcases histInv_firstStep hl hm1 hm hI1 g1 g2 g3 g4 with ⟨he, -⟩ | ⟨e, he, hF⟩
        · cases he
        · cases he
          refine ⟨s1, _, e, hI1, h1, hfr _ hF, fun h0 => by omega, ?_, ?_, by rw [hr', h4], hf⟩
          · rw [g3.cnt]; show sa.cnt.nst = _; rw [(firstCall_same g2).cnt]
          · rw [g3.g]; exact (firstCall_same g2).g
      | step e g1 g2 g3 =>
        rcases step_hist hl hm hI1.ok.ctl hI1.ok.ord hI1.hist (hI1.ok.ctl.hmax g1) g2.within
          (left_ne_zero_of_mul (hI1.ok.ctl.used g1).ne') g3 with ⟨he, -⟩ | ⟨e, he, hF⟩
        · cases he
        · cases he
          exact ⟨s1, s1, e, hI1, h1, hfr _ hF, fun _ => rfl, rfl, rfl, by rw [hr', h4], hf⟩
  · exact Or.inl ⟨hmic.inv (fun _ _ => fullInv_micro hl hm1 hm) hI, hmic, fun e he => (hno _ he).elim⟩

/-- One more call after a history without step failure: all attempts extrapolate. -/
theorem exec_attHist {cfg : Cfg ν n q K} (hl : NlsLegal cfg) (hm1 : 1 ≤ cfg.maxord) (hm : 0 ≤ cfg.hmaxInv) {rf sf : Nat}
    {s s' : State ν n q K} {op : Op K} {r : Res n K} (hs : ReachOk cfg s) (h : exec cfg rf sf s op = some (s', r)) :
    (∀ x ∈ s'.g.atts, AttHist x) ∧ (∀ x ∈ s'.g.atts, 2 ≤ x.before.length → x.before <:+ s'.g.acc) ∧
      ∃ d : K, s'.g.acc.Pairwise fun a b => 0 < (a.1 - b.1) * d := by
  rcases exec_hist hl hm1 hm hs h with ⟨hF, -⟩ | ⟨s1, s2, e, hF, -, hH, -, -, hg, -⟩
  · exact ⟨hF.hist.atts, hF.hist.suffix, _, hF.ok.ctl.chain⟩
  · refine ⟨hH.atts, hH.suffix, s1.c.hh, ?_⟩
    rw [hH.acc, hg]; exact hF.ok.ctl.chain

/-! ## Accepted points are kept -/

/-- The accepted points of `s` are the oldest ones of `s'`, which has as many more as steps. -/
def AccExt (s s' : State ν n q K) : Prop :=
  0 < s.cnt.nst → ∃ l, s'.g.acc = l ++ s.g.acc ∧ s'.cnt.nst = s.cnt.nst + l.length

theorem AccExt.of_eq {s s' : State ν n q K} (hg : s'.g = s.g) (hn : s'.cnt.nst = s.cnt.nst) : AccExt s s' :=
  fun _ => ⟨[], by rw [hg]; rfl, by rw [hn]; rfl⟩

theorem AccExt.trans {a b c : State ν n q K} (h : AccExt a b) (h' : AccExt b c) : AccExt a c := by
  intro ha
  obtain ⟨l, h1, h2⟩ := h ha
  obtain ⟨l', h3, h4⟩ := h' (by omega)
  exact ⟨l' ++ l, by rw [h3, h1, List.append_assoc], by rw [h4, h2, List.length_append]; omega⟩

theorem accExt_micro {cfg : Cfg ν n q K} (hl : NlsLegal cfg) (hm : 0 ≤ cfg.hmaxInv) {s s' : State ν n q K}
    (hC : CtlInv cfg s) (hM : Micro cfg s s') : AccExt s s' := by
  cases hM with
  | frame hf => exact .of_eq hf.g (by rw [hf.cnt])
  | perf => exact .of_eq rfl rfl
  | clear => exact .of_eq rfl rfl
  | clamp ts h1 h2 h3 =>
    unfold clampToStop
    split
    · exact .of_eq rfl rfl
    · exact .of_eq rfl rfl
  | ewt h1 => exact .of_eq rfl rfl
  | first tout r h1 h2 => intro h; omega
  | firstStep tout h1 h2 h3 h4 => intro h; omega
  | step h1 h2 h3 =>
    rcases step_ctl hl hm (hC.hmax h1) h2.within h3 with ⟨-, hD⟩ | ⟨e, he, -⟩
    · obtain ⟨x, l, -, -, -, -, -, ⟨y0, hacc⟩, -⟩ := hD.last
      intro h
      rw [if_neg (by omega)] at hacc
      exact ⟨[(x.tnew, x.yy)], hacc, hD.nst⟩
    · cases he

theorem accExt_micros {cfg : Cfg ν n q K} (hl : NlsLegal cfg) (hm : 0 ≤ cfg.hmaxInv) {s s' : State ν n q K}
    (hC : CtlInv cfg s) (hM : Micros cfg s s') : CtlInv cfg s' ∧ AccExt s s' := by
  induction hM with
  | refl => exact ⟨hC, .of_eq rfl rfl⟩
  | tail _ h ih => exact ⟨ctlInv_micro hl hm ih.1 h, ih.2.trans (accExt_micro hl hm ih.1 h)⟩

theorem exec_accExt {cfg : Cfg ν n q K} (hl : NlsLegal cfg) (hm1 : 1 ≤ cfg.maxord) (hm : 0 ≤ cfg.hmaxInv) {rf sf : Nat}
    {s s' : State ν n q K} {op : Op K} {r : Res n K} (hs : ReachOk cfg s) (h : exec cfg rf sf s op = some (s', r)) :
    AccExt s s' := by
  have hC := (hs.full hl hm1 hm).ok.ctl
  rcases exec_hist hl hm1 hm hs h with ⟨-, hM, -⟩ | ⟨s1, s2, e, hF, hM, hH, -, hn, hg, -⟩
  · exact (accExt_micros hl hm hC hM).2
  · refine (accExt_micros hl hm hC hM).2.trans fun h0 => ⟨[], by rw [hH.acc, hg]; rfl, by rw [hH.nst, hn]; rfl⟩

/-! ## Uniqueness -/

theorem through_unique {k : Nat} {A : List (K × Vec n K)} {Q Q' : Fin n → K[X]} {d : K} (hk : k + 1 ≤ A.length)
    (hA : A.Pairwise fun a b => 0 < (a.1 - b.1) * d) (hQ : Through k A Q) (hQ' : Through k A Q') : Q = Q' := by
  funext i
  have hget : ∀ m (hm : m < A.length), A[m]? = some A[m] := fun m hm => List.getElem?_eq_getElem hm
  refine Polynomial.eq_of_natDegree_lt_card_of_eval_eq (ι := Fin (k + 1)) (Q i) (Q' i)
    (f := fun m => (A[m.1]'(by omega)).1) ?_ ?_ ?_
  · intro a b hab
    by_contra hne
    have key : ∀ a b : Fin (k + 1), a.1 < b.1 → (A[a.1]'(by omega)).1 ≠ (A[b.1]'(by omega)).1 := by
      intro a b hlt he
      have := List.pairwise_iff_getElem.1 hA a.1 b.1 (by omega) (by omega) hlt
      rw [he, sub_self, zero_mul] at this
      exact lt_irrefl _ this
    rcases Nat.lt_trichotomy a.1 b.1 with h | h | h
    · exact key a b h hab
    · exact hne (Fin.ext h)
    · exact key b a h hab.symm
  · intro m
    rw [hQ.2 m.1 (by omega) _ (hget _ (by omega)) i, hQ'.2 m.1 (by omega) _ (hget _ (by omega)) i]
  · rw [Fintype.card_fin]
    have h1 := hQ.1 i
    have h2 := hQ'.1 i
    omega

end

end Verif
