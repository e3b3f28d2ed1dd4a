import Verif.Proofs.Ghost
import Verif.Proofs.Interp
import Verif.Spec.Conserve

/-! # Linear invariants and the history array (exact scalars) -/

set_option autoImplicit false
set_option linter.unusedSectionVars false
set_option linter.unusedSimpArgs false
set_option linter.unusedVariables false

namespace Verif

open Verif.Spec

universe u v

section
variable {ν : Type v} {n q : Nat} {K : Type u} [Field K] [LinearOrder K] [IsStrictOrderedRing K] [ExactParams K]

section
variable (a : Vec n K)

theorem dot_vadd (x y : Vec n K) : dot a (vadd x y) = dot a x + dot a y := by
  unfold dot vadd; simp only [mul_add, Finset.sum_add_distrib]

theorem dot_scaledAdd (x : Vec n K) (c : K) (y : Vec n K) : dot a (scaledAdd x c y) = dot a x + c * dot a y := by
  unfold dot scaledAdd
  rw [Finset.mul_sum, ← Finset.sum_add_distrib]
  exact Finset.sum_congr rfl fun i _ => by ring

theorem dot_vscale (c : K) (x : Vec n K) : dot a (vscale c x) = c * dot a x := by
  unfold dot vscale
  rw [Finset.mul_sum]
  exact Finset.sum_congr rfl fun i _ => by ring

theorem dot_vzero : dot a (vzero : Vec n K) = 0 := by
  unfold dot vzero; simp

end

/-- The history array of a solution with `a·y = b`. -/
def Lin (a : Vec n K) (b : K) (phi : Nat → Vec n K) : Prop := dot a (phi 0) = b ∧ ∀ j, 1 ≤ j → dot a (phi j) = 0

variable {a : Vec n K} {b : K}

theorem Lin.scale {phi : Nat → Vec n K} (h : Lin a b phi) (c : Nat → K) {lo hi : Nat} (hlo : 1 ≤ lo) :
    Lin a b (scalePhi phi c lo hi) := by
  unfold scalePhi
  refine ⟨?_, fun j hj => ?_⟩
  · dsimp only
    rw [if_neg (by omega)]; exact h.1
  · dsimp only
    split
    · rw [dot_vscale, h.2 j hj, mul_zero]
    · exact h.2 j hj

theorem Lin.coef {s : State ν n q K} (h : Lin a b s.h.phi) : Lin a b (coefHist s).phi := by
  have h0 : (coefRaw s).phi = s.h.phi := by unfold coefRaw; split <;> rfl
  unfold coefHist
  dsimp only
  rw [h0]
  split
  · refine h.scale _ ?_
    unfold nextNs; dsimp only; omega
  · exact h

theorem Lin.sum {phi : Nat → Vec n K} (h : Lin a b phi) (k : Nat) :
    dot a (forUp (k + 1) (fun j y => vadd y (phi j)) vzero) = b := by
  induction k with
  | zero =>
    show dot a (vadd vzero (phi 0)) = b
    rw [dot_vadd, dot_vzero, h.1, zero_add]
  | succ k ih =>
    show dot a (vadd (forUp (k + 1) (fun j y => vadd y (phi j)) vzero) (phi (k + 1))) = b
    rw [dot_vadd, ih, h.2 _ (by omega), add_zero]

theorem Lin.sum' {phi : Nat → Vec n K} (h : Lin a b phi) (c : Nat → K) (k : Nat) :
    dot a (forUp k (fun j y => scaledAdd y (c j) (phi (j + 1))) vzero) = 0 := by
  induction k with
  | zero => exact dot_vzero a
  | succ k ih =>
    show dot a (scaledAdd (forUp k (fun j y => scaledAdd y (c j) (phi (j + 1))) vzero) (c k) (phi (k + 1))) = 0
    rw [dot_scaledAdd, ih, h.2 _ (by omega), mul_zero, add_zero]

theorem Lin.sum0 {phi : Nat → Vec n K} (h : Lin a b phi) {c : Nat → K} (hc : c 0 = 1) (k : Nat) :
    dot a (forUp (k + 1) (fun j y => scaledAdd y (c j) (phi j)) vzero) = b := by
  induction k with
  | zero =>
    show dot a (scaledAdd vzero (c 0) (phi 0)) = b
    rw [dot_scaledAdd, dot_vzero, h.1, hc]; ring
  | succ k ih =>
    show dot a (scaledAdd (forUp (k + 1) (fun j y => scaledAdd y (c j) (phi j)) vzero) (c (k + 1)) (phi (k + 1))) = b
    rw [dot_scaledAdd, ih, h.2 _ (by omega), mul_zero, add_zero]

theorem Lin.upd {phi : Nat → Vec n K} (h : Lin a b phi) {j : Nat} (hj : 1 ≤ j) {v : Vec n K} (hv : dot a v = 0) :
    Lin a b (upd phi j v) := by
  refine ⟨?_, fun i hi => ?_⟩
  · rw [upd_ne _ _ (by omega)]; exact h.1
  · by_cases hij : i = j
    · subst hij; rw [upd_same]; exact hv
    · rw [upd_ne _ _ hij]; exact h.2 i hi

theorem Lin.update {phi : Nat → Vec n K} (h : Lin a b phi) (maxord kused : Nat) {ee : Vec n K} (he : dot a ee = 0) :
    Lin a b (updatePhi maxord kused ee phi) := by
  unfold updatePhi
  dsimp only
  have h1 : Lin a b (if kused < maxord then Verif.upd phi (kused + 1) ee else phi) := by
    split
    · exact h.upd (by omega) he
    · exact h
  generalize (if kused < maxord then Verif.upd phi (kused + 1) ee else phi) = phi1 at h1
  have key : ∀ m, m ≤ kused →
      dot a (forUp m (fun i (c : Vec n K × (Nat → Vec n K)) =>
        (vadd c.1 (c.2 (kused - i)), Verif.upd c.2 (kused - i) (vadd c.1 (c.2 (kused - i))))) (ee, phi1)).1 = 0 ∧
      Lin a b (forUp m (fun i (c : Vec n K × (Nat → Vec n K)) =>
        (vadd c.1 (c.2 (kused - i)), Verif.upd c.2 (kused - i) (vadd c.1 (c.2 (kused - i))))) (ee, phi1)).2 := by
    intro m
    induction m with
    | zero => exact fun _ => ⟨he, h1⟩
    | succ m ih =>
      intro hm
      obtain ⟨i1, i2⟩ := ih (by omega)
      have h0 : dot a (vadd (forUp m (fun i (c : Vec n K × (Nat → Vec n K)) =>
          (vadd c.1 (c.2 (kused - i)), Verif.upd c.2 (kused - i) (vadd c.1 (c.2 (kused - i))))) (ee, phi1)).1
          ((forUp m (fun i (c : Vec n K × (Nat → Vec n K)) =>
          (vadd c.1 (c.2 (kused - i)), Verif.upd c.2 (kused - i) (vadd c.1 (c.2 (kused - i))))) (ee, phi1)).2 (kused - m))) = 0 := by
        rw [dot_vadd, i1, i2.2 _ (by omega), add_zero]
      exact ⟨h0, i2.upd (by omega) h0⟩
  obtain ⟨k1, k2⟩ := key kused (le_refl _)
  show Lin a b (Verif.upd _ (kused - kused) _)
  rw [Nat.sub_self]
  refine ⟨?_, fun i hi => ?_⟩
  · rw [upd_same, dot_vadd, k1, k2.1, zero_add]
  · rw [upd_ne _ _ (by omega)]; exact k2.2 i hi

theorem Lin.reset {s : State ν n q K} (h : Lin a b s.h.phi) (hb : b = 0) : Lin a b (reset s).h.phi := by
  subst hb
  unfold Verif.reset
  refine ⟨?_, fun i hi => ?_⟩
  · dsimp only
    split
    · rw [dot_vscale, h.1, mul_zero]
    · exact h.1
  · dsimp only
    split
    · rw [dot_vscale, h.2 i hi, mul_zero]
    · exact h.2 i hi

/-- What the invariant needs to know about an attempt: a consistent prediction has a conserving correction; and no
attempt of the first step is repeated, unless `b = 0`. -/
def Good (a : Vec n K) (b : K) (x : Att n K) : Prop :=
  (dot a x.pred = b → dot a x.predp = 0 → dot a x.ee = 0) ∧ (b = 0 ∨ (x.before.length = 1 → x.out = .accepted))

/-- What follows for the state. -/
structure Conserved (a : Vec n K) (b : K) (s : State ν n q K) : Prop where
  lin : Lin a b s.h.phi
  atts : ∀ x ∈ s.g.atts, dot a x.pred = b ∧ dot a x.predp = 0 ∧ dot a x.ee = 0
  acc : ∀ p ∈ s.g.acc, dot a p.2 = b
  out : dot a s.m.yy = b ∧ dot a s.m.yp = 0

theorem solCoefs_zero (psi : Nat → K) (delt : K) (k : Nat) : (solCoefs psi delt k).cvals 0 = 1 := by
  unfold solCoefs
  induction k with
  | zero => show upd (fun _ => (0 : K)) 0 1 0 = 1; exact upd_same _ _ _
  | succ k ih =>
    refine Eq.trans ?_ ih
    simp [forUp, upd]

/-- Interpolated values. -/
theorem Lin.sol {s : State ν n q K} (h : Lin a b s.h.phi) (t : K) :
    dot a (setSol s t).m.yy = b ∧ dot a (setSol s t).m.yp = 0 := by
  exact ⟨h.sum0 (solCoefs_zero _ _ _) _, h.sum' _ _⟩

theorem OutStep.cons {s : State ν n q K} (h : Lin a b s.h.phi) {x y : Vec n K × Vec n K} (ho : OutStep s x y)
    (h1 : dot a x.1 = b ∧ dot a x.2 = 0) : dot a y.1 = b ∧ dot a y.2 = 0 := by
  cases ho with
  | sol t _ _ => exact h.sol t
  | shift c _ _ => exact ⟨by rw [dot_scaledAdd, h1.1, h.2 1 (le_refl _), mul_zero, add_zero], h1.2⟩

theorem Frame.cons {s s' : State ν n q K} (hf : Frame s s') (h : Lin a b s.h.phi)
    (h1 : dot a s.m.yy = b ∧ dot a s.m.yp = 0) : dot a s'.m.yy = b ∧ dot a s'.m.yp = 0 := by
  have key : ∀ {x y}, Relation.ReflTransGen (OutStep s) x y → dot a x.1 = b ∧ dot a x.2 = 0 → dot a y.1 = b ∧ dot a y.2 = 0 := by
    intro x y hr h1
    induction hr with
    | refl => exact h1
    | tail _ hb ih => exact hb.cons h ih
  exact key hf.out h1

def ConsInv (a : Vec n K) (b : K) (s : State ν n q K) : Prop := (∀ x ∈ s.g.atts, Good a b x) → Conserved a b s

theorem ConsInv.of_eq {s s' : State ν n q K} (h : ConsInv a b s) (h1 : s'.h = s.h) (h2 : s'.g = s.g)
    (h3 : s'.m = s.m) : ConsInv a b s' := by
  intro hg
  rw [h2] at hg
  obtain ⟨e1, e2, e3, e4⟩ := h hg
  exact ⟨by rw [h1]; exact e1, by rw [h2]; exact e2, by rw [h2]; exact e3, by rw [h3]; exact e4⟩

theorem ConsInv.frame {s s' : State ν n q K} (h : ConsInv a b s) (hf : Frame s s') : ConsInv a b s' := by
  intro hg
  rw [hf.g] at hg
  obtain ⟨e1, e2, e3, e4⟩ := h hg
  exact ⟨by rw [hf.h]; exact e1, by rw [hf.g]; exact e2, by rw [hf.g]; exact e3, hf.cons e1 e4⟩

theorem Conserved.pred {s : State ν n q K} (h : Conserved a b s) : dot a (predY s) = b ∧ dot a (predYp s) = 0 :=
  ⟨h.lin.coef.sum _, h.lin.coef.sum' _ _⟩

/-- An attempt. -/
theorem Conserved.attempt {cfg : Cfg ν n q K} {s s3 : State ν n q K} {r : Except Err Unit} {t0 : K} {out : AttOut}
    (hI : ConsInv a b s) (h1 : AfterTrial cfg s s3 r)
    (hg : ∀ x ∈ (s3.note t0 (errCoef s) out).g.atts, Good a b x) :
    Conserved a b s ∧ Conserved a b (s3.note t0 (errCoef s) out) ∧ dot a s3.ee = 0 := by
  rw [h1.note_g] at hg
  have hC := hI fun x hx => hg x (List.mem_cons_of_mem _ hx)
  obtain ⟨p1, p2⟩ := hC.pred
  have he := (hg _ List.mem_cons_self).1 p1 p2
  refine ⟨hC, ⟨?_, ?_, ?_, ?_⟩, he⟩
  rotate_left 3
  · obtain ⟨m, -, hm⟩ := h1.solve
    show dot a s3.m.yy = b ∧ dot a s3.m.yp = 0
    rw [hm]
    dsimp only
    rw [dot_vadd, dot_scaledAdd, p1, p2]
    have he' : dot a s3.ee = 0 := he
    rw [he', mul_zero, add_zero, add_zero]
    exact ⟨rfl, rfl⟩
  · show Lin a b s3.h.phi
    rw [h1.h]; exact hC.lin.coef
  · rw [h1.note_g]
    intro x hx
    rcases List.mem_cons.1 hx with rfl | hx
    · exact ⟨p1, p2, he⟩
    · exact hC.atts x hx
  · rw [h1.note_g]; exact hC.acc

theorem ConsInv.failed {cfg : Cfg ν n q K} {s s4 s6 : State ν n q K} {t0 x y : K} {err : Err} {f f' : Fails}
    {r : Except Err Unit} (hI : ConsInv a b s) (h1 : PassFailed cfg t0 s s4 err x y)
    (h2 : handleNFlag cfg (restored s4 t0) err x y f = some (s6, f', r)) : ConsInv a b s6 := by
  obtain ⟨s3, r, out, h3, -, -, rfl⟩ := h1.tried
  obtain ⟨e1, e2, e3, e4⟩ := handleNFlag_same h2
  intro hg
  rw [e3] at hg
  obtain ⟨-, hC, -⟩ := Conserved.attempt hI h3 hg
  have hh : s6.h = (restored (s3.note t0 (errCoef s) out) t0).h := by
    have := handleNFlag_handled h2
    cases this <;> rfl
  refine ⟨?_, ?_, ?_, ?_⟩
  · rw [hh]
    unfold restored
    dsimp only
    split
    · refine hC.lin.scale _ ?_
      show 1 ≤ s3.c.ns
      rw [h3.c]
      show 1 ≤ nextNs s.c
      unfold nextNs; dsimp only; omega
    · exact hC.lin
  · rw [e3]; exact hC.atts
  · rw [e3]; exact hC.acc
  · rw [e1]; exact hC.out

theorem step_cons {cfg : Cfg ν n q K} {s s' : State ν n q K} {r : Except Err Unit} (hs : ConsInv a b s)
    (h : step cfg s = .ret s' r) : ConsInv a b s' := by
  have h0 : ConsInv a b (firstStepInit s) := by
    unfold firstStepInit
    split
    · intro hg
      obtain ⟨e1, e2, e3, e4⟩ := hs hg
      exact ⟨e1, e2, e3, e4⟩
    · exact hs
  have := step_rule (cfg := cfg) (fun s1 _ => ConsInv a b s1) (fun s1 => ConsInv a b s1) (fun s1 _ => ConsInv a b s1) h0
    (fun s1 f s' f' hI h => by
      obtain ⟨s4, err, x, y, s6, h1, h2, rfl⟩ := attempt_again h
      have h3 := hI.failed h1 h2
      split
      · rename_i hn
        intro hg
        have hC := h3 hg
        have hb : b = 0 := by
          obtain ⟨s3, r, out, k1, k2, -, rfl⟩ := h1.tried
          obtain ⟨e1, e2, e3, e4⟩ := handleNFlag_same h2
          have hn1 : s1.cnt.nst = 0 := by
            rw [e4] at hn
            have : s3.cnt.nst = 0 := hn
            rwa [k1.cnt] at this
          have hm : attRec s1 s.e.tn s3.ee out ∈ s6.g.atts := by
            rw [e3]
            show _ ∈ (s3.note s.e.tn (errCoef s1) out).g.atts
            rw [k1.note_g]; exact List.mem_cons_self
          rcases (hg _ hm).2 with hb | hb
          · exact hb
          · have : out = .accepted := hb (by show (if s1.cnt.nst = 0 then _ else _ : List _).length = 1; rw [if_pos hn1]; rfl)
            subst this
            rcases k2 with ⟨-, -, -, k⟩ | ⟨-, -, k⟩ <;> cases k
        exact ⟨hC.lin.reset hb, hC.atts, hC.acc, hC.out⟩
      · exact h3)
    (fun s1 f s2 ck x y s' hI h hc => by
      obtain ⟨s3, h1, -, -, -, -, rfl⟩ := attempt_done h
      have hC := completeStep_eq hc
      intro hg
      have hg' : ∀ z ∈ (s3.note s.e.tn (errCoef s1) .accepted).g.atts, Good a b z := by
        intro z hz; exact hg z (by show z ∈ s'.g.atts; rw [hC.g]; exact hz)
      obtain ⟨c1, c2, he⟩ := Conserved.attempt hI h1 hg'
      refine ⟨?_, ?_, ?_, ?_⟩
      rotate_left 3
      · show dot a s'.m.yy = b ∧ dot a s'.m.yp = 0
        rw [hC.m]; exact c2.out
      · show Lin a b s'.h.phi
        rw [hC.phi]
        exact c2.lin.update _ _ he
      · show ∀ z ∈ s'.g.atts, _
        rw [hC.g]; exact c2.atts
      · show ∀ p ∈ s'.g.acc, _
        rw [hC.g, done_ghost h1]
        intro p hp
        rcases List.mem_cons.1 hp with rfl | hp
        · show dot a (vadd _ _) = b
          rw [dot_vadd, c1.pred.1, he, add_zero]
        · split at hp
          · rw [List.mem_singleton.1 hp]; exact c1.lin.coef.1
          · exact c1.acc p hp)
    (fun s1 f s' e hI h => by
      obtain ⟨s4, err, x, y, f', h1, h2⟩ := attempt_fail h
      exact hI.failed h1 h2) h
  rcases this with ⟨-, h⟩ | ⟨e, -, h⟩ <;> exact h

theorem firstCall_phi {cfg : Cfg ν n q K} {s s' : State ν n q K} {tout : K} {r : Except Err Unit}
    (h : firstCall cfg s tout = .ret s' r) : s'.h.phi = s.h.phi ∨ ∃ c, s'.h.phi = upd s.h.phi 1 (vscale c (s.h.phi 1)) := by
  have h0 : (initialSetup cfg s).h = s.h := by unfold initialSetup; split <;> rfl
  rcases firstCall_cases h with ⟨-, h, -⟩ | ⟨-, h, -⟩ | ⟨hh, -, -, -, ⟨-, h, -⟩ | ⟨s1, h1, h, -⟩⟩ <;> subst h
  · left; rw [h0]
  · left; show (initialSetup cfg s).h.phi = _; rw [h0]
  · left; show (initialSetup cfg s).h.phi = _; rw [h0]
  · right
    have h2 : s1.h = s.h := by
      unfold firstStop at h1
      split at h1
      · split at h1
        · cases h1
        · cases h1
          unfold clampToStop
          split <;> exact h0
      · cases h1; exact h0
    unfold firstReady
    dsimp only
    split
    · refine ⟨(rCheck1 cfg { s1 with h0u := s1.c.hh, c.kk := 0, c.kused := 0 }).c.hh, ?_⟩
      rw [(rCheck1_same cfg _).1]
      show upd s1.h.phi 1 (vscale _ (s1.h.phi 1)) = _
      rw [h2]
    · refine ⟨s1.c.hh, ?_⟩
      show upd s1.h.phi 1 (vscale _ (s1.h.phi 1)) = _
      rw [h2]

theorem rCheck1_out (cfg : Cfg ν n q K) (s : State ν n q K) :
    ((rCheck1 cfg s).m.yy = s.m.yy ∨ ∃ c, (rCheck1 cfg s).m.yy = scaledAdd (s.h.phi 0) c (s.h.phi 1)) ∧
    (rCheck1 cfg s).m.yp = s.m.yp := by
  unfold rCheck1 callRoot
  simp only
  split
  · exact ⟨Or.inr ⟨_, rfl⟩, rfl⟩
  · exact ⟨Or.inl rfl, rfl⟩

theorem firstCall_out {cfg : Cfg ν n q K} {s s' : State ν n q K} {tout : K} {r : Except Err Unit}
    (h : firstCall cfg s tout = .ret s' r) :
    (s'.m.yy = s.m.yy ∨ ∃ c, s'.m.yy = scaledAdd (s.h.phi 0) c (s.h.phi 1)) ∧ s'.m.yp = s.m.yp := by
  have h0 : (initialSetup cfg s).m = s.m ∧ (initialSetup cfg s).h = s.h := by unfold initialSetup; split <;> exact ⟨rfl, rfl⟩
  rcases firstCall_cases h with ⟨-, h, -⟩ | ⟨-, h, -⟩ | ⟨hh, -, -, -, ⟨-, h, -⟩ | ⟨s1, h1, h, -⟩⟩ <;> subst h
  · rw [h0.1]; exact ⟨Or.inl rfl, rfl⟩
  · show ((initialSetup cfg s).m.yy = _ ∨ _) ∧ (initialSetup cfg s).m.yp = _
    rw [h0.1]; exact ⟨Or.inl rfl, rfl⟩
  · show ((initialSetup cfg s).m.yy = _ ∨ _) ∧ (initialSetup cfg s).m.yp = _
    rw [h0.1]; exact ⟨Or.inl rfl, rfl⟩
  · have h2 : s1.m = s.m ∧ s1.h = s.h := by
      unfold firstStop at h1
      split at h1
      · split at h1
        · cases h1
        · cases h1
          unfold clampToStop
          split <;> exact h0
      · cases h1; exact h0
    unfold firstReady
    dsimp only
    split
    · have := rCheck1_out cfg { s1 with h0u := s1.c.hh, c.kk := 0, c.kused := 0 }
      rw [← h2.1, ← h2.2]
      exact this
    · dsimp only
      rw [h2.1]; exact ⟨Or.inl rfl, rfl⟩

theorem ConsInv.firstCall {cfg : Cfg ν n q K} {s s' : State ν n q K} {tout : K} {r : Except Err Unit} (hI : ConsInv a b s)
    (h : Verif.firstCall cfg s tout = .ret s' r) : ConsInv a b s' := by
  have hg := (firstCall_same h).g
  intro h1
  rw [hg] at h1
  have hC := hI h1
  refine ⟨?_, by rw [hg]; exact hC.atts, by rw [hg]; exact hC.acc, ?_⟩
  rotate_left 1
  · obtain ⟨h3, h4⟩ := firstCall_out h
    rw [h4]
    refine ⟨?_, hC.out.2⟩
    rcases h3 with h3 | ⟨c, h3⟩
    · rw [h3]; exact hC.out.1
    · rw [h3, dot_scaledAdd, hC.lin.1, hC.lin.2 1 (le_refl _), mul_zero, add_zero]
  rcases firstCall_phi h with h2 | ⟨c, h2⟩
  · rw [h2]; exact hC.lin
  · rw [h2]; exact hC.lin.upd (le_refl _) (by rw [dot_vscale, hC.lin.2 1 (le_refl _), mul_zero])

theorem consInv_micro {cfg : Cfg ν n q K} {s s' : State ν n q K} (hI : ConsInv a b s) (hm : Micro cfg s s') :
    ConsInv a b s' := by
  cases hm with
  | frame hf => exact hI.frame hf
  | perf => exact hI.of_eq rfl rfl rfl
  | clear => exact hI.of_eq rfl rfl rfl
  | clamp ts _ _ _ => exact hI.of_eq (by unfold clampToStop; split <;> rfl) (clampToStop_same s ts).g (by unfold clampToStop; split <;> rfl)
  | ewt _ => exact hI.of_eq rfl rfl rfl
  | first _ _ h0 hf => exact hI.firstCall hf
  | firstStep _ h0 hfc hfr hs => exact step_cons (((hI.firstCall hfc).of_eq rfl rfl rfl : ConsInv a b (perfReset _)).frame hfr) hs
  | step _ _ hs => exact step_cons hI hs

theorem ReachFrom.cons {cfg : Cfg ν n q K} {yy0 yp0 : Vec n K} {s : State ν n q K} (h : ReachFrom cfg yy0 yp0 s)
    (h0 : dot a yy0 = b) (h1 : dot a yp0 = 0) : ConsInv a b s := by
  refine h.inv (ConsInv a b) ?_ (fun _ _ => consInv_micro) ?_
  · intro nls0 tstop _
    refine ⟨⟨h0, fun j hj => ?_⟩, fun x hx => (nomatch hx), fun x hx => (nomatch hx), h0, h1⟩
    show dot a (if j = 0 then yy0 else if j = 1 then yp0 else vzero) = 0
    rw [if_neg (by omega)]
    split
    · exact h1
    · exact dot_vzero a
  · intro s e s' hI hm
    cases hm with
    | firstStep _ _ h0 hfc hfr hs => exact step_cons (((hI.firstCall hfc).of_eq rfl rfl rfl : ConsInv a b (perfReset _)).frame hfr) hs
    | step _ _ _ hs => exact step_cons hI hs

end

end Verif
