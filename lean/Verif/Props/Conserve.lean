import Verif.Proofs.NewtonLin
import Verif.Proofs.Conserve
import Verif.Model.Samples
import Verif.Props.Nls

/-!
# C63: linear invariants

Histories of `Ida<_, Dense, Newton, _>` that begin with `(y0, y0')`.
-/

set_option autoImplicit false
set_option linter.unusedSectionVars false
set_option linter.unusedSimpArgs false
set_option linter.unusedVariables false

namespace Verif.Props

open Verif Verif.Spec Verif.Witness

universe u v

/-- Everything the user can read from the object has `a·y = b` and `a·y' = 0`: the output vectors, the accepted points,
dense output of `get_solution`, and dense output of `get_dky` of every order. -/
structure Keeps {ν : Type v} {n q : Nat} {K : Type u} [Field K] [LinearOrder K] [ExactParams K] (a : Vec n K) (b : K)
    (s : State ν n q K) : Prop where
  yy : dot a (getYy s) = b
  yp : dot a (getYp s) = 0
  accepted : ∀ p ∈ s.g.acc, dot a p.2 = b
  dense : ∀ t y yp, solutionAt s t = some (y, yp) → dot a y = b ∧ dot a yp = 0
  dky : ∀ t k d, dkyAt s t k = some d → dot a d = if k = 0 then b else 0

section
variable {n q : Nat} {K : Type u} [Field K] [LinearOrder K] [IsStrictOrderedRing K] [ExactParams K] [EpsLaws K]

theorem dkyCoefs_zero (psi : Nat → K) (delt : K) (kused : Nat) : (dkyCoefs psi delt kused 0).cjk 0 = 1 := by
  have key : ∀ m (l : DkyCoef K), l.cjk 0 = 1 → (forUp m (fun j0 (l : DkyCoef K) =>
      { l with cjk := upd l.cjk (0 + 1 + j0)
                 ((Scalar.ofNat 0 * l.cjk1 (0 + 1 + j0 - 1) + l.cjk (0 + 1 + j0 - 1) * (delt + l.psij1)) / psi (0 + 1 + j0 - 1))
               psij1 := psi (0 + 1 + j0 - 1) }) l).cjk 0 = 1 := by
    intro m l hl
    induction m with
    | zero => exact hl
    | succ m ih =>
      refine Eq.trans ?_ ih
      simp only [forUp, upd]
      rw [if_neg (by omega)]
  unfold dkyCoefs
  simp only [forUp, dkyPass, if_true]
  exact key _ _ (by simp [upd])

theorem dky_sum {a : Vec n K} {b : K} {phi : Nat → Vec n K} (h : Lin a b phi) (c : Nat → K) (k : Nat) (hc : k = 0 → c 0 = 1)
    (m : Nat) : dot a (forUp (m + 1) (fun j0 y => fun i => y i + phi (k + j0) i * c (k + j0)) vzero) =
      if k = 0 then b else 0 := by
  have hs : ∀ (y : Vec n K) j, (fun i => y i + phi (k + j) i * c (k + j)) = scaledAdd y (c (k + j)) (phi (k + j)) := by
    intro y j; funext i; unfold scaledAdd; ring
  have hf : (fun (j0 : Nat) (y : Vec n K) => (fun i => y i + phi (k + j0) i * c (k + j0) : Vec n K)) =
      fun j0 y => scaledAdd y (c (k + j0)) (phi (k + j0)) := by
    funext j0 y; exact hs y j0
  rw [hf]
  induction m with
  | zero =>
    show dot a (scaledAdd vzero (c (k + 0)) (phi (k + 0))) = _
    rw [dot_scaledAdd, dot_vzero]
    split
    · rename_i hk
      subst hk
      rw [hc rfl, h.1]; ring
    · rw [h.2 _ (by omega)]; ring
  | succ m ih =>
    show dot a (scaledAdd (forUp (m + 1) (fun j y => scaledAdd y (c (k + j)) (phi (k + j))) vzero) (c (k + (m + 1)))
      (phi (k + (m + 1)))) = _
    rw [dot_scaledAdd, ih, h.2 _ (by omega)]; ring

theorem Conserved.keeps {ν : Type v} {a : Vec n K} {b : K} {s : State ν n q K} (h : Conserved a b s) : Keeps a b s := by
  refine ⟨h.out.1, h.out.2, h.acc, ?_, ?_⟩
  · intro t y yp hs
    unfold solutionAt at hs
    rw [getSolution_eq] at hs
    split at hs
    · rename_i s' h1
      split at h1
      · cases h1
      · split at h1
        · cases h1
          cases hs
          exact h.lin.sol t
        · cases h1
    · cases hs
  · intro t k d hs
    unfold dkyAt getDky at hs
    split at hs
    · rename_i h1
      split at h1
      · cases h1
      · split at h1
        · cases h1
        · split at h1
          · cases h1
            cases hs
            refine dky_sum h.lin _ k ?_ _
            rintro rfl
            exact dkyCoefs_zero _ _ _
          · cases h1
    · cases hs

/-- **C63 (partial).** `Ida<_, Dense, Newton, _>`, every history (calls may have failed): if a linear combination of the
equations reads `a·y = b` or `a·y' = 0` (with a Jacobian that agrees), and the initial values satisfy `a·y0 = b`,
`a·y0' = 0`, then everything the object returns satisfies both equations exactly - however far the Newton iteration is
from convergence and however old the Jacobian is.  Missing: `b ≠ 0` and a repeated first step, where it is false
(`c63_refuted`). -/
theorem c63_linear_invariant_partial (P : Problem n q K) (tol : TolControl n K) (fuel : Nat) (y0 yp0 : Vec n K)
    (s : State (Newton (Vec n K)) n q K) (h : ReachFrom (Cfg.newton P tol fuel) y0 yp0 s) (a : Vec n K) (b : K)
    (hP : AlgebraicInvariant P a b ∨ DifferentialInvariant P a) (h0 : dot a y0 = b) (h1 : dot a yp0 = 0)
    (hb : b = 0 ∨ ∀ x ∈ s.g.atts, x.before.length = 1 → x.out = .accepted) : Keeps a b s := by
  refine Conserved.keeps (h.cons h0 h1 fun x hx => ⟨newton_conserves h.reach hP x hx, ?_⟩)
  rcases hb with hb | hb
  · exact Or.inl hb
  · exact Or.inr (hb x hx)

/-- `Roberts` has the invariant `y1 + y2 + y3 = 1`. -/
theorem roberts_invariant : AlgebraicInvariant (roberts : Problem 3 2 K) (fun _ => 1) 1 := by
  refine ⟨fun i => if i = 2 then 1 else 0, fun t y yp buf => ?_, fun t cj y yp r j => ?_⟩
  · simp [dot, Fin.sum_univ_three, roberts, robertsRes, Function.update]
  · fin_cases j <;> simp [Fin.sum_univ_three, roberts, robertsJac, upd2]

/-- **C63 for `Roberts`**: whatever the tolerances and the sequence of calls, `y1 + y2 + y3` stays exactly `1` and
`y1' + y2' + y3'` exactly `0` at everything the integrator returns, unless the very first step had to be repeated. -/
theorem c63_roberts_mass_partial (tol : TolControl 3 K) (fuel : Nat) (y0 yp0 : Vec 3 K)
    (s : State (Newton (Vec 3 K)) 3 2 K) (h : ReachFrom (Cfg.newton roberts tol fuel) y0 yp0 s)
    (h0 : y0 0 + y0 1 + y0 2 = 1) (h1 : yp0 0 + yp0 1 + yp0 2 = 0)
    (hb : ∀ x ∈ s.g.atts, x.before.length = 1 → x.out = .accepted) : Keeps (fun _ => 1) 1 s :=
  c63_linear_invariant_partial roberts tol fuel y0 yp0 s h _ _ (Or.inl roberts_invariant)
    (by simpa [dot, Fin.sum_univ_three] using h0) (by simpa [dot, Fin.sum_univ_three] using h1) (Or.inr hb)

end

/-! ## Witnesses -/

/-- `y1' + y2' = 0`, `y1' = c t`. -/
def push (c : ℚ) : Problem 2 0 ℚ where
  res t _ yp _ := fun i => if i = 0 then yp 0 + yp 1 else yp 0 - c * t
  jac _ cj _ _ _ m := upd2 (upd2 (upd2 (upd2 m 0 0 cj) 0 1 cj) 1 0 cj) 1 1 0
  root _ _ _ b := b

theorem push_invariant (c : ℚ) : DifferentialInvariant (push c) (fun _ => 1) := by
  refine ⟨fun i => if i = 0 then 1 else 0, fun t y yp buf => ?_, fun t cj y yp r j => ?_⟩
  · simp [dot, Fin.sum_univ_two, push]
  · fin_cases j <;> simp [Fin.sum_univ_two, push, upd2]

def pushCfg (c : ℚ) : Cfg (Newton (Vec 2 ℚ)) 2 0 ℚ := Cfg.newton (push c) (.ss (1 / 100) (1 / 100)) 3

def push0 : State (Newton (Vec 2 ℚ)) 2 0 ℚ := State.new newton0 (fun i => if i = 0 then 1 else 0) (fun _ => 0)

/-- Two steps of `push 1000` are accepted at once: the hypotheses of `c63_linear_invariant_partial` hold. -/
example : ∃ s, ReachFrom (pushCfg 1000) (fun i => if i = 0 then 1 else 0) (fun _ => 0) s ∧ getNumSteps s = 2 ∧
    (∀ x ∈ s.g.atts, x.before.length = 1 → x.out = .accepted) ∧ getYy s 0 = 1003 / 1000 := by
  have hd : ((run (pushCfg 1000) 10 10 [.solve 1 0 .oneStep, .solve 1 0 .oneStep] push0).map fun p =>
      decide (getNumSteps p.1 = 2) && (p.1.g.atts.all fun x => decide (x.out = .accepted)) &&
        decide (getYy p.1 0 = 1003 / 1000)) = some true := by decide +kernel
  obtain ⟨s, l, hr, hp⟩ := run_witness (P := fun (s : State (Newton (Vec 2 ℚ)) 2 0 ℚ) _ =>
    decide (getNumSteps s = 2) && (s.g.atts.all fun x => decide (x.out = .accepted)) &&
      decide (getYy s 0 = 1003 / 1000)) hd
  simp only [Bool.and_eq_true, decide_eq_true_eq, List.all_eq_true] at hp
  exact ⟨s, run_reachFrom _ (.new newton0 none) hr, hp.1.1, fun x hx _ => hp.1.2 x hx, hp.2⟩

/-- One step of Roberts' problem. -/
example : ∃ s, ReachFrom (Cfg.newton (roberts : Problem 3 2 ℚ) (.ss (1 / 100) (1 / 100)) 3)
    (fun i => if i = 0 then 1 else 0) (fun i => if i = 0 then -(4 / 100) else if i = 1 then 4 / 100 else 0) s ∧
    getNumSteps s = 1 ∧ (∀ x ∈ s.g.atts, x.before.length = 1 → x.out = .accepted) ∧ getYy s 1 ≠ 0 := by
  have hd : ((run (Cfg.newton (roberts : Problem 3 2 ℚ) (.ss (1 / 100) (1 / 100)) 3) 10 10 [.solve (1 / 10) 0 .oneStep]
      (State.new newton0 (fun i => if i = 0 then 1 else 0)
        (fun i => if i = 0 then -(4 / 100) else if i = 1 then 4 / 100 else 0))).map fun p =>
      decide (getNumSteps p.1 = 1) && (p.1.g.atts.all fun x => decide (x.out = .accepted)) &&
        decide (getYy p.1 1 ≠ 0)) = some true := by decide +kernel
  obtain ⟨s, l, hr, hp⟩ := run_witness (P := fun (s : State (Newton (Vec 3 ℚ)) 3 2 ℚ) _ =>
    decide (getNumSteps s = 1) && (s.g.atts.all fun x => decide (x.out = .accepted)) &&
      decide (getYy s 1 ≠ 0)) hd
  simp only [Bool.and_eq_true, decide_eq_true_eq, List.all_eq_true] at hp
  exact ⟨s, run_reachFrom _ (.new newton0 none) hr, hp.1.1, fun x hx _ => hp.1.2 x hx, hp.2⟩

/-- **C63: refutation of the unrestricted claim.** `y1' + y2' = 0`, `y1' = 1000000 t`, started at `y = (1, 0)`,
`y' = (0, 0)`.  The first step fails the error test twice; after the accepted third attempt `y1 + y2` is `1/16`. -/
theorem c63_refuted : DifferentialInvariant (push 1000000) (fun _ => 1) ∧
    ∃ s, ReachFrom (pushCfg 1000000) (fun i => if i = 0 then 1 else 0) (fun _ => 0) s ∧ getNumSteps s = 1 ∧
      getYy s 0 + getYy s 1 = 1 / 16 := by
  refine ⟨push_invariant _, ?_⟩
  have hd : ((run (pushCfg 1000000) 10 10 [.solve 1 0 .oneStep] push0).map fun p =>
      decide (getNumSteps p.1 = 1) && decide (getYy p.1 0 + getYy p.1 1 = 1 / 16)) = some true := by decide +kernel
  obtain ⟨s, l, hr, hp⟩ := run_witness (P := fun (s : State (Newton (Vec 2 ℚ)) 2 0 ℚ) _ =>
    decide (getNumSteps s = 1) && decide (getYy s 0 + getYy s 1 = 1 / 16)) hd
  simp only [Bool.and_eq_true, decide_eq_true_eq] at hp
  exact ⟨s, run_reachFrom _ (.new newton0 none) hr, hp.1, hp.2⟩

end Verif.Props
