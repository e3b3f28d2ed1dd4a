import Verif.Spec.Units
import Verif.Proofs.UnitsExec
import Verif.Witness
import Mathlib.LinearAlgebra.StdBasis

/-!
# C64: units, numbering, form of the equations, direction of time

The results do not depend on the units in which the unknowns and the time are measured, on the order in which the unknowns
are numbered, on the form in which the (equivalent) equations are written, or on the direction of time.
-/

set_option autoImplicit false
set_option linter.unusedSectionVars false
set_option linter.unusedSimpArgs false
set_option linter.unusedVariables false

namespace Verif.Props

open Verif Verif.Witness

universe u

section
variable {n q : Nat} {K : Type u} [Field K] [LinearOrder K] [IsStrictOrderedRing K] [ExactParams K] [EpsLaws K]
variable {C : Change n K} {P P' : Problem n q K} {tol : TolControl n K} {fuel : Nat} {y0 yp0 : Vec n K}
variable {s s' : State (Newton (Vec n K)) n q K}

/-- C64. After every pair of histories with the same calls in the two systems of units, all the getters show the same
quantities up to the units; and the next call either returns in neither or in both, with the same result, after which the
getters show the same again.  The change of time unit must be a reversal (`σ = ± 1`) unless `sqrt` is the square root. -/
theorem c64_units_irrelevant (hP : C.Problems P P') (hσ : |C.σ| = 1 ∨ ExactLaws K)
    (h : C.Twin P P' tol (C.tol tol) fuel y0 yp0 s s') :
    C.Same (Cfg.newton P tol fuel) (Cfg.newton P' (C.tol tol) fuel) s s' ∧
    ∀ (rf sf : Nat) (op : Op K), legit s op →
      (exec (Cfg.newton P' (C.tol tol) fuel) rf sf s' (C.op op) = none ↔ exec (Cfg.newton P tol fuel) rf sf s op = none) ∧
      ∀ s1 r, exec (Cfg.newton P tol fuel) rf sf s op = some (s1, r) →
        ∃ s1', exec (Cfg.newton P' (C.tol tol) fuel) rf sf s' (C.op op) = some (s1', C.result op r) ∧
          C.Same (Cfg.newton P tol fuel) (Cfg.newton P' (C.tol tol) fuel) s1 s1' := by
  obtain ⟨hp, hh⟩ := h.pair hP hσ
  have hc := Change.cfgs_newton hP tol fuel
  refine ⟨?_, ?_⟩
  · refine Change.Near.same hc ?_
    rcases hp with hp | ⟨hp, _⟩
    · exact Or.inl hp
    · exact Or.inr hp
  · intro rf sf op ho
    rcases Change.exec_conv hc (show 0 < 500 by decide) rfl rfl hσ rf sf hp hh ho with ⟨k1, k2⟩ | ⟨t1, t1', x, k1, k2, k3, k4⟩
    · rw [k1, k2]
      exact ⟨Iff.rfl, by simp⟩
    · rw [k1, k2]
      refine ⟨by simp, ?_⟩
      intro s1 r h1
      cases h1
      exact ⟨t1', rfl, k3.same hc⟩

/-- C64 (every history has a twin). A call in the old units can always be repeated in the new ones. -/
theorem c64_twin_goes_on (hP : C.Problems P P') (hσ : |C.σ| = 1 ∨ ExactLaws K)
    (h : C.Twin P P' tol (C.tol tol) fuel y0 yp0 s s') {rf sf : Nat} {op : Op K} (ho : legit s op)
    {s1 : State (Newton (Vec n K)) n q K} {r : Res n K} (h1 : exec (Cfg.newton P tol fuel) rf sf s op = some (s1, r))
    (hr : getNumSteps s1 = 0 → r = .solved (.error (.ida .illegalInput))) :
    ∃ s1', C.Twin P P' tol (C.tol tol) fuel y0 yp0 s1 s1' := by
  obtain ⟨s1', k1, -⟩ := ((c64_units_irrelevant hP hσ h).2 rf sf op ho).2 s1 r h1
  exact ⟨s1', .call h ho h1 k1 hr⟩

/-- C64 (form of the equations). Multiplying the residual and the Jacobian by an invertible matrix changes nothing. -/
theorem c64_equation_form (hone : C.σ = 1 ∧ (∀ i, C.d i = 1) ∧ C.π = Equiv.refl _) (hP : C.Problems P P')
    (h : C.Twin P P' tol (C.tol tol) fuel y0 yp0 s s') :
    getYy s' = getYy s ∧ getYp s' = getYp s ∧ s'.tret = s.tret ∧ getCurrentTime s' = getCurrentTime s ∧
    getNumSteps s' = getNumSteps s ∧ getNumErrTestFails s' = getNumErrTestFails s := by
  obtain ⟨h1, h2, h3⟩ := hone
  have k := (c64_units_irrelevant hP (Or.inl (by rw [h1, abs_one])) h).1
  refine ⟨?_, ?_, ?_, ?_, k.numSteps, k.errTestFails⟩
  · rw [k.yy]; funext i; simp [Change.vec, h2, h3]
  · rw [k.yp]; funext i; simp [Change.rate, h1, h2, h3]
  · rw [k.tret, h1, one_mul]
  · rw [k.time, h1, one_mul]

/-! ## The problem in the new units exists -/

/-- The Jacobian in the new units as a linear map. -/
def jacMap (C : Change n K) (A : Mat K) : (Fin n → K) →ₗ[K] (Fin n → K) where
  toFun w := C.E (fun k => Spec.mulVec n A (fun l => if hl : l < n then C.unvec w ⟨l, hl⟩ else 0) k)
  map_add' a b := by
    rw [← map_add]
    congr 1
    funext k
    simp only [Spec.mulVec, Pi.add_apply]
    rw [← Finset.sum_add_distrib]
    refine Finset.sum_congr rfl fun j _ => ?_
    by_cases h : j < n
    · simp only [h, dif_pos, Change.unvec, Pi.add_apply]; ring
    · simp [h]
  map_smul' c a := by
    rw [RingHom.id_apply, ← map_smul]
    congr 1
    funext k
    simp only [Spec.mulVec, Pi.smul_apply, smul_eq_mul]
    rw [Finset.mul_sum]
    refine Finset.sum_congr rfl fun j _ => ?_
    by_cases h : j < n
    · simp only [h, dif_pos, Change.unvec, Pi.smul_apply, smul_eq_mul]; ring
    · simp [h]

/-- The user's functions in the new units. -/
def inUnits (C : Change n K) (P : Problem n q K) : Problem n q K where
  res t y yp _ := C.E (P.res (t / C.σ) (C.unvec y) (fun i => C.σ * C.unvec yp i) vzero)
  jac t cj y yp r _ := fun i j =>
    if hi : i < n then
      jacMap C (P.jac (t / C.σ) (C.σ * cj) (C.unvec y) (fun i => C.σ * C.unvec yp i) (C.E.symm r) (fun _ _ => 0))
        (fun m => if j = (m : Nat) then 1 else 0) ⟨i, hi⟩
    else 0
  root t y yp _ := P.root (t / C.σ) (C.unvec y) (fun i => C.σ * C.unvec yp i) vzero

/-- A problem whose functions do not read the buffers they write to has a counterpart in any other units. -/
theorem c64_problem_exists (C : Change n K) (P : Problem n q K) (h1 : ∀ t y yp b b', P.res t y yp b = P.res t y yp b')
    (h2 : ∀ t y yp b b', P.root t y yp b = P.root t y yp b') : C.Problems P (inUnits C P) := by
  have hσ := C.hσ
  have e1 : ∀ t, C.σ * t / C.σ = t := fun t => mul_div_cancel_left₀ t hσ
  have e2 : ∀ yp : Vec n K, (fun i => C.σ * C.unvec (C.rate yp) i) = yp := by
    intro yp
    have : C.rate yp = C.vec (fun i => yp i / C.σ) := by
      funext i; simp only [Change.rate, Change.vec]; rw [mul_div_assoc]
    rw [this, C.unvec_vec]
    funext i
    exact mul_div_cancel₀ (yp i) hσ
  refine ⟨?_, ?_, ?_⟩
  · intro t y yp b b'
    show C.E _ = _
    rw [e1, e2, C.unvec_vec, h1 t y yp b]
  · intro t cj y yp r v i
    have e3 : C.σ * (cj / C.σ) = cj := mul_div_cancel₀ cj hσ
    have e4 : C.E.symm (C.E r) = r := C.E.symm_apply_apply r
    have e5 : ∀ A : Mat K, C.E (fun k => Spec.mulVec n A (fun l => if hl : l < n then v ⟨l, hl⟩ else 0) k) = jacMap C A (C.vec v) := by
      intro A
      simp only [jacMap, LinearMap.coe_mk, AddHom.coe_mk, C.unvec_vec]
    rw [e5, LinearMap.pi_apply_eq_sum_univ, Finset.sum_apply]
    simp only [Spec.mulVec, inUnits, e1, e2, e3, e4, C.unvec_vec]
    rw [Finset.sum_range]
    refine Finset.sum_congr rfl fun j _ => ?_
    rw [dif_pos i.2, dif_pos j.2, Pi.smul_apply, smul_eq_mul, mul_comm]
    simp only [Fin.ext_iff]
  · intro t y yp b b'
    show P.root _ _ _ _ = _
    rw [e1, e2, C.unvec_vec, h2 t y yp b]

end

/-! ## Witnesses -/

/-- Two unknowns, `a' + a = 0` and `b' + b = a`. -/
def chain : Problem 2 0 ℚ where
  res _ y yp _ := ![yp 0 + y 0, yp 1 + y 1 - y 0]
  jac _ cj _ _ _ _ := fun i j => if i = j then cj + 1 else if i = 1 ∧ j = 0 then -1 else 0
  root _ _ _ b := b

/-- The time is reversed, the unknowns are exchanged and measured in other units, the equations are exchanged. -/
def mirror : Change 2 ℚ where
  σ := -1
  d := ![2, -3]
  π := Equiv.swap 0 1
  E := LinearEquiv.funCongrLeft ℚ ℚ (Equiv.swap 0 1)
  hσ := by decide
  hd := by decide

theorem mirror_problems : mirror.Problems chain (inUnits mirror chain) :=
  c64_problem_exists mirror chain (fun _ _ _ _ _ => rfl) (fun _ _ _ b b' => funext fun i => i.elim0)

/-- Three successful steps of `chain`, and their twins. -/
example : ∃ s s', mirror.Twin chain (inUnits mirror chain) (.ss (1 / 100) (1 / 100)) (mirror.tol (.ss (1 / 100) (1 / 100))) 3
    ![1, 0] ![-1, 1] s s' ∧ getNumSteps s' = 3 ∧ getYy s' 0 = 2 * getYy s 1 ∧ getYy s' 1 = -3 * getYy s 0 ∧
    getCurrentTime s' = -getCurrentTime s := by
  have hd : (((exec (Cfg.newton chain (.ss (1 / 100) (1 / 100)) 3) 10 10 (State.new newton0 ![1, 0] ![-1, 1]) (.solve 1 0 .oneStep)).bind
      fun x => (exec (Cfg.newton chain (.ss (1 / 100) (1 / 100)) 3) 10 10 x.1 (.solve 1 0 .oneStep)).bind
      fun y => (exec (Cfg.newton chain (.ss (1 / 100) (1 / 100)) 3) 10 10 y.1 (.solve 1 0 .oneStep)).map
      fun z => decide (getNumSteps x.1 = 1 ∧ getNumSteps y.1 = 2 ∧ getNumSteps z.1 = 3)) = some true) := by decide +kernel
  obtain ⟨s1, r1, s2, r2, s3, r3, e1, e2, e3, hp⟩ := exec_three
    (P := fun s1 _ s2 _ s3 _ => decide (getNumSteps s1 = 1 ∧ getNumSteps s2 = 2 ∧ getNumSteps s3 = 3)) hd
  obtain ⟨h1, h2, h3⟩ := of_decide_eq_true hp
  have hσ : |mirror.σ| = 1 ∨ ExactLaws ℚ := Or.inl (by decide +kernel)
  obtain ⟨t1, w1⟩ := c64_twin_goes_on mirror_problems hσ .new (fun _ => ⟨_, _, _, rfl⟩) e1 (by rw [h1]; intro h; cases h)
  obtain ⟨t2, w2⟩ := c64_twin_goes_on mirror_problems hσ w1 (fun _ => ⟨_, _, _, rfl⟩) e2 (by rw [h2]; intro h; cases h)
  obtain ⟨t3, w3⟩ := c64_twin_goes_on mirror_problems hσ w2 (fun _ => ⟨_, _, _, rfl⟩) e3 (by rw [h3]; intro h; cases h)
  have k := (c64_units_irrelevant mirror_problems hσ w3).1
  refine ⟨s3, t3, w3, k.numSteps.trans h3, ?_, ?_, ?_⟩
  · rw [k.yy]; rfl
  · rw [k.yy]; rfl
  · rw [k.time]; exact neg_one_mul _

/-! ## After a first step that failed -/

/-- An algebraic equation with a right hand side that jumps: the error test cannot be passed before `|t| = 1`. -/
def jump : Problem 1 0 ℚ where
  res t y _ _ := fun i => y i - (if |t| < 1 then -100 else 0)
  jac _ _ _ _ _ _ := fun _ _ => 1
  root _ _ _ b := b

/-- Only the time is reversed. -/
def backwards : Change 1 ℚ where
  σ := -1
  d := fun _ => 1
  π := Equiv.refl _
  E := LinearEquiv.refl ℚ _
  hσ := by decide
  hd := by decide

/-- `jump` is its own mirror image. -/
theorem jump_problems : backwards.Problems jump jump := by
  have e : backwards.σ = -1 := rfl
  refine ⟨?_, ?_, ?_⟩
  · intro t y yp b b'
    funext i
    simp [jump, backwards, Change.vec]
  · intro t cj y yp r v i
    simp [jump, backwards, Change.vec, Spec.mulVec]
  · intro t y yp b b'
    funext i
    exact i.elim0

/-- C64 (the proviso is needed). After a first step that failed, the same further call takes a step of another length and
fails the error test another number of times when the time is reversed: `solve` has multiplied the initial derivative by the
step size twice. -/
theorem c64_failed_first_step_refuted :
    ∃ (y0 yp0 : Vec 1 ℚ) (a b : Op ℚ) (s s' : State (Newton (Vec 1 ℚ)) 1 0 ℚ) (r r' : List (Res 1 ℚ)),
      run (Cfg.newton jump (.ss 0 1) 3) 30 30 [a, b] (State.new newton0 y0 yp0) = some (s, r) ∧
      run (Cfg.newton jump (backwards.tol (.ss 0 1)) 3) 30 30 [backwards.op a, backwards.op b]
        (State.new newton0 (backwards.vec y0) (backwards.rate yp0)) = some (s', r') ∧
      (∃ l, r = .solved (.error (.other "IDA_ERR_FAIL")) :: l) ∧
      getNumSteps s = 1 ∧ getNumSteps s' = 1 ∧ getCurrentTime s = 6363 / 100 ∧ getCurrentTime s' = -100 ∧
      getNumErrTestFails s = 11 ∧ getNumErrTestFails s' = 10 := by
  have h1 : ((run (Cfg.newton jump (.ss 0 1) 3) 30 30 [.solve 1 0 .oneStep, .solve 100000 0 .oneStep]
      (State.new newton0 (fun _ => 524288) (fun _ => 68719476736000))).map fun p =>
      decide (getNumSteps p.1 = 1 ∧ getCurrentTime p.1 = (6363 / 100 : ℚ) ∧ getNumErrTestFails p.1 = 11) &&
        (match p.2 with
          | .solved (.error (.other x)) :: _ => x == "IDA_ERR_FAIL"
          | _ => false)) = some true := by
    decide +kernel
  have h2 : ((run (Cfg.newton jump (backwards.tol (.ss 0 1)) 3) 30 30 [backwards.op (.solve 1 0 .oneStep),
        backwards.op (.solve 100000 0 .oneStep)]
      (State.new newton0 (backwards.vec fun _ => 524288) (backwards.rate fun _ => 68719476736000))).map fun p =>
      decide (getNumSteps p.1 = 1 ∧ getCurrentTime p.1 = (-100 : ℚ) ∧ getNumErrTestFails p.1 = 10)) = some true := by
    decide +kernel
  obtain ⟨s, l, k1, k2⟩ := run_witness (P := fun (s : State (Newton (Vec 1 ℚ)) 1 0 ℚ) (l : List (Res 1 ℚ)) =>
      decide (getNumSteps s = 1 ∧ getCurrentTime s = (6363 / 100 : ℚ) ∧ getNumErrTestFails s = 11) &&
        (match l with
          | .solved (.error (.other x)) :: _ => x == "IDA_ERR_FAIL"
          | _ => false)) h1
  obtain ⟨s', l', k1', k2'⟩ := run_witness (P := fun s _ =>
      decide (getNumSteps s = 1 ∧ getCurrentTime s = (-100 : ℚ) ∧ getNumErrTestFails s = 10)) h2
  obtain ⟨ka, kb⟩ := Bool.and_eq_true_iff.1 k2
  obtain ⟨ka1, ka2, ka3⟩ := of_decide_eq_true ka
  obtain ⟨kc1, kc2, kc3⟩ := of_decide_eq_true k2'
  refine ⟨_, _, _, _, s, s', l, l', k1, k1', ?_, ka1, kc1, ka2, kc2, ka3, kc3⟩
  split at kb
  · rename_i x l0
    rw [beq_iff_eq] at kb
    subst kb
    exact ⟨_, rfl⟩
  · cases kb

end Verif.Props
