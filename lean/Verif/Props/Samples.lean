import Verif.Model.Samples
import Verif.Props.Linear
import Mathlib.Analysis.Calculus.FDeriv.Prod
import Mathlib.Analysis.Calculus.FDeriv.Mul
import Mathlib.Analysis.Calculus.FDeriv.Pi
import Mathlib.Analysis.Calculus.Deriv.Mul
import Mathlib.Analysis.Calculus.Deriv.Pow
import Mathlib.Analysis.SpecialFunctions.Trigonometric.Deriv
import Mathlib.Analysis.SpecialFunctions.Sqrt

/-!
# Properties C54, C55 and C59 - C61: the sample problems, over the real numbers
-/

set_option autoImplicit false
set_option linter.unusedSectionVars false
set_option linter.unusedSimpArgs false
set_option linter.unusedVariables false

namespace Verif.Props

open Verif Real

universe u

/-! ## C54, C59: Roberts -/

/-- `J` is the matrix of `∂F/∂y + cj ∂F/∂y'` at `(y, y')`: `F` is differentiable there with some derivative `L`, and
`J v = L (v, cj v)` for every `v`. -/
def IsSystemJacobian {n : Nat} (F : Vec n ℝ → Vec n ℝ → Vec n ℝ) (cj : ℝ) (y yp : Vec n ℝ) (J : Mat ℝ) : Prop :=
  ∃ L : (Vec n ℝ × Vec n ℝ) →L[ℝ] Vec n ℝ, HasFDerivAt (fun p : Vec n ℝ × Vec n ℝ => F p.1 p.2) L (y, yp) ∧
    ∀ (v : Vec n ℝ) (i : Fin n), ∑ j : Fin n, J i j * v j = L (v, fun j => cj * v j) i

/-- **C54.** For all `t`, `cj`, `y`, `y'` and all previous contents of the buffers, `Roberts::jac` fills in the matrix
`∂F/∂y + cj ∂F/∂y'` of the residual `F` computed by `Roberts::res`. -/
theorem c54_roberts_jacobian (t t' cj : ℝ) (y yp r buf : Vec 3 ℝ) (m : Mat ℝ) :
    IsSystemJacobian (fun y yp => roberts.res t y yp buf) cj y yp (roberts.jac t' cj y yp r m) := by
  let c : Fin 3 → ((Vec 3 ℝ × Vec 3 ℝ) →L[ℝ] ℝ) := fun k =>
    (ContinuousLinearMap.proj k : Vec 3 ℝ →L[ℝ] ℝ).comp (ContinuousLinearMap.fst ℝ (Vec 3 ℝ) (Vec 3 ℝ))
  let d : Fin 3 → ((Vec 3 ℝ × Vec 3 ℝ) →L[ℝ] ℝ) := fun k =>
    (ContinuousLinearMap.proj k : Vec 3 ℝ →L[ℝ] ℝ).comp (ContinuousLinearMap.snd ℝ (Vec 3 ℝ) (Vec 3 ℝ))
  have hc : ∀ k, HasFDerivAt (fun p : Vec 3 ℝ × Vec 3 ℝ => p.1 k) (c k) (y, yp) := fun k => (c k).hasFDerivAt
  have hd : ∀ k, HasFDerivAt (fun p : Vec 3 ℝ × Vec 3 ℝ => p.2 k) (d k) (y, yp) := fun k => (d k).hasFDerivAt
  have e0 := (((hc 0).const_mul (-(4 / 100))).add (((hc 1).const_mul 10000).mul (hc 2))).sub (hd 0)
  have e1 := ((((hc 0).const_mul (-(4 / 100))).add (((hc 1).const_mul 10000).mul (hc 2))).neg.sub
    (((hc 1).const_mul 30000000).mul (hc 1))).sub (hd 1)
  have e2 := (((hc 0).add (hc 1)).add (hc 2)).sub_const (1 : ℝ)
  refine ⟨ContinuousLinearMap.pi
    ![(-(4 / 100) : ℝ) • c 0 + ((10000 * y 1) • c 2 + y 2 • (10000 : ℝ) • c 1) - d 0,
      -((-(4 / 100) : ℝ) • c 0 + ((10000 * y 1) • c 2 + y 2 • (10000 : ℝ) • c 1)) -
        ((30000000 * y 1) • c 1 + y 1 • (30000000 : ℝ) • c 1) - d 1,
      c 0 + c 1 + c 2], hasFDerivAt_pi.2 fun i => ?_, fun v i => ?_⟩
  · fin_cases i
    · exact e0
    · exact e1
    · exact e2
  · fin_cases i <;>
      simp [Fin.sum_univ_three, roberts, robertsJac, upd2, c, d] <;> ring

section
variable {K : Type u} [Field K] [LinearOrder K] [IsStrictOrderedRing K] [ExactParams K]

/-- **C59.** The residual of `Roberts` vanishes exactly on the documented equations; the initial values of the example
satisfy them; and for a positive leading coefficient and nonnegative second and third concentration the Jacobian is
regular, so `Dense::setup` accepts it. -/
theorem c59_roberts (t : K) (y yp r buf : Vec 3 K) (m : Mat K) :
    ((∀ i, roberts.res t y yp buf i = 0) ↔
      yp 0 = -(4 / 100) * y 0 + 10 ^ 4 * y 1 * y 2 ∧
      yp 1 = 4 / 100 * y 0 - 10 ^ 4 * y 1 * y 2 - 3 * 10 ^ 7 * y 1 ^ 2 ∧
      0 = y 0 + y 1 + y 2 - 1) ∧
    (∀ i, roberts.res t ![1, 0, 0] ![-(4 / 100), 4 / 100, 0] buf i = 0) ∧
    ∀ cj, 0 < cj → 0 ≤ y 1 → 0 ≤ y 2 → (asMatrix 3 (roberts.jac t cj y yp r m)).det ≠ 0 ∧
      ∀ p0, ∃ M p, denseSetup 3 (roberts.jac t cj y yp r m) p0 = .ok M p := by
  refine ⟨?_, ?_, ?_⟩
  · rw [Fin.forall_fin_succ, Fin.forall_fin_succ, Fin.forall_fin_succ]
    simp only [roberts, robertsRes, Function.update_apply, Fin.isValue]
    simp
    constructor
    · rintro ⟨h0, h1, h2⟩
      refine ⟨by linarith, by linarith, by linarith⟩
    · rintro ⟨h0, h1, h2⟩
      rw [h0, h1, ← h2]
      refine ⟨by ring, by ring, rfl⟩
  · intro i
    fin_cases i <;> simp [roberts, robertsRes, Function.update_apply]
  · intro cj hc h1 h2
    have hdet : (asMatrix 3 (roberts.jac t cj y yp r m)).det =
        (4 / 100 + 10 ^ 4 * y 1) * (6 * 10 ^ 7 * y 1) + cj * (4 / 100 + 10 ^ 4 * y 2 + 6 * 10 ^ 7 * y 1 + cj) := by
      rw [Matrix.det_fin_three]
      simp [asMatrix, roberts, robertsJac, upd2]
      ring
    have hne : (asMatrix 3 (roberts.jac t cj y yp r m)).det ≠ 0 := by
      rw [hdet]
      have : 0 ≤ (4 / 100 + 10 ^ 4 * y 1) * (6 * 10 ^ 7 * y 1) := by positivity
      have : 0 < cj * (4 / 100 + 10 ^ 4 * y 2 + 6 * 10 ^ 7 * y 1 + cj) := by positivity
      linarith
    exact ⟨hne, fun p0 => ((c02_dense_setup_ok_iff 3 _ p0).1).2 hne⟩

end

/-! ## C55, C60, C61: slider-crank -/

/-- The motion `y` moves at time `t` with the velocities it carries: `q' = qd`, `x' = xd`, `p' = pd`. -/
structure Moves (y : ℝ → Vec 10 ℝ) (t : ℝ) : Prop where
  q : HasDerivAt (fun t => y t 0) (y t 3) t
  x : HasDerivAt (fun t => y t 1) (y t 4) t
  p : HasDerivAt (fun t => y t 2) (y t 5) t

/-- **C55.** Along any motion with `q' = qd`, `x' = xd`, `p' = pd`, components 8 and 9 of the residual are the time
derivatives of components 6 and 7. -/
theorem c55_slider_velocity_constraints (S : SlCrank) (y : ℝ → Vec 10 ℝ) (t : ℝ) (h : Moves y t) (yp : ℝ → Vec 10 ℝ) :
    HasDerivAt (fun t => S.res t (y t) (yp t) 6) (S.res t (y t) (yp t) 8) t ∧
    HasDerivAt (fun t => S.res t (y t) (yp t) 7) (S.res t (y t) (yp t) 9) t := by
  constructor
  · have := (h.x.sub h.p.cos).sub (h.q.cos.const_mul S.a)
    refine this.congr_deriv ?_
    show _ = S.a * sin (y t 0) * y t 3 + y t 4 + sin (y t 2) * y t 5
    ring
  · have := h.p.sin.neg.sub (h.q.sin.const_mul S.a)
    refine this.congr_deriv ?_
    show _ = -S.a * cos (y t 0) * y t 3 - cos (y t 2) * y t 5
    ring

/-- The points of the mechanism: the tip and the middle of the crank (which turns about the origin), the end of the
connecting rod at the crank and its middle; the slider is at `(x, 0)`. -/
noncomputable def crankTip (S : SlCrank) (q : ℝ) : ℝ × ℝ := (S.a * cos q, S.a * sin q)
noncomputable def crankMid (S : SlCrank) (q : ℝ) : ℝ × ℝ := (S.a / 2 * cos q, S.a / 2 * sin q)
noncomputable def rodEnd (x p : ℝ) : ℝ × ℝ := (x - cos p, -sin p)
noncomputable def rodMid (x p : ℝ) : ℝ × ℝ := (x - cos p / 2, -sin p / 2)

/-- Length of the spring between the middles of crank and rod. -/
noncomputable def springLen (S : SlCrank) (q x p : ℝ) : ℝ :=
  √(((rodMid x p).1 - (crankMid S q).1) ^ 2 + ((rodMid x p).2 - (crankMid S q).2) ^ 2)

theorem springLen_eq (S : SlCrank) (q x p : ℝ) : springLen S q x p =
    √(x ^ 2 - x * (cos p + S.a * cos q) + (1 + S.a ^ 2) / 4 + S.a * (cos p * cos q + sin p * sin q) / 2) := by
  unfold springLen rodMid crankMid
  congr 1
  have h1 := sin_sq_add_cos_sq p
  have h2 := sin_sq_add_cos_sq q
  simp only
  linear_combination (1 / 4) * h1 + (S.a ^ 2 / 4) * h2

/-- Derivative of the spring length along a motion. -/
theorem springLen_deriv {S : SlCrank} {q x p : ℝ → ℝ} {t qd xd pd : ℝ} (hq : HasDerivAt q qd t) (hx : HasDerivAt x xd t)
    (hp : HasDerivAt p pd t) (hl : 0 < springLen S (q t) (x t) (p t)) :
    HasDerivAt (fun t => springLen S (q t) (x t) (p t))
      ((2 * x t * xd - xd * (cos (p t) + S.a * cos (q t)) + x t * (sin (p t) * pd + S.a * sin (q t) * qd) -
        S.a * (sin (p t) * cos (q t) - cos (p t) * sin (q t)) * (pd - qd) / 2) /
          (2 * springLen S (q t) (x t) (p t))) t := by
  have hf : (fun t => springLen S (q t) (x t) (p t)) = fun t => √(x t ^ 2 - x t * (cos (p t) + S.a * cos (q t)) +
      (1 + S.a ^ 2) / 4 + S.a * (cos (p t) * cos (q t) + sin (p t) * sin (q t)) / 2) := by
    funext t; exact springLen_eq S _ _ _
  rw [springLen_eq] at hl
  have h0 := Real.sqrt_pos.1 hl
  have hd := ((((hx.pow 2).sub (hx.mul (hp.cos.add (hq.cos.const_mul S.a)))).add_const ((1 + S.a ^ 2) / 4)).add
    ((((hp.cos.mul hq.cos).add (hp.sin.mul hq.sin)).const_mul S.a).div_const 2)).sqrt h0.ne'
  rw [hf, springLen_eq]
  refine hd.congr_deriv ?_
  congr 1
  simp only [Pi.add_apply, Pi.mul_apply, Nat.cast_ofNat]
  ring

/-- The generalised forces in terms of the spring length. -/
theorem force_eq (S : SlCrank) (y : Vec 10 ℝ) {l ld : ℝ} (hl : l = springLen S (y 0) (y 1) (y 2))
    (hld : ld = (2 * y 1 * y 4 - y 4 * (cos (y 2) + S.a * cos (y 0)) + y 1 * (sin (y 2) * y 5 + S.a * sin (y 0) * y 3) -
        S.a * (sin (y 2) * cos (y 0) - cos (y 2) * sin (y 0)) * (y 5 - y 3) / 2) / (2 * l)) :
    S.force y 0 = -((S.k * (l - S.l0) + S.c * ld) / l) * S.a *
      ((sin (y 2) * cos (y 0) - cos (y 2) * sin (y 0)) / 2 + y 1 * sin (y 0)) / 2 ∧
    S.force y 1 = (S.k * (l - S.l0) + S.c * ld) / l * (cos (y 2) / 2 - y 1 + S.a * cos (y 0) / 2) + S.F ∧
    S.force y 2 = -((S.k * (l - S.l0) + S.c * ld) / l) *
      (y 1 * sin (y 2) - S.a * (sin (y 2) * cos (y 0) - cos (y 2) * sin (y 0)) / 2) / 2 - S.F * sin (y 2) := by
  rw [springLen_eq] at hl
  subst hl
  subst hld
  exact ⟨rfl, rfl, rfl⟩

/-- **C60.** The slider-crank residual is the stabilised index-2 formulation of the mechanism: the position constraints
(components 6 and 7) say that the end of the rod is at the tip of the crank; components 0-2 are
`q' - v + Gᵀ μ` and components 3-5 are `M v' - Q + Gᵀ λ`, with `G` the matrix of the partial derivatives of the position
constraints; and `Q` is the force `-(k (l - l0) + c l') ∂l` of the spring-damper between the middles of crank and rod,
`l'` being the derivative of its length `l` along any motion with the velocities in `y`, plus the external force. -/
theorem c60_slider_mechanics (S : SlCrank) (t : ℝ) (y yp : Vec 10 ℝ) :
    (S.res t y yp 6 = 0 ∧ S.res t y yp 7 = 0 ↔ rodEnd (y 1) (y 2) = crankTip S (y 0)) ∧
    (∀ k : Fin 3, ∃ G1 G2 : ℝ,
      HasDerivAt (fun s => S.res t (Function.update y (k.castLE (by omega)) s) yp 6) G1 (y (k.castLE (by omega))) ∧
      HasDerivAt (fun s => S.res t (Function.update y (k.castLE (by omega)) s) yp 7) G2 (y (k.castLE (by omega))) ∧
      S.res t y yp (k.castLE (by omega)) =
        yp (k.castLE (by omega)) - y ⟨k + 3, by omega⟩ + G1 * y 8 + G2 * y 9 ∧
      S.res t y yp ⟨k + 3, by omega⟩ =
        ![S.J1, S.m2, S.J2] k * yp ⟨k + 3, by omega⟩ - S.force y k + G1 * y 6 + G2 * y 7) ∧
    ∀ (z : ℝ → Vec 10 ℝ) (t0 : ℝ), z t0 = y → Moves z t0 → 0 < springLen S (y 0) (y 1) (y 2) →
      ∃ l' l1 l2 l3 : ℝ, HasDerivAt (fun t => springLen S (z t 0) (z t 1) (z t 2)) l' t0 ∧
        HasDerivAt (fun q => springLen S q (y 1) (y 2)) l1 (y 0) ∧
        HasDerivAt (fun x => springLen S (y 0) x (y 2)) l2 (y 1) ∧
        HasDerivAt (fun p => springLen S (y 0) (y 1) p) l3 (y 2) ∧
        let f := S.k * (springLen S (y 0) (y 1) (y 2) - S.l0) + S.c * l'
        S.force y = ![-f * l1, -f * l2 + S.F, -f * l3 - S.F * sin (y 2)] := by
  refine ⟨?_, ?_, ?_⟩
  · show y 1 - cos (y 2) - S.a * cos (y 0) = 0 ∧ -sin (y 2) - S.a * sin (y 0) = 0 ↔
      (y 1 - cos (y 2), -sin (y 2)) = (S.a * cos (y 0), S.a * sin (y 0))
    rw [Prod.mk.injEq, sub_eq_zero, sub_eq_zero]
  · intro k
    fin_cases k
    · refine ⟨S.a * sin (y 0), -(S.a * cos (y 0)), ?_, ?_, ?_, ?_⟩
      · show HasDerivAt (fun s => y 1 - cos (y 2) - S.a * cos s) _ (y 0)
        refine (((hasDerivAt_cos (y 0)).const_mul S.a).const_sub _).congr_deriv ?_
        ring
      · show HasDerivAt (fun s => -sin (y 2) - S.a * sin s) _ (y 0)
        exact ((hasDerivAt_sin (y 0)).const_mul S.a).const_sub _
      · show yp 0 - y 3 + S.a * sin (y 0) * y 8 - S.a * cos (y 0) * y 9 =
          yp 0 - y 3 + S.a * sin (y 0) * y 8 + -(S.a * cos (y 0)) * y 9
        ring
      · show S.J1 * yp 3 - S.force y 0 + S.a * sin (y 0) * y 6 - S.a * cos (y 0) * y 7 =
          S.J1 * yp 3 - S.force y 0 + S.a * sin (y 0) * y 6 + -(S.a * cos (y 0)) * y 7
        ring
    · refine ⟨1, 0, ?_, ?_, ?_, ?_⟩
      · show HasDerivAt (fun s => s - cos (y 2) - S.a * cos (y 0)) _ (y 1)
        exact ((hasDerivAt_id (y 1)).sub_const _).sub_const _
      · show HasDerivAt (fun s : ℝ => -sin (y 2) - S.a * sin (y 0)) _ (y 1)
        exact hasDerivAt_const _ _
      · show yp 1 - y 4 + y 8 = yp 1 - y 4 + 1 * y 8 + 0 * y 9
        ring
      · show S.m2 * yp 4 - S.force y 1 + y 6 = S.m2 * yp 4 - S.force y 1 + 1 * y 6 + 0 * y 7
        ring
    · refine ⟨sin (y 2), -cos (y 2), ?_, ?_, ?_, ?_⟩
      · show HasDerivAt (fun s => y 1 - cos s - S.a * cos (y 0)) _ (y 2)
        refine (((hasDerivAt_cos (y 2)).const_sub _).sub_const _).congr_deriv ?_
        ring
      · show HasDerivAt (fun s => -sin s - S.a * sin (y 0)) _ (y 2)
        exact (hasDerivAt_sin (y 2)).neg.sub_const _
      · show yp 2 - y 5 + sin (y 2) * y 8 - cos (y 2) * y 9 = yp 2 - y 5 + sin (y 2) * y 8 + -cos (y 2) * y 9
        ring
      · show S.J2 * yp 5 - S.force y 2 + sin (y 2) * y 6 - cos (y 2) * y 7 =
          S.J2 * yp 5 - S.force y 2 + sin (y 2) * y 6 + -cos (y 2) * y 7
        ring
  · intro z t0 hz hM hl
    subst hz
    have h' := springLen_deriv hM.q hM.x hM.p hl
    have h1 := springLen_deriv (q := fun s => s) (x := fun _ => z t0 1) (p := fun _ => z t0 2) (hasDerivAt_id (z t0 0))
      (hasDerivAt_const _ _) (hasDerivAt_const _ _) hl
    have h2 := springLen_deriv (q := fun _ => z t0 0) (x := fun s => s) (p := fun _ => z t0 2) (hasDerivAt_const _ _)
      (hasDerivAt_id (z t0 1)) (hasDerivAt_const _ _) hl
    have h3 := springLen_deriv (q := fun _ => z t0 0) (x := fun _ => z t0 1) (p := fun s => s) (hasDerivAt_const _ _)
      (hasDerivAt_const _ _) (hasDerivAt_id (z t0 2)) hl
    refine ⟨_, _, _, _, h', h1, h2, h3, ?_⟩
    obtain ⟨f0, f1, f2⟩ := force_eq S (z t0) rfl rfl
    generalize hL : springLen S (z t0 0) (z t0 1) (z t0 2) = L at *
    intro f
    have hL0 : L ≠ 0 := hl.ne'
    funext i
    fin_cases i
    · refine f0.trans ?_
      show _ = -f * _
      simp only [f]
      field_simp
      ring
    · refine f1.trans ?_
      show _ = -f * _ + S.F
      simp only [f]
      field_simp
      ring
    · refine f2.trans ?_
      show _ = -f * _ - S.F * sin (z t0 2)
      simp only [f]
      field_simp
      ring

/-- The energy: kinetic energy of crank, slider and rod, and that of the spring. -/
noncomputable def energy (S : SlCrank) (y : Vec 10 ℝ) : ℝ :=
  S.J1 * y 3 ^ 2 / 2 + S.m2 * y 4 ^ 2 / 2 + S.J2 * y 5 ^ 2 / 2 + S.k * (springLen S (y 0) (y 1) (y 2) - S.l0) ^ 2 / 2

/-- **C61.** On an exact solution of the slider-crank system (residual zero) with vanishing stabilisation multipliers, the
energy changes only by the damper and the external force: `E' = -c (l')² + F (x' - sin p p')`; the constraint forces do
no work. -/
theorem c61_slider_energy (S : SlCrank) (t : ℝ) (y : ℝ → Vec 10 ℝ) (yp : Vec 10 ℝ)
    (hy : ∀ i : Fin 6, HasDerivAt (fun t => y t (i.castLE (by omega))) (yp (i.castLE (by omega))) t)
    (hres : ∀ i, S.res t (y t) yp i = 0) (h8 : y t 8 = 0) (h9 : y t 9 = 0)
    (hl : 0 < springLen S (y t 0) (y t 1) (y t 2)) :
    ∃ l', HasDerivAt (fun t => springLen S (y t 0) (y t 1) (y t 2)) l' t ∧
      HasDerivAt (fun t => energy S (y t)) (-S.c * l' ^ 2 + S.F * (yp 1 - sin (y t 2) * yp 2)) t := by
  have r0 : yp 0 - y t 3 + S.a * sin (y t 0) * y t 8 - S.a * cos (y t 0) * y t 9 = 0 := hres 0
  have r1 : yp 1 - y t 4 + y t 8 = 0 := hres 1
  have r2 : yp 2 - y t 5 + sin (y t 2) * y t 8 - cos (y t 2) * y t 9 = 0 := hres 2
  have r3 : S.J1 * yp 3 - S.force (y t) 0 + S.a * sin (y t 0) * y t 6 - S.a * cos (y t 0) * y t 7 = 0 := hres 3
  have r4 : S.m2 * yp 4 - S.force (y t) 1 + y t 6 = 0 := hres 4
  have r5 : S.J2 * yp 5 - S.force (y t) 2 + sin (y t 2) * y t 6 - cos (y t 2) * y t 7 = 0 := hres 5
  have r8 : S.a * sin (y t 0) * y t 3 + y t 4 + sin (y t 2) * y t 5 = 0 := hres 8
  have r9 : -S.a * cos (y t 0) * y t 3 - cos (y t 2) * y t 5 = 0 := hres 9
  rw [h8, h9] at r0 r2
  rw [h8] at r1
  have e0 : yp 0 = y t 3 := by linarith
  have e1 : yp 1 = y t 4 := by linarith
  have e2 : yp 2 = y t 5 := by linarith
  have d0 : HasDerivAt (fun t => y t 0) (y t 3) t := e0 ▸ hy 0
  have d1 : HasDerivAt (fun t => y t 1) (y t 4) t := e1 ▸ hy 1
  have d2 : HasDerivAt (fun t => y t 2) (y t 5) t := e2 ▸ hy 2
  have d3 : HasDerivAt (fun t => y t 3) (yp 3) t := hy 3
  have d4 : HasDerivAt (fun t => y t 4) (yp 4) t := hy 4
  have d5 : HasDerivAt (fun t => y t 5) (yp 5) t := hy 5
  obtain ⟨-, -, hF⟩ := c60_slider_mechanics S t (y t) yp
  obtain ⟨l', l1, l2, l3, g', g1, g2, g3, hQ⟩ := hF y t rfl ⟨d0, d1, d2⟩ hl
  have hs := springLen_deriv d0 d1 d2 hl
  have u1 := (springLen_deriv (q := fun s => s) (x := fun _ => y t 1) (p := fun _ => y t 2) (hasDerivAt_id (y t 0))
      (hasDerivAt_const _ _) (hasDerivAt_const _ _) hl).unique g1
  have u2 := (springLen_deriv (q := fun _ => y t 0) (x := fun s => s) (p := fun _ => y t 2) (hasDerivAt_const _ _)
      (hasDerivAt_id (y t 1)) (hasDerivAt_const _ _) hl).unique g2
  have u3 := (springLen_deriv (q := fun _ => y t 0) (x := fun _ => y t 1) (p := fun s => s) (hasDerivAt_const _ _)
      (hasDerivAt_const _ _) (hasDerivAt_id (y t 2)) hl).unique g3
  have hchain : l' = l1 * y t 3 + l2 * y t 4 + l3 * y t 5 := by
    rw [g'.unique hs, ← u1, ← u2, ← u3]
    field_simp
    ring
  refine ⟨l', g', ?_⟩
  have hE := (((((d3.pow 2).const_mul S.J1).div_const 2).add (((d4.pow 2).const_mul S.m2).div_const 2)).add
    (((d5.pow 2).const_mul S.J2).div_const 2)).add ((((g'.sub_const S.l0).pow 2).const_mul S.k).div_const 2)
  refine hE.congr_deriv ?_
  simp only at hQ
  have q0 := congrFun hQ 0
  have q1 := congrFun hQ 1
  have q2 := congrFun hQ 2
  simp only [Matrix.cons_val_zero, Matrix.cons_val_one, Matrix.cons_val] at q0 q1 q2
  rw [q0] at r3
  rw [q1] at r4
  rw [q2] at r5
  rw [e1, e2]
  simp only [Nat.cast_ofNat]
  generalize springLen S (y t 0) (y t 1) (y t 2) = L at *
  linear_combination y t 3 * r3 + y t 4 * r4 + y t 5 * r5 - y t 6 * r8 - y t 7 * r9 + (S.k * (L - S.l0) + S.c * l') * hchain

/-- A state of the mechanism with a spring of positive length: crank and rod pointing along the axis. -/
example : 0 < springLen SlCrank.default 0 (3 / 2) 0 ∧
    rodEnd (3 / 2) 0 = crankTip SlCrank.default 0 := by
  constructor
  · unfold springLen rodMid crankMid SlCrank.default
    apply Real.sqrt_pos.2
    norm_num
  · unfold rodEnd crankTip SlCrank.default
    norm_num

/-- The hypotheses of C61 hold for the equilibrium of the default mechanism with crank and rod along the axis. -/
example : let y : Vec 10 ℝ := ![0, 3 / 2, 0, 0, 0, 0, 5 / 4, 0, 0, 0]
    (∀ i, SlCrank.default.res 0 y (fun _ => 0) i = 0) ∧
    (∀ i : Fin 6, HasDerivAt (fun _ : ℝ => y (i.castLE (by omega))) 0 0) ∧
    0 < springLen SlCrank.default (y 0) (y 1) (y 2) := by
  intro y
  have hl : springLen SlCrank.default 0 (3 / 2) 0 = 3 / 4 := by
    rw [springLen_eq]
    unfold SlCrank.default
    rw [show ((3 / 2 : ℝ) ^ 2 - 3 / 2 * (cos 0 + 1 / 2 * cos 0) + (1 + (1 / 2) ^ 2) / 4 +
      1 / 2 * (cos 0 * cos 0 + sin 0 * sin 0) / 2) = (3 / 4) ^ 2 by simp; norm_num]
    exact Real.sqrt_sq (by norm_num)
  have hy : springLen SlCrank.default (y 0) (y 1) (y 2) = 3 / 4 := hl
  refine ⟨?_, fun i => hasDerivAt_const _ _, by rw [hy]; norm_num⟩
  obtain ⟨f0, f1, f2⟩ := force_eq SlCrank.default y hy.symm rfl
  intro i
  fin_cases i <;> simp [SlCrank.res, f0, f1, f2] <;> simp [y, SlCrank.default] <;> norm_num

end Verif.Props
