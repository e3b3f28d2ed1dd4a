import Verif.Proofs.RescaleRun
import Verif.BinInst
import Verif.Witness

/-!
# Powers of two: a change of units that changes no bit (C101)

A user measures each unknown, the equations, and each root function in another unit, where the units differ by powers of two
(or any other factors that commute with the rounding of the arithmetic), and reverses the signs of some unknowns or of the
equations.  Every session goes as before, to the last bit: the
same results at the same times, the same step sizes, orders, counters and root directions, and the same calls of the user's
functions, with the arguments in the new units.  This holds in floating-point arithmetic, and no law of arithmetic is used
except that the change of units commutes with the operations.
-/

set_option autoImplicit false
set_option linter.unusedSectionVars false
set_option linter.unusedVariables false

namespace Verif.Props

open Verif Verif.Spec

universe u v

section
variable {n q : Nat} {K : Type u} [Scalar K] (C : Rescale n q K)

theorem session_conv {ν : Type v} (nm : ν → ν) (cfg : Cfg ν n q K) {P' : Problem n q K} {E' : Vec n K → Vec n K → Vec n K}
    {S' : NlSolver ν n K} (H : C.Fits nm cfg P' E' S') (hi : ∀ N, S'.numIters (nm N) = cfg.nls.numIters N) (rf sf : Nat)
    (ops : List (Op K)) : ∀ s : State ν n q K,
    session (cfg.other P' E' S') rf sf (C.state nm s) ops = (session cfg rf sf s ops).map C.seen := by
  induction ops with
  | nil => intro s; rfl
  | cons op ops ih =>
    intro s
    unfold session
    rw [C.exec_conv nm cfg H]
    cases exec cfg rf sf s op with
    | none => rfl
    | some p =>
      obtain ⟨s1, r⟩ := p
      simp only [Option.map_some, List.map_cons]
      rw [ih]
      congr 1
      unfold Rescale.seen
      congr 3
      unfold snapshot
      rw [show getNumNonlinSolvIters (cfg.other P' E' S') (C.state nm s1) = getNumNonlinSolvIters cfg s1 from congrArg (s1.cnt.nni + ·) (hi s1.nls)]
      rfl

/-- **C101.** Any session in the new units is the session in the old units, seen in the new units. -/
theorem c101_sessions {P P' : Problem n q K} (hP : C.Same P P') (tol : TolControl n K) (fuel : Nat) (yy0 yp0 : Vec n K)
    (T : Option K) (rf sf : Nat) (ops : List (Op K)) :
    session (Cfg.newton P' (C.tol tol) fuel) rf sf { State.new newton0 (C.vec yy0) (C.vec yp0) with tstop := T } ops =
      (session (Cfg.newton P tol fuel) rf sf { State.new newton0 yy0 yp0 with tstop := T } ops).map C.seen := by
  rw [← C.other_newton P P' tol fuel, ← session_conv C C.newton _ (C.fits_newton hP tol fuel) (fun _ => rfl)]
  congr 1
  rw [← C.new_conv C.newton newton0 yy0 yp0 T, C.newton0_conv]

/-- **C101, with other parameters.** The same for any configuration with the standard nonlinear solver (initial step, maximal
step, orders, suppression of algebraic variables, …). -/
theorem c101_any_parameters {P P' : Problem n q K} (hP : C.Same P P') (tol : TolControl n K) (fuel : Nat)
    (cfg : Cfg (Newton (Vec n K)) n q K) (h1 : cfg.prob = P) (h2 : cfg.ewtSet = fun y _ => tol.ewtSet y)
    (h3 : cfg.nls = newtonNls P fuel) (yy0 yp0 : Vec n K) (T : Option K) (rf sf : Nat) (ops : List (Op K)) :
    session { cfg with prob := P', ewtSet := fun y _ => (C.tol tol).ewtSet y, nls := newtonNls P' fuel } rf sf
        { State.new newton0 (C.vec yy0) (C.vec yp0) with tstop := T } ops =
      (session cfg rf sf { State.new newton0 yy0 yp0 with tstop := T } ops).map C.seen := by
  subst h1
  have H := C.fits_newton hP tol fuel
  have H' : C.Fits C.newton cfg P' (fun y _ => (C.tol tol).ewtSet y) (newtonNls P' fuel) :=
    ⟨H.root, by rw [h2]; exact H.ewt, by rw [h3]; exact H.nls⟩
  rw [← session_conv C C.newton _ H' (by rw [h3]; exact fun _ => rfl)]
  rw [← C.new_conv C.newton newton0 yy0 yp0 T, C.newton0_conv]
  rfl

end

/-! ## The changes of units -/

/-- In exact arithmetic every positive factor will do. -/
def exactUnit {K : Type u} [Field K] [LinearOrder K] [IsStrictOrderedRing K] [ExactParams K] (c : K) (hc : 0 < c) : Exact2 K where
  f := fun a => c * a
  g := fun a => c⁻¹ * a
  gf := fun a => by field_simp
  fg := fun a => by field_simp
  zero := mul_zero c
  add := fun a b => by ring
  sub := fun a b => by ring
  neg := fun a => by ring
  mul := fun a b => by ring
  mul' := fun a b => by ring
  div := fun a b => by ring
  div' := fun a b => by rw [div_mul_eq_div_div_swap]; ring
  recip := fun a => by simp only [ex_recip]; rw [mul_inv]
  abs := fun a => by simp only [ex_abs]; rw [abs_mul, abs_of_pos hc]
  signum := fun a => by
    simp only [ex_signum]
    have h : c * a < 0 ↔ a < 0 := by
      constructor
      · intro h
        by_contra g
        exact absurd (mul_nonneg hc.le (not_lt.1 g)) (not_le.2 h)
      · exact fun h => mul_neg_of_pos_of_neg hc h
    simp only [h]
  lt := fun a b => by simp only [ex_lt, mul_lt_mul_iff_right₀ hc]
  le := fun a b => by simp only [ex_le, mul_le_mul_iff_right₀ hc]
  eqb := fun a b => by simp only [ex_eqb, mul_right_inj' hc.ne']

/-- In exact arithmetic signs make no difference. -/
theorem exactSign {K : Type u} [Field K] [LinearOrder K] [IsStrictOrderedRing K] [ExactParams K] : SignFree K where
  neg := neg_neg
  zero := neg_zero
  add a b := by ring
  sub a b := by ring
  mul a b := by ring
  mul' a b := by ring
  div a b := by ring
  div' a b := div_neg a
  recip a := by simp only [ex_recip]; rw [inv_neg]
  abs a := by simp only [ex_abs]; rw [abs_neg]
  eqb a := by simp only [ex_eqb, neg_eq_zero]

end Verif.Props

namespace Verif.Bin

open Verif.Spec

theorem expo_unique {x : ℚ} (hx : x ≠ 0) {k : ℤ} (h1 : (2 : ℚ) ^ k ≤ |x|) (h2 : |x| < 2 ^ (k + 1)) : expo x = k := by
  obtain ⟨g1, g2⟩ := expo_spec hx
  have a := (zpow_lt_zpow_iff_right₀ (by norm_num : (1 : ℚ) < 2)).1 (g1.trans_lt h2)
  have b := (zpow_lt_zpow_iff_right₀ (by norm_num : (1 : ℚ) < 2)).1 (h1.trans_lt g2)
  omega

theorem expo_two (k : ℤ) {x : ℚ} (hx : x ≠ 0) : expo (2 ^ k * x) = expo x + k := by
  obtain ⟨g1, g2⟩ := expo_spec hx
  have hk := two_zpow_pos k
  refine expo_unique (mul_ne_zero hk.ne' hx) ?_ ?_
  · rw [abs_mul, abs_of_pos hk, add_comm, zpow_add₀ (by norm_num)]
    exact mul_le_mul_of_nonneg_left g1 hk.le
  · rw [abs_mul, abs_of_pos hk, show expo x + k + 1 = k + (expo x + 1) by ring, zpow_add₀ (by norm_num)]
    exact mul_lt_mul_of_pos_left g2 hk

/-- Rounding commutes with the multiplication by a power of two. -/
theorem rnd_two (p : ℕ) (k : ℤ) (x : ℚ) : rnd p (2 ^ k * x) = 2 ^ k * rnd p x := by
  by_cases hx : x = 0
  · rw [hx, mul_zero, rnd_zero, mul_zero]
  · have hk := two_zpow_pos k
    rw [rnd, if_neg (mul_ne_zero hk.ne' hx), expo_two k hx, rnd, if_neg hx]
    have e1 : (2 : ℚ) ^ k * x * 2 ^ ((p : ℤ) - (expo x + k)) = x * 2 ^ ((p : ℤ) - expo x) := by
      rw [show (p : ℤ) - expo x = k + ((p : ℤ) - (expo x + k)) by ring, zpow_add₀ (by norm_num : (2 : ℚ) ≠ 0)]
      ring
    have e2 : (2 : ℚ) ^ (expo x + k - (p : ℤ)) = 2 ^ k * 2 ^ (expo x - (p : ℤ)) := by
      rw [← zpow_add₀ (by norm_num)]; congr 1; ring
    rw [e1, e2]
    ring

theorem two_neg (k : ℤ) {x : ℚ} : 2 ^ k * x < 0 ↔ x < 0 := by
  have hk := two_zpow_pos k
  constructor
  · intro h
    by_contra g
    exact absurd (mul_nonneg hk.le (not_lt.1 g)) (not_le.2 h)
  · exact fun h => mul_neg_of_pos_of_neg hk h

theorem ext_v {p : ℕ} {a b : Bin p} (h : a.v = b.v) : a = b := by
  cases a; cases b; cases h; rfl

/-- Multiplication by `2 ^ k`: no rounding happens. -/
def two {p : ℕ} (k : ℤ) (a : Bin p) : Bin p := ⟨2 ^ k * a.v, by rw [rnd_two, a.fix]⟩

/-- In binary floating-point arithmetic every power of two will do. -/
def unit (p : ℕ) (k : ℤ) : Exact2 (Bin p) where
  f := two k
  g := two (-k)
  gf := fun a => ext_v (by
    show (2 : ℚ) ^ (-k) * (2 ^ k * a.v) = a.v
    rw [zpow_neg]; field_simp)
  fg := fun a => ext_v (by
    show (2 : ℚ) ^ k * (2 ^ (-k) * a.v) = a.v
    rw [zpow_neg]; field_simp)
  zero := ext_v (by
    show (2 : ℚ) ^ k * rnd p 0 = rnd p 0
    rw [rnd_zero, mul_zero])
  add := fun a b => ext_v (by
    show rnd p (2 ^ k * a.v + 2 ^ k * b.v) = 2 ^ k * rnd p (a.v + b.v)
    rw [← mul_add, rnd_two])
  sub := fun a b => ext_v (by
    show rnd p (2 ^ k * a.v - 2 ^ k * b.v) = 2 ^ k * rnd p (a.v - b.v)
    rw [← mul_sub, rnd_two])
  neg := fun a => ext_v (by
    show -(2 ^ k * a.v) = 2 ^ k * (-a.v)
    ring)
  mul := fun a b => ext_v (by
    show rnd p (2 ^ k * a.v * b.v) = 2 ^ k * rnd p (a.v * b.v)
    rw [mul_assoc, rnd_two])
  mul' := fun a b => ext_v (by
    show rnd p (a.v * (2 ^ k * b.v)) = 2 ^ k * rnd p (a.v * b.v)
    rw [mul_left_comm, rnd_two])
  div := fun a b => ext_v (by
    show rnd p (2 ^ k * a.v / b.v) = 2 ^ k * rnd p (a.v / b.v)
    rw [mul_div_assoc, rnd_two])
  div' := fun a b => ext_v (by
    show rnd p (a.v / (2 ^ k * b.v)) = 2 ^ (-k) * rnd p (a.v / b.v)
    rw [← rnd_two, zpow_neg, div_mul_eq_div_div_swap, div_eq_inv_mul])
  recip := fun a => ext_v (by
    show rnd p (2 ^ k * a.v)⁻¹ = 2 ^ (-k) * rnd p (a.v)⁻¹
    rw [← rnd_two, zpow_neg, mul_inv])
  abs := fun a => ext_v (by
    show (if 2 ^ k * a.v < 0 then (⟨-(2 ^ k * a.v), _⟩ : Bin p) else ⟨2 ^ k * a.v, _⟩).v =
      2 ^ k * (if a.v < 0 then (⟨-a.v, _⟩ : Bin p) else a).v
    by_cases h : a.v < 0
    · rw [if_pos h, if_pos ((two_neg k).2 h)]
      exact (mul_neg _ _).symm
    · rw [if_neg h, if_neg fun g => h ((two_neg k).1 g)])
  signum := fun a => by
    show (if 2 ^ k * a.v < 0 then of (-1) else of 1) = (if a.v < 0 then of (-1) else of 1 : Bin p)
    simp only [two_neg]
  lt := fun a b => by
    show decide (2 ^ k * a.v < 2 ^ k * b.v) = decide (a.v < b.v)
    simp only [mul_lt_mul_iff_right₀ (two_zpow_pos k)]
  le := fun a b => by
    show decide (2 ^ k * a.v ≤ 2 ^ k * b.v) = decide (a.v ≤ b.v)
    simp only [mul_le_mul_iff_right₀ (two_zpow_pos k)]
  eqb := fun a b => by
    show decide (2 ^ k * a.v = 2 ^ k * b.v) = decide (a.v = b.v)
    simp only [mul_right_inj' (two_zpow_pos k).ne']

theorem expo_neg (x : ℚ) : expo (-x) = expo x := by
  unfold expo expo0
  rw [abs_neg, Rat.num_neg_eq_neg_num, Rat.den_neg_eq_den, Int.natAbs_neg]

theorem rne_tie {x : ℚ} (h : |x - rne x| = 1 / 2) : rne x % 2 = 0 := by
  have h1 := Int.floor_le x
  rcases rne_cases x with ⟨e, -, g⟩ | ⟨e, -, g⟩
  · rw [e] at h ⊢
    refine g ?_
    rwa [abs_of_nonneg (by linarith)] at h
  · have h2 := Int.lt_floor_add_one x
    rw [e] at h ⊢
    push_cast at h
    have := g (by rw [abs_of_nonpos (by linarith)] at h; linarith)
    omega

theorem rne_neg (x : ℚ) : rne (-x) = -rne x := by
  have a := abs_sub_rne x
  have b := abs_sub_rne (-x)
  have ta := @rne_tie x
  have tb := @rne_tie (-x)
  generalize rne x = m at *
  generalize rne (-x) = l at *
  obtain ⟨a1, a2⟩ := abs_le.1 a
  obtain ⟨b1, b2⟩ := abs_le.1 b
  have c1 : ((l + m : ℤ) : ℚ) ≤ 1 := by push_cast; linarith
  have c2 : (-1 : ℚ) ≤ ((l + m : ℤ) : ℚ) := by push_cast; linarith
  have d1 : l + m ≤ 1 := by exact_mod_cast c1
  have d2 : -1 ≤ l + m := by exact_mod_cast c2
  rcases lt_trichotomy (l + m) 0 with h | h | h
  · exfalso
    have e : l + m = -1 := by omega
    have e' : (l : ℚ) + m = -1 := by exact_mod_cast e
    have := ta (by rw [show x - m = 1 / 2 by linarith]; norm_num)
    have := tb (by rw [show -x - l = 1 / 2 by linarith]; norm_num)
    omega
  · omega
  · exfalso
    have e : l + m = 1 := by omega
    have e' : (l : ℚ) + m = 1 := by exact_mod_cast e
    have := ta (by rw [show x - m = -(1 / 2) by linarith]; norm_num)
    have := tb (by rw [show -x - l = -(1 / 2) by linarith]; norm_num)
    omega

/-- Rounding commutes with the change of sign. -/
theorem rnd_neg (p : ℕ) (x : ℚ) : rnd p (-x) = -rnd p x := by
  by_cases hx : x = 0
  · rw [hx, neg_zero, rnd_zero, neg_zero]
  · rw [rnd, if_neg (neg_ne_zero.2 hx), rnd, if_neg hx, expo_neg, neg_mul, rne_neg]
    push_cast
    ring

/-- Binary floating-point arithmetic does not distinguish the signs. -/
theorem signFree (p : ℕ) : SignFree (Bin p) where
  neg a := ext_v (neg_neg a.v)
  zero := ext_v (by
    show -rnd p 0 = rnd p 0
    rw [rnd_zero, neg_zero])
  add a b := ext_v (by
    show rnd p (-a.v + -b.v) = -rnd p (a.v + b.v)
    rw [← rnd_neg]; congr 1; ring)
  sub a b := ext_v (by
    show rnd p (-a.v - -b.v) = -rnd p (a.v - b.v)
    rw [← rnd_neg]; congr 1; ring)
  mul a b := ext_v (by
    show rnd p (-a.v * b.v) = -rnd p (a.v * b.v)
    rw [← rnd_neg]; congr 1; ring)
  mul' a b := ext_v (by
    show rnd p (a.v * -b.v) = -rnd p (a.v * b.v)
    rw [← rnd_neg]; congr 1; ring)
  div a b := ext_v (by
    show rnd p (-a.v / b.v) = -rnd p (a.v / b.v)
    rw [← rnd_neg]; congr 1; ring)
  div' a b := ext_v (by
    show rnd p (a.v / -b.v) = -rnd p (a.v / b.v)
    rw [← rnd_neg, div_neg])
  recip a := ext_v (by
    show rnd p (-a.v)⁻¹ = -rnd p (a.v)⁻¹
    rw [← rnd_neg, inv_neg])
  abs a := ext_v (by
    show (if -a.v < 0 then (⟨- -a.v, _⟩ : Bin p) else ⟨-a.v, _⟩).v = (if a.v < 0 then (⟨-a.v, _⟩ : Bin p) else a).v
    rcases lt_trichotomy a.v 0 with h | h | h
    · rw [if_pos h, if_neg (by linarith)]
    · rw [if_neg (by linarith), if_neg (by linarith)]
      show -a.v = a.v
      rw [h, neg_zero]
    · rw [if_pos (by linarith), if_neg (by linarith)]
      exact neg_neg a.v)
  eqb a := by
    show decide (-a.v = rnd p 0) = decide (a.v = rnd p 0)
    rw [rnd_zero]
    simp only [neg_eq_zero]

/-- Multiplication by `2 ^ k` or `-2 ^ k`. -/
def signed (p : ℕ) (minus : Bool) (k : ℤ) : SignedUnit (Bin p) where
  u := unit p k
  minus := minus
  ok := fun _ => signFree p

end Verif.Bin

namespace Verif.Props

open Verif Verif.Spec Verif.Witness

/-! ## A concrete case

The nonlinear equation `y' + y² = 0` with 53-bit numbers, and a root function that watches `y = 999/1000`.  The other user has
`z = -1024 y`, multiplies the equation by -8 and the root function by 1024. -/

def riccati : Problem 1 1 (Bin 52) where
  res _ y yp _ := fun i => yp i + y i * y i
  jac _ cj y _ _ _ := fun _ j => if j = 0 then cj + (y 0 + y 0) else 0
  root _ y _ _ := fun _ => y 0 - Bin.of (999 / 1000)

def riccati' : Problem 1 1 (Bin 52) where
  res _ z zp _ := fun i => zp i / Bin.of 128 - z i * z i / Bin.of 131072
  jac _ cj z _ _ _ := fun _ j => if j = 0 then cj / Bin.of 128 - (z 0 + z 0) / Bin.of 131072 else 0
  root _ z _ _ := fun _ => -z 0 - Bin.of (1024 * (999 / 1000))

def units : Rescale 1 1 (Bin 52) where
  y := fun _ => Bin.signed 52 true 10
  e := Bin.signed 52 true 3
  r := fun _ => Bin.unit 52 10

theorem of128 : (Bin.of 128 : Bin 52).v = 2 ^ (7 : ℤ) := (Bin.of_pow2 7 128 (by norm_num)).trans (by norm_num)

theorem of131072 : (Bin.of 131072 : Bin 52).v = 2 ^ (17 : ℤ) := (Bin.of_pow2 17 131072 (by norm_num)).trans (by norm_num)

theorem units_same : units.Same riccati riccati' where
  res t y yp b b' := by
    funext i
    refine Bin.ext_v ?_
    show Bin.rnd 52 (Bin.rnd 52 (-(2 ^ (10 : ℤ) * (yp i).v) / (Bin.of 128 : Bin 52).v) -
      Bin.rnd 52 (Bin.rnd 52 (-(2 ^ (10 : ℤ) * (y i).v) * -(2 ^ (10 : ℤ) * (y i).v)) / (Bin.of 131072 : Bin 52).v)) =
      -(2 ^ (3 : ℤ) * Bin.rnd 52 ((yp i).v + Bin.rnd 52 ((y i).v * (y i).v)))
    rw [of128, of131072, show -((2 : ℚ) ^ (10 : ℤ) * (yp i).v) / 2 ^ (7 : ℤ) = -(2 ^ (3 : ℤ) * (yp i).v) by norm_num; ring,
      show -((2 : ℚ) ^ (10 : ℤ) * (y i).v) * -(2 ^ (10 : ℤ) * (y i).v) = 2 ^ (20 : ℤ) * ((y i).v * (y i).v) by norm_num; ring,
      Bin.rnd_neg, Bin.rnd_two, Bin.rnd_two,
      show (2 : ℚ) ^ (20 : ℤ) * Bin.rnd 52 ((y i).v * (y i).v) / 2 ^ (17 : ℤ) = 2 ^ (3 : ℤ) * Bin.rnd 52 ((y i).v * (y i).v) by
        norm_num; ring, Bin.rnd_two, Bin.rnd_rnd, (yp i).fix,
      ← neg_add', ← mul_add, Bin.rnd_neg, Bin.rnd_two]
  jac t cj y yp r := by
    funext i j
    show (if j = 0 then cj / Bin.of 128 - (-Bin.two 10 (y 0) + -Bin.two 10 (y 0)) / Bin.of 131072 else 0) =
      if h : j < 1 then -Bin.two 3 (-Bin.two (-10) (if j = 0 then cj + (y 0 + y 0) else 0)) else (if j = 0 then cj + (y 0 + y 0) else 0)
    by_cases hj : j = 0
    · rw [if_pos hj, if_pos hj, dif_pos (by omega)]
      refine Bin.ext_v ?_
      show Bin.rnd 52 (Bin.rnd 52 (cj.v / (Bin.of 128 : Bin 52).v) -
        Bin.rnd 52 (Bin.rnd 52 (-(2 ^ (10 : ℤ) * (y 0).v) + -(2 ^ (10 : ℤ) * (y 0).v)) / (Bin.of 131072 : Bin 52).v)) =
        -(2 ^ (3 : ℤ) * -(2 ^ (-10 : ℤ) * Bin.rnd 52 (cj.v + Bin.rnd 52 ((y 0).v + (y 0).v))))
      rw [of128, of131072, show cj.v / 2 ^ (7 : ℤ) = 2 ^ (-7 : ℤ) * cj.v by norm_num; ring,
        show -((2 : ℚ) ^ (10 : ℤ) * (y 0).v) + -(2 ^ (10 : ℤ) * (y 0).v) = -(2 ^ (10 : ℤ) * ((y 0).v + (y 0).v)) by ring,
        Bin.rnd_neg, Bin.rnd_two, Bin.rnd_two,
        show -((2 : ℚ) ^ (10 : ℤ) * Bin.rnd 52 ((y 0).v + (y 0).v)) / 2 ^ (17 : ℤ) =
          -(2 ^ (-7 : ℤ) * Bin.rnd 52 ((y 0).v + (y 0).v)) by norm_num; ring,
        Bin.rnd_neg, Bin.rnd_two, Bin.rnd_rnd, cj.fix, sub_neg_eq_add, ← mul_add, Bin.rnd_two]
      norm_num
      ring
    · rw [if_neg hj, if_neg hj, dif_neg (by omega)]
  root t y yp b b' := by
    funext i
    refine Bin.ext_v ?_
    show Bin.rnd 52 (- -(2 ^ (10 : ℤ) * (y 0).v) - Bin.rnd 52 (1024 * (999 / 1000))) =
      2 ^ (10 : ℤ) * Bin.rnd 52 ((y 0).v - Bin.rnd 52 (999 / 1000))
    rw [neg_neg, show (1024 : ℚ) * (999 / 1000) = 2 ^ (10 : ℤ) * (999 / 1000) by norm_num, Bin.rnd_two, ← mul_sub, Bin.rnd_two]

def fromOne : State (Newton (Vec 1 (Bin 52))) 1 1 (Bin 52) := State.new newton0 (fun _ => 1) (fun _ => -1)

def from1024 : State (Newton (Vec 1 (Bin 52))) 1 1 (Bin 52) := State.new newton0 (fun _ => -Bin.of 1024) (fun _ => Bin.of 1024)

def tolY : TolControl 1 (Bin 52) := .ss (Bin.of (1 / 100)) (Bin.of (1 / 100))

/-- The absolute tolerance is 1024 times as large, too. -/
def tolZ : TolControl 1 (Bin 52) := .sv (Bin.of (1 / 100)) (fun _ => Bin.of (1024 * (1 / 100)))

/-- What is compared by running both sessions: the status, `tret`, the solution, the numbers of steps and of calls of the
user's functions, and the reported direction of the root. -/
def looks (st : Status) (t y : ℚ) : Option (Res 1 (Bin 52) × Snapshot 1 1 (Bin 52) × List (UCall 1 (Bin 52))) → Bool
  | some (r, v, log) => Res.isStatus st r && decide (v.tret.v = t) && decide ((v.yy 0).v = y) && decide (v.numSteps = 2) &&
      decide (log.length = 7) && decide ((v.rootInfo 0).v = 1)
  | none => false

theorem two1024 (x : ℚ) : (Bin.two 10 (Bin.of x) : Bin 52) = Bin.of (1024 * x) := Bin.ext_v (by
  show (2 : ℚ) ^ (10 : ℤ) * Bin.rnd 52 x = Bin.rnd 52 (1024 * x)
  rw [← Bin.rnd_two]; norm_num)

/-- The first user finds the root at `t = 0.001002…` with `y = 0.99899…`, and then asks for the derivative at `1/1000`.  The
second user finds it at the same time, with exactly -1024 times the value; and their sessions are the same in all. -/
example :
    (session (Cfg.newton riccati' tolZ 3) 100 10 from1024 [.solve (Bin.of 1) 0 .normal, .getDky (Bin.of (1 / 1000)) 1]) =
      (session (Cfg.newton riccati tolY 3) 100 10 fromOne [.solve (Bin.of 1) 0 .normal, .getDky (Bin.of (1 / 1000)) 1]).map
        units.seen ∧
    (session (Cfg.newton riccati tolY 3) 100 10 fromOne [.solve (Bin.of 1) 0 .normal]).map
      (looks .root (2310461598958419 / 2 ^ 61) (8998192055486251 / 2 ^ 53)) = [true] ∧
    (session (Cfg.newton riccati' tolZ 3) 100 10 from1024 [.solve (Bin.of 1) 0 .normal]).map
      (looks .root (2310461598958419 / 2 ^ 61) (-1024 * (8998192055486251 / 2 ^ 53))) = [true] := by
  refine ⟨?_, by decide +kernel, by decide +kernel⟩
  have h := c101_sessions units units_same tolY 3 (fun _ => 1) (fun _ => -1) none 100 10
    [.solve (Bin.of 1) 0 .normal, .getDky (Bin.of (1 / 1000)) 1]
  have e1 : units.vec (fun _ => 1) = fun _ => -Bin.of 1024 := by
    funext i
    refine congrArg (- ·) ((two1024 1).trans ?_)
    rw [mul_one]
  have e2 : units.vec (fun _ => -1) = fun _ => Bin.of 1024 := by
    funext i
    refine ((Bin.signed 52 true 10).neg 1).symm.trans ((congrArg (- ·) (congrFun e1 i)).trans ?_)
    exact (Bin.signFree 52).neg _
  have e3 : units.tol tolY = tolZ := congrArg (TolControl.sv _) (funext fun _ => two1024 (1 / 100))
  rw [e1, e2, e3] at h
  exact h

end Verif.Props
