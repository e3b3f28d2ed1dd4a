import Verif.Proofs.FlSingular
import Verif.Proofs.FlPanic
import Verif.Spec.NearSingular
import Verif.Props.Mirror

/-!
# A failed factorization and a panic in floating point (C104)

C02 and C53 are about exact arithmetic: `Dense::setup` fails exactly on singular matrices, and a call of `solve` panics only if the
Jacobian is singular somewhere.  In floating point the first is false in both directions.  What remains: a matrix on which
`Dense::setup` fails is singular up to a perturbation of the size of the rounding errors, and so is the Jacobian in a call
that panics.
-/

set_option autoImplicit false
set_option linter.unusedSectionVars false
set_option linter.unusedVariables false

namespace Verif.Props

open Verif Verif.Spec Verif.Proofs Finset

universe u v w

section
variable {F : Type u} {K : Type v} [Scalar F] [Field K] [LinearOrder K] [IsStrictOrderedRing K] [S : StdModel F K]

local notation "μ" => (StdModel.u (F := F) (K := K))
local notation "u0" => (StdModel.u_nonneg (F := F) (K := K))
local notation "u1" => (StdModel.u_lt (F := F) (K := K))

/-- **C104, the columns.**  If the factorization of an `m` by `n` matrix (`m ≥ n`) with entries of absolute value at most `B` reports
the column `col`, then a change of its entries by at most `blur u n * B` makes the first `col` columns linearly dependent. -/
theorem c104_failed_column {m n : Nat} (hmn : n ≤ m) (A : Mat F) (p0 : Nat → Nat) {col : Nat} {M : Mat F} {p : Nat → Nat}
    (h : denseGetRf m n A p0 = .err col M p) (B : K) (hB : ∀ i, i < m → ∀ j, j < n → |S.val (A i j)| ≤ B) :
    1 ≤ col ∧ col ≤ n ∧ ∃ E : Nat → Nat → K, (∀ i, i < m → ∀ j, j < n → |E i j| ≤ blur μ n * B) ∧
      ColsDependent m (fun i j => S.val (A i j) + E i j) col := by
  unfold denseGetRf at h
  rw [if_neg (by omega)] at h
  obtain ⟨k, p', hk, rfl, hlu, h0⟩ := rfLoop_err_fl (K := K) A p0 n (le_refl n) h
  obtain ⟨E, hE, hb⟩ := hlu.nearDependent (by omega) hk h0
  refine ⟨by omega, by omega, fun i j => if j ≤ k then E i j else 0, ?_, ?_⟩
  · have hB0 : 0 ≤ B := le_trans (abs_nonneg _) (hB 0 (by omega) 0 (by omega))
    have hg1 : (1 : K) ≤ growth (K := K) F := growth_ge
    have hg : (0 : K) ≤ growth (K := K) F ^ n * B := mul_nonneg (pow_nonneg (le_trans zero_le_one hg1) _) hB0
    have hone : (1 : K) ≤ ((1 - μ) ^ 2)⁻¹ := (Fac.one (u := μ) u0 u1 2).le u0 u1
    have hc : (0 : K) ≤ ((1 - μ) ^ 2)⁻¹ * (growth (K := K) F ^ n * B) := mul_nonneg (le_trans zero_le_one hone) hg
    have hγ : gamma μ (k + 2) ≤ gamma μ (n + 1) := by
      unfold gamma
      have hp : (0 : K) < (1 - μ) ^ (n + 1) := pow_pos (by have := u1; linarith) _
      have : (1 - μ : K) ^ (n + 1) ≤ (1 - μ) ^ (k + 2) :=
        pow_le_pow_of_le_one (by have := u1; linarith) (by have := u0; linarith) (by omega)
      have := inv_anti₀ hp this
      linarith
    have hblur : blur μ n * B = gamma μ (n + 1) * (n * (((1 - μ) ^ 2)⁻¹ * (growth (K := K) F ^ n * B))) := by
      unfold blur growth; ring
    have hpos : 0 ≤ blur μ n * B := by
      rw [hblur]
      exact mul_nonneg (gamma_nonneg u0 u1 _) (mul_nonneg (Nat.cast_nonneg _) hc)
    intro r hr j hj
    by_cases hjk : j ≤ k
    · simp only [if_pos hjk]
      obtain ⟨i, hi, rfl⟩ := rowPerm_surj (by omega : k ≤ m) (fun t ht => (hlu.piv t ht).2) hr
      refine le_trans (hb i hi j hjk) ?_
      rw [hblur]
      have hsum : ∑ t ∈ range k, |lowerUnit (fun i j => S.val (M i j)) i t| * |upperTri (fun i j => S.val (M i j)) t j| ≤
          k * (((1 - μ) ^ 2)⁻¹ * (growth (K := K) F ^ n * B)) := by
        have key : ∀ t ∈ range k, |lowerUnit (fun i j => S.val (M i j)) i t| * |upperTri (fun i j => S.val (M i j)) t j| ≤
            ((1 - μ) ^ 2)⁻¹ * (growth (K := K) F ^ n * B) := by
          intro t ht
          rw [mem_range] at ht
          refine mul_le_mul ?_ ?_ (abs_nonneg _) (le_trans zero_le_one hone)
          · simp only [lowerUnit]
            split
            · exact hlu.mult t ht i (by assumption) hi
            · split
              · rw [abs_one]; exact hone
              · rw [abs_zero]; exact le_trans zero_le_one hone
          · simp only [upperTri]
            split
            · refine le_trans (hlu.grow B hB t (by omega) j hj (Or.inl (by assumption))) ?_
              exact mul_le_mul_of_nonneg_right (pow_le_pow_right₀ hg1 hk.le) hB0
            · rw [abs_zero]; exact hg
        have := sum_le_sum key
        rw [sum_const, card_range, nsmul_eq_mul] at this
        exact this
      refine mul_le_mul hγ (le_trans hsum ?_) (sum_nonneg fun t _ => mul_nonneg (abs_nonneg _) (abs_nonneg _))
        (gamma_nonneg u0 u1 _)
      exact mul_le_mul_of_nonneg_right (by exact_mod_cast hk.le) hc
    · simp only [if_neg hjk, abs_zero]
      exact hpos
  · obtain ⟨v, hv, hz⟩ := hE
    refine ⟨v, hv, fun i hi => ?_⟩
    refine Eq.trans ?_ (hz i hi)
    unfold mulVec
    apply sum_congr rfl
    intro j hj
    rw [mem_range] at hj
    dsimp only
    rw [if_pos (by omega)]

theorem colsDependent_det (n : Nat) (A : Nat → Nat → K) {c : Nat} (hc : c ≤ n) (h : ColsDependent n A c) :
    (Matrix.of fun i j : Fin n => A i j).det = 0 := by
  obtain ⟨v, ⟨j, hj, hvj⟩, hv⟩ := h
  rw [← Matrix.exists_mulVec_eq_zero_iff]
  refine ⟨fun i => if (i : Nat) < c then v i else 0, fun h0 => hvj ?_, ?_⟩
  · have := congrFun h0 ⟨j, by omega⟩
    simpa [hj] using this
  · funext i
    have := hv i i.2
    unfold mulVec at this
    show ∑ j : Fin n, A i j * (if (j : Nat) < c then v j else 0) = 0
    rw [← Finset.sum_range (fun j => A i j * (if j < c then v j else 0))]
    refine Eq.trans (Eq.symm ?_) this
    refine Finset.sum_subset_zero_on_sdiff (fun x hx => ?_) (fun x hx => ?_) (fun x hx => ?_)
    · rw [mem_range] at *; omega
    · rw [mem_sdiff, mem_range, mem_range] at hx
      rw [if_neg hx.2, mul_zero]
    · rw [mem_range] at hx
      rw [if_pos hx]

/-- **C104, the linear solver.**  If `Dense::setup` fails on a matrix with entries of absolute value at most `B`, the matrix is
singular up to a change of its entries by at most `blur u n * B`. -/
theorem c104_failed_setup {n : Nat} (A : Mat F) (p0 : Nat → Nat) {col : Nat} {M : Mat F} {p : Nat → Nat}
    (h : denseSetup n A p0 = .err col M p) (B : K) (hB : ∀ i, i < n → ∀ j, j < n → |S.val (A i j)| ≤ B) :
    NearlySingular n (fun i j => S.val (A i j)) (blur μ n * B) := by
  obtain ⟨-, h2, E, h3, h4⟩ := c104_failed_column (le_refl n) A p0 h B hB
  exact ⟨E, h3, colsDependent_det n _ h2 h4⟩

/-- The same as a guarantee: `Dense::setup` succeeds on a matrix that is not singular up to the rounding errors. -/
theorem c104_setup_succeeds {n : Nat} (A : Mat F) (p0 : Nat → Nat) (hp : ∀ t, t < n → p0 t < n) (B : K)
    (hB : ∀ i, i < n → ∀ j, j < n → |S.val (A i j)| ≤ B) (hA : ¬ NearlySingular n (fun i j => S.val (A i j)) (blur μ n * B)) :
    ∃ M p, denseSetup n A p0 = .ok M p := by
  rcases PanicAny.setup_any A hp with ⟨M, p, h, -⟩ | ⟨c, M, p, h⟩
  · exact ⟨M, p, h⟩
  · exact absurd (c104_failed_setup A p0 h B hB) hA

end

/-- For three equations in binary64 the distance is below `1.2e-14` times the largest entry. -/
theorem c104_blur_three : blur (1 / 2 ^ 53 : ℚ) 3 ≤ 12 / 10 ^ 15 := by
  unfold blur gamma
  norm_num

section
variable {n q : Nat} {F : Type u} [Scalar F]

/-- **C104, in any arithmetic**, with infinities and NaN or without: a call of `solve` panics only if `Dense::setup` fails on one of
the user's Jacobians. -/
theorem c104_panic_any (hn : 0 < n) (P : Problem n q F) (tol : TolControl n F) (fuel : Nat)
    (s : State (Newton (Vec n F)) n q F) (h : Reach (Cfg.newton P tol fuel) s) (rf sf : Nat) (tout tret : F) (task : Task)
    (hp : solve (Cfg.newton P tol fuel) rf sf { s with tret := tret } tout task = .panic) :
    ∃ (cj : F) (y yp r : Vec n F) (p0 : Nat → Nat) (col : Nat) (M : Mat F) (p : Nat → Nat),
      denseSetup n (P.jac 0 cj y yp r (fun _ _ => 0)) p0 = .err col M p := by
  have hl := newton_legal P tol fuel
  have hf : Frame s { s with tret := tret } := by frame_rfl
  obtain ⟨p, k, p1, -, -, -, h1, h2, h3⟩ := PanicAny.solve_any hn (fun _ _ => True) (fun _ _ _ => trivial) (fun _ _ _ => trivial)
    (fun _ _ _ _ _ _ => trivial) ((h.sane hl (show 1 ≤ 5 by decide)).micros hl (show 1 ≤ 5 by decide) (Micros.frame hf))
    ((PanicAny.reach_piv hn h).frame PanicAny.pivInv_root hf) hp
  obtain ⟨s1, -, -, -, h4⟩ := PanicAny.step_any hn (fun _ => True) trivial (fun _ _ _ _ _ _ => trivial) h1 h2 h3
  exact ⟨_, h4⟩

end

section
variable {n q : Nat} {F : Type u} {K : Type v} [Scalar F] [Field K] [LinearOrder K] [IsStrictOrderedRing K] [S : Correct F K]

local notation "μ" => (StdModel.u (F := F) (K := K))
local prefix:max "♯" => StdModel.val (F := F) (K := K)

/-- **C104.**  In correctly rounded arithmetic, in every history of the standard solver stack for a system with at least one
component: a call of `solve` panics only if the user's Jacobian is, at some point and for some leading coefficient, singular up to a change of its
entries by at most `blur u n` times the largest entry.  The leading coefficient is `(1 + 1/2 + ... + 1/k)/h` up to the rounding
errors, with `1 ≤ k ≤ 5` and `h` in the direction of the integration (from the current time to `tout` in the first call, that of the
current step size afterwards). -/
theorem c104_panic_nearly_singular (hn : 0 < n) (P : Problem n q F) (tol : TolControl n F) (fuel : Nat)
    (s : State (Newton (Vec n F)) n q F) (h : Reach (Cfg.newton P tol fuel) s) (rf sf : Nat) (tout tret : F) (task : Task)
    (hp : solve (Cfg.newton P tol fuel) rf sf { s with tret := tret } tout task = .panic) :
    ∃ (k : Nat) (hh cj : F) (y yp r : Vec n F), 1 ≤ k ∧ k ≤ 5 ∧
      0 < (if getNumSteps s = 0 then ♯tout - ♯(getCurrentTime s) else ♯(getCurrentStep s)) * ♯hh ∧
      |♯cj * ♯hh - ∑ i ∈ range k, ((i : K) + 1)⁻¹| ≤ gamma μ (k + 3) * ∑ i ∈ range k, ((i : K) + 1)⁻¹ ∧ 0 < ♯cj * ♯hh ∧
      ∀ B, (∀ i, i < n → ∀ j, j < n → |♯(P.jac 0 cj y yp r (fun _ _ => 0) i j)| ≤ B) →
        NearlySingular n (fun i j => ♯(P.jac 0 cj y yp r (fun _ _ => 0) i j)) (blur μ n * B) := by
  have hl := newton_legal P tol fuel
  have hm : (0 : K) ≤ ♯(Cfg.newton P tol fuel).hmaxInv := by
    show (0 : K) ≤ ♯(0 : F)
    rw [S.val_zero]
  have hf : Frame s { s with tret := tret } := by frame_rfl
  obtain ⟨k, hh, cj, k1, k5, hd, ⟨y, yp, r, p0, col, M, p, hs⟩, c, hc, e⟩ := FlControl.newton_solve_fails (K := K) hn
    ((FlControl.reach_ctl hl hm h).of_frame hm hf)
    ((h.sane hl (show 1 ≤ 5 by decide)).micros hl (show 1 ≤ 5 by decide) (Micros.frame hf))
    ((PanicAny.reach_piv hn h).frame PanicAny.pivInv_root hf) hp
  have h0 : ♯hh ≠ 0 := right_ne_zero_of_mul hd.ne'
  have hH : (0 : K) < ∑ i ∈ range k, ((i : K) + 1)⁻¹ :=
    Finset.sum_pos (fun i _ => inv_pos.2 (by positivity)) ⟨0, Finset.mem_range.2 k1⟩
  have e2 : ♯cj * ♯hh = (∑ i ∈ range k, ((i : K) + 1)⁻¹) * c := by
    rw [e]; field_simp
  refine ⟨k, hh, cj, y, yp, r, k1, k5, hd, ?_, ?_, fun B hB => c104_failed_setup _ _ hs B hB⟩
  · rw [e2, show (∑ i ∈ range k, ((i : K) + 1)⁻¹) * c - ∑ i ∈ range k, ((i : K) + 1)⁻¹ =
      (c - 1) * ∑ i ∈ range k, ((i : K) + 1)⁻¹ by ring, abs_mul, abs_of_pos hH]
    exact mul_le_mul_of_nonneg_right (hc.err S.u_nonneg S.u_lt) hH.le
  · rw [e2]
    exact mul_pos hH (hc.pos S.u_nonneg S.u_lt)

/-- The same as a guarantee: if the Jacobian is not singular up to the rounding errors for the leading coefficients of the sign of the
direction of integration, no call of `solve` panics. -/
theorem c104_no_panic (hn : 0 < n) (P : Problem n q F) (tol : TolControl n F) (fuel : Nat)
    (s : State (Newton (Vec n F)) n q F) (h : Reach (Cfg.newton P tol fuel) s) (rf sf : Nat) (tout tret : F) (task : Task)
    (hreg : ∀ cj y yp r, 0 < (if getNumSteps s = 0 then ♯tout - ♯(getCurrentTime s) else ♯(getCurrentStep s)) * ♯cj →
      ∃ B, (∀ i, i < n → ∀ j, j < n → |♯(P.jac 0 cj y yp r (fun _ _ => 0) i j)| ≤ B) ∧
        ¬ NearlySingular n (fun i j => ♯(P.jac 0 cj y yp r (fun _ _ => 0) i j)) (blur μ n * B)) :
    solve (Cfg.newton P tol fuel) rf sf { s with tret := tret } tout task ≠ .panic := by
  intro hp
  obtain ⟨k, hh, cj, y, yp, r, -, -, h3, -, h5, h6⟩ := c104_panic_nearly_singular (K := K) hn P tol fuel s h rf sf tout tret task hp
  obtain ⟨B, h7, h8⟩ := hreg cj y yp r (FlControl.dir_trans h3 (by rw [mul_comm]; exact h5))
  exact h8 (h6 B h7)

end

section witness

/-- One third, rounded. -/
def third : Bin 52 := Scalar.recip (Bin.of 3)

/-- The matrix `3 1 / 1 1/3` with one third rounded.  It is regular. -/
def thirds : Mat (Bin 52) := fun i j => if i = 0 then (if j = 0 then Bin.of 3 else 1) else (if j = 0 then 1 else third)

/-- The exact determinant is not zero, but `Dense::setup` fails: C02 does not carry over to floating point. -/
theorem c104_setup_rejects_regular :
    (Matrix.of fun i j : Fin 2 => (thirds i j).v).det ≠ 0 ∧ ∃ M p, denseSetup 2 thirds (fun _ => 0) = .err 2 M p := by
  constructor
  · rw [Matrix.det_fin_two]
    show (Bin.of 3 : Bin 52).v * third.v - (1 : Bin 52).v * (1 : Bin 52).v ≠ 0
    decide +kernel
  · have hd : (match denseSetup 2 thirds (fun _ => 0) with | .err c _ _ => decide (c = 2) | _ => false) = true := by
      decide +kernel
    split at hd
    · rename_i c M p hs
      obtain rfl : c = 2 := by simpa using hd
      exact ⟨M, p, hs⟩
    · cases hd

/-- C104 for this matrix: it is singular up to a change of the entries by `2e-14`. -/
example : NearlySingular 2 (fun i j => (thirds i j).v) (2 / 10 ^ 14) := by
  haveI : Fact (4 ≤ 52) := ⟨by norm_num⟩
  obtain ⟨-, M, p, h⟩ := c104_setup_rejects_regular
  obtain ⟨E, h1, h2⟩ := c104_failed_setup (K := ℚ) thirds _ h 3 (by
    intro i hi j hj
    have hi' : i = 0 ∨ i = 1 := by omega
    have hj' : j = 0 ∨ j = 1 := by omega
    rcases hi' with rfl | rfl <;> rcases hj' with rfl | rfl
    · show |(Bin.of 3 : Bin 52).v| ≤ 3
      decide +kernel
    · show |(1 : Bin 52).v| ≤ 3
      decide +kernel
    · show |(1 : Bin 52).v| ≤ 3
      decide +kernel
    · show |third.v| ≤ 3
      decide +kernel)
  refine ⟨E, fun i hi j hj => le_trans (h1 i hi j hj) ?_, h2⟩
  show blur ((1 / 2 : ℚ) ^ 52) 2 * 3 ≤ _
  unfold blur gamma
  norm_num

/-- The algebraic equations `3 y + z = 0`, `y + z / 3 = 0` (one third rounded), with the exact Jacobian. -/
def thirdsP : Problem 2 0 (Bin 52) where
  res _ y _ _ := fun i => if i = 0 then Bin.of 3 * y 0 + y 1 else y 0 + third * y 1
  jac _ _ _ _ _ _ := thirds
  root _ _ _ b := b

def tolT : TolControl 2 (Bin 52) := .ss (Bin.of (1 / 100)) (Bin.of (1 / 100))

/-- The only solution of these equations is zero, the Jacobian is regular everywhere, and the first call of `solve` from the
solution panics. -/
theorem c104_regular_jacobian_panics :
    (∀ cj y yp r, (Matrix.of fun i j : Fin 2 => (thirdsP.jac 0 cj y yp r (fun _ _ => 0) i j).v).det ≠ 0) ∧
    solve (Cfg.newton thirdsP tolT 3) 10 10 (State.new newton0 (fun _ => 0) (fun _ => 0)) 1 .normal = .panic := by
  refine ⟨fun cj y yp r => c104_setup_rejects_regular.1, ?_⟩
  have hd : (match solve (Cfg.newton thirdsP tolT 3) 10 10
      (State.new newton0 (fun _ => 0) (fun _ => 0)) 1 .normal with | .panic => true | _ => false) = true := by
    decide +kernel
  split at hd
  · assumption
  · cases hd

/-- A scalar is nearly singular only if it is zero up to the distance. -/
theorem nearlySingular_one {K : Type v} [Field K] [LinearOrder K] [IsStrictOrderedRing K] {A : Nat → Nat → K} {δ : K}
    (h : NearlySingular 1 A δ) : |A 0 0| ≤ δ := by
  obtain ⟨E, h1, h2⟩ := h
  rw [Matrix.det_fin_one] at h2
  have h3 : A 0 0 + E 0 0 = 0 := h2
  rw [eq_neg_of_add_eq_zero_left h3, abs_neg]
  exact h1 0 (by norm_num) 0 (by norm_num)

/-- `y' + y = 0` in binary64 arithmetic. -/
def fading : Problem 1 0 (Bin 52) where
  res _ y yp _ := fun i => yp i + y i
  jac _ cj _ _ _ _ := fun _ _ => cj + 1
  root _ _ _ b := b

def unfaded : State (Newton (Vec 1 (Bin 52))) 1 0 (Bin 52) := State.new newton0 (fun _ => 1) (fun _ => -1)

theorem fading_regular {cj : Bin 52} (hc : 0 < cj.v) : 0 < (cj + 1).v := by
  have : Fact (4 ≤ 52) := ⟨by norm_num⟩
  obtain ⟨d, h1, h2⟩ := StdModel.val_add (K := ℚ) cj 1
  have hd : |d| ≤ (1 / 2 : ℚ) ^ 52 := h1
  have h3 : (cj + 1).v = (cj.v + (1 : Bin 52).v) * (1 + d) := h2
  have e : (1 : Bin 52).v = 1 := by decide +kernel
  rw [h3, e]
  have := (abs_le.1 hd).1
  refine mul_pos (by linarith) ?_
  norm_num at this
  linarith

theorem fading_far {x : ℚ} (h : 0 < x) (h1 : |x| ≤ blur ((1 / 2 : ℚ) ^ 52) 1 * |x|) : False := by
  have hb : blur ((1 / 2 : ℚ) ^ 52) 1 ≤ 1 / 2 := by
    unfold blur gamma
    norm_num
  have := mul_le_mul_of_nonneg_right hb (abs_nonneg x)
  have h2 := abs_pos.2 h.ne'
  linarith

/-- `y' + y = 0` forward in time meets the hypothesis of `c104_no_panic`: no first call panics. -/
theorem fading_no_panic (tol : TolControl 1 (Bin 52)) (fuel rf sf : Nat) (tret : Bin 52) (task : Task) :
    solve (Cfg.newton fading tol fuel) rf sf { unfaded with tret := tret } 1 task ≠ .panic := by
  have : Fact (4 ≤ 52) := ⟨by norm_num⟩
  have h0 : getNumSteps unfaded = 0 := rfl
  have h1 : getCurrentTime unfaded = 0 := rfl
  have hR : Reach (Cfg.newton fading tol fuel) unfaded := .new newton0 (fun _ => 1) (fun _ => -1) none
  generalize unfaded = s at *
  refine c104_no_panic (K := ℚ) (by decide) fading tol fuel s hR rf sf 1 tret task fun cj y yp r hc => ?_
  rw [if_pos h0, h1] at hc
  have hc' : (0 : ℚ) < cj.v := by
    have h : (0 : ℚ) < ((1 : Bin 52).v - (0 : Bin 52).v) * cj.v := hc
    have e : (1 : Bin 52).v - (0 : Bin 52).v = 1 := by decide +kernel
    rwa [e, one_mul] at h
  have hpos := fading_regular hc'
  refine ⟨|(cj + 1).v|, fun i hi j hj => le_refl |(cj + 1).v|, fun hN => ?_⟩
  have hu : StdModel.u (F := Bin 52) (K := ℚ) = (1 / 2 : ℚ) ^ 52 := rfl
  rw [hu] at hN
  have h9 := nearlySingular_one hN
  exact fading_far hpos h9

end witness

end Verif.Props
