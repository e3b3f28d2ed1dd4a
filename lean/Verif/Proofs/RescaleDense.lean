import Verif.Spec.Rescale
import Verif.Proofs.Dense

/-!
# Other units, any scalar type: the linear solver
-/

set_option autoImplicit false
set_option linter.unusedSectionVars false
set_option linter.unusedSimpArgs false
set_option linter.unusedVariables false

namespace Verif

open Verif.Spec

universe u v

namespace Spec.Exact2

variable {K : Type u} [Scalar K] (D : Exact2 K)

theorem inj {a b : K} (h : D.f a = D.f b) : a = b := by rw [← D.gf a, ← D.gf b, h]

/-- The inverse change of unit. -/
def inv : Exact2 K where
  f := D.g
  g := D.f
  gf := D.fg
  fg := D.gf
  zero := D.inj (by rw [D.fg, D.zero])
  add a b := D.inj (by rw [D.fg, ← D.add, D.fg, D.fg])
  sub a b := D.inj (by rw [D.fg, ← D.sub, D.fg, D.fg])
  neg a := D.inj (by rw [D.fg, ← D.neg, D.fg])
  mul a b := D.inj (by rw [D.fg, ← D.mul, D.fg])
  mul' a b := D.inj (by rw [D.fg, ← D.mul', D.fg])
  div a b := D.inj (by rw [D.fg, ← D.div, D.fg])
  div' a b := by
    have h := D.div' a (D.g b)
    rw [D.fg] at h
    rw [h, D.fg]
  recip a := by
    have h := D.recip (D.g a)
    rw [D.fg] at h
    rw [h, D.fg]
  abs a := D.inj (by rw [D.fg, ← D.abs, D.fg])
  signum a := by rw [← D.signum (D.g a), D.fg]
  lt a b := by rw [← D.lt (D.g a), D.fg, D.fg]
  le a b := by rw [← D.le (D.g a), D.fg, D.fg]
  eqb a b := by rw [← D.eqb (D.g a), D.fg, D.fg]

theorem lt0 (a : K) : Scalar.lt (D.f a) 0 = Scalar.lt a 0 := by rw [← D.lt a 0, D.zero]
theorem lt0' (a : K) : Scalar.lt 0 (D.f a) = Scalar.lt 0 a := by rw [← D.lt 0 a, D.zero]
theorem le0 (a : K) : Scalar.le (D.f a) 0 = Scalar.le a 0 := by rw [← D.le a 0, D.zero]
theorem le0' (a : K) : Scalar.le 0 (D.f a) = Scalar.le 0 a := by rw [← D.le 0 a, D.zero]
theorem eqb0 (a : K) : Scalar.eqb (D.f a) 0 = Scalar.eqb a 0 := by rw [← D.eqb a 0, D.zero]
theorem gzero : D.g 0 = 0 := D.inv.zero
theorem gsub (a b : K) : D.g a - D.g b = D.g (a - b) := D.inv.sub a b
theorem gmul (a b : K) : D.g a * b = D.g (a * b) := D.inv.mul a b
theorem gmul' (a b : K) : a * D.g b = D.g (a * b) := D.inv.mul' a b
theorem gdiv' (a b : K) : a / D.g b = D.f (a / b) := D.inv.div' a b
theorem grecip (a : K) : Scalar.recip (D.g a) = D.f (Scalar.recip a) := D.inv.recip a
theorem gabs (a : K) : Scalar.abs (D.g a) = D.g (Scalar.abs a) := D.inv.abs a
theorem glt (a b : K) : Scalar.lt (D.g a) (D.g b) = Scalar.lt a b := D.inv.lt a b
theorem gle0 (a : K) : Scalar.le (D.g a) 0 = Scalar.le a 0 := D.inv.le0 a
theorem geqb0 (a : K) : Scalar.eqb (D.g a) 0 = Scalar.eqb a 0 := D.inv.eqb0 a
/-- A quantity and its reciprocal unit. -/
theorem mul_inv (a b : K) : D.f a * D.g b = a * b := by rw [D.mul, D.gmul', D.fg]
theorem inv_mul (a b : K) : D.g a * D.f b = a * b := D.inv.mul_inv a b
theorem div_self (a b : K) : D.f a / D.f b = a / b := by rw [D.div, D.div', D.fg]

end Spec.Exact2

namespace Spec.SignedUnit

variable {K : Type u} [Scalar K] (S : SignedUnit K)

theorem gf (a : K) : S.g (S.f a) = a := by
  unfold f g
  by_cases h : S.minus = true
  · have N := S.ok h
    rw [if_pos h, if_pos h, show S.u.g (-S.u.f a) = -S.u.g (S.u.f a) from (S.u.inv.neg _).symm, N.neg, S.u.gf]
  · rw [if_neg h, if_neg h, S.u.gf]

theorem zero : S.f 0 = 0 := by
  unfold f
  by_cases h : S.minus = true
  · rw [if_pos h, S.u.zero, (S.ok h).zero]
  · rw [if_neg h, S.u.zero]

theorem add (a b : K) : S.f a + S.f b = S.f (a + b) := by
  unfold f
  by_cases h : S.minus = true
  · rw [if_pos h, if_pos h, if_pos h, (S.ok h).add, S.u.add]
  · rw [if_neg h, if_neg h, if_neg h, S.u.add]

theorem sub (a b : K) : S.f a - S.f b = S.f (a - b) := by
  unfold f
  by_cases h : S.minus = true
  · rw [if_pos h, if_pos h, if_pos h, (S.ok h).sub, S.u.sub]
  · rw [if_neg h, if_neg h, if_neg h, S.u.sub]

theorem neg (a : K) : -(S.f a) = S.f (-a) := by
  unfold f
  by_cases h : S.minus = true
  · rw [if_pos h, if_pos h, S.u.neg]
  · rw [if_neg h, if_neg h, S.u.neg]

theorem mul (a b : K) : S.f a * b = S.f (a * b) := by
  unfold f
  by_cases h : S.minus = true
  · rw [if_pos h, if_pos h, (S.ok h).mul, S.u.mul]
  · rw [if_neg h, if_neg h, S.u.mul]

theorem mul' (a b : K) : a * S.f b = S.f (a * b) := by
  unfold f
  by_cases h : S.minus = true
  · rw [if_pos h, if_pos h, (S.ok h).mul', S.u.mul']
  · rw [if_neg h, if_neg h, S.u.mul']

theorem div (a b : K) : S.f a / b = S.f (a / b) := by
  unfold f
  by_cases h : S.minus = true
  · rw [if_pos h, if_pos h, (S.ok h).div, S.u.div]
  · rw [if_neg h, if_neg h, S.u.div]

theorem div' (a b : K) : a / S.f b = S.g (a / b) := by
  unfold f g
  by_cases h : S.minus = true
  · rw [if_pos h, if_pos h, (S.ok h).div', S.u.div']
  · rw [if_neg h, if_neg h, S.u.div']

theorem recip (a : K) : Scalar.recip (S.f a) = S.g (Scalar.recip a) := by
  unfold f g
  by_cases h : S.minus = true
  · rw [if_pos h, if_pos h, (S.ok h).recip, S.u.recip]
  · rw [if_neg h, if_neg h, S.u.recip]

theorem abs (a : K) : Scalar.abs (S.f a) = S.u.f (Scalar.abs a) := by
  unfold f
  by_cases h : S.minus = true
  · rw [if_pos h, (S.ok h).abs, S.u.abs]
  · rw [if_neg h, S.u.abs]

theorem eqb0 (a : K) : Scalar.eqb (S.f a) 0 = Scalar.eqb a 0 := by
  unfold f
  by_cases h : S.minus = true
  · rw [if_pos h, (S.ok h).eqb, S.u.eqb0]
  · rw [if_neg h, S.u.eqb0]

/-- The inverse change. -/
def inv : SignedUnit K where
  u := S.u.inv
  minus := S.minus
  ok := S.ok

theorem fg (a : K) : S.f (S.g a) = a := S.inv.gf a
theorem gzero : S.g 0 = 0 := S.inv.zero
theorem gsub (a b : K) : S.g a - S.g b = S.g (a - b) := S.inv.sub a b
theorem gmul (a b : K) : S.g a * b = S.g (a * b) := S.inv.mul a b
theorem gmul' (a b : K) : a * S.g b = S.g (a * b) := S.inv.mul' a b
theorem gdiv' (a b : K) : a / S.g b = S.f (a / b) := S.inv.div' a b
theorem grecip (a : K) : Scalar.recip (S.g a) = S.f (Scalar.recip a) := S.inv.recip a
theorem gabs (a : K) : Scalar.abs (S.g a) = S.u.g (Scalar.abs a) := S.inv.abs a
theorem geqb0 (a : K) : Scalar.eqb (S.g a) 0 = Scalar.eqb a 0 := S.inv.eqb0 a
theorem mul_inv (a b : K) : S.f a * S.g b = a * b := by rw [S.mul, S.gmul', S.fg]
theorem inv_mul (a b : K) : S.g a * S.f b = a * b := S.inv.mul_inv a b
theorem div_self (a b : K) : S.f a / S.f b = a / b := by rw [S.div, S.div', S.fg]

/-- The square of a quantity divided by a tolerance. -/
theorem square (a w : K) : (S.f a * S.u.g w) * (S.f a * S.u.g w) = (a * w) * (a * w) := by
  unfold f
  by_cases h : S.minus = true
  · have N := S.ok h
    rw [if_pos h, N.mul, N.mul, N.mul', N.neg, S.u.mul_inv]
  · rw [if_neg h, S.u.mul_inv]

theorem square_mask (a w m : K) : (S.f a * S.u.g w * m) * (S.f a * S.u.g w * m) = (a * w * m) * (a * w * m) := by
  unfold f
  by_cases h : S.minus = true
  · have N := S.ok h
    rw [if_pos h, N.mul, N.mul, N.mul, N.mul', N.neg, S.u.mul_inv]
  · rw [if_neg h, S.u.mul_inv]

end Spec.SignedUnit

theorem forUp_conv {σ τ : Type u} {f : Nat → σ → σ} {f' : Nat → τ → τ} (c : Nat → σ → τ) (k : Nat)
    (h : ∀ i x, i < k → f' i (c i x) = c (i + 1) (f i x)) (x : σ) : forUp k f' (c 0 x) = c k (forUp k f x) := by
  induction k with
  | zero => rfl
  | succ k ih => rw [forUp_succ, forUp_succ, ih (fun i x hi => h i x (by omega)), h k _ (by omega)]

theorem swapRows_out {K : Type u} [Scalar K] (a : Mat K) (n k l i j : Nat) (hj : ¬ j < n) : swapRows a n k l i j = a i j := by
  unfold swapRows
  split
  · have := forUp_inv (n := n) (s := a)
      (f := fun i a => let x := a k i; let y := a l i; upd2 (upd2 a k i y) l i x) (fun c b => c ≤ n → b i j = a i j)
      (fun _ => rfl) (fun c b _ ih hc => by
        simp only [upd2_apply]
        rw [if_neg (by omega), if_neg (by omega)]
        exact ih (by omega))
    exact this le_rfl
  · rfl

namespace Spec.Rescale

variable {n q : Nat} {K : Type u} [Scalar K] (C : Rescale n q K)

/-- The unit of the column `j` of the Jacobian. -/
def col (j : Nat) (x : K) : K := if h : j < n then C.e.f ((C.y ⟨j, h⟩).g x) else x

theorem mat_apply (a : Mat K) (i j : Nat) : C.mat a i j = C.col j (a i j) := rfl

theorem col_eqb (j : Nat) (x : K) : Scalar.eqb (C.col j x) 0 = Scalar.eqb x 0 := by
  unfold col
  split
  · rw [C.e.eqb0, (C.y _).geqb0]
  · rfl

theorem col_gt (j : Nat) (x y : K) :
    Scalar.lt (Scalar.abs (C.col j x)) (Scalar.abs (C.col j y)) = Scalar.lt (Scalar.abs x) (Scalar.abs y) := by
  unfold col
  split
  · rw [C.e.abs, C.e.abs, C.e.u.lt, (C.y _).gabs, (C.y _).gabs, (C.y _).u.glt]
  · rfl

theorem col_mult (j : Nat) (x y : K) : C.col j x * Scalar.recip (C.col j y) = x * Scalar.recip y := by
  unfold col
  split
  · rw [C.e.recip, C.e.mul_inv, (C.y _).grecip, (C.y _).inv_mul]
  · rfl

theorem col_elim (j : Nat) (x y l : K) : C.col j x - C.col j y * l = C.col j (x - y * l) := by
  unfold col
  split
  · rw [C.e.mul, C.e.sub, (C.y _).gmul, (C.y _).gsub]
  · rfl

/-- The matrix after `k` passes of the factorisation: the multipliers below the diagonal have no unit. -/
def lu (k : Nat) (a : Mat K) : Mat K := fun i j => if j < i ∧ i < n ∧ j < k then a i j else C.col j (a i j)

theorem lu_zero (a : Mat K) : C.lu 0 a = C.mat a := by
  funext i j
  unfold lu
  rw [if_neg (by omega)]
  rfl

theorem pivot_lu (a : Mat K) (k : Nat) : pivotSearch (C.lu k a) n k = pivotSearch a n k := by
  unfold pivotSearch
  have := forUp_inv (n := n - (k + 1)) (s := k)
    (f := fun d l => let i := k + 1 + d; if Scalar.gt (Scalar.abs (C.lu k a i k)) (Scalar.abs (C.lu k a l k)) then i else l)
    (fun c l => l = forUp c (fun d l => let i := k + 1 + d;
      if Scalar.gt (Scalar.abs (a i k)) (Scalar.abs (a l k)) then i else l) k) rfl (fun c l _ ih => by
        rw [forUp_succ, ← ih]
        simp only
        have e : ∀ i, C.lu k a i k = C.col k (a i k) := fun i => by unfold lu; rw [if_neg (by omega)]
        rw [e, e]
        simp only [Scalar.gt, C.col_gt])
  exact this

theorem swap_lu (a : Mat K) (k l : Nat) (hk : k < n) (hkl : k ≤ l) (hl : l < n) :
    swapRows (C.lu k a) n k l = C.lu k (swapRows a n k l) := by
  funext i j
  by_cases hj : j < n
  · rw [swapRows_apply _ _ _ _ _ _ hj]
    unfold lu
    rw [swapRows_apply _ _ _ _ _ _ hj]
    by_cases hik : i = k
    · subst hik
      rw [if_pos rfl]
      by_cases h : j < i
      · rw [if_pos (by omega), if_pos (by omega)]
      · rw [if_neg (by omega), if_neg (by omega)]
    · rw [if_neg hik]
      by_cases hil : i = l
      · subst hil
        rw [if_pos rfl]
        by_cases h : j < k
        · rw [if_pos (by omega), if_pos (by omega)]
        · rw [if_neg (by omega), if_neg (by omega)]
      · rw [if_neg hil]
  · rw [swapRows_out _ _ _ _ _ _ hj]
    unfold lu
    rw [swapRows_out _ _ _ _ _ _ hj]

theorem scale_lu (a : Mat K) (k : Nat) : scaleCol (C.lu k a) n k = C.lu (k + 1) (scaleCol a n k) := by
  funext i j
  rw [scaleCol_apply]
  unfold lu
  rw [scaleCol_apply]
  by_cases h : k < i ∧ i < n ∧ j = k
  · obtain ⟨h1, h2, rfl⟩ := h
    rw [if_neg (show ¬ (j < i ∧ i < n ∧ j < j) by omega), if_neg (show ¬ (j < j ∧ j < n ∧ j < j) by omega),
      if_pos (show j < i ∧ i < n ∧ j < j + 1 by omega), if_pos ⟨h1, h2, rfl⟩, if_pos ⟨h1, h2, rfl⟩, C.col_mult]
  · rw [if_neg h, if_neg h]
    by_cases h' : j < i ∧ i < n ∧ j < k
    · rw [if_pos h', if_pos (by omega)]
    · rw [if_neg h', if_neg (by omega)]

theorem elim_lu (a : Mat K) (k : Nat) : elim (C.lu (k + 1) a) n n k = C.lu (k + 1) (elim a n n k) := by
  funext i j
  rw [elim_apply]
  by_cases h : k < i ∧ i < n ∧ k < j ∧ j < n
  · obtain ⟨h1, h2, h3, h4⟩ := h
    have e1 : C.lu (k + 1) a k j = C.col j (a k j) := by unfold lu; rw [if_neg (by omega)]
    have e2 : C.lu (k + 1) a i j = C.col j (a i j) := by unfold lu; rw [if_neg (by omega)]
    have e3 : C.lu (k + 1) a i k = a i k := by unfold lu; rw [if_pos (by omega)]
    have e4 : C.lu (k + 1) (elim a n n k) i j = C.col j (elim a n n k i j) := by unfold lu; rw [if_neg (by omega)]
    rw [e1, e2, e3, e4, elim_apply, show Scalar.neb (C.col j (a k j)) 0 = Scalar.neb (a k j) 0 by
      simp only [Scalar.neb, C.col_eqb]]
    by_cases h0 : Scalar.neb (a k j) 0 = true
    · rw [if_pos ⟨h1, h2, h3, h4, h0⟩, if_pos ⟨h1, h2, h3, h4, h0⟩, C.col_elim]
    · rw [if_neg (fun h => h0 h.2.2.2.2), if_neg (fun h => h0 h.2.2.2.2)]
  · rw [if_neg (fun g => h ⟨g.1, g.2.1, g.2.2.1, g.2.2.2.1⟩)]
    have e : elim a n n k i j = a i j := by
      rw [elim_apply, if_neg (fun g => h ⟨g.1, g.2.1, g.2.2.1, g.2.2.2.1⟩)]
    unfold lu
    rw [e]

/-- The factorisation with other units. -/
theorem rf_lu (a : Mat K) (p : Nat → Nat) (k : Nat) (hk : k ≤ n) :
    match rfLoop n n a p k with
    | .ok M p' => rfLoop n n (C.mat a) p k = .ok (C.lu k M) p'
    | .err c _ _ => ∃ M' p', rfLoop n n (C.mat a) p k = .err c M' p'
    | .panic => rfLoop n n (C.mat a) p k = .panic := by
  induction k with
  | zero => simp only [rfLoop]; rw [C.lu_zero]
  | succ k ih =>
    have ih := ih (by omega)
    simp only [rfLoop]
    generalize rfLoop n n a p k = o at ih ⊢
    cases o with
    | panic => simp only at ih ⊢; rw [ih]
    | err c M p' => obtain ⟨M', p'', e⟩ := ih; exact ⟨M', p'', by rw [e]⟩
    | ok M p' =>
      simp only at ih ⊢
      rw [ih]
      simp only
      unfold rfStep
      rw [C.pivot_lu]
      obtain ⟨h1, h2⟩ := pivotSearch_range M n k (by omega)
      generalize pivotSearch M n k = l at h1 h2 ⊢
      simp only
      rw [if_neg (show ¬ ¬ (l < n ∧ k < n) by omega), if_neg (show ¬ ¬ (l < n ∧ k < n) by omega)]
      have e1 : C.lu k M l k = C.col k (M l k) := by unfold lu; rw [if_neg (by omega)]
      rw [e1, C.col_eqb]
      by_cases h0 : Scalar.eqb (M l k) 0 = true
      · rw [if_pos h0, if_pos h0]; exact ⟨_, _, rfl⟩
      · rw [if_neg h0, if_neg h0, C.swap_lu _ _ _ (by omega) h1 h2, C.scale_lu, C.elim_lu]

theorem setup_lu (a : Mat K) (p : Nat → Nat) :
    match denseSetup n a p with
    | .ok M p' => denseSetup n (C.mat a) p = .ok (C.lu n M) p'
    | .err c _ _ => ∃ M' p', denseSetup n (C.mat a) p = .err c M' p'
    | .panic => denseSetup n (C.mat a) p = .panic := by
  unfold denseSetup denseGetRf
  rw [if_neg (lt_irrefl n), if_neg (lt_irrefl n)]
  exact C.rf_lu a p n le_rfl

/-! ## Substitution -/

/-- All entries in the unit of the equations. -/
def rhs (b : Nat → K) : Nat → K := fun i => C.e.f (b i)

/-- The right-hand side when the entries from `k` on have been solved for. -/
def part (k : Nat) (b : Nat → K) : Nat → K :=
  fun i => if h : i < n then (if k ≤ i then (C.y ⟨i, h⟩).f (b i) else C.e.f (b i)) else C.e.f (b i)

theorem part_n (b : Nat → K) : C.part n b = C.rhs b := by
  funext i
  unfold part
  split
  · rw [if_neg (by omega)]; rfl
  · rfl

theorem permute_rhs (p : Nat → Nat) (b : Nat → K) (k : Nat) :
    permuteB n p (C.rhs b) k = (permuteB n p b k).map C.rhs := by
  induction k with
  | zero => rfl
  | succ k ih =>
    simp only [permuteB]
    rw [ih]
    cases permuteB n p b k with
    | none => rfl
    | some b =>
      simp only [Option.map_some]
      by_cases h : p k ≠ k
      · rw [if_pos h, if_pos h]
        by_cases h' : p k < n
        · rw [if_pos h', if_pos h']
          simp only [Option.map_some, Option.some.injEq]
          funext i
          simp only [upd, rhs]
          split
          · rfl
          · split <;> rfl
        · rw [if_neg h', if_neg h']; rfl
      · rw [if_neg h, if_neg h]; rfl

theorem forward_rhs (a : Mat K) (b : Nat → K) : forwardSub n (C.lu n a) (C.rhs b) = C.rhs (forwardSub n a b) := by
  unfold forwardSub
  refine forUp_conv (fun _ => C.rhs) (n - 1) (fun k b hk => ?_) b
  simp only
  refine forUp_conv (f := fun d x => upd x (k + 1 + d) (x (k + 1 + d) - a (k + 1 + d) k * b k)) (fun _ => C.rhs) (n - (k + 1))
    (fun d x hd => ?_) b
  have e : C.lu n a (k + 1 + d) k = a (k + 1 + d) k := by unfold lu; rw [if_pos (by omega)]
  funext i
  simp only [upd, rhs, e]
  split
  · rw [C.e.mul', C.e.sub]
  · rfl

/-- One column of the backward substitution. -/
theorem back_col (a : Mat K) (b : Nat → K) (k : Nat) (hk : k < n) :
    (let b' := upd (C.part (k + 1) b) k (C.part (k + 1) b k / C.lu n a k k)
     forUp k (fun i x => upd x i (x i - C.lu n a i k * b' k)) b') =
      C.part k (let b' := upd b k (b k / a k k); forUp k (fun i x => upd x i (x i - a i k * b' k)) b') := by
  have e1 : C.lu n a k k = C.e.f ((C.y ⟨k, hk⟩).g (a k k)) := by
    unfold lu; rw [if_neg (by omega)]; unfold col; rw [dif_pos hk]
  have e2 : C.part (k + 1) b k = C.e.f (b k) := by unfold part; rw [dif_pos hk, if_neg (by omega)]
  have e3 : upd (C.part (k + 1) b) k (C.part (k + 1) b k / C.lu n a k k) = C.part k (upd b k (b k / a k k)) := by
    funext i
    unfold upd
    by_cases h : i = k
    · subst h
      rw [if_pos rfl, e1, e2, C.e.div_self]
      unfold part
      rw [dif_pos hk, if_pos le_rfl, (C.y ⟨i, hk⟩).gdiv']
      simp only [if_pos]
    · rw [if_neg h]
      unfold part
      simp only [if_neg h]
      split
      · by_cases h' : k ≤ i
        · rw [if_pos (by omega), if_pos h']
        · rw [if_neg (by omega), if_neg h']
      · rfl
  simp only
  rw [e3]
  refine forUp_conv (f := fun i x => upd x i (x i - a i k * upd b k (b k / a k k) k)) (fun _ => C.part k) k (fun i x hi => ?_) _
  have e4 : C.lu n a i k = C.e.f ((C.y ⟨k, hk⟩).g (a i k)) := by
    unfold lu; rw [if_neg (by omega)]; unfold col; rw [dif_pos hk]
  have e5 : C.part k (upd b k (b k / a k k)) k = (C.y ⟨k, hk⟩).f (b k / a k k) := by
    unfold part; rw [dif_pos hk, if_pos le_rfl, upd_same]
  rw [e4, e5, upd_same]
  funext j
  unfold upd
  by_cases h : j = i
  · subst h
    rw [if_pos rfl]
    unfold part
    rw [dif_pos (by omega), if_neg (by omega), dif_pos (by omega), if_neg (by omega), C.e.mul,
      (C.y ⟨k, hk⟩).inv_mul, C.e.sub]
    simp only [if_pos]
  · rw [if_neg h]
    unfold part
    simp only [if_neg h]

theorem backward_part (a : Mat K) (b : Nat → K) (hn : n ≠ 0) :
    backwardSub n (C.lu n a) (C.rhs b) = C.part 0 (backwardSub n a b) := by
  unfold backwardSub
  have h := forUp_conv (f := fun d b => (let k := n - 1 - d
      let b := upd b k (b k / a k k)
      let bk := b k
      forUp k (fun i b => upd b i (b i - a i k * bk)) b))
    (f' := fun d b => (let k := n - 1 - d
      let b := upd b k (b k / C.lu n a k k)
      let bk := b k
      forUp k (fun i b => upd b i (b i - C.lu n a i k * bk)) b)) (fun d => C.part (n - d)) (n - 1) (fun d x hd => by
        have e1 : n - d = n - 1 - d + 1 := by omega
        have e2 : n - (d + 1) = n - 1 - d := by omega
        simp only
        rw [e1, e2]
        exact C.back_col a x (n - 1 - d) (by omega)) b
  rw [show n - 0 = n from rfl, C.part_n] at h
  rw [h]
  have e0 : n - (n - 1) = 0 + 1 := by omega
  rw [e0]
  exact C.back_col a _ 0 (by omega)

theorem solve_part (a : Mat K) (p : Nat → Nat) (b : Nat → K) :
    denseSolve n (C.lu n a) p (C.rhs b) = (denseSolve n a p b).map (C.part 0) := by
  unfold denseSolve denseGetRs
  rw [C.permute_rhs]
  cases permuteB n p b n with
  | none => rfl
  | some b =>
    simp only [Option.map_some]
    by_cases h : n = 0
    · rw [if_pos h, if_pos h]; rfl
    · rw [if_neg h, if_neg h, C.forward_rhs, C.backward_part _ _ h]; rfl

end Spec.Rescale

end Verif
