import Verif.Proofs.Ghost
import Verif.Proofs.Converge
import Verif.Proofs.Order
import Verif.Proofs.Rounding
import Verif.Proofs.Nan
import Verif.Spec.Still

/-! # An equilibrium is kept, in correctly rounded arithmetic -/

set_option autoImplicit false
set_option linter.unusedSectionVars false
set_option linter.unusedSimpArgs false
set_option linter.unusedVariables false

namespace Verif.Equil

open Verif Verif.Spec Verif.Proofs

universe u v w

section
variable {ν : Type w} {n q : Nat} {F : Type u} {K : Type v} [Scalar F] [Field K] [LinearOrder K] [IsStrictOrderedRing K]
  [S : Correct F K]

local prefix:max "♯" => StdModel.val (F := F) (K := K)

/-! ## Arithmetic with zero -/

theorem rd_zero : S.rd (0 : K) = 0 := by
  have := S.rd_val 0
  rwa [S.val_zero] at this

theorem mul_null {a b : F} (h : ♯a = 0) : ♯(a * b) = 0 := by rw [S.mul_rd, h, zero_mul, rd_zero]
theorem null_mul {a b : F} (h : ♯b = 0) : ♯(a * b) = 0 := by rw [S.mul_rd, h, mul_zero, rd_zero]
theorem add_null {a b : F} (h : ♯b = 0) : ♯(a + b) = ♯a := by rw [S.add_rd, h, add_zero, S.rd_val]
theorem null_add {a b : F} (h : ♯a = 0) : ♯(a + b) = ♯b := by rw [S.add_rd, h, zero_add, S.rd_val]
theorem sub_null {a b : F} (h : ♯b = 0) : ♯(a - b) = ♯a := by rw [S.sub_rd, h, sub_zero, S.rd_val]
theorem one_times {a b : F} (h : a = 1) : ♯(a * b) = ♯b := by rw [S.mul_rd, h, S.val_one, one_mul, S.rd_val]
theorem times_one {a b : F} (h : b = 1) : ♯(a * b) = ♯a := by rw [S.mul_rd, h, S.val_one, mul_one, S.rd_val]
theorem div_null {a b : F} (h : ♯a = 0) (hb : ♯b ≠ 0) : ♯(a / b) = 0 := by
  obtain ⟨d, -, hd⟩ := S.val_div a b hb
  rw [hd, h, zero_div, zero_mul]

theorem null_zero : Null (K := K) (vzero : Vec n F) := fun _ => S.val_zero
theorem Null.neg {x : Vec n F} (h : Null (K := K) x) : Null (K := K) (-x) := fun i => by
  show ♯(-(x i)) = 0
  rw [S.val_neg, h i, neg_zero]
theorem Null.scale {x : Vec n F} (h : Null (K := K) x) (c : F) : Null (K := K) (vscale c x) := fun i => mul_null (h i)
theorem Null.vadd {x y : Vec n F} (h : Null (K := K) x) (h' : Null (K := K) y) : Null (K := K) (vadd x y) := fun i =>
  (add_null (h' i)).trans (h i)
theorem Null.scaledAdd {x y : Vec n F} (h : Null (K := K) x) (c : F) (h' : Null (K := K) y) :
    Null (K := K) (scaledAdd x c y) := fun i => (add_null (null_mul (h' i))).trans (h i)
theorem Alike.vadd {x y y0 : Vec n F} (h : Alike (K := K) x y0) (h' : Null (K := K) y) : Alike (K := K) (vadd x y) y0 :=
  fun i => (add_null (h' i)).trans (h i)
theorem Alike.scaledAdd {x y y0 : Vec n F} (h : Alike (K := K) x y0) (c : F) (h' : Null (K := K) y) :
    Alike (K := K) (scaledAdd x c y) y0 := fun i => (add_null (null_mul (h' i))).trans (h i)
theorem Null.vadd_alike {x y y0 : Vec n F} (h : Null (K := K) x) (h' : Alike (K := K) y y0) :
    Alike (K := K) (Verif.vadd x y) y0 := fun i => (null_add (h i)).trans (h' i)

theorem vsum_null {f : Vec n F} (h : Null (K := K) f) : ♯(vsum f) = 0 := by
  unfold vsum
  have key : ∀ (m : Nat) (g : Fin m → F), (∀ i, ♯(g i) = 0) → ♯(Fin.foldl m (fun acc i => acc + g i) (0 : F)) = 0 := by
    intro m
    induction m with
    | zero => intro g _; rw [Fin.foldl_zero]; exact S.val_zero
    | succ m ih =>
      intro g hg
      rw [Fin.foldl_succ_last]
      exact (add_null (hg _)).trans (ih _ fun i => hg i.castSucc)
  exact key n f h

theorem ofNat_ne {k : Nat} (hk : 0 < k) : ♯(Scalar.ofNat k) ≠ 0 := by
  obtain ⟨d, hd, he⟩ := S.val_ofNat k
  rw [he]
  have h1 := S.u_lt
  have h2 := (abs_le.1 hd).1
  have : (0 : K) < k := by exact_mod_cast hk
  exact (mul_pos this (by linarith)).ne'

theorem sqrt_null {a : F} (h : ♯a = 0) : ♯(Scalar.sqrt a) = 0 := by
  obtain ⟨-, -, h3⟩ := S.val_sqrt a h.ge
  rw [h, zero_mul] at h3
  exact pow_eq_zero_iff (two_ne_zero) |>.1 (le_antisymm h3 (sq_nonneg _))

theorem norm_null (hn : 0 < n) {x w : Vec n F} (id : Fin n → Bool) (b : Bool) (h : Null (K := K) x) :
    ♯(wrmsNorm id x w b) = 0 := by
  unfold wrmsNorm normWrmsMasked normWrms
  split
  · exact sqrt_null (div_null (vsum_null fun i => mul_null (mul_null (mul_null (h i)))) (ofNat_ne hn))
  · exact sqrt_null (div_null (vsum_null fun i => mul_null (mul_null (h i))) (ofNat_ne hn))

/-! ## The linear solver -/

/-- No pivot is zero. -/
def Pivoted (m : Mem n F) : Prop := ∀ i, i < n → ♯(m.matJ i i) ≠ 0

def NullTo (n : Nat) (b : Nat → F) : Prop := ∀ i, i < n → ♯(b i) = 0

theorem NullTo.upd {b : Nat → F} (h : NullTo (K := K) n b) (i : Nat) {v : F} (hv : i < n → ♯v = 0) :
    NullTo (K := K) n (upd b i v) := by
  intro j hj
  by_cases e : j = i
  · subst e; rw [upd_same]; exact hv hj
  · rw [upd_ne _ _ e]; exact h j hj

theorem permuteB_null {p : Nat → Nat} {b b' : Nat → F} {k : Nat} (hk : k ≤ n) (hb : NullTo (K := K) n b)
    (h : permuteB n p b k = some b') : NullTo (K := K) n b' := by
  induction k generalizing b' with
  | zero => cases h; exact hb
  | succ k ih =>
    unfold permuteB at h
    split at h
    · cases h
    · rename_i b1 h1
      have h2 := ih (by omega) h1
      split at h
      · split at h
        · rename_i hne hlt
          cases h
          exact (h2.upd _ fun _ => h2 _ hlt).upd _ fun _ => h2 k (by omega)
        · cases h
      · cases h; exact h2

theorem forwardSub_null {a : Mat F} {b : Nat → F} (h : NullTo (K := K) n b) : NullTo (K := K) n (forwardSub n a b) := by
  unfold forwardSub
  refine forUp_inv (fun _ (b : Nat → F) => NullTo (K := K) n b) h (fun k b1 hk h1 => ?_)
  exact forUp_inv (fun _ (b : Nat → F) => NullTo (K := K) n b) h1 (fun d b2 hd h2 =>
    h2.upd _ fun hi => (sub_null (null_mul (h1 k (by omega)))).trans (h2 _ hi))

theorem backwardSub_null {a : Mat F} {b : Nat → F} (ha : ∀ i, i < n → ♯(a i i) ≠ 0) (h : NullTo (K := K) n b) :
    NullTo (K := K) n (backwardSub n a b) := by
  unfold backwardSub
  simp only
  have key : NullTo (K := K) n (forUp (n - 1) (fun d b => forUp (n - 1 - d) (fun i b_1 => upd b_1 i (b_1 i - a i (n - 1 - d) *
      upd b (n - 1 - d) (b (n - 1 - d) / a (n - 1 - d) (n - 1 - d)) (n - 1 - d)))
      (upd b (n - 1 - d) (b (n - 1 - d) / a (n - 1 - d) (n - 1 - d)))) b) := by
    refine forUp_inv (fun _ (b : Nat → F) => NullTo (K := K) n b) h (fun k b1 hk h1 => ?_)
    have h3 : NullTo (K := K) n (upd b1 (n - 1 - k) (b1 (n - 1 - k) / a (n - 1 - k) (n - 1 - k))) :=
      h1.upd _ fun hi => div_null (h1 _ hi) (ha _ hi)
    exact forUp_inv (fun _ (b : Nat → F) => NullTo (K := K) n b) h3 (fun d b2 hd h2 =>
      h2.upd _ fun hi => (sub_null (null_mul (h3 _ (by omega)))).trans (h2 _ hi))
  exact key.upd _ fun hi => div_null (key _ hi) (ha _ hi)

theorem lsSolve_null {m m' : Mem n F} {b d : Vec n F} (hm : Pivoted (K := K) m) (hb : Null (K := K) b)
    (h : lsSolve m b = some (m', d)) : Null (K := K) d ∧ Pivoted (K := K) m' := by
  unfold lsSolve at h
  split at h
  · cases h
  · rename_i x hx
    simp only [Option.some.injEq, Prod.mk.injEq] at h
    have hx' : NullTo (K := K) n x := by
      unfold denseSolve denseGetRs at hx
      split at hx
      · cases hx
      · rename_i b1 hp
        split at hx
        · cases hx
        · cases hx
          refine backwardSub_null hm (forwardSub_null (permuteB_null (le_refl n) ?_ hp))
          intro i hi
          unfold Vec.toFun
          rw [dif_pos hi]
          exact hb _
    have hv : Null (K := K) (Vec.ofFun x : Vec n F) := fun i => hx' i.val i.isLt
    obtain ⟨h1, h2⟩ := h
    subst h1 h2
    refine ⟨?_, hm⟩
    split
    · exact Null.scale hv _
    · exact hv

theorem lsSetup_pivoted {P : Problem n q F} {e : Env n F} {m m' : Mem n F} {r : Vec n F}
    (h : idaSetup P e m r = some m') : Pivoted (K := K) m' := by
  unfold idaSetup at h
  split at h
  · cases h
  · rename_i m1 h1
    cases h
    unfold lsSetup at h1
    simp only at h1
    split at h1
    · rename_i a p h2
      cases h1
      unfold denseSetup denseGetRf at h2
      rw [if_neg (lt_irrefl n)] at h2
      exact (rfLoop_ok_fl (K := K) _ _ n (le_refl n) h2).diag
    · cases h1
    · cases h1

/-! ## The Newton iteration -/

/-- The prediction is the equilibrium. -/
def Resting (y0 : Vec n F) (e : Env n F) : Prop := Alike (K := K) e.yypredict y0 ∧ Null (K := K) e.yppredict

theorem idaSys_null {P : Problem n q F} {y0 : Vec n F} (hP : AtRest (K := K) P y0) {e : Env n F}
    (he : Resting (K := K) y0 e) {m m' : Mem n F} {y buf d : Vec n F} (hy : Null (K := K) y) (h : idaSys P e m y buf = (m', d)) :
    Null (K := K) d ∧ m'.matJ = m.matJ := by
  unfold idaSys at h
  simp only [Prod.mk.injEq] at h
  obtain ⟨h1, h2⟩ := h
  subst h1 h2
  exact ⟨hP _ _ _ _ (Alike.vadd he.1 hy) (Null.scaledAdd he.2 _ hy), rfl⟩

theorem idaCtest_matJ (e : Env n F) (m : Mem n F) (vw : NlsView) (del : Vec n F) (tol : F) (ewt : Vec n F) :
    (idaCtest e m vw del tol ewt).1.matJ = m.matJ := by
  unfold idaCtest
  simp only
  split
  · split <;> rfl
  · split <;> rfl

theorem newtonInner_null {P : Problem n q F} {y0 : Vec n F} (hP : AtRest (K := K) P y0) {e : Env n F}
    (he : Resting (K := K) y0 e) {tol : F} {w : Vec n F} (fuel : Nat) {N N' : Newton (Vec n F)} {m m' : Mem n F}
    {y y' : Vec n F} {r : Except Err Unit} (hN : Null (K := K) N.delta) (hy : Null (K := K) y) (hm : Pivoted (K := K) m)
    (hd : newtonInner (idaNLProblem P e) tol w fuel N m y = .done N' m' y' r) :
    Null (K := K) y' ∧ Pivoted (K := K) m' := by
  induction fuel generalizing N m y with
  | zero => cases hd
  | succ fuel ih =>
    unfold newtonInner at hd
    simp only at hd
    split at hd
    · cases hd
    · rename_i s1 d e' h1
      unfold idaNLProblem at h1
      simp only at h1
      split at h1 <;> cases h1
    · rename_i m1 d _ h1
      have h2 : lsSolve m (-N.delta) = some (m1, d) := by
        unfold idaNLProblem at h1
        simp only at h1
        split at h1
        · cases h1
        · rename_i hs
          cases h1
          exact hs
      obtain ⟨k1, k2⟩ := lsSolve_null hm (Null.neg hN) h2
      have hy1 : Null (K := K) (y + d) := fun i => (add_null (k1 i)).trans (hy i)
      generalize hI : (idaNLProblem P e).ctest m1 (Newton.view { N with niters := N.niters + 1, delta := d }) (y + d) d tol w = I at hd
      have hJ : I.1.matJ = m1.matJ := by
        rw [← hI]
        exact idaCtest_matJ _ _ _ _ _ _
      obtain ⟨m2, cb⟩ := I
      have hm2 : Pivoted (K := K) m2 := by
        intro i hi
        rw [show m2.matJ = m1.matJ from hJ]
        exact k2 i hi
      cases cb with
      | panic => cases hd
      | err er => cases hd; exact ⟨hy1, hm2⟩
      | ok b =>
        cases b with
        | true => cases hd; exact ⟨hy1, hm2⟩
        | false =>
          simp only at hd
          split at hd
          · cases hd; exact ⟨hy1, hm2⟩
          · split at hd
            · cases hd
            · rename_i h6; cases h6
            · rename_i m3 d3 _ h6
              have h7 : idaSys P e m2 (y + d) d = (m3, d3) := by
                have := h6
                unfold idaNLProblem at this
                simp only [Prod.mk.injEq] at this
                exact Prod.ext this.1 this.2.1
              obtain ⟨j1, j2⟩ := idaSys_null hP he hy1 h7
              refine ih (N := { N with delta := d3, curiter := N.curiter + 1, niters := N.niters + 1 }) j1 hy1 ?_ hd
              intro i hi
              rw [j2]
              exact hm2 i hi

theorem newtonAttempt_null {P : Problem n q F} {y0 : Vec n F} (hP : AtRest (K := K) P y0) {e : Env n F}
    (he : Resting (K := K) y0 e) {tol : F} {w : Vec n F} {c jb : Bool} {N N' : Newton (Vec n F)} {m m' : Mem n F}
    {y y' : Vec n F} {r : Except Err Unit} (hm : c = true ∨ Pivoted (K := K) m)
    (hd : newtonAttempt (idaNLProblem P e) vzero tol w c jb N m y = .done N' m' y' r) :
    Null (K := K) y' ∧ Pivoted (K := K) m' := by
  unfold newtonAttempt at hd
  split at hd
  · cases hd
  · rename_i h1; cases h1
  · rename_i m1 d _ h1
    have h2 : idaSys P e m vzero N.delta = (m1, d) := by
      have := h1
      unfold idaNLProblem at this
      simp only [Prod.mk.injEq] at this
      exact Prod.ext this.1 this.2.1
    obtain ⟨k1, k2⟩ := idaSys_null hP he null_zero h2
    simp only at hd
    split at hd
    · split at hd
      · cases hd
      · rename_i h5
        unfold idaNLProblem at h5
        simp only at h5
        split at h5 <;> cases h5
      · rename_i m2 j h5
        have h6 : idaSetup P e m1 d = some m2 := by
          unfold idaNLProblem at h5
          simp only at h5
          split at h5
          · cases h5
          · rename_i hs
            cases h5
            exact hs
        exact newtonInner_null hP he _ (N := { N with delta := d, jcur := j, curiter := 0 }) k1 null_zero (lsSetup_pivoted h6) hd
    · rename_i hc
      have hm1 : Pivoted (K := K) m1 := by
        intro i hi
        rw [k2]
        exact (hm.resolve_left hc) i hi
      exact newtonInner_null hP he _ (N := { N with delta := d, curiter := 0 }) k1 null_zero hm1 hd

theorem newtonOuter_null {P : Problem n q F} {y0 : Vec n F} (hP : AtRest (K := K) P y0) {e : Env n F}
    (he : Resting (K := K) y0 e) {tol : F} {w : Vec n F} (fuel : Nat) {c jb : Bool} {N N' : Newton (Vec n F)} {m m' : Mem n F}
    {y y' : Vec n F} {r : Except Err Unit} (hm : c = true ∨ Pivoted (K := K) m)
    (hd : newtonOuter (idaNLProblem P e) vzero tol w fuel c jb N m y = .done N' m' y' r) :
    Null (K := K) y' ∧ Pivoted (K := K) m' := by
  induction fuel generalizing c jb N m y with
  | zero => cases hd
  | succ fuel ih =>
    unfold newtonOuter at hd
    split at hd
    · cases hd
    · cases hd
    · rename_i h1
      cases hd
      exact newtonAttempt_null hP he hm h1
    · rename_i N1 m1 y1 err h1
      have h2 := newtonAttempt_null hP he hm h1
      split at hd
      · split at hd
        · exact ih (Or.inr h2.2) hd
        · exact ih (Or.inr h2.2) hd
      · cases hd
        exact h2

theorem nlsCall_null {P : Problem n q F} {tol : TolControl n F} {fuel : Nat} {y0 : Vec n F} (hP : AtRest (K := K) P y0)
    {s : State (Newton (Vec n F)) n q F} (he : Resting (K := K) y0 (tried s).e)
    (hm : 0 < s.cnt.nst → Pivoted (K := K) s.m) {N : Newton (Vec n F)} {m : Mem n F} {ee : Vec n F} {r : Except Err Unit}
    (h : nlsCall (Cfg.newton P tol fuel) s = .ret N m ee r) :
    r = .ok () ∧ Null (K := K) ee ∧ Pivoted (K := K) m := by
  have h5 : (newtonNls P fuel).solve s.nls (tried s).e (nlsPrepare (tried s)).1 vzero s.ee s.e.ewt s.epsNewt
    (nlsPrepare (tried s)).2 = .ret N m ee r := h
  have hr : r = .ok () := by
    cases r with
    | ok u => rfl
    | error err => exact absurd h5 (newton_no_error P fuel)
  refine ⟨hr, ?_⟩
  unfold newtonNls newtonSolve at h5
  simp only at h5
  split at h5
  · rename_i h6
    cases h5
    refine newtonOuter_null hP he fuel ?_ h6
    rcases Nat.eq_zero_or_pos s.cnt.nst with h0 | h0
    · left
      unfold nlsPrepare
      have : (tried s).cnt.nst = 0 := h0
      simp only [this, decide_true, Bool.true_or]
    · right
      intro i hi
      have : (nlsPrepare (tried s)).1.matJ = s.m.matJ := by
        unfold nlsPrepare
        have : (tried s).cnt.nst ≠ 0 := by show s.cnt.nst ≠ 0; omega
        simp only [this, decide_false, Bool.false_eq_true, if_false]
        split <;> rfl
      rw [this]
      exact hm h0 i hi
  · cases h5
  · cases h5

/-! ## The history array -/

/-- The history array of an equilibrium. -/
def Flat (y0 : Vec n F) (phi : Nat → Vec n F) : Prop := Alike (K := K) (phi 0) y0 ∧ ∀ j, 1 ≤ j → Null (K := K) (phi j)

variable {y0 : Vec n F}

theorem Flat.coef {s : State ν n q F} (h : Flat (K := K) y0 s.h.phi) : Flat (K := K) y0 (coefHist s).phi := by
  have h0 : (coefRaw s).phi = s.h.phi := by unfold coefRaw; split <;> rfl
  unfold coefHist
  dsimp only
  rw [h0]
  split
  · have hlo : 1 ≤ nextNs s.c := by unfold nextNs; dsimp only; omega
    unfold scalePhi
    refine ⟨?_, fun j hj => ?_⟩
    · dsimp only
      rw [if_neg (by omega)]; exact h.1
    · dsimp only
      split
      · exact Null.scale (h.2 j hj) _
      · exact h.2 j hj
  · exact h

theorem Flat.sum {phi : Nat → Vec n F} (h : Flat (K := K) y0 phi) (k : Nat) :
    Alike (K := K) (forUp (k + 1) (fun j y => vadd y (phi j)) vzero) y0 := by
  induction k with
  | zero => exact Null.vadd_alike null_zero h.1
  | succ k ih => exact Alike.vadd ih (h.2 _ (by omega))

theorem Flat.sum' {phi : Nat → Vec n F} (h : Flat (K := K) y0 phi) (c : Nat → F) (k : Nat) :
    Null (K := K) (forUp k (fun j y => scaledAdd y (c j) (phi (j + 1))) vzero) := by
  induction k with
  | zero => exact null_zero
  | succ k ih => exact Null.scaledAdd ih _ (h.2 _ (by omega))

theorem Flat.sum0 {phi : Nat → Vec n F} (h : Flat (K := K) y0 phi) {c : Nat → F} (hc : c 0 = 1) (k : Nat) :
    Alike (K := K) (forUp (k + 1) (fun j y => scaledAdd y (c j) (phi j)) vzero) y0 := by
  induction k with
  | zero =>
    intro i
    show ♯((0 : F) + c 0 * phi 0 i) = _
    rw [null_add S.val_zero, one_times hc]
    exact h.1 i
  | succ k ih => exact Alike.scaledAdd ih _ (h.2 _ (by omega))

theorem Flat.upd {phi : Nat → Vec n F} (h : Flat (K := K) y0 phi) {j : Nat} (hj : 1 ≤ j) {v : Vec n F} (hv : Null (K := K) v) :
    Flat (K := K) y0 (upd phi j v) := by
  refine ⟨?_, fun i hi => ?_⟩
  · rw [upd_ne _ _ (by omega)]; exact h.1
  · by_cases hij : i = j
    · subst hij; rw [upd_same]; exact hv
    · rw [upd_ne _ _ hij]; exact h.2 i hi

theorem Flat.update {phi : Nat → Vec n F} (h : Flat (K := K) y0 phi) (maxord kused : Nat) {ee : Vec n F}
    (he : Null (K := K) ee) : Flat (K := K) y0 (updatePhi maxord kused ee phi) := by
  unfold updatePhi
  dsimp only
  have h1 : Flat (K := K) y0 (if kused < maxord then Verif.upd phi (kused + 1) ee else phi) := by
    split
    · exact h.upd (by omega) he
    · exact h
  generalize (if kused < maxord then Verif.upd phi (kused + 1) ee else phi) = phi1 at h1
  have key : ∀ m, m ≤ kused →
      Null (K := K) (forUp m (fun i (c : Vec n F × (Nat → Vec n F)) =>
        (vadd c.1 (c.2 (kused - i)), Verif.upd c.2 (kused - i) (vadd c.1 (c.2 (kused - i))))) (ee, phi1)).1 ∧
      Flat (K := K) y0 (forUp m (fun i (c : Vec n F × (Nat → Vec n F)) =>
        (vadd c.1 (c.2 (kused - i)), Verif.upd c.2 (kused - i) (vadd c.1 (c.2 (kused - i))))) (ee, phi1)).2 := by
    intro m
    induction m with
    | zero => exact fun _ => ⟨he, h1⟩
    | succ m ih =>
      intro hm
      obtain ⟨i1, i2⟩ := ih (by omega)
      have h0 := Null.vadd i1 (i2.2 (kused - m) (by omega))
      exact ⟨h0, i2.upd (by omega) h0⟩
  obtain ⟨k1, k2⟩ := key kused (le_refl _)
  show Flat (K := K) y0 (Verif.upd _ (kused - kused) _)
  rw [Nat.sub_self]
  refine ⟨?_, fun i hi => ?_⟩
  · rw [upd_same]; exact Null.vadd_alike k1 k2.1
  · rw [upd_ne _ _ (by omega)]; exact k2.2 i hi

theorem solCoefs_zero (psi : Nat → F) (delt : F) (k : Nat) : (solCoefs psi delt k).cvals 0 = 1 := by
  unfold solCoefs
  induction k with
  | zero => show upd (fun _ => (0 : F)) 0 1 0 = 1; exact upd_same _ _ _
  | succ k ih =>
    refine Eq.trans ?_ ih
    simp [forUp, upd]

/-! ## The state -/

/-- What is recorded about an attempt at an equilibrium. -/
structure Rest (y0 : Vec n F) (x : Att n F) : Prop where
  out : x.out = .accepted
  ee : Null (K := K) x.ee
  yy : Alike (K := K) x.yy y0
  yp : Null (K := K) x.yp

structure Still (y0 : Vec n F) (s : State ν n q F) : Prop where
  flat : Flat (K := K) y0 s.h.phi
  piv : 0 < s.cnt.nst → Pivoted (K := K) s.m
  atts : ∀ x ∈ s.g.atts, Rest (K := K) y0 x
  acc : ∀ p ∈ s.g.acc, Alike (K := K) p.2 y0
  yy : Alike (K := K) s.m.yy y0
  yp : Null (K := K) s.m.yp

theorem Still.of_eq {s s' : State ν n q F} (h : Still (K := K) y0 s) (h1 : s'.h.phi = s.h.phi) (h2 : s'.g = s.g)
    (h3 : s'.m = s.m) (h4 : s'.cnt.nst = s.cnt.nst) : Still (K := K) y0 s' :=
  ⟨by rw [h1]; exact h.flat, by rw [h3, h4]; exact h.piv, by rw [h2]; exact h.atts, by rw [h2]; exact h.acc,
    by rw [h3]; exact h.yy, by rw [h3]; exact h.yp⟩

theorem core_matJ {m m' : Mem n F} (h : m'.core = m.core) (hm : Pivoted (K := K) m) : Pivoted (K := K) m' := by
  have : m'.matJ = m.matJ := by have := congrArg Mem.matJ h; exact this
  intro i hi
  rw [this]
  exact hm i hi

theorem Flat.sol {s : State ν n q F} (h : Flat (K := K) y0 s.h.phi) (t : F) :
    Alike (K := K) (setSol s t).m.yy y0 ∧ Null (K := K) (setSol s t).m.yp :=
  ⟨h.sum0 (solCoefs_zero _ _ _) _, h.sum' _ _⟩

theorem Still.frame {s s' : State ν n q F} (h : Still (K := K) y0 s) (hf : Frame s s') : Still (K := K) y0 s' := by
  have key : ∀ {x y}, Relation.ReflTransGen (OutStep s) x y → Alike (K := K) x.1 y0 ∧ Null (K := K) x.2 →
      Alike (K := K) y.1 y0 ∧ Null (K := K) y.2 := by
    intro x y hr h1
    induction hr with
    | refl => exact h1
    | tail _ hb ih =>
      cases hb with
      | sol t _ _ => exact h.flat.sol t
      | shift c _ _ => exact ⟨Alike.scaledAdd ih.1 _ (h.flat.2 1 (le_refl _)), ih.2⟩
  have ho := key hf.out ⟨h.yy, h.yp⟩
  exact ⟨by rw [hf.h]; exact h.flat, by rw [hf.cnt]; exact fun h0 => core_matJ hf.m (h.piv h0), by rw [hf.g]; exact h.atts,
    by rw [hf.g]; exact h.acc, ho.1, ho.2⟩

/-- A trial at an equilibrium. -/
theorem Still.trial {P : Problem n q F} {tol : TolControl n F} {fuel : Nat} (hP : AtRest (K := K) P y0)
    {s s3 : State (Newton (Vec n F)) n q F} {r : Except Err Unit} (h : Still (K := K) y0 s)
    (h1 : AfterTrial (Cfg.newton P tol fuel) s s3 r) :
    r = .ok () ∧ Null (K := K) s3.ee ∧ Pivoted (K := K) s3.m ∧ Alike (K := K) s3.m.yy y0 ∧ Null (K := K) s3.m.yp := by
  have hp : Resting (K := K) y0 (tried s).e := ⟨h.flat.coef.sum _, h.flat.coef.sum' _ _⟩
  obtain ⟨m, hm, hm'⟩ := h1.solve
  obtain ⟨g1, g2, g3⟩ := nlsCall_null hP hp h.piv hm
  refine ⟨g1, g2, ?_, ?_, ?_⟩
  · rw [hm']; exact g3
  · rw [hm']; exact Alike.vadd hp.1 g2
  · rw [hm']; exact Null.scaledAdd hp.2 _ g2

theorem passes (hn : 0 < n) {id : Fin n → Bool} {b : Bool} {x w : Vec n F} (c : F) (h : Null (K := K) x) :
    Scalar.le (c * wrmsNorm id x w b) 1 = true := by
  rw [S.le_iff, null_mul (norm_null hn id b h), S.val_one]
  exact zero_le_one

theorem Still.not_failed {P : Problem n q F} {tol : TolControl n F} {fuel : Nat} (hP : AtRest (K := K) P y0) (hn : 0 < n)
    {s s4 : State (Newton (Vec n F)) n q F} {t0 x y : F} {err : Err} (h : Still (K := K) y0 s)
    (h1 : PassFailed (Cfg.newton P tol fuel) t0 s s4 err x y) : False := by
  obtain ⟨s3, r, out, h3, -, h5, -⟩ := h1.tried
  obtain ⟨g1, g2, -⟩ := h.trial hP h3
  have h6 := (h5 g1).1
  rw [passes hn _ g2] at h6
  cases h6

theorem step_still {P : Problem n q F} {tol : TolControl n F} {fuel : Nat} (hP : AtRest (K := K) P y0) (hn : 0 < n)
    {s s' : State (Newton (Vec n F)) n q F} {r : Except Err Unit} (hs : Still (K := K) y0 s)
    (h : step (Cfg.newton P tol fuel) s = .ret s' r) : r = .ok () ∧ Still (K := K) y0 s' := by
  have h0 : Still (K := K) y0 (firstStepInit s) := by
    unfold firstStepInit
    split
    · exact hs.of_eq rfl rfl rfl rfl
    · exact hs
  have := step_rule (cfg := Cfg.newton P tol fuel) (fun s1 _ => Still (K := K) y0 s1) (fun s1 => Still (K := K) y0 s1) (fun s1 _ => False) h0
    (fun s1 f s' f' hI h => by
      obtain ⟨s4, err, x, y, s6, h1, h2, rfl⟩ := attempt_again h
      exact (hI.not_failed hP hn h1).elim)
    (fun s1 f s2 ck x y s' hI h hc => by
      obtain ⟨s3, h1, -, -, -, -, rfl⟩ := attempt_done h
      have hC := completeStep_eq hc
      obtain ⟨-, g2, g3, g4, g5⟩ := hI.trial hP h1
      have hm : s'.m = s3.m := hC.m
      refine ⟨?_, fun _ => ?_, ?_, ?_, ?_, ?_⟩
      · show Flat (K := K) y0 s'.h.phi
        rw [hC.phi]
        refine Flat.update ?_ _ _ g2
        show Flat (K := K) y0 s3.h.phi
        rw [h1.h]
        exact hI.flat.coef
      · show Pivoted (K := K) s'.m
        rw [hm]; exact g3
      · show ∀ z ∈ s'.g.atts, _
        rw [hC.g]
        intro z hz
        have hz' : z ∈ (s3.note s.e.tn (errCoef s1) .accepted).g.atts := hz
        rcases List.mem_cons.1 hz' with rfl | hz'
        · exact ⟨rfl, g2, g4, g5⟩
        · rw [h1.g] at hz'
          exact hI.atts z hz'
      · show ∀ p ∈ s'.g.acc, _
        rw [hC.g]
        intro p hp
        rcases List.mem_cons.1 hp with rfl | hp
        · exact g4
        · have hp' : p ∈ (if s3.cnt.nst = 0 then [(s.e.tn, s3.h.phi 0)] else s3.g.acc) := hp
          split at hp'
          · rw [List.mem_singleton.1 hp']
            show Alike (K := K) (s3.h.phi 0) y0
            rw [h1.h]; exact hI.flat.coef.1
          · rw [h1.g] at hp'
            exact hI.acc p hp'
      · show Alike (K := K) s'.m.yy y0
        rw [hm]; exact g4
      · show Null (K := K) s'.m.yp
        rw [hm]; exact g5)
    (fun s1 f s' e hI h => by
      obtain ⟨s4, err, x, y, f', h1, h2⟩ := attempt_fail h
      exact hI.not_failed hP hn h1) h
  rcases this with h | ⟨e, -, h⟩
  · exact h
  · exact h.elim

theorem firstCall_phi {cfg : Cfg ν n q F} {s s' : State ν n q F} {tout : F} {r : Except Err Unit}
    (h : firstCall cfg s tout = .ret s' r) : s'.h.phi = s.h.phi ∨ ∃ c, s'.h.phi = upd s.h.phi 1 (vscale c (s.h.phi 1)) := by
  have h0 : (initialSetup cfg s).h = s.h := by unfold initialSetup; split <;> rfl
  rcases firstCall_cases h with ⟨-, h, -⟩ | ⟨-, h, -⟩ | ⟨hh, -, -, -, ⟨-, h, -⟩ | ⟨s1, h1, h, -⟩⟩ <;> subst h
  · left; rw [h0]
  · left; show (initialSetup cfg s).h.phi = _; rw [h0]
  · left; show (initialSetup cfg s).h.phi = _; rw [h0]
  · right
    have h2 : s1.h = s.h := by
      unfold firstStop at h1
      split at h1
      · split at h1
        · cases h1
        · cases h1
          unfold clampToStop
          split <;> exact h0
      · cases h1; exact h0
    unfold firstReady
    dsimp only
    split
    · refine ⟨(rCheck1 cfg { s1 with h0u := s1.c.hh, c.kk := 0, c.kused := 0 }).c.hh, ?_⟩
      rw [(rCheck1_same cfg _).1]
      show upd s1.h.phi 1 (vscale _ (s1.h.phi 1)) = _
      rw [h2]
    · refine ⟨s1.c.hh, ?_⟩
      show upd s1.h.phi 1 (vscale _ (s1.h.phi 1)) = _
      rw [h2]

theorem firstCall_out {cfg : Cfg ν n q F} {s s' : State ν n q F} {tout : F} {r : Except Err Unit}
    (h : firstCall cfg s tout = .ret s' r) :
    (s'.m.yy = s.m.yy ∨ ∃ c, s'.m.yy = scaledAdd (s.h.phi 0) c (s.h.phi 1)) ∧ s'.m.yp = s.m.yp := by
  have h0 : (initialSetup cfg s).m = s.m ∧ (initialSetup cfg s).h = s.h := by unfold initialSetup; split <;> exact ⟨rfl, rfl⟩
  have hr : ∀ s : State ν n q F, ((rCheck1 cfg s).m.yy = s.m.yy ∨ ∃ c, (rCheck1 cfg s).m.yy = scaledAdd (s.h.phi 0) c (s.h.phi 1)) ∧
      (rCheck1 cfg s).m.yp = s.m.yp := by
    intro s
    unfold rCheck1 callRoot
    simp only
    split
    · exact ⟨Or.inr ⟨_, rfl⟩, rfl⟩
    · exact ⟨Or.inl rfl, rfl⟩
  rcases firstCall_cases h with ⟨-, h, -⟩ | ⟨-, h, -⟩ | ⟨hh, -, -, -, ⟨-, h, -⟩ | ⟨s1, h1, h, -⟩⟩ <;> subst h
  · rw [h0.1]; exact ⟨Or.inl rfl, rfl⟩
  · show ((initialSetup cfg s).m.yy = _ ∨ _) ∧ (initialSetup cfg s).m.yp = _
    rw [h0.1]; exact ⟨Or.inl rfl, rfl⟩
  · show ((initialSetup cfg s).m.yy = _ ∨ _) ∧ (initialSetup cfg s).m.yp = _
    rw [h0.1]; exact ⟨Or.inl rfl, rfl⟩
  · have h2 : s1.m = s.m ∧ s1.h = s.h := by
      unfold firstStop at h1
      split at h1
      · split at h1
        · cases h1
        · cases h1
          unfold clampToStop
          split <;> exact h0
      · cases h1; exact h0
    unfold firstReady
    dsimp only
    split
    · have := hr { s1 with h0u := s1.c.hh, c.kk := 0, c.kused := 0 }
      rw [← h2.1, ← h2.2]
      exact this
    · dsimp only
      rw [h2.1]; exact ⟨Or.inl rfl, rfl⟩

theorem Still.firstCall {cfg : Cfg ν n q F} {s s' : State ν n q F} {tout : F} {r : Except Err Unit} (hI : Still (K := K) y0 s)
    (h : Verif.firstCall cfg s tout = .ret s' r) : Still (K := K) y0 s' := by
  have hg := (firstCall_same h).g
  have hc := firstCall_cnt h
  obtain ⟨hm, -⟩ := firstCall_log h
  obtain ⟨h3, h4⟩ := firstCall_out h
  refine ⟨?_, ?_, by rw [hg]; exact hI.atts, by rw [hg]; exact hI.acc, ?_, by rw [h4]; exact hI.yp⟩
  · rcases firstCall_phi h with h2 | ⟨c, h2⟩
    · rw [h2]; exact hI.flat
    · rw [h2]; exact hI.flat.upd (le_refl _) (Null.scale (hI.flat.2 1 (le_refl _)) _)
  · rw [hc]; exact fun h0 => core_matJ hm (hI.piv h0)
  · rcases h3 with h3 | ⟨c, h3⟩
    · rw [h3]; exact hI.yy
    · rw [h3]; exact Alike.scaledAdd hI.flat.1 _ (hI.flat.2 1 (le_refl _))

section
variable {P : Problem n q F} {tol : TolControl n F} {fuel : Nat} (hP : AtRest (K := K) P y0) (hn : 0 < n)
include hP hn

theorem still_micro {s s' : State (Newton (Vec n F)) n q F} (hI : Still (K := K) y0 s)
    (hm : Micro (Cfg.newton P tol fuel) s s') : Still (K := K) y0 s' := by
  cases hm with
  | frame hf => exact hI.frame hf
  | perf => exact hI.of_eq rfl rfl rfl rfl
  | clear => exact hI.of_eq rfl rfl rfl rfl
  | clamp ts _ _ _ =>
    exact hI.of_eq (by unfold clampToStop; split <;> rfl) (by unfold clampToStop; split <;> rfl)
      (by unfold clampToStop; split <;> rfl) (by unfold clampToStop; split <;> rfl)
  | ewt _ => exact hI.of_eq rfl rfl rfl rfl
  | first _ _ h0 hf => exact hI.firstCall hf
  | firstStep _ h0 hfc hfr hs =>
    exact (step_still hP hn (((hI.firstCall hfc).of_eq rfl rfl rfl rfl : Still (K := K) y0 (perfReset _)).frame hfr) hs).2
  | step _ _ hs => exact (step_still hP hn hI hs).2

theorem still_no_fail {s s' : State (Newton (Vec n F)) n q F} {e : Err} (hI : Still (K := K) y0 s)
    (hm : MicroFail (Cfg.newton P tol fuel) s e s') : False := by
  cases hm with
  | firstStep _ _ h0 hfc hfr hs =>
    cases (step_still hP hn (((hI.firstCall hfc).of_eq rfl rfl rfl rfl : Still (K := K) y0 (perfReset _)).frame hfr) hs).1
  | step _ _ _ hs => cases (step_still hP hn hI hs).1

theorem reach_still {yp0 : Vec n F} (hp : Null (K := K) yp0) {s : State (Newton (Vec n F)) n q F}
    (h : ReachFrom (Cfg.newton P tol fuel) y0 yp0 s) : Still (K := K) y0 s := by
  refine h.inv (Still (K := K) y0) ?_ (fun _ _ => still_micro hP hn) (fun _ _ _ hI hm => (still_no_fail hP hn hI hm).elim)
  intro nls0 tstop
  refine ⟨⟨fun i => rfl, fun j hj => ?_⟩, fun h0 => absurd h0 (lt_irrefl _), fun x hx => (nomatch hx), fun x hx => (nomatch hx), fun i => rfl, hp⟩
  show Null (K := K) (if j = 0 then y0 else if j = 1 then yp0 else vzero)
  rw [if_neg (by omega)]
  split
  · exact hp
  · exact null_zero

end

/-! ## Derivatives of the interpolant -/

theorem Flat.dky {s : State ν n q F} (h : Flat (K := K) y0 s.h.phi) {t : F} {k : Nat} {s' : State ν n q F} {d : Vec n F}
    (hd : getDky s t k = .ret s' (.ok d)) : if k = 0 then Alike (K := K) d y0 else Null (K := K) d := by
  unfold getDky at hd
  split at hd
  · cases hd
  · split at hd
    · cases hd
    · split at hd
      · cases hd
        split
        · rename_i hk
          subst hk
          have hc : (dkyCoefs s.h.psi (t - s.e.tn) s.c.kused 0).cjk 0 = 1 := by
            unfold dkyCoefs
            show (dkyPass s.h.psi (t - s.e.tn) (s.c.kused - 0 + 1 + 1) 0 _).cjk 0 = 1
            unfold dkyPass
            simp only [if_true]
            refine forUp_inv (fun _ (l : DkyCoef F) => l.cjk 0 = 1) (by simp [upd_same]) (fun j l hj hl => ?_)
            show Verif.upd _ _ _ 0 = 1
            rw [upd_ne _ _ (by omega)]
            exact hl
          generalize (dkyCoefs s.h.psi (t - s.e.tn) s.c.kused 0).cjk = c at hc
          generalize s.c.kused - 0 = m
          induction m with
          | zero =>
            intro i
            show ♯((0 : F) + s.h.phi (0 + 0) i * c (0 + 0)) = _
            rw [null_add S.val_zero, times_one hc]
            exact h.1 i
          | succ m ih =>
            intro i
            refine Eq.trans (add_null (mul_null (h.2 _ (by omega) i))) (ih i)
        · rename_i hk
          generalize s.c.kused - k + 1 = m
          induction m with
          | zero => exact null_zero
          | succ m ih => exact fun i => Eq.trans (add_null (mul_null (h.2 _ (by omega) i))) (ih i)
      · cases hd

end
end Verif.Equil
