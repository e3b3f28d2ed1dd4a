import Verif.Proofs.LsSim
import Verif.Proofs.Nls
import Verif.Proofs.Blind
import Verif.Proofs.RootInv
import Verif.Proofs.UnitsNewton
import Mathlib.LinearAlgebra.Matrix.NonsingularInverse

/-!
# Newton's method with an arbitrary linear solver, and with a correct one
-/

set_option autoImplicit false
set_option linter.unusedSectionVars false
set_option linter.unusedSimpArgs false
set_option linter.unusedVariables false

namespace Verif

universe u v w

/-! ## Any linear solver (any scalar type) -/

section
variable {n q : Nat} {K : Type u} [Scalar K] {L : Type v}

theorem idaCtest_log (e : Env n K) (m : Mem n K) (vw : NlsView) (d : Vec n K) (tol : K) (w : Vec n K) :
    (idaCtest e m vw d tol w).1.log = m.log := by
  unfold idaCtest
  simp only
  split
  · split <;> rfl
  · split <;> rfl

theorem ctest_error {e : Env n K} {m : Mem n K} {vw : NlsView} {d : Vec n K} {tol : K} {w : Vec n K} {err : Err}
    (h : (idaCtest e m vw d tol w).2 = .err err) : err = .nl .convergenceRecover := by
  unfold idaCtest at h
  simp only at h
  split at h
  · split at h <;> cases h
  · split at h
    · cases h; rfl
    · cases h

theorem lsSolveWith_log {S : LSolver L n K} {e : Env n K} {m m' : Mem n K} {l l' : LsMem L} {b b' : Vec n K}
    (h : lsSolveWith S e m l b = some (m', l', b')) : m'.log = m.log := by
  unfold lsSolveWith at h
  simp only at h
  split at h
  · cases h
  · cases h; rfl

/-- The user functions called by Newton's method are the residual and the Jacobian. -/
theorem newtonWith_cb (S : LSolver L n K) (P : Problem n q K) (e : Env n K) (log : List (UCall n K)) :
    CbInv (idaNLProblemWith S P e) (fun s => ∃ l, s.1.log = l ++ log ∧ ∀ x ∈ l, x.isRoot = false)
      (fun e => e = .nl .convergenceRecover) := by
  refine ⟨?_, ?_, ?_, ?_⟩
  · rintro ⟨m, l⟩ y b ⟨k, hk, hx⟩
    refine ⟨⟨.res e.tn (vadd e.yypredict y) (scaledAdd e.yppredict e.cj y) :: k, ?_, ?_⟩, fun e he => by cases he⟩
    · simp only at hk
      simp only [idaNLProblemWith, idaSys]; rw [hk, List.cons_append]
    · intro x h
      rcases List.mem_cons.1 h with h | h
      · rw [h]; rfl
      · exact hx x h
  · rintro ⟨m, l⟩ y f j ⟨k, hk, hx⟩
    simp only at hk
    simp only [idaNLProblemWith, idaSetupWith, lsSetupWith]
    by_cases hn : n = 0
    · simp only [if_pos hn]
      rcases S.setup l.ls m.matJ with ⟨l1, a, _ | _ | _⟩
      · exact ⟨⟨k, hk, hx⟩, fun e he => by cases he⟩
      · exact ⟨⟨k, hk, hx⟩, fun e he => by cases he⟩
      · exact ⟨⟨k, hk, hx⟩, fun e he => by cases he⟩
    · simp only [if_neg hn]
      rcases S.setup l.ls (P.jac 0 e.cj m.yy m.yp f fun _ _ => 0) with ⟨l1, a, _ | _ | _⟩
      · refine ⟨⟨UCall.jac 0 e.cj m.yy m.yp f :: k, by simp [hk], ?_⟩, fun e he => by cases he⟩
        intro x h
        rcases List.mem_cons.1 h with h | h
        · rw [h]; rfl
        · exact hx x h
      · exact ⟨⟨k, hk, hx⟩, fun e he => by cases he⟩
      · exact ⟨⟨k, hk, hx⟩, fun e he => by cases he⟩
  · rintro ⟨m, l⟩ y b ⟨k, hk, hx⟩
    simp only at hk
    simp only [idaNLProblemWith]
    cases h : lsSolveWith S e m l b with
    | none => exact ⟨⟨k, hk, hx⟩, fun e he => by cases he⟩
    | some p =>
      obtain ⟨m1, l1, b1⟩ := p
      exact ⟨⟨k, (lsSolveWith_log h).trans hk, hx⟩, fun e he => by cases he⟩
  · rintro ⟨m, l⟩ vw y d tol w ⟨k, hk, hx⟩
    simp only at hk
    exact ⟨⟨k, (idaCtest_log e m vw d tol w).trans hk, hx⟩, fun e' he => ctest_error he⟩

theorem newtonWith_ret {S : LSolver L n K} {P : Problem n q K} {fuel : Nat} {N N' : Newton (Vec n K) × LsMem L} {e : Env n K}
    {m m' : Mem n K} {y0 y w ee : Vec n K} {tol : K} {c : Bool} {r : Except Err Unit}
    (h : (newtonNlsWith S P fuel).solve N e m y0 y w tol c = .ret N' m' ee r) :
    (∃ l, m'.log = l ++ m.log ∧ ∀ x ∈ l, x.isRoot = false) ∧ ∀ err, r ≠ .error err := by
  unfold newtonNlsWith at h
  simp only at h
  split at h
  · rename_i N1 m1 y1 r1 h1
    cases h
    obtain ⟨h2, h3⟩ := newtonSolve_inv (newtonWith_cb S P e m.log) rfl fuel ⟨[], rfl, by simp⟩ h1
    refine ⟨h2, fun err he => ?_⟩
    obtain ⟨h4, h5⟩ := h3 err he
    exact h5 h4
  · cases h
  · cases h

theorem newtonWith_legal (S : LSolver L n K) (P : Problem n q K) (tol : TolControl n K) (fuel : Nat) :
    NlsLegal (Cfg.newtonWith S P tol fuel) := by
  intro N e m y0 y w tol' call N' m' ee err h
  exact absurd rfl ((newtonWith_ret (S := S) (P := P) (fuel := fuel) h).2 err)

theorem newtonWith_keepsLog (S : LSolver L n K) (P : Problem n q K) (tol : TolControl n K) (fuel : Nat) :
    NlsKeepsLog (Cfg.newtonWith S P tol fuel) := by
  intro N e m y0 y w tol' call N' m' ee r h
  obtain ⟨l, hl, -⟩ := (newtonWith_ret (S := S) (P := P) (fuel := fuel) h).1
  exact ⟨l, hl⟩

theorem newtonWith_noRoot (S : LSolver L n K) (P : Problem n q K) (tol : TolControl n K) (fuel : Nat) :
    NlsNoRoot (Cfg.newtonWith S P tol fuel) := by
  intro N e m y0 y w tol' call N' m' ee r h
  obtain ⟨l, hl, hx⟩ := (newtonWith_ret (S := S) (P := P) (fuel := fuel) h).1
  unfold rootCalls
  rw [hl, List.countP_append, List.countP_eq_zero.2 (fun x h => by rw [hx x h]; simp), Nat.zero_add]

theorem ida_blindWith (S : LSolver L n K) (P : Problem n q K) (e : Env n K) :
    (idaNLProblemWith S P e).Blind (fun s s' => s.1.Alike s'.1 ∧ s'.2 = s.2) (fun s s' => s.1.Same s'.1 ∧ s'.2 = s.2) := by
  refine ⟨?_, ?_, ?_, ?_, ?_⟩
  · rintro ⟨m, l⟩ ⟨m', l'⟩ ⟨⟨k, h⟩, h'⟩; exact ⟨⟨_, _, _, h⟩, h'⟩
  · rintro ⟨m, l⟩ ⟨m', l'⟩ y b ⟨⟨yy, yp, k, h⟩, h'⟩
    simp only at h h'
    subst h h'
    exact ⟨⟨⟨_, rfl⟩, rfl⟩, rfl⟩
  · rintro ⟨m, l⟩ ⟨m', l'⟩ y f j ⟨⟨k, h⟩, h'⟩
    simp only at h h'
    subst h h'
    simp only [idaNLProblemWith, idaSetupWith, lsSetupWith, Mem.wear]
    by_cases hn : n = 0
    · simp only [if_pos hn]
      rcases S.setup l'.ls m.matJ with ⟨l1, a, _ | _ | _⟩ <;> exact ⟨⟨⟨_, rfl⟩, rfl⟩, rfl⟩
    · simp only [if_neg hn]
      rcases S.setup l'.ls (P.jac 0 e.cj m.yy m.yp f fun _ _ => 0) with ⟨l1, a, _ | _ | _⟩ <;>
        exact ⟨⟨⟨_, rfl⟩, rfl⟩, rfl⟩
  · rintro ⟨m, l⟩ ⟨m', l'⟩ y b ⟨⟨k, h⟩, h'⟩
    simp only at h h'
    subst h h'
    simp only [idaNLProblemWith, lsSolveWith, Mem.wear]
    rcases S.solve (S.setScaling l'.ls e.ewt e.ewt) m.matJ vzero b (lsTol n (S.kind l'.ls)) with ⟨l1, a, _ | _ | _⟩ <;>
        exact ⟨⟨⟨_, rfl⟩, rfl⟩, rfl⟩
  · rintro ⟨m, l⟩ ⟨m', l'⟩ vw y d t w ⟨⟨k, h⟩, h'⟩
    simp only at h h'
    subst h h'
    simp only [idaNLProblemWith, idaCtest, Mem.wear]
    by_cases h0 : vw.curIter = 0
    · simp only [if_pos h0]
      by_cases h1 : Scalar.le (normWrms d w) (Scalar.pt0001 * e.toldel) = true
      · simp only [if_pos h1]; exact ⟨⟨⟨_, rfl⟩, trivial⟩, trivial⟩
      · simp only [if_neg h1]; exact ⟨⟨⟨_, rfl⟩, trivial⟩, trivial⟩
    · simp only [if_neg h0]
      by_cases h1 : Scalar.gt (Scalar.powf (normWrms d w / m.oldnrm) (Scalar.recip (Scalar.ofNat vw.curIter))) Scalar.pt9 = true
      · simp only [if_pos h1]; exact ⟨⟨⟨_, rfl⟩, trivial⟩, trivial⟩
      · simp only [if_neg h1]; exact ⟨⟨⟨_, rfl⟩, trivial⟩, trivial⟩

theorem newtonWith_nlsBlind (S : LSolver L n K) (P : Problem n q K) (tol : TolControl n K) (fuel : Nat) :
    NlsBlind (Cfg.newtonWith S P tol fuel) := by
  rintro ⟨N, l⟩ e m m' y0 y w t call h
  show NlOut.Alike (newtonNlsWith S P fuel |>.solve (N, l) e m y0 y w t call)
    (newtonNlsWith S P fuel |>.solve (N, l) e m' y0 y w t call)
  simp only [newtonNlsWith, newtonSolve]
  have h1 := newtonOuter_blind (ida_blindWith S P e) y0 t w fuel call false N (m, l) (m', l) y ⟨h, rfl⟩
  generalize newtonOuter (idaNLProblemWith S P e) y0 t w fuel call false N (m, l) y = a at h1 ⊢
  generalize newtonOuter (idaNLProblemWith S P e) y0 t w fuel call false N (m', l) y = a' at h1 ⊢
  cases h1 with
  | panic => exact .panic
  | diverge => exact .diverge
  | done N s s' y r hr =>
    obtain ⟨s, l⟩ := s
    obtain ⟨s', l'⟩ := s'
    obtain ⟨h2, h3⟩ := ((ida_blindWith S P e).weak _ _ hr)
    simp only at h2 h3
    subst h3
    exact .ret _ _ _ _ _ h2

end

/-! ## Correct linear solvers (exact arithmetic) -/

section
variable {K : Type u} [Field K] [LinearOrder K] [IsStrictOrderedRing K] [ExactParams K] {n q : Nat} {L : Type v} {L' : Type w}

open Spec

theorem regular_iff_det (A : Mat K) : Regular A n ↔ (Props.asMatrix n A).det ≠ 0 := by
  constructor
  · intro h h0
    obtain ⟨v, hv, h1⟩ := Matrix.exists_mulVec_eq_zero_iff.2 h0
    apply hv
    funext j
    refine h v (fun i => ?_) j
    have := congrFun h1 i
    simpa [Matrix.mulVec, dotProduct, Props.asMatrix] using this
  · intro h v hv j
    have h0 := Matrix.eq_zero_of_mulVec_eq_zero h (v := v) (by
      funext i
      simpa [Matrix.mulVec, dotProduct, Props.asMatrix] using hv i)
    rw [h0]; rfl

/-- A regular system has at most one solution. -/
theorem regular_unique {A : Mat K} (h : Regular A n) {x x' b : Vec n K} (h1 : ∀ i : Fin n, ∑ j : Fin n, A i j * x j = b i)
    (h2 : ∀ i : Fin n, ∑ j : Fin n, A i j * x' j = b i) : x = x' := by
  funext j
  have h3 := h (fun j => x j - x' j) (fun i => by
    have : (∑ j : Fin n, A i j * (x j - x' j)) = (∑ j : Fin n, A i j * x j) - ∑ j : Fin n, A i j * x' j := by
      rw [← Finset.sum_sub_distrib]
      exact Finset.sum_congr rfl fun j _ => by ring
    rw [this, h1, h2, sub_self]) j
  exact sub_eq_zero.1 h3

theorem lsResult_direct {k : LsType} {it : Nat} (h1 : k ≠ .iterative) (h2 : k = .matrixIterative → 0 < it) (c : K) (x b : Vec n K) :
    lsResult k it c x b = if Scalar.neb c 1 = true then vscale (Scalar.two / (1 + c)) x else x := by
  have h3 : ¬ (k ≠ .direct ∧ it = 0) := by
    rintro ⟨h3, h4⟩
    cases k with
    | direct => exact h3 rfl
    | iterative => exact h1 rfl
    | matrixIterative => have := h2 rfl; omega
  unfold lsResult
  simp only [if_neg h3]
  by_cases hc : Scalar.neb c 1 = true
  · rw [if_pos ⟨h1, hc⟩, if_pos hc]
  · rw [if_neg (fun h => hc h.2), if_neg hc]

/-- Two correct linear solvers give the same results. -/
theorem exact_lsSim {S : LSolver L n K} {Ok : L → Prop} {Holds : L → Mat K → Mat K → Prop} (hS : ExactLs S Ok Holds)
    {S' : LSolver L' n K} {Ok' : L' → Prop} {Holds' : L' → Mat K → Mat K → Prop} (hS' : ExactLs S' Ok' Holds') :
    LsSim S S' (fun l l' => Ok l ∧ Ok' l')
      (fun l a l' a' => (Ok l ∧ Ok' l') ∧ ∃ A, Regular A n ∧ Holds l a A ∧ Holds' l' a' A) := by
  refine ⟨?_, fun _ _ _ _ h => h.1, ?_⟩
  · rintro l l' A ⟨h1, h2⟩
    by_cases hA : Regular A n
    · obtain ⟨l1, a, h3, h4, h5⟩ := hS.setup l A h1 hA
      obtain ⟨l1', a', h3', h4', h5'⟩ := hS'.setup l' A h2 hA
      exact .inr ⟨l1, a, l1', a', h3, h3', ⟨h4, h4'⟩, A, hA, h5, h5'⟩
    · exact .inl ⟨hS.singular l A h1 hA, hS'.singular l' A h2 hA⟩
  · rintro l a l' a' w b ⟨⟨h1, h2⟩, A, hA, h3, h4⟩
    right
    obtain ⟨s1, s2, s3⟩ := hS.scaling l w w h1
    obtain ⟨s1', s2', s3'⟩ := hS'.scaling l' w w h2
    obtain ⟨l1, x, e1, e2, e3, e4, e5⟩ := hS.solve _ a A vzero b (lsTol n (S.kind l)) s1 (s3 a A h3)
    obtain ⟨l1', x', e1', e2', e3', e4', e5'⟩ := hS'.solve _ a' A vzero b (lsTol n (S'.kind l')) s1' (s3' a' A h4)
    refine ⟨l1, x, l1', x', .ok, by decide, e1, e1', ⟨⟨e2, e2'⟩, A, hA, e3, e3'⟩, fun c => ?_⟩
    have hx := regular_unique hA e4 e4'
    subst hx
    rw [lsResult_direct (hS.kind l h1) (by rw [← s2]; exact e5), lsResult_direct (hS'.kind l' h2) (by rw [← s2']; exact e5')]

/-- `Dense` is a correct direct linear solver. -/
theorem dense_exact (hn : 0 < n) : ExactLs (denseLs n K) (fun _ => True) (fun p a A => ∃ p0, denseSetup n A p0 = .ok a p) := by
  refine ⟨fun _ _ => by simp [denseLs], ?_, ?_, fun l w w' _ => ⟨trivial, rfl, fun _ _ h => h⟩, ?_⟩
  · intro p A _ hA
    obtain ⟨a, p', h⟩ := (Props.c02_dense_setup_ok_iff n A p).1.2 ((regular_iff_det A).1 hA)
    refine ⟨p', a, ?_, trivial, p, h⟩
    simp only [denseLs, h]
  · intro p A _ hA h
    apply hA
    rw [regular_iff_det]
    apply (Props.c02_dense_setup_ok_iff n A p).1.1
    simp only [denseLs] at h
    split at h
    · rename_i a p' h'; exact ⟨a, p', h'⟩
    · cases h
    · cases h
  · rintro p a A x b tol - ⟨p0, h⟩
    obtain ⟨x', h1, h2⟩ := Props.c01_dense_solve_correct hn A p0 h b.toFun
    refine ⟨p, Vec.ofFun x', by simp only [denseLs, h1], trivial, ⟨p0, h⟩, fun i => ?_, by simp [denseLs]⟩
    have := h2 i i.2
    unfold mulVec at this
    rw [Finset.sum_range] at this
    unfold Vec.toFun at this
    rw [dif_pos i.2] at this
    exact this

end

end Verif
