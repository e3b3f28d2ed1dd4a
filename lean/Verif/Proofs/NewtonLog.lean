import Verif.Proofs.CallLog
import Verif.Proofs.Nls
import Verif.Props.Linear
import Verif.Spec.Calls

/-! # The calls of the user's functions with Newton's method (exact scalars) -/

set_option autoImplicit false
set_option linter.unusedSectionVars false
set_option linter.unusedSimpArgs false
set_option linter.unusedVariables false

namespace Verif

open Verif.Spec

universe u

section
variable {n q : Nat} {K : Type u} [Field K] [LinearOrder K] [IsStrictOrderedRing K] [ExactParams K]

/-- The stored factorization is that of the most recent Jacobian. -/
structure Factored (P : Problem n q K) (m : Mem n K) : Prop where
  fact : ∃ t y yp r p0, LastJac t m.cjold y yp r m.log ∧
    denseSetup n (P.jac t m.cjold y yp r (fun _ _ => 0)) p0 = .ok m.matJ m.piv

/-- The ratio used for the scaling of the linear solutions. -/
def RatioOk (cj : K) (m : Mem n K) : Prop := m.cjratio = if m.cjold = cj then 1 else cj / m.cjold

theorem Factored.congr {P : Problem n q K} {m m' : Mem n K} (h : Factored P m) (h1 : m'.cjold = m.cjold)
    (h2 : m'.matJ = m.matJ) (h3 : m'.piv = m.piv) (l : List (UCall n K)) (h4 : m'.log = l ++ m.log)
    (h5 : ∀ x ∈ l, ¬ IsJac x) : Factored P m' := by
  obtain ⟨t, y, yp, r, p0, e1, e2⟩ := h.fact
  refine ⟨t, y, yp, r, p0, ?_, by rw [h1, h2, h3]; exact e2⟩
  rw [h1, h4]
  clear h4
  induction l with
  | nil => exact e1
  | cons a l ih => exact .older _ _ (h5 a (by simp)) (ih (fun x hx => h5 x (by simp [hx])))

/-- The environment of the nonlinear solve of the attempt `x`. -/
structure EnvOf (e : Env n K) (x : Att n K) : Prop where
  tn : e.tn = x.tnew
  pred : e.yypredict = x.pred
  predp : e.yppredict = x.predp
  cj : e.cj = x.cj

/-- The state of the iteration. -/
structure NwState (P : Problem n q K) (e : Env n K) (x : Att n K) (l calls : List (UCall n K)) (m : Mem n K)
    (a : NewtonAt n K) : Prop where
  log : m.log = calls ++ l
  calls : NewtonCalls P x l calls a
  fact : Factored P m
  ratio : RatioOk e.cj m

theorem toFun_ofFun_lt (f : Nat → K) {i : Nat} (hi : i < n) : (Vec.ofFun f : Vec n K).toFun i = f i := by
  unfold Vec.toFun Vec.ofFun
  rw [dif_pos hi]

/-- A linear solve. -/
theorem lsSolve_update {P : Problem n q K} {e : Env n K} {x : Att n K} {l calls : List (UCall n K)} {m m' : Mem n K}
    {c F b d : Vec n K} (he : EnvOf e x) (h : NwState P e x l calls m (.residual c F)) (hb : b = -F)
    (hs : lsSolve m b = some (m', d)) :
    NwState P e x l calls m' (.has (c + d)) := by
  unfold lsSolve at hs
  split at hs
  · cases hs
  · rename_i y hy
    simp only [Option.some.injEq, Prod.mk.injEq] at hs
    obtain ⟨hm, hd⟩ := hs
    obtain ⟨t, yy, yp, r, p0, e1, e2⟩ := h.fact.fact
    have hn : 0 < n := by
      rcases Nat.eq_zero_or_pos n with h0 | h0
      · exfalso
        subst h0
        unfold denseSolve denseGetRs at hy
        split at hy
        · cases hy
        · simp at hy
      · exact h0
    obtain ⟨y', h1, h2⟩ := Props.c01_dense_solve_correct hn _ _ e2 b.toFun
    rw [hy] at h1
    cases h1
    have hsol : ∀ i : Fin n, ∑ j : Fin n, P.jac t m.cjold yy yp r (fun _ _ => 0) i j * y j = -F i := by
      intro i
      have := h2 i i.2
      unfold mulVec at this
      rw [Finset.sum_range] at this
      rw [this, hb]
      unfold Vec.toFun
      rw [dif_pos i.2]
      rfl
    have hreg : Regular (P.jac t m.cjold yy yp r (fun _ _ => 0)) n := by
      have hdet := (Props.c02_dense_setup_ok_iff n _ p0).1.1 ⟨_, _, e2⟩
      intro v hv j
      have h0 := Matrix.eq_zero_of_mulVec_eq_zero hdet (v := v) (by
        funext i
        simpa [Matrix.mulVec, dotProduct, Props.asMatrix] using hv i)
      rw [h0]; rfl
    have hup := NewtonCalls.update calls c F (fun i => y i) t m.cjold yy yp r h.calls (by rw [← h.log]; exact e1) hsol hreg
    have hcd : (fun i : Fin n => c i + staleFactor x.cj m.cjold * y i) = c + d := by
      funext i
      show _ = c i + d i
      rw [← hd, h.ratio, he.cj]
      unfold staleFactor
      by_cases hc : m.cjold = x.cj
      · rw [if_pos hc, if_pos hc]
        have : (Scalar.neb (1 : K) 1) = false := by simp [Scalar.neb]
        rw [this]
        simp [Vec.ofFun]
      · rw [if_neg hc, if_neg hc]
        by_cases h1 : x.cj / m.cjold = 1
        · have : (Scalar.neb (x.cj / m.cjold) 1) = false := by simp [Scalar.neb, h1]
          rw [this, h1]
          norm_num [Vec.ofFun]
        · have : (Scalar.neb (x.cj / m.cjold) 1) = true := by simp [Scalar.neb, h1]
          rw [this]
          simp [Vec.ofFun, vscale, mul_comm]
    rw [hcd] at hup
    subst hm
    exact ⟨h.log, hup, h.fact.congr rfl rfl rfl [] rfl (by simp), h.ratio⟩

theorem idaCtest_keeps (e : Env n K) (m : Mem n K) (vw : NlsView) (del : Vec n K) (tol : K) (w : Vec n K) :
    (idaCtest e m vw del tol w).1.log = m.log ∧ (idaCtest e m vw del tol w).1.cjold = m.cjold ∧
    (idaCtest e m vw del tol w).1.cjratio = m.cjratio ∧ (idaCtest e m vw del tol w).1.matJ = m.matJ ∧
    (idaCtest e m vw del tol w).1.piv = m.piv := by
  unfold idaCtest
  simp only
  split
  · split <;> exact ⟨rfl, rfl, rfl, rfl, rfl⟩
  · split <;> exact ⟨rfl, rfl, rfl, rfl, rfl⟩

theorem NwState.ctest {P : Problem n q K} {e : Env n K} {x : Att n K} {l calls : List (UCall n K)} {m m' : Mem n K}
    {a : NewtonAt n K} (h : NwState P e x l calls m a) {vw : NlsView} {y del : Vec n K} {tol : K} {w : Vec n K}
    {r : Cb Bool} (hc : (idaNLProblem P e).ctest m vw y del tol w = (m', r)) : NwState P e x l calls m' a := by
  have h1 := idaCtest_keeps e m vw del tol w
  have h2 : idaCtest e m vw del tol w = (m', r) := hc
  rw [h2] at h1
  obtain ⟨e1, e2, e3, e4, e5⟩ := h1
  refine ⟨e1.trans h.log, h.calls, h.fact.congr e2 e4 e5 [] e1 (by simp), ?_⟩
  unfold RatioOk
  rw [e2, e3]; exact h.ratio

theorem vadd_att {e : Env n K} {x : Att n K} (he : EnvOf e x) (c : Vec n K) :
    vadd e.yypredict c = Att.y x c ∧ scaledAdd e.yppredict e.cj c = Att.y' x c := by
  rw [he.pred, he.predp, he.cj]
  exact ⟨rfl, rfl⟩

theorem att_zero (x : Att n K) : Att.y x (fun _ => 0) = x.pred ∧ Att.y' x (fun _ => 0) = x.predp := by
  constructor <;> funext i <;> simp [Att.y, Att.y']

/-- `'inner: loop`. -/
theorem newtonInner_story {P : Problem n q K} {e : Env n K} {x : Att n K} {l : List (UCall n K)} (he : EnvOf e x) (tol : K)
    (w : Vec n K) (fuel : Nat) {N N' : Newton (Vec n K)} {m m' : Mem n K} {y y' : Vec n K} {r : Except Err Unit}
    {calls : List (UCall n K)} (h : NwState P e x l calls m (.residual y N.delta))
    (hd : newtonInner (idaNLProblem P e) tol w fuel N m y = .done N' m' y' r) :
    ∃ calls', NwState P e x l (calls' ++ calls) m' (.has y') := by
  induction fuel generalizing N m y calls with
  | zero => cases hd
  | succ fuel ih =>
    unfold newtonInner at hd
    simp only at hd
    split at hd
    · cases hd
    · rename_i s1 d e' h1
      unfold idaNLProblem at h1
      simp only at h1
      split at h1 <;> cases h1
    · rename_i m1 d _ h1
      have h2 : lsSolve m (-N.delta) = some (m1, d) := by
        unfold idaNLProblem at h1
        simp only at h1
        split at h1
        · cases h1
        · rename_i hs
          cases h1
          exact hs
      have h3 := lsSolve_update he h rfl h2
      split at hd
      · cases hd
      · rename_i m2 e' h4
        cases hd
        exact ⟨[], h3.ctest h4⟩
      · rename_i m2 h4
        cases hd
        exact ⟨[], h3.ctest h4⟩
      · rename_i m2 h4
        have h5 := h3.ctest h4
        split at hd
        · cases hd
          exact ⟨[], h5⟩
        · split at hd
          · cases hd
          · rename_i h6; cases h6
          · rename_i m3 d3 _ h6
            have h7 : idaSys P e m2 (y + d) d = (m3, d3) := by
              have := h6
              unfold idaNLProblem at this
              simp only [Prod.mk.injEq] at this
              exact Prod.ext this.1 this.2.1
            unfold idaSys at h7
            simp only [Prod.mk.injEq] at h7
            obtain ⟨h8, h9⟩ := h7
            obtain ⟨a1, a2⟩ := vadd_att he (y + d)
            rw [a1, a2, he.tn] at h8 h9
            have hst : NwState P e x l (.res x.tnew (Att.y x (y + d)) (Att.y' x (y + d)) :: calls) m3
                (.residual (y + d) d3) := by
              refine ⟨?_, .next _ _ _ h5.calls ⟨_, h9.symm⟩, ?_, ?_⟩
              · rw [← h8]
                show _ :: m2.log = _
                rw [h5.log]; rfl
              · rw [← h8]
                exact h5.fact.congr rfl rfl rfl [.res x.tnew (Att.y x (y + d)) (Att.y' x (y + d))] rfl (by simp [IsJac])
              · rw [← h8]; exact h5.ratio
            obtain ⟨calls', h10⟩ := ih (N := { N with delta := d3, curiter := N.curiter + 1, niters := N.niters + 1 }) hst hd
            refine ⟨calls' ++ [.res x.tnew (Att.y x (y + d)) (Att.y' x (y + d))], ?_⟩
            rw [List.append_assoc]
            exact h10

/-- Where a solve is between two passes of the outer loop. -/
inductive NwPass (P : Problem n q K) (x : Att n K) (l calls : List (UCall n K)) : Prop
  | fresh : calls = [] → NwPass P x l calls
  | failed (c : Vec n K) : NewtonCalls P x l calls (.has c) → NwPass P x l calls

theorem newtonAttempt_story {P : Problem n q K} {e : Env n K} {x : Att n K} {l : List (UCall n K)} (he : EnvOf e x) (tol : K)
    (w : Vec n K) {c jb : Bool} {N N' : Newton (Vec n K)} {m m' : Mem n K} {y y' : Vec n K} {r : Except Err Unit}
    {calls : List (UCall n K)} (hl : m.log = calls ++ l) (hc : NwPass P x l calls)
    (hf : c = false → Factored P m ∧ RatioOk e.cj m)
    (hd : newtonAttempt (idaNLProblem P e) vzero tol w c jb N m y = .done N' m' y' r) :
    ∃ calls', NwState P e x l (calls' ++ calls) m' (.has y') ∧
      (c = true → ∃ F, [.jac 0 x.cj x.pred x.predp F, .res x.tnew x.pred x.predp] <:+ calls') := by
  unfold newtonAttempt at hd
  split at hd
  · cases hd
  · rename_i h1; cases h1
  · rename_i m1 d _ h1
    have h2 : idaSys P e m vzero N.delta = (m1, d) := by
      have := h1
      unfold idaNLProblem at this
      simp only [Prod.mk.injEq] at this
      exact Prod.ext this.1 this.2.1
    unfold idaSys at h2
    simp only [Prod.mk.injEq] at h2
    obtain ⟨h3, h4⟩ := h2
    have hz : (vzero : Vec n K) = fun _ => 0 := rfl
    obtain ⟨a1, a2⟩ := vadd_att he vzero
    rw [hz] at a1 a2
    rw [(att_zero x).1] at a1
    rw [(att_zero x).2] at a2
    rw [hz, a1, a2, he.tn] at h3 h4
    have hstart : NewtonCalls P x l (.res x.tnew x.pred x.predp :: calls) (.residual (fun _ => 0) d) := by
      cases hc with
      | fresh h => rw [h]; exact .start d ⟨_, h4.symm⟩
      | failed c h => exact .restart _ c d h ⟨_, h4.symm⟩
    have hlog : m1.log = (.res x.tnew x.pred x.predp :: calls) ++ l := by
      rw [← h3]
      show _ :: m.log = _
      rw [hl]; rfl
    simp only at hd
    split at hd
    · rename_i hct
      split at hd
      · cases hd
      · rename_i h5
        unfold idaNLProblem at h5
        simp only at h5
        split at h5 <;> cases h5
      · rename_i m2 j h5
        have h6 : idaSetup P e m1 d = some m2 := by
          unfold idaNLProblem at h5
          simp only at h5
          split at h5
          · cases h5
          · rename_i hs; cases h5; exact hs
        unfold idaSetup at h6
        split at h6
        · cases h6
        · rename_i m3 h7
          cases h6
          have hn : n ≠ 0 := by
            rintro rfl
            obtain ⟨calls', h⟩ : ∃ z : Nat, newtonInner (idaNLProblem P e) tol w (z + 1)
                { N with delta := d, jcur := j, curiter := 0 } { m3 with cjold := e.cj, cjratio := 1, ss := Scalar.twenty } vzero =
                .done N' m' y' r := ⟨_, hd⟩
            unfold newtonInner at h
            simp only at h
            have : ∀ b, (idaNLProblem P e).solve { m3 with cjold := e.cj, cjratio := 1, ss := Scalar.twenty } vzero b =
                ({ m3 with cjold := e.cj, cjratio := 1, ss := Scalar.twenty }, b, .panic) := fun b => rfl
            rw [this] at h
            cases h
          have hyy : m1.yy = x.pred ∧ m1.yp = x.predp := by rw [← h3]; exact ⟨rfl, rfl⟩
          have h8 := h7
          unfold lsSetup at h8
          simp only [if_neg hn] at h8
          rw [hyy.1, hyy.2, he.cj] at h8
          have h9 : NwState P e x l (.jac 0 x.cj x.pred x.predp d :: .res x.tnew x.pred x.predp :: calls)
              { m3 with cjold := e.cj, cjratio := 1, ss := Scalar.twenty } (.residual (fun _ => 0) d) := by
            split at h8
            · rename_i a p hs
              cases h8
              refine ⟨?_, .jac _ _ _ _ _ _ hstart, ⟨0, x.pred, x.predp, d, m1.piv, ?_, ?_⟩, ?_⟩
              · show _ :: m1.log = _
                rw [hlog]; rfl
              · show LastJac 0 e.cj x.pred x.predp d (_ :: m1.log)
                rw [he.cj]
                exact .here _
              · show denseSetup n (P.jac 0 e.cj x.pred x.predp d (fun _ _ => 0)) m1.piv = .ok a p
                rw [he.cj]; exact hs
              · show (1 : K) = if e.cj = e.cj then 1 else _
                rw [if_pos rfl]
            · cases h8
            · cases h8
          obtain ⟨calls', h10⟩ := newtonInner_story he tol w _ (N := { N with delta := d, jcur := j, curiter := 0 }) h9 hd
          refine ⟨calls' ++ [.jac 0 x.cj x.pred x.predp d, .res x.tnew x.pred x.predp], ?_, fun _ => ⟨d, ?_⟩⟩
          · rw [List.append_assoc]; exact h10
          · exact List.suffix_append _ _
    · rename_i hct
      obtain ⟨hf1, hf2⟩ := hf (by simpa using hct)
      have h9 : NwState P e x l (.res x.tnew x.pred x.predp :: calls) m1 (.residual (fun _ => 0) d) := by
        refine ⟨hlog, hstart, ?_, ?_⟩
        · rw [← h3]; exact hf1.congr rfl rfl rfl [.res x.tnew x.pred x.predp] rfl (by simp [IsJac])
        · rw [← h3]; exact hf2
      obtain ⟨calls', h10⟩ := newtonInner_story he tol w _ (N := { N with delta := d, curiter := 0 }) h9 hd
      refine ⟨calls' ++ [.res x.tnew x.pred x.predp], ?_, fun h => absurd h hct⟩
      rw [List.append_assoc]; exact h10

/-- `Newton::solve` on the integrator's problem. -/
theorem newtonOuter_story {P : Problem n q K} {e : Env n K} {x : Att n K} {l : List (UCall n K)} (he : EnvOf e x) (tol : K)
    (w : Vec n K) (fuel : Nat) {c jb : Bool} {N N' : Newton (Vec n K)} {m m' : Mem n K} {y y' : Vec n K}
    {r : Except Err Unit} {calls : List (UCall n K)} (hl : m.log = calls ++ l) (hc : NwPass P x l calls)
    (hf : c = false → Factored P m ∧ RatioOk e.cj m)
    (hd : newtonOuter (idaNLProblem P e) vzero tol w fuel c jb N m y = .done N' m' y' r) :
    ∃ calls', NwState P e x l (calls' ++ calls) m' (.has y') ∧
      (c = true → ∃ F, [.jac 0 x.cj x.pred x.predp F, .res x.tnew x.pred x.predp] <:+ calls') := by
  induction fuel generalizing c jb N m y calls with
  | zero => cases hd
  | succ fuel ih =>
    unfold newtonOuter at hd
    split at hd
    · cases hd
    · cases hd
    · rename_i h1
      cases hd
      exact newtonAttempt_story he tol w hl hc hf h1
    · rename_i N1 m1 y1 err h1
      obtain ⟨calls1, h2, h3⟩ := newtonAttempt_story he tol w hl hc hf h1
      have again : ∀ {c' jb' : Bool} {N2 : Newton (Vec n K)}, (c = true → c' = true) →
          newtonOuter (idaNLProblem P e) vzero tol w fuel c' jb' N2 m1 y1 = .done N' m' y' r →
          ∃ calls', NwState P e x l (calls' ++ calls) m' (.has y') ∧
          (c = true → ∃ F, [.jac 0 x.cj x.pred x.predp F, .res x.tnew x.pred x.predp] <:+ calls') := by
        intro c' jb' N2 hcc hd
        obtain ⟨calls2, h4, h5⟩ := ih h2.log (.failed _ h2.calls) (fun _ => ⟨h2.fact, h2.ratio⟩) hd
        refine ⟨calls2 ++ calls1, by rw [List.append_assoc]; exact h4, fun h => ?_⟩
        obtain ⟨F, h6⟩ := h3 h
        exact ⟨F, h6.trans (List.suffix_append _ _)⟩
      split at hd
      · split at hd
        · exact again (fun _ => rfl) hd
        · exact again (fun h => h) hd
      · cases hd
        exact ⟨calls1, h2, h3⟩

theorem nlsPrepare_eq {ν : Type*} (s : State ν n q K) :
    (nlsPrepare s).1.log = s.m.log ∧ (nlsPrepare s).1.matJ = s.m.matJ ∧ (nlsPrepare s).1.piv = s.m.piv ∧
    (nlsPrepare s).1.cjold = (if s.cnt.nst = 0 then s.e.cj else s.m.cjold) ∧
    (nlsPrepare s).1.cjratio = s.e.cj / (if s.cnt.nst = 0 then s.e.cj else s.m.cjold) ∧
    ((nlsPrepare s).2 = false → s.cnt.nst ≠ 0 ∧ 3 / 5 ≤ s.e.cj / s.m.cjold ∧ s.e.cj / s.m.cjold ≤ 5 / 3) := by
  unfold nlsPrepare
  by_cases hn : s.cnt.nst = 0
  · simp only [hn, decide_true, if_true, Bool.true_or]
    split <;> exact ⟨rfl, rfl, rfl, rfl, rfl, by simp⟩
  · have h1 : (Scalar.xrateLo : K) = 3 / 5 := by
      show ((1 : K) - 1 / 4) / (1 + 1 / 4) = 3 / 5
      norm_num
    simp only [hn, decide_false, Bool.false_eq_true, if_false, Bool.false_or]
    have key : (Scalar.lt (s.e.cj / s.m.cjold) (Scalar.xrateLo : K) ||
        Scalar.gt (s.e.cj / s.m.cjold) (Scalar.recip (Scalar.xrateLo : K))) = false →
        s.cnt.nst ≠ 0 ∧ 3 / 5 ≤ s.e.cj / s.m.cjold ∧ s.e.cj / s.m.cjold ≤ 5 / 3 := by
      intro h
      simp only [Bool.or_eq_false_iff, Scalar.gt, ex_lt, decide_eq_false_iff_not, not_lt, h1] at h
      refine ⟨hn, h.1, h.2.trans (le_of_eq ?_)⟩
      rw [ex_recip]
      norm_num
    split <;> exact ⟨rfl, rfl, rfl, rfl, rfl, key⟩

/-- The invariant of all histories with Newton's method. -/
structure StoryInv (P : Problem n q K) (m : Mem n K) (a : List (Att n K)) : Prop where
  story : Story P m.log a
  fact : a ≠ [] → Factored P m

theorem isRoot_iff (x : UCall n K) : x.isRoot = true ↔ IsRoot x := by
  cases x <;> simp [UCall.isRoot, IsRoot]

theorem storyInv_attempted {P : Problem n q K} {tol : TolControl n K} {fuel : Nat}
    {s s' : State (Newton (Vec n K)) n q K} (hI : StoryInv P s.m s.g.atts) (hn : 0 < s.cnt.nst → s.g.atts ≠ [])
    (h : Attempted (Cfg.newton P tol fuel) s s') : StoryInv P s'.m s'.g.atts := by
  obtain ⟨t0, m1, ee, r, out, h1, h2, h3, h4⟩ := h
  have h5 : (newtonNls P fuel).solve s.nls (tried s).e (nlsPrepare (tried s)).1 vzero s.ee s.e.ewt s.epsNewt
    (nlsPrepare (tried s)).2 = .ret s'.nls m1 ee r := h1
  unfold newtonNls at h5
  simp only at h5
  split at h5
  · rename_i h6
    cases h5
    unfold newtonSolve at h6
    obtain ⟨e1, e2, e3, e4, e5, e6⟩ := nlsPrepare_eq (tried s)
    have he : EnvOf (tried s).e (attRec s t0 ee out) := ⟨rfl, rfl, rfl, rfl⟩
    have hlog : (nlsPrepare (tried s)).1.log = [] ++ s.m.log := e1
    have hfr : (nlsPrepare (tried s)).2 = false → Factored P (nlsPrepare (tried s)).1 ∧
        RatioOk (tried s).e.cj (nlsPrepare (tried s)).1 := by
      intro hc
      obtain ⟨hn0, hr1, hr2⟩ := e6 hc
      rw [if_neg hn0] at e4 e5
      refine ⟨(hI.fact (hn (Nat.pos_of_ne_zero hn0))).congr e4 e2 e3 [] e1 (by simp), ?_⟩
      unfold RatioOk
      rw [e4, e5]
      split
      · rename_i heq
        rw [heq] at hr1 ⊢
        refine div_self fun h0 => ?_
        rw [h0] at hr1
        norm_num at hr1
      · rfl
    obtain ⟨calls, h7, h8⟩ := newtonOuter_story he _ _ _ hlog (.fresh rfl) hfr h6
    rw [List.append_nil] at h7
    have hl : s'.m.log = calls ++ s.m.log := by rw [h2]; exact h7.log
    rw [h3]
    refine ⟨?_, fun _ => ?_⟩
    · rw [hl]
      refine .attempt _ _ _ _ hI.story h7.calls ?_
      cases hc : (nlsPrepare (tried s)).2 with
      | true =>
        obtain ⟨F, c', h9⟩ := h8 hc
        exact Or.inl ⟨F, c', h9.symm⟩
      | false =>
        obtain ⟨hn0, hr1, hr2⟩ := e6 hc
        obtain ⟨t, y, yp, r, p0, g1, -⟩ := (hI.fact (hn (Nat.pos_of_ne_zero hn0))).fact
        exact Or.inr ⟨t, s.m.cjold, y, yp, r, g1, hr1, hr2⟩
    · rw [h2]
      exact h7.fact.congr rfl rfl rfl [] rfl (by simp)
  · cases h5
  · cases h5

theorem storyInv_new (P : Problem n q K) (nls0 : Newton (Vec n K)) (yy0 yp0 : Vec n K) :
    StoryInv P (State.new nls0 yy0 yp0 : State (Newton (Vec n K)) n q K).m [] := ⟨.new, fun h => absurd rfl h⟩

theorem storyInv_root {P : Problem n q K} (m m' : Mem n K) (a : List (Att n K)) (l : List (UCall n K)) (hI : StoryInv P m a)
    (h1 : m'.core = m.core) (h2 : m'.log = l ++ m.log) (h3 : ∀ x ∈ l, x.isRoot = true) : StoryInv P m' a := by
  refine ⟨?_, fun ha => ?_⟩
  · rw [h2]
    clear h2
    induction l with
    | nil => exact hI.story
    | cons x l ih => exact .root _ _ _ ((isRoot_iff x).1 (h3 x (by simp))) (ih (fun y hy => h3 y (by simp [hy])))
  · have e1 : m'.cjold = m.cjold := by have := congrArg Mem.cjold h1; exact this
    have e2 : m'.matJ = m.matJ := by have := congrArg Mem.matJ h1; exact this
    have e3 : m'.piv = m.piv := by have := congrArg Mem.piv h1; exact this
    refine (hI.fact ha).congr e1 e2 e3 l h2 (fun x hx => ?_)
    have := (isRoot_iff x).1 (h3 x hx)
    cases x <;> simp [IsRoot, IsJac] at this ⊢

theorem Reach.story2 {P : Problem n q K} {tol : TolControl n K} {fuel : Nat} {s : State (Newton (Vec n K)) n q K}
    (h : Reach (Cfg.newton P tol fuel) s) : LogInv (StoryInv P) s :=
  Reach.logInv2 storyInv_root (fun _ _ hI hn hA => storyInv_attempted hI hn hA) (storyInv_new P) h

theorem Reach.story {P : Problem n q K} {tol : TolControl n K} {fuel : Nat} {s : State (Newton (Vec n K)) n q K}
    (h : Reach (Cfg.newton P tol fuel) s) : StoryInv P s.m s.g.atts := h.story2.1

end

end Verif
