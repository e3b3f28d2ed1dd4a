import Verif.Proofs.Units
import Verif.Props.Linear

/-! # Change of units: the nonlinear solver and one step -/

set_option autoImplicit false
set_option linter.unusedSectionVars false
set_option linter.unusedSimpArgs false
set_option linter.unusedVariables false

namespace Verif

universe u v

section
variable {n q : Nat} {K : Type u} [Field K] [LinearOrder K] [IsStrictOrderedRing K] [ExactParams K]

namespace Change
variable (C : Change n K)

/-- Back to the old units. -/
def unvec (w : Vec n K) : Vec n K := fun i => w (C.π.symm i) / C.d (C.π.symm i)

theorem vec_unvec (w : Vec n K) : C.vec (C.unvec w) = w := by
  funext i
  have := C.hd i
  simp only [vec, unvec, Equiv.symm_apply_apply]
  field_simp

theorem unvec_vec (w : Vec n K) : C.unvec (C.vec w) = w := by
  funext i
  have := C.hd (C.π.symm i)
  simp only [vec, unvec, Equiv.apply_symm_apply]
  field_simp

theorem vec_injective {a b : Vec n K} (h : C.vec a = C.vec b) : a = b := by
  rw [← C.unvec_vec a, h, C.unvec_vec]

/-- The solution computed from a factorization. -/
def lsX (M : Mat K) (p : Nat → Nat) (b : Vec n K) : Option (Vec n K) := (denseSolve n M p b.toFun).map Vec.ofFun

/-- The two factorizations solve corresponding systems. -/
def Link (m : Mem n K) (J : Junk n K) : Prop := ∀ b, lsX J.matJ J.piv (C.E b) = (lsX m.matJ m.piv b).map C.vec

/-- The matrix as a linear map. -/
def app (A : Mat K) (v : Vec n K) : Vec n K := fun i => Spec.mulVec n A v.toFun i

theorem app_eq (A : Mat K) (v : Vec n K) : app A v = (Props.asMatrix n A).mulVec v := by
  funext i
  simp only [app, Spec.mulVec, Props.asMatrix, Matrix.mulVec, dotProduct, Matrix.of_apply]
  rw [Finset.sum_range]
  exact Finset.sum_congr rfl fun j _ => by simp [Vec.toFun]

theorem det_zero_iff (A : Mat K) : (Props.asMatrix n A).det = 0 ↔ ∃ v : Vec n K, v ≠ 0 ∧ app A v = 0 := by
  rw [← Matrix.exists_mulVec_eq_zero_iff]
  simp only [app_eq]

theorem app_injective {A : Mat K} (h : (Props.asMatrix n A).det ≠ 0) {x y : Vec n K} (hxy : app A x = app A y) : x = y := by
  by_contra hne
  apply h
  rw [det_zero_iff]
  refine ⟨x - y, sub_ne_zero.2 hne, ?_⟩
  rw [app_eq] at hxy ⊢
  rw [app_eq] at hxy
  rw [Matrix.mulVec_sub, hxy, sub_self]

theorem setup_app (hn : 0 < n) {A M : Mat K} {p0 p : Nat → Nat} (h : denseSetup n A p0 = .ok M p) (b : Vec n K) :
    ∃ x : Vec n K, lsX M p b = some x ∧ app A x = b := by
  obtain ⟨x, h1, h2⟩ := Props.c01_dense_solve_correct hn A p0 h b.toFun
  refine ⟨Vec.ofFun x, by simp [lsX, h1], ?_⟩
  funext i
  have := h2 i i.2
  have e : (Vec.toFun b) i = b i := by simp [Vec.toFun]
  rw [e] at this
  rw [← this]
  unfold app Spec.mulVec
  exact Finset.sum_congr rfl fun j hj => by simp [Vec.toFun, Vec.ofFun, Finset.mem_range.1 hj]

theorem det_iff {A A' : Mat K} (h : ∀ v, app A' (C.vec v) = C.E (app A v)) :
    (Props.asMatrix n A').det = 0 ↔ (Props.asMatrix n A).det = 0 := by
  rw [det_zero_iff, det_zero_iff]
  constructor
  · rintro ⟨w, h1, h2⟩
    refine ⟨C.unvec w, fun h0 => h1 ?_, ?_⟩
    · rw [← C.vec_unvec w, h0]
      funext i; simp [vec]
    · have := h (C.unvec w)
      rw [C.vec_unvec, h2] at this
      exact (C.E.map_eq_zero_iff).1 this.symm
  · rintro ⟨v, h1, h2⟩
    refine ⟨C.vec v, fun h0 => h1 ?_, ?_⟩
    · rw [← C.unvec_vec v, h0]
      funext i; simp [unvec]
    · rw [h, h2, map_zero]

theorem link_of_setup {A A' M M' : Mat K} {p0 p0' p p' : Nat → Nat} (h : ∀ v, app A' (C.vec v) = C.E (app A v))
    (hs : denseSetup n A p0 = .ok M p) (hs' : denseSetup n A' p0' = .ok M' p') (b : Vec n K) :
    lsX M' p' (C.E b) = (lsX M p b).map C.vec := by
  by_cases hn : 0 < n
  · obtain ⟨x, h1, h2⟩ := setup_app hn hs b
    obtain ⟨x', h1', h2'⟩ := setup_app hn hs' (C.E b)
    have hd := (Props.c02_dense_setup_ok_iff n A' p0').1.1 ⟨M', p', hs'⟩
    rw [h1, h1', Option.map_some]
    congr 1
    apply app_injective hd
    rw [h2', h, h2]
  · obtain rfl : n = 0 := by omega
    have := fun (M : Mat K) p b => (Props.c05_dense_no_panic (le_refl 0) M p).2.2.2 M p b
    simp only [lsX, this, Option.map_none]

variable {C} {P P' : Problem n q K}

theorem jac_app (hP : C.Problems P P') (t cj : K) (y yp r v : Vec n K) :
    app (P'.jac (C.σ * t) (cj / C.σ) (C.vec y) (C.rate yp) (C.E r) (fun _ _ => 0)) (C.vec v) =
      C.E (app (P.jac t cj y yp r (fun _ _ => 0)) v) := by
  funext i
  exact hP.jac t cj y yp r v i

theorem setup_or (A : Mat K) (p0 : Nat → Nat) :
    (∃ M p, denseSetup n A p0 = .ok M p) ∨ ∃ c M p, denseSetup n A p0 = .err c M p := by
  by_cases h : (Props.asMatrix n A).det = 0
  · exact Or.inr ((Props.c02_dense_setup_ok_iff n A p0).2.2 h)
  · exact Or.inl ((Props.c02_dense_setup_ok_iff n A p0).1.2 h)

theorem lsSetup_conv (hP : C.Problems P P') (e : Env n K) (J : Junk n K) (m : Mem n K) (yy yp r : Vec n K) :
    (lsSetup P e m yy yp r = none ∧ lsSetup P' (C.env e) (C.mem J m) (C.vec yy) (C.rate yp) (C.E r) = none) ∨
    ∃ m1 J1, lsSetup P e m yy yp r = some m1 ∧
      lsSetup P' (C.env e) (C.mem J m) (C.vec yy) (C.rate yp) (C.E r) = some (C.mem J1 m1) ∧ C.Link m1 J1 := by
  have key : ∀ (A A' : Mat K) (p0 p0' : Nat → Nat), (∀ v, app A' (C.vec v) = C.E (app A v)) →
      ((∃ c M p, denseSetup n A p0 = .err c M p) ∧ ∃ c M p, denseSetup n A' p0' = .err c M p) ∨
      ∃ M p M' p', denseSetup n A p0 = .ok M p ∧ denseSetup n A' p0' = .ok M' p' ∧
        ∀ b, lsX M' p' (C.E b) = (lsX M p b).map C.vec := by
    intro A A' p0 p0' h
    by_cases hd : (Props.asMatrix n A).det = 0
    · exact Or.inl ⟨(Props.c02_dense_setup_ok_iff n A p0).2.2 hd,
        (Props.c02_dense_setup_ok_iff n A' p0').2.2 ((C.det_iff h).2 hd)⟩
    · obtain ⟨M, p, h1⟩ := (Props.c02_dense_setup_ok_iff n A p0).1.2 hd
      obtain ⟨M', p', h1'⟩ := (Props.c02_dense_setup_ok_iff n A' p0').1.2 (fun h0 => hd ((C.det_iff h).1 h0))
      exact Or.inr ⟨M, p, M', p', h1, h1', C.link_of_setup h h1 h1'⟩
  unfold lsSetup
  by_cases hn : n = 0
  · subst hn
    simp only [if_true]
    have h0 : ∀ v, app (C.mem J m).matJ (C.vec v) = C.E (app m.matJ v) := fun v => by
      funext i; exact i.elim0
    rcases key m.matJ (C.mem J m).matJ m.piv (C.mem J m).piv h0 with ⟨⟨c, M, p, h1⟩, c', M', p', h1'⟩ | ⟨M, p, M', p', h1, h1', h2⟩
    · left; rw [h1, h1']; exact ⟨rfl, rfl⟩
    · right
      rw [h1, h1']
      exact ⟨{ m with matJ := M, piv := p }, { J with matJ := M', piv := p' }, rfl, rfl, h2⟩
  · simp only [if_neg hn]
    have h0 : ∀ v, app (P'.jac 0 (C.env e).cj (C.vec yy) (C.rate yp) (C.E r) (fun _ _ => 0)) (C.vec v) =
        C.E (app (P.jac 0 e.cj yy yp r (fun _ _ => 0)) v) := fun v => by
      have := jac_app hP 0 e.cj yy yp r v
      rwa [mul_zero] at this
    rcases key _ _ m.piv (C.mem J m).piv h0 with ⟨⟨c, M, p, h1⟩, c', M', p', h1'⟩ | ⟨M, p, M', p', h1, h1', h2⟩
    · left; rw [h1, h1']; exact ⟨rfl, rfl⟩
    · right
      rw [h1, h1']
      refine ⟨{ m with nje := m.nje + 1, matJ := M, piv := p, log := .jac 0 e.cj yy yp r :: m.log },
        { J with matJ := M', piv := p' }, rfl, ?_, h2⟩
      simp [mem, ucall, env]

theorem idaSetup_conv (hP : C.Problems P P') (e : Env n K) (J : Junk n K) (m : Mem n K) (r : Vec n K) :
    (idaSetup P e m r = none ∧ idaSetup P' (C.env e) (C.mem J m) (C.E r) = none) ∨
    ∃ m1 J1, idaSetup P e m r = some m1 ∧
      idaSetup P' (C.env e) (C.mem J m) (C.E r) = some (C.mem J1 m1) ∧ C.Link m1 J1 := by
  unfold idaSetup
  rcases lsSetup_conv hP e J { m with nsetups := m.nsetups + 1 } m.yy m.yp r with ⟨h1, h2⟩ | ⟨m1, J1, h1, h2, h3⟩
  · left
    rw [h1]
    refine ⟨rfl, ?_⟩
    have h2' : lsSetup P' (C.env e) { C.mem J m with nsetups := (C.mem J m).nsetups + 1 } (C.mem J m).yy (C.mem J m).yp
        (C.E r) = none := h2
    rw [h2']
  · right
    rw [h1]
    refine ⟨_, J1, rfl, ?_, ?_⟩
    · have h2' : lsSetup P' (C.env e) { C.mem J m with nsetups := (C.mem J m).nsetups + 1 } (C.mem J m).yy (C.mem J m).yp
        (C.E r) = some (C.mem J1 m1) := h2
      rw [h2']
      rfl
    · exact h3

theorem idaSys_conv (hP : C.Problems P P') (e : Env n K) (J : Junk n K) (m : Mem n K) (y b b' : Vec n K) :
    idaSys P' (C.env e) (C.mem J m) (C.vec y) b' = (C.mem J (idaSys P e m y b).1, C.E (idaSys P e m y b).2) := by
  have e1 : vadd (C.vec e.yypredict) (C.vec y) = C.vec (vadd e.yypredict y) := C.vec_vadd _ _
  have e2 : scaledAdd (C.rate e.yppredict) (e.cj / C.σ) (C.vec y) = C.rate (scaledAdd e.yppredict e.cj y) :=
    C.rate_scaledAdd _ _ _
  simp only [idaSys, env, e1, e2]
  rw [hP.res _ _ _ b b']
  rfl

theorem link_sys {e : Env n K} {J : Junk n K} {m : Mem n K} {y b : Vec n K} (h : C.Link m J) : C.Link (idaSys P e m y b).1 J := h

theorem lsSolve_eq (m : Mem n K) (b : Vec n K) : lsSolve m b = (lsX m.matJ m.piv b).map fun x =>
    ({ m with x := x }, if Scalar.neb m.cjratio 1 then vscale (Scalar.two / (1 + m.cjratio)) x else x) := by
  unfold lsSolve lsX
  cases denseSolve n m.matJ m.piv b.toFun <;> rfl

theorem lsSolve_conv {J : Junk n K} {m : Mem n K} (h : C.Link m J) (b : Vec n K) :
    lsSolve (C.mem J m) (C.E b) = (lsSolve m b).map fun p => (C.mem J p.1, C.vec p.2) := by
  rw [lsSolve_eq, lsSolve_eq]
  have e1 : (C.mem J m).matJ = J.matJ := rfl
  have e2 : (C.mem J m).piv = J.piv := rfl
  have e3 : (C.mem J m).cjratio = m.cjratio := rfl
  rw [e1, e2, h b, e3, Option.map_map, Option.map_map]
  congr 1
  funext x
  simp only [Function.comp]
  rw [C.vec_vscale]
  split <;> rfl

theorem lsSolve_link {J : Junk n K} {m m1 : Mem n K} {b x : Vec n K} (h : C.Link m J) (h1 : lsSolve m b = some (m1, x)) :
    C.Link m1 J := by
  rw [lsSolve_eq] at h1
  cases h2 : lsX m.matJ m.piv b with
  | none => rw [h2] at h1; cases h1
  | some x =>
    rw [h2] at h1
    simp only [Option.map_some, Option.some.injEq, Prod.mk.injEq] at h1
    rw [← h1.1]; exact h

theorem idaCtest_conv (e : Env n K) (J : Junk n K) (m : Mem n K) (vw : NlsView) (del : Vec n K) (tol : K) (w : Vec n K) :
    idaCtest (C.env e) (C.mem J m) vw (C.vec del) tol (C.wt w) =
      (C.mem J (idaCtest e m vw del tol w).1, (idaCtest e m vw del tol w).2) := by
  unfold idaCtest
  have e1 : (C.env e).toldel = e.toldel := rfl
  have e2 : (C.mem J m).oldnrm = m.oldnrm := rfl
  have e3 : (C.mem J m).ss = m.ss := rfl
  simp only [C.norm_eq, e1, e2, e3]
  split
  · split <;> rfl
  · split <;> rfl

theorem ctest_link {e : Env n K} {J : Junk n K} {m : Mem n K} {vw : NlsView} {del : Vec n K} {tol : K} {w : Vec n K}
    (h : C.Link m J) : C.Link (idaCtest e m vw del tol w).1 J := by
  unfold idaCtest
  dsimp only
  split
  · split <;> exact h
  · split <;> exact h

theorem vec_add (a b : Vec n K) : C.vec a + C.vec b = C.vec (a + b) := C.vec_vadd a b

/-- Corresponding results of the nonlinear solver. -/
inductive NRel (C : Change n K) : NOut (Mem n K) (Vec n K) → NOut (Mem n K) (Vec n K) → Prop
  | done (N : Newton (Vec n K)) (m : Mem n K) (y : Vec n K) (r : Except Err Unit) (J : Junk n K) (h : C.Link m J) :
      NRel C (.done N m y r) (.done { N with delta := C.vec N.delta } (C.mem J m) (C.vec y) r)
  | panic : NRel C .panic .panic
  | diverge : NRel C .diverge .diverge

theorem inner_conv (hP : C.Problems P P') (e : Env n K) (tol : K) (w : Vec n K) (fuel : Nat) :
    ∀ (N : Newton (Vec n K)) (m : Mem n K) (y : Vec n K) (J : Junk n K), C.Link m J →
      NRel C (newtonInner (idaNLProblem P e) tol w fuel N m y)
        (newtonInner (idaNLProblem P' (C.env e)) tol (C.wt w) fuel { N with delta := C.E N.delta } (C.mem J m) (C.vec y)) := by
  induction fuel with
  | zero => intros; exact .diverge
  | succ fuel ih =>
    intro N m y J hL
    unfold newtonInner
    dsimp only [idaNLProblem]
    have e0 : -(C.E N.delta) = C.E (-N.delta) := (map_neg C.E _).symm
    rw [e0, lsSolve_conv hL]
    cases h1 : lsSolve m (-N.delta) with
    | none => exact .panic
    | some p =>
      obtain ⟨m1, x⟩ := p
      have hL1 := lsSolve_link hL h1
      simp only [Option.map_some]
      rw [vec_add, idaCtest_conv]
      have hL2 : ∀ vw, C.Link (idaCtest e m1 vw x tol w).1 J := fun vw => ctest_link hL1
      have hv : (Newton.view { N with niters := N.niters + 1, delta := C.vec x }) =
          Newton.view { N with niters := N.niters + 1, delta := x } := rfl
      rw [hv]
      generalize hct : idaCtest e m1 (Newton.view { N with niters := N.niters + 1, delta := x }) x tol w = ct
      have hL3 : C.Link ct.1 J := by rw [← hct]; exact hL2 _
      obtain ⟨m2, r⟩ := ct
      dsimp only at hL3 ⊢
      match r with
      | .panic => exact .panic
      | .err er => exact .done { N with niters := N.niters + 1, delta := x } m2 (y + x) _ J hL3
      | .ok true => exact .done { N with niters := N.niters + 1, delta := x, jcur := false } m2 (y + x) _ J hL3
      | .ok false =>
        dsimp only
        split
        · exact .done { N with niters := N.niters + 1, delta := x, curiter := N.curiter + 1 } m2 (y + x) _ J hL3
        · rw [idaSys_conv hP e J m2 (y + x) x (C.vec x)]
          exact ih { N with niters := N.niters + 1, delta := (idaSys P e m2 (y + x) x).2, curiter := N.curiter + 1 }
            (idaSys P e m2 (y + x) x).1 (y + x) J (link_sys hL3)

theorem attempt_conv (hP : C.Problems P P') (e : Env n K) (tol : K) (w y0 : Vec n K) (call jbad : Bool)
    (N : Newton (Vec n K)) (m : Mem n K) (y : Vec n K) (J : Junk n K) (D : Vec n K) (h : call = true ∨ C.Link m J) :
    NRel C (newtonAttempt (idaNLProblem P e) y0 tol w call jbad N m y)
      (newtonAttempt (idaNLProblem P' (C.env e)) (C.vec y0) tol (C.wt w) call jbad { N with delta := D } (C.mem J m)
        (C.vec y)) := by
  unfold newtonAttempt
  dsimp only [idaNLProblem]
  rw [idaSys_conv hP e J m y0 N.delta D]
  dsimp only
  cases call with
  | true =>
    simp only [if_true]
    rcases idaSetup_conv hP e J (idaSys P e m y0 N.delta).1 (idaSys P e m y0 N.delta).2 with
      ⟨h1, h2⟩ | ⟨m1, J1, h1, h2, h3⟩
    · rw [h1, h2]; exact .panic
    · rw [h1, h2]
      exact inner_conv hP e tol w (N.maxiters + 1)
        { N with delta := (idaSys P e m y0 N.delta).2, jcur := true, curiter := 0 } m1 y0 J1 h3
  | false =>
    have hL : C.Link m J := by
      rcases h with h | h
      · cases h
      · exact h
    exact inner_conv hP e tol w (N.maxiters + 1)
        { N with delta := (idaSys P e m y0 N.delta).2, curiter := 0 } (idaSys P e m y0 N.delta).1 y0 J (link_sys hL)

theorem outer_conv (hP : C.Problems P P') (e : Env n K) (tol : K) (w y0 : Vec n K) (fuel : Nat) :
    ∀ (call jbad : Bool) (N : Newton (Vec n K)) (m : Mem n K) (y : Vec n K) (J : Junk n K) (D : Vec n K),
      call = true ∨ C.Link m J →
    NRel C (newtonOuter (idaNLProblem P e) y0 tol w fuel call jbad N m y)
      (newtonOuter (idaNLProblem P' (C.env e)) (C.vec y0) tol (C.wt w) fuel call jbad { N with delta := D } (C.mem J m)
        (C.vec y)) := by
  induction fuel with
  | zero => intros; exact .diverge
  | succ fuel ih =>
    intro call jbad N m y J D h
    have := attempt_conv hP e tol w y0 call jbad N m y J D h
    unfold newtonOuter
    revert this
    generalize newtonAttempt (idaNLProblem P e) y0 tol w call jbad N m y = o
    generalize newtonAttempt (idaNLProblem P' (C.env e)) (C.vec y0) tol (C.wt w) call jbad { N with delta := D }
      (C.mem J m) (C.vec y) = o'
    intro hR
    cases hR with
    | panic => exact .panic
    | diverge => exact .diverge
    | done N1 m1 y1 r J1 hL =>
      match r with
      | .ok _ => exact .done N1 m1 y1 _ J1 hL
      | .error er =>
        dsimp only
        split
        · split
          · exact ih true true { N1 with nconvfails := N1.nconvfails + 1 } m1 y1 J1 (C.vec N1.delta) (Or.inl rfl)
          · exact ih call jbad N1 m1 y1 J1 (C.vec N1.delta) (Or.inr hL)
        · exact .done { N1 with nconvfails := N1.nconvfails + 1 } m1 y1 _ J1 hL

/-! ## One step -/

/-- Corresponding states; the flag says whether `phi[1]` still contains the initial derivative. -/
def Rel (C : Change n K) (L : Prop) (s s' : St n q K) : Prop :=
  ∃ J, s' = C.st false J s ∧ s.tstop = none ∧ (L → C.Link s.m J)

theorem Rel.weak {L L' : Prop} {s s' : St n q K} (h : C.Rel L s s') (hL : L' → L) : C.Rel L' s s' :=
  let ⟨J, h1, h2, h3⟩ := h
  ⟨J, h1, h2, fun l => h3 (hL l)⟩

theorem prepare_conv (J : Junk n K) (s : St n q K) :
    nlsPrepare (C.st false J s) = (C.mem J (nlsPrepare s).1, (nlsPrepare s).2) := by
  have hσ := C.hσ
  have e1 : (C.st false J s).cnt = s.cnt := rfl
  have e2 : (C.st false J s).e.cj = s.e.cj / C.σ := rfl
  have e3 : (C.st false J s).c.cjlast = s.c.cjlast / C.σ := rfl
  have e4 : (C.st false J s).m = C.mem J s.m := rfl
  have e5 : (if decide (s.cnt.nst = 0) = true then { C.mem J s.m with cjold := s.e.cj / C.σ, ss := Scalar.twenty }
      else C.mem J s.m) =
      C.mem J (if decide (s.cnt.nst = 0) = true then { s.m with cjold := s.e.cj, ss := Scalar.twenty } else s.m) := by
    split <;> rfl
  have e6 : Scalar.neb (s.e.cj / C.σ) (s.c.cjlast / C.σ) = Scalar.neb s.e.cj s.c.cjlast := by
    have : s.e.cj / C.σ = s.c.cjlast / C.σ ↔ s.e.cj = s.c.cjlast := div_left_inj' hσ
    simp only [Scalar.neb, ex_eqb]
    rw [decide_eq_decide.2 this]
  unfold nlsPrepare
  simp only [e1, e2, e3, e4, e5, e6]
  generalize (if decide (s.cnt.nst = 0) = true then { s.m with cjold := s.e.cj, ss := Scalar.twenty } else s.m) = m
  have e7 : s.e.cj / C.σ / (C.mem J m).cjold = s.e.cj / m.cjold := by
    show s.e.cj / C.σ / (m.cjold / C.σ) = _
    exact div_div_div_cancel_right₀ hσ _ _
  rw [e7]
  split <;> rfl

theorem prepare_link {J : Junk n K} {s : St n q K} (h : C.Link s.m J) : C.Link (nlsPrepare s).1 J := by
  unfold nlsPrepare
  dsimp only
  split <;> split <;> exact h

variable {cfg cfg' : Cfg (Newton (Vec n K)) n q K}

/-- Corresponding outcomes. -/
inductive ORel {α : Type v} (R : St n q K → St n q K → Prop) : Out (St n q K) α → Out (St n q K) α → Prop
  | ret {s s' : St n q K} (r : Except Err α) (h : R s s') : ORel R (.ret s r) (.ret s' r)
  | panic : ORel R .panic .panic
  | diverge : ORel R .diverge .diverge

theorem nonlinearSolve_conv (hc : C.Cfgs cfg cfg') {s s' : St n q K} (h : C.Rel (s.cnt.nst ≠ 0) s s') :
    ORel (C.Rel True) (nonlinearSolve cfg s) (nonlinearSolve cfg' s') := by
  obtain ⟨J, rfl, ht, hL⟩ := h
  obtain ⟨fuel, h1, h2⟩ := hc.nls
  unfold nonlinearSolve
  rw [prepare_conv, h1, h2, hc.constraintsSet]
  dsimp only [newtonNls, newtonSolve]
  have hcl : (nlsPrepare s).2 = true ∨ C.Link (nlsPrepare s).1 J := by
    by_cases h0 : s.cnt.nst = 0
    · left; simp [nlsPrepare, h0]
    · right; exact prepare_link (hL h0)
  have := outer_conv hc.prob s.e s.epsNewt s.e.ewt vzero fuel (nlsPrepare s).2 false s.nls (nlsPrepare s).1 s.ee J J.delta hcl
  rw [← C.vec_zero] at this
  have hq : newtonOuter (idaNLProblem cfg'.prob (C.st false J s).e) vzero (C.st false J s).epsNewt (C.st false J s).e.ewt fuel
      (nlsPrepare s).2 false (C.st false J s).nls (C.mem J (nlsPrepare s).1) (C.st false J s).ee =
      newtonOuter (idaNLProblem cfg'.prob (C.env s.e)) vzero s.epsNewt (C.wt s.e.ewt) fuel (nlsPrepare s).2 false
        { s.nls with delta := J.delta } (C.mem J (nlsPrepare s).1) (C.vec s.ee) := rfl
  rw [hq]
  revert this
  generalize newtonOuter (idaNLProblem cfg.prob s.e) vzero s.epsNewt s.e.ewt fuel (nlsPrepare s).2 false s.nls
    (nlsPrepare s).1 s.ee = o
  generalize newtonOuter (idaNLProblem cfg'.prob (C.env s.e)) vzero s.epsNewt (C.wt s.e.ewt) fuel (nlsPrepare s).2 false
        { s.nls with delta := J.delta } (C.mem J (nlsPrepare s).1) (C.vec s.ee) = o'
  intro hR
  cases hR with
  | panic => exact .panic
  | diverge => exact .diverge
  | done N m y r J1 hL1 =>
    dsimp only
    have key : C.Rel True
        { s with
          nls := N, m := { m with yy := vadd s.e.yypredict y, yp := scaledAdd s.e.yppredict s.e.cj y }
          delta := vzero, ee := y }
        { C.st false J s with
          nls := { N with delta := C.vec N.delta }
          m := { C.mem J1 m with yy := vadd (C.st false J s).e.yypredict (C.vec y)
                                 yp := scaledAdd (C.st false J s).e.yppredict (C.st false J s).e.cj (C.vec y) }
          delta := vzero, ee := C.vec y } := by
      refine ⟨{ J1 with delta := C.vec N.delta }, ?_, ht, fun _ => hL1⟩
      have e1 : vadd (C.st false J s).e.yypredict (C.vec y) = C.vec (vadd s.e.yypredict y) := C.vec_vadd _ _
      have e2 : scaledAdd (C.st false J s).e.yppredict (C.st false J s).e.cj (C.vec y) =
        C.rate (scaledAdd s.e.yppredict s.e.cj y) := C.rate_scaledAdd _ _ _
      rw [e1, e2]
      simp only [st, ← C.vec_zero]
      rfl
    match r with
    | .error er => exact .ret _ key
    | .ok _ =>
      dsimp only
      split
      · exact .panic
      · exact .ret _ key

/-- A function that commutes with the change of units keeps states corresponding. -/
theorem Rel.map {L : Prop} {f g : St n q K → St n q K} {s s' : St n q K} (h : C.Rel L s s')
    (hf : ∀ J, g (C.st false J s) = C.st false J (f s)) (ht : (f s).tstop = s.tstop) (hM : (f s).m.matJ = s.m.matJ)
    (hp : (f s).m.piv = s.m.piv) : C.Rel L (f s) (g s') := by
  obtain ⟨J, rfl, h2, h3⟩ := h
  refine ⟨J, hf J, ht.trans h2, fun l b => ?_⟩
  rw [hM, hp]; exact h3 l b

theorem Rel.map? {α : Type v} {L : Prop} {f g : St n q K → Option (St n q K × α)} {s s' : St n q K} (h : C.Rel L s s')
    (hf : ∀ J, g (C.st false J s) = (f s).map fun p => (C.st false J p.1, p.2))
    (hk : ∀ s1 a, f s = some (s1, a) → s1.tstop = s.tstop ∧ s1.m.matJ = s.m.matJ ∧ s1.m.piv = s.m.piv) :
    (f s = none ∧ g s' = none) ∨ ∃ s1 s1' a, f s = some (s1, a) ∧ g s' = some (s1', a) ∧ C.Rel L s1 s1' := by
  obtain ⟨J, rfl, h2, h3⟩ := h
  cases h1 : f s with
  | none => left; rw [hf, h1]; exact ⟨rfl, rfl⟩
  | some p =>
    obtain ⟨s1, a⟩ := p
    obtain ⟨k1, k2, k3⟩ := hk s1 a h1
    right
    refine ⟨s1, C.st false J s1, a, rfl, by rw [hf, h1]; rfl, J, rfl, k1.trans h2, fun l b => ?_⟩
    rw [k2, k3]; exact h3 l b

theorem Rel.mapO {L : Prop} {f g : St n q K → Option (St n q K)} {s s' : St n q K} (h : C.Rel L s s')
    (hf : ∀ J, g (C.st false J s) = (f s).map (C.st false J))
    (hk : ∀ s1, f s = some s1 → s1.tstop = s.tstop ∧ s1.m.matJ = s.m.matJ ∧ s1.m.piv = s.m.piv) :
    (f s = none ∧ g s' = none) ∨ ∃ s1 s1', f s = some s1 ∧ g s' = some s1' ∧ C.Rel L s1 s1' := by
  obtain ⟨J, rfl, h2, h3⟩ := h
  cases h1 : f s with
  | none => left; rw [hf, h1]; exact ⟨rfl, rfl⟩
  | some s1 =>
    obtain ⟨k1, k2, k3⟩ := hk s1 h1
    right
    refine ⟨s1, C.st false J s1, rfl, by rw [hf, h1]; rfl, J, rfl, k1.trans h2, fun l b => ?_⟩
    rw [k2, k3]; exact h3 l b

/-- Corresponding outcomes of a trial. -/
inductive TRel (C : Change n K) : Trial (St n q K) K → Trial (St n q K) K → Prop
  | nlsFail {s s' : St n q K} (ck : K) (e : Err) (h : C.Rel True s s') : TRel C (.nlsFail s ck e) (.nlsFail s' ck e)
  | tested {s s' : St n q K} (ck : K) (t : TestRes K) (h : C.Rel True s s') : TRel C (.tested s ck t) (.tested s' ck t)
  | panic : TRel C .panic .panic
  | diverge : TRel C .diverge .diverge

theorem setCoeffs_keep {s s1 : St n q K} {ck : K} (h : setCoeffs s = some (s1, ck)) :
    s1.tstop = s.tstop ∧ s1.m = s.m ∧ s1.cnt = s.cnt ∧ s1.g = s.g := by
  unfold setCoeffs at h
  dsimp only at h
  split at h
  · simp only [Option.some.injEq, Prod.mk.injEq] at h
    rw [← h.1]; exact ⟨rfl, rfl, rfl, rfl⟩
  · cases h

theorem predict_keep {s s1 : St n q K} (h : predict s = some s1) :
    s1.tstop = s.tstop ∧ s1.m = s.m ∧ s1.cnt = s.cnt := by
  unfold predict at h
  dsimp only at h
  split at h
  · simp only [Option.some.injEq] at h
    rw [← h]; exact ⟨rfl, rfl, rfl⟩
  · cases h

theorem testError_keep {s s1 : St n q K} {ck : K} {t : TestRes K} (h : testError cfg s ck = some (s1, t)) :
    s1.tstop = s.tstop ∧ s1.m = s.m ∧ s1.cnt = s.cnt := by
  unfold testError at h
  dsimp only at h
  split at h
  · simp only [Option.some.injEq, Prod.mk.injEq] at h
    rw [← h.1]; exact ⟨rfl, rfl, rfl⟩
  · cases h

theorem restore_keep {s s1 : St n q K} {t : K} (h : restore s t = some s1) :
    s1.tstop = s.tstop ∧ s1.m = s.m ∧ s1.cnt = s.cnt := by
  unfold restore at h
  dsimp only at h
  split at h
  · simp only [Option.some.injEq] at h
    rw [← h]; exact ⟨rfl, rfl, rfl⟩
  · cases h

theorem handleNFlag_keep {s s1 : St n q K} {err : Err} {errk errkm1 : K} {f : Fails} {r : Fails × Except Err Unit}
    (h : handleNFlag cfg s err errk errkm1 f = some (s1, r)) : s1.tstop = s.tstop ∧ s1.m = s.m := by
  unfold handleNFlag at h
  dsimp only at h
  split at h
  · split at h
    · cases h; exact ⟨rfl, rfl⟩
    · split at h
      · cases h; exact ⟨rfl, rfl⟩
      · split at h
        · cases h; exact ⟨rfl, rfl⟩
        · cases h; exact ⟨rfl, rfl⟩
  · split at h
    · cases h; exact ⟨rfl, rfl⟩
    · cases h; exact ⟨rfl, rfl⟩
  · cases h
  · cases h; exact ⟨rfl, rfl⟩

theorem chooseNext_keep {s s1 : St n q K} {kd : Bool} {errk errkm1 : K} (h : chooseNext cfg s kd errk errkm1 = some s1) :
    s1.tstop = s.tstop ∧ s1.m = s.m := by
  unfold chooseNext at h
  dsimp only at h
  split at h
  · split at h
    · cases h; exact ⟨rfl, rfl⟩
    · cases h; exact ⟨rfl, rfl⟩
  · split at h
    · cases h
    · cases h; exact ⟨rfl, rfl⟩

theorem completeStep_keep {s s1 : St n q K} {errk errkm1 : K} (h : completeStep cfg s errk errkm1 = some s1) :
    s1.tstop = s.tstop ∧ s1.m = s.m := by
  unfold completeStep at h
  dsimp only at h
  split at h
  · cases h
  · split at h
    · cases h
    · rename_i s2 h2
      have := chooseNext_keep h2
      split at h
      · cases h
        refine ⟨this.1.trans ?_, this.2.trans ?_⟩
        · unfold markPhase; split <;> rfl
        · unfold markPhase; split <;> rfl
      · cases h

theorem advanceTime_keep (s : St n q K) :
    (advanceTime s).tstop = s.tstop ∧ (advanceTime s).m = s.m ∧ (advanceTime s).cnt = s.cnt := ⟨rfl, rfl, rfl⟩

theorem trial_conv (hc : C.Cfgs cfg cfg') {s s' : St n q K} (h : C.Rel (s.cnt.nst ≠ 0) s s') :
    TRel C (trial cfg s) (trial cfg' s') := by
  unfold trial
  rcases h.map? (f := setCoeffs) (g := setCoeffs) (fun J => C.setCoeffs_conv J s)
    (fun s1 a hk => by
      obtain ⟨k1, k2, _⟩ := setCoeffs_keep hk
      exact ⟨k1, by rw [k2], by rw [k2]⟩) with ⟨h1, h2⟩ | ⟨s1, s1', ck, h1, h2, hR⟩
  · rw [h1, h2]; exact .panic
  rw [h1, h2]
  dsimp only
  have hn1 := (setCoeffs_keep h1).2.2.1
  have hA : C.Rel (s.cnt.nst ≠ 0) (advanceTime s1) (advanceTime s1') :=
    hR.map (fun J => C.advanceTime_conv J s1 (by obtain ⟨_, _, ht, _⟩ := hR; exact ht)) rfl rfl rfl
  rcases hA.mapO (f := predict) (g := predict) (fun J => C.predict_conv J _)
    (fun s2 hk => by
      obtain ⟨k1, k2, _⟩ := predict_keep hk
      exact ⟨k1, by rw [k2], by rw [k2]⟩) with ⟨h3, h4⟩ | ⟨s2, s2', h3, h4, hB⟩
  · rw [h3, h4]; exact .panic
  rw [h3, h4]
  dsimp only
  have hn2 : s2.cnt = s.cnt := by rw [(predict_keep h3).2.2, (advanceTime_keep s1).2.2, hn1]
  have hN := nonlinearSolve_conv hc (s := s2) (s' := s2') (hB.weak (by rw [hn2]; exact id))
  revert hN
  generalize nonlinearSolve cfg s2 = o
  generalize nonlinearSolve cfg' s2' = o'
  intro hN
  cases hN with
  | panic => exact .panic
  | diverge => exact .diverge
  | ret r hD =>
    rename_i s3 s3'
    match r with
    | .error e => exact .nlsFail ck e hD
    | .ok () =>
      dsimp only
      rcases hD.map? (f := fun s => testError cfg s ck) (g := fun s => testError cfg' s ck)
        (fun J => testError_conv hc J s3 ck)
        (fun s1 a hk => by
          obtain ⟨k1, k2, _⟩ := testError_keep hk
          exact ⟨k1, by rw [k2], by rw [k2]⟩) with ⟨h5, h6⟩ | ⟨s4, s4', t, h5, h6, hE⟩
      · rw [h5, h6]; exact .panic
      · rw [h5, h6]; exact .tested ck t hE

/-- Corresponding outcomes of an attempt. -/
inductive ARel (C : Change n K) : Attempt (St n q K) K → Attempt (St n q K) K → Prop
  | done {s s' : St n q K} (ck a b : K) (h : C.Rel True s s') : ARel C (.done s ck a b) (.done s' ck a b)
  | again {s s' : St n q K} (f : Fails) (h : C.Rel True s s') : ARel C (.again s f) (.again s' f)
  | fail {s s' : St n q K} (e : Err) (h : C.Rel True s s') : ARel C (.fail s e) (.fail s' e)
  | panic : ARel C .panic .panic
  | diverge : ARel C .diverge .diverge

theorem attemptFailed_conv (hc : C.Cfgs cfg cfg') {s s' : St n q K} (h : C.Rel True s s') (t0 : K) (err : Err)
    (errk errkm1 : K) (f : Fails) :
    ARel C (attemptFailed cfg t0 s err errk errkm1 f) (attemptFailed cfg' (C.σ * t0) s' err errk errkm1 f) := by
  unfold attemptFailed
  rcases h.mapO (f := fun s => restore s t0) (g := fun s => restore s (C.σ * t0)) (fun J => restore_conv J s t0)
    (fun s2 hk => by
      obtain ⟨k1, k2, _⟩ := restore_keep hk
      exact ⟨k1, by rw [k2], by rw [k2]⟩) with ⟨h3, h4⟩ | ⟨s2, s2', h3, h4, hB⟩
  · rw [h3, h4]; exact .panic
  rw [h3, h4]
  dsimp only
  rcases hB.map? (f := fun s => handleNFlag cfg s err errk errkm1 f) (g := fun s => handleNFlag cfg' s err errk errkm1 f)
    (fun J => handleNFlag_conv hc J s2 err errk errkm1 f)
    (fun s1 a hk => by
      obtain ⟨k1, k2⟩ := handleNFlag_keep hk
      exact ⟨k1, by rw [k2], by rw [k2]⟩) with ⟨h5, h6⟩ | ⟨s4, s4', t, h5, h6, hE⟩
  · rw [h5, h6]; exact .panic
  · rw [h5, h6]
    obtain ⟨f1, r⟩ := t
    match r with
    | .error e => exact .fail e hE
    | .ok () =>
      have hcnt : s4'.cnt = s4.cnt := by obtain ⟨J, rfl, _⟩ := hE; rfl
      dsimp only
      rw [hcnt]
      split
      · exact .again f1 (hE.map (fun J => reset_conv J s4) rfl rfl rfl)
      · exact .again f1 hE

theorem attempt_rel (hc : C.Cfgs cfg cfg') {s s' : St n q K} (h : C.Rel (s.cnt.nst ≠ 0) s s') (t0 : K) (f : Fails) :
    ARel C (attempt cfg t0 s f) (attempt cfg' (C.σ * t0) s' f) := by
  unfold attempt
  have hT := trial_conv hc h
  revert hT
  generalize trial cfg s = o
  generalize trial cfg' s' = o'
  intro hT
  have nt : ∀ {s s' : St n q K} (ck : K) (o : AttOut), C.Rel True s s' →
      C.Rel True (s.note t0 ck o) (s'.note (C.σ * t0) ck o) := fun {s s'} ck o h =>
    h.map (f := fun s => s.note t0 ck o) (g := fun s => s.note (C.σ * t0) ck o) (fun J => note_conv J s t0 ck o) rfl rfl rfl
  have na : ∀ {s s' : St n q K}, C.Rel True s s' → C.Rel True (s.noteAcc t0) (s'.noteAcc (C.σ * t0)) := fun {s s'} h =>
    h.map (f := fun s => s.noteAcc t0) (g := fun s => s.noteAcc (C.σ * t0)) (fun J => noteAcc_conv J s t0) rfl rfl rfl
  cases hT with
  | panic => exact .panic
  | diverge => exact .diverge
  | nlsFail ck e h => exact attemptFailed_conv hc (nt ck _ h) t0 e 0 0 f
  | tested ck t h =>
    dsimp only
    split
    · exact .done ck _ _ (na (nt ck _ h))
    · exact attemptFailed_conv hc (nt ck _ h) t0 _ _ _ f

theorem stepLoop_conv (hc : C.Cfgs cfg cfg') (t0 : K) (fuel : Nat) : ∀ {s s' : St n q K} (f : Fails),
    C.Rel (s.cnt.nst ≠ 0) s s' → ORel (C.Rel True) (stepLoop cfg t0 fuel s f) (stepLoop cfg' (C.σ * t0) fuel s' f) := by
  induction fuel with
  | zero => intros; exact .diverge
  | succ fuel ih =>
    intro s s' f h
    unfold stepLoop
    have hA := attempt_rel hc h t0 f
    revert hA
    generalize attempt cfg t0 s f = o
    generalize attempt cfg' (C.σ * t0) s' f = o'
    intro hA
    cases hA with
    | panic => exact .panic
    | diverge => exact .diverge
    | fail e h => exact .ret _ h
    | again f h => exact ih f (h.weak fun _ => trivial)
    | done ck a b h =>
      rename_i s1 s1'
      dsimp only
      rcases h.mapO (f := fun s => completeStep cfg s a b) (g := fun s => completeStep cfg' s a b)
        (fun J => completeStep_conv hc J s1 a b)
        (fun s2 hk => by
          obtain ⟨k1, k2⟩ := completeStep_keep hk
          exact ⟨k1, by rw [k2], by rw [k2]⟩) with ⟨h3, h4⟩ | ⟨s2, s2', h3, h4, hB⟩
      · rw [h3, h4]; exact .panic
      · rw [h3, h4]
        refine .ret _ (hB.map (f := fun s => { s with ee := vscale ck s.ee }) (g := fun s => { s with ee := vscale ck s.ee })
          (fun J => ?_) rfl rfl rfl)
        have : vscale ck (C.st false J s2).ee = C.vec (vscale ck s2.ee) := C.vec_vscale _ _
        rw [this]
        rfl

theorem step_conv (hc : C.Cfgs cfg cfg') {s s' : St n q K} (h : C.Rel (s.cnt.nst ≠ 0) s s') :
    ORel (C.Rel True) (step cfg s) (step cfg' s') := by
  unfold step
  have ht : s'.e.tn = C.σ * s.e.tn := by obtain ⟨J, rfl, _⟩ := h; rfl
  have h0 : (firstStepInit s).cnt = s.cnt ∧ (firstStepInit s).tstop = s.tstop ∧ (firstStepInit s).m = s.m := by
    unfold firstStepInit; split <;> exact ⟨rfl, rfl, rfl⟩
  rw [ht, hc.maxnef, hc.maxncf]
  refine stepLoop_conv hc _ _ _ ?_
  rw [h0.1]
  exact h.map (fun J => firstStepInit_conv J s) h0.2.1 (by rw [h0.2.2]) (by rw [h0.2.2])

end Change

end

end Verif
