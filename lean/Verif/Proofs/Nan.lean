import Verif.Proofs.Ghost
import Verif.Proofs.Converge
import Verif.Spec.Nan

/-! # NaN in the nonlinear iteration and the error test -/

set_option autoImplicit false
set_option linter.unusedSectionVars false
set_option linter.unusedSimpArgs false
set_option linter.unusedVariables false

namespace Verif

open Verif.Spec NanLaws

universe u v

section
variable {n q : Nat} {K : Type u} [Scalar K] [NanLaws K]

theorem le_clean {a b : K} (h : Scalar.le a b = true) : ¬ nan a ∧ ¬ nan b := by
  constructor <;> intro hn
  · rw [NanLaws.le a b (Or.inl hn)] at h; cases h
  · rw [NanLaws.le a b (Or.inr hn)] at h; cases h

theorem vsum_nan {f : Vec n K} {i : Fin n} (h : nan (f i)) : nan (vsum f) := by
  unfold vsum
  have key : ∀ (m : Nat) (g : Fin m → K) (i : Fin m), nan (g i) → nan (Fin.foldl m (fun acc i => acc + g i) (0 : K)) := by
    intro m
    induction m with
    | zero => intro g i; exact i.elim0
    | succ m ih =>
      intro g i hi
      rw [Fin.foldl_succ_last]
      by_cases hl : i = Fin.last m
      · subst hl; exact add_right _ _ hi
      · obtain ⟨j, rfl⟩ := Fin.exists_castSucc_eq.2 hl
        exact add_left _ _ (ih (fun j => g j.castSucc) j hi)
  exact key n f i h

theorem normWrms_clean {x w : Vec n K} (h : ¬ nan (normWrms x w)) : Clean x ∧ Clean w := by
  unfold normWrms at h
  constructor <;> intro i hi <;> refine h (NanLaws.sqrt _ (div_left _ _ (vsum_nan (i := i) (mul_left _ _ ?_))))
  · exact mul_left _ _ hi
  · exact mul_right _ _ hi

theorem wrmsNorm_clean {id : Fin n → Bool} {x w : Vec n K} {b : Bool} (h : ¬ nan (wrmsNorm id x w b)) : Clean x ∧ Clean w := by
  unfold wrmsNorm at h
  split at h
  · unfold normWrmsMasked at h
    constructor <;> intro i hi <;> refine h (NanLaws.sqrt _ (div_left _ _ (vsum_nan (i := i) (mul_left _ _ (mul_left _ _ ?_)))))
    · exact mul_left _ _ hi
    · exact mul_right _ _ hi
  · exact normWrms_clean h

/-! ## The linear solver -/

theorem permuteB_clean {p : Nat → Nat} {b b' : Nat → K} {k : Nat} (hk : k ≤ n) (h : permuteB n p b k = some b')
    (hc : ∀ i, i < n → ¬ nan (b' i)) : ∀ i, i < n → ¬ nan (b i) := by
  induction k generalizing b' with
  | zero => cases h; exact hc
  | succ k ih =>
    unfold permuteB at h
    split at h
    · cases h
    · rename_i b1 h1
      refine ih (by omega) h1 ?_
      split at h
      · split at h
        · rename_i hne hlt
          cases h
          intro i hi
          by_cases h2 : i = k
          · have := hc (p k) hlt
            simp only [upd_same] at this
            rw [h2]; exact this
          · by_cases h3 : i = p k
            · have := hc k (by omega)
              simp only [upd_ne _ _ (Ne.symm hne), upd_same] at this
              rw [h3]; exact this
            · have := hc i hi
              simp only [upd_ne _ _ h3, upd_ne _ _ h2] at this
              exact this
        · cases h
      · cases h; exact hc

theorem upd_nan {b : Nat → K} {i j : Nat} {v : K} (h : nan (b j)) (hv : j = i → nan v) : nan (upd b i v j) := by
  unfold upd
  split
  · exact hv (by assumption)
  · exact h

theorem forwardSub_nan {a : Mat K} {b : Nat → K} {j : Nat} (h : nan (b j)) : nan (forwardSub n a b j) := by
  unfold forwardSub
  refine forUp_inv (fun _ (b : Nat → K) => nan (b j)) h (fun k b1 _ h1 => ?_)
  exact forUp_inv (fun _ (b : Nat → K) => nan (b j)) h1 (fun d b2 _ h2 => upd_nan h2 (fun e => by subst e; exact sub_left _ _ h2))

theorem backwardSub_nan {a : Mat K} {b : Nat → K} {j : Nat} (h : nan (b j)) : nan (backwardSub n a b j) := by
  unfold backwardSub
  simp only
  have : nan (forUp (n - 1) (fun d b => forUp (n - 1 - d) (fun i b_1 => upd b_1 i (b_1 i - a i (n - 1 - d) *
      upd b (n - 1 - d) (b (n - 1 - d) / a (n - 1 - d) (n - 1 - d)) (n - 1 - d)))
      (upd b (n - 1 - d) (b (n - 1 - d) / a (n - 1 - d) (n - 1 - d)))) b j) := by
    refine forUp_inv (fun _ (b : Nat → K) => nan (b j)) h (fun k b1 _ h1 => ?_)
    exact forUp_inv (fun _ (b : Nat → K) => nan (b j)) (upd_nan h1 (fun e => by subst e; exact div_left _ _ h1))
      (fun d b2 _ h2 => upd_nan h2 (fun e => by subst e; exact sub_left _ _ h2))
  exact upd_nan this (fun e => by subst e; exact div_left _ _ this)

/-- A solution without NaN has a right-hand side without NaN. -/
theorem lsSolve_clean {m m' : Mem n K} {b d : Vec n K} (h : lsSolve m b = some (m', d)) (hc : Clean d) : Clean b := by
  unfold lsSolve at h
  split at h
  · cases h
  · rename_i x hx
    simp only [Option.some.injEq, Prod.mk.injEq] at h
    have hc1 : ∀ i, i < n → ¬ nan (x i) := by
      intro i hi hn
      have := hc ⟨i, hi⟩
      rw [← h.2] at this
      split at this
      · exact this (mul_left _ _ hn)
      · exact this hn
    unfold denseSolve denseGetRs at hx
    split at hx
    · cases hx
    · rename_i b1 hp
      split at hx
      · cases hx
      · cases hx
        have := permuteB_clean (le_refl n) hp (fun i hi hn => hc1 i hi (backwardSub_nan (forwardSub_nan hn)))
        intro i hn
        refine this i.val i.isLt ?_
        unfold Vec.toFun
        rw [dif_pos i.isLt]
        exact hn

/-! ## The convergence test -/

theorem convTest_clean {w : Vec n K} {toldel tol S : K} {ds : List (Vec n K)} {d : Vec n K}
    (h : (convTest w toldel tol S ds d).2 = some true) :
    Clean d ∧ Clean w ∧ (∀ d0 t, ds = d0 :: t → Clean d0) := by
  unfold convTest at h
  cases ds with
  | nil =>
    simp only [Option.some.injEq, Bool.or_eq_true] at h
    have : ¬ nan (normWrms d w) := by
      rcases h with h | h
      · exact (le_clean h).1
      · exact fun hn => (le_clean h).1 (mul_right _ _ hn)
    exact ⟨(normWrms_clean this).1, (normWrms_clean this).2, fun _ _ h => by cases h⟩
  | cons d0 t =>
    simp only at h
    split at h
    · cases h
    · simp only [Option.some.injEq] at h
      have h1 := (le_clean h).1
      have h2 : ¬ nan (normWrms d w) := fun hn => h1 (mul_right _ _ hn)
      have h3 : ¬ nan (normWrms d0 w) := fun hn => h1 (mul_left _ _ (div_left _ _ (by
        unfold rate
        rw [List.length_cons]
        exact root _ _ (div_right _ _ hn))))
      refine ⟨(normWrms_clean h2).1, (normWrms_clean h2).2, ?_⟩
      intro d1 t' he
      simp only [List.cons.injEq] at he
      rw [← he.1]
      exact (normWrms_clean h3).1

/-- What a converged iteration of the attempt `x` of a step of the problem `P` has seen. -/
structure CleanAtt (P : Problem n q K) (x : Att n K) : Prop where
  /-- the residual at the predicted values -/
  pred : ∃ buf, Clean (P.res x.tnew (vadd x.pred vzero) (scaledAdd x.predp x.cj vzero) buf)
  /-- the residual at the last iterate, and the last update -/
  last : ∃ c d buf, x.ee = c + d ∧ Clean d ∧ Clean (P.res x.tnew (vadd x.pred c) (scaledAdd x.predp x.cj c) buf)
  ewt : Clean x.ewt

theorem newtonInner_clean {P : Problem n q K} {e : Env n K} {x : Att n K} (he : EnvAt e x)
    {tol : K} (fuel : Nat) {N N' : Newton (Vec n K)} {m m' : Mem n K} {y' : Vec n K} {ds : List (Vec n K)}
    (hdel : ∃ buf, N.delta = P.res x.tnew (vadd x.pred (corr ds)) (scaledAdd x.predp x.cj (corr ds)) buf)
    (h0 : ∀ d0 t, ds = d0 :: t → Clean d0 → ∃ buf, Clean (P.res x.tnew (vadd x.pred vzero) (scaledAdd x.predp x.cj vzero) buf))
    (hcur : N.curiter = ds.length)
    (ho : ∀ d0 t, ds = d0 :: t → m.oldnrm = normWrms d0 x.ewt)
    (hd : newtonInner (idaNLProblem P e) tol x.ewt fuel N m (corr ds) = .done N' m' y' (.ok ())) (hx : x.ee = y') :
    CleanAtt P x := by
  induction fuel generalizing N m ds with
  | zero => cases hd
  | succ fuel ih =>
    unfold newtonInner at hd
    simp only at hd
    split at hd
    · cases hd
    · rename_i s1 d e' h1
      unfold idaNLProblem at h1
      simp only at h1
      split at h1 <;> cases h1
    · rename_i m1 d _ h1
      have h2 : lsSolve m (-N.delta) = some (m1, d) := by
        unfold idaNLProblem at h1
        simp only at h1
        split at h1
        · cases h1
        · rename_i hs
          cases h1
          exact hs
      obtain ⟨k1, k2, k3⟩ := lsSolve_keeps h2
      obtain ⟨buf, hbuf⟩ := hdel
      have hres : Clean d → Clean (P.res x.tnew (vadd x.pred (corr ds)) (scaledAdd x.predp x.cj (corr ds)) buf) := by
        intro hc i hn
        have := lsSolve_clean h2 hc i
        rw [← hbuf] at hn
        exact this (NanLaws.neg _ hn)
      have h0' : ∀ d0 t, ds ++ [d] = d0 :: t → Clean d0 →
          ∃ buf, Clean (P.res x.tnew (vadd x.pred vzero) (scaledAdd x.predp x.cj vzero) buf) := by
        intro d0 t heq hc
        cases ds with
        | nil =>
          simp only [List.nil_append, List.cons.injEq] at heq
          rw [heq.1] at hres
          exact ⟨buf, hres hc⟩
        | cons a l =>
          simp only [List.cons_append, List.cons.injEq] at heq
          exact h0 a l rfl (by rw [heq.1]; exact hc)
      rw [← corr_append] at hd
      have hT := idaCtest_test e m1 (Newton.view { N with niters := N.niters + 1, delta := d }) d tol x.ewt ds hcur
        (fun d0 t h => k3.trans (ho d0 t h))
      obtain ⟨t1, t2, t3, t4⟩ := hT
      have hct : (idaNLProblem P e).ctest m1 (Newton.view { N with niters := N.niters + 1, delta := d }) (corr (ds ++ [d])) d tol
          x.ewt = idaCtest e m1 (Newton.view { N with niters := N.niters + 1, delta := d }) d tol x.ewt := rfl
      rw [hct] at hd
      generalize hI : idaCtest e m1 (Newton.view { N with niters := N.niters + 1, delta := d }) d tol x.ewt = I at hd t1 t2 t3 t4
      obtain ⟨m2, cb⟩ := I
      simp only at t1 t2 t3 t4
      cases hv : (convTest x.ewt e.toldel tol m1.ss ds d).2 with
      | none =>
        rw [hv] at t4
        subst t4
        cases hd
      | some b =>
        rw [hv] at t4
        subst t4
        cases b with
        | true =>
          cases hd
          obtain ⟨c1, c2, c3⟩ := convTest_clean hv
          refine ⟨?_, ⟨corr ds, d, buf, by rw [hx, corr_append], c1, hres c1⟩, c2⟩
          cases ds with
          | nil => exact h0' d [] rfl c1
          | cons a l => exact h0 a l rfl (c3 a l rfl)
        | false =>
          simp only at hd
          split at hd
          · cases hd
          · split at hd
            · cases hd
            · rename_i h6; cases h6
            · rename_i m3 d3 _ h6
              have h7 : idaSys P e m2 (corr (ds ++ [d])) d = (m3, d3) := by
                have := h6
                unfold idaNLProblem at this
                simp only [Prod.mk.injEq] at this
                exact Prod.ext this.1 this.2.1
              obtain ⟨j1, j2, j3, -, -⟩ := idaSys_at (P := P) he m2 (corr (ds ++ [d])) d
              rw [h7] at j1 j2 j3
              simp only at j1 j2 j3
              refine ih (N := { N with delta := d3, curiter := N.curiter + 1, niters := N.niters + 1 })
                ⟨d, ?_⟩ h0' (by show N.curiter + 1 = _; rw [hcur, List.length_append]; rfl) (fun d0 t h => j3.trans (t3 d0 t h)) hd
              show d3 = _
              have := congrArg Prod.snd h7
              simp only [idaSys] at this
              rw [← this, he.tn, he.pred, he.predp, he.cj]

theorem newtonAttempt_clean {P : Problem n q K} {e : Env n K} {x : Att n K} (he : EnvAt e x) {tol : K} {c jb : Bool}
    {N N' : Newton (Vec n K)} {m m' : Mem n K} {y y' : Vec n K}
    (hd : newtonAttempt (idaNLProblem P e) vzero tol x.ewt c jb N m y = .done N' m' y' (.ok ())) (hx : x.ee = y') :
    CleanAtt P x := by
  unfold newtonAttempt at hd
  split at hd
  · cases hd
  · rename_i h1; cases h1
  · rename_i m1 d _ h1
    have h2 : idaSys P e m vzero N.delta = (m1, d) := by
      have := h1
      unfold idaNLProblem at this
      simp only [Prod.mk.injEq] at this
      exact Prod.ext this.1 this.2.1
    have hdd : ∃ buf, d = P.res x.tnew (vadd x.pred (corr [])) (scaledAdd x.predp x.cj (corr [])) buf := by
      have := congrArg Prod.snd h2
      simp only [idaSys] at this
      exact ⟨N.delta, by rw [← this, he.tn, he.pred, he.predp, he.cj]; rfl⟩
    simp only at hd
    split at hd
    · split at hd
      · cases hd
      · rename_i h5
        unfold idaNLProblem at h5
        simp only at h5
        split at h5 <;> cases h5
      · rename_i m2 j h5
        exact newtonInner_clean he _ (N := { N with delta := d, jcur := j, curiter := 0 }) (ds := []) hdd
          (fun _ _ h => by cases h) rfl (fun _ _ h => by cases h) hd hx
    · exact newtonInner_clean he _ (N := { N with delta := d, curiter := 0 }) (ds := []) hdd
          (fun _ _ h => by cases h) rfl (fun _ _ h => by cases h) hd hx

theorem newtonOuter_clean {P : Problem n q K} {e : Env n K} {x : Att n K} (he : EnvAt e x) {tol : K} (fuel : Nat)
    {c jb : Bool} {N N' : Newton (Vec n K)} {m m' : Mem n K} {y y' : Vec n K}
    (hd : newtonOuter (idaNLProblem P e) vzero tol x.ewt fuel c jb N m y = .done N' m' y' (.ok ())) (hx : x.ee = y') :
    CleanAtt P x := by
  induction fuel generalizing c jb N m y with
  | zero => cases hd
  | succ fuel ih =>
    unfold newtonOuter at hd
    split at hd
    · cases hd
    · cases hd
    · rename_i h1
      cases hd
      exact newtonAttempt_clean he h1 hx
    · rename_i N1 m1 y1 err h1
      split at hd
      · split at hd
        · exact ih hd
        · exact ih hd
      · cases hd

theorem nlsRet_clean {P : Problem n q K} {tol : TolControl n K} {fuel : Nat} {s : State (Newton (Vec n K)) n q K}
    {ee : Vec n K} {r : Except Err Unit} {t0 : K} {out : AttOut} (h : NlsRet (Cfg.newton P tol fuel) s ee r) :
    CleanAtt P (attRec s t0 ee out) := by
  obtain ⟨N, m, h⟩ := h
  have h5 : (newtonNls P fuel).solve s.nls (tried s).e (nlsPrepare (tried s)).1 vzero s.ee s.e.ewt s.epsNewt
    (nlsPrepare (tried s)).2 = .ret N m ee r := h
  have hr : r = .ok () := by
    cases r with
    | ok u => rfl
    | error err => exact absurd h5 (newton_no_error P fuel)
  subst hr
  unfold newtonNls at h5
  simp only at h5
  split at h5
  · rename_i h6
    cases h5
    exact newtonOuter_clean (e := (tried s).e) (x := attRec s t0 ee out) ⟨rfl, rfl, rfl, rfl⟩ _ h6 rfl
  · cases h5
  · cases h5

theorem Reach.cleanAtt {P : Problem n q K} {tol : TolControl n K} {fuel : Nat} {s : State (Newton (Vec n K)) n q K}
    (h : Reach (Cfg.newton P tol fuel) s) : ∀ x ∈ s.g.atts, CleanAtt P x := by
  refine (h.ghost (fun g => ∀ x ∈ g.atts, CleanAtt P x) (by simp) ?_ ?_).1
  · intro s t0 ee r out hI hr ho x hx
    rcases List.mem_cons.1 hx with rfl | hx
    · exact nlsRet_clean hr
    · exact hI x hx
  · intro s t0 ee hI _ hr _ x hx
    rcases List.mem_cons.1 hx with rfl | hx
    · exact nlsRet_clean hr
    · exact hI x hx

end

end Verif
