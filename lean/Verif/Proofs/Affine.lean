import Verif.Proofs.Ghost
import Verif.Proofs.NewtonLin
import Verif.Proofs.FirstStep
import Verif.Props.Accepted

/-! # Problems with an affine solution (exact scalars) -/

set_option autoImplicit false
set_option linter.unusedSectionVars false
set_option linter.unusedSimpArgs false
set_option linter.unusedVariables false

namespace Verif

open Verif.Spec Polynomial

universe u v

section
variable {ν : Type v} {n q : Nat} {K : Type u} [Field K] [LinearOrder K] [IsStrictOrderedRing K] [ExactParams K]

/-- `y0 + t y0'`. -/
def line (y0 yp0 : Vec n K) (t : K) : Vec n K := fun i => y0 i + t * yp0 i

/-- Newton's method started at a solution stays there. -/
theorem newton_zero {P : Problem n q K} {x : Att n K} {l calls : List (UCall n K)} {st : NewtonAt n K}
    (h : NewtonCalls P x l calls st) (h0 : ∀ F, ResVal P x.tnew x.pred x.predp F → F = fun _ => 0) :
    (match st with | .has c => c = fun _ => 0 | .residual c F => c = (fun _ => 0) ∧ F = fun _ => 0) := by
  induction h with
  | start F hF => exact ⟨rfl, h0 F hF⟩
  | restart calls c F _ hF _ => exact ⟨rfl, h0 F hF⟩
  | jac calls t y yp c F _ ih => exact ih
  | update calls c F d t cj y yp r _ hl hd hreg ih =>
    obtain ⟨rfl, rfl⟩ := ih
    have := hreg d fun i => by rw [hd]; exact neg_zero
    show (fun i => (0 : K) + staleFactor x.cj cj * d i) = _
    funext i
    rw [this i, mul_zero, add_zero]
  | next calls c F _ hF ih =>
    have h1 : c = fun _ => 0 := ih
    subst h1
    refine ⟨rfl, h0 F ?_⟩
    have e1 : Att.y x (fun _ => 0) = x.pred := by funext i; exact add_zero _
    have e2 : Att.y' x (fun _ => 0) = x.predp := by funext i; show x.predp i + x.cj * 0 = _; rw [mul_zero, add_zero]
    rw [e1, e2] at hF; exact hF

/-- The attempt starts from points of the line, its correction is zero, and it is accepted. -/
structure OnLine (y0 yp0 : Vec n K) (x : Att n K) : Prop where
  before : ∀ p ∈ x.before, p.2 = line y0 yp0 p.1
  pred : x.pred = line y0 yp0 x.tnew
  predp : x.predp = yp0
  ee : x.ee = fun _ => 0
  out : x.out = .accepted

theorem vsum_zero : ∀ f : Vec n K, (∀ i, f i = 0) → vsum f = 0 := by
  intro f hf
  have : ∀ m, (Fin.foldl m (fun acc (_ : Fin m) => acc + (0 : K)) 0) = 0 := by
    intro m
    induction m with
    | zero => rfl
    | succ m ih => rw [Fin.foldl_succ_last]; exact (add_zero _).trans ih
  have e : f = fun _ => 0 := funext hf
  rw [e]; exact this n

theorem wrmsNorm_zero (h0 : ExactParams.sqrt (0 : K) = 0) (id : Fin n → Bool) (w : Vec n K) (b : Bool) :
    wrmsNorm id (fun _ => (0 : K)) w b = 0 := by
  unfold wrmsNorm
  split
  · unfold normWrmsMasked
    simp only
    rw [vsum_zero _ (fun i => by simp), ex_sqrt, zero_div, h0]
  · unfold normWrms
    rw [vsum_zero _ (fun i => by simp), ex_sqrt, zero_div, h0]

variable [EpsLaws K]

/-- The Newton stack: an attempt predicted on the line. -/
theorem att_onLine {P : Problem n q K} {tol : TolControl n K} {fuel : Nat} {s : State (Newton (Vec n K)) n q K}
    {y0 yp0 : Vec n K} (hsq : ExactParams.sqrt (0 : K) = 0) (h : Reach (Cfg.newton P tol fuel) s)
    (hP : ∀ t buf, P.res t (line y0 yp0 t) yp0 buf = fun _ => 0) {x : Att n K} (hx : x ∈ s.g.atts)
    (hb : ∀ p ∈ x.before, p.2 = line y0 yp0 p.1) (h1 : x.pred = line y0 yp0 x.tnew) (h2 : x.predp = yp0) :
    OnLine y0 yp0 x := by
  obtain ⟨l0, calls, hc, -⟩ := Story.newton h.story.story x hx
  have he : x.ee = fun _ => 0 := newton_zero hc (by rintro F ⟨buf, rfl⟩; rw [h1, h2]; exact hP _ _)
  refine ⟨hb, h1, h2, he, ?_⟩
  refine ((Props.c32_test_decides _ s h).1 x hx ?_).2 ?_
  · intro e ho
    have : ∀ x ∈ s.g.atts, ∀ e, x.out ≠ .nlsFail e := by
      refine (h.ghost (fun g => ∀ x ∈ g.atts, ∀ e, x.out ≠ .nlsFail e) (fun x hx => by cases hx) ?_ ?_).1
      · intro s t0 ee r out hI hr hf x hx e
        rcases List.mem_cons.1 hx with rfl | hx
        · obtain ⟨N, m, hn⟩ := hr
          rcases hf with ⟨e', rfl, -⟩ | ⟨-, rfl, -⟩
          · exact absurd hn (newton_no_error P fuel)
          · intro hh; cases hh
        · exact hI x hx e
      · intro s t0 ee hI _ _ _ x hx e
        rcases List.mem_cons.1 hx with rfl | hx
        · intro hh; cases hh
        · exact hI x hx e
    exact this x hx e ho
  · rw [he, wrmsNorm_zero hsq, mul_zero, ex_le]
    exact decide_eq_true zero_le_one

theorem onLine_yy {y0 yp0 : Vec n K} {x : Att n K} (h : OnLine y0 yp0 x) (hy : x.yy = vadd x.pred x.ee) :
    x.yy = line y0 yp0 x.tnew := by
  rw [hy, h.ee, ← h.pred]
  funext i; exact add_zero _

/-- The interpolant of points of the line. -/
theorem through_line {k : Nat} {A : List (K × Vec n K)} {Q : Fin n → K[X]} {d : K} {y0 yp0 : Vec n K} (hk : k + 1 ≤ A.length)
    (h1 : 1 ≤ k) (hA : A.Pairwise fun a b => 0 < (a.1 - b.1) * d) (hQ : Through k A Q)
    (hl : ∀ p ∈ A, p.2 = line y0 yp0 p.1) : ∀ i t, (Q i).eval t = line y0 yp0 t i ∧ (derivative (Q i)).eval t = yp0 i := by
  have : Q = fun i => C (y0 i) + C (yp0 i) * X := by
    refine through_unique hk hA hQ ⟨fun i => ?_, fun m hm p hp i => ?_⟩
    · refine (natDegree_add_le _ _).trans (max_le (by simp) ?_)
      exact (natDegree_C_mul_le _ _).trans ((natDegree_X_le).trans h1)
    · rw [hl p (List.mem_of_getElem? hp)]
      simp [line]; ring
  intro i t
  rw [this]
  simp [line]; ring

/-- All attempts of a history that continues one on the line. -/
theorem atts_onLine {P : Problem n q K} {tol : TolControl n K} {fuel : Nat} {s : State (Newton (Vec n K)) n q K}
    {y0 yp0 : Vec n K} (hsq : ExactParams.sqrt (0 : K) = 0) (h : Reach (Cfg.newton P tol fuel) s)
    (hP : ∀ t buf, P.res t (line y0 yp0 t) yp0 buf = fun _ => 0)
    (hA : ∀ x ∈ s.g.atts, AttHist x) (hsuf : ∀ x ∈ s.g.atts, 2 ≤ x.before.length → x.before <:+ s.g.acc)
    (h1 : ∀ x ∈ s.g.atts, x.before.length = 1 → OnLine y0 yp0 x) :
    (∀ x ∈ s.g.atts, OnLine y0 yp0 x) ∧ ∀ p ∈ s.g.acc, p.2 = line y0 yp0 p.1 := by
  have L := h.linked
  have point : ∀ m, (∀ x ∈ s.g.atts, x.before.length ≤ m → OnLine y0 yp0 x) → ∀ B, B <:+ s.g.acc → B.length ≤ m + 1 →
      ∀ p ∈ B, p.2 = line y0 yp0 p.1 := by
    intro m ih B hB hm p hp
    obtain ⟨pre, rest, rfl⟩ := List.append_of_mem hp
    obtain ⟨pre0, hpre⟩ := hB
    by_cases hr : rest = []
    · subst hr
      obtain ⟨x, hx, ho, hb⟩ := L.first p (by rw [← hpre]; simp)
      exact (h1 x hx (by rw [hb]; rfl)).before p (by rw [hb]; exact List.mem_singleton_self _)
    · obtain ⟨x, hx, ho, hb, rfl⟩ := L.link (pre0 ++ pre) p rest (by rw [← hpre, List.append_assoc]) hr
      exact onLine_yy (ih x hx (by rw [hb]; simp at hm; omega)) (L.yy x hx).1
  have key : ∀ m, ∀ x ∈ s.g.atts, x.before.length ≤ m → OnLine y0 yp0 x := by
    intro m
    induction m with
    | zero =>
      intro x hx hl
      obtain ⟨y, r, hb⟩ := (hA x hx).start
      rw [hb] at hl; simp at hl
    | succ m ih =>
      intro x hx hl
      by_cases h2 : 2 ≤ x.before.length
      · have hx' := hA x hx
        have hb := point m ih x.before (hsuf x hx h2) hl
        obtain ⟨Q, hQ, hp⟩ := hx'.extra
        have hk : x.kk + 1 ≤ x.before.length := by
          rcases hx'.enough with h | ⟨h, -⟩
          · exact h
          · omega
        have e := through_line hk hx'.kk hx'.apart hQ hb
        exact att_onLine hsq h hP hx hb (funext fun i => by rw [(hp i).1]; exact (e i _).1)
          (funext fun i => by rw [(hp i).2]; exact (e i x.tnew).2)
      · obtain ⟨y, r, hb⟩ := (hA x hx).start
        refine h1 x hx ?_
        rw [hb] at h2 ⊢
        simp at h2 ⊢
        exact h2
  exact ⟨fun x hx => key _ x hx (le_refl _), fun p hp => point s.g.acc.length
    (fun x hx _ => key _ x hx (le_refl _)) s.g.acc (List.suffix_refl _) (Nat.le_succ _) p hp⟩

/-- The first attempt, if the history has its initial values. -/
theorem FirstAtt.onLine_pred {h1 : K} {y0 yp0 : Vec n K} {x : Att n K} (h : FirstAtt 0 h1 y0 yp0 x) (hh : x.hh = h1)
    (ht : x.tnew = x.t0 + x.hh) :
    (∀ p ∈ x.before, p.2 = line y0 yp0 p.1) ∧ x.pred = line y0 yp0 x.tnew ∧ x.predp = yp0 := by
  have hne : h1 ≠ 0 := hh ▸ h.hh
  refine ⟨?_, ?_, h.predp⟩
  · rw [h.before, hh, div_self hne]
    intro p hp
    rw [List.mem_singleton.1 hp]
    funext i
    show (1 : K) * y0 i = y0 i + 0 * yp0 i
    ring
  · rw [h.pred, ht, h.start, hh, div_self hne]
    funext i
    show (1 : K) * y0 i + h1 * yp0 i = y0 i + (0 + h1) * yp0 i
    ring

theorem firstCall_weights {ν : Type v} {cfg : Cfg ν n q K} {s s' : State ν n q K} {tout : K} {r : Except Err Unit}
    (h : firstCall cfg s tout = .ret s' r) :
    s'.setupDone = true ∧ s'.e.ewt = (initialSetup cfg s).e.ewt ∧ (∀ e, r = .error e → s'.h = s.h) := by
  have hi : (initialSetup cfg s).setupDone = true ∧ (initialSetup cfg s).h = s.h := by
    unfold initialSetup
    split
    · rename_i h1; exact ⟨h1, rfl⟩
    · exact ⟨rfl, rfl⟩
  have hready : ∀ s : State ν n q K, (firstReady cfg s).setupDone = s.setupDone ∧ (firstReady cfg s).e.ewt = s.e.ewt := by
    intro s
    unfold firstReady rCheck1
    by_cases hq : q > 0
    · simp only [if_pos hq]
      split <;> exact ⟨rfl, rfl⟩
    · simp only [if_neg hq]; exact ⟨trivial, trivial⟩
  rcases firstCall_cases h with ⟨-, rfl, -⟩ | ⟨-, rfl, -⟩ | ⟨hh, -, -, -, ⟨-, rfl, -⟩ | ⟨s1, h1, rfl, hr⟩⟩
  · exact ⟨hi.1, rfl, fun _ _ => hi.2⟩
  · exact ⟨hi.1, rfl, fun _ _ => hi.2⟩
  · exact ⟨hi.1, rfl, fun _ _ => hi.2⟩
  · have hs1 : s1.setupDone = (initialSetup cfg s).setupDone ∧ s1.e.ewt = (initialSetup cfg s).e.ewt := by
      unfold firstStop at h1
      split at h1
      · split at h1
        · cases h1
        · cases h1
          unfold clampToStop; split <;> exact ⟨rfl, rfl⟩
      · cases h1; exact ⟨rfl, rfl⟩
    exact ⟨(hready s1).1.trans (hs1.1.trans hi.1), (hready s1).2.trans hs1.2, fun e he => by rw [hr] at he; cases he⟩

/-- Before the first attempt. -/
structure PreFirst {ν : Type v} (cfg : Cfg ν n q K) (y0 yp0 : Vec n K) (s : State ν n q K) : Prop where
  nst : s.cnt.nst = 0
  phi0 : s.h.phi 0 = y0
  phi1 : s.h.phi 1 = yp0
  tn : s.e.tn = 0
  atts : s.g.atts = []
  acc : s.g.acc = []
  ewt : s.e.ewt = if s.setupDone then cfg.ewtSet y0 vzero else vzero

theorem PreFirst.frame {ν : Type v} {cfg : Cfg ν n q K} {y0 yp0 : Vec n K} {s s' : State ν n q K} (h : PreFirst cfg y0 yp0 s)
    (hf : Frame s s') : PreFirst cfg y0 yp0 s' :=
  ⟨by rw [hf.cnt]; exact h.nst, by rw [hf.h]; exact h.phi0, by rw [hf.h]; exact h.phi1, by rw [hf.e]; exact h.tn,
    by rw [hf.g]; exact h.atts, by rw [hf.g]; exact h.acc, by rw [hf.e, hf.setupDone]; exact h.ewt⟩

theorem PreFirst.setup {ν : Type v} {cfg : Cfg ν n q K} {y0 yp0 : Vec n K} {s : State ν n q K} (h : PreFirst cfg y0 yp0 s) :
    (initialSetup cfg s).e.ewt = cfg.ewtSet y0 vzero := by
  have := h.ewt
  unfold initialSetup
  split
  · rename_i h1; rw [if_pos h1] at this; exact this
  · rename_i h1; rw [if_neg h1] at this
    show cfg.ewtSet (s.h.phi 0) s.e.ewt = _
    rw [this, h.phi0]

theorem PreFirst.rejected {ν : Type v} {cfg : Cfg ν n q K} {y0 yp0 : Vec n K} {s s' : State ν n q K} {tout : K} {e : Err}
    (h : PreFirst cfg y0 yp0 s) (hc : firstCall cfg s tout = .ret s' (.error e)) : PreFirst cfg y0 yp0 s' := by
  obtain ⟨h1, h2, h3⟩ := firstCall_weights hc
  have hS := firstCall_same hc
  have h3 := h3 e rfl
  exact ⟨by rw [hS.cnt]; exact h.nst, by rw [h3]; exact h.phi0, by rw [h3]; exact h.phi1, by rw [hS.tn]; exact h.tn,
    by rw [hS.g]; exact h.atts, by rw [hS.g]; exact h.acc, by rw [h2, h1, if_pos rfl]; exact h.setup⟩

/-- Invariant of the histories of an affine problem. -/
structure Straight (cfg : Cfg (Newton (Vec n K)) n q K) (y0 yp0 : Vec n K) (s : State (Newton (Vec n K)) n q K) : Prop where
  ok : ReachOk cfg s
  phase : PreFirst cfg y0 yp0 s ∨ 0 < s.cnt.nst
  atts : ∀ x ∈ s.g.atts, OnLine y0 yp0 x
  acc : ∀ p ∈ s.g.acc, p.2 = line y0 yp0 p.1

theorem straight_call {P : Problem n q K} {tol : TolControl n K} {fuel : Nat} {s s' : State (Newton (Vec n K)) n q K}
    {y0 yp0 : Vec n K} (hsq : ExactParams.sqrt (0 : K) = 0)
    (hP : ∀ t buf, P.res t (line y0 yp0 t) yp0 buf = fun _ => 0)
    (hacc : Scalar.gt (Scalar.eps * wrmsNorm (Cfg.newton P tol fuel).id y0 ((Cfg.newton P tol fuel).ewtSet y0 vzero)
      (Cfg.newton P tol fuel).suppressalg) 1 ≠ true)
    (h : Straight (Cfg.newton P tol fuel) y0 yp0 s) {rf sf : Nat} {op : Op K} {r : Res n K}
    (hx : exec (Cfg.newton P tol fuel) rf sf s op = some (s', r)) : Straight (Cfg.newton P tol fuel) y0 yp0 s' := by
  have hl := newton_legal P tol fuel
  have hm1 : 1 ≤ (Cfg.newton P tol fuel).maxord := show 1 ≤ 5 by decide
  have hm : 0 ≤ (Cfg.newton P tol fuel).hmaxInv := show (0 : K) ≤ 0 from le_refl _
  have hR : Reach (Cfg.newton P tol fuel) s' := .call rf sf op r h.ok.reach hx
  obtain ⟨hA, hsuf, -⟩ := exec_attHist hl hm1 hm h.ok hx
  -- if all attempts are accepted, no step has failed
  have good : (∀ x ∈ s'.g.atts, OnLine y0 yp0 x) → ReachOk (Cfg.newton P tol fuel) s' := by
    intro hall
    refine .call rf sf op r h.ok hx fun e he => ?_
    by_contra hf
    have := (exec_trace hl hm1 hm h.ok hx).2 e he (by simpa using hf)
    cases hat : s'.g.atts with
    | nil => rw [hat] at this; exact this
    | cons y l =>
      rw [hat] at this
      unfold GivesUp at this
      simp only [(hall y (by rw [hat]; exact List.mem_cons_self ..)).out] at this
  have finish : (∀ x ∈ s'.g.atts, x.before.length = 1 → OnLine y0 yp0 x) →
      (ReachOk (Cfg.newton P tol fuel) s' → 0 < s'.cnt.nst) →
      Straight (Cfg.newton P tol fuel) y0 yp0 s' := by
    intro h1 h2
    obtain ⟨g1, g2⟩ := atts_onLine hsq hR hP hA hsuf h1
    exact ⟨good g1, Or.inr (h2 (good g1)), g1, g2⟩
  have idle : s'.g = s.g → (PreFirst (Cfg.newton P tol fuel) y0 yp0 s' ∨ 0 < s'.cnt.nst) →
      Straight (Cfg.newton P tol fuel) y0 yp0 s' := by
    intro hg hp
    have : ∀ x ∈ s'.g.atts, OnLine y0 yp0 x := by rw [hg]; exact h.atts
    exact ⟨good this, hp, this, by rw [hg]; exact h.acc⟩
  by_cases hn : 0 < s.cnt.nst
  · have hF := h.ok.full hl hm1 hm
    have hext : LaterExt s s' := by
      rcases exec_ends hx with ⟨r', -, hend⟩ | ⟨-, hmic⟩
      · exact laterExt_ends hl hm hF.ok.ctl hn hend
      · exact laterExt_ends (r := (.ok () : Except Err Unit)) hl hm hF.ok.ctl hn (.clean hmic (fun e he => by cases he))
    obtain ⟨h2, l, h3, h4⟩ := hext hn
    refine finish ?_ (fun _ => h2)
    intro x hx1 hx2
    rw [h3] at hx1
    rcases List.mem_append.1 hx1 with hx1 | hx1
    · have := h4 x hx1; omega
    · exact h.atts x hx1
  · have hp := h.phase.resolve_right hn
    cases op with
    | getSolution t =>
      unfold exec at hx
      simp only at hx
      split at hx
      · rename_i h1
        cases hx
        have hf := (getSolution_frame h1).1
        exact idle hf.g (Or.inl (hp.frame hf))
      · cases hx
    | getDky t k =>
      have : s' = s := by
        unfold exec at hx
        simp only at hx
        split at hx
        · rename_i h1
          cases hx
          unfold getDky at h1
          split at h1
          · cases h1; rfl
          · split at h1
            · cases h1; rfl
            · split at h1
              · cases h1; rfl
              · cases h1
        · cases hx
      subst this
      exact h
    | solve tout tret task =>
      rcases first_call_atts_of hl hm1 hm (h.ok.full hl hm1 hm) hp.nst hp.phi0 hp.phi1 hp.tn hp.atts hx with
        ⟨s0, e, hf, g1⟩ | ⟨s0, s1, hf, g1, g2, g3⟩ | ⟨later, first, l, hat, hfst, hlat, -⟩
      · have h0 := hp.frame hf
        refine idle ?_ (Or.inl (h0.rejected g1))
        rw [(firstCall_same g1).g, hf.g]
      · exfalso
        have h0 := hp.frame hf
        rw [(firstCall_weights g1).2.1, h0.setup, (firstCall_same g1).phi 0 (by omega), h0.phi0] at g3
        exact hacc g3
      · have hlm : l ∈ s'.g.atts := by rw [hat]; simp
        have hl0 := hfst l (by simp)
        obtain ⟨q1, q2, q3⟩ := hl0.onLine_pred rfl (hA l hlm).tnew
        have hlL : OnLine y0 yp0 l := att_onLine hsq hR hP hlm q1 q2 q3
        have hlaw := (exec_trace hl hm1 hm h.ok hx).1
        have hdrop : ∀ a b : List (Att n K), Lawful (Cfg.newton P tol fuel) (a ++ b) → Lawful (Cfg.newton P tol fuel) b := by
          intro a b hab
          induction a with
          | nil => exact hab
          | cons z a ih => exact ih hab.2
        have hfe : first = [] := by
          rcases List.eq_nil_or_concat first with h1 | ⟨p, z, rfl⟩
          · exact h1
          · exfalso
            rw [hat] at hlaw
            have h2 : Lawful (Cfg.newton P tol fuel) (z :: [l]) := by
              apply hdrop (later ++ p)
              simpa using hlaw
            have h3 := h2.1
            unfold Follows at h3
            simp only [hlL.out] at h3
            have h4 : z.t0 = l.tnew := h3.t0
            rw [(hfst z (by simp)).start, (hA l hlm).tnew, hl0.start, zero_add] at h4
            exact hl0.hh h4.symm
        subst hfe
        have hnst : ReachOk (Cfg.newton P tol fuel) s' → 0 < s'.cnt.nst := by
          intro hok
          by_contra hc
          have := ((hok.full hl hm1 hm).ok.trace.zero (by omega)).1
          rw [hat] at this; simp at this
        refine finish ?_ hnst
        intro x hx1 hx2
        rw [hat] at hx1
        rcases List.mem_append.1 hx1 with hx1 | hx1
        · have := hlat x hx1; omega
        · rw [List.nil_append, List.mem_singleton] at hx1
          subst hx1; exact hlL

/-- **All histories of an affine problem.** -/
theorem straight {P : Problem n q K} {tol : TolControl n K} {fuel : Nat} {s : State (Newton (Vec n K)) n q K}
    {y0 yp0 : Vec n K} (hsq : ExactParams.sqrt (0 : K) = 0)
    (hP : ∀ t buf, P.res t (line y0 yp0 t) yp0 buf = fun _ => 0)
    (hacc : Scalar.gt (Scalar.eps * wrmsNorm (Cfg.newton P tol fuel).id y0 ((Cfg.newton P tol fuel).ewtSet y0 vzero)
      (Cfg.newton P tol fuel).suppressalg) 1 ≠ true)
    (h : ReachFrom (Cfg.newton P tol fuel) y0 yp0 s) : Straight (Cfg.newton P tol fuel) y0 yp0 s := by
  induction h with
  | new nls0 tstop =>
    exact ⟨.new nls0 y0 yp0 tstop, Or.inl ⟨rfl, rfl, rfl, rfl, rfl, rfl, rfl⟩, (fun x hx => by cases hx),
      (fun x hx => by cases hx)⟩
  | call rf sf op r _ hx ih => exact straight_call hsq hP hacc ih hx

end

end Verif
