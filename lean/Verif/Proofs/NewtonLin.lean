import Verif.Proofs.Conserve
import Verif.Props.Nls
import Verif.Proofs.AttOrd

/-! # The corrections of Newton's method and linear invariants (exact scalars) -/

set_option autoImplicit false
set_option linter.unusedSectionVars false
set_option linter.unusedSimpArgs false
set_option linter.unusedVariables false

namespace Verif

open Verif.Spec

universe u

section
variable {n q : Nat} {K : Type u} [Field K] [LinearOrder K] [IsStrictOrderedRing K] [ExactParams K]

/-- Every attempt of a story has its Newton iteration. -/
theorem Story.newton {P : Problem n q K} {l : List (UCall n K)} {a : List (Att n K)} (h : Story P l a) :
    ∀ x ∈ a, ∃ l0 calls, NewtonCalls P x l0 calls (.has x.ee) ∧ (calls ++ l0) <:+ l := by
  induction h with
  | new => intro x hx; cases hx
  | root x l a _ _ ih =>
    intro y hy
    obtain ⟨l0, calls, h1, h2⟩ := ih y hy
    exact ⟨l0, calls, h1, h2.trans (List.suffix_cons _ _)⟩
  | attempt x calls l a _ hc _ ih =>
    intro y hy
    rcases List.mem_cons.1 hy with rfl | hy
    · exact ⟨l, calls, hc, List.suffix_refl _⟩
    · obtain ⟨l0, calls', h1, h2⟩ := ih y hy
      exact ⟨l0, calls', h1, h2.trans (List.suffix_append _ _)⟩

theorem LastJac.mem {t cj : K} {y yp r : Vec n K} {l : List (UCall n K)} (h : LastJac t cj y yp r l) :
    UCall.jac t cj y yp r ∈ l := by
  induction h with
  | here l => exact List.mem_cons_self
  | older x l _ _ ih => exact List.mem_cons_of_mem _ ih

/-- Rows and columns. -/
theorem dot_rows {w a d F : Vec n K} {A : Nat → Nat → K} {c : K}
    (h1 : ∀ j : Fin n, ∑ i : Fin n, w i * A i j = c * a j) (h2 : ∀ i : Fin n, ∑ j : Fin n, A i j * d j = -F i) :
    c * dot a d = -dot w F := by
  unfold dot
  calc c * ∑ j, a j * d j = ∑ j : Fin n, (∑ i : Fin n, w i * A i j) * d j := by
        rw [Finset.mul_sum]
        exact Finset.sum_congr rfl fun j _ => by rw [h1]; ring
    _ = ∑ i : Fin n, w i * ∑ j : Fin n, A i j * d j := by
        simp only [Finset.sum_mul, Finset.mul_sum]
        rw [Finset.sum_comm]
        exact Finset.sum_congr rfl fun i _ => Finset.sum_congr rfl fun j _ => by ring
    _ = -∑ i, w i * F i := by
        rw [← Finset.sum_neg_distrib]
        exact Finset.sum_congr rfl fun i _ => by rw [h2]; ring

theorem dot_smul_add (a c d : Vec n K) (s : K) : dot a (fun i => c i + s * d i) = dot a c + s * dot a d :=
  dot_scaledAdd a c s d

/-- The correction conserves what the residual asks for: if the combination `w` of the residuals vanishes at every point
whose correction has `a·c = 0`, then every iterate has `a·c = 0`. -/
theorem newton_keeps {P : Problem n q K} {x : Att n K} {l calls : List (UCall n K)} {p : NewtonAt n K} {a w : Vec n K}
    (h : NewtonCalls P x l calls p)
    (hres : ∀ c : Vec n K, dot a c = 0 → ∀ F, ResVal P x.tnew (Att.y x c) (Att.y' x c) F → dot w F = 0)
    (hjac : ∀ t cj y yp r, UCall.jac t cj y yp r ∈ calls ++ l → ∃ g : K, g ≠ 0 ∧
      ∀ j : Fin n, ∑ i : Fin n, w i * P.jac t cj y yp r (fun _ _ => 0) i j = g * a j) :
    match p with
    | .has c => dot a c = 0
    | .residual c F => dot a c = 0 ∧ dot w F = 0 := by
  have h0 : dot a (fun _ => 0) = 0 := dot_vzero a
  have hy : Att.y x (fun _ => 0) = x.pred ∧ Att.y' x (fun _ => 0) = x.predp := att_zero x
  have hstart : ∀ F, ResVal P x.tnew x.pred x.predp F → dot w F = 0 := by
    intro F hF
    refine hres _ h0 F ?_
    rw [hy.1, hy.2]; exact hF
  induction h with
  | start F hF => exact ⟨h0, hstart F hF⟩
  | restart calls c F _ hF _ => exact ⟨h0, hstart F hF⟩
  | jac calls t y yp c F _ ih => exact ih fun t cj y yp r hm => hjac t cj y yp r (List.mem_cons_of_mem _ hm)
  | update calls c F d t cj y yp r _ hl hd _ ih =>
    obtain ⟨h1, h2⟩ := ih hjac
    obtain ⟨g, hg, hrow⟩ := hjac t cj y yp r (LastJac.mem hl)
    have := dot_rows hrow hd
    rw [h2, neg_zero] at this
    show dot a (fun i => c i + staleFactor x.cj cj * d i) = 0
    rw [dot_smul_add, h1, (mul_eq_zero.1 this).resolve_left hg, mul_zero, add_zero]
  | next calls c F _ hF ih =>
    have h1 : dot a c = 0 := ih fun t cj y yp r hm => hjac t cj y yp r (List.mem_cons_of_mem _ hm)
    exact ⟨h1, hres c h1 F hF⟩

variable [EpsLaws K]

/-- The leading coefficient of an attempt is not zero. -/
theorem att_cj_ne {P : Problem n q K} {tol : TolControl n K} {fuel : Nat} {s : State (Newton (Vec n K)) n q K}
    (h : Reach (Cfg.newton P tol fuel) s) : ∀ x ∈ s.g.atts, x.cj ≠ 0 := by
  have hl := newton_legal P tol fuel
  have hcj : ∀ x ∈ s.g.atts, x.cj = harmonicSum K x.kk / x.hh := by
    refine (h.ghost (fun g => ∀ x ∈ g.atts, x.cj = harmonicSum K x.kk / x.hh) (fun x hx => by cases hx) ?_ ?_).1
    · intro s t0 ee r out hI _ _ x hx
      rcases List.mem_cons.1 hx with rfl | hx
      · exact leadCoef_eq s
      · exact hI x hx
    · intro s t0 ee hI _ _ _ x hx
      rcases List.mem_cons.1 hx with rfl | hx
      · exact leadCoef_eq s
      · exact hI x hx
  intro x hx
  rw [hcj x hx]
  have hk := (h.attOrd hl (show 1 ≤ 5 by decide) x hx).1
  obtain ⟨hh, -, -, -⟩ := (h.ctl hl (show (0 : K) ≤ 0 from le_refl _)).atts x hx
  refine div_ne_zero (ne_of_gt ?_) hh
  unfold harmonicSum
  refine Finset.sum_pos (fun i _ => by positivity) ⟨0, by simp; omega⟩

theorem newton_conserves {P : Problem n q K} {tol : TolControl n K} {fuel : Nat} {s : State (Newton (Vec n K)) n q K}
    {a : Vec n K} {b : K} (h : Reach (Cfg.newton P tol fuel) s)
    (hP : AlgebraicInvariant P a b ∨ DifferentialInvariant P a) :
    ∀ x ∈ s.g.atts, dot a x.pred = b → dot a x.predp = 0 → dot a x.ee = 0 := by
  intro x hx h1 h2
  obtain ⟨l0, calls, hc, hsuf⟩ := Story.newton h.story.story x hx
  rcases hP with ⟨w, hw1, hw2⟩ | ⟨w, hw1, hw2⟩
  · refine newton_keeps hc (w := w) ?_ ?_
    · rintro c hc F ⟨buf, rfl⟩
      rw [hw1]
      show dot a (vadd x.pred c) - b = 0
      rw [dot_vadd, h1, hc]; ring
    · intro t cj y yp r _
      exact ⟨1, one_ne_zero, fun j => by rw [hw2, one_mul]⟩
  · refine newton_keeps hc (w := w) ?_ ?_
    · rintro c hc F ⟨buf, rfl⟩
      rw [hw1]
      show dot a (scaledAdd x.predp x.cj c) = 0
      rw [dot_scaledAdd, h2, hc]; ring
    · intro t cj y yp r hm
      obtain ⟨-, x', hx', rfl⟩ := (Props.callsOk_reach (newton_uses_interface P tol fuel) h).jac t cj y yp r (hsuf.subset hm)
      exact ⟨x'.cj, att_cj_ne h x' hx', fun j => hw2 _ _ _ _ _ j⟩

end

end Verif
