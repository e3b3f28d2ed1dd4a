import Verif.Proofs.History
import Verif.Proofs.Ghost

/-! # The weights of an attempt are those of the last accepted solution -/

set_option autoImplicit false
set_option linter.unusedSectionVars false
set_option linter.unusedSimpArgs false
set_option linter.unusedVariables false

namespace Verif

open Verif.Spec

universe u v

section lawfree
variable {ν : Type v} {n q : Nat} {K : Type u} [Scalar K] {cfg : Cfg ν n q K}

/-- What a step keeps while it tries, and what it records. -/
structure WLoop (s s1 : State ν n q K) : Prop where
  ewt : s1.e.ewt = s.e.ewt
  nst : s1.cnt.nst = s.cnt.nst
  acc : s1.g.acc = s.g.acc
  atts : ∃ l, s1.g.atts = l ++ s.g.atts ∧ ∀ x ∈ l, x.ewt = s.e.ewt ∧ (s.cnt.nst = 0 → x.before.length = 1) ∧
    (0 < s.cnt.nst → x.before = s.g.acc)

theorem WLoop.new_att {s s1 : State ν n q K} (h : WLoop s s1) (t0 : K) (ee : Vec n K) (out : AttOut) :
    ∃ l, attRec s1 t0 ee out :: s1.g.atts = l ++ s.g.atts ∧ ∀ x ∈ l, x.ewt = s.e.ewt ∧
      (s.cnt.nst = 0 → x.before.length = 1) ∧ (0 < s.cnt.nst → x.before = s.g.acc) := by
  obtain ⟨l, h1, h2⟩ := h.atts
  refine ⟨attRec s1 t0 ee out :: l, by rw [h1]; rfl, fun x hx => ?_⟩
  rcases List.mem_cons.1 hx with rfl | hx
  · refine ⟨h.ewt, fun h0 => ?_, fun h0 => ?_⟩
    · show (if s1.cnt.nst = 0 then _ else _ : List (K × Vec n K)).length = 1
      rw [if_pos (by rw [h.nst]; exact h0)]; rfl
    · show (if s1.cnt.nst = 0 then _ else _ : List (K × Vec n K)) = _
      rw [if_neg (by rw [h.nst]; omega)]; exact h.acc
  · exact h2 x hx

theorem WLoop.fail {s s1 s4 s6 : State ν n q K} {t0 : K} {err : Err} {a b : K} {f f' : Fails} {r : Except Err Unit}
    (h : WLoop s s1) (h1 : PassFailed cfg t0 s1 s4 err a b)
    (h2 : handleNFlag cfg (restored s4 t0) err a b f = some (s6, f', r)) : WLoop s s6 := by
  obtain ⟨ee, r', out, g1, g2, g3⟩ := passFailed_ghost h1
  have he : s6.e.ewt = s4.e.ewt ∧ s6.g = s4.g ∧ s6.cnt.nst = s4.cnt.nst := by
    have := handleNFlag_handled h2
    cases this <;> exact ⟨rfl, rfl, rfl⟩
  obtain ⟨s3, r3, out3, k1, -, -, k2⟩ := h1.tried
  have hw : s4.e.ewt = s1.e.ewt ∧ s4.cnt.nst = s1.cnt.nst := by
    rw [k2]
    refine ⟨?_, ?_⟩
    · show s3.e.ewt = _
      rw [k1.e]; rfl
    · show s3.cnt.nst = _
      rw [k1.cnt]
  refine ⟨by rw [he.1, hw.1, h.ewt], by rw [he.2.2, hw.2, h.nst], by rw [he.2.1, g3]; exact h.acc, ?_⟩
  rw [he.2.1, g3]
  exact h.new_att t0 ee out

/-- The attempts of a step. -/
theorem step_weights {s s' : State ν n q K} {r : Except Err Unit} (h : step cfg s = .ret s' r) :
    ∃ l, s'.g.atts = l ++ s.g.atts ∧ ∀ x ∈ l, x.ewt = s.e.ewt ∧ (s.cnt.nst = 0 → x.before.length = 1) ∧
      (0 < s.cnt.nst → x.before = s.g.acc) := by
  have hi := firstStepInit_cnt s
  have := step_rule (cfg := cfg) (fun s1 _ => WLoop s s1) (fun s1 => ∃ l, s1.g.atts = l ++ s.g.atts ∧ ∀ x ∈ l, x.ewt = s.e.ewt ∧
      (s.cnt.nst = 0 → x.before.length = 1) ∧ (0 < s.cnt.nst → x.before = s.g.acc)) (fun s1 _ => WLoop s s1)
    ⟨by unfold firstStepInit; split <;> rfl, by rw [hi.1], by rw [hi.2.1], [], by rw [hi.2.1]; rfl, fun x hx => by cases hx⟩
    (fun s1 f s' f' hI h => by
      obtain ⟨s4, err, a, b, s6, h1, h2, rfl⟩ := attempt_again h
      have := hI.fail h1 h2
      split
      · exact ⟨this.ewt, this.nst, this.acc, this.atts⟩
      · exact this)
    (fun s1 f s2 ck a b s' hI h hc => by
      obtain ⟨s3, h1, -, -, hp, -, rfl⟩ := attempt_done h
      have hg : s'.g = _ := (completeStep_eq hc).g.trans (done_ghost h1)
      show ∃ l, s'.g.atts = _ ∧ _
      rw [hg]
      exact hI.new_att _ _ _)
    (fun s1 f s' e hI h => by
      obtain ⟨s4, err, a, b, f', h1, h2⟩ := attempt_fail h
      exact hI.fail h1 h2) h
  rcases this with ⟨-, h⟩ | ⟨e, -, h⟩
  · exact h
  · exact h.atts

end lawfree

section
variable {ν : Type v} {n q : Nat} {K : Type u} [Field K] [LinearOrder K] [IsStrictOrderedRing K] [ExactParams K] [EpsLaws K]

/-- The weights of every attempt after the first step were computed from the last point accepted before it. -/
def WInv (cfg : Cfg ν n q K) (g : Ghost n K) : Prop :=
  ∀ x ∈ g.atts, 2 ≤ x.before.length → ∃ p rest w, x.before = p :: rest ∧ x.ewt = cfg.ewtSet p.2 w ∧
    ∀ i, Scalar.le (x.ewt i) 0 = false

theorem FullInv.phi_zero {cfg : Cfg ν n q K} {s : State ν n q K} (h : FullInv cfg s) (h0 : 0 < s.cnt.nst) :
    ∃ p rest, s.g.acc = p :: rest ∧ p.2 = s.h.phi 0 := by
  obtain ⟨y, r, hy⟩ := h.ok.ctl.last h0
  refine ⟨(s.e.tn, y), r, hy, ?_⟩
  have := (h.hist.data h0 0 (Nat.zero_le _) (s.e.tn, y) (by rw [hy]; rfl)).2
  funext i
  have h1 := this i
  unfold interpPoly at h1
  simp at h1
  rw [nb_zero, Polynomial.eval_one, mul_one] at h1
  exact h1.symm

theorem winv_step {cfg : Cfg ν n q K} {s s' : State ν n q K} {r : Except Err Unit} (hF : 0 < s.cnt.nst → FullInv cfg s)
    (hI : WInv cfg s.g) (hw : 0 < s.cnt.nst → Weighed cfg s) (h : step cfg s = .ret s' r) : WInv cfg s'.g := by
  obtain ⟨l, h1, h2⟩ := step_weights h
  intro x hx hlen
  rw [h1] at hx
  rcases List.mem_append.1 hx with hx | hx
  · obtain ⟨e1, e2, e3⟩ := h2 x hx
    by_cases hz : s.cnt.nst = 0
    · rw [e2 hz] at hlen; omega
    · have hp : 0 < s.cnt.nst := by omega
      obtain ⟨p, rest, k1, k2⟩ := (hF hp).phi_zero hp
      obtain ⟨w, hw1⟩ := (hw hp).ewt
      refine ⟨p, rest, w, by rw [e3 hp, k1], by rw [e1, hw1, k2], fun i => ?_⟩
      rw [e1]; exact (hw hp).pos i
  · exact hI x hx hlen

theorem winv_micro {cfg : Cfg ν n q K} {s s' : State ν n q K} (hF : FullInv cfg s) (hI : WInv cfg s.g) (hm : Micro cfg s s') :
    WInv cfg s'.g := by
  cases hm with
  | frame hf => rw [hf.g]; exact hI
  | perf => exact hI
  | clear => exact hI
  | clamp ts _ _ _ => rw [(clampToStop_same s ts).g]; exact hI
  | ewt _ => exact hI
  | first _ _ h0 hf => rw [(firstCall_same hf).g]; exact hI
  | firstStep _ h0 hfc hfr hs =>
    rename_i s1 s2 _
    have hz : s2.cnt.nst = 0 := by
      rw [hfr.cnt]; show s1.cnt.nst = 0; rw [(firstCall_same hfc).cnt]; exact h0
    refine winv_step (fun h => by omega) ?_ (fun h => by omega) hs
    rw [hfr.g]; show WInv cfg s1.g; rw [(firstCall_same hfc).g]; exact hI
  | step h0 _ hs hw => exact winv_step (fun _ => hF) hI (fun _ => hw) hs

theorem winv_both {cfg : Cfg ν n q K} (hl : NlsLegal cfg) (hm1 : 1 ≤ cfg.maxord) (hm : 0 ≤ cfg.hmaxInv)
    {a b : State ν n q K} (h : FullInv cfg a ∧ WInv cfg a.g) (hM : Micro cfg a b) : FullInv cfg b ∧ WInv cfg b.g :=
  ⟨fullInv_micro hl hm1 hm h.1 hM, winv_micro h.1 h.2 hM⟩

theorem ReachOk.winv {cfg : Cfg ν n q K} {s : State ν n q K} (hs : ReachOk cfg s) (hl : NlsLegal cfg)
    (hm1 : 1 ≤ cfg.maxord) (hm : 0 ≤ cfg.hmaxInv) : WInv cfg s.g :=
  (hs.inv (fun s => FullInv cfg s ∧ WInv cfg s.g)
    (fun a b c d => ⟨ReachOk.full hl hm1 hm (.new a b c d), fun x hx => by cases hx⟩) fun _ _ => winv_both hl hm1 hm).2

theorem exec_winv {cfg : Cfg ν n q K} (hl : NlsLegal cfg) (hm1 : 1 ≤ cfg.maxord) (hm : 0 ≤ cfg.hmaxInv) {rf sf : Nat}
    {s s' : State ν n q K} {op : Op K} {r : Res n K} (hs : ReachOk cfg s) (h : exec cfg rf sf s op = some (s', r)) :
    WInv cfg s'.g := by
  have step1 : ∀ a b, FullInv cfg a ∧ WInv cfg a.g → Micro cfg a b → FullInv cfg b ∧ WInv cfg b.g :=
    fun a b => winv_both hl hm1 hm
  have hI : FullInv cfg s ∧ WInv cfg s.g := ⟨hs.full hl hm1 hm, hs.winv hl hm1 hm⟩
  rcases exec_ends h with ⟨r', hr', hend⟩ | ⟨hno, hmic⟩
  · cases hend with
    | clean h1 hb => exact (h1.inv step1 hI).2
    | failed s1 s2 e h1 h2 h3 h4 =>
      have hI1 := h1.inv step1 hI
      rw [h3.g]
      cases h2 with
      | firstStep tout e g1 g2 g3 g4 =>
        rename_i sa sb
        have hz : sb.cnt.nst = 0 := by
          rw [g3.cnt]; show sa.cnt.nst = 0; rw [(firstCall_same g2).cnt]; exact g1
        refine winv_step (fun h => by omega) ?_ (fun h => by omega) g4
        rw [g3.g]; show WInv cfg sa.g; rw [(firstCall_same g2).g]; exact hI1.2
      | step e g1 g2 g3 g4 => exact winv_step (fun _ => hI1.1) hI1.2 (fun _ => g4) g3
  · exact (hmic.inv step1 hI).2

end

end Verif
