import Verif.Spec.RootChange
import Verif.Proofs.WithRoots
import Mathlib.Data.List.Sort
import Mathlib.Data.List.FinRange

/-!
# Rescaling root functions and adding root functions without zeros: the searches
-/

set_option autoImplicit false
set_option linter.unusedSectionVars false
set_option linter.unusedSimpArgs false
set_option linter.unusedVariables false

namespace Verif

open Verif.Spec

universe u v w x y

/-! ## Folds -/

theorem foldl_embed_list {A : Type w} {A' : Type x} {q q' : Nat} {e : Fin q → Fin q'} (R : A → A' → Prop) {f : A → Fin q → A}
    {f' : A' → Fin q' → A'} (h1 : ∀ i a a', R a a' → R (f a i) (f' a' (e i)))
    (h2 : ∀ j, (∀ i, e i ≠ j) → ∀ a a', R a a' → R a (f' a' j)) [DecidablePred fun j => ∃ i, e i = j] (l' : List (Fin q')) :
    ∀ (l : List (Fin q)) (a : A) (a' : A'), l'.filter (fun j => ∃ i, e i = j) = l.map e → R a a' →
      R (l.foldl f a) (l'.foldl f' a') := by
  induction l' with
  | nil =>
    intro l a a' h hR
    have : l = [] := by
      cases l with
      | nil => rfl
      | cons x l => simp at h
    subst this
    exact hR
  | cons j l' ih =>
    intro l a a' h hR
    by_cases hj : ∃ i, e i = j
    · rw [List.filter_cons_of_pos (by simpa using hj)] at h
      cases l with
      | nil => simp at h
      | cons i l =>
        simp only [List.map_cons, List.cons.injEq] at h
        obtain ⟨rfl, h⟩ := h
        exact ih l _ _ h (h1 i a a' hR)
    · rw [List.filter_cons_of_neg (by simpa using hj)] at h
      exact ih l _ _ h (h2 j (fun i hi => hj ⟨i, hi⟩) a a' hR)

theorem foldl_embed {A : Type w} {A' : Type x} {q q' : Nat} {e : Fin q → Fin q'} (he : ∀ i j, i < j → e i < e j) (R : A → A' → Prop)
    {f : A → Fin q → A} {f' : A' → Fin q' → A'} (h1 : ∀ i a a', R a a' → R (f a i) (f' a' (e i)))
    (h2 : ∀ j, (∀ i, e i ≠ j) → ∀ a a', R a a' → R a (f' a' j)) {a : A} {a' : A'} (hR : R a a') :
    R (Fin.foldl q f a) (Fin.foldl q' f' a') := by
  classical
  rw [Fin.foldl_eq_finRange_foldl, Fin.foldl_eq_finRange_foldl]
  refine foldl_embed_list R h1 h2 _ _ _ _ ?_ hR
  refine List.Pairwise.eq_of_mem_iff (r := (· < ·)) ?_ ?_ ?_
  · exact (List.pairwise_lt_finRange q').filter _
  · rw [List.pairwise_map]
    exact (List.pairwise_lt_finRange q).imp fun h => he _ _ h
  · intro j
    simp


section
variable {ν : Type v} {n q q' : Nat} {K : Type u} [Field K] [LinearOrder K] [IsStrictOrderedRing K] [ExactParams K]

/-- `x` is a value of the root function number `j`. -/
def Live (ρ : K → Vec n K → Vec n K → Vec q' K → Vec q' K) (j : Fin q') (x : K) : Prop := ∃ t y yp b, x = ρ t y yp b j

/-- The values of the root functions before and after the change. -/
def Scaled (C : RootChange q q' K) (g : Vec q K) (g' : Vec q' K) : Prop := ∀ i, g' (C.e i) = C.d i * g i

/-- The data of the root searches before and after the change. -/
structure RootRel (C : RootChange q q' K) (ρ : K → Vec n K → Vec n K → Vec q' K → Vec q' K) (pos : Prop) (r : RootSt q K)
    (r' : RootSt q' K) : Prop where
  tlo : r'.tlo = r.tlo
  thi : r'.thi = r.thi
  trout : r'.trout = r.trout
  toutc : r'.toutc = r.toutc
  ttol : r'.ttol = r.ttol
  taskc : r'.taskc = r.taskc
  irfnd : r'.irfnd = r.irfnd
  nge : r'.nge = r.nge
  glo : Scaled C r.glo r'.glo
  ghi : Scaled C r.ghi r'.ghi
  grout : Scaled C r.grout r'.grout
  gactive : ∀ i, r'.gactive (C.e i) = r.gactive i
  iroots : ∀ i, r'.iroots (C.e i) = r.iroots i ∨ (C.d i < 0 ∧ r'.iroots (C.e i) = -r.iroots i)
  inew : ∀ j, C.New j → r'.iroots j = 0
  live : pos → ∀ j, C.New j → Live ρ j (r'.glo j)

theorem scaled_zero {d g : K} (hd : d ≠ 0) : Scalar.eqb (Scalar.abs (d * g)) 0 = Scalar.eqb (Scalar.abs g) 0 := by
  simp only [ex_eqb, ex_abs, abs_eq_zero, mul_eq_zero, hd, false_or]

theorem scaled_nonzero {d g : K} (hd : d ≠ 0) : Scalar.neb (Scalar.abs (d * g)) 0 = Scalar.neb (Scalar.abs g) 0 := by
  unfold Scalar.neb
  rw [scaled_zero hd]

theorem scaled_neb {d g : K} (hd : d ≠ 0) : Scalar.neb (d * g) 0 = Scalar.neb g 0 := by
  unfold Scalar.neb
  simp only [ex_eqb, mul_eq_zero, hd, false_or]

theorem scaled_change {d a b : K} (hd : d ≠ 0) : Scalar.lt (d * a * (d * b)) 0 = Scalar.lt (a * b) 0 := by
  have h : d * a * (d * b) = d * d * (a * b) := by ring
  simp only [ex_lt, decide_eq_decide]
  rw [h]
  exact ⟨fun hx => neg_of_mul_neg_right hx (mul_self_nonneg d), fun hx => mul_neg_of_pos_of_neg (mul_self_pos.2 hd) hx⟩

theorem scaled_frac {d g l : K} (hd : d ≠ 0) : d * g / (d * g - d * l) = g / (g - l) := by
  rw [← mul_sub, mul_div_mul_left _ _ hd]

theorem scaled_trial {d thi tlo ttol ghi glo alph : K} (hd : d ≠ 0) :
    trialPoint thi tlo ttol (d * ghi) (d * glo) alph = trialPoint thi tlo ttol ghi glo alph := by
  have h : (thi - tlo) * (d * ghi) / (d * ghi - alph * (d * glo)) = (thi - tlo) * ghi / (ghi - alph * glo) := by
    rw [show (thi - tlo) * (d * ghi) = d * ((thi - tlo) * ghi) by ring,
      show d * ghi - alph * (d * glo) = d * (ghi - alph * glo) by ring, mul_div_mul_left _ _ hd]
  unfold trialPoint
  rw [h]

section
variable {C : RootChange q q' K} {cfg : Cfg ν n q K} {ρ : K → Vec n K → Vec n K → Vec q' K → Vec q' K} {dir : Fin q' → Nat}
  (hF : C.Fits cfg.prob.root ρ cfg.rootdir dir)

include hF

local notation "cfg'" => cfg.withRoots ρ dir

theorem live_zero {j : Fin q'} (hj : C.New j) {x : K} (hx : Live ρ j x) : Scalar.eqb (Scalar.abs x) 0 = false := by
  obtain ⟨t, y, yp, b, rfl⟩ := hx
  simp only [ex_eqb, ex_abs, abs_eq_zero, decide_eq_false_iff_not]
  rcases hF.new j hj with h | h
  · exact (h t y yp b).ne'
  · exact (h t y yp b).ne

theorem live_change {j : Fin q'} (hj : C.New j) {x z : K} (hx : Live ρ j x) (hz : Live ρ j z) : Scalar.lt (x * z) 0 = false := by
  obtain ⟨t, y, yp, b, rfl⟩ := hx
  obtain ⟨t2, y2, yp2, b2, rfl⟩ := hz
  simp only [ex_lt, decide_eq_false_iff_not, not_lt]
  rcases hF.new j hj with h | h
  · exact (mul_pos (h t y yp b) (h t2 y2 yp2 b2)).le
  · exact (mul_pos_of_neg_of_neg (h t y yp b) (h t2 y2 yp2 b2)).le

theorem dirOk_rel {glo : Vec q K} {glo' : Vec q' K} (hg : Scaled C glo glo') (i : Fin q) :
    dirOk cfg' glo' (C.e i) = dirOk cfg glo i := by
  unfold dirOk
  show Scalar.le (Scalar.ofNat (dir (C.e i)) * glo' (C.e i)) 0 = _
  rw [hF.dirs i, hg i]
  rcases hF.sign i with h | h
  · simp only [ex_le, ex_ofNat, decide_eq_decide]
    rw [show (cfg.rootdir i : K) * (C.d i * glo i) = C.d i * ((cfg.rootdir i : K) * glo i) by ring]
    exact ⟨fun hx => nonpos_of_mul_nonpos_right hx h, fun hx => mul_nonpos_of_nonneg_of_nonpos h.le hx⟩
  · simp only [h, ex_le, ex_ofNat, Nat.cast_zero, zero_mul]

omit hF in
/-- The scans of the root functions before and after the change; `b`: the index is meaningful from the start. -/
structure ScanRel (C : RootChange q q' K) (b : Prop) (a a' : Scan K) : Prop where
  zroot : a'.zroot = a.zroot
  sgnchg : a'.sgnchg = a.sgnchg
  maxfrac : a'.maxfrac = a.maxfrac
  imax : (a.sgnchg = true ∨ b) → ∃ h : a.imax < q, a'.imax = (C.e ⟨a.imax, h⟩).val

theorem scanSign_rel {b : Prop} {glo g : Vec q K} {glo' g' : Vec q' K} (h1 : Scaled C glo glo') (h2 : Scaled C g g')
    {a a' : Scan K} (h : ScanRel C b a a') (i : Fin q) : ScanRel C b (scanSign cfg glo g a i) (scanSign cfg' glo' g' a' (C.e i)) := by
  unfold scanSign
  rw [dirOk_rel hF h1, h1 i, h2 i, scaled_change (C.ne i), scaled_frac (C.ne i), h.maxfrac]
  simp only
  split
  · split
    · exact ⟨h.zroot, rfl, rfl, fun _ => ⟨i.2, rfl⟩⟩
    · exact h
  · exact h

theorem scanSign_new {b : Prop} {glo g : Vec q K} {glo' g' : Vec q' K} {a : Scan K} {j : Fin q'} (hj : C.New j)
    (h1 : Live ρ j (glo' j)) (h2 : Live ρ j (g' j)) : scanSign cfg' glo' g' a j = a := by
  unfold scanSign
  rw [live_change hF hj h1 h2, Bool.false_and]
  simp

theorem scan1_rel {gactive : Fin q → Bool} {gactive' : Fin q' → Bool} {glo ghi : Vec q K} {glo' ghi' : Vec q' K}
    (h0 : ∀ i, gactive' (C.e i) = gactive i) (h1 : Scaled C glo glo') (h2 : Scaled C ghi ghi')
    (h3 : ∀ j, C.New j → Live ρ j (glo' j)) (h4 : ∀ j, C.New j → Live ρ j (ghi' j)) :
    ScanRel C False (scan1 cfg gactive glo ghi) (scan1 cfg' gactive' glo' ghi') := by
  unfold scan1
  refine foldl_embed C.mono (ScanRel C False) ?_ ?_ ⟨rfl, rfl, rfl, fun h => by simp at h⟩
  · intro i a a' h
    rw [h0 i, dirOk_rel hF h1, show Scalar.eqb (Scalar.abs (ghi' (C.e i))) 0 = Scalar.eqb (Scalar.abs (ghi i)) 0 by
      rw [h2 i, scaled_zero (C.ne i)]]
    split
    · split
      · split
        · exact ⟨rfl, h.sgnchg, h.maxfrac, h.imax⟩
        · exact h
      · exact scanSign_rel hF h1 h2 h i
    · exact h
  · intro j hj a a' h
    rw [live_zero hF hj (h4 j hj), scanSign_new (g := ghi) (glo := glo) (b := False) hF hj (h3 j hj) (h4 j hj)]
    simp only [Bool.false_eq_true, if_false, ite_self]
    exact h

theorem scan2_rel {gactive : Fin q → Bool} {gactive' : Fin q' → Bool} {glo grout : Vec q K} {glo' grout' : Vec q' K}
    {m m' : Nat} (h0 : ∀ i, gactive' (C.e i) = gactive i) (h1 : Scaled C glo glo') (h2 : Scaled C grout grout')
    (h3 : ∀ j, C.New j → Live ρ j (glo' j)) (h4 : ∀ j, C.New j → Live ρ j (grout' j))
    (hm : ∃ h : m < q, m' = (C.e ⟨m, h⟩).val) :
    ScanRel C True (scan2 cfg gactive glo grout m) (scan2 cfg' gactive' glo' grout' m') := by
  unfold scan2
  refine foldl_embed C.mono (ScanRel C True) ?_ ?_ ⟨rfl, rfl, rfl, fun _ => hm⟩
  · intro i a a' h
    rw [h0 i, dirOk_rel hF h1, show Scalar.eqb (Scalar.abs (grout' (C.e i))) 0 = Scalar.eqb (Scalar.abs (grout i)) 0 by
      rw [h2 i, scaled_zero (C.ne i)]]
    split
    · split
      · exact ⟨rfl, h.sgnchg, h.maxfrac, h.imax⟩
      · exact scanSign_rel hF h1 h2 h i
    · exact h
  · intro j hj a a' h
    rw [live_zero hF hj (h4 j hj), scanSign_new (g := grout) (glo := glo) (b := True) hF hj (h3 j hj) (h4 j hj)]
    simp only [Bool.false_and, Bool.false_eq_true, if_false, ite_self]
    exact h

end

end

end Verif
