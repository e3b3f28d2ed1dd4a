import Verif.Proofs.UnitsSolve

/-! # Change of units: `get_dky` -/

set_option autoImplicit false
set_option linter.unusedSectionVars false
set_option linter.unusedSimpArgs false
set_option linter.unusedVariables false

namespace Verif

universe u v

section
variable {n q : Nat} {K : Type u} [Field K] [LinearOrder K] [IsStrictOrderedRing K] [ExactParams K]

namespace Change

variable (C : Change n K)

/-- One iteration of the inner loop of `get_dky`. -/
def dkyIter (psi : Nat → K) (delt : K) (i j0 : Nat) (l : DkyCoef K) : DkyCoef K :=
  { l with cjk := upd l.cjk (i + 1 + j0) ((Scalar.ofNat i * l.cjk1 (i + 1 + j0 - 1) + l.cjk (i + 1 + j0 - 1) * (delt + l.psij1)) / psi (i + 1 + j0 - 1))
           psij1 := psi (i + 1 + j0 - 1) }

theorem dkyIter_conv (psi : Nat → K) (delt : K) (i : Nat) (a b : DkyCoef K)
    (h1 : ∀ j, j ≤ i → b.cjk j = a.cjk j / C.σ ^ min j i) (h2 : ∀ j, b.cjk1 j = a.cjk1 j / C.σ ^ min (j - 1) (i - 1))
    (h3 : b.psij1 = C.σ * a.psij1) (m : Nat) :
    (∀ j, j ≤ i + m → (forUp m (dkyIter (fun j => C.σ * psi j) (C.σ * delt) i) b).cjk j =
      (forUp m (dkyIter psi delt i) a).cjk j / C.σ ^ min j i) ∧
    (∀ j, i + m < j → (forUp m (dkyIter (fun j => C.σ * psi j) (C.σ * delt) i) b).cjk j = b.cjk j ∧
      (forUp m (dkyIter psi delt i) a).cjk j = a.cjk j) ∧
    (forUp m (dkyIter (fun j => C.σ * psi j) (C.σ * delt) i) b).cjk1 = b.cjk1 ∧ (forUp m (dkyIter psi delt i) a).cjk1 = a.cjk1 ∧
    (forUp m (dkyIter (fun j => C.σ * psi j) (C.σ * delt) i) b).psij1 = C.σ * (forUp m (dkyIter psi delt i) a).psij1 := by
  have hσ := C.hσ
  induction m with
  | zero => exact ⟨by simpa using h1, by simp, rfl, rfl, h3⟩
  | succ m ih =>
    obtain ⟨k1, k2, k3, k4, k5⟩ := ih
    rw [forUp_succ, forUp_succ]
    generalize forUp m (dkyIter (fun j => C.σ * psi j) (C.σ * delt) i) b = b' at k1 k2 k3 k5 ⊢
    generalize forUp m (dkyIter psi delt i) a = a' at k1 k2 k4 k5 ⊢
    refine ⟨?_, ?_, k3, k4, rfl⟩
    · intro j hj
      unfold dkyIter
      dsimp only
      by_cases hji : j = i + 1 + m
      · subst hji
        rw [upd_same, upd_same, k3, k4, h2, k5, k1 _ (by omega)]
        have e1 : min (i + 1 + m - 1) i = i := by omega
        have e2 : min (i + 1 + m) i = i := by omega
        rw [e1, e2]
        by_cases hi : i = 0
        · subst hi
          simp only [pow_zero, div_one, ex_ofNat, Nat.cast_zero, zero_mul, zero_add]
          rw [← mul_add, mul_left_comm, mul_div_mul_left _ _ hσ]
        · have e3 : min (i + 1 + m - 1 - 1) (i - 1) = i - 1 := by omega
          rw [e3]
          obtain ⟨i', rfl⟩ : ∃ i', i = i' + 1 := ⟨i - 1, by omega⟩
          simp only [Nat.add_sub_cancel]
          have hp : C.σ ^ i' ≠ 0 := pow_ne_zero _ hσ
          have : Scalar.ofNat (i' + 1) * (a.cjk1 (i' + 1 + m) / C.σ ^ i') +
              a'.cjk (i' + 1 + m) / C.σ ^ (i' + 1) * (C.σ * delt + C.σ * a'.psij1) =
            C.σ * ((Scalar.ofNat (i' + 1) * a.cjk1 (i' + 1 + m) + a'.cjk (i' + 1 + m) * (delt + a'.psij1)) / C.σ ^ (i' + 1)) := by
            rw [pow_succ]; field_simp
          have e4 : i' + 1 + 1 + m - 1 = i' + 1 + m := by omega
          rw [e4, this, mul_div_mul_left _ _ hσ, div_right_comm]
      · rw [upd_ne _ _ hji, upd_ne _ _ hji]
        exact k1 j (by omega)
    · intro j hj
      unfold dkyIter
      dsimp only
      rw [upd_ne _ _ (by omega), upd_ne _ _ (by omega)]
      exact k2 j (by omega)

/-- The scales after `i` passes of the outer loop. -/
structure Dky (hi i : Nat) (a b : DkyCoef K) : Prop where
  cjk : ∀ j, b.cjk j = a.cjk j / C.σ ^ min j (i - 1)
  cjk1 : ∀ j, b.cjk1 j = a.cjk1 j / C.σ ^ min (j - 1) (i - 1)
  psij1 : b.psij1 = C.σ * a.psij1
  zero : ∀ j, hi ≤ j → i ≤ j → a.cjk j = 0
  zero1 : ∀ j, hi ≤ j → a.cjk1 j = 0

theorem copy_apply (f g : Nat → K) (lo m j : Nat) :
    forUp m (fun j0 a => upd a (lo + j0) (f (lo + j0))) g j = if lo ≤ j ∧ j < lo + m then f j else g j := by
  induction m with
  | zero => rw [forUp_zero, if_neg (by omega)]
  | succ m ih =>
    rw [forUp_succ]
    by_cases h : j = lo + m
    · subst h; rw [upd_same, if_pos (by omega)]
    · rw [upd_ne _ _ h, ih]
      by_cases h2 : lo ≤ j ∧ j < lo + m
      · rw [if_pos h2, if_pos (by omega)]
      · rw [if_neg h2, if_neg (by omega)]

theorem dkyPass_eq (psi : Nat → K) (delt : K) (hi i : Nat) (l : DkyCoef K) : dkyPass psi delt hi i l =
    { forUp (hi - (i + 1)) (dkyIter psi delt i) (if i = 0 then { l with cjk := upd l.cjk 0 1 }
      else { l with cjk := upd l.cjk i (l.cjk (i - 1) * Scalar.ofNat i / psi (i - 1)), psij1 := psi (i - 1) }) with
      cjk1 := forUp (hi - (i + 1)) (fun j0 a => upd a (i + 1 + j0)
        ((forUp (hi - (i + 1)) (dkyIter psi delt i) (if i = 0 then { l with cjk := upd l.cjk 0 1 }
          else { l with cjk := upd l.cjk i (l.cjk (i - 1) * Scalar.ofNat i / psi (i - 1)), psij1 := psi (i - 1) })).cjk (i + 1 + j0)))
        (forUp (hi - (i + 1)) (dkyIter psi delt i) (if i = 0 then { l with cjk := upd l.cjk 0 1 }
          else { l with cjk := upd l.cjk i (l.cjk (i - 1) * Scalar.ofNat i / psi (i - 1)), psij1 := psi (i - 1) })).cjk1 } := rfl

theorem dkyPass_conv (psi : Nat → K) (delt : K) (hi i : Nat) (a b : DkyCoef K) (h : C.Dky hi i a b) :
    C.Dky hi (i + 1) (dkyPass psi delt hi i a) (dkyPass (fun j => C.σ * psi j) (C.σ * delt) hi i b) := by
  have hσ := C.hσ
  rw [dkyPass_eq, dkyPass_eq]
  have key : ∀ a1 b1 : DkyCoef K, a1 = (if i = 0 then { a with cjk := upd a.cjk 0 1 }
      else { a with cjk := upd a.cjk i (a.cjk (i - 1) * Scalar.ofNat i / psi (i - 1)), psij1 := psi (i - 1) }) →
      b1 = (if i = 0 then { b with cjk := upd b.cjk 0 1 }
      else { b with cjk := upd b.cjk i (b.cjk (i - 1) * Scalar.ofNat i / (C.σ * psi (i - 1))), psij1 := C.σ * psi (i - 1) }) →
      (∀ j, j ≤ i → b1.cjk j = a1.cjk j / C.σ ^ min j i) ∧ (∀ j, i < j → b1.cjk j = b.cjk j ∧ a1.cjk j = a.cjk j) ∧
      b1.cjk1 = b.cjk1 ∧ a1.cjk1 = a.cjk1 ∧ b1.psij1 = C.σ * a1.psij1 := by
    rintro a1 b1 rfl rfl
    by_cases hi0 : i = 0
    · subst hi0
      simp only [if_true]
      refine ⟨?_, ?_, trivial, trivial, h.psij1⟩
      · intro j hj
        obtain rfl : j = 0 := by omega
        simp
      · intro j hj
        rw [upd_ne _ _ (by omega), upd_ne _ _ (by omega)]; exact ⟨rfl, rfl⟩
    · simp only [if_neg hi0]
      refine ⟨?_, ?_, trivial, trivial, trivial⟩
      · intro j hj
        by_cases hji : j = i
        · subst hji
          rw [upd_same, upd_same, h.cjk, Nat.min_self, Nat.min_self]
          obtain ⟨i', rfl⟩ : ∃ i', j = i' + 1 := ⟨j - 1, by omega⟩
          simp only [Nat.add_sub_cancel]
          rw [pow_succ, ← div_div, div_mul_eq_mul_div, div_div, div_div, div_div]
          congr 1
          ring
        · rw [upd_ne _ _ hji, upd_ne _ _ hji, h.cjk]
          congr 2; omega
      · intro j hj
        rw [upd_ne _ _ (by omega), upd_ne _ _ (by omega)]; exact ⟨rfl, rfl⟩
  obtain ⟨k1, k2, k3, k4, k5⟩ := key _ _ rfl rfl
  generalize (if i = 0 then { a with cjk := upd a.cjk 0 1 }
      else { a with cjk := upd a.cjk i (a.cjk (i - 1) * Scalar.ofNat i / psi (i - 1)), psij1 := psi (i - 1) }) = a1 at k1 k2 k3 k4 k5 ⊢
  generalize (if i = 0 then { b with cjk := upd b.cjk 0 1 }
      else { b with cjk := upd b.cjk i (b.cjk (i - 1) * Scalar.ofNat i / (C.σ * psi (i - 1))), psij1 := C.σ * psi (i - 1) }) = b1 at k1 k2 k3 k4 k5 ⊢
  obtain ⟨m1, m2, m3, m4, m5⟩ := C.dkyIter_conv psi delt i a1 b1 k1 (by rw [k3, k4]; exact h.cjk1) k5 (hi - (i + 1))
  generalize forUp (hi - (i + 1)) (dkyIter (fun j => C.σ * psi j) (C.σ * delt) i) b1 = b2 at m1 m2 m3 m5 ⊢
  generalize forUp (hi - (i + 1)) (dkyIter psi delt i) a1 = a2 at m1 m2 m4 m5 ⊢
  have hzero : ∀ j, hi ≤ j → i + 1 ≤ j → a2.cjk j = 0 := by
    intro j h1 h2
    rw [(m2 j (by omega)).2, (k2 j (by omega)).2]
    exact h.zero j h1 (by omega)
  refine ⟨?_, ?_, m5, hzero, ?_⟩
  · intro j
    rw [Nat.add_sub_cancel]
    by_cases hj : j ≤ i + (hi - (i + 1))
    · exact m1 j hj
    · have e1 := hzero j (by omega) (by omega)
      have e2 : a.cjk j = 0 := h.zero j (by omega) (by omega)
      dsimp only
      rw [e1, (m2 j (by omega)).1, (k2 j (by omega)).1, h.cjk, e2, zero_div, zero_div]
  · intro j
    dsimp only
    rw [copy_apply, copy_apply, Nat.add_sub_cancel]
    by_cases hj : i + 1 ≤ j ∧ j < i + 1 + (hi - (i + 1))
    · rw [if_pos hj, if_pos hj, m1 j (by omega)]
      congr 2; omega
    · rw [if_neg hj, if_neg hj, m3, m4, k3, k4, h.cjk1]
      by_cases hj2 : hi ≤ j
      · rw [h.zero1 j hj2, zero_div, zero_div]
      · congr 2; omega
  · intro j hj
    dsimp only
    rw [copy_apply, if_neg (by omega), m4, k4]
    exact h.zero1 j hj

theorem dkyCoefs_conv (psi : Nat → K) (delt : K) (kused k j : Nat) (hj : k ≤ j) :
    (dkyCoefs (fun j => C.σ * psi j) (C.σ * delt) kused k).cjk j = (dkyCoefs psi delt kused k).cjk j / C.σ ^ k := by
  have : ∀ m, C.Dky (kused - k + 1 + 1) m (forUp m (fun i l => dkyPass psi delt (kused - k + 1 + 1) i l)
      { cjk := fun _ => 0, cjk1 := fun _ => 0, psij1 := 0 }) (forUp m (fun i l => dkyPass (fun j => C.σ * psi j) (C.σ * delt) (kused - k + 1 + 1) i l)
      { cjk := fun _ => 0, cjk1 := fun _ => 0, psij1 := 0 }) := by
    intro m
    induction m with
    | zero => exact ⟨by simp [forUp_zero], by simp [forUp_zero], by simp [forUp_zero], by simp [forUp_zero], by simp [forUp_zero]⟩
    | succ m ih =>
      rw [forUp_succ, forUp_succ]
      exact C.dkyPass_conv _ _ _ _ _ _ ih
  have h := (this (k + 1)).cjk j
  rw [Nat.add_sub_cancel, Nat.min_eq_right hj] at h
  exact h

variable {C}

/-- A `k`-th derivative of the solution in the new units. -/
def deriv (C : Change n K) (k : Nat) (v : Vec n K) : Vec n K := fun i => C.d i * v (C.π i) / C.σ ^ k

theorem getDky_conv {s s' : St n q K} (h : C.R s s') (t : K) (k : Nat) :
    (∃ e, getDky s t k = .ret s (.error e) ∧ getDky s' (C.σ * t) k = .ret s' (.error e)) ∨
    (∃ v, getDky s t k = .ret s (.ok v) ∧ getDky s' (C.σ * t) k = .ret s' (.ok (C.deriv k v))) ∨
    (getDky s t k = .panic ∧ getDky s' (C.σ * t) k = .panic) := by
  obtain ⟨J, rfl, ht, hL⟩ := h
  unfold getDky
  rw [C.badTime_conv]
  have e1 : (C.st false J s).c.kused = s.c.kused := rfl
  rw [e1]
  split
  · exact Or.inl ⟨_, rfl, rfl⟩
  split
  · exact Or.inl ⟨_, rfl, rfl⟩
  split
  · right; left
    refine ⟨_, rfl, ?_⟩
    have e2 : (C.st false J s).h.psi = fun j => C.σ * s.h.psi j := rfl
    have e3 : C.σ * t - (C.st false J s).e.tn = C.σ * (t - s.e.tn) := (mul_sub _ _ _).symm
    have e4 : (C.st false J s).h.phi = fun j => C.vec (s.h.phi j) := C.hist_phi s.h
    dsimp only
    rw [e2, e3, e4]
    generalize s.c.kused - k + 1 = m
    congr 2
    have : ∀ m, forUp m (fun j0 (y : Vec n K) => fun i => y i + C.vec (s.h.phi (k + j0)) i *
          (dkyCoefs (fun j => C.σ * s.h.psi j) (C.σ * (t - s.e.tn)) s.c.kused k).cjk (k + j0)) vzero =
        C.deriv k (forUp m (fun j0 y => fun i => y i + s.h.phi (k + j0) i *
          (dkyCoefs s.h.psi (t - s.e.tn) s.c.kused k).cjk (k + j0)) vzero) := by
      intro m
      induction m with
      | zero => funext i; simp [forUp_zero, deriv, vzero]
      | succ m ih =>
        rw [forUp_succ, forUp_succ, ih]
        funext i
        rw [C.dkyCoefs_conv _ _ _ _ _ (by omega)]
        simp only [deriv, vec]
        ring
    exact this m
  · exact Or.inr (Or.inr ⟨rfl, rfl⟩)

end Change

end

end Verif
