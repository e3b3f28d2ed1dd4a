import Verif.Proofs.Rounding

/-!
# Rounding errors of the dense solver: solving with the factors
-/

set_option autoImplicit false
set_option linter.unusedSectionVars false
set_option linter.unusedSimpArgs false
set_option linter.unusedVariables false

namespace Verif.Proofs

open Verif Verif.Spec Finset

universe u v

section lawfree
variable {F : Type u} [Scalar F]

theorem permuteB_eq' {n : Nat} (p : Nat → Nat) (b : Nat → F) (c : Nat) (hc : c ≤ n) (h : ∀ t, t < c → p t < n) :
    permuteB n p b c = some (fun i => b (rowPerm p c i)) := by
  induction c with
  | zero => rfl
  | succ c ih =>
    simp only [permuteB]
    rw [ih (by omega) (fun t ht => h t (by omega))]
    dsimp only
    split
    case isTrue hne =>
      rw [if_pos (h c (by omega))]
      congr 1
      funext i
      simp only [upd, rowPerm, Equiv.Perm.mul_apply, Equiv.swap_apply_def]
      by_cases h1 : i = p c
      · have h2 : ¬ i = c := fun h => hne (by omega)
        simp only [h1, if_true]
        rw [if_neg (fun h => hne h)]
      · by_cases h2 : i = c
        · simp [h2, h1]
          intro h3; omega
        · simp [h1, h2]
    case isFalse he =>
      have he : p c = c := by simpa using he
      congr 1
      funext i
      simp [rowPerm, he]

theorem forward_inner (M : Mat F) (k : Nat) (b : Nat → F) (bk : F) (c i : Nat) :
    forUp c (fun d b => let i := k + 1 + d; upd b i (b i - M i k * bk)) b i =
      if k < i ∧ i < k + 1 + c then b i - M i k * bk else b i := by
  induction c generalizing i with
  | zero => rw [if_neg (by omega)]; rfl
  | succ c ih =>
    rw [forUp_succ]
    simp only [upd]
    rw [ih, ih]
    by_cases h : i = k + 1 + c
    · subst h; simp
      intro h; omega
    · have : (i < k + 1 + (c + 1)) = (i < k + 1 + c) := by simp; omega
      simp [h, this]

theorem backward_inner (M : Mat F) (k : Nat) (b : Nat → F) (bk : F) (c i : Nat) :
    forUp c (fun i b => upd b i (b i - M i k * bk)) b i = if i < c then b i - M i k * bk else b i := by
  induction c generalizing i with
  | zero => rw [if_neg (by omega)]; rfl
  | succ c ih =>
    rw [forUp_succ]
    simp only [upd]
    rw [ih, ih]
    by_cases h : i = c
    · subst h; simp
    · have : (i < c + 1) = (i < c) := by simp; omega
      simp [h, this]

end lawfree

section
variable {F : Type u} {K : Type v} [Scalar F] [Field K] [LinearOrder K] [IsStrictOrderedRing K] [S : StdModel F K]

local notation "μ" => (StdModel.u (F := F) (K := K))

theorem forwardSub_fl (n : Nat) (M : Mat F) (b : Nat → F) (i : Nat) (hi : i < n) :
    Expand (F := F) i n (S.val (b i)) (fun t => S.val (M i t)) (fun t => S.val (forwardSub n M b t))
      (S.val (forwardSub n M b i)) := by
  unfold forwardSub
  have key := forUp_inv (n := n - 1) (s := b)
    (f := fun k b =>
      let bk := b k
      forUp (n - (k + 1)) (fun d b => let i := k + 1 + d; upd b i (b i - M i k * bk)) b)
    (P := fun k y => ∀ i, i < n → Expand (F := F) (min i k) (k + 1) (S.val (b i)) (fun t => S.val (M i t))
      (fun t => S.val (y t)) (S.val (y i)))
    (by intro i hi; rw [Nat.min_zero]; exact .zero _ _ _ _)
    (by
      intro k y hk hy i hi
      dsimp only
      have hin := forward_inner M k y (y k) (n - (k + 1))
      have hlow : ∀ t, t ≤ k → forUp (n - (k + 1)) (fun d b => let i := k + 1 + d; upd b i (b i - M i k * y k)) y t
          = y t := by
        intro t ht; rw [hin, if_neg (by omega)]
      have h4 := hy i hi
      by_cases hik : k < i
      · rw [Nat.min_eq_right (by omega : k ≤ i)] at h4
        rw [Nat.min_eq_right (by omega : k + 1 ≤ i)]
        have h5 := h4.congr (l' := fun t => S.val (M i t)) (w' := fun t => S.val (forUp (n - (k + 1))
          (fun d b => let i := k + 1 + d; upd b i (b i - M i k * y k)) y t)) (fun t _ => rfl)
          (fun t ht => by rw [hlow t (by omega)]) rfl
        obtain ⟨c, d, hc, hd, h6⟩ := fl_elim (K := K) (y i) (M i k) (y k)
        refine h5.split (e := 1) (f := c) (g := d) ?_ hc hd
        rw [hlow k (le_refl _), hin i, if_pos (by omega)]
        exact h6
      · rw [Nat.min_eq_left (by omega : i ≤ k)] at h4
        rw [Nat.min_eq_left (by omega : i ≤ k + 1)]
        exact (h4.mono (by omega)).congr (fun t ht => rfl) (fun t ht => by rw [hlow t (by omega)])
          (by rw [hlow i (by omega)]))
  have := key i hi
  rw [Nat.min_eq_left (by omega : i ≤ n - 1)] at this
  exact this.mono (by omega)

/-- What the right-hand side was, in terms of the present contents of the vector, after the columns from `e` on have been
eliminated. -/
def Back (n e N : Nat) (M : Mat F) (b : Nat → F) (x : Nat → F) (i : Nat) : Prop :=
  ∃ c : Nat → K, (∀ j, Fac μ N (c j)) ∧ S.val (b i) =
    (∑ j ∈ range n, if e ≤ j then upperTri (fun i j => S.val (M i j)) i j * S.val (x j) * c j else 0) +
      if i < e then S.val (x i) * c i else 0

theorem Back.step {n k N : Nat} {M : Mat F} {b x x' : Nat → F} {i : Nat} (h : Back (K := K) n (k + 1) N M b x i)
    (hkn : k < n) (hM : S.val (M k k) ≠ 0) (hgt : ∀ t, k < t → x' t = x t) (heq : x' k = x k / M k k)
    (hlt : ∀ t, t < k → x' t = x t - M t k * (x k / M k k)) : Back (K := K) n k (N + 1) M b x' i := by
  obtain ⟨c, h1, h2⟩ := h
  -- the sum with new factors `c'`, which agree with `c` on the columns eliminated before
  have hsum : ∀ c' : Nat → K, (∀ j, k < j → c' j = c j) →
      (∑ j ∈ range n, if k ≤ j then upperTri (fun i j => S.val (M i j)) i j * S.val (x' j) * c' j else 0) =
      (∑ j ∈ range n, if k + 1 ≤ j then upperTri (fun i j => S.val (M i j)) i j * S.val (x j) * c j else 0) +
        upperTri (fun i j => S.val (M i j)) i k * S.val (x' k) * c' k := by
    intro c' hc'
    have hkn' : k ∈ range n := mem_range.2 hkn
    rw [← Finset.add_sum_erase _ _ hkn', ← Finset.add_sum_erase (range n)
      (fun j => if k + 1 ≤ j then upperTri (fun i j => S.val (M i j)) i j * S.val (x j) * c j else 0) hkn']
    rw [if_pos (le_refl k), if_neg (by omega), zero_add, add_comm]
    congr 1
    apply sum_congr rfl
    intro j hj
    rw [mem_erase, mem_range] at hj
    by_cases hkj : k < j
    · rw [if_pos (by omega), if_pos (by omega), hgt j hkj, hc' j hkj]
    · rw [if_neg (by omega), if_neg (by omega)]
  rcases Nat.lt_trichotomy i k with hik | hik | hik
  · obtain ⟨f, g, hf, hg, h6⟩ := fl_elim (K := K) (x i) (M i k) (x k / M k k)
    refine ⟨fun j => if j = k then f * c i else if j = i then g * c i else c j, fun j => ?_, ?_⟩
    · rw [Nat.add_comm]
      simp only
      split
      · exact hf.mul u0 u1 (h1 i)
      · split
        · exact hg.mul u0 u1 (h1 i)
        · exact (h1 j).mono u0 u1 (by omega)
    · rw [hsum _ (fun j hj => by rw [if_neg (by omega), if_neg (by omega)]), h2]
      simp only [if_true, if_neg (by omega : ¬ i = k), if_pos hik, if_pos (by omega : i < k + 1)]
      rw [heq, hlt i hik, h6]
      simp only [upperTri, if_pos hik.le]
      ring
  · subst hik
    obtain ⟨d, hd, h6⟩ := fl_div (K := K) (x i) (M i i) hM
    refine ⟨fun j => if j = i then d⁻¹ * c i else c j, fun j => ?_, ?_⟩
    · rw [Nat.add_comm]
      simp only
      split
      · exact (hd.inv u0 u1).mul u0 u1 (h1 i)
      · exact (h1 j).mono u0 u1 (by omega)
    · rw [hsum _ (fun j hj => by rw [if_neg (by omega)]), h2]
      simp only [if_true, lt_irrefl, if_false, if_pos (Nat.lt_succ_self i)]
      rw [heq, h6]
      have := (hd.pos u0 u1).ne'
      simp only [upperTri, if_pos (le_refl i)]
      field_simp
      ring
  · refine ⟨c, fun j => (h1 j).mono u0 u1 (by omega), ?_⟩
    rw [hsum c (fun _ _ => rfl), h2]
    simp only [upperTri, if_neg (by omega : ¬ i ≤ k), if_neg (by omega : ¬ i < k), if_neg (by omega : ¬ i < k + 1)]
    ring

theorem backwardSub_fl (n : Nat) (hn : 0 < n) (M : Mat F) (b : Nat → F) (hd : ∀ t, t < n → S.val (M t t) ≠ 0) (i : Nat)
    (hi : i < n) : Back (K := K) n 0 (n + 1) M b (backwardSub n M b) i := by
  unfold backwardSub
  have key := forUp_inv (n := n - 1) (s := b)
    (f := fun d b =>
        let k := n - 1 - d
        let b := upd b k (b k / M k k)
        let bk := b k
        forUp k (fun i b => upd b i (b i - M i k * bk)) b)
    (P := fun d x => ∀ i, i < n → Back (K := K) n (n - d) (d + 1) M b x i)
    (by
      intro i hi
      refine ⟨fun _ => 1, fun _ => .one u0 u1 _, ?_⟩
      rw [sum_eq_zero]
      · simp [hi]
      · intro j hj; rw [mem_range] at hj; rw [if_neg (by omega)])
    (by
      intro d x hd' hx i hi
      dsimp only
      rw [upd_same]
      have hk : n - 1 - d + 1 = n - d := by omega
      generalize hkk : n - 1 - d = k at *
      have hnk : n - (d + 1) = k := by omega
      rw [hnk]
      have hin := backward_inner M k (upd x k (x k / M k k)) (x k / M k k) k
      have h := hx i hi
      rw [← hk] at h
      refine h.step (by omega) (hd k (by omega)) (fun t ht => ?_) ?_ (fun t ht => ?_)
      · rw [hin, if_neg (by omega), upd_ne _ _ (by omega)]
      · rw [hin, if_neg (by omega), upd_same]
      · rw [hin, if_pos ht, upd_ne _ _ (by omega)])
  dsimp only
  generalize forUp (n - 1) (fun d b =>
        let k := n - 1 - d
        let b := upd b k (b k / M k k)
        let bk := b k
        forUp k (fun i b => upd b i (b i - M i k * bk)) b) b = x at *
  have h1 := key i hi
  rw [show n - (n - 1) = 0 + 1 by omega, show n - 1 + 1 = n by omega] at h1
  exact h1.step hn (hd 0 hn) (fun t ht => upd_ne _ _ (by omega)) (upd_same _ _ _) (fun t ht => by omega)

/-- `P A = L U` up to factors close to one. -/
theorem FlInv.factor {n : Nat} {A M : Mat F} {p : Nat → Nat} (h : FlInv n n A M p n) (i : Nat) (hi : i < n) (j : Nat)
    (hj : j < n) : ∃ c : Nat → K, (∀ t, Fac μ (n + 2) (c t)) ∧ S.val (A (rowPerm p n i) j) =
      ∑ t ∈ range n, lowerUnit (fun i j => S.val (M i j)) i t * upperTri (fun i j => S.val (M i j)) t j * c t := by
  -- only the first `min i j + 1` terms are nonzero
  have hcut : ∀ (r : Nat) (c : Nat → K), r < n → (r = i ∨ r = j) → r ≤ i → r ≤ j →
      ∑ t ∈ range n, lowerUnit (fun i j => S.val (M i j)) i t * upperTri (fun i j => S.val (M i j)) t j * c t =
      ∑ t ∈ range (r + 1), lowerUnit (fun i j => S.val (M i j)) i t * upperTri (fun i j => S.val (M i j)) t j * c t := by
    intro r c hr hor h1 h2
    symm
    refine sum_subset (fun t ht => ?_) (fun t ht ht' => ?_)
    · rw [mem_range] at ht ⊢; omega
    · rw [mem_range] at ht ht'
      rcases hor with rfl | rfl
      · simp only [lowerUnit]
        rw [if_neg (by omega), if_neg (by omega)]; ring
      · simp only [upperTri]
        rw [if_neg (by omega)]; ring
  by_cases hji : j < i
  · obtain ⟨c, h1, h2⟩ := h.low j hj i hji hi
    refine ⟨c, fun t => (h1 t).mono u0 u1 (by omega), ?_⟩
    rw [hcut j c hj (Or.inr rfl) hji.le (le_refl _), sum_range_succ, h2]
    congr 1
    · apply sum_congr rfl
      intro t ht
      rw [mem_range] at ht
      simp only [lowerUnit, upperTri]
      rw [if_pos (by omega), if_pos (by omega)]
    · simp only [lowerUnit, upperTri]
      rw [if_pos hji, if_pos (le_refl _)]
  · obtain ⟨c, h1, h2⟩ := h.up i hi j hj (Or.inl (by omega))
    refine ⟨c, fun t => (h1 t).mono u0 u1 (by omega), ?_⟩
    rw [Nat.min_eq_left (by omega : i ≤ n)] at h2
    rw [hcut i c hi (Or.inl rfl) (le_refl _) (by omega), sum_range_succ, h2]
    congr 1
    · apply sum_congr rfl
      intro t ht
      rw [mem_range] at ht
      simp only [lowerUnit, upperTri]
      rw [if_pos (by omega), if_pos (by omega)]
    · simp only [lowerUnit, upperTri]
      rw [if_neg (lt_irrefl _), if_pos (by omega : i ≤ j), if_true, one_mul]

end
end Verif.Proofs
