import Verif.Spec.Smooth
import Verif.Proofs.InterpErr
import Verif.Props.LocalErr
import Verif.RealInst

/-!
# C95: accuracy for smooth solutions

The numbers are an ordered field embedded in the reals by `φ`.
-/

set_option autoImplicit false
set_option linter.unusedSectionVars false
set_option linter.unusedSimpArgs false
set_option linter.unusedVariables false

namespace Verif.Props

open Verif Verif.Spec Verif.Witness Polynomial Finset InterpErr

universe u v

section
variable {ν : Type v} {n q : Nat} {K : Type u} [Field K] [LinearOrder K] [IsStrictOrderedRing K] [ExactParams K] [EpsLaws K]
  (φ : K →+*o ℝ)

theorem emb_lt {φ : K →+*o ℝ} {a b : K} (h : a < b) : φ a < φ b :=
  (OrderHomClass.mono φ).strictMono_of_injective φ.toRingHom.injective h

theorem emb_pos {φ : K →+*o ℝ} {a : K} (h : 0 < a) : 0 < φ a := by
  have := emb_lt (φ := φ) h; rwa [map_zero] at this

theorem emb_nonneg {φ : K →+*o ℝ} {a : K} (h : 0 ≤ a) : 0 ≤ φ a := by
  have := OrderHomClass.mono φ h; rwa [map_zero] at this

theorem timeAt_eq {pts : List (K × Vec n K)} {m : ℕ} (h : m < pts.length) : timeAt pts m = pts[m].1 := by
  unfold timeAt
  rw [List.getD_eq_getElem?_getD, List.getElem?_eq_getElem h]; rfl

/-- Accepted points as nodes of interpolation. -/
theorem nodes {φ : K →+*o ℝ} {k : ℕ} {pts : List (K × Vec n K)} {d : K} (hk : k + 1 ≤ pts.length)
    (hd : pts.Pairwise fun a b => 0 < (a.1 - b.1) * d) : Descend (fun m => φ (timeAt pts m)) (φ d) k := by
  intro i j hij hj
  show 0 < (φ (timeAt pts i) - φ (timeAt pts j)) * φ d
  rw [timeAt_eq (by omega), timeAt_eq (by omega), ← map_sub, ← map_mul]
  exact emb_pos (List.pairwise_iff_getElem.1 hd i j (by omega) (by omega) hij)

theorem mem_take {α : Type*} {l : List α} {k m : ℕ} (hm : m ≤ k) (h : m < l.length) : l[m] ∈ l.take (k + 1) :=
  List.mem_of_getElem? (i := m) (by rw [List.getElem?_take_of_lt (by omega), List.getElem?_eq_getElem h])

theorem eval_emb (φ : K →+*o ℝ) (Q : K[X]) (t : K) : (Q.map (φ : K →+* ℝ)).eval (φ t) = φ (Q.eval t) :=
  eval_map_apply (φ : K →+* ℝ) t

variable {φ}

theorem through_value {k : ℕ} {pts : List (K × Vec n K)} {d : K} (hk : k + 1 ≤ pts.length)
    (hd : pts.Pairwise fun a b => 0 < (a.1 - b.1) * d) {Q : Fin n → K[X]} (hQ : Through k pts Q) {Y : Fin n → ℝ → ℝ} {a b : ℝ}
    {M : Fin n → ℝ} (hY : SmoothBound Y (k + 1) a b M) (hP : Passes φ Y (k + 1) pts) (hW : TimesIn φ a b (k + 1) pts) (t : K)
    (ht : φ t ∈ Set.Icc a b) (i : Fin n) :
    |φ ((Q i).eval t) - Y i (φ t)| ≤ M i / (k + 1).factorial * distProd φ (φ t) k pts := by
  rw [← eval_emb]
  refine value_bound (nodes hk hd) (hY.smooth i) (fun m hm => ?_) _ (natDegree_map_le.trans (hQ.1 i)) (fun m hm => ?_) _ ht (hY.bound i)
  · show φ (timeAt pts m) ∈ _
    rw [timeAt_eq (by omega)]
    exact hW _ (mem_take hm (by omega))
  · show ((Q i).map (φ : K →+* ℝ)).eval (φ (timeAt pts m)) = Y i (φ (timeAt pts m))
    rw [eval_emb, timeAt_eq (by omega), hQ.2 m hm _ (List.getElem?_eq_getElem (by omega)) i]
    exact hP _ (mem_take hm (by omega)) i

theorem through_slope {k : ℕ} {pts : List (K × Vec n K)} {d : K} (h1 : 1 ≤ k) (hk : k + 1 ≤ pts.length)
    (hd : pts.Pairwise fun a b => 0 < (a.1 - b.1) * d) {Q : Fin n → K[X]} (hQ : Through k pts Q) {Y : Fin n → ℝ → ℝ} {a b : ℝ}
    {M : Fin n → ℝ} (hY : SmoothBound Y (k + 1) a b M) (hP : Passes φ Y (k + 1) pts) (hW : TimesIn φ a b (k + 1) pts) (t c : K)
    (hc : φ c ∈ Set.Icc a b) (ht : 0 ≤ (t - timeAt pts 1) * d) (htc : 0 ≤ (c - t) * d) (h0 : 0 ≤ (c - timeAt pts 0) * d)
    (i : Fin n) :
    |φ ((derivative (Q i)).eval t) - deriv (Y i) (φ t)| ≤ M i / k.factorial * distProd1 φ (φ c) k pts := by
  have e : φ ((derivative (Q i)).eval t) = (derivative ((Q i).map (φ : K →+* ℝ))).eval (φ t) := by
    rw [derivative_map, eval_emb]
  rw [e]
  have cast : ∀ x y : K, 0 ≤ (x - y) * d → 0 ≤ (φ x - φ y) * φ d := fun x y h => by
    rw [← map_sub, ← map_mul]; exact emb_nonneg h
  refine slope_bound h1 (nodes hk hd) (hY.smooth i) (fun m hm => ?_) _ (natDegree_map_le.trans (hQ.1 i)) (fun m hm => ?_) _ _ hc
    (cast _ _ ht) (cast _ _ htc) (cast _ _ h0) (hY.bound i)
  · show φ (timeAt pts m) ∈ _
    rw [timeAt_eq (by omega)]
    exact hW _ (mem_take hm (by omega))
  · show ((Q i).map (φ : K →+* ℝ)).eval (φ (timeAt pts m)) = Y i (φ (timeAt pts m))
    rw [eval_emb, timeAt_eq (by omega), hQ.2 m hm _ (List.getElem?_eq_getElem (by omega)) i]
    exact hP _ (mem_take hm (by omega)) i

variable (φ)

/-- **C95, prediction.** History without a failed call before; an attempt of order `k`, not of the first step; a `k + 1` times
continuously differentiable function `Y` through the last `k + 1` accepted points, derivative number `k + 1` bounded by `M`.  The
predicted value differs from `Y` at the new time by at most `M / (k+1)! · |t - t_0| ... |t - t_k|`, the predicted
derivative from that of `Y` by at most `M / k! · |t - t_1| ... |t - t_k|`. -/
theorem c95_prediction (cfg : Cfg ν n q K) (hl : NlsLegal cfg) (hm1 : 1 ≤ cfg.maxord) (hm : 0 ≤ cfg.hmaxInv)
    (rf sf : Nat) (s s' : State ν n q K) (op : Op K) (r : Res n K) (hs : ReachOk cfg s)
    (h : exec cfg rf sf s op = some (s', r)) (x : Att n K) (hx : x ∈ s'.g.atts) (h2 : 2 ≤ x.before.length)
    (Y : Fin n → ℝ → ℝ) (a b : ℝ) (M : Fin n → ℝ) (hY : SmoothBound Y (x.kk + 1) a b M) (hP : Passes φ Y (x.kk + 1) x.before)
    (hW : TimesIn φ a b (x.kk + 1) x.before) (ht : φ x.tnew ∈ Set.Icc a b) (i : Fin n) :
    |φ (x.pred i) - Y i (φ x.tnew)| ≤ M i / (x.kk + 1).factorial * distProd φ (φ x.tnew) x.kk x.before ∧
    |φ (x.predp i) - deriv (Y i) (φ x.tnew)| ≤ M i / x.kk.factorial * distProd1 φ (φ x.tnew) x.kk x.before := by
  have hH := (exec_attHist hl hm1 hm hs h).1 x hx
  obtain ⟨Q, hQ, hp⟩ := hH.extra
  have hk : x.kk + 1 ≤ x.before.length := by rcases hH.enough with h | ⟨h, -⟩ <;> omega
  have h1 := hH.kk
  obtain ⟨y0, r0, hb⟩ := hH.start
  have t0 : timeAt x.before 0 = x.t0 := by rw [hb]; rfl
  have hhsq : 0 ≤ x.hh * x.hh := mul_self_nonneg _
  have t1 : 0 ≤ (x.t0 - timeAt x.before 1) * x.hh := by
    have := List.pairwise_iff_getElem.1 hH.apart 0 1 (by omega) (by omega) (by omega)
    rw [← timeAt_eq (m := 0) (by omega), ← timeAt_eq (m := 1) (by omega), t0] at this
    exact this.le
  rw [(hp i).1, (hp i).2]
  refine ⟨through_value hk hH.apart hQ hY hP hW _ ht i, through_slope h1 hk hH.apart hQ hY hP hW _ _ ht ?_ ?_ ?_ i⟩
  · rw [hH.tnew, show (x.t0 + x.hh - timeAt x.before 1) * x.hh = (x.t0 - timeAt x.before 1) * x.hh + x.hh * x.hh by ring]
    exact add_nonneg t1 hhsq
  · rw [sub_self, zero_mul]
  · rw [t0, hH.tnew, add_sub_cancel_left]; exact hhsq

/-- `1 + 1/2 + ... + 1/k` -/
noncomputable def harmonic (k : ℕ) : ℝ := ∑ m ∈ range k, 1 / ((m : ℝ) + 1)

theorem harmonic_emb (k : ℕ) : φ (harmonicSum K k) = harmonic k := by
  unfold harmonicSum harmonic
  rw [map_sum]
  refine sum_congr rfl fun m _ => ?_
  simp

theorem harmonic_pos {k : ℕ} (h : 1 ≤ k) : 0 < harmonic k :=
  sum_pos (fun m _ => by positivity) ⟨0, mem_range.2 h⟩

/-- **C95, the formula is consistent of order `k`.** In the situation of `c95_prediction`, the formula of the step (which
makes the derivative `predp + cj (y - pred)` for the value `y`) applied to the exact value `Y(t)` yields the exact
derivative up to `M · |t - t_1| ... |t - t_k|` times a constant that depends on `k` only, whatever the ratios of the step sizes.
The leading coefficient is `(1 + 1/2 + ... + 1/k) / h`. -/
theorem c95_consistent (cfg : Cfg ν n q K) (hl : NlsLegal cfg) (hm1 : 1 ≤ cfg.maxord) (hm : 0 ≤ cfg.hmaxInv)
    (rf sf : Nat) (s s' : State ν n q K) (op : Op K) (r : Res n K) (hs : ReachOk cfg s)
    (h : exec cfg rf sf s op = some (s', r)) (x : Att n K) (hx : x ∈ s'.g.atts) (h2 : 2 ≤ x.before.length)
    (Y : Fin n → ℝ → ℝ) (a b : ℝ) (M : Fin n → ℝ) (hY : SmoothBound Y (x.kk + 1) a b M) (hP : Passes φ Y (x.kk + 1) x.before)
    (hW : TimesIn φ a b (x.kk + 1) x.before) (ht : φ x.tnew ∈ Set.Icc a b) :
    φ x.cj = harmonic x.kk / φ x.hh ∧
    (∀ i, x.yp i = x.predp i + x.cj * (x.yy i - x.pred i)) ∧
    ∀ i, |φ (x.predp i) + φ x.cj * (Y i (φ x.tnew) - φ (x.pred i)) - deriv (Y i) (φ x.tnew)| ≤
      (1 / x.kk.factorial + harmonic x.kk / (x.kk + 1).factorial) * (M i * distProd1 φ (φ x.tnew) x.kk x.before) := by
  have hH := (exec_attHist hl hm1 hm hs h).1 x hx
  have hcj : φ x.cj = harmonic x.kk / φ x.hh := by rw [hH.cj, map_div₀, harmonic_emb]
  refine ⟨hcj, fun i => ?_, fun i => ?_⟩
  · rw [hH.yp, hH.yy]
    show x.predp i + x.cj * x.ee i = x.predp i + x.cj * (x.pred i + x.ee i - x.pred i)
    rw [add_sub_cancel_left]
  obtain ⟨h3, h4⟩ := c95_prediction φ cfg hl hm1 hm rf sf s s' op r hs h x hx h2 Y a b M hY hP hW ht i
  obtain ⟨y0, r0, hb⟩ := hH.start
  have t0 : timeAt x.before 0 = x.t0 := by rw [hb]; rfl
  have hh0 : φ x.hh ≠ 0 := by rw [Ne, map_eq_zero]; exact hH.hh
  have hprod : distProd φ (φ x.tnew) x.kk x.before = |φ x.hh| * distProd1 φ (φ x.tnew) x.kk x.before := by
    unfold distProd distProd1
    rw [range_eq_Ico, prod_eq_prod_Ico_succ_bot (by omega), t0, ← map_sub, hH.tnew, add_sub_cancel_left]
  have hcja : |φ x.cj| = harmonic x.kk / |φ x.hh| := by rw [hcj, abs_div, abs_of_pos (harmonic_pos hH.kk)]
  have e : φ (x.predp i) + φ x.cj * (Y i (φ x.tnew) - φ (x.pred i)) - deriv (Y i) (φ x.tnew) =
      (φ (x.predp i) - deriv (Y i) (φ x.tnew)) + φ x.cj * -(φ (x.pred i) - Y i (φ x.tnew)) := by ring
  rw [e]
  refine (abs_add_le _ _).trans ?_
  rw [abs_mul, abs_neg, hcja]
  have habs : (0 : ℝ) < |φ x.hh| := abs_pos.2 hh0
  have h5 : harmonic x.kk / |φ x.hh| * |φ (x.pred i) - Y i (φ x.tnew)| ≤
      harmonic x.kk / |φ x.hh| * (M i / (x.kk + 1).factorial * distProd φ (φ x.tnew) x.kk x.before) :=
    mul_le_mul_of_nonneg_left h3 (div_nonneg (harmonic_pos hH.kk).le habs.le)
  refine (add_le_add h4 h5).trans (le_of_eq ?_)
  rw [hprod]
  field_simp

/-- **C95, local error.** In the same situation let `F` have Lipschitz constant `L` in `y` (maximum norm) at the new time; let the
computed pair satisfy `y' = F(t, y)` up to `ρ`, and `Y` up to `δ` (zero for a solution).  If the step size is less than
`(1 + 1/2 + ... + 1/k) / L`, the error of the step is bounded by
`(ρ + δ + C_k M |t - t_1| ... |t - t_k|) / ((1 + 1/2 + ... + 1/k) / |h| - L)`. -/
theorem c95_local_error (hn : 0 < n) (cfg : Cfg ν n q K) (hl : NlsLegal cfg) (hm1 : 1 ≤ cfg.maxord) (hm : 0 ≤ cfg.hmaxInv)
    (rf sf : Nat) (s s' : State ν n q K) (op : Op K) (r : Res n K) (hs : ReachOk cfg s)
    (h : exec cfg rf sf s op = some (s', r)) (x : Att n K) (hx : x ∈ s'.g.atts) (h2 : 2 ≤ x.before.length)
    (Y : Fin n → ℝ → ℝ) (a b M : ℝ) (hY : SmoothBound Y (x.kk + 1) a b fun _ => M) (hP : Passes φ Y (x.kk + 1) x.before)
    (hW : TimesIn φ a b (x.kk + 1) x.before) (ht : φ x.tnew ∈ Set.Icc a b)
    (F : ℝ → (Fin n → ℝ) → Fin n → ℝ) (L ρ δ : ℝ)
    (hF : ∀ u v : Fin n → ℝ, ‖F (φ x.tnew) u - F (φ x.tnew) v‖ ≤ L * ‖u - v‖)
    (hρ : ∀ i, |φ (x.yp i) - F (φ x.tnew) (fun i => φ (x.yy i)) i| ≤ ρ)
    (hδ : ∀ i, |deriv (Y i) (φ x.tnew) - F (φ x.tnew) (fun i => Y i (φ x.tnew)) i| ≤ δ)
    (hL : L < harmonic x.kk / |φ x.hh|) :
    ‖(fun i => φ (x.yy i) - Y i (φ x.tnew) : Fin n → ℝ)‖ ≤
      (ρ + δ + (1 / x.kk.factorial + harmonic x.kk / (x.kk + 1).factorial) * (M * distProd1 φ (φ x.tnew) x.kk x.before)) /
        (harmonic x.kk / |φ x.hh| - L) := by
  obtain ⟨hcj, hyp, hc⟩ := c95_consistent φ cfg hl hm1 hm rf sf s s' op r hs h x hx h2 Y a b _ hY hP hW ht
  have hH := (exec_attHist hl hm1 hm hs h).1 x hx
  have hcja : |φ x.cj| = harmonic x.kk / |φ x.hh| := by rw [hcj, abs_div, abs_of_pos (harmonic_pos hH.kk)]
  set T := (1 / x.kk.factorial + harmonic x.kk / (x.kk + 1).factorial) * (M * distProd1 φ (φ x.tnew) x.kk x.before) with hT
  set e : Fin n → ℝ := fun i => φ (x.yy i) - Y i (φ x.tnew) with he
  set H := harmonic x.kk / |φ x.hh| with hHdef
  have hH0 : 0 ≤ H := by rw [← hcja]; exact abs_nonneg _
  have comp : ∀ i, H * |e i| ≤ ρ + δ + T + L * ‖e‖ := by
    intro i
    have h1 : φ (x.yp i) = φ (x.predp i) + φ x.cj * (φ (x.yy i) - φ (x.pred i)) := by
      rw [hyp i]; simp
    have h2 : φ x.cj * e i = (φ (x.yp i) - F (φ x.tnew) (fun i => φ (x.yy i)) i) +
        ((F (φ x.tnew) (fun i => φ (x.yy i)) - F (φ x.tnew) (fun i => Y i (φ x.tnew))) i) +
        -(deriv (Y i) (φ x.tnew) - F (φ x.tnew) (fun i => Y i (φ x.tnew)) i) +
        -(φ (x.predp i) + φ x.cj * (Y i (φ x.tnew) - φ (x.pred i)) - deriv (Y i) (φ x.tnew)) := by
      rw [h1, Pi.sub_apply]; simp only [he]; ring
    have h3 := (norm_le_pi_norm (F (φ x.tnew) (fun i => φ (x.yy i)) - F (φ x.tnew) (fun i => Y i (φ x.tnew))) i).trans
      (hF (fun i => φ (x.yy i)) (fun i => Y i (φ x.tnew)))
    rw [Real.norm_eq_abs] at h3
    have h4 : (fun i => φ (x.yy i)) - (fun i => Y i (φ x.tnew)) = e := rfl
    rw [h4] at h3
    rw [← hcja, ← abs_mul, h2]
    refine (abs_add_le _ _).trans ?_
    rw [abs_neg]
    have h5 := hc i
    have h6 := abs_add_le ((φ (x.yp i) - F (φ x.tnew) (fun i => φ (x.yy i)) i) +
        ((F (φ x.tnew) (fun i => φ (x.yy i)) - F (φ x.tnew) (fun i => Y i (φ x.tnew))) i))
        (-(deriv (Y i) (φ x.tnew) - F (φ x.tnew) (fun i => Y i (φ x.tnew)) i))
    have h7 := abs_add_le (φ (x.yp i) - F (φ x.tnew) (fun i => φ (x.yy i)) i)
        ((F (φ x.tnew) (fun i => φ (x.yy i)) - F (φ x.tnew) (fun i => Y i (φ x.tnew))) i)
    rw [abs_neg] at h6
    linarith [hρ i, hδ i]
  rw [le_div_iff₀ (by linarith)]
  haveI : Nonempty (Fin n) := ⟨⟨0, hn⟩⟩
  obtain ⟨i, hi⟩ := Finite.exists_max fun i => |e i|
  have hmax : ‖e‖ = |e i| := by
    refine le_antisymm ((pi_norm_le_iff_of_nonneg (abs_nonneg _)).2 fun j => ?_) ?_
    · rw [Real.norm_eq_abs]; exact hi j
    · have := norm_le_pi_norm e i; rwa [Real.norm_eq_abs] at this
  have := comp i
  rw [← hmax] at this
  linarith

/-- **C95, output.** History without a failed call, at least one step; `k` the order of the last step; a `k + 1` times
continuously differentiable `Y` (the solution of the problem, say), derivative number `k + 1` bounded by `M`, from which the last `k + 1`
accepted points differ by at most `E`.  The value `get_solution(t)` returns differs from `Y(t)` by at most
`M / (k+1)! · |t - t_0| ... |t - t_k|` plus the errors of the points, amplified by interpolation. -/
theorem c95_output (cfg : Cfg ν n q K) (hl : NlsLegal cfg) (hm1 : 1 ≤ cfg.maxord) (hm5 : cfg.maxord ≤ 5)
    (hm : 0 ≤ cfg.hmaxInv) (s : State ν n q K) (hs : ReachOk cfg s) (hn : 0 < getNumSteps s)
    (Y : Fin n → ℝ → ℝ) (a b : ℝ) (M : Fin n → ℝ) (hY : SmoothBound Y (getLastOrder s + 1) a b M)
    (hW : TimesIn φ a b (getLastOrder s + 1) s.g.acc) (E : Fin n → ℕ → ℝ)
    (hE : ∀ m, m ≤ getLastOrder s → ∀ p, s.g.acc[m]? = some p → ∀ i, |φ (p.2 i) - Y i (φ p.1)| ≤ E i m) (t : K)
    (ht : ¬ BeforeLastStep s t) (htab : φ t ∈ Set.Icc a b) :
    ∃ y yp, solutionAt s t = some (y, yp) ∧ ∀ i, |φ (y i) - Y i (φ t)| ≤
      M i / (getLastOrder s + 1).factorial * distProd φ (φ t) (getLastOrder s) s.g.acc +
        ∑ m ∈ range (getLastOrder s + 1), E i m * amplification φ (φ t) (getLastOrder s) s.g.acc m := by
  have hF := hs.full hl hm1 hm
  obtain ⟨hk, Q, hQ, hsol⟩ := dense_of_full hm5 hF hn
  refine ⟨_, _, hsol t ht, fun i => ?_⟩
  show |φ ((Q i).eval t) - Y i (φ t)| ≤ _
  rw [← eval_emb]
  refine perturbed_bound (nodes hk hF.ok.ctl.chain) (hY.smooth i) (fun m hm => ?_) _ (natDegree_map_le.trans (hQ.1 i)) (E i)
    (fun m hm => ?_) _ htab (hY.bound i)
  · show φ (timeAt s.g.acc m) ∈ _
    rw [timeAt_eq (by omega)]
    exact hW _ (mem_take hm (by omega))
  · show |((Q i).map (φ : K →+* ℝ)).eval (φ (timeAt s.g.acc m)) - Y i (φ (timeAt s.g.acc m))| ≤ _
    rw [eval_emb, timeAt_eq (by omega), hQ.2 m hm _ (List.getElem?_eq_getElem (by omega)) i]
    exact hE m hm _ (List.getElem?_eq_getElem (by omega)) i

/-- **C95, derivatives in the output.** If `Y` passes through the points and `t` lies in the last step, the derivative
`get_solution(t)` returns differs from that of `Y` by at most `M / k! · |t_0 - t_1| ... |t_0 - t_k|`. -/
theorem c95_output_derivative (cfg : Cfg ν n q K) (hl : NlsLegal cfg) (hm1 : 1 ≤ cfg.maxord) (hm5 : cfg.maxord ≤ 5)
    (hm : 0 ≤ cfg.hmaxInv) (s : State ν n q K) (hs : ReachOk cfg s) (hn : 0 < getNumSteps s)
    (Y : Fin n → ℝ → ℝ) (a b : ℝ) (M : Fin n → ℝ) (hY : SmoothBound Y (getLastOrder s + 1) a b M)
    (hW : TimesIn φ a b (getLastOrder s + 1) s.g.acc) (hP : Passes φ Y (getLastOrder s + 1) s.g.acc) (t : K)
    (h1 : 0 ≤ (t - (getCurrentTime s - getLastStep s)) * getLastStep s)
    (h2 : 0 ≤ (getCurrentTime s - t) * getLastStep s) :
    ∃ y yp, solutionAt s t = some (y, yp) ∧ ∀ i, |φ (yp i) - deriv (Y i) (φ t)| ≤
      M i / (getLastOrder s).factorial * distProd1 φ (φ (getCurrentTime s)) (getLastOrder s) s.g.acc := by
  have hF := hs.full hl hm1 hm
  have hn0 : 0 < s.cnt.nst := hn
  obtain ⟨x, l, e1, e2, e3, e4, -, -⟩ := hF.ok.trace.last hn0
  have hacc := newest_accepted hs.reach x l e1 e2
  have hH := hF.hist.atts x (by rw [e1]; exact List.mem_cons_self ..)
  obtain ⟨y0, r, hr⟩ := hF.ok.ctl.last hn0
  have htn : x.tnew = s.e.tn := by rw [hacc] at hr; simp only [List.cons.injEq, Prod.mk.injEq] at hr; exact hr.1.1
  obtain ⟨y1, r1, hb⟩ := hH.start
  have t0 : timeAt s.g.acc 0 = s.e.tn := by rw [hacc, ← htn]; rfl
  have t1 : timeAt s.g.acc 1 = s.e.tn - s.c.hused := by
    rw [hacc, hb, ← htn, ← e3, hH.tnew, add_sub_cancel_right]; rfl
  have hu := hF.ok.ctl.used hn0
  have hsq : 0 < s.c.hused * s.c.hused := mul_self_pos.2 (by intro h0; rw [h0] at hu; simp at hu)
  have conv : ∀ z : K, 0 ≤ z * s.c.hused → 0 ≤ z * s.c.hh := by
    intro z hz
    by_contra hneg
    push Not at hneg
    have a1 : z * s.c.hh * (s.c.hused * s.c.hused) < 0 := mul_neg_of_neg_of_pos hneg hsq
    have a2 : 0 ≤ (z * s.c.hused) * (s.c.hh * s.c.hused) := mul_nonneg hz hu.le
    linarith
  obtain ⟨hk, Q, hQ, hsol⟩ := dense_of_full hm5 hF hn
  refine ⟨_, _, hsol t (not_before_of (conv _ h1)), fun i => ?_⟩
  have hk1 : 1 ≤ s.c.kused := by rw [← e4]; exact hH.kk
  have hc : φ (getCurrentTime s) ∈ Set.Icc a b := by
    have := hW _ (mem_take (Nat.zero_le _) (by omega : 0 < s.g.acc.length))
    rw [← timeAt_eq (by omega), t0] at this
    exact this
  refine through_slope hk1 hk hF.ok.ctl.chain hQ hY hP hW t (getCurrentTime s) hc ?_ (conv _ h2) ?_ i
  · rw [t1]; exact conv _ h1
  · rw [t0]; show 0 ≤ (s.e.tn - s.e.tn) * _; rw [sub_self, zero_mul]

end

/-! ## Witness -/

/-- `y' = 2 t`. -/
def slope2t : Problem 1 0 ℚ where
  res t _ yp _ := fun i => yp i - 2 * t
  jac _ cj _ _ _ m := upd2 m 0 0 cj
  root _ _ _ b := b

def slope2tCfg : Cfg (Newton (Vec 1 ℚ)) 1 0 ℚ := Cfg.newton slope2t (.ss (1 / 100) (1 / 100)) 3

/-- The rationals in the reals. -/
noncomputable def ratEmb : ℚ →+*o ℝ := { Rat.castHom ℝ with monotone' := fun _ _ h => Rat.cast_le.2 h }

theorem ratEmb_apply (x : ℚ) : ratEmb x = (x : ℝ) := rfl

/-- `u² + u / 1000`. -/
noncomputable def slope2tY : Fin 1 → ℝ → ℝ := fun _ u => (X ^ 2 + C (1 / 1000) * X : ℝ[X]).eval u

theorem slope2tY_bound : SmoothBound slope2tY 2 0 1 fun _ => 2 := by
  refine ⟨fun i => contDiff_poly _ _, fun i ξ _ => ?_⟩
  unfold slope2tY
  rw [iteratedDeriv_poly]
  simp
  norm_num

theorem slope2tY_apply (i : Fin 1) (u : ℝ) : slope2tY i u = u ^ 2 + 1 / 1000 * u := by simp [slope2tY]

theorem slope2tY_deriv (i : Fin 1) (u : ℝ) : deriv (slope2tY i) u = 2 * u + 1 / 1000 := by
  unfold slope2tY
  rw [Polynomial.deriv]
  simp
  norm_num

/-- The hypotheses of `c95_prediction`, `c95_consistent` and `c95_local_error` hold for the second step of order one of the problem
`y' = 2 t`, with the function `u² + u / 1000` through the two accepted points, `L = 0`, `ρ = 0`, `δ = 1 / 1000` and `M = 2`; those of
`c95_output` and `c95_output_derivative` hold before that step. -/
example : ∃ (s s' : State (Newton (Vec 1 ℚ)) 1 0 ℚ) (r : Res 1 ℚ) (x : Att 1 ℚ),
    ReachOk slope2tCfg s ∧ exec slope2tCfg 10 100 s (.solve 1 0 .oneStep) = some (s', r) ∧ x ∈ s'.g.atts ∧ 2 ≤ x.before.length ∧
    x.kk = 1 ∧ SmoothBound slope2tY (x.kk + 1) 0 1 (fun _ => 2) ∧ Passes ratEmb slope2tY (x.kk + 1) x.before ∧
    TimesIn ratEmb 0 1 (x.kk + 1) x.before ∧ ratEmb x.tnew ∈ Set.Icc (0 : ℝ) 1 ∧
    (∀ i, |ratEmb (x.yp i) - 2 * ratEmb x.tnew| ≤ 0) ∧
    (∀ i, |deriv (slope2tY i) (ratEmb x.tnew) - 2 * ratEmb x.tnew| ≤ 1 / 1000) ∧ 0 < harmonic x.kk / |ratEmb x.hh| ∧
    0 < getNumSteps s ∧ getLastOrder s = 1 ∧ s.g.acc = x.before ∧ getCurrentTime s = 1 / 1000 ∧ getLastStep s = 1 / 1000 := by
  have hd : ((run slope2tCfg 10 100 [.solve 1 0 .oneStep] (State.new newton0 (fun _ => 0) (fun _ => 0))).map fun p =>
      !p.2.any Res.stepFailed && decide (0 < getNumSteps p.1) && decide (getLastOrder p.1 = 1) &&
      decide (getCurrentTime p.1 = (1 / 1000 : ℚ)) && decide (getLastStep p.1 = (1 / 1000 : ℚ)) && decide (p.1.g.acc.length = 2) &&
      match exec slope2tCfg 10 100 p.1 (.solve 1 0 .oneStep) with
        | none => false
        | some (s', r) => s'.g.atts.any fun x => decide (x.kk = 1) && decide (x.before = p.1.g.acc) &&
          decide (x.before.map (fun p => (p.1, p.2 0)) = [(1 / 1000, 1 / 500000), (0, 0)]) && decide (x.hh = 1 / 1000) &&
          decide (x.tnew = 1 / 500) && decide (x.yp 0 = 1 / 250)) = some true := by
    decide +kernel
  obtain ⟨s, l, hr, hp⟩ := run_witness (P := fun (s : State (Newton (Vec 1 ℚ)) 1 0 ℚ) l =>
      !l.any Res.stepFailed && decide (0 < getNumSteps s) && decide (getLastOrder s = 1) &&
      decide (getCurrentTime s = (1 / 1000 : ℚ)) && decide (getLastStep s = (1 / 1000 : ℚ)) && decide (s.g.acc.length = 2) &&
      match exec slope2tCfg 10 100 s (.solve 1 0 .oneStep) with
        | none => false
        | some (s', r) => s'.g.atts.any fun x => decide (x.kk = 1) && decide (x.before = s.g.acc) &&
          decide (x.before.map (fun p => (p.1, p.2 0)) = [(1 / 1000, 1 / 500000), (0, 0)]) && decide (x.hh = 1 / 1000) &&
          decide (x.tnew = 1 / 500) && decide (x.yp 0 = 1 / 250)) hd
  simp only [Bool.and_eq_true, Bool.not_eq_true', decide_eq_true_eq] at hp
  obtain ⟨⟨⟨⟨⟨⟨h1, h2⟩, h3⟩, h4⟩, h5⟩, h6⟩, hp⟩ := hp
  have hs : ReachOk slope2tCfg s := run_reachOk _ (.new newton0 (fun _ => 0) (fun _ => 0) none) hr h1
  cases he : exec slope2tCfg 10 100 s (.solve 1 0 .oneStep) with
  | none => rw [he] at hp; cases hp
  | some v =>
    obtain ⟨s', r⟩ := v
    rw [he] at hp
    simp only [List.any_eq_true, Bool.and_eq_true, decide_eq_true_eq] at hp
    obtain ⟨x, hx, ⟨⟨⟨⟨g1, g2⟩, g3⟩, g4⟩, g5⟩, g6⟩ := hp
    have hlen : x.before.length = 2 := by rw [g2, h6]
    have hpt : ∀ p ∈ x.before, (p.1, p.2 0) = ((1 / 1000 : ℚ), (1 / 500000 : ℚ)) ∨ (p.1, p.2 0) = (0, 0) := by
      intro p hp
      have : (p.1, p.2 0) ∈ x.before.map (fun p => (p.1, p.2 0)) := List.mem_map.2 ⟨p, hp, rfl⟩
      rw [g3] at this
      simpa using this
    refine ⟨s, s', r, x, hs, he, hx, by omega, g1, by rw [g1]; exact slope2tY_bound, fun p hp i => ?_, fun p hp => ?_, ?_, ?_, ?_, ?_,
      h2, h3, g2.symm, h4, h5⟩
    · rw [Subsingleton.elim i 0, slope2tY_apply]
      rcases hpt p (List.mem_of_mem_take hp) with h | h <;> simp only [Prod.mk.injEq] at h <;> rw [h.1, h.2] <;>
        simp only [ratEmb_apply] <;> norm_num
    · rcases hpt p (List.mem_of_mem_take hp) with h | h <;> simp only [Prod.mk.injEq] at h <;> rw [h.1] <;>
        simp only [ratEmb_apply, Set.mem_Icc] <;> norm_num
    · rw [g5, ratEmb_apply, Set.mem_Icc]; norm_num
    · intro i
      rw [Subsingleton.elim i 0, g5, g6, ratEmb_apply, ratEmb_apply]; norm_num
    · intro i
      rw [slope2tY_deriv, g5, ratEmb_apply]; norm_num [abs_le]
    · rw [g1, g4, ratEmb_apply]; norm_num [harmonic]

end Verif.Props
