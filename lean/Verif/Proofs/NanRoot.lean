import Verif.Proofs.FlRoot
import Verif.Proofs.Outcome
import Verif.Spec.Nan

/-! # NaN values of the root function -/

set_option autoImplicit false
set_option linter.unusedSectionVars false
set_option linter.unusedSimpArgs false
set_option linter.unusedVariables false

namespace Verif.NanRoot

open Verif Verif.Spec Verif.Props

universe u v w

section
variable {ν : Type w} {n q : Nat} {K : Type u} [Scalar K] [NanLaws K]

local notation "isNaN" => (NanLaws.nan (K := K))

/-! ## What the tests reveal -/

theorem mul_neg_nan {a b : K} (h : Scalar.lt (a * b) 0 = true) : ¬ isNaN a ∧ ¬ isNaN b := by
  constructor
  · intro hn
    rw [NanLaws.lt _ _ (Or.inl (NanLaws.mul_left _ _ hn))] at h; cases h
  · intro hn
    rw [NanLaws.lt _ _ (Or.inl (NanLaws.mul_right _ _ hn))] at h; cases h

theorem eqz_nan {a : K} (h : Scalar.eqb (Scalar.abs a) 0 = true) : ¬ isNaN a := by
  intro hn
  rw [NanLaws.eqb _ _ (Or.inl (NanLaws.abs _ hn))] at h; cases h

/-- A scan finds something only in a component that is not NaN. -/
def NScan (glo g : Vec q K) (im : Nat) (a : Scan K) : Prop :=
  (a.zroot = true → ∃ i, ¬ isNaN (g i)) ∧
  (a.sgnchg = true → ∃ h : a.imax < q, ¬ isNaN (g ⟨a.imax, h⟩) ∧ ¬ isNaN (glo ⟨a.imax, h⟩)) ∧
  (a.sgnchg = false → a.imax = im)

theorem scanSign_nan {cfg : Cfg ν n q K} {glo g : Vec q K} {im : Nat} {a : Scan K} {i : Fin q} (h : NScan glo g im a) :
    NScan glo g im (scanSign cfg glo g a i) := by
  unfold scanSign
  split
  · rename_i hx
    rw [Bool.and_eq_true] at hx
    obtain ⟨h1, h2⟩ := mul_neg_nan hx.1
    simp only
    split
    · exact ⟨fun hz => h.1 hz, fun _ => ⟨i.isLt, h2, h1⟩, fun hc => by cases hc⟩
    · exact h
  · exact h

theorem NScan.zero {glo g : Vec q K} {im : Nat} {a : Scan K} {i : Fin q} (h : NScan glo g im a) (hn : ¬ isNaN (g i)) :
    NScan glo g im { a with zroot := true } := ⟨fun _ => ⟨i, hn⟩, h.2.1, h.2.2⟩

theorem scan1_nan (cfg : Cfg ν n q K) (act : Fin q → Bool) (glo g : Vec q K) :
    NScan glo g 0 (scan1 cfg act glo g) := by
  unfold scan1
  refine fold_rule _ _ (fun k a => NScan glo g 0 a) ⟨by simp, by simp, by simp⟩ ?_
  intro a i h
  split
  · split
    · rename_i hz
      split
      · exact h.zero (eqz_nan hz)
      · exact h
    · exact scanSign_nan h
  · exact h

theorem scan2_nan (cfg : Cfg ν n q K) (act : Fin q → Bool) (glo g : Vec q K) (im : Nat) :
    NScan glo g im (scan2 cfg act glo g im) := by
  unfold scan2
  refine fold_rule _ _ (fun k a => NScan glo g im a) ⟨by simp, by simp, by simp⟩ ?_
  intro a i h
  split
  · split
    · rename_i hz
      rw [Bool.and_eq_true] at hz
      exact h.zero (eqz_nan hz.1)
    · exact scanSign_nan h
  · exact h

/-- A vector of NaNs: nothing is found. -/
theorem scan2_allNan (cfg : Cfg ν n q K) (act : Fin q → Bool) {glo g : Vec q K} (im : Nat) (h : ∀ i, isNaN (g i)) :
    (scan2 cfg act glo g im).zroot = false ∧ (scan2 cfg act glo g im).sgnchg = false ∧
      (scan2 cfg act glo g im).imax = im := by
  have hs := scan2_nan cfg act glo g im
  have h1 : (scan2 cfg act glo g im).zroot = false := by
    by_contra hc
    obtain ⟨i, hi⟩ := hs.1 (by simpa using hc)
    exact hi (h i)
  have h2 : (scan2 cfg act glo g im).sgnchg = false := by
    by_contra hc
    obtain ⟨_, hi, -⟩ := hs.2.1 (by simpa using hc)
    exact hi (h _)
  exact ⟨h1, h2, hs.2.2 h2⟩

/-! ## A reported root is not a NaN -/

/-- The upper end of the bracket of a search that started with the log of `s0`. -/
structure NHi (cfg : Cfg ν n q K) (s : State ν n q K) : Prop where
  seen : ∀ i, SeenAt cfg s s.r.thi i (s.r.ghi i)
  num : ∃ i, ¬ isNaN (s.r.ghi i)

theorem rootPass_nan {cfg : Cfg ν n q K} {s : State ν n q K} {l : RfLoc K} (h : NHi cfg s) :
    (∀ s', rootPass cfg s l = .stop s' → NHi cfg s') ∧ (∀ s' l', rootPass cfg s l = .more s' l' → NHi cfg s') := by
  unfold rootPass callRoot
  by_cases hi : l.imax < q
  · rw [dif_pos hi]
    simp only
    generalize trialPoint s.r.thi s.r.tlo s.r.ttol (s.r.ghi ⟨l.imax, hi⟩) (s.r.glo ⟨l.imax, hi⟩) (nextAlph l) = tmid
    cases hg : getSolution' s tmid with
    | none => simp
    | some s1 =>
      simp only
      obtain ⟨hf1, yy, yp, e1⟩ := getSolution'_frame hg
      have hlog : s1.m.log = s.m.log := by rw [e1]
      have hr : s1.r = s.r := by rw [e1]
      have hseen : ∀ s' : State ν n q K, s'.m.log = .root tmid s1.m.yy s1.m.yp :: s1.m.log → ∀ i,
          SeenAt cfg s' tmid i (cfg.prob.root tmid s1.m.yy s1.m.yp s1.r.grout i) :=
        fun s' hl i => ⟨_, _, _, by rw [hl]; exact List.mem_cons_self, rfl⟩
      set g := cfg.prob.root tmid s1.m.yy s1.m.yp s1.r.grout with hgdef
      clear_value g
      have sp := scan2_nan cfg s1.r.gactive s1.r.glo g l.imax
      generalize scan2 cfg s1.r.gactive s1.r.glo g l.imax = A at sp
      have upper : (∃ i, ¬ isNaN (g i)) → NHi cfg (upperEndF s1 tmid g) := fun hn => ⟨fun i => hseen _ rfl i, hn⟩
      have lower : NHi cfg (lowerEndF s1 tmid g) := by
        refine ⟨?_, ?_⟩
        · show ∀ i, SeenAt cfg _ s1.r.thi i (s1.r.ghi i)
          rw [hr]
          exact fun i => (h.seen i).mono (fun c hc => by
            show c ∈ _ :: s1.m.log
            rw [hlog]; exact List.mem_cons_of_mem _ hc)
        · show ∃ i, ¬ isNaN (s1.r.ghi i)
          rw [hr]; exact h.num
      unfold rootNarrow
      simp only
      by_cases hsg : A.sgnchg = true
      · obtain ⟨hA, hn, -⟩ := sp.2.1 hsg
        have u := upper ⟨_, hn⟩
        simp only [hsg, if_true]
        split
        · exact ⟨fun s' he => (by cases he; exact u), fun s' l' he => by cases he⟩
        · exact ⟨fun s' he => (by cases he), fun s' l' he => by cases he; exact u⟩
      · have hsg : A.sgnchg = false := by simpa using hsg
        simp only [hsg, Bool.false_eq_true, if_false]
        by_cases hz : A.zroot = true
        · have u := upper (sp.1 hz)
          simp only [hz, if_true]
          exact ⟨fun s' he => (by cases he; exact u), fun s' l' he => by cases he⟩
        · have hz : A.zroot = false := by simpa using hz
          simp only [hz, Bool.false_eq_true, if_false]
          split
          · exact ⟨fun s' he => (by cases he; exact lower), fun s' l' he => by cases he⟩
          · exact ⟨fun s' he => (by cases he), fun s' l' he => by cases he; exact lower⟩
  · rw [dif_neg hi]; simp

theorem rootLoop_nan {cfg : Cfg ν n q K} : ∀ (fuel : Nat) {s : State ν n q K} {l : RfLoc K}, NHi cfg s → ∀ {s' r},
    rootLoop cfg fuel s l = .ret s' r → NHi cfg s'
  | 0, s, l, h, s', r, he => by cases he
  | fuel + 1, s, l, h, s', r, he => by
    unfold rootLoop at he
    split at he
    · cases he; exact h
    · have hp := rootPass_nan (l := l) h
      split at he
      · cases he
      · rename_i s1 e1
        cases he; exact hp.1 _ e1
      · rename_i s1 l1 e1
        exact rootLoop_nan fuel (hp.2 _ _ e1) he

/-- A search that finds a root has seen numbers, not only NaNs, at the time that it reports; it flags no NaN. -/
theorem rCheck3_nan {cfg : Cfg ν n q K} {rf : Nat} {s s' : State ν n q K} (h : rCheck3 cfg rf s = .ret s' (.ok .rootFound)) :
    ∃ g : Vec q K, (∀ i, SeenAt cfg s' s'.r.tlo i (g i)) ∧ (∃ i, ¬ isNaN (g i)) ∧ ∀ i, isNaN (g i) → s'.r.iroots i = 0 := by
  unfold rCheck3 callRoot at h
  simp only at h
  split at h
  · cases h
  · rename_i s1 e1
    set g := cfg.prob.root s1.r.thi s1.m.yy s1.m.yp s1.r.ghi with hgdef
    generalize hs2 : ({ s1 with m.log := .root s1.r.thi s1.m.yy s1.m.yp :: s1.m.log, r.ghi := g, r.nge := s1.r.nge + 1, r.ttol := rootTol { s1 with m.log := .root s1.r.thi s1.m.yy s1.m.yp :: s1.m.log } } : State ν n q K) = s2 at h
    have seen2 : ∀ i, SeenAt cfg s2 s2.r.thi i (s2.r.ghi i) := by
      intro i
      rw [← hs2]
      exact ⟨s1.m.yy, s1.m.yp, s1.r.ghi, List.mem_cons_self, rfl⟩
    have key : ∀ s3 r, rootFind cfg rf s2 = .ret s3 (.ok r) → r = .rootFound →
        ∃ g : Vec q K, (∀ i, SeenAt cfg s3 s3.r.trout i (g i)) ∧ (∃ i, ¬ isNaN (g i)) ∧ ∀ i, isNaN (g i) → s3.r.iroots i = 0 := by
      intro s3 r he hr
      have sp := scan1_nan cfg s2.r.gactive s2.r.glo s2.r.ghi
      unfold rootFind at he
      simp only at he
      split at he
      · split at he
        · cases he; cases hr
        · rename_i hz
          have hz : (scan1 cfg s2.r.gactive s2.r.glo s2.r.ghi).zroot = true := by simpa using hz
          cases he
          refine ⟨s2.r.ghi, fun i => seen2 i, sp.1 hz, fun i hn => ?_⟩
          refine if_neg ?_
          rw [Bool.and_eq_true, Bool.and_eq_true]
          exact fun hc => eqz_nan hc.2.1 hn
      · rename_i hsg
        obtain ⟨hA, hn, -⟩ := sp.2.1 (by simpa using hsg)
        cases hl : rootLoop cfg rf s2 { alph := 1, side := 0, sideprev := -1, imax := (scan1 cfg s2.r.gactive s2.r.glo s2.r.ghi).imax } with
        | panic => rw [hl] at he; cases he
        | diverge => rw [hl] at he; cases he
        | ret s4 r4 =>
          rw [hl] at he
          have hh := rootLoop_nan rf ⟨seen2, ⟨_, hn⟩⟩ hl
          cases r4 with
          | error e => cases he
          | ok _ =>
            cases he
            refine ⟨s4.r.ghi, fun i => hh.seen i, hh.num, fun i hn => ?_⟩
            refine if_neg ?_
            rw [Bool.and_eq_true, Bool.and_eq_true, Bool.or_eq_true]
            rintro ⟨-, -, hc | hc⟩
            · exact eqz_nan hc hn
            · exact (mul_neg_nan hc).2 hn
    cases hrf : rootFind cfg rf s2 with
    | panic => rw [hrf] at h; cases h
    | diverge => rw [hrf] at h; cases h
    | ret s3 r3 =>
      rw [hrf] at h
      cases r3 with
      | error e => cases h
      | ok r =>
        simp only [Out.bind] at h
        split at h
        · rename_i hr
          split at h
          · cases h
          · rename_i s5 e5
            obtain ⟨g', h1, h2, h3⟩ := key s3 r hrf hr
            cases h
            obtain ⟨hf, yy, yp, e6⟩ := getSolution'_frame e5
            refine ⟨g', fun i => ?_, h2, fun i hn => ?_⟩
            · rw [e6]; exact h1 i
            · rw [e6]; exact h3 i hn
        · rename_i hr
          cases h
          exact absurd rfl hr

/-- The second fold of `r_check2` sets `zroot` only for a zero. -/
theorem r2Fold_zero (act : Fin q → Bool) (ghi iroots glo : Vec q K) :
    (r2Fold act ghi iroots glo).zroot = true → ∃ i, Scalar.eqb (Scalar.abs (ghi i)) 0 = true := by
  unfold r2Fold
  refine fold_rule _ _ (fun k (a : R2Fold q K) => a.zroot = true → ∃ i, Scalar.eqb (Scalar.abs (ghi i)) 0 = true) (by simp) ?_
  intro a i h
  split
  · exact h
  · split
    · split
      · rename_i hz
        split
        · exact h
        · exact fun _ => ⟨i, hz⟩
      · split
        · exact h
        · exact h
    · exact h

/-- A root found right behind the last one: a zero, hence a number, was seen. -/
theorem rCheck2_nan {cfg : Cfg ν n q K} {s s' : State ν n q K} (h : rCheck2 cfg s = .ret s' (.ok .rootFound)) :
    ∃ (t : K) (i : Fin q) (x : K), SeenAt cfg s' t i x ∧ Scalar.eqb (Scalar.abs x) 0 = true := by
  unfold rCheck2 callRoot at h
  split at h
  · cases h
  · split at h
    · cases h
    · simp only at h
      split at h
      · split at h
        · cases h
        · rename_i s2 e2
          split at h
          · cases h
          · split at h
            · rename_i hz
              cases h
              obtain ⟨i, hi⟩ := r2Fold_zero _ _ _ _ hz
              exact ⟨_, i, _, ⟨_, _, _, List.mem_cons_self, rfl⟩, hi⟩
            · cases h
      · cases h

/-! ## Calls -/

theorem stop1_notRoot {s s' : State ν n q K} {tout : K} {task : Task} : stopTest1 s tout task ≠ .ret s' (.ok .root) := by
  intro h
  have := stopTest1_cases h
  generalize hr : (Except.ok Status.root : Except Err Status) = r at this
  cases this <;> cases hr

theorem stop2_notRoot {s s' : State ν n q K} {tout : K} {task : Task} : stopTest2 s tout task ≠ .ret s' (.ok .root) := by
  intro h
  have := stopTest2_cases h
  generalize hr : (Except.ok Status.root : Except Err Status) = r at this
  cases this <;> cases hr

theorem preStep_notRoot {cfg : Cfg ν n q K} {s s' : State ν n q K} {k : Nat} : preStep cfg s k ≠ .ret s' (.ok .root) := by
  intro h
  have := preStep_cases cfg s k
  rw [h] at this
  cases this

theorem stepFailed_notRoot {s s' : State ν n q K} {e : Err} : stepFailed s e ≠ .ret s' (.ok .root) := by
  intro h
  unfold stepFailed at h
  split at h <;> cases h

/-- What a call that returns `Root` has seen. -/
theorem solve_root {cfg : Cfg ν n q K} {rf sf : Nat} {s s' : State ν n q K} {tout : K} {task : Task}
    (h : solve cfg rf sf s tout task = .ret s' (.ok .root)) :
    (s.r.irfnd = true ∧ ∃ (t : K) (i : Fin q) (x : K), SeenAt cfg s' t i x ∧ Scalar.eqb (Scalar.abs x) 0 = true) ∨
    ∃ g : Vec q K, (∀ i, SeenAt cfg s' s'.tret i (g i)) ∧ (∃ i, ¬ isNaN (g i)) ∧ ∀ i, isNaN (g i) → s'.r.iroots i = 0 := by
  cases solve_outcome h with
  | rejected e h0 h1 h2 => cases h2
  | early h0 h1 =>
    cases h1 with
    | close e hq h2 hr => cases hr
    | root2 s1 hq h2 hs hr =>
      left
      subst hs
      refine ⟨?_, ?_⟩
      · by_contra hc
        have hc : (perfReset (begun s tout task)).r.irfnd = false := by
          show (begun s tout task).r.irfnd = false
          have : (begun s tout task).r.irfnd = s.r.irfnd := by unfold begun; split <;> rfl
          rw [this]; simpa using hc
        unfold rCheck2 at h2
        rw [if_pos hc] at h2
        cases h2
      · have := rCheck2_nan h2
        exact this
    | root3 s1 s2 hq h2 hf h3 hs hr =>
      right
      subst hs
      have := rCheck3_nan h3
      exact this
    | pending s1 s2 hq ht h2 hf h3 hg hr => cases hr
    | stop s1 h2 h3 h4 => exact absurd h3 stop1_notRoot
  | loop p k hI hp =>
    cases hp with
    | pre h1 => exact absurd h1 preStep_notRoot
    | failed s1 s2 e h1 h2 h3 => exact absurd h3 stepFailed_notRoot
    | post s1 s2 h1 h2 h3 =>
      cases h3 with
      | root s3 hq h4 hs hr =>
        right
        subst hs
        have := rCheck3_nan h4
        exact this
      | stop s3 h4 h5 h6 => exact absurd h5 stop2_notRoot

/-! ## A search that never ends -/

theorem trialPoint_nan {thi tlo tol ghi glo a : K} (h : isNaN glo) : isNaN (trialPoint thi tlo tol ghi glo a) := by
  have hn : isNaN (thi - (thi - tlo) * ghi / (ghi - a * glo)) :=
    NanLaws.sub_right _ _ (NanLaws.div_right _ _ (NanLaws.sub_right _ _ (NanLaws.mul_right _ _ h)))
  unfold trialPoint
  simp only
  generalize thi - (thi - tlo) * ghi / (ghi - a * glo) = x at hn
  have h1 : Scalar.lt (Scalar.abs (x - tlo)) (Scalar.half * tol) = false :=
    NanLaws.lt _ _ (Or.inl (NanLaws.abs _ (NanLaws.sub_left _ _ hn)))
  have h2 : Scalar.lt (Scalar.abs (thi - x)) (Scalar.half * tol) = false :=
    NanLaws.lt _ _ (Or.inl (NanLaws.abs _ (NanLaws.sub_right _ _ hn)))
  rw [h1]
  simp only [Bool.false_eq_true, if_false]
  rw [h2]
  simpa using hn

/-- Once component `imax` is NaN at the lower end of the bracket the loop does not end. -/
theorem rootLoop_hangs {cfg : Cfg ν n q K} (hnan : ∀ t v vp b, isNaN t → ∀ i, isNaN (cfg.prob.root t v vp b i)) :
    ∀ (fuel : Nat) {s : State ν n q K} {l : RfLoc K}, (∃ h : l.imax < q, isNaN (s.r.glo ⟨l.imax, h⟩)) →
      bracketSmall s.r = false → ∀ s' r, rootLoop cfg fuel s l ≠ .ret s' r
  | 0, s, l, _, _, s', r => by intro h; cases h
  | fuel + 1, s, l, ⟨hi, hg⟩, hb, s', r => by
    unfold rootLoop
    rw [hb]
    simp only [Bool.false_eq_true, if_false]
    unfold rootPass callRoot
    rw [dif_pos hi]
    simp only
    have ht := trialPoint_nan (thi := s.r.thi) (tlo := s.r.tlo) (tol := s.r.ttol) (ghi := s.r.ghi ⟨l.imax, hi⟩)
      (a := nextAlph l) hg
    generalize trialPoint s.r.thi s.r.tlo s.r.ttol (s.r.ghi ⟨l.imax, hi⟩) (s.r.glo ⟨l.imax, hi⟩) (nextAlph l) = tmid at ht
    cases he : getSolution' s tmid with
    | none => simp
    | some s1 =>
      simp only
      have hn := hnan tmid s1.m.yy s1.m.yp s1.r.grout ht
      generalize cfg.prob.root tmid s1.m.yy s1.m.yp s1.r.grout = g at hn
      obtain ⟨h1, h2, h3⟩ := scan2_allNan cfg s1.r.gactive (glo := s1.r.glo) l.imax hn
      unfold rootNarrow
      simp only
      rw [h1, h2, h3]
      simp only [Bool.false_eq_true, if_false]
      have hs : bracketSmall { s1.r with grout := g, nge := s1.r.nge + 1, tlo := tmid, glo := g } = false :=
        NanLaws.le _ _ (Or.inl (NanLaws.abs _ (NanLaws.sub_right _ _ ht)))
      split
      · rename_i hx
        split at hx <;> cases hx
      · rename_i hx
        split at hx
        · rename_i hc; exact absurd (hs.symm.trans hc) (by decide)
        · cases hx
      · rename_i hx
        split at hx
        · cases hx
        · cases hx
          exact rootLoop_hangs hnan fuel (s := lowerEndF s1 tmid g)
            (l := { alph := nextAlph l, side := 2, sideprev := l.side, imax := l.imax }) ⟨hi, hn _⟩ hs s' r

/-- A search whose first trial point yields NaN does not end, if the bracket that remains is not small.  The root function
depends on the time only. -/
theorem rCheck3_hangs {cfg : Cfg ν n q K} {g : K → Vec q K} (hg : ∀ t v vp b, cfg.prob.root t v vp b = g t)
    (hnan : ∀ t, isNaN t → ∀ i, isNaN (g t i)) {s : State ν n q K}
    (hs : (scan1 cfg s.r.gactive s.r.glo (g (searchEnd s))).sgnchg = true)
    (i : Fin q) (hi : (scan1 cfg s.r.gactive s.r.glo (g (searchEnd s))).imax = i.val)
    (hb : Scalar.le (Scalar.abs (searchEnd s - s.r.tlo)) (rootTol s) = false)
    (tm : K) (htm : tm = trialPoint (searchEnd s) s.r.tlo (rootTol s) (g (searchEnd s) i) (s.r.glo i) 1)
    (hn : ∀ i, isNaN (g tm i)) (hc : Scalar.le (Scalar.abs (searchEnd s - tm)) (rootTol s) = false) :
    ∀ rf s' r, rCheck3 cfg rf s ≠ .ret s' r := by
  intro rf s' r h
  unfold rCheck3 callRoot at h
  simp only at h
  split at h
  · cases h
  · rename_i s1 e1
    obtain ⟨hf, yy, yp, e2⟩ := getSolution'_frame e1
    have ee : s1.e = s.e := by rw [e2]
    have ec : s1.c = s.c := by rw [e2]
    have er : s1.r = { s.r with thi := searchEnd s } := by rw [e2]
    have et : s1.r.thi = searchEnd s := by rw [er]
    rw [hg, et] at h
    generalize searchEnd s = T at *
    have etol : rootTol { s1 with m.log := .root T s1.m.yy s1.m.yp :: s1.m.log } = rootTol s := by
      unfold rootTol; simp only; rw [ee, ec]
    rw [etol] at h
    generalize hs2 : ({ s1 with m.log := (.root T s1.m.yy s1.m.yp :: s1.m.log), r.thi := T, r.ghi := g T, r.nge := s1.r.nge + 1, r.ttol := rootTol s } : State ν n q K) = s2 at h
    have r2 : s2.r = { s.r with thi := T, ghi := g T, nge := s.r.nge + 1, ttol := rootTol s } := by
      rw [← hs2]; simp only; rw [er]
    have key : ∀ s3 r, rootLoop cfg rf s2 { alph := 1, side := 0, sideprev := -1, imax := i.val } ≠ .ret s3 r := by
      intro s3 r
      cases rf with
      | zero => intro h; cases h
      | succ rf =>
        unfold rootLoop
        have hb2 : bracketSmall s2.r = false := by rw [r2]; exact hb
        rw [hb2]
        simp only [Bool.false_eq_true, if_false]
        unfold rootPass callRoot
        rw [dif_pos i.isLt]
        simp only
        have ha : nextAlph ({ alph := 1, side := 0, sideprev := -1, imax := i.val } : RfLoc K) = 1 := by
          unfold nextAlph; exact if_neg (show ¬ ((-1 : Int) = 0) by decide)
        have htm2 : trialPoint s2.r.thi s2.r.tlo s2.r.ttol (s2.r.ghi ⟨i.val, i.isLt⟩) (s2.r.glo ⟨i.val, i.isLt⟩)
            (nextAlph ({ alph := 1, side := 0, sideprev := -1, imax := i.val } : RfLoc K)) = tm := by
          rw [ha, htm, r2]
        rw [htm2]
        cases he : getSolution' s2 tm with
        | none => simp
        | some s4 =>
          simp only
          rw [hg]
          obtain ⟨-, yy', yp', e4⟩ := getSolution'_frame he
          have r4 : s4.r = s2.r := by rw [e4]
          obtain ⟨h1, h2, h3⟩ := scan2_allNan cfg s4.r.gactive (glo := s4.r.glo) i.val hn
          unfold rootNarrow
          simp only
          rw [h1, h2, h3]
          simp only [Bool.false_eq_true, if_false]
          have hs4 : bracketSmall { s4.r with grout := g tm, nge := s4.r.nge + 1, tlo := tm, glo := g tm } = false := by
            rw [r4, r2]; exact hc
          split
          · rename_i hx
            split at hx <;> cases hx
          · rename_i hx
            split at hx
            · rename_i hc; exact absurd (hs4.symm.trans hc) (by decide)
            · cases hx
          · rename_i hx
            split at hx
            · cases hx
            · cases hx
              exact rootLoop_hangs (fun t v vp b ht i => by rw [hg]; exact hnan t ht i) rf
                (s := lowerEndF s4 tm (g tm)) (l := { alph := _, side := 2, sideprev := 0, imax := i.val }) ⟨i.isLt, hn _⟩ hs4 s3 r
    have hscan : scan1 cfg s2.r.gactive s2.r.glo s2.r.ghi = scan1 cfg s.r.gactive s.r.glo (g T) := by rw [r2]
    cases hrf : rootFind cfg rf s2 with
    | panic => rw [hrf] at h; cases h
    | diverge => rw [hrf] at h; cases h
    | ret s3 r3 =>
      unfold rootFind at hrf
      simp only at hrf
      rw [hscan, hs, hi] at hrf
      simp only [Bool.true_eq_false, if_false] at hrf
      cases hl : rootLoop cfg rf s2 { alph := 1, side := 0, sideprev := -1, imax := i.val } with
      | panic => rw [hl] at hrf; cases hrf
      | diverge => rw [hl] at hrf; cases hrf
      | ret s5 r5 => exact key _ _ hl

end

end Verif.NanRoot
