import Verif.Props.C43

/-!
# C39, C41–C43: what happens without the conditions

Runs of the model with the machine epsilon of `double` and the default limit of 1000 iterations.
-/

namespace Verif
open Matrix

/-- `std::numeric_limits<double>::epsilon()`. -/
noncomputable def dblEps : ℝ := 1 / 4503599627370496

/-! ### One variable with a large Hessian -/

/-- `½ 1e18 x²`. -/
def stiffG : Matrix (Fin 1) (Fin 1) ℝ := fun _ _ => 10 ^ 18

noncomputable def stiffJ : ℕ → VecN 1 := fun _ _ => 1 / 10 ^ 9

theorem stiff_factor : Factor stiffG stiffJ := by
  intro v
  funext i
  fin_cases i
  simp [stiffG, stiffJ, mulVec, dotProduct]
  ring

/-- Minimise `½ 1e18 x²` subject to `x = 5`. -/
def stiffEq : QP 1 := { G := stiffG, g := 0, CE := [(fun _ => 1, -5)], CI := [] }

/-- C39 is false for some problems with a positive definite Hessian: with `x = 5` as the only constraint the
solver answers OPTIMAL with `x = 0`, although the problem has a solution. -/
theorem C39_refuted (w : Work 1) :
    Factor stiffEq.G stiffJ ∧ stiffEq.CE.length ≤ 1 ∧ QPFeasible stiffEq (fun _ => 5) ∧
      ∃ s, (∀ fuel, 3 ≤ fuel → solveQuadprog dblEps 1000 stiffEq stiffJ w fuel = .ok (.optimal, s)) ∧
        s.x = 0 ∧ ¬ EqHolds stiffEq s.x := by
  refine ⟨stiff_factor, by simp [stiffEq], ⟨?_, ?_⟩, ?_⟩
  · intro e he
    simp only [stiffEq, List.mem_singleton] at he
    subst he
    norm_num [dotProduct]
  · simp [stiffEq]
  · have hlt : (1 / 4503599627370496 : ℝ) < 1 / 1000000000 := by norm_num
    have h1 : ∃ s, stepEq dblEps stiffEq 0 (qpInit stiffEq stiffJ w) = .ok (.eq 1 s) ∧ s.x = 0 ∧ s.iq = 1 ∧ s.iter = 0 := by
      have hz : ¬ (4503599627370496 : ℝ)⁻¹ < (10 ^ 9)⁻¹ * (10 ^ 9)⁻¹ * ((10 ^ 9)⁻¹ * (10 ^ 9)⁻¹) := by norm_num
      have hok : ¬ (10 ^ 9 : ℝ)⁻¹ ≤ (4503599627370496 : ℝ)⁻¹ := by norm_num
      simp [stepEq, stiffEq, qpInit, addConstraint, addLoop, computeD, updateZ, updateR, backSub, eqLen, stiffJ,
        dotProduct, dblEps, abs_mul, abs_inv, hz, hok]
    obtain ⟨s, h1, h2, h3, h4⟩ := h1
    have h5 : ∃ s', stepL1 dblEps 1000 stiffEq stiffJ { s with iai := fun i => (i : ℤ) } = .ok (.ret .optimal s') ∧ s'.x = 0 := by
      have hv : ∀ i : ℕ, 1 ≤ i → i < 1 → 0 ≤ s.A i ∧ s.A i < 0 := fun i h h' => by omega
      simp only [stepL1, stiffEq, h2, h3, h4, activeValid, qpTol]
      simp only [List.length_cons, List.length_nil]
      norm_num
      rw [if_pos ⟨le_rfl, hv⟩]
      exact ⟨_, rfl, rfl⟩
    obtain ⟨s', h5, h6⟩ := h5
    refine ⟨s', fun fuel hf => ?_, h6, ?_⟩
    · obtain ⟨k, rfl⟩ : ∃ k, fuel = k + 3 := ⟨fuel - 3, by omega⟩
      unfold solveQuadprog
      rw [qpRun_succ (k + 2) (by simp), qpStep, h1, Out.ok_bind, qpRun_succ (k + 1) (by simp), qpStep]
      have : stepEq dblEps stiffEq 1 s = .ok (.l1 { s with iai := fun i => (i : ℤ) }) := by
        simp [stepEq, stiffEq]
      rw [this, Out.ok_bind, qpRun_succ k (by simp), qpStep, h5, Out.ok_bind]
      cases k <;> rfl
    · rw [h6]
      intro h
      have := h (fun _ => 1, -5) (by simp [stiffEq])
      norm_num at this

/-- Minimise `½ 1e18 x²` subject to `x ≥ 1`. -/
def stiffIneq : QP 1 := { G := stiffG, g := 0, CE := [], CI := [(fun _ => 1, -1)] }

/-- C41 is false for some problems: with `x ≥ 1` as the only constraint the solver answers UNBOUNDED. -/
theorem C41_refuted (w : Work 1) :
    Factor stiffIneq.G stiffJ ∧ QPFeasible stiffIneq (fun _ => 1) ∧
      ∃ s, ∀ fuel, 4 ≤ fuel → solveQuadprog dblEps 1000 stiffIneq stiffJ w fuel = .ok (.unbounded, s) := by
  refine ⟨stiff_factor, ⟨by simp [EqHolds, stiffIneq], ?_⟩, ?_⟩
  · intro e he
    simp only [stiffIneq, List.mem_singleton] at he
    subst he
    norm_num [dotProduct]
  · have h1 : ∃ s, stepL1 dblEps 1000 stiffIneq stiffJ { qpInit stiffIneq stiffJ w with iai := fun i => (i : ℤ) } =
        .ok (.l2 s) ∧ s.iq = 0 ∧ s.s 0 = -1 ∧ s.ss = 0 ∧ s.iaexcl 0 = true ∧ s.iai 0 = 0 ∧ s.J = stiffJ := by
      have htol : ¬ (1 : ℝ) ≤ 4503599627370496⁻¹ * 10 ^ 18 * (10 ^ 9)⁻¹ * 100 := by norm_num
      simp [stepL1, stiffIneq, qpInit, activeValid, qpTol, QP.slack, QP.row, dblEps, stiffG, stiffJ, htol, markActive]
    obtain ⟨s, h1, h2, h3, h4, h5, h6, hJ⟩ := h1
    have h10 : ¬ (1 : ℝ) ≤ 0 := by norm_num
    have h7 : ∃ s', stepL2 stiffIneq s = .ok (.l2a s') ∧ s'.iq = 0 ∧ s'.ip = 0 ∧ s'.J = stiffJ := by
      simp [stepL2, stiffIneq, chooseViolated, List.range_succ, h2, h3, h4, h5, h6, h10, hJ]
    obtain ⟨s', h7, h8, h9, h11⟩ := h7
    have h12 : ∃ s'', stepL2a dblEps stiffIneq s' = .ok (.ret .unbounded s'') := by
      have hz : ¬ (4503599627370496 : ℝ)⁻¹ < (10 ^ 9)⁻¹ * (10 ^ 9)⁻¹ * ((10 ^ 9)⁻¹ * (10 ^ 9)⁻¹) := by norm_num
      simp [stepL2a, stiffIneq, h8, h9, h11, computeD, updateZ, QP.row, partialLen, stiffJ, dotProduct, dblEps, hz]
    obtain ⟨s'', h12⟩ := h12
    refine ⟨s'', fun fuel hf => ?_⟩
    obtain ⟨k, rfl⟩ : ∃ k, fuel = k + 4 := ⟨fuel - 4, by omega⟩
    unfold solveQuadprog
    have h0 : stepEq dblEps stiffIneq 0 (qpInit stiffIneq stiffJ w) =
        .ok (.l1 { qpInit stiffIneq stiffJ w with iai := fun i => (i : ℤ) }) := by
      simp [stepEq, stiffIneq]
    rw [qpRun_succ (k + 3) (by simp), qpStep, h0, Out.ok_bind, qpRun_succ (k + 2) (by simp), qpStep, h1, Out.ok_bind,
      qpRun_succ (k + 1) (by simp), qpStep, h7, Out.ok_bind, qpRun_succ k (by simp), qpStep, h12, Out.ok_bind]
    cases k <;> rfl

/-! ### More equalities than variables -/

/-- `x = 0` and `2 x = 0`. -/
def twoEq : QP 1 := { G := 1, g := 0, CE := [(fun _ => 1, 0), (fun _ => 2, 0)], CI := [] }

/-- C43 is false for more equalities than variables: column `n` of `R` is accessed. -/
theorem C43_refuted_equalities (w : Work 1) :
    Factor twoEq.G (fun _ _ => 1) ∧
      ∀ fuel, 2 ≤ fuel → solveQuadprog dblEps 1000 twoEq (fun _ _ => 1) w fuel = .ub := by
  refine ⟨?_, fun fuel hf => ?_⟩
  · intro v
    funext i
    fin_cases i
    simp [twoEq, dotProduct]
  · obtain ⟨k, rfl⟩ : ∃ k, fuel = k + 2 := ⟨fuel - 2, by omega⟩
    have h1 : ∃ s, stepEq dblEps twoEq 0 (qpInit twoEq (fun _ _ => 1) w) = .ok (.eq 1 s) ∧ s.iq = 1 := by
      have hz : ¬ (1 : ℝ) ≤ 4503599627370496⁻¹ := by norm_num
      simp [stepEq, twoEq, qpInit, addConstraint, addLoop, computeD, updateZ, updateR, backSub, eqLen, dotProduct,
        dblEps, hz]
    obtain ⟨s, h1, h2⟩ := h1
    unfold solveQuadprog
    rw [qpRun_succ (k + 1) (by simp), qpStep, h1, Out.ok_bind, qpRun_succ k (by simp), qpStep]
    have : stepEq dblEps twoEq 1 s = .ub := by
      simp [stepEq, twoEq, h2, addConstraint]
    rw [this]; rfl

/-! ### A constraint that is rejected -/

/-- `2^53 x₁ ≥ 2^53`, `x₂ ≥ 1` and possibly more, minimising `½ |x|²`. -/
def loopQP (extra : List (VecN 2 × ℝ)) : QP 2 :=
  { G := 1, g := 0, CE := [], CI := (![9007199254740992, 0], -9007199254740992) :: (![0, 1], -1) :: extra }

/-- The identity. -/
noncomputable def idJ : ℕ → VecN 2 := fun j => if j = 0 then ![1, 0] else ![0, 1]

theorem idJ_factor : Factor (1 : Matrix (Fin 2) (Fin 2) ℝ) idJ := by
  intro v
  funext i
  fin_cases i <;> simp [idJ, Finset.sum_range_succ, dotProduct, Fin.sum_univ_two]

/-- The state after the first constraint has been added, at `l2`: the second one is chosen. -/
structure LoopSt (extra : List (VecN 2 × ℝ)) (st : QState 2) : Prop where
  J0 : st.J 0 = ![1, 0]
  J1 : st.J 1 = ![0, -1]
  R00 : st.R 0 0 = 9007199254740992
  Rn : st.Rnorm = 9007199254740992
  iq : st.iq = 1
  s1 : st.s 1 = -1
  choose : chooseViolated st.s st.iai st.iaexcl (List.range (extra.length + 2)) (st.ss, st.ip) = (-1, 1)
  A0 : st.A 0 = 0
  AO : st.AOld 0 = 0
  sge : ∀ i, i < extra.length + 2 → -1 ≤ st.s i

theorem chooseViolated_none (s : ℕ → ℝ) (iai : ℕ → ℤ) (iaexcl : ℕ → Bool) (b : ℝ × ℕ) : ∀ L : List ℕ,
    (∀ i ∈ L, b.1 ≤ s i) → chooseViolated s iai iaexcl L b = b
  | [], _ => rfl
  | i :: L, h => by
    rw [chooseViolated, if_neg (fun hc => absurd hc.1 (not_lt.mpr (h i (by simp))))]
    exact chooseViolated_none s iai iaexcl b L fun j hj => h j (by simp [hj])

theorem loop_l2 {extra : List (VecN 2 × ℝ)} {st : QState 2} (h : LoopSt extra st) :
    stepL2 (loopQP extra) st = .ok (.l2a { st with
      ss := -1, ip := 1, u := Function.update st.u 1 0, A := Function.update st.A 1 1 }) := by
  have h0 : ¬ (-1 : ℝ) ≥ 0 := by norm_num
  unfold stepL2
  simp only [loopQP, List.length_cons, List.length_nil, h.choose, h0, if_false, h.iq]
  rw [if_pos ⟨by omega, by omega⟩]
  rfl

/-- A full step when no multiplier limits it. -/
theorem stepL2a_full {n : ℕ} {eps : ℝ} {P : QP n} {st : QState n} {np z : VecN n} {d r : ℕ → ℝ}
    (hg : st.iq ≤ n ∧ st.iq < P.CE.length + P.CI.length ∧ st.ip < P.CI.length)
    (hnp : (P.row st.ip).1 = np) (hd : computeD st.J np = d) (hz : updateZ st.J d st.iq = z)
    (hr : updateR st.R d st.iq = r) (hzz : |z ⬝ᵥ z| > eps)
    (hp : (partialLen r st.u st.A (List.range' P.CE.length (st.iq - P.CE.length)) (none, 0)).1 = none) :
    stepL2a eps P st = fullStep eps P d
      { st with x := st.x + (-st.s st.ip / (z ⬝ᵥ np)) • z,
                f := st.f + (-st.s st.ip / (z ⬝ᵥ np)) * (z ⬝ᵥ np) * (1 / 2 * (-st.s st.ip / (z ⬝ᵥ np)) + st.u st.iq),
                u := moveU st.u r st.iq (-st.s st.ip / (z ⬝ᵥ np)) } := by
  subst hnp hd hz hr
  unfold stepL2a
  rw [if_pos hg]
  have hc : ∀ t, chooseLen (partialLen (updateR st.R (computeD st.J (P.row st.ip).1) st.iq) st.u st.A
      (List.range' P.CE.length (st.iq - P.CE.length)) (none, 0)).1 t = (t, True) := by
    intro t; rw [hp]; rfl
  simp only
  rw [if_pos hzz, if_pos (by rw [hc]; trivial), hc]

/-- A rejected constraint. -/
theorem fullStep_rejected {n : ℕ} {eps : ℝ} {P : QP n} {st : QState n} {d : ℕ → ℝ} {a : AddRes n} {b : DelRes n}
    (ha : addConstraint eps st.J st.R d st.iq st.Rnorm = .ok a) (hok : ¬ a.ok)
    (hb : deleteConstraint (P.CE.length + P.CI.length) P.CE.length a.J a.R st.A st.u (st.iq + 1) st.ip = .ok b)
    (hv : activeValid st.AOld 0 st.iq P.CI.length) :
    fullStep eps P d st = .ok (.l2 { st with
      J := b.J, R := b.R, Rnorm := a.Rnorm, iaexcl := Function.update st.iaexcl st.ip false,
      A := fun i => if i < st.iq then st.AOld i else b.A i,
      u := fun i => if i < st.iq then st.uOld i else b.u i,
      iai := markActive st.AOld 0 st.iq fun i => (i : ℤ),
      x := st.xOld }) := by
  unfold fullStep
  simp only
  rw [ha]
  simp only
  rw [if_neg hok, hb]
  simp only
  rw [if_pos (show activeValid st.AOld 0 (st.iq + 1 - 1) P.CI.length from hv)]
  rfl

theorem fullStep_ub {n : ℕ} {eps : ℝ} {P : QP n} {st : QState n} {d : ℕ → ℝ} {a : AddRes n}
    (ha : addConstraint eps st.J st.R d st.iq st.Rnorm = .ok a) (hok : ¬ a.ok)
    (hb : deleteConstraint (P.CE.length + P.CI.length) P.CE.length a.J a.R st.A st.u (st.iq + 1) st.ip = .ub) :
    fullStep eps P d st = .ub := by
  unfold fullStep
  simp only
  rw [ha]
  simp only
  rw [if_neg hok, hb]

/-- The second constraint is taken, and rejected. -/
theorem loop_l2a {extra : List (VecN 2 × ℝ)} {st : QState 2} (h : LoopSt extra st) :
    (extra = [] → stepL2a dblEps (loopQP extra) { st with
      ss := -1, ip := 1, u := Function.update st.u 1 0, A := Function.update st.A 1 1 } = .ub) ∧
    (extra ≠ [] → ∃ st', stepL2a dblEps (loopQP extra) { st with
      ss := -1, ip := 1, u := Function.update st.u 1 0, A := Function.update st.A 1 1 } = .ok (.l2 st') ∧
      st'.J = st.J ∧ st'.R 0 0 = st.R 0 0 ∧ st'.Rnorm = st.Rnorm ∧ st'.iq = 1 ∧ st'.s = st.s ∧ st'.ss = -1 ∧
      st'.ip = 1 ∧ st'.A 0 = 0 ∧ st'.AOld = st.AOld) := by
  have hrow : ((loopQP extra).row 1).1 = ![0, 1] := by simp [loopQP, QP.row]
  have hd0 : computeD st.J ![0, 1] 0 = 0 := by simp [computeD, h.J0]
  have hd1 : computeD st.J ![0, 1] 1 = -1 := by simp [computeD, h.J1]
  have hz : updateZ st.J (computeD st.J ![0, 1]) 1 = ![0, 1] := by
    rw [updateZ]
    simp [hd1, h.J1]
  have hr : updateR st.R (computeD st.J ![0, 1]) 1 0 = 0 := by
    simp [updateR, backSub, hd0]
  have hp : ∀ u A, partialLen (updateR st.R (computeD st.J ![0, 1]) 1) u A [0] (none, 0) = (none, 0) := by
    intro u A
    simp [partialLen, hr]
  have hadd : addConstraint dblEps st.J st.R (computeD st.J ![0, 1]) 1 st.Rnorm =
      .ok { ok := False, J := st.J, R := fun i k => if k = 1 ∧ i ≤ 1 then computeD st.J ![0, 1] i else st.R i k,
            Rnorm := st.Rnorm, last := -1 } := by
    have hle : |(-1 : ℝ)| ≤ dblEps * 9007199254740992 := by norm_num [dblEps]
    have hal : addLoop 1 (2 - 1 - 1) (st.J, computeD st.J ![0, 1]) = (st.J, computeD st.J ![0, 1]) := rfl
    unfold addConstraint
    rw [hal]
    simp only [hd1, h.Rn]
    rw [if_pos (by norm_num), if_pos hle]
    simp only [hle, not_true]
  have hcond : |(![0, 1] : VecN 2) ⬝ᵥ ![0, 1]| > dblEps := by norm_num [dotProduct, Fin.sum_univ_two, dblEps]
  have hlen : (loopQP extra).CI.length = extra.length + 2 := rfl
  have hlenE : (loopQP extra).CE.length = 0 := rfl
  have hfull := stepL2a_full (eps := dblEps) (P := loopQP extra) (st := { st with
    ss := -1, ip := 1, u := Function.update st.u 1 0, A := Function.update st.A 1 1 })
    (np := ![0, 1]) (z := ![0, 1]) ⟨by simp [h.iq], by simp [h.iq, hlen, hlenE], by simp [hlen]⟩ hrow rfl
    (by simp only [h.iq]; exact hz) rfl hcond (by
      simp only [h.iq, hlenE]
      have h1 : List.range' 0 (1 - 0) = [0] := rfl
      rw [h1, hp])
  rw [hfull]
  constructor
  · intro he
    subst he
    refine fullStep_ub (by simp only [h.iq]; exact hadd) (by simp) ?_
    simp [deleteConstraint, h.iq, hlen, hlenE]
  · intro he
    have hpos : 0 < extra.length := List.length_pos_iff.mpr he
    have hf : findActive (Function.update st.A 1 1) 0 2 1 = 1 := by
      apply findActive_eq (by omega) (by omega) (by simp)
      intro i _ hi
      have : i = 0 := by omega
      subst this
      simp [h.A0]
    have hdel : ∀ R u, deleteConstraint (0 + (extra.length + 2)) 0 st.J R (Function.update st.A 1 1) u (1 + 1) ((1 : ℕ) : ℤ) =
        .ok { J := st.J, R := fun i k => if k = 1 ∧ i < 2 then 0 else R i k,
              A := fun i => if 1 ≤ i ∧ i < 2 then Function.update st.A 1 1 (i + 1) else if i = 2 then 0 else Function.update st.A 1 1 i,
              u := fun i => if 1 ≤ i ∧ i < 2 then u (i + 1) else if i = 2 then 0 else u i } := by
      intro R u
      unfold deleteConstraint
      rw [if_pos ⟨by omega, by omega, by omega⟩]
      simp only [Nat.cast_one, Nat.reduceAdd, hf]
      simp only [Nat.reduceSub, delLoop]
      congr 2
      funext i k
      have : ¬ (1 ≤ k ∧ k < 1) := by omega
      rw [if_neg this]
    have hval : activeValid st.AOld 0 1 (extra.length + 2) := by
      intro i _ hi
      have : i = 0 := by omega
      subst this
      rw [h.AO]; omega
    refine ⟨_, fullStep_rejected (by simp only [h.iq]; exact hadd) (by simp)
      (by simp only [h.iq, hlen, hlenE]; exact hdel _ _) (by simp only [h.iq, hlen]; exact hval),
      rfl, ?_, rfl, h.iq, rfl, rfl, rfl, ?_, rfl⟩
    · simp
    · simp [h.AO, h.iq]

/-- The first passes: the first constraint is added. -/
theorem loop_reach {extra : List (VecN 2 × ℝ)} (hx : extra = [] ∨ extra = [(0, 1)]) (w : Work 2) :
    ∃ st, LoopSt extra st ∧ ∀ k, qpRun dblEps 1000 (loopQP extra) idJ (k + 5)
      (.eq 0 (qpInit (loopQP extra) idJ w)) = qpRun dblEps 1000 (loopQP extra) idJ k (.l2 st) := by
  have hlen : (loopQP extra).CI.length = extra.length + 2 := rfl
  have hlenE : (loopQP extra).CE.length = 0 := rfl
  have htol : qpTol dblEps (loopQP extra) idJ < 1 := by
    rcases hx with rfl | rfl <;>
      norm_num [qpTol, dblEps, loopQP, idJ, Fin.sum_univ_two]
  have hv0 : ∀ x : VecN 2, violation (loopQP extra) x = max 0 (-(9007199254740992 * x 0 - 9007199254740992)) + max 0 (-(x 1 - 1)) := by
    intro x
    rcases hx with rfl | rfl <;> simp [violation, loopQP, Fin.sum_univ_two, dotProduct] <;> ring_nf
  -- first pass through `l1`
  have h0 : stepEq dblEps (loopQP extra) 0 (qpInit (loopQP extra) idJ w) =
      .ok (.l1 { qpInit (loopQP extra) idJ w with iai := fun i => (i : ℤ) }) := by
    simp [stepEq, hlenE]
  have hx0 : (qpInit (loopQP extra) idJ w).x = 0 := by simp [qpInit, loopQP]
  have l1 : ∀ st : QState 2, st.iq ≤ 1 → st.iter + 1 < 1000 → (∀ i, i < st.iq → st.A i = 0) → st.x 1 = 0 →
      ∃ st', stepL1 dblEps 1000 (loopQP extra) idJ st = .ok (.l2 st') ∧ st'.J = st.J ∧ st'.R = st.R ∧
        st'.Rnorm = st.Rnorm ∧ st'.iq = st.iq ∧ st'.s = (loopQP extra).slack st.x ∧ st'.ss = 0 ∧ st'.x = st.x ∧
        st'.iaexcl = (fun _ => true) ∧ st'.iai = markActive st.A 0 st.iq st.iai ∧ st'.A = st.A ∧ st'.iter = st.iter + 1 ∧
        (0 < st.iq → st'.AOld 0 = st.A 0) := by
    intro st h1 h2 h3 h4
    unfold stepL1
    simp only
    rw [if_neg (not_le.mpr h2), if_pos ⟨by rw [hlen]; omega, fun i _ hi => by rw [h3 i hi, hlen]; omega⟩]
    rw [psi_eq, abs_neg, abs_of_nonneg (violation_nonneg _ _), if_neg]
    · refine ⟨_, rfl, rfl, rfl, rfl, rfl, rfl, rfl, rfl, rfl, rfl, rfl, rfl, fun h => ?_⟩
      simp [h]
    · rw [not_le, hv0, h4]
      have := le_max_left 0 (-(9007199254740992 * st.x 0 - 9007199254740992))
      have h5 : max (0 : ℝ) (-(0 - 1)) = 1 := by norm_num
      rw [h5]
      linarith
  obtain ⟨s1, a1, a2, a3, a4, a5, a6, a7, a8, a9, a10, a11, a12, _⟩ := l1 { qpInit (loopQP extra) idJ w with iai := fun i => (i : ℤ) }
    (by simp [qpInit]) (by simp [qpInit]) (by simp [qpInit]) (by simp only; rw [hx0]; rfl)
  have hs0 : ∀ x, (loopQP extra).slack x 0 = 9007199254740992 * x 0 - 9007199254740992 := by
    intro x; simp [QP.slack, QP.row, loopQP, dotProduct, Fin.sum_univ_two]; ring
  have hs1 : ∀ x, (loopQP extra).slack x 1 = x 1 - 1 := by
    intro x; simp [QP.slack, QP.row, loopQP, dotProduct, Fin.sum_univ_two]; ring
  have hs2 : ∀ x, extra = [(0, 1)] → (loopQP extra).slack x 2 = 1 := by
    intro x h; subst h; simp [QP.slack, QP.row, loopQP]
  simp only [hx0] at a6 a8
  have hiai : s1.iai = fun i : ℕ => (i : ℤ) := by
    rw [a10]; funext j; simp [markActive, qpInit]
  have c1 : chooseViolated s1.s s1.iai s1.iaexcl (List.range (extra.length + 2)) (s1.ss, s1.ip) = (-9007199254740992, 0) := by
    rw [a6, a7, a9, hiai]
    rcases hx with rfl | rfl
    · norm_num [chooseViolated, List.range_succ, hs0, hs1]
    · norm_num [chooseViolated, List.range_succ, hs0, hs1, hs2]
  have hK : ¬ (-9007199254740992 : ℝ) ≥ 0 := by norm_num
  have l2 : stepL2 (loopQP extra) s1 = .ok (.l2a { s1 with
      ss := -9007199254740992, ip := 0, u := Function.update s1.u 0 0, A := Function.update s1.A 0 0 }) := by
    have : s1.iq = 0 := by rw [a5]; rfl
    unfold stepL2
    simp only [hlen, hlenE, c1, this]
    rw [if_neg hK, if_pos ⟨by omega, by omega⟩]
    rfl
  -- the first constraint is added
  have hJ : s1.J = idJ := by rw [a2]; rfl
  have hiq : s1.iq = 0 := by rw [a5]; rfl
  have hrow : ((loopQP extra).row 0).1 = ![9007199254740992, 0] := by simp [loopQP, QP.row]
  have hd0 : computeD idJ ![9007199254740992, 0] 0 = 9007199254740992 := by simp [computeD, idJ]
  have hd1 : computeD idJ ![9007199254740992, 0] 1 = 0 := by simp [computeD, idJ]
  have hz : updateZ idJ (computeD idJ ![9007199254740992, 0]) 0 = ![9007199254740992, 0] := by
    rw [updateZ, ← Finset.range_eq_Ico, Finset.sum_range_succ, Finset.sum_range_one, hd0, hd1]
    simp [idJ]
  have hzz : |(![9007199254740992, 0] : VecN 2) ⬝ᵥ ![9007199254740992, 0]| > dblEps := by
    norm_num [dotProduct, Fin.sum_univ_two, dblEps]
  have hfull := stepL2a_full (eps := dblEps) (P := loopQP extra) (st := { s1 with
      ss := -9007199254740992, ip := 0, u := Function.update s1.u 0 0, A := Function.update s1.A 0 0 })
    (np := ![9007199254740992, 0]) (z := ![9007199254740992, 0]) (d := computeD idJ ![9007199254740992, 0])
    ⟨by simp [hiq], by simp [hiq, hlen, hlenE], by simp [hlen]⟩ hrow (by simp only [hJ])
    (by simp only [hiq, hJ]; exact hz) rfl hzz (by
      simp only [hiq, hlenE]; rfl)
  have hh : hypotDist 9007199254740992 0 = 9007199254740992 := by
    rw [hypotDist_eq, show (9007199254740992 : ℝ) ^ 2 + 0 ^ 2 = 9007199254740992 ^ 2 by ring]
    exact Real.sqrt_sq (by norm_num)
  have hgc : givensCS 9007199254740992 0 = (1, 0, 9007199254740992) := by
    unfold givensCS
    rw [hh]
    norm_num
  have hadd : ∃ a, addConstraint dblEps idJ (fun _ _ => 0) (computeD idJ ![9007199254740992, 0]) 0 1 = .ok a ∧ a.ok ∧
      a.J 0 = ![1, 0] ∧ a.J 1 = ![0, -1] ∧ a.R 0 0 = 9007199254740992 ∧ a.Rnorm = 9007199254740992 := by
    have hal : addLoop 0 (2 - 1 - 0) (idJ, computeD idJ ![9007199254740992, 0]) =
        addGivens (idJ, computeD idJ ![9007199254740992, 0]) 0 := rfl
    have hne : ¬ (9007199254740992 : ℝ) = 0 := by norm_num
    have hag : addGivens (idJ, computeD idJ ![9007199254740992, 0]) 0 =
        (Function.update (Function.update idJ 0 (rotFst 1 0 (idJ 0) (idJ 1))) 1 (rotSnd 1 0 (idJ 0) (idJ 1)),
          Function.update (Function.update (computeD idJ ![9007199254740992, 0]) 1 0) 0 9007199254740992) := by
      unfold addGivens
      simp only [zero_add, hd0, hd1, hh, hgc]
      rw [if_neg hne]
    have hok : ¬ |(9007199254740992 : ℝ)| ≤ dblEps * 1 := by norm_num [dblEps]
    unfold addConstraint
    rw [hal, hag]
    simp only [Function.update_self]
    rw [if_pos (by norm_num), if_neg hok]
    refine ⟨_, rfl, hok, ?_, ?_, ?_, ?_⟩
    · simp [rotFst, idJ]
    · simp [rotSnd, idJ]
    · simp
    · norm_num
  obtain ⟨a, b1, b2, b3, b4, b5, b6⟩ := hadd
  have hfs : ∀ st : QState 2, st.J = idJ → st.R = (fun _ _ => 0) → st.iq = 0 → st.Rnorm = 1 →
      fullStep dblEps (loopQP extra) (computeD idJ ![9007199254740992, 0]) st =
        .ok (.l1 { st with J := a.J, R := a.R, Rnorm := a.Rnorm, iq := 1, iai := Function.update st.iai st.ip (-1) }) := by
    intro st e1 e2 e3 e4
    unfold fullStep
    simp only
    rw [e1, e2, e3, e4, b1]
    simp only
    rw [if_pos b2]
  -- second pass through `l1`
  have hstep : ∃ s3 : QState 2, stepL2a dblEps (loopQP extra) { s1 with
      ss := -9007199254740992, ip := 0, u := Function.update s1.u 0 0, A := Function.update s1.A 0 0 } = .ok (.l1 s3) ∧
      s3.J = a.J ∧ s3.R = a.R ∧ s3.Rnorm = a.Rnorm ∧ s3.iq = 1 ∧ s3.A 0 = 0 ∧ s3.iter = 1 ∧ s3.x 0 = 1 ∧ s3.x 1 = 0 ∧
      s3.iai 1 = 1 ∧ s3.iai 2 = 2 := by
    refine ⟨_, hfull.trans (hfs _ hJ (by simp only; rw [a3]; rfl) hiq (by simp only; rw [a4]; rfl)),
      rfl, rfl, rfl, rfl, by simp, ?_, ?_, ?_, ?_, ?_⟩
    · simp only; rw [a12]; rfl
    · simp only
      rw [a8, a6, hs0]
      norm_num [dotProduct, Fin.sum_univ_two]
    · simp only
      rw [a8]
      simp
    · simp [hiai]
    · simp [hiai]
  obtain ⟨s3, e1, e2, e3, e4, e5, e6, e7, e8, e9, e10, e11⟩ := hstep
  obtain ⟨s4, f1, f2, f3, f4, f5, f6, f7, f8, f9, f10, f11, f12, f13⟩ := l1 s3 (by omega) (by omega)
    (by intro i hi; have : i = 0 := by omega
        subst this; exact e6) e9
  refine ⟨s4, ⟨by rw [f2, e2, b3], by rw [f2, e2, b4], by rw [f3, e3, b5], by rw [f4, e4, b6], by rw [f5, e5],
    by rw [f6, hs1, e9]; norm_num, ?_, by rw [f11, e6], by rw [f13 (by omega), e6], ?_⟩, fun k => ?_⟩
  · have g0 : s4.iai 0 = -1 := by
      rw [f10, markActive, if_pos ⟨0, by omega, by omega, by rw [e6]; rfl⟩]
    have g1 : s4.iai 1 = 1 := by
      rw [f10, markActive, if_neg, e10]
      rintro ⟨i, _, hi, hi'⟩
      have : i = 0 := by omega
      subst this
      rw [e6] at hi'; norm_num at hi'
    rw [f7, f9, f6]
    rcases hx with rfl | rfl
    · norm_num [chooseViolated, List.range_succ, hs0, hs1, g0, g1, e8, e9]
    · norm_num [chooseViolated, List.range_succ, hs0, hs1, hs2, g0, g1, e8, e9]
  · intro i hi
    rw [f6]
    rcases hx with rfl | rfl
    · simp only [List.length_nil] at hi
      have : i = 0 ∨ i = 1 := by omega
      rcases this with rfl | rfl
      · rw [hs0, e8]; norm_num
      · rw [hs1, e9]; norm_num
    · simp only [List.length_cons, List.length_nil] at hi
      have : i = 0 ∨ i = 1 ∨ i = 2 := by omega
      rcases this with rfl | rfl | rfl
      · rw [hs0, e8]; norm_num
      · rw [hs1, e9]; norm_num
      · rw [hs2 _ rfl]; norm_num
  · rw [qpRun_succ (k + 4) (by simp), qpStep, h0, Out.ok_bind, qpRun_succ (k + 3) (by simp), qpStep, a1, Out.ok_bind,
      qpRun_succ (k + 2) (by simp), qpStep, l2, Out.ok_bind, qpRun_succ (k + 1) (by simp), qpStep, e1, Out.ok_bind,
      qpRun_succ k (by simp), qpStep, f1, Out.ok_bind]

theorem qpRun_step_diverge {n : ℕ} {eps : ℝ} {maxIter : ℕ} {P : QP n} {J0 : ℕ → VecN n} : ∀ (k : ℕ) (q : QNext n),
    qpRun eps maxIter P J0 (k + 1) q = .diverge → qpRun eps maxIter P J0 k q = .diverge
  | 0, q, h => by
    cases q with
    | ret r s => simp [qpRun] at h
    | _ => rfl
  | k + 1, q, h => by
    by_cases hr : ∃ r s, q = .ret r s
    · obtain ⟨r, s, rfl⟩ := hr
      simp [qpRun] at h
    · have hn : ∀ r s, q ≠ .ret r s := fun r s h => hr ⟨r, s, h⟩
      rw [qpRun_succ _ hn] at h ⊢
      cases hq : qpStep eps maxIter P J0 q with
      | ok q' =>
        rw [hq, Out.ok_bind] at h
        rw [Out.ok_bind]
        exact qpRun_step_diverge k q' h
      | throw e => rw [hq] at h; simp at h
      | assertFail => rw [hq] at h; simp at h
      | ub => rw [hq] at h; simp at h
      | diverge => rfl

theorem qpRun_diverge {n : ℕ} {eps : ℝ} {maxIter : ℕ} {P : QP n} {J0 : ℕ → VecN n} (k : ℕ) (q : QNext n) :
    ∀ j, qpRun eps maxIter P J0 (k + j) q = .diverge → qpRun eps maxIter P J0 k q = .diverge
  | 0, h => h
  | j + 1, h => qpRun_diverge k q j (qpRun_step_diverge (k + j) q h)

/-- Minimise `½ |x|²` subject to `2^53 x₁ ≥ 2^53` and `x₂ ≥ 1`. -/
def oobQP : QP 2 := loopQP []

/-- C43 is false for some problems with a positive definite Hessian and no equality: after the second
constraint has been rejected, `delete_constraint` accesses entry 2 of an array of size 2. -/
theorem C43_refuted (w : Work 2) :
    Factor oobQP.G idJ ∧ QPFeasible oobQP ![1, 1] ∧
      ∀ fuel, 7 ≤ fuel → solveQuadprog dblEps 1000 oobQP idJ w fuel = .ub := by
  refine ⟨idJ_factor, ⟨by simp [EqHolds, oobQP, loopQP], ?_⟩, fun fuel hf => ?_⟩
  · intro e he
    simp only [oobQP, loopQP, List.mem_cons, List.not_mem_nil, or_false] at he
    rcases he with rfl | rfl <;> norm_num [dotProduct, Fin.sum_univ_two]
  · obtain ⟨k, rfl⟩ : ∃ k, fuel = k + 2 + 5 := ⟨fuel - 7, by omega⟩
    obtain ⟨st, h1, h2⟩ := loop_reach (Or.inl rfl) w
    unfold solveQuadprog oobQP
    rw [h2, qpRun_succ (k + 1) (by simp), qpStep, loop_l2 h1, Out.ok_bind, qpRun_succ k (by simp), qpStep,
      (loop_l2a h1).1 rfl]
    rfl

/-- The same with a third constraint that always holds, `0 ≥ -1`. -/
def loopForever : QP 2 := loopQP [(0, 1)]

/-- C42 is false for some problems with a positive definite Hessian and no equality: the second constraint is
rejected, excluded and, since `ss` and `ip` keep their values, taken again, without end; the iteration counter
does not change. -/
theorem C42_refuted (w : Work 2) :
    Factor loopForever.G idJ ∧ QPFeasible loopForever ![1, 1] ∧
      ∀ fuel, solveQuadprog dblEps 1000 loopForever idJ w fuel = .diverge := by
  refine ⟨idJ_factor, ⟨by simp [EqHolds, loopForever, loopQP], ?_⟩, fun fuel => ?_⟩
  · intro e he
    simp only [loopForever, loopQP, List.mem_cons, List.not_mem_nil, or_false] at he
    rcases he with rfl | rfl | rfl <;> norm_num [dotProduct, Fin.sum_univ_two]
  · have key : ∀ k st, LoopSt [(0, 1)] st → qpRun dblEps 1000 loopForever idJ k (.l2 st) = .diverge := by
      intro k
      induction k using Nat.strong_induction_on with
      | _ k ih =>
        intro st h
        match k with
        | 0 => rfl
        | 1 =>
          rw [qpRun_succ 0 (by simp), qpStep, loopForever, loop_l2 h]
          rfl
        | k + 2 =>
          obtain ⟨st', c1, c2, c3, c4, c5, c6, c7, c8, c9, c10⟩ := (loop_l2a h).2 (by simp)
          rw [qpRun_succ (k + 1) (by simp), qpStep, loopForever, loop_l2 h, Out.ok_bind, qpRun_succ k (by simp), qpStep, c1,
            Out.ok_bind]
          refine ih k (by omega) st' ⟨by rw [c2, h.J0], by rw [c2, h.J1], by rw [c3, h.R00], by rw [c4, h.Rn], c5,
            by rw [c6, h.s1], ?_, c9, by rw [c10, h.AO], by rw [c6]; exact h.sge⟩
          rw [c6, c7, c8]
          exact chooseViolated_none _ _ _ _ _ fun i hi => h.sge i (by simpa using hi)
    obtain ⟨st, h1, h2⟩ := loop_reach (Or.inr rfl) w
    have h3 := h2 fuel
    have h4 : qpRun dblEps 1000 loopForever idJ (fuel + 5) (.eq 0 (qpInit loopForever idJ w)) = .diverge := by
      unfold loopForever
      rw [h3]; exact key fuel st h1
    exact qpRun_diverge _ _ 5 h4

end Verif
