import Verif.WpProofs
import Verif.FlagLemmas
import Verif.Model.Utils

/-!
# C53, C54, C55, C57 — symbolic waypoints, skew matrix, Bernstein basis, waypoint arithmetic
-/

set_option linter.unusedSimpArgs false

namespace Verif
open Matrix

theorem symbolic_eq (flag : Flag) (d : BC) (T : ℝ) (pts : List V3) (K : ℕ)
    (h : computeConstantWaypoints flag d T = .ok pts) (hK : dimVarPts flag = K) :
    computeConstantWaypointsSymbolic flag d T = .ok ⟨K, pts.map (symbolicOf K)⟩ := by
  subst hK
  simp [computeConstantWaypointsSymbolic, h]

/-- C53. Missing for the full statement: the hypothesis that no constant waypoint is (nearly) the
origin, and the sets with three or five free points; both are necessary, see `C53_refuted_zero` and
`C53_refuted_many`. Every symbolic waypoint evaluated at `x` is the control point of the curve with
free point `x`. -/
theorem C53_symbolic_partial (flag : Flag) (hf : flag ∈ comFlags ++ [255#32]) (d : BC) (T : ℝ)
    (pts : List V3) (h : computeConstantWaypoints flag d T = .ok pts)
    (hz : ∀ i < pts.length, i ∉ freeSlots flag → ∃ k, 1e-12 < |nth pts i k|) :
    ∃ ws, computeConstantWaypointsSymbolic flag d T = .ok ws ∧ ws.1 = 1 ∧
      ws.2.length = pts.length ∧
      ∀ (x : V3) (i : ℕ), i < pts.length → (ws.2[i]!).at (fun _ => x) = fill flag (nth pts) x i := by
  have hd : dimVarPts flag = 1 := by
    simp only [comFlags, List.mem_append, List.mem_cons, List.not_mem_nil, or_false] at hf
    rcases hf with (rfl | rfl | rfl | rfl | rfl | rfl | rfl) | rfl <;> decide
  have hfree : ∀ i ∈ freeSlots flag, nth pts i = 0 := by
    simp only [comFlags, List.mem_append, List.mem_cons, List.not_mem_nil, or_false] at hf
    rcases hf with (rfl | rfl | rfl | rfl | rfl | rfl | rfl) | rfl <;>
      simp [computeConstantWaypoints] at h
    case inl.inr.inl =>
      by_cases hd1 : d.dc1 = 0 <;> simp [hd1] at h
      subst h
      simp [freeSlots, nth, c0_dc0_dc1.computeConstantWaypoints]
      rfl
    all_goals
      subst h
      simp [freeSlots, nth, c0_dc0_c1.computeConstantWaypoints,
        c0_dc0_dc1_c1.computeConstantWaypoints, c0_dc0_ddc0.computeConstantWaypoints,
        c0_dc0_ddc0_c1.computeConstantWaypoints, c0_dc0_ddc0_dc1_c1.computeConstantWaypoints,
        c0_dc0_ddc0_ddc1_dc1_c1.computeConstantWaypoints,
        c0_dc0_ddc0_j0_j1_ddc1_dc1_c1.computeConstantWaypoints]
      rfl
  refine ⟨⟨1, pts.map (symbolicOf 1)⟩, symbolic_eq flag d T pts 1 h hd, rfl,
    by simp, ?_⟩
  intro x i hi
  have e : ((pts.map (symbolicOf 1))[i]!) = symbolicOf 1 (nth pts i) := by
    simp [nth, List.getD, hi]
  change ((pts.map (symbolicOf 1))[i]!).at (fun _ => x) = _
  rw [e]
  by_cases hm : i ∈ freeSlots flag
  · have : eigenIsZero (nth pts i) := by rw [hfree i hm]; intro k; norm_num
    simp [symbolicOf, this, WpB.at, fill, hm]
  · have : ¬ eigenIsZero (nth pts i) := by
      obtain ⟨k, hk⟩ := hz i hi hm
      intro hh
      exact absurd (hh k) (not_le.mpr hk)
    simp [symbolicOf, this, WpB.at, fill, hm]

/-- Non-vacuity of C53: data without any waypoint near the origin. -/
example : ∃ pts, computeConstantWaypoints 11#32 ⟨![1, 2, 3], ![1, 0, 0], 0, 0, ![2, 2, 3], 0, 0, 0⟩ 1
      = .ok pts ∧ ∀ i < pts.length, i ∉ freeSlots 11#32 → ∃ k, 1e-12 < |nth pts i k| := by
  refine ⟨_, by simp [computeConstantWaypoints]; rfl, ?_⟩
  intro i hi hm
  have : i = 0 ∨ i = 1 ∨ i = 2 ∨ i = 3 := by
    simp [c0_dc0_c1.computeConstantWaypoints] at hi; omega
  refine ⟨2, ?_⟩
  rcases this with rfl | rfl | rfl | rfl <;>
    simp [freeSlots, nth, c0_dc0_c1.computeConstantWaypoints] at hm ⊢ <;> norm_num

/-- C53 fails when a constant waypoint is the origin: with `c0 = 0` the first symbolic waypoint is
the free point instead of `c0`. -/
theorem C53_refuted_zero : ∃ (d : BC) (pts : List V3) (ws : Σ K : ℕ, List (WpB K)) (x : V3),
    computeConstantWaypoints 11#32 d 1 = .ok pts ∧
    computeConstantWaypointsSymbolic 11#32 d 1 = .ok ws ∧
    (ws.2[0]!).at (fun _ => x) ≠ fill 11#32 (nth pts) x 0 := by
  refine ⟨⟨0, ![1, 0, 0], 0, 0, ![2, 2, 3], 0, 0, 0⟩, _, _, ![1, 0, 0],
    by simp [computeConstantWaypoints]; rfl,
    symbolic_eq 11#32 _ 1 _ 1 (by simp [computeConstantWaypoints]; rfl) (by decide), ?_⟩
  intro h
  have h0 := congrFun h 0
  have hz2 : eigenIsZero (fun _ => (0 : ℝ)) := by intro k; norm_num
  simp [c0_dc0_c1.computeConstantWaypoints, symbolicOf, fill, freeSlots, nth, WpB.at, hz2] at h0

/-- C53 fails for the set with three free points, even when no constant waypoint is the origin: the
second free waypoint is expressed with the first free point. -/
theorem C53_refuted_many : ∃ (d : BC) (pts : List V3) (ws : Σ K : ℕ, List (WpB K)) (X : ℕ → V3),
    computeConstantWaypoints 767#32 d 1 = .ok pts ∧
    (∀ i < pts.length, i ∉ freeSlots 767#32 → ∃ k, 1e-12 < |nth pts i k|) ∧
    computeConstantWaypointsSymbolic 767#32 d 1 = .ok ws ∧
    (ws.2[5]!).at X ≠ fillMany 767#32 (nth pts) X 5 := by
  refine ⟨⟨1, 0, 0, 0, 1, 0, 0, 0⟩, _, _, fun i => if i = 0 then 1 else 0,
    by simp [computeConstantWaypoints]; rfl, ?_,
    symbolic_eq 767#32 _ 1 _ 3 (by simp [computeConstantWaypoints]; rfl) (by decide), ?_⟩
  · intro i hi hm
    refine ⟨0, ?_⟩
    have hi' : i < 11 := hi
    have hm' : i ≠ 4 ∧ i ≠ 5 ∧ i ≠ 6 := by simpa [freeSlots] using hm
    have : i = 0 ∨ i = 1 ∨ i = 2 ∨ i = 3 ∨ i = 7 ∨ i = 8 ∨ i = 9 ∨ i = 10 := by omega
    rcases this with rfl | rfl | rfl | rfl | rfl | rfl | rfl | rfl <;>
      simp [nth, c0_dc0_ddc0_j0_x3_j1_ddc1_dc1_c1.computeConstantWaypoints] <;> norm_num
  · intro h
    have h0 := congrFun h 0
    have hz2 : eigenIsZero (fun _ => (0 : ℝ)) := by intro k; norm_num
    simp [c0_dc0_ddc0_j0_x3_j1_ddc1_dc1_c1.computeConstantWaypoints, symbolicOf, fillMany,
      freeSlots, nth, WpB.at, Fin.sum_univ_three, hz2] at h0

/-- C54. `skew a` is the matrix of the cross product by `a`. -/
theorem C54_skew_cross (a b : V3) : skew a *ᵥ b = cr a b := by
  funext k
  rw [cr, cross_apply]
  fin_cases k <;> simp [skew, mulVec, dotProduct, Fin.sum_univ_three] <;> ring

/-- C54. `skew a` is antisymmetric. -/
theorem C54_skew_antisymm (a : V3) : (skew a)ᵀ = - skew a := by
  ext i j
  rw [transpose_apply, neg_apply]
  fin_cases i <;> fin_cases j <;> simp [skew]

/-- C54. `skew a` kills every multiple of `a`. -/
theorem C54_skew_parallel (a : V3) (k : ℝ) : skew a *ᵥ (k • a) = 0 := by
  funext i
  fin_cases i <;> simp [skew, mulVec, dotProduct, Fin.sum_univ_three] <;> ring

/-- C54. The matrix determines the vector. -/
theorem C54_skew_injective (a b : V3) (h : skew a = skew b) : a = b := by
  have h1 := congrFun (congrFun h 2) 1
  have h2 := congrFun (congrFun h 0) 2
  have h3 := congrFun (congrFun h 1) 0
  simp [skew] at h1 h2 h3
  funext i
  fin_cases i <;> simp [h1, h2, h3]

theorem bernLoop_eq (degree : BitVec 32) (hd : degree.toNat < 2 ^ 32 - 1) :
    ∀ (k : ℕ) (i : BitVec 32) (res : List Bern) (fuel : ℕ), i.toNat + k = degree.toNat + 1 →
      k + 1 ≤ fuel →
      bernLoop degree fuel i res
        = .ok (res ++ (List.range' i.toNat k).map fun j => ⟨degree.toNat, j⟩) := by
  intro k
  induction k with
  | zero =>
    intro i res fuel hk hf
    obtain ⟨f, rfl⟩ : ∃ f, fuel = f + 1 := ⟨fuel - 1, by omega⟩
    have : ¬ i ≤ degree := by rw [BitVec.le_def]; omega
    simp [bernLoop, this]
  | succ k ih =>
    intro i res fuel hk hf
    obtain ⟨f, rfl⟩ : ∃ f, fuel = f + 1 := ⟨fuel - 1, by omega⟩
    have hle : i ≤ degree := by rw [BitVec.le_def]; omega
    have hi : (i + 1).toNat = i.toNat + 1 := by
      rw [BitVec.toNat_add]; simp; omega
    rw [bernLoop, if_pos hle, ih (i + 1) _ f (by omega) (by omega), hi]
    simp [List.range'_succ]

/-- C55. For every degree but the largest 32 bit integer the loop ends and returns the `n+1`
Bernstein polynomials of degree `n` in order. -/
theorem C55_bernstein_list (degree : BitVec 32) (hd : degree.toNat < 2 ^ 32 - 1) :
    ∃ N, ∀ fuel ≥ N, ∃ l, ComputeBersteinPolynoms degree fuel = .ok l ∧
      l.length = degree.toNat + 1 ∧
      (∀ (u : ℝ) (E : Type) [AddCommGroup E] [Module ℝ E] (p : ℕ → E),
        ((List.range l.length).map fun i => (l.map fun b => b.eval u).getD i 0 • p i).sum
          = bez degree.toNat p u) := by
  refine ⟨degree.toNat + 2, fun fuel hf => ⟨_, bernLoop_eq degree hd (degree.toNat + 1) 0 [] fuel
    (by simp) (by omega), by simp, ?_⟩⟩
  intro u E _ _ p
  simp only [List.nil_append, List.length_map, List.length_range', bez]
  rw [Finset.sum_range]
  rw [← List.sum_ofFn]
  congr 1
  apply List.ext_getElem
  · simp
  · intro i h1 h2
    simp at h1 h2
    have : i < degree.toNat + 1 := by omega
    simp [Bern.eval, List.getD, this, -List.ofFn_succ]

/-- C55. On `[0,1]` the polynomials returned are nonnegative and sum to one. -/
theorem C55_partition_of_unity (degree : BitVec 32) (fuel : ℕ) (l : List Bern)
    (hd : degree.toNat < 2 ^ 32 - 1) (h : ComputeBersteinPolynoms degree fuel = .ok l) (u : ℝ) :
    (l.map fun b => b.eval u).sum = 1 ∧ (0 ≤ u → u ≤ 1 → ∀ b ∈ l, 0 ≤ b.eval u) := by
  have hmono : ∀ fuel i res r, bernLoop degree fuel i res = .ok r →
      ∀ f', fuel ≤ f' → bernLoop degree f' i res = .ok r := by
    intro fuel
    induction fuel with
    | zero => intro i res r h; simp [bernLoop] at h
    | succ n ih =>
      intro i res r h f' hf
      obtain ⟨f, rfl⟩ : ∃ f, f' = f + 1 := ⟨f' - 1, by omega⟩
      rw [bernLoop] at h ⊢
      split at h
      · rename_i hle
        rw [if_pos hle]
        exact ih _ _ _ h f (by omega)
      · rename_i hle
        rw [if_neg hle]
        exact h
  have h1 := hmono _ _ _ _ h (fuel + degree.toNat + 2) (by omega)
  have h2 := bernLoop_eq degree hd (degree.toNat + 1) 0 [] (fuel + degree.toNat + 2)
    (by simp) (by omega)
  rw [h2] at h1
  simp at h1
  subst h1
  constructor
  · have := bez_const (E := ℝ) degree.toNat 1 u
    rw [bez, Finset.sum_range, ← List.sum_ofFn] at this
    rw [← this]
    congr 1
    apply List.ext_getElem
    · simp
    · intro i h1 h2
      simp [Bern.eval, -List.ofFn_succ]
  · intro h0 h1 b hb
    simp at hb
    obtain ⟨j, hj, rfl⟩ := hb
    have : 0 ≤ 1 - u := by linarith
    unfold Bern.eval
    positivity

/-- C55. Consequently a curve stays in every half-space containing its control points. -/
theorem C55_half_space (n : ℕ) (p : ℕ → V3) (a : V3) (b t : ℝ) (h0 : 0 ≤ t) (h1 : t ≤ 1)
    (h : ∀ i ≤ n, dot a (p i) ≤ b) : dot a (bez n p t) ≤ b := by
  have : dot a (bez n p t) = bez n (fun i => dot a (p i)) t := by
    have := bez_map (E := V3) (F := ℝ)
      { toFun := fun v => dot a v
        map_add' := by intro x y; simp [dot]; ring
        map_smul' := by intro c x; simp [dot]; ring } n p t
    exact this
  rw [this]
  exact bez_le h0 h1 h

/-- C55, disagreement: for the degree `2^32 - 1` the loop condition is always true and the call never
returns. -/
theorem C55_max_degree_diverges (fuel : ℕ) :
    ∃ l, ComputeBersteinPolynoms (BitVec.allOnes 32) fuel = l ∧ l = .diverge := by
  refine ⟨_, rfl, ?_⟩
  unfold ComputeBersteinPolynoms
  generalize (0 : BitVec 32) = i
  generalize ([] : List Bern) = res
  induction fuel generalizing i res with
  | zero => rfl
  | succ n ih =>
    have : i ≤ BitVec.allOnes 32 := by
      rw [BitVec.le_def]; have := i.isLt; simp; omega
    rw [bernLoop, if_pos this]
    exact ih _ _

/-- Non-vacuity of C55: degree 4. -/
example : ∃ l, ComputeBersteinPolynoms 4#32 10 = .ok l ∧ l.length = 5 :=
  ⟨_, rfl, rfl⟩

/-- Component `i` of a waypoint evaluated at the free vector `x`. -/
noncomputable def WpDyn.at (w : WpDyn) (x : ℕ → ℝ) (i : ℕ) : ℝ :=
  ∑ j ∈ Finset.range w.cols, w.first i j * x j + w.second i

/-- C57. Addition of waypoints throws exactly when sizes differ and otherwise commutes with evaluation. -/
theorem C57_add (w1 w2 : WpDyn) :
    ((w1.size ≠ w2.size ∨ w1.rows ≠ w2.rows ∨ w1.cols ≠ w2.cols) ↔ ∃ m, w1.add w2 = .throw m) ∧
    ∀ w, w1.add w2 = .ok w → w.rows = w1.rows ∧ w.cols = w1.cols ∧ w.size = w1.size ∧
      ∀ x i, w.at x i = w1.at x i + w2.at x i := by
  unfold WpDyn.add
  constructor
  · split <;> simp_all
  · intro w h
    split at h
    · cases h
    · rename_i hs
      simp only [not_or, not_not] at hs
      cases h
      refine ⟨rfl, rfl, rfl, fun x i => ?_⟩
      simp only [WpDyn.at, hs.2.2, add_mul, Finset.sum_add_distrib]
      ring

/-- C57. Subtraction of waypoints. -/
theorem C57_sub (w1 w2 : WpDyn) :
    ((w1.size ≠ w2.size ∨ w1.rows ≠ w2.rows ∨ w1.cols ≠ w2.cols) ↔ ∃ m, w1.sub w2 = .throw m) ∧
    ∀ w, w1.sub w2 = .ok w → w.rows = w1.rows ∧ w.cols = w1.cols ∧ w.size = w1.size ∧
      ∀ x i, w.at x i = w1.at x i - w2.at x i := by
  unfold WpDyn.sub
  constructor
  · split <;> simp_all
  · intro w h
    split at h
    · cases h
    · rename_i hs
      simp only [not_or, not_not] at hs
      cases h
      refine ⟨rfl, rfl, rfl, fun x i => ?_⟩
      simp only [WpDyn.at, hs.2.2, sub_mul, Finset.sum_sub_distrib]
      ring

/-- C57. Scaling of waypoints. -/
theorem C57_scale (k : ℝ) (w : WpDyn) :
    (w.scale k).rows = w.rows ∧ (w.scale k).cols = w.cols ∧ (w.scale k).size = w.size ∧
      ∀ x i, (w.scale k).at x i = k * w.at x i := by
  refine ⟨rfl, rfl, rfl, fun x i => ?_⟩
  simp only [WpDyn.at, WpDyn.scale, mul_add, Finset.mul_sum]
  congr 1
  apply Finset.sum_congr rfl
  intro j _
  ring

/-- C57. The waypoint made by `initwp` evaluates to zero. -/
theorem C57_init (r c : ℕ) (x : ℕ → ℝ) (i : ℕ) : (WpDyn.init r c).at x i = 0 := by
  simp [WpDyn.at, WpDyn.init]

/-- Non-vacuity of C57: sizes that agree, and sizes that do not. -/
example : (∃ w, (WpDyn.init 3 3).add (WpDyn.init 3 3) = .ok w) ∧
    ∃ m, (WpDyn.init 3 3).add (WpDyn.init 3 9) = .throw m :=
  ⟨⟨_, by simp [WpDyn.add, WpDyn.init]; rfl⟩, ⟨_, by simp [WpDyn.add, WpDyn.init]; rfl⟩⟩

end Verif
