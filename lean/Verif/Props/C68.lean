import Verif.Model.UtilsMore
import Verif.Model.EndEffector
import Verif.WpProofs
import Mathlib.Data.Real.Sqrt

/-!
# C68: comparison of waypoints; C69: the Qhull file; C70: predefined motions
-/

namespace Verif

/-! ## C68 -/

/-- Same sizes. -/
def SameSizes (w o : WpDyn) : Prop := w.rows = o.rows ∧ w.cols = o.cols ∧ w.size = o.size

theorem sumSq_nonneg (r c : ℕ) (e : ℕ → ℕ → ℝ) : 0 ≤ sumSq r c e :=
  Finset.sum_nonneg fun _ _ => Finset.sum_nonneg fun _ _ => sq_nonneg _

theorem sumSq_sub_comm (r c : ℕ) (a b : ℕ → ℕ → ℝ) : sumSq r c (fun i j => a i j - b i j) = sumSq r c (fun i j => b i j - a i j) := by
  unfold sumSq
  refine Finset.sum_congr rfl fun i _ => Finset.sum_congr rfl fun j _ => ?_
  ring

theorem sumSq_eq_zero {r c : ℕ} {e : ℕ → ℕ → ℝ} (h : sumSq r c e ≤ 0) : ∀ i < r, ∀ j < c, e i j = 0 := by
  intro i hi j hj
  have h0 := le_antisymm h (sumSq_nonneg r c e)
  have h1 := (Finset.sum_eq_zero_iff_of_nonneg fun i _ => Finset.sum_nonneg fun j _ => sq_nonneg (e i j)).mp h0 i
    (Finset.mem_range.mpr hi)
  have h2 := (Finset.sum_eq_zero_iff_of_nonneg fun j _ => sq_nonneg (e i j)).mp h1 j (Finset.mem_range.mpr hj)
  exact pow_eq_zero_iff (two_ne_zero) |>.mp h2

/-- Relative closeness of both parts: what `==` means. -/
def RelClose (prec : ℝ) (w o : WpDyn) : Prop :=
  sumSq w.rows w.cols (fun i j => w.first i j - o.first i j)
      ≤ prec ^ 2 * min (sumSq w.rows w.cols w.first) (sumSq w.rows w.cols o.first) ∧
  ∑ i ∈ Finset.range w.size, (w.second i - o.second i) ^ 2
      ≤ prec ^ 2 * min (∑ i ∈ Finset.range w.size, w.second i ^ 2) (∑ i ∈ Finset.range w.size, o.second i ^ 2)

/-- C68. On waypoints of the same sizes `isApprox` answers whether both parts are close relatively to the smaller one; on
matrices of different sizes it violates an assertion. -/
theorem C68_meaning (w o : WpDyn) (prec : ℝ) :
    (SameSizes w o → ∃ r, w.isApprox o prec = .ok r ∧ (r = true ↔ RelClose prec w o)) ∧
    (¬ (w.rows = o.rows ∧ w.cols = o.cols) → w.isApprox o prec = .assertFail) := by
  constructor
  · rintro ⟨h1, h2, h3⟩
    unfold WpDyn.isApprox eigenIsApprox
    rw [if_pos ⟨h1, h2⟩, if_pos ⟨h3, rfl⟩, Out.ok_bind]
    by_cases h : sumSq w.rows w.cols (fun i j => w.first i j - o.first i j)
        ≤ prec * prec * min (sumSq w.rows w.cols w.first) (sumSq w.rows w.cols o.first)
    · simp only [h, decide_true, if_true]
      refine ⟨_, rfl, ?_⟩
      rw [decide_eq_true_iff]
      simp only [RelClose, sumSq, Finset.sum_range_one, sq prec]
      exact ⟨fun h' => ⟨h, h'⟩, fun h' => h'.2⟩
    · simp only [h, decide_false]
      refine ⟨false, rfl, ?_⟩
      simp only [RelClose, sq prec, h, false_and]
      simp
  · intro h
    unfold WpDyn.isApprox eigenIsApprox
    rw [if_neg h]
    rfl

/-- C68. `==` is reflexive. -/
theorem C68_reflexive (w : WpDyn) : w.eq w = .ok true := by
  obtain ⟨r, h1, h2⟩ := (C68_meaning w w 1e-12).1 ⟨rfl, rfl, rfl⟩
  rw [WpDyn.eq, h1, h2.mpr]
  refine ⟨?_, ?_⟩
  · have := sumSq_nonneg w.rows w.cols w.first
    simp only [sub_self, min_self]
    have h0 : sumSq w.rows w.cols (fun _ _ => 0) = 0 := by simp [sumSq]
    rw [h0]
    positivity
  · simp only [sub_self, min_self]
    have : 0 ≤ ∑ i ∈ Finset.range w.size, w.second i ^ 2 := Finset.sum_nonneg fun _ _ => sq_nonneg _
    simp only [ne_eq, OfNat.ofNat_ne_zero, not_false_eq_true, zero_pow, Finset.sum_const_zero]
    positivity

/-- C68. `==` is symmetric on waypoints of the same sizes. -/
theorem C68_symmetric (w o : WpDyn) (h : SameSizes w o) : w.eq o = o.eq w := by
  obtain ⟨r, h1, h2⟩ := (C68_meaning w o 1e-12).1 h
  obtain ⟨r', h3, h4⟩ := (C68_meaning o w 1e-12).1 ⟨h.1.symm, h.2.1.symm, h.2.2.symm⟩
  rw [WpDyn.eq, WpDyn.eq, h1, h3]
  have hc : RelClose 1e-12 w o ↔ RelClose 1e-12 o w := by
    unfold RelClose
    rw [h.1, h.2.1, h.2.2, sumSq_sub_comm, min_comm, min_comm (∑ i ∈ Finset.range o.size, w.second i ^ 2)]
    have : ∀ i, (w.second i - o.second i) ^ 2 = (o.second i - w.second i) ^ 2 := fun i => by ring
    simp only [this]
  have : r = r' := by
    rw [Bool.eq_iff_iff, h2, h4, hc]
  rw [this]

/-- C68. A waypoint equals one whose parts are zero only if its parts are zero. -/
theorem C68_zero (w : WpDyn) (h : w.eq { w with first := fun _ _ => 0, second := fun _ => 0 } = .ok true) :
    (∀ i < w.rows, ∀ j < w.cols, w.first i j = 0) ∧ ∀ i < w.size, w.second i = 0 := by
  obtain ⟨r, h1, h2⟩ := (C68_meaning w { w with first := fun _ _ => 0, second := fun _ => 0 } 1e-12).1 ⟨rfl, rfl, rfl⟩
  rw [WpDyn.eq, h1] at h
  obtain ⟨h3, h4⟩ := h2.mp (Out.ok.inj h)
  have z1 : sumSq w.rows w.cols (fun _ _ => 0) = 0 := by simp [sumSq]
  simp only [sub_zero, z1] at h3
  rw [min_eq_right (sumSq_nonneg _ _ _), mul_zero] at h3
  refine ⟨sumSq_eq_zero h3, ?_⟩
  simp only [sub_zero, ne_eq, OfNat.ofNat_ne_zero, not_false_eq_true, zero_pow, Finset.sum_const_zero] at h4
  have h5 : sumSq w.size 1 (fun i _ => w.second i) ≤ 0 := by
    simp only [sumSq, Finset.sum_range_one]
    refine h4.trans ?_
    rw [min_eq_right (Finset.sum_nonneg fun _ _ => sq_nonneg _), mul_zero]
  exact fun i hi => sumSq_eq_zero h5 i hi 0 one_pos

/-- A waypoint with one row, no variable, and constant part `a`. -/
def constWp (a : ℝ) : WpDyn := { rows := 1, cols := 0, first := fun _ _ => 0, size := 1, second := fun _ => a }

theorem constWp_eq (a b : ℝ) : ∃ r, (constWp a).eq (constWp b) = .ok r ∧ (r = true ↔ (a - b) ^ 2 ≤ 1e-12 ^ 2 * min (a ^ 2) (b ^ 2)) := by
  obtain ⟨r, h1, h2⟩ := (C68_meaning (constWp a) (constWp b) 1e-12).1 ⟨rfl, rfl, rfl⟩
  refine ⟨r, h1, h2.trans ?_⟩
  simp [RelClose, constWp, sumSq]

/-- C68, transitivity is false: three constants, the first equal to the second and the second to the third, but not the
first to the third. -/
theorem C68_not_transitive : (constWp 1).eq (constWp (1 + 9e-13)) = .ok true ∧
    (constWp (1 + 9e-13)).eq (constWp (1 + 18e-13)) = .ok true ∧ (constWp 1).eq (constWp (1 + 18e-13)) = .ok false := by
  refine ⟨?_, ?_, ?_⟩
  · obtain ⟨r, h1, h2⟩ := constWp_eq 1 (1 + 9e-13)
    rw [h1, h2.mpr]
    rw [min_eq_left (by norm_num)]
    norm_num
  · obtain ⟨r, h1, h2⟩ := constWp_eq (1 + 9e-13) (1 + 18e-13)
    rw [h1, h2.mpr]
    rw [min_eq_left (by norm_num)]
    norm_num
  · obtain ⟨r, h1, h2⟩ := constWp_eq 1 (1 + 18e-13)
    rw [h1]
    congr 1
    rw [Bool.eq_false_iff]
    intro h
    have := h2.mp h
    rw [min_eq_left (by norm_num)] at this
    norm_num at this

/-- C68. `!=` is the negation of `==`. -/
theorem C68_ne (w o : WpDyn) (h : SameSizes w o) : ∃ r, w.eq o = .ok r ∧ w.ne o = .ok (!r) := by
  obtain ⟨r, h1, -⟩ := (C68_meaning w o 1e-12).1 h
  refine ⟨r, h1, ?_⟩
  rw [WpDyn.ne, WpDyn.eq, h1]
  rfl

/-! ## C69 -/

/-- The set of points described by half spaces `n . x + offset <= 0`, as Qhull reads them. -/
def QHullFile.Contains (f : QHullFile) (x : V3) : Prop := ∀ r ∈ f.rows, dot r.1 x + r.2 ≤ 0
/-- What Qhull asks of the given point. -/
def QHullFile.Interior (f : QHullFile) : Prop := ∀ r ∈ f.rows, dot r.1 f.point + r.2 < 0

/-- Row `i` of a matrix applied to a point, the other unknowns being zero. -/
def rowAt (A : Mat) (i : ℕ) (x : V3) : ℝ := A.e i 0 * x 0 + A.e i 1 * x 1 + A.e i 2 * x 2

/-- C69. When the file can be opened it announces as many half spaces as it contains; they describe the set `A x ≤ b`
enlarged by one thousandth, cut at heights -1 and 3 if this is asked; a point with `A x ≤ b`, between these heights, is
an interior point as Qhull requires. -/
theorem C69_file (A b : Mat) (p : List ℝ) (clipZ : Bool) (hp : 3 ≤ p.length) (hA : 3 ≤ A.cols) (hb : A.rows = b.rows) :
    ∃ f, printQHullFile true A b p clipZ = .ok (some f) ∧ f.count = f.rows.length ∧
      (∀ x, f.Contains x ↔ (∀ i < A.rows, rowAt A i x ≤ b.e i 0 + 1 / 1000) ∧ (clipZ = true → -1 ≤ x 2 ∧ x 2 ≤ 3)) ∧
      ((∀ i < A.rows, rowAt A i f.point ≤ b.e i 0) → (clipZ = true → -1 < p.getD 2 0 ∧ p.getD 2 0 < 3) → f.Interior) := by
  unfold printQHullFile
  rw [if_pos ⟨hp, Or.inr ⟨hA, hb.le⟩⟩]
  refine ⟨_, rfl, ?_, ?_, ?_⟩
  · cases clipZ <;> simp
  · intro x
    constructor
    · intro h
      refine ⟨fun i hi => ?_, fun hc => ?_⟩
      · have := h ((fun k : Fin 3 => A.e i k), -(b.e i 0) - 0.001)
          (List.mem_append_left _ (List.mem_map.mpr ⟨i, List.mem_range.mpr hi, rfl⟩))
        simp only [dot, rowAt] at this ⊢
        norm_num at this ⊢
        linarith
      · subst hc
        have h1 := h (![0, 0, 1], -3) (List.mem_append_right _ (by simp))
        have h2 := h (![0, 0, -1], -1) (List.mem_append_right _ (by simp))
        simp [dot] at h1 h2
        constructor <;> linarith
    · rintro ⟨h1, h2⟩ r hr
      rcases List.mem_append.mp hr with hr | hr
      · obtain ⟨i, hi, rfl⟩ := List.mem_map.mp hr
        have := h1 i (List.mem_range.mp hi)
        simp only [dot, rowAt] at this ⊢
        norm_num at this ⊢
        linarith
      · cases clipZ with
        | false => simp at hr
        | true =>
          obtain ⟨a, c⟩ := h2 rfl
          simp at hr
          rcases hr with rfl | rfl <;> simp [dot] <;> linarith
  · intro h1 h2 r hr
    rcases List.mem_append.mp hr with hr | hr
    · obtain ⟨i, hi, rfl⟩ := List.mem_map.mp hr
      have := h1 i (List.mem_range.mp hi)
      simp only [dot, rowAt] at this ⊢
      norm_num at this ⊢
      linarith
    · cases clipZ with
      | false => simp at hr
      | true =>
        obtain ⟨a, c⟩ := h2 rfl
        simp at hr
        rcases hr with rfl | rfl <;> simp [dot] <;> simp at a c <;> linarith

/-- C69 is false when the directory does not exist: the call returns and nothing is written. -/
theorem C69_refuted (A b : Mat) (p : List ℝ) (clipZ : Bool) (hp : 3 ≤ p.length) (hA : 3 ≤ A.cols) (hb : A.rows = b.rows) :
    printQHullFile false A b p clipZ = .ok none := by
  unfold printQHullFile
  rw [if_pos ⟨hp, Or.inr ⟨hA, hb.le⟩⟩]
  rfl

/-- One half space `x ≤ 1`, seen from the origin. -/
example : ∃ f, printQHullFile true ⟨1, 3, fun _ j => if j = 0 then 1 else 0⟩ ⟨1, 1, fun _ _ => 1⟩ [0, 0, 0] true = .ok (some f) ∧
    f.Interior ∧ f.Contains ![1, 0, 0] ∧ ¬ f.Contains ![2, 0, 0] := by
  obtain ⟨f, h1, -, h3, h4⟩ := C69_file ⟨1, 3, fun _ j => if j = 0 then 1 else 0⟩ ⟨1, 1, fun _ _ => 1⟩ [0, 0, 0] true
    (by simp) (by simp) rfl
  have hpt : f.point = 0 := by
    unfold printQHullFile at h1
    simp at h1
    rw [← h1]
    funext k
    fin_cases k <;> rfl
  refine ⟨f, h1, h4 ?_ (by simp), (h3 _).mpr ?_, fun h => ?_⟩
  · intro i _
    simp [rowAt, hpt]
  · simp [rowAt]
  · have := ((h3 _).mp h).1 0 (by simp)
    simp [rowAt] at this
    norm_num at this

/-! ## C70 -/

/-- C70. The motion with the predefined start begins with the given position, velocity and acceleration and without jerk,
and ends at the given position. -/
theorem C70_init (d : BC) (T : ℝ) (hT : T ≠ 0) :
    (computeConstantWaypointsInitPredef d T).length = 5 ∧
    MeetsBoundary 79#32 { d with j0 := 0 } (curve 4 (nth (computeConstantWaypointsInitPredef d T)) T) T := by
  refine ⟨rfl, ?_⟩
  apply meets_of_points 1 _ _ hT <;> intro h <;> first | (exfalso; revert h; decide) | skip
  all_goals
    clear h
    ext k
    simp [hodo, nth, computeConstantWaypointsInitPredef]
  all_goals field_simp
  all_goals first | done | (right; ring) | ring

/-- C70. The motion with the predefined end starts at the given position and ends with the given position, velocity and
acceleration, without jerk. -/
theorem C70_goal (d : BC) (T : ℝ) (hT : T ≠ 0) :
    (computeConstantWaypointsGoalPredef d T).length = 5 ∧
    MeetsBoundary 185#32 { d with j1 := 0 } (curve 4 (nth (computeConstantWaypointsGoalPredef d T)) T) T := by
  refine ⟨rfl, ?_⟩
  apply meets_of_points 1 _ _ hT <;> intro h <;> first | (exfalso; revert h; decide) | skip
  all_goals
    clear h
    ext k
    simp [hodo, nth, computeConstantWaypointsGoalPredef]
  all_goals field_simp
  all_goals first | done | (right; ring) | ring

end Verif
