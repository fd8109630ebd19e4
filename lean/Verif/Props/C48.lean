import Verif.Lemmas.EndEffector
import Verif.SpecEnd
import Verif.Props.C14

/-!
# C48 — constraint matrix of the end effector problem
-/

namespace Verif
open Matrix

theorem depends_iff {K : ℕ} (w : WpB K) : Depends w ↔ ¬ w.isZero := by
  unfold Depends WpB.isZero
  push Not
  rfl

theorem bounded_iff {K : ℕ} (ws : List (WpB K)) (lo up : V3) (X : ℕ → V3) :
    ((∀ w ∈ ws, ¬ w.isZero → ∀ k, 1 * w.at X k ≤ up k) ∧ ∀ w ∈ ws, ¬ w.isZero → ∀ k, -1 * w.at X k ≤ lo k) ↔
      Within ws lo up X := by
  unfold Within
  constructor
  · rintro ⟨h1, h2⟩ w hw hd k
    have hz := (depends_iff w).mp hd
    have a1 := h1 w hw hz k
    have a2 := h2 w hw hz k
    constructor <;> linarith
  · intro h
    refine ⟨fun w hw hz k => ?_, fun w hw hz k => ?_⟩
    · have := h w hw ((depends_iff w).mpr hz) k; linarith [this.2]
    · have := h w hw ((depends_iff w).mpr hz) k; linarith [this.1]

/-- C48. What the rows of `computeConstraintsMatrix` say, for all lists of control points and all bounds: it fills its
matrix exactly, and `y` satisfies the system iff each acceleration and velocity control point that depends on the free
points is within its bounds, each such jerk control point is at least minus its bound and at most the bound *of the
velocity*, and the height of each free point is at least the least height of the two ends. The claim for the jerk holds
when the two bounds are equal (`C48_bounds_partial`) and fails otherwise (`C48_refuted`). -/
theorem C48_rows {K : ℕ} (d : BC) (acc vel : List (WpB K)) (accB velB : V3) (jerk : List (WpB K)) (jerkB : V3) :
    ∃ A b, computeConstraintsMatrix d acc vel accB velB jerk jerkB = .ok (A, b) ∧
      A.rows = 6 * (countBound acc + countBound vel + countBound jerk) + 3 * K ∧ A.cols = 3 * K ∧ b.rows = A.rows ∧ b.cols = 1 ∧
      ∀ y, Sat A b y ↔ Within acc accB accB (pointsOf y) ∧ Within vel velB velB (pointsOf y) ∧
        Within jerk jerkB velB (pointsOf y) ∧ AboveEnds K d.c0 d.c1 (pointsOf y) := by
  generalize ha : countBound acc = ca
  generalize hv : countBound vel = cv
  generalize hj : countBound jerk = cj
  set n := 2 * 3 * (ca + cv + cj) + 3 * K with hn
  obtain ⟨⟨A1, b1⟩, a1, β1, q1, V1, o1, s1⟩ := boundLoop_view 1 accB n acc 0 _ _ _ _ (view_zero n (3 * K)) (by rw [ha]; omega)
  obtain ⟨⟨A2, b2⟩, a2, β2, q2, V2, o2, s2⟩ := boundLoop_view (-1) accB n acc (0 + countBound acc) _ _ _ _ V1 (by rw [ha]; omega)
  obtain ⟨⟨A3, b3⟩, a3, β3, q3, V3, o3, s3⟩ := boundLoop_view 1 velB n vel (0 + countBound acc + countBound acc) _ _ _ _ V2 (by rw [ha, hv]; omega)
  obtain ⟨⟨A4, b4⟩, a4, β4, q4, V4, o4, s4⟩ := boundLoop_view (-1) velB n vel (0 + countBound acc + countBound acc + countBound vel) _ _ _ _ V3
    (by rw [ha, hv]; omega)
  obtain ⟨⟨A5, b5⟩, a5, β5, q5, V5, o5, s5⟩ := boundLoop_view 1 velB n jerk
    (0 + countBound acc + countBound acc + countBound vel + countBound vel) _ _ _ _ V4 (by rw [ha, hv, hj]; omega)
  obtain ⟨⟨A6, b6⟩, a6, β6, q6, V6, o6, s6⟩ := boundLoop_view (-1) jerkB n jerk
    (0 + countBound acc + countBound acc + countBound vel + countBound vel + countBound jerk) _ _ _ _ V5
    (by rw [ha, hv, hj]; omega)
  simp only [ha, hv, hj] at q1 q2 q3 q4 q5 q6 o1 o2 o3 o4 o5 o6 s1 s2 s3 s4 s5 s6
  set e := 0 + ca + ca + cv + cv + cj + cj with he
  obtain ⟨A7, b7, w1, w2, V7⟩ := view_write V6 (e * 3) (3 * K) (fun r c => if r = c ∧ r % 3 = 2 then -1 else 0)
    (fun r => if r % 3 = 2 then -(min (d.c0 2) (d.c1 2)) else 0) (by omega)
  obtain ⟨A, b, z1, z2, r1, r2, r3, r4, hsat⟩ := view_value V7
  refine ⟨A, b, ?_, by rw [r1], r2, by rw [r1, r3], r4, fun y => ?_⟩
  · unfold computeConstraintsMatrix
    simp only [ha, hv, hj, ← hn]
    rw [q1]; simp only [Out.ok_bind]
    rw [q2]; simp only [Out.ok_bind]
    rw [q3]; simp only [Out.ok_bind]
    rw [q4]; simp only [Out.ok_bind]
    rw [q5]; simp only [Out.ok_bind]
    rw [q6]; simp only [Out.ok_bind]
    rw [w1]; simp only [Out.ok_bind]
    rw [w2]; simp only [Out.ok_bind]
    rw [if_pos (by rw [V7.ar]; omega), z1]; simp only [Out.ok_bind]
    rw [z2]; rfl
  · rw [hsat y, ← bounded_iff, ← bounded_iff, ← bounded_iff, ← s1 y, ← s2 y, ← s3 y, ← s4 y, ← s5 y, ← s6 y]
    have o7 : ∀ r, r < e * 3 → (∑ c ∈ Finset.range (3 * K), (if e * 3 ≤ r ∧ r < e * 3 + 3 * K ∧ c < 3 * K then
        (if r - e * 3 = c ∧ (r - e * 3) % 3 = 2 then (-1 : ℝ) else 0) else a6 r c) * y c ≤
          (if e * 3 ≤ r ∧ r < e * 3 + 3 * K then (if (r - e * 3) % 3 = 2 then -(min (d.c0 2) (d.c1 2)) else 0) else β6 r) ↔
        RowOk (3 * K) a6 β6 y r) := by
      intro r hr
      rw [if_neg (by omega), RowOk]
      have : ∑ c ∈ Finset.range (3 * K), (if e * 3 ≤ r ∧ r < e * 3 + 3 * K ∧ c < 3 * K then
        (if r - e * 3 = c ∧ (r - e * 3) % 3 = 2 then (-1 : ℝ) else 0) else a6 r c) * y c = ∑ c ∈ Finset.range (3 * K), a6 r c * y c :=
        Finset.sum_congr rfl fun c _ => by rw [if_neg (by omega)]
      rw [this]
    have s7 : (∀ r, e * 3 ≤ r → r < n → (∑ c ∈ Finset.range (3 * K), (if e * 3 ≤ r ∧ r < e * 3 + 3 * K ∧ c < 3 * K then
        (if r - e * 3 = c ∧ (r - e * 3) % 3 = 2 then (-1 : ℝ) else 0) else a6 r c) * y c ≤
          (if e * 3 ≤ r ∧ r < e * 3 + 3 * K then (if (r - e * 3) % 3 = 2 then -(min (d.c0 2) (d.c1 2)) else 0) else β6 r))) ↔
        AboveEnds K d.c0 d.c1 (pointsOf y) := by
      have row : ∀ r, e * 3 ≤ r → r < n → ((∑ c ∈ Finset.range (3 * K), (if e * 3 ≤ r ∧ r < e * 3 + 3 * K ∧ c < 3 * K then
        (if r - e * 3 = c ∧ (r - e * 3) % 3 = 2 then (-1 : ℝ) else 0) else a6 r c) * y c ≤
          (if e * 3 ≤ r ∧ r < e * 3 + 3 * K then (if (r - e * 3) % 3 = 2 then -(min (d.c0 2) (d.c1 2)) else 0) else β6 r)) ↔
          ((r - e * 3) % 3 = 2 → min (d.c0 2) (d.c1 2) ≤ y (r - e * 3))) := by
        intro r p1 p2
        rw [if_pos ⟨p1, by omega⟩]
        have : ∑ c ∈ Finset.range (3 * K), (if e * 3 ≤ r ∧ r < e * 3 + 3 * K ∧ c < 3 * K then
            (if r - e * 3 = c ∧ (r - e * 3) % 3 = 2 then (-1 : ℝ) else 0) else a6 r c) * y c
            = if (r - e * 3) % 3 = 2 then -y (r - e * 3) else 0 := by
          rw [Finset.sum_eq_single (r - e * 3)]
          · rw [if_pos ⟨p1, by omega, by omega⟩]
            by_cases hm : (r - e * 3) % 3 = 2
            · rw [if_pos ⟨rfl, hm⟩, if_pos hm]; ring
            · rw [if_neg fun hh => hm hh.2, if_neg hm]; ring
          · intro c hc hne
            rw [if_pos ⟨p1, by omega, Finset.mem_range.mp hc⟩, if_neg fun hh => hne hh.1.symm, zero_mul]
          · intro hh
            exact absurd (Finset.mem_range.mpr (by omega)) hh
        rw [this]
        by_cases hm : (r - e * 3) % 3 = 2
        · simp only [hm, if_true, true_implies]
          constructor <;> intro hh <;> linarith
        · simp [hm]
      unfold AboveEnds pointsOf
      constructor
      · intro hh j hjK
        have := (row (e * 3 + (3 * j + 2)) (by omega) (by omega)).mp (hh _ (by omega) (by omega))
        rw [show e * 3 + (3 * j + 2) - e * 3 = 3 * j + 2 by omega] at this
        exact this (by omega)
      · intro hh r p1 p2
        rw [row r p1 p2]
        intro hm
        have := hh ((r - e * 3) / 3) (by omega)
        rw [show 3 * ((r - e * 3) / 3) + ((2 : Fin 3) : ℕ) = r - e * 3 by simp; omega] at this
        exact this
    rw [← s7]
    constructor
    · intro hh
      refine ⟨⟨fun r p1 p2 => ?_, fun r p1 p2 => ?_⟩, ⟨fun r p1 p2 => ?_, fun r p1 p2 => ?_⟩, ⟨fun r p1 p2 => ?_, fun r p1 p2 => ?_⟩,
        fun r p1 p2 => hh r p2⟩
      · rw [← o2 r (by omega), ← o3 r (by omega), ← o4 r (by omega), ← o5 r (by omega), ← o6 r (by omega), ← o7 r (by omega)]
        exact hh r (by omega)
      · rw [← o3 r (by omega), ← o4 r (by omega), ← o5 r (by omega), ← o6 r (by omega), ← o7 r (by omega)]
        exact hh r (by omega)
      · rw [← o4 r (by omega), ← o5 r (by omega), ← o6 r (by omega), ← o7 r (by omega)]
        exact hh r (by omega)
      · rw [← o5 r (by omega), ← o6 r (by omega), ← o7 r (by omega)]
        exact hh r (by omega)
      · rw [← o6 r (by omega), ← o7 r (by omega)]
        exact hh r (by omega)
      · rw [← o7 r (by omega)]
        exact hh r (by omega)
    · rintro ⟨⟨g1, g2⟩, ⟨g3, g4⟩, ⟨g5, g6⟩, g7⟩ r hr
      by_cases h7 : e * 3 ≤ r
      · exact g7 r h7 hr
      · refine (o7 r (by omega)).mpr ?_
        by_cases h6 : (0 + ca + ca + cv + cv + cj) * 3 ≤ r
        · exact g6 r h6 (by omega)
        rw [o6 r (by omega)]
        by_cases h5 : (0 + ca + ca + cv + cv) * 3 ≤ r
        · exact g5 r h5 (by omega)
        rw [o5 r (by omega)]
        by_cases h4 : (0 + ca + ca + cv) * 3 ≤ r
        · exact g4 r h4 (by omega)
        rw [o4 r (by omega)]
        by_cases h3 : (0 + ca + ca) * 3 ≤ r
        · exact g3 r h3 (by omega)
        rw [o3 r (by omega)]
        by_cases h2 : (0 + ca) * 3 ≤ r
        · exact g2 r h2 (by omega)
        rw [o2 r (by omega)]
        exact g1 r (by omega) (by omega)

/-- C48 when the bounds of jerk and velocity are equal (or there is no jerk control point): each control point is within
its bounds. Missing: different bounds, where the claim fails, see `C48_refuted`. -/
theorem C48_bounds_partial {K : ℕ} (d : BC) (acc vel : List (WpB K)) (accB velB : V3) (jerk : List (WpB K)) (jerkB : V3)
    (h : jerk = [] ∨ jerkB = velB) :
    ∃ A b, computeConstraintsMatrix d acc vel accB velB jerk jerkB = .ok (A, b) ∧ A.cols = 3 * K ∧ b.rows = A.rows ∧
      ∀ y, Sat A b y ↔ Within acc accB accB (pointsOf y) ∧ Within vel velB velB (pointsOf y) ∧
        Within jerk jerkB jerkB (pointsOf y) ∧ AboveEnds K d.c0 d.c1 (pointsOf y) := by
  obtain ⟨A, b, h1, -, h2, h3, -, h4⟩ := C48_rows d acc vel accB velB jerk jerkB
  refine ⟨A, b, h1, h2, h3, fun y => ?_⟩
  rw [h4]
  rcases h with rfl | rfl
  · simp [Within]
  · rfl

/-- C48 fails for the jerk: with a jerk bound of 1 and a velocity bound of 2, the system accepts a jerk control point of
1.5; with the bounds exchanged, it rejects it. -/
theorem C48_refuted : ∃ (jerk : List (WpB 1)) (d : BC) (y : ℕ → ℝ),
    (∃ A b, computeConstraintsMatrix d [] [] (fun _ => 1) (fun _ => 2) jerk (fun _ => 1) = .ok (A, b) ∧ Sat A b y ∧
      ¬ Within jerk (fun _ => 1) (fun _ => 1) (pointsOf y)) ∧
    ∃ A b, computeConstraintsMatrix d [] [] (fun _ => 1) (fun _ => 1) jerk (fun _ => 2) = .ok (A, b) ∧ ¬ Sat A b y ∧
      Within jerk (fun _ => 2) (fun _ => 2) (pointsOf y) ∧ AboveEnds 1 d.c0 d.c1 (pointsOf y) := by
  have hd : Depends (⟨fun _ => 1, 0⟩ : WpB 1) := ⟨0, by norm_num⟩
  refine ⟨[⟨fun _ => 1, 0⟩], ⟨0, 0, 0, 0, 0, 0, 0, 0⟩, fun _ => 3 / 2, ?_, ?_⟩
  · obtain ⟨A, b, h1, -, -, -, -, h4⟩ := C48_rows ⟨0, 0, 0, 0, 0, 0, 0, 0⟩ [] [] (fun _ => 1) (fun _ => 2)
      [(⟨fun _ => 1, 0⟩ : WpB 1)] (fun _ => 1)
    refine ⟨A, b, h1, (h4 _).mpr ⟨by simp [Within], by simp [Within], ?_, ?_⟩, fun h => ?_⟩
    · intro w hw _ k
      rw [List.mem_singleton] at hw
      subst hw
      simp [WpB.at, pointsOf]; norm_num
    · intro j _; simp [pointsOf]; norm_num
    · have := (h _ (List.mem_singleton.mpr rfl) hd 0).2
      simp [WpB.at, pointsOf] at this
      norm_num at this
  · obtain ⟨A, b, h1, -, -, -, -, h4⟩ := C48_rows ⟨0, 0, 0, 0, 0, 0, 0, 0⟩ [] [] (fun _ => 1) (fun _ => 1)
      [(⟨fun _ => 1, 0⟩ : WpB 1)] (fun _ => 2)
    refine ⟨A, b, h1, fun h => ?_, ?_, ?_⟩
    · have := ((h4 _).mp h).2.2.1 _ (List.mem_singleton.mpr rfl) hd 0
      simp [WpB.at, pointsOf] at this
      norm_num at this
    · intro w hw _ k
      rw [List.mem_singleton] at hw
      subst hw
      simp [WpB.at, pointsOf]; norm_num
    · intro j _; simp [pointsOf]; norm_num

/-- The coordinates of a Bezier curve stay between the bounds of its control points. -/
theorem bez_mem_bounds (n : ℕ) (p : ℕ → V3) (k : Fin 3) (B : ℝ) (h : ∀ i ≤ n, |p i k| ≤ B) (t : ℝ) (h0 : 0 ≤ t) (h1 : t ≤ 1) :
    |bez n p t k| ≤ B := by
  rw [abs_le, bez_apply]
  constructor
  · have := bez_le (n := n) (p := fun i => -p i k) (b := B) h0 h1 fun i hi => by linarith [(abs_le.mp (h i hi)).1]
    have e : bez n (fun i => -p i k) t = -bez n (fun i => p i k) t := by
      unfold bez
      rw [← Finset.sum_neg_distrib]
      exact Finset.sum_congr rfl fun i _ => by simp
    linarith
  · exact bez_le h0 h1 fun i hi => (abs_le.mp (h i hi)).2

/-- C48 for the planner: `computeEndEffectorConstraints` says that each velocity, acceleration and jerk control point
reported for the set is between -10000 and 10000 if it depends on the free points, and that the free points are not lower
than the lower end. -/
theorem C48_end_effector (flag : Flag) (hf : flag ∈ effFlags) (d : BC) (T : ℝ) (pi : List V3)
    (hl : pi.length = degreeOf flag + 1) :
    ∃ vel acc jerk A b, computeVelocityWaypoints flag d T pi = .ok vel ∧ computeAccelerationWaypoints flag d T pi = .ok acc ∧
      computeJerkWaypoints flag d T pi = .ok jerk ∧ computeEndEffectorConstraints flag d T pi = .ok (A, b) ∧
      A.cols = 3 * dimVarPts flag ∧ b.rows = A.rows ∧ b.cols = 1 ∧
      ∀ y, Sat A b y ↔ Within acc.2 (fun _ => 10000) (fun _ => 10000) (pointsOf y) ∧
        Within vel.2 (fun _ => 10000) (fun _ => 10000) (pointsOf y) ∧
        Within jerk.2 (fun _ => 10000) (fun _ => 10000) (pointsOf y) ∧ AboveEnds (dimVarPts flag) d.c0 d.c1 (pointsOf y) := by
  simp only [effFlags, List.mem_cons, List.not_mem_nil, or_false] at hf
  rcases hf with rfl | rfl | rfl <;> simp [degreeOf] at hl
  · have e1 : computeVelocityWaypoints 255#32 d T pi = .ok ⟨1, c0_dc0_ddc0_j0_j1_ddc1_dc1_c1.computeVelocityWaypoints (nth pi) T⟩ := by
      simp [computeVelocityWaypoints, hl]
    have e2 : computeAccelerationWaypoints 255#32 d T pi = .ok ⟨1, c0_dc0_ddc0_j0_j1_ddc1_dc1_c1.computeAccelerationWaypoints (nth pi) T⟩ := by
      simp [computeAccelerationWaypoints, hl]
    have e3 : computeJerkWaypoints 255#32 d T pi = .ok ⟨1, c0_dc0_ddc0_j0_j1_ddc1_dc1_c1.computeJerkWaypoints (nth pi) T⟩ := by
      simp [computeJerkWaypoints, hl]
    obtain ⟨A, b, h1, -, h2, h3, h4, h5⟩ := C48_rows (K := 1) d (c0_dc0_ddc0_j0_j1_ddc1_dc1_c1.computeAccelerationWaypoints (nth pi) T)
      (c0_dc0_ddc0_j0_j1_ddc1_dc1_c1.computeVelocityWaypoints (nth pi) T) (fun _ => 10000) (fun _ => 10000)
      (c0_dc0_ddc0_j0_j1_ddc1_dc1_c1.computeJerkWaypoints (nth pi) T) (fun _ => 10000)
    refine ⟨_, _, _, A, b, e1, e2, e3, ?_, h2, h3, h4, h5⟩
    unfold computeEndEffectorConstraints
    rw [e1, e2, e3]
    exact h1
  · have e1 : computeVelocityWaypoints 767#32 d T pi = .ok ⟨3, c0_dc0_ddc0_j0_x3_j1_ddc1_dc1_c1.computeVelocityWaypoints (nth pi) T⟩ := by
      simp [computeVelocityWaypoints, hl]
    have e2 : computeAccelerationWaypoints 767#32 d T pi = .ok ⟨3, c0_dc0_ddc0_j0_x3_j1_ddc1_dc1_c1.computeAccelerationWaypoints (nth pi) T⟩ := by
      simp [computeAccelerationWaypoints, hl]
    have e3 : computeJerkWaypoints 767#32 d T pi = .ok ⟨3, c0_dc0_ddc0_j0_x3_j1_ddc1_dc1_c1.computeJerkWaypoints (nth pi) T⟩ := by
      simp [computeJerkWaypoints, hl]
    obtain ⟨A, b, h1, -, h2, h3, h4, h5⟩ := C48_rows (K := 3) d (c0_dc0_ddc0_j0_x3_j1_ddc1_dc1_c1.computeAccelerationWaypoints (nth pi) T)
      (c0_dc0_ddc0_j0_x3_j1_ddc1_dc1_c1.computeVelocityWaypoints (nth pi) T) (fun _ => 10000) (fun _ => 10000)
      (c0_dc0_ddc0_j0_x3_j1_ddc1_dc1_c1.computeJerkWaypoints (nth pi) T) (fun _ => 10000)
    refine ⟨_, _, _, A, b, e1, e2, e3, ?_, h2, h3, h4, h5⟩
    unfold computeEndEffectorConstraints
    rw [e1, e2, e3]
    exact h1
  · have e1 : computeVelocityWaypoints 2303#32 d T pi = .ok ⟨5, c0_dc0_ddc0_j0_x5_j1_ddc1_dc1_c1.computeVelocityWaypoints (nth pi) T⟩ := by
      simp [computeVelocityWaypoints, hl]
    have e2 : computeAccelerationWaypoints 2303#32 d T pi = .ok ⟨5, c0_dc0_ddc0_j0_x5_j1_ddc1_dc1_c1.computeAccelerationWaypoints (nth pi) T⟩ := by
      simp [computeAccelerationWaypoints, hl]
    have e3 : computeJerkWaypoints 2303#32 d T pi = .ok ⟨5, c0_dc0_ddc0_j0_x5_j1_ddc1_dc1_c1.computeJerkWaypoints (nth pi) T⟩ := by
      simp [computeJerkWaypoints, hl]
    obtain ⟨A, b, h1, -, h2, h3, h4, h5⟩ := C48_rows (K := 5) d (c0_dc0_ddc0_j0_x5_j1_ddc1_dc1_c1.computeAccelerationWaypoints (nth pi) T)
      (c0_dc0_ddc0_j0_x5_j1_ddc1_dc1_c1.computeVelocityWaypoints (nth pi) T) (fun _ => 10000) (fun _ => 10000)
      (c0_dc0_ddc0_j0_x5_j1_ddc1_dc1_c1.computeJerkWaypoints (nth pi) T) (fun _ => 10000)
    refine ⟨_, _, _, A, b, e1, e2, e3, ?_, h2, h3, h4, h5⟩
    unfold computeEndEffectorConstraints
    rw [e1, e2, e3]
    exact h1

theorem wpCurve_bounds {K : ℕ} (ws : List (WpB K)) (hne : ws ≠ []) (X : ℕ → V3) (B : ℝ)
    (h : Within ws (fun _ => B) (fun _ => B) X) (hc : ∀ w ∈ ws, ¬ Depends w → ∀ k, |w.at X k| ≤ B) (t : ℝ) (h0 : 0 ≤ t)
    (h1 : t ≤ 1) (k : Fin 3) : |wpCurve ws X t k| ≤ B := by
  refine bez_mem_bounds _ _ k B (fun i hi => ?_) t h0 h1
  have hlen := List.length_pos_iff.mpr hne
  have hi' : i < ws.length := by omega
  have hm : ws[i]! ∈ ws := by rw [getElem!_pos ws i hi']; exact List.getElem_mem hi'
  by_cases hd : Depends ws[i]!
  · have := h _ hm hd k
    exact abs_le.mpr ⟨by linarith [this.1], this.2⟩
  · exact hc _ hm hd k

/-- C48, what the rows mean for the motion: if the unknowns satisfy the system and the velocity and jerk control points
that do not depend on them are within the bounds, the velocity and the jerk of the curve are within 10000 at all times of
the motion, in each coordinate. -/
theorem C48_motion_bounds (flag : Flag) (hf : flag ∈ effFlags) (d : BC) (T : ℝ) (hT : 0 < T) (pi : List V3)
    (hl : pi.length = degreeOf flag + 1) :
    ∃ vel jerk A b, computeVelocityWaypoints flag d T pi = .ok vel ∧ computeJerkWaypoints flag d T pi = .ok jerk ∧
      computeEndEffectorConstraints flag d T pi = .ok (A, b) ∧
      ∀ y, Sat A b y →
        let c := curve (degreeOf flag) (fillMany flag (nth pi) (pointsOf y)) T
        ∃ v a j, IsDeriv c v ∧ IsDeriv v a ∧ IsDeriv a j ∧
        ((∀ w ∈ vel.2, ¬ Depends w → ∀ k, |w.at (pointsOf y) k| ≤ 10000) →
          ∀ s, 0 ≤ s → s ≤ T → ∀ k, |v s k| ≤ 10000) ∧
        ((∀ w ∈ jerk.2, ¬ Depends w → ∀ k, |w.at (pointsOf y) k| ≤ 10000) →
          ∀ s, 0 ≤ s → s ≤ T → ∀ k, |j s k| ≤ 10000) := by
  obtain ⟨vel, acc, jerk, A, b, e1, -, e3, e4, -, -, -, hs⟩ := C48_end_effector flag hf d T pi hl
  obtain ⟨v', e1', l1, hv⟩ := C14_velocity_partial flag hf d T hT.ne' pi hl
  obtain ⟨j', e3', l3, hj⟩ := C14_jerk_partial flag hf d T hT.ne' pi hl
  obtain rfl : vel = v' := by rw [e1] at e1'; exact Out.ok.inj e1'
  obtain rfl : jerk = j' := by rw [e3] at e3'; exact Out.ok.inj e3'
  have hdeg : 8 ≤ degreeOf flag := by
    simp only [effFlags, List.mem_cons, List.not_mem_nil, or_false] at hf
    rcases hf with rfl | rfl | rfl <;> decide
  refine ⟨vel, jerk, A, b, e1, e3, e4, fun y hy => ?_⟩
  obtain ⟨v, d1, hv⟩ := hv (pointsOf y)
  obtain ⟨v2, a, j, d2, d3, d4, hj⟩ := hj (pointsOf y)
  obtain rfl : v = v2 := funext fun s => (d1 s).unique (d2 s)
  have hw := (hs y).mp hy
  have hst : ∀ s, 0 ≤ s → s ≤ T → 0 ≤ s / T ∧ s / T ≤ 1 := fun s h0 h1 => ⟨by positivity, (div_le_one hT).mpr h1⟩
  refine ⟨v, a, j, d1, d3, d4, fun hc s h0 h1 k => ?_, fun hc s h0 h1 k => ?_⟩
  · rw [← hv s]
    exact wpCurve_bounds _ (by rw [← List.length_pos_iff]; omega) _ _ hw.2.1 hc _ (hst s h0 h1).1 (hst s h0 h1).2 k
  · rw [← hj s]
    exact wpCurve_bounds _ (by rw [← List.length_pos_iff]; omega) _ _ hw.2.2.1 hc _ (hst s h0 h1).1 (hst s h0 h1).2 k

/-- Non-vacuity: for the motion that stays at the origin, the system accepts the origin, and none of the points of the
control polygon breaks the bounds. -/
example : ∃ A b, computeEndEffectorConstraints 767#32 ⟨0, 0, 0, 0, 0, 0, 0, 0⟩ 1 [0, 0, 0, 0, 0, 0, 0, 0, 0, 0, 0] = .ok (A, b) ∧
    Sat A b (fun _ => 0) := by
  obtain ⟨vel, acc, jerk, A, b, e1, e2, e3, e4, -, -, -, hs⟩ := C48_end_effector 767#32 (by decide) ⟨0, 0, 0, 0, 0, 0, 0, 0⟩ 1
    [0, 0, 0, 0, 0, 0, 0, 0, 0, 0, 0] rfl
  refine ⟨A, b, e4, (hs _).mpr ⟨?_, ?_, ?_, ?_⟩⟩
  · simp [computeAccelerationWaypoints] at e2
    subst e2
    intro w hw _ k
    simp [c0_dc0_ddc0_j0_x3_j1_ddc1_dc1_c1.computeAccelerationWaypoints] at hw
    rcases hw with rfl | rfl | rfl | rfl | rfl | rfl | rfl | rfl | rfl | rfl <;> simp [WpB.at, pointsOf, nth] <;> norm_num
  · simp [computeVelocityWaypoints] at e1
    subst e1
    intro w hw _ k
    simp [c0_dc0_ddc0_j0_x3_j1_ddc1_dc1_c1.computeVelocityWaypoints] at hw
    rcases hw with rfl | rfl | rfl | rfl | rfl | rfl | rfl | rfl | rfl | rfl <;> simp [WpB.at, pointsOf, nth] <;> norm_num
  · simp [computeJerkWaypoints] at e3
    subst e3
    intro w hw _ k
    simp [c0_dc0_ddc0_j0_x3_j1_ddc1_dc1_c1.computeJerkWaypoints] at hw
    rcases hw with rfl | rfl | rfl | rfl | rfl | rfl | rfl | rfl <;> simp [WpB.at, pointsOf, nth] <;> norm_num
  · intro j _
    simp [pointsOf]

end Verif
