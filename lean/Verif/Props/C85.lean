import Verif.Props.C64

/-!
# C85: an end effector asked to stay where it is
-/

namespace Verif
open Finset

/-- At rest at `p`: the same position at both ends, all derivatives zero. -/
def restAt (p : V3) : BC := ⟨p, 0, 0, 0, p, 0, 0, 0⟩

/-- The bound above which the sets with three and five free points refuse to stay, see `C85_near` and `C85_far`. -/
noncomputable def stayLimit (flag : Flag) (T : ℝ) : ℝ :=
  if flag = 767#32 then 10000 * T ^ 2 / 90 else 10000 * T ^ 2 / 132

theorem restAt_pts (flag : Flag) (hf : flag ∈ effFlags) (p : V3) (T : ℝ) :
    ∃ pi, computeConstantWaypoints flag (restAt p) T = .ok pi ∧ pi.length = degreeOf flag + 1 ∧
      ∀ i ≤ degreeOf flag, nth pi i = if i ∈ freeSlots flag then 0 else p := by
  simp only [effFlags, List.mem_cons, List.not_mem_nil, or_false] at hf
  rcases hf with rfl | rfl | rfl
  · refine ⟨_, by simp [computeConstantWaypoints]; rfl,
      by simp [c0_dc0_ddc0_j0_j1_ddc1_dc1_c1.computeConstantWaypoints, degreeOf], fun i hi => ?_⟩
    simp [degreeOf] at hi
    interval_cases i <;> funext k <;>
      simp [nth, c0_dc0_ddc0_j0_j1_ddc1_dc1_c1.computeConstantWaypoints, restAt, freeSlots]
  · refine ⟨_, by simp [computeConstantWaypoints]; rfl,
      by simp [c0_dc0_ddc0_j0_x3_j1_ddc1_dc1_c1.computeConstantWaypoints, degreeOf], fun i hi => ?_⟩
    simp [degreeOf] at hi
    interval_cases i <;> funext k <;>
      simp [nth, c0_dc0_ddc0_j0_x3_j1_ddc1_dc1_c1.computeConstantWaypoints, restAt, freeSlots]
  · refine ⟨_, by simp [computeConstantWaypoints]; rfl,
      by simp [c0_dc0_ddc0_j0_x5_j1_ddc1_dc1_c1.computeConstantWaypoints, degreeOf], fun i hi => ?_⟩
    simp [degreeOf] at hi
    interval_cases i <;> funext k <;>
      simp [nth, c0_dc0_ddc0_j0_x5_j1_ddc1_dc1_c1.computeConstantWaypoints, restAt, freeSlots]

/-- The control points of the reported derivatives that depend on the free points are at most `B`. -/
def EndWithin (flag : Flag) (d : BC) (T : ℝ) (pi : List V3) (B : ℝ) (X : ℕ → V3) : Prop :=
  ∃ vel acc jerk, computeVelocityWaypoints flag d T pi = .ok vel ∧ computeAccelerationWaypoints flag d T pi = .ok acc ∧
    computeJerkWaypoints flag d T pi = .ok jerk ∧
    Within vel.2 (fun _ => B) (fun _ => B) X ∧ Within acc.2 (fun _ => B) (fun _ => B) X ∧ Within jerk.2 (fun _ => B) (fun _ => B) X

/-- Every list of derivative control points of the one free point set is zero at rest. -/
theorem rest_within_one (p : V3) (T B : ℝ) (hB : 0 ≤ B) {pi : List V3} (h : computeConstantWaypoints 255#32 (restAt p) T = .ok pi) :
    EndWithin 255#32 (restAt p) T pi B (fun _ => p) := by
  obtain ⟨pi', h', hl, hp⟩ := restAt_pts 255#32 (by decide) p T
  rw [h] at h'
  obtain rfl := Out.ok.inj h'
  have hl : pi.length = 9 := by simpa [degreeOf] using hl
  have q : ∀ i ≤ 8, nth pi i = if i = 4 then 0 else p := fun i hi => by
    rw [hp i (by simpa [degreeOf] using hi)]; simp [freeSlots]
  have q0 := q 0 (by norm_num)
  have q1 := q 1 (by norm_num)
  have q2 := q 2 (by norm_num)
  have q3 := q 3 (by norm_num)
  have q5 := q 5 (by norm_num)
  have q6 := q 6 (by norm_num)
  have q7 := q 7 (by norm_num)
  have q8 := q 8 (by norm_num)
  norm_num at q0 q1 q2 q3 q5 q6 q7 q8
  refine ⟨_, _, _, by simp [computeVelocityWaypoints, hl]; rfl, by simp [computeAccelerationWaypoints, hl]; rfl,
    by simp [computeJerkWaypoints, hl]; rfl, ?_, ?_, ?_⟩
  · intro w hw _ k
    suffices e : w.at (fun _ => p) k = 0 by rw [e]; exact ⟨neg_nonpos.mpr hB, hB⟩
    simp only [c0_dc0_ddc0_j0_j1_ddc1_dc1_c1.computeVelocityWaypoints, List.mem_cons, List.not_mem_nil, or_false] at hw
    rcases hw with rfl | rfl | rfl | rfl | rfl | rfl | rfl | rfl <;>
      simp [WpB.at, q0, q1, q2, q3, q5, q6, q7, q8] <;> (try right) <;> ring
  · intro w hw _ k
    suffices e : w.at (fun _ => p) k = 0 by rw [e]; exact ⟨neg_nonpos.mpr hB, hB⟩
    simp only [c0_dc0_ddc0_j0_j1_ddc1_dc1_c1.computeAccelerationWaypoints, List.mem_cons, List.not_mem_nil, or_false] at hw
    rcases hw with rfl | rfl | rfl | rfl | rfl | rfl | rfl <;>
      simp [WpB.at, q0, q1, q2, q3, q5, q6, q7, q8] <;> (try right) <;> ring
  · intro w hw _ k
    suffices e : w.at (fun _ => p) k = 0 by rw [e]; exact ⟨neg_nonpos.mpr hB, hB⟩
    simp only [c0_dc0_ddc0_j0_j1_ddc1_dc1_c1.computeJerkWaypoints, List.mem_cons, List.not_mem_nil, or_false] at hw
    rcases hw with rfl | rfl | rfl | rfl | rfl | rfl <;>
      simp [WpB.at, q0, q1, q2, q3, q5, q6, q7, q8] <;> (try right) <;> ring

theorem rest_within_three (p : V3) (T B : ℝ) (hT : 0 < T) (hB : 0 ≤ B) (hp' : ∀ k, 90 / T ^ 2 * |p k| ≤ B) {pi : List V3}
    (h : computeConstantWaypoints 767#32 (restAt p) T = .ok pi) : EndWithin 767#32 (restAt p) T pi B (fun _ => p) := by
  obtain ⟨pi', h', hl, hp⟩ := restAt_pts 767#32 (by decide) p T
  rw [h] at h'
  obtain rfl := Out.ok.inj h'
  have hl : pi.length = 11 := by simpa [degreeOf] using hl
  have q : ∀ i ≤ 10, nth pi i = if i ∈ freeSlots 767#32 then 0 else p := fun i hi => hp i (by simpa [degreeOf] using hi)
  have q0 := q 0 (by norm_num)
  have q1 := q 1 (by norm_num)
  have q2 := q 2 (by norm_num)
  have q3 := q 3 (by norm_num)
  have q7 := q 7 (by norm_num)
  have q8 := q 8 (by norm_num)
  have q9 := q 9 (by norm_num)
  have q10 := q 10 (by norm_num)
  simp [freeSlots] at q0 q1 q2 q3 q7 q8 q9 q10
  refine ⟨_, _, _, by simp [computeVelocityWaypoints, hl]; rfl, by simp [computeAccelerationWaypoints, hl]; rfl,
    by simp [computeJerkWaypoints, hl]; rfl, ?_, ?_, ?_⟩
  · intro w hw _ k
    suffices e : w.at (fun _ => p) k = 0 by rw [e]; exact ⟨neg_nonpos.mpr hB, hB⟩
    simp only [c0_dc0_ddc0_j0_x3_j1_ddc1_dc1_c1.computeVelocityWaypoints, List.mem_cons, List.not_mem_nil, or_false] at hw
    rcases hw with rfl | rfl | rfl | rfl | rfl | rfl | rfl | rfl | rfl | rfl <;>
      simp [WpB.at, Fin.sum_univ_three, q0, q1, q2, q3, q7, q8, q9, q10] <;> (try right) <;> ring
  · intro w hw _ k
    suffices e : w.at (fun _ => p) k = 0 ∨ w.at (fun _ => p) k = 90 / T ^ 2 * p k by
      have hk := hp' k
      have h90 : |90 / T ^ 2 * p k| ≤ B := by rwa [abs_mul, abs_of_pos (by positivity)]
      rcases e with e | e
      · rw [e]; exact ⟨neg_nonpos.mpr hB, hB⟩
      · rw [e]; exact abs_le.mp h90
    simp only [c0_dc0_ddc0_j0_x3_j1_ddc1_dc1_c1.computeAccelerationWaypoints, List.mem_cons, List.not_mem_nil, or_false] at hw
    rcases hw with rfl | rfl | rfl | rfl | rfl | rfl | rfl | rfl | rfl | rfl
    case inr.inr.inl =>
      right
      simp [WpB.at, Fin.sum_univ_three, q0, q1, q2, q3, q7, q8, q9, q10]
      left
      field_simp
    all_goals
      left
      simp [WpB.at, Fin.sum_univ_three, q0, q1, q2, q3, q7, q8, q9, q10] <;> (try right) <;> ring
  · intro w hw _ k
    suffices e : w.at (fun _ => p) k = 0 by rw [e]; exact ⟨neg_nonpos.mpr hB, hB⟩
    simp only [c0_dc0_ddc0_j0_x3_j1_ddc1_dc1_c1.computeJerkWaypoints, List.mem_cons, List.not_mem_nil, or_false] at hw
    rcases hw with rfl | rfl | rfl | rfl | rfl | rfl | rfl | rfl <;>
      simp [WpB.at, Fin.sum_univ_three, q0, q1, q2, q3, q7, q8, q9, q10] <;> (try right) <;> ring

theorem rest_within_five (p : V3) (T B : ℝ) (hT : 0 < T) (hB : 0 ≤ B) (hp' : ∀ k, 132 / T ^ 2 * |p k| ≤ B) {pi : List V3}
    (h : computeConstantWaypoints 2303#32 (restAt p) T = .ok pi) : EndWithin 2303#32 (restAt p) T pi B (fun _ => p) := by
  obtain ⟨pi', h', hl, hp⟩ := restAt_pts 2303#32 (by decide) p T
  rw [h] at h'
  obtain rfl := Out.ok.inj h'
  have hl : pi.length = 13 := by simpa [degreeOf] using hl
  have q : ∀ i ≤ 12, nth pi i = if i ∈ freeSlots 2303#32 then 0 else p := fun i hi => hp i (by simpa [degreeOf] using hi)
  have q0 := q 0 (by norm_num)
  have q1 := q 1 (by norm_num)
  have q2 := q 2 (by norm_num)
  have q3 := q 3 (by norm_num)
  have q7 := q 7 (by norm_num)
  have q9 := q 9 (by norm_num)
  have q10 := q 10 (by norm_num)
  have q11 := q 11 (by norm_num)
  have q12 := q 12 (by norm_num)
  simp [freeSlots] at q0 q1 q2 q3 q7 q9 q10 q11 q12
  refine ⟨_, _, _, by simp [computeVelocityWaypoints, hl]; rfl, by simp [computeAccelerationWaypoints, hl]; rfl,
    by simp [computeJerkWaypoints, hl]; rfl, ?_, ?_, ?_⟩
  · intro w hw _ k
    suffices e : w.at (fun _ => p) k = 0 by rw [e]; exact ⟨neg_nonpos.mpr hB, hB⟩
    simp only [c0_dc0_ddc0_j0_x5_j1_ddc1_dc1_c1.computeVelocityWaypoints, List.mem_cons, List.not_mem_nil, or_false] at hw
    rcases hw with rfl | rfl | rfl | rfl | rfl | rfl | rfl | rfl | rfl | rfl | rfl | rfl <;>
      simp [WpB.at, Fin.sum_univ_five, q0, q1, q2, q3, q7, q9, q10, q11, q12] <;> (try right) <;> ring
  · intro w hw _ k
    suffices e : w.at (fun _ => p) k = 0 ∨ w.at (fun _ => p) k = -(132 / T ^ 2 * p k) ∨ w.at (fun _ => p) k = 132 / T ^ 2 * p k by
      have hk := hp' k
      have h132 : |132 / T ^ 2 * p k| ≤ B := by rwa [abs_mul, abs_of_pos (by positivity)]
      obtain ⟨b1, b2⟩ := abs_le.mp h132
      rcases e with e | e | e <;> rw [e] <;> constructor <;> linarith
    simp only [c0_dc0_ddc0_j0_x5_j1_ddc1_dc1_c1.computeAccelerationWaypoints, List.mem_cons, List.not_mem_nil, or_false] at hw
    rcases hw with rfl | rfl | rfl | rfl | rfl | rfl | rfl | rfl | rfl | rfl | rfl | rfl
    case inr.inr.inl =>
      right; right
      simp [WpB.at, Fin.sum_univ_five, q0, q1, q2, q3, q7, q9, q10, q11, q12]
      left
      field_simp
    case inr.inr.inr.inr.inr.inr.inr.inl =>
      right; left
      simp [WpB.at, Fin.sum_univ_five, q0, q1, q2, q3, q7, q9, q10, q11, q12]
      field_simp
      ring
    all_goals
      left
      simp [WpB.at, Fin.sum_univ_five, q0, q1, q2, q3, q7, q9, q10, q11, q12] <;> (try right) <;> ring
  · intro w hw _ k
    suffices e : w.at (fun _ => p) k = 0 by rw [e]; exact ⟨neg_nonpos.mpr hB, hB⟩
    simp only [c0_dc0_ddc0_j0_x5_j1_ddc1_dc1_c1.computeJerkWaypoints, List.mem_cons, List.not_mem_nil, or_false] at hw
    rcases hw with rfl | rfl | rfl | rfl | rfl | rfl | rfl | rfl | rfl | rfl <;>
      simp [WpB.at, Fin.sum_univ_five, q0, q1, q2, q3, q7, q9, q10, q11, q12] <;> (try right) <;> ring

theorem rest_within (flag : Flag) (hf : flag ∈ effFlags) (p : V3) (T B : ℝ) (hT : 0 < T) (hB : 0 ≤ B)
    (hp : flag = 255#32 ∨ ∀ k, |p k| * 10000 ≤ B * stayLimit flag T) {pi : List V3}
    (h : computeConstantWaypoints flag (restAt p) T = .ok pi) : EndWithin flag (restAt p) T pi B (fun _ => p) := by
  simp only [effFlags, List.mem_cons, List.not_mem_nil, or_false] at hf
  rcases hf with rfl | rfl | rfl
  · exact rest_within_one p T B hB h
  · refine rest_within_three p T B hT hB (fun k => ?_) h
    have := hp.resolve_left (by decide) k
    rw [stayLimit, if_pos rfl] at this
    rw [div_mul_eq_mul_div, div_le_iff₀ (by positivity)]
    linarith
  · refine rest_within_five p T B hT hB (fun k => ?_) h
    have := hp.resolve_left (by decide) k
    rw [stayLimit, if_neg (by decide)] at this
    rw [div_mul_eq_mul_div, div_le_iff₀ (by positivity)]
    linarith

theorem rest_ok (flag : Flag) (hf : flag ∈ effFlags) (p : V3) (T : ℝ) (hT : 0 < T)
    (hp : flag = 255#32 ∨ ∀ k, |p k| ≤ stayLimit flag T) {pi : List V3}
    (h : computeConstantWaypoints flag (restAt p) T = .ok pi) : EndOk flag (restAt p) T pi (fun _ => p) := by
  obtain ⟨vel, acc, jerk, e1, e2, e3, k1, k2, k3⟩ := rest_within flag hf p T 10000 hT (by norm_num)
    (hp.imp_right fun hp k => by linarith [hp k]) h
  exact ⟨vel, acc, jerk, e1, e2, e3, k1, k2, k3, fun j _ => by simp [restAt]⟩

theorem stays_of_ok (flag : Flag) (hf : flag ∈ effFlags) (p : V3) (T : ℝ) (hT : 0 < T)
    (hp : flag = 255#32 ∨ ∀ k, |p k| ≤ stayLimit flag T) : ∃ M, ∀ lib, LibOk lib → lib.eps = 0 → M ≤ lib.maxIter →
    ∀ path w init, 0 ≤ w → w ≤ 1 → ∃ r N, (∀ fuel ≥ N, solveEndEffector lib fuel flag (restAt p) path T w init = .ok r) ∧
      r.success = true ∧ MeetsBoundary flag (restAt p) r.c_of_t.eval T := by
  obtain ⟨pi, hpi, hl⟩ := effPts flag hf (restAt p) T
  obtain ⟨A, b, hA, -⟩ := endOk_iff flag hf (restAt p) T pi hl
  refine ⟨2 ^ A.rows + 1, fun lib hL he hm path w init h0 h1 => ?_⟩
  obtain ⟨pi', A', b', c, r, N, e1, e2, -, hr, hok, hfail⟩ := C64_solves lib hL he flag hf (restAt p) path T w hT h0 h1 init
  rw [hpi] at e1
  obtain rfl := Out.ok.inj e1
  rw [hA] at e2
  obtain ⟨rfl, rfl⟩ := Prod.mk.inj (Out.ok.inj e2)
  have hs : r.success = true := by
    by_contra hs
    rcases (hfail (by simpa using hs)).2 with h | h
    · omega
    · exact h _ (rest_ok flag hf p T hT hp hpi)
  obtain ⟨X, -, -, hb, -⟩ := hok hs
  exact ⟨r, N, hr, hs, hb⟩

/-- C85, set with one free point: asked to stay at rest, `solveEndEffector` succeeds for every position, every duration,
every path and weight, in exact arithmetic with a large iteration limit. -/
theorem C85_one (p : V3) (T : ℝ) (hT : 0 < T) : ∃ M, ∀ lib, LibOk lib → lib.eps = 0 → M ≤ lib.maxIter →
    ∀ path w init, 0 ≤ w → w ≤ 1 → ∃ r N, (∀ fuel ≥ N, solveEndEffector lib fuel 255#32 (restAt p) path T w init = .ok r) ∧
      r.success = true ∧ MeetsBoundary 255#32 (restAt p) r.c_of_t.eval T :=
  stays_of_ok 255#32 (by decide) p T hT (Or.inl rfl)

/-- C85, sets with three and five free points: the same near the origin of the frame. -/
theorem C85_near_partial (flag : Flag) (hf : flag ∈ [767#32, 2303#32]) (p : V3) (T : ℝ) (hT : 0 < T)
    (hp : ∀ k, |p k| ≤ stayLimit flag T) : ∃ M, ∀ lib, LibOk lib → lib.eps = 0 → M ≤ lib.maxIter →
    ∀ path w init, 0 ≤ w → w ≤ 1 → ∃ r N, (∀ fuel ≥ N, solveEndEffector lib fuel flag (restAt p) path T w init = .ok r) ∧
      r.success = true ∧ MeetsBoundary flag (restAt p) r.c_of_t.eval T := by
  refine stays_of_ok flag ?_ p T hT (Or.inr hp)
  simp only [List.mem_cons, List.not_mem_nil, or_false] at hf
  rcases hf with rfl | rfl <;> decide

theorem far_not_within (flag : Flag) (hf : flag ∈ [767#32, 2303#32]) (p : V3) (T B : ℝ) (hT : 0 < T) (hT' : T ≤ 1000) (hB : 0 ≤ B)
    (k : Fin 3) (hp : B * (stayLimit flag T * (1 + T / 8)) < |p k| * 10000) {pi : List V3}
    (h : computeConstantWaypoints flag (restAt p) T = .ok pi) (X : ℕ → V3) : ¬ EndWithin flag (restAt p) T pi B X := by
  rintro ⟨vel, acc, jerk, -, h2, h3, -, hacc, hjerk⟩
  simp only [List.mem_cons, List.not_mem_nil, or_false] at hf
  have t2 : T * T ≤ 1000 ^ 2 := by nlinarith
  have t3 : T * T * T ≤ 1000 ^ 3 := by nlinarith [mul_pos hT hT]
  rcases hf with rfl | rfl
  · obtain ⟨pi', h', hl, hq⟩ := restAt_pts 767#32 (by decide) p T
    rw [h] at h'
    obtain rfl := Out.ok.inj h'
    have hl : pi.length = 11 := by simpa [degreeOf] using hl
    have q : ∀ i ≤ 10, nth pi i = if i ∈ freeSlots 767#32 then 0 else p := fun i hi => hq i (by simpa [degreeOf] using hi)
    have q1 := q 1 (by norm_num)
    have q2 := q 2 (by norm_num)
    have q3 := q 3 (by norm_num)
    simp [freeSlots] at q1 q2 q3
    simp [computeAccelerationWaypoints, hl] at h2
    simp [computeJerkWaypoints, hl] at h3
    subst h2 h3
    have a := hacc ⟨![90 * (1 / (T * T)), 0, 0], fun k => 1 / (T * T) * 90 * (nth pi 2 k - nth pi 3 k)⟩
      (by simp [c0_dc0_ddc0_j0_x3_j1_ddc1_dc1_c1.computeAccelerationWaypoints]) ⟨0, by
        change 1 / 2 ^ 52 < |(![90 * (1 / (T * T)), 0, 0] : Fin 3 → ℝ) 0|
        rw [show (![90 * (1 / (T * T)), 0, 0] : Fin 3 → ℝ) 0 = 90 / (T * T) by simp [div_eq_mul_inv], abs_of_pos (by positivity),
          lt_div_iff₀ (by positivity)]
        nlinarith⟩ k
    have j := hjerk ⟨![720 * (1 / (T * T * T)), 0, 0], fun k => 1 / (T * T * T) * 720 * (-nth pi 1 k + 3 * nth pi 2 k - 3 * nth pi 3 k)⟩
      (by simp [c0_dc0_ddc0_j0_x3_j1_ddc1_dc1_c1.computeJerkWaypoints]) ⟨0, by
        change 1 / 2 ^ 52 < |(![720 * (1 / (T * T * T)), 0, 0] : Fin 3 → ℝ) 0|
        rw [show (![720 * (1 / (T * T * T)), 0, 0] : Fin 3 → ℝ) 0 = 720 / (T * T * T) by simp [div_eq_mul_inv],
          abs_of_pos (by positivity), lt_div_iff₀ (by positivity)]
        nlinarith⟩ k
    have ea : WpB.at (K := 3) ⟨![90 * (1 / (T * T)), 0, 0], fun k => 1 / (T * T) * 90 * (nth pi 2 k - nth pi 3 k)⟩ X k
        = 90 / T ^ 2 * X 0 k := by
      simp [WpB.at, Fin.sum_univ_three, q2, q3]
      left
      field_simp
    have ej : WpB.at (K := 3) ⟨![720 * (1 / (T * T * T)), 0, 0], fun k => 1 / (T * T * T) * 720 * (-nth pi 1 k + 3 * nth pi 2 k - 3 * nth pi 3 k)⟩ X k
        = 720 / T ^ 3 * (X 0 k - p k) := by
      simp [WpB.at, Fin.sum_univ_three, q1, q2, q3]
      field_simp
      ring
    rw [ea] at a
    rw [ej] at j
    rw [stayLimit, if_pos rfl] at hp
    have c1 : |X 0 k| ≤ B * T ^ 2 / 90 := by
      have : |90 / T ^ 2 * X 0 k| ≤ B := abs_le.mpr a
      rw [abs_mul, abs_of_pos (by positivity), div_mul_eq_mul_div, div_le_iff₀ (by positivity)] at this
      rw [le_div_iff₀ (by norm_num)]; linarith
    have c2 : |X 0 k - p k| ≤ B * T ^ 3 / 720 := by
      have : |720 / T ^ 3 * (X 0 k - p k)| ≤ B := abs_le.mpr j
      rw [abs_mul, abs_of_pos (by positivity), div_mul_eq_mul_div, div_le_iff₀ (by positivity)] at this
      rw [le_div_iff₀ (by norm_num)]; linarith
    have c3 : |p k| ≤ |X 0 k| + |X 0 k - p k| := by
      have := abs_sub_abs_le_abs_sub (p k) (X 0 k)
      rw [abs_sub_comm] at this; linarith
    have e1 : B * (10000 * T ^ 2 / 90 * (1 + T / 8)) = 10000 * (B * T ^ 2 / 90) + 10000 * (B * T ^ 3 / 720) := by ring
    rw [e1] at hp
    linarith
  · obtain ⟨pi', h', hl, hq⟩ := restAt_pts 2303#32 (by decide) p T
    rw [h] at h'
    obtain rfl := Out.ok.inj h'
    have hl : pi.length = 13 := by simpa [degreeOf] using hl
    have q : ∀ i ≤ 12, nth pi i = if i ∈ freeSlots 2303#32 then 0 else p := fun i hi => hq i (by simpa [degreeOf] using hi)
    have q1 := q 1 (by norm_num)
    have q2 := q 2 (by norm_num)
    have q3 := q 3 (by norm_num)
    simp [freeSlots] at q1 q2 q3
    simp [computeAccelerationWaypoints, hl] at h2
    simp [computeJerkWaypoints, hl] at h3
    subst h2 h3
    have a := hacc ⟨![132 * (1 / (T * T)), 0, 0, 0, 0], fun k => 1 / (T * T) * 132 * (nth pi 2 k - nth pi 3 k)⟩
      (by simp [c0_dc0_ddc0_j0_x5_j1_ddc1_dc1_c1.computeAccelerationWaypoints]) ⟨0, by
        change 1 / 2 ^ 52 < |(![132 * (1 / (T * T)), 0, 0, 0, 0] : Fin 5 → ℝ) 0|
        rw [show (![132 * (1 / (T * T)), 0, 0, 0, 0] : Fin 5 → ℝ) 0 = 132 / (T * T) by simp [div_eq_mul_inv],
          abs_of_pos (by positivity), lt_div_iff₀ (by positivity)]
        nlinarith⟩ k
    have j := hjerk ⟨![1320 * (1 / (T * T * T)), 0, 0, 0, 0], fun k => 1 / (T * T * T) * 1320 * (-nth pi 1 k + 3 * nth pi 2 k - 3 * nth pi 3 k)⟩
      (by simp [c0_dc0_ddc0_j0_x5_j1_ddc1_dc1_c1.computeJerkWaypoints]) ⟨0, by
        change 1 / 2 ^ 52 < |(![1320 * (1 / (T * T * T)), 0, 0, 0, 0] : Fin 5 → ℝ) 0|
        rw [show (![1320 * (1 / (T * T * T)), 0, 0, 0, 0] : Fin 5 → ℝ) 0 = 1320 / (T * T * T) by simp [div_eq_mul_inv],
          abs_of_pos (by positivity), lt_div_iff₀ (by positivity)]
        nlinarith⟩ k
    have ea : WpB.at (K := 5) ⟨![132 * (1 / (T * T)), 0, 0, 0, 0], fun k => 1 / (T * T) * 132 * (nth pi 2 k - nth pi 3 k)⟩ X k = 132 / T ^ 2 * X 0 k := by
      simp [WpB.at, Fin.sum_univ_five, q2, q3]
      left
      field_simp
    have ej : WpB.at (K := 5) ⟨![1320 * (1 / (T * T * T)), 0, 0, 0, 0], fun k => 1 / (T * T * T) * 1320 * (-nth pi 1 k + 3 * nth pi 2 k - 3 * nth pi 3 k)⟩ X k
        = 1320 / T ^ 3 * (X 0 k - p k) := by
      simp [WpB.at, Fin.sum_univ_five, q1, q2, q3]
      field_simp
      ring
    rw [ea] at a
    rw [ej] at j
    rw [stayLimit, if_neg (by decide)] at hp
    have c1 : |X 0 k| ≤ B * T ^ 2 / 132 := by
      have : |132 / T ^ 2 * X 0 k| ≤ B := abs_le.mpr a
      rw [abs_mul, abs_of_pos (by positivity), div_mul_eq_mul_div, div_le_iff₀ (by positivity)] at this
      rw [le_div_iff₀ (by norm_num)]; linarith
    have c2 : |X 0 k - p k| ≤ B * T ^ 3 / 1320 := by
      have : |1320 / T ^ 3 * (X 0 k - p k)| ≤ B := abs_le.mpr j
      rw [abs_mul, abs_of_pos (by positivity), div_mul_eq_mul_div, div_le_iff₀ (by positivity)] at this
      rw [le_div_iff₀ (by norm_num)]; linarith
    have c3 : |p k| ≤ |X 0 k| + |X 0 k - p k| := by
      have := abs_sub_abs_le_abs_sub (p k) (X 0 k)
      rw [abs_sub_comm] at this; linarith
    have hBT : 0 ≤ B * T ^ 3 := by positivity
    have e1 : B * (10000 * T ^ 2 / 132 * (1 + T / 8)) = 10000 * (B * T ^ 2 / 132) + 10000 / 1056 * (B * T ^ 3) := by ring
    have e2 : B * T ^ 3 / 1320 = 1 / 1320 * (B * T ^ 3) := by ring
    rw [e1] at hp
    rw [e2] at c2
    linarith

theorem far_not_ok (flag : Flag) (hf : flag ∈ [767#32, 2303#32]) (p : V3) (T : ℝ) (hT : 0 < T) (hT' : T ≤ 1000)
    (k : Fin 3) (hp : stayLimit flag T * (1 + T / 8) < |p k|) {pi : List V3}
    (h : computeConstantWaypoints flag (restAt p) T = .ok pi) (X : ℕ → V3) : ¬ EndOk flag (restAt p) T pi X := by
  rintro ⟨vel, acc, jerk, h1, h2, h3, hvel, hacc, hjerk, -⟩
  exact far_not_within flag hf p T 10000 hT hT' (by norm_num) k (by linarith) h X ⟨vel, acc, jerk, h1, h2, h3, hvel, hacc, hjerk⟩

/-- C85 is false for the sets with three and five free points away from the origin of the frame: when a coordinate of the
position exceeds `10000 T²/90 (1 + T/8)` (`10000 T²/132 (1 + T/8)` for five free points) in absolute value, the request to stay
is refused, whatever the path, the weight and the iteration limit. -/
theorem C85_far (flag : Flag) (hf : flag ∈ [767#32, 2303#32]) (p : V3) (T : ℝ) (hT : 0 < T) (hT' : T ≤ 1000) (k : Fin 3)
    (hp : stayLimit flag T * (1 + T / 8) < |p k|) (lib : Lib) (hL : LibOk lib) (he : lib.eps = 0) (path : ℝ → V3) (w : ℝ)
    (h0 : 0 ≤ w) (h1 : w ≤ 1) (init : List ℝ) :
    ∃ r N, (∀ fuel ≥ N, solveEndEffector lib fuel flag (restAt p) path T w init = .ok r) ∧ r.success = false := by
  have hf' : flag ∈ effFlags := by
    simp only [List.mem_cons, List.not_mem_nil, or_false] at hf
    rcases hf with rfl | rfl <;> decide
  obtain ⟨pi, A, b, c, r, N, e1, -, -, hr, hok, -⟩ := C64_solves lib hL he flag hf' (restAt p) path T w hT h0 h1 init
  refine ⟨r, N, hr, ?_⟩
  by_contra hs
  obtain ⟨X, -, -, -, hX, -⟩ := hok (by simpa using hs)
  exact far_not_ok flag hf p T hT hT' k hp e1 X hX

/-- C85 refuted by an instance: to stay for a tenth of a second two metres from the origin is refused, by the
Python entry point as well. -/
theorem C85_refuted (flag : Flag) (hf : flag ∈ [767#32, 2303#32]) (maxIter : ℕ) (init : List ℝ) :
    ∃ r N, (∀ fuel ≥ N, computeEndEffector (exactLib maxIter) fuel flag (restAt ![2, 0, 0]) (1 / 10) init = .ok r) ∧
      r.success = false := by
  refine C85_far flag hf ![2, 0, 0] (1 / 10) (by norm_num) (by norm_num) 0 ?_ (exactLib maxIter) (exactLib_ok maxIter) rfl
    (fun _ => 0) 0 le_rfl zero_le_one init
  simp only [List.mem_cons, List.not_mem_nil, or_false] at hf
  rcases hf with rfl | rfl
  · rw [stayLimit, if_pos rfl]; norm_num
  · rw [stayLimit, if_neg (by decide)]; norm_num

/-- `C85_near_partial` applies: one metre from the origin and a tenth of a second are within the limit of the set with three
free points. -/
example : ∀ k, |(![1, 0, 0] : V3) k| ≤ stayLimit 767#32 (1 / 10) := by
  intro k
  rw [stayLimit, if_pos rfl]
  fin_cases k <;> norm_num

end Verif
