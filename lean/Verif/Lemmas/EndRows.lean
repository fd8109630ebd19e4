import Verif.Props.C48
import Verif.Lemmas.ZeroRows
import Verif.Lemmas.SolveMarginGen

/-!
# The rows of the end effector problem, one by one
-/

namespace Verif
open Matrix

/-- The row that bounds coordinate `k` of a control point. -/
def PointRow {K : ℕ} (s : ℝ) (bounds : V3) (w : WpB K) (k : Fin 3) (a : ℕ → ℝ) (β : ℝ) : Prop :=
  (∀ c < 3 * K, a c = s * w.entry k c) ∧ β = bounds k - s * w.second k

/-- The rows from `lo` to `hi` bound the control points of the list that depend on the unknowns. -/
def PointRows {K : ℕ} (s : ℝ) (bounds : V3) (ws : List (WpB K)) (a : ℕ → ℕ → ℝ) (β : ℕ → ℝ) (lo hi : ℕ) : Prop :=
  (∀ r, lo ≤ r → r < hi → ∃ w ∈ ws, ¬ w.isZero ∧ ∃ k, PointRow s bounds w k (a r) (β r)) ∧
    ∀ w ∈ ws, ¬ w.isZero → ∀ k, ∃ r, lo ≤ r ∧ r < hi ∧ PointRow s bounds w k (a r) (β r)

theorem PointRows.congr {K : ℕ} {s : ℝ} {bounds : V3} {ws : List (WpB K)} {a a' : ℕ → ℕ → ℝ} {β β' : ℕ → ℝ} {lo hi : ℕ}
    (h : PointRows s bounds ws a β lo hi) (ha : ∀ r < hi, a' r = a r ∧ β' r = β r) : PointRows s bounds ws a' β' lo hi := by
  refine ⟨fun r p1 p2 => ?_, fun w hw hz k => ?_⟩
  · rw [(ha r p2).1, (ha r p2).2]; exact h.1 r p1 p2
  · obtain ⟨r, p1, p2, p3⟩ := h.2 w hw hz k
    exact ⟨r, p1, p2, by rw [(ha r p2).1, (ha r p2).2]; exact p3⟩

theorem boundLoop_rows {K : ℕ} (s : ℝ) (bounds : V3) (n : ℕ) :
    ∀ (ws : List (WpB K)) (i : ℕ) (A b : Buf) (a : ℕ → ℕ → ℝ) (β : ℕ → ℝ), View A b n (3 * K) a β →
      (i + countBound ws) * 3 ≤ n →
      ∃ q a' β', boundLoop s bounds ws i A b = .ok (i + countBound ws, q) ∧ View q.1 q.2 n (3 * K) a' β' ∧
        (∀ r, r < i * 3 → a' r = a r ∧ β' r = β r) ∧ PointRows s bounds ws a' β' (i * 3) ((i + countBound ws) * 3) := by
  intro ws
  induction ws with
  | nil =>
    intro i A b a β h _
    exact ⟨(A, b), a, β, rfl, h, fun r _ => ⟨rfl, rfl⟩, fun r p1 p2 => by simp only [countBound] at p2; omega,
      fun w hw => by simp at hw⟩
  | cons w ws ih =>
    intro i A b a β h hle
    by_cases hz : w.isZero
    · simp only [countBound, if_pos hz] at hle ⊢
      obtain ⟨q, a', β', hq, hV, h1, h2⟩ := ih i A b a β h hle
      refine ⟨q, a', β', by rw [boundLoop, if_pos hz]; exact hq, hV, h1, fun r p1 p2 => ?_, fun w' hw' hz' => ?_⟩
      · obtain ⟨w', hw', hk⟩ := h2.1 r p1 p2
        exact ⟨w', List.mem_cons_of_mem _ hw', hk⟩
      · rcases List.mem_cons.mp hw' with rfl | hw'
        · exact absurd hz hz'
        · exact h2.2 w' hw' hz'
    · simp only [countBound, if_neg hz] at hle ⊢
      obtain ⟨A1, b1, hA, hb, hV1⟩ := view_write h (i * 3) 3 (fun r c => s * w.entry r c)
        (fun r => V3.get (bounds - s • w.second) r) (by omega)
      obtain ⟨q, a', β', hq, hV, h1, h2⟩ := ih (i + 1) A1 b1 _ _ hV1 (by omega)
      have hown : ∀ k : Fin 3, PointRow s bounds w k (a' (i * 3 + k)) (β' (i * 3 + k)) := by
        intro k
        have hk := k.isLt
        rw [(h1 _ (by omega)).1, (h1 _ (by omega)).2]
        have e : i * 3 + k.val - i * 3 = k.val := by omega
        refine ⟨fun c hc => ?_, ?_⟩
        · dsimp only
          rw [if_pos ⟨by omega, by omega, hc⟩, e]
        · rw [if_pos ⟨by omega, by omega⟩, e]
          simp only [V3.get, hk, dif_pos, Pi.sub_apply, Pi.smul_apply, smul_eq_mul, Fin.eta]
      refine ⟨q, a', β', ?_, hV, fun r hr => ?_, fun r p1 p2 => ?_, fun w' hw' hz' k => ?_⟩
      · rw [boundLoop, if_neg hz, hA, Out.ok_bind, hb, Out.ok_bind, hq]
        rw [show i + 1 + countBound ws = i + (countBound ws + 1) by omega]
      · rw [(h1 r (by omega)).1, (h1 r (by omega)).2]
        refine ⟨funext fun c => ?_, ?_⟩
        · rw [if_neg (by omega)]
        · rw [if_neg (by omega)]
      · by_cases hr : r < i * 3 + 3
        · refine ⟨w, List.mem_cons_self, hz, ⟨r - i * 3, by omega⟩, ?_⟩
          have := hown ⟨r - i * 3, by omega⟩
          rwa [show i * 3 + (r - i * 3) = r by omega] at this
        · obtain ⟨w', hw', hk⟩ := h2.1 r (by omega) (by omega)
          exact ⟨w', List.mem_cons_of_mem _ hw', hk⟩
      · rcases List.mem_cons.mp hw' with rfl | hw'
        · exact ⟨i * 3 + k, by omega, by have := k.isLt; omega, hown k⟩
        · obtain ⟨r, p1, p2, p3⟩ := h2.2 w' hw' hz' k
          exact ⟨r, by omega, by omega, p3⟩

theorem entry_sq {K : ℕ} (w : WpB K) (k : Fin 3) :
    ∑ c ∈ Finset.range (3 * K), w.entry k c ^ 2 = ∑ j, w.first j ^ 2 := by
  rw [sum_thirds, Finset.sum_range]
  refine Finset.sum_congr rfl fun j _ => ?_
  have d0 : 3 * j.val / 3 = j.val := by omega
  have d1 : (3 * j.val + 1) / 3 = j.val := by omega
  have d2 : (3 * j.val + 2) / 3 = j.val := by omega
  have m0 : 3 * j.val % 3 = 0 := by omega
  have m1 : (3 * j.val + 1) % 3 = 1 := by omega
  have m2 : (3 * j.val + 2) % 3 = 2 := by omega
  have hj := j.isLt
  fin_cases k <;> simp [WpB.entry, d0, d1, d2, m0, m1, m2, hj]

/-- A row up to `δ`. -/
theorem PointRow.tol {K : ℕ} {s : ℝ} {bounds : V3} {w : WpB K} {k : Fin 3} {a : ℕ → ℝ} {β : ℝ}
    (h : PointRow s bounds w k a β) (δ : ℝ) (y : ℕ → ℝ) :
    ∑ c ∈ Finset.range (3 * K), a c * y c ≤ β + δ ↔ s * w.at (pointsOf y) k ≤ bounds k + δ := by
  have : ∑ c ∈ Finset.range (3 * K), a c * y c = s * (w.at (pointsOf y) k - w.second k) := by
    rw [← entry_sum]
    exact Finset.sum_congr rfl fun c hc => by rw [h.1 c (Finset.mem_range.mp hc)]
  rw [this, h.2]
  constructor <;> intro hh <;> linarith

theorem PointRow.norm {K : ℕ} {s : ℝ} {bounds : V3} {w : WpB K} {k : Fin 3} {a : ℕ → ℝ} {β : ℝ}
    (h : PointRow s bounds w k a β) (hs : s ^ 2 = 1) : ∑ c ∈ Finset.range (3 * K), a c ^ 2 = ∑ j, w.first j ^ 2 := by
  rw [← entry_sq w k]
  refine Finset.sum_congr rfl fun c hc => ?_
  rw [h.1 c (Finset.mem_range.mp hc), mul_pow, hs, one_mul]

/-- The system of the end effector: its size, the norms of its rows, what it says up to `δ`, and when it holds with a margin. -/
theorem constraints_tol {K : ℕ} (d : BC) (acc vel : List (WpB K)) (accB velB : V3) (jerk : List (WpB K)) (jerkB : V3) :
    ∃ A b, computeConstraintsMatrix d acc vel accB velB jerk jerkB = .ok (A, b) ∧
      (∀ R, 1 ≤ R → (∀ w ∈ acc ++ vel ++ jerk, ∑ j, w.first j ^ 2 ≤ R ^ 2) →
        ∀ r < A.rows, ∑ c ∈ Finset.range (3 * K), A.e r c ^ 2 ≤ R ^ 2) ∧
      (∀ y δ, SatTol A b δ y → Within acc (fun k => accB k + δ) (fun k => accB k + δ) (pointsOf y) ∧
        Within vel (fun k => velB k + δ) (fun k => velB k + δ) (pointsOf y) ∧
        Within jerk (fun k => jerkB k + δ) (fun k => velB k + δ) (pointsOf y) ∧
        ∀ j < K, min (d.c0 2) (d.c1 2) - δ ≤ pointsOf y j 2) ∧
      ∀ y m, Within acc (fun k => accB k - m) (fun k => accB k - m) (pointsOf y) →
        Within vel (fun k => velB k - m) (fun k => velB k - m) (pointsOf y) →
        Within jerk (fun k => jerkB k - m) (fun k => velB k - m) (pointsOf y) →
        (∀ j < K, min (d.c0 2) (d.c1 2) + m ≤ pointsOf y j 2) → SatMargin A b m y := by
  generalize ha : countBound acc = ca
  generalize hv : countBound vel = cv
  generalize hj : countBound jerk = cj
  set n := 2 * 3 * (ca + cv + cj) + 3 * K with hn
  obtain ⟨⟨A1, b1⟩, a1, β1, q1, V1, o1, s1⟩ := boundLoop_rows 1 accB n acc 0 _ _ _ _ (view_zero n (3 * K)) (by rw [ha]; omega)
  obtain ⟨⟨A2, b2⟩, a2, β2, q2, V2, o2, s2⟩ := boundLoop_rows (-1) accB n acc (0 + countBound acc) _ _ _ _ V1 (by rw [ha]; omega)
  obtain ⟨⟨A3, b3⟩, a3, β3, q3, V3, o3, s3⟩ := boundLoop_rows 1 velB n vel (0 + countBound acc + countBound acc) _ _ _ _ V2 (by rw [ha, hv]; omega)
  obtain ⟨⟨A4, b4⟩, a4, β4, q4, V4, o4, s4⟩ := boundLoop_rows (-1) velB n vel (0 + countBound acc + countBound acc + countBound vel) _ _ _ _ V3
    (by rw [ha, hv]; omega)
  obtain ⟨⟨A5, b5⟩, a5, β5, q5, V5, o5, s5⟩ := boundLoop_rows 1 velB n jerk
    (0 + countBound acc + countBound acc + countBound vel + countBound vel) _ _ _ _ V4 (by rw [ha, hv, hj]; omega)
  obtain ⟨⟨A6, b6⟩, a6, β6, q6, V6, o6, s6⟩ := boundLoop_rows (-1) jerkB n jerk
    (0 + countBound acc + countBound acc + countBound vel + countBound vel + countBound jerk) _ _ _ _ V5
    (by rw [ha, hv, hj]; omega)
  simp only [ha, hv, hj] at q1 q2 q3 q4 q5 q6 o1 o2 o3 o4 o5 o6 s1 s2 s3 s4 s5 s6
  set e := 0 + ca + ca + cv + cv + cj + cj with he
  obtain ⟨A7, b7, w1, w2, V7⟩ := view_write V6 (e * 3) (3 * K) (fun r c => if r = c ∧ r % 3 = 2 then -1 else 0)
    (fun r => if r % 3 = 2 then -(min (d.c0 2) (d.c1 2)) else 0) (by omega)
  obtain ⟨A, b, z1, z2, r1, r2, r3, r4, eA, eb⟩ := view_entries V7
  have o7 : ∀ r < e * 3, A.e r = a6 r ∧ b.e r 0 = β6 r := by
    intro r hr
    rw [eA, eb]
    refine ⟨funext fun c => ?_, ?_⟩
    · rw [if_neg (by omega)]
    · rw [if_neg (by omega)]
  have S6 := s6.congr (a' := A.e) (β' := fun r => b.e r 0) fun r hr => o7 r (by omega)
  have c5 : ∀ r < (0 + ca + ca + cv + cv + cj) * 3, A.e r = a5 r ∧ b.e r 0 = β5 r := fun r hr => by
    rw [(o7 r (by omega)).1, (o7 r (by omega)).2]; exact o6 r hr
  have S5 := s5.congr (a' := A.e) (β' := fun r => b.e r 0) c5
  have c4 : ∀ r < (0 + ca + ca + cv + cv) * 3, A.e r = a4 r ∧ b.e r 0 = β4 r := fun r hr => by
    rw [(c5 r (by omega)).1, (c5 r (by omega)).2]; exact o5 r hr
  have S4 := s4.congr (a' := A.e) (β' := fun r => b.e r 0) c4
  have c3 : ∀ r < (0 + ca + ca + cv) * 3, A.e r = a3 r ∧ b.e r 0 = β3 r := fun r hr => by
    rw [(c4 r (by omega)).1, (c4 r (by omega)).2]; exact o4 r hr
  have S3 := s3.congr (a' := A.e) (β' := fun r => b.e r 0) c3
  have c2 : ∀ r < (0 + ca + ca) * 3, A.e r = a2 r ∧ b.e r 0 = β2 r := fun r hr => by
    rw [(c3 r (by omega)).1, (c3 r (by omega)).2]; exact o3 r hr
  have S2 := s2.congr (a' := A.e) (β' := fun r => b.e r 0) c2
  have c1 : ∀ r < (0 + ca) * 3, A.e r = a1 r ∧ b.e r 0 = β1 r := fun r hr => by
    rw [(c2 r (by omega)).1, (c2 r (by omega)).2]; exact o2 r hr
  have S1 := s1.congr (a' := A.e) (β' := fun r => b.e r 0) c1
  have last : ∀ r, e * 3 ≤ r → r < n → (∀ c < 3 * K, A.e r c = if r - e * 3 = c ∧ (r - e * 3) % 3 = 2 then -1 else 0) ∧
      b.e r 0 = if (r - e * 3) % 3 = 2 then -(min (d.c0 2) (d.c1 2)) else 0 := by
    intro r p1 p2
    rw [eA, eb]
    refine ⟨fun c hc => ?_, ?_⟩
    · dsimp only
      rw [if_pos (show e * 3 ≤ r ∧ r < e * 3 + 3 * K ∧ c < 3 * K from ⟨p1, by omega, hc⟩)]
    · rw [if_pos ⟨p1, by omega⟩]
  refine ⟨A, b, ?_, fun R hR hw r hr => ?_, fun y δ hy => ?_, fun y m ma mv mj mz r hr => ?_⟩
  · unfold computeConstraintsMatrix
    simp only [ha, hv, hj, ← hn]
    rw [q1]; simp only [Out.ok_bind]
    rw [q2]; simp only [Out.ok_bind]
    rw [q3]; simp only [Out.ok_bind]
    rw [q4]; simp only [Out.ok_bind]
    rw [q5]; simp only [Out.ok_bind]
    rw [q6]; simp only [Out.ok_bind]
    rw [w1]; simp only [Out.ok_bind]
    rw [w2]; simp only [Out.ok_bind]
    rw [if_pos (by rw [V7.ar]; omega), z1]; simp only [Out.ok_bind]
    rw [z2]; rfl
  · rw [r1] at hr
    by_cases hl : e * 3 ≤ r
    · have h0 : (1 : ℝ) ≤ R ^ 2 := one_le_pow₀ hR
      refine le_trans ?_ h0
      rw [Finset.sum_eq_single (r - e * 3)]
      · rw [(last r hl hr).1 _ (by omega)]
        split_ifs <;> norm_num
      · intro c hc hne
        rw [(last r hl hr).1 c (Finset.mem_range.mp hc), if_neg fun hh => hne hh.1.symm]
        norm_num
      · intro hh
        exact absurd (Finset.mem_range.mpr (by omega)) hh
    · have : ∃ w ∈ acc ++ vel ++ jerk, ∃ s bounds k, s ^ 2 = 1 ∧ PointRow (K := K) s bounds w k (A.e r) (b.e r 0) := by
        by_cases t1 : r < (0 + ca) * 3
        · obtain ⟨w, hw, -, k, hk⟩ := S1.1 r (by omega) t1
          exact ⟨w, by simp [hw], 1, _, k, by norm_num, hk⟩
        by_cases t2 : r < (0 + ca + ca) * 3
        · obtain ⟨w, hw, -, k, hk⟩ := S2.1 r (by omega) t2
          exact ⟨w, by simp [hw], -1, _, k, by norm_num, hk⟩
        by_cases t3 : r < (0 + ca + ca + cv) * 3
        · obtain ⟨w, hw, -, k, hk⟩ := S3.1 r (by omega) t3
          exact ⟨w, by simp [hw], 1, _, k, by norm_num, hk⟩
        by_cases t4 : r < (0 + ca + ca + cv + cv) * 3
        · obtain ⟨w, hw, -, k, hk⟩ := S4.1 r (by omega) t4
          exact ⟨w, by simp [hw], -1, _, k, by norm_num, hk⟩
        by_cases t5 : r < (0 + ca + ca + cv + cv + cj) * 3
        · obtain ⟨w, hw, -, k, hk⟩ := S5.1 r (by omega) t5
          exact ⟨w, by simp [hw], 1, _, k, by norm_num, hk⟩
        · obtain ⟨w, hw, -, k, hk⟩ := S6.1 r (by omega) (by omega)
          exact ⟨w, by simp [hw], -1, _, k, by norm_num, hk⟩
      obtain ⟨w, hw', s, bounds, k, hs, hk⟩ := this
      rw [hk.norm hs]
      exact hw w hw'
  · have use : ∀ {s bounds ws lo hi}, PointRows (K := K) s bounds ws A.e (fun r => b.e r 0) lo hi → hi ≤ n →
        ∀ w ∈ ws, ¬ w.isZero → ∀ k, s * w.at (pointsOf y) k ≤ bounds k + δ := by
      intro s bounds ws lo hi hP hhi w hw hz k
      obtain ⟨r, -, p2, p3⟩ := hP.2 w hw hz k
      have := hy r (by rw [r1]; omega)
      rw [r2] at this
      exact (p3.tol δ y).mp this
    refine ⟨(bounded_iff _ _ _ _).mp ⟨use S1 (by omega), use S2 (by omega)⟩,
      (bounded_iff _ _ _ _).mp ⟨use S3 (by omega), use S4 (by omega)⟩,
      (bounded_iff _ _ _ _).mp ⟨use S5 (by omega), use S6 (by omega)⟩, fun j hjK => ?_⟩
    have := hy (e * 3 + (3 * j + 2)) (by rw [r1]; omega)
    obtain ⟨l1, l2⟩ := last (e * 3 + (3 * j + 2)) (by omega) (by omega)
    rw [show e * 3 + (3 * j + 2) - e * 3 = 3 * j + 2 by omega] at l1 l2
    rw [r2, l2, if_pos (by omega), Finset.sum_eq_single (3 * j + 2)] at this
    · rw [l1 _ (by omega), if_pos ⟨rfl, by omega⟩] at this
      change _ ≤ y (3 * j + 2)
      linarith
    · intro c hc hne
      rw [l1 c (Finset.mem_range.mp hc), if_neg fun hh => hne hh.1.symm, zero_mul]
    · intro hh
      exact absurd (Finset.mem_range.mpr (by omega)) hh
  · rw [r1] at hr
    obtain ⟨ma1, ma2⟩ := (bounded_iff _ _ _ _).mpr ma
    obtain ⟨mv1, mv2⟩ := (bounded_iff _ _ _ _).mpr mv
    obtain ⟨mj1, mj2⟩ := (bounded_iff _ _ _ _).mpr mj
    have use : ∀ {s bounds ws lo hi}, PointRows (K := K) s bounds ws A.e (fun r => b.e r 0) lo hi →
        (∀ w ∈ ws, ¬ w.isZero → ∀ k, s * w.at (pointsOf y) k ≤ bounds k - m) → lo ≤ r → r < hi →
        ∑ c ∈ Finset.range A.cols, A.e r c * y c ≤ b.e r 0 - m := by
      intro s bounds ws lo hi hP hb p1 p2
      obtain ⟨w, hw, hz, k, hk⟩ := hP.1 r p1 p2
      have := (hk.tol (-m) y).mpr (by have := hb w hw hz k; linarith)
      rw [r2]
      linarith
    by_cases t1 : r < (0 + ca) * 3
    · exact Or.inl (use S1 ma1 (by omega) t1)
    by_cases t2 : r < (0 + ca + ca) * 3
    · exact Or.inl (use S2 ma2 (by omega) t2)
    by_cases t3 : r < (0 + ca + ca + cv) * 3
    · exact Or.inl (use S3 mv1 (by omega) t3)
    by_cases t4 : r < (0 + ca + ca + cv + cv) * 3
    · exact Or.inl (use S4 mv2 (by omega) t4)
    by_cases t5 : r < (0 + ca + ca + cv + cv + cj) * 3
    · exact Or.inl (use S5 mj1 (by omega) t5)
    by_cases t6 : r < e * 3
    · exact Or.inl (use S6 mj2 (by omega) (by omega))
    obtain ⟨l1, l2⟩ := last r (by omega) hr
    rw [r2]
    by_cases hm3 : (r - e * 3) % 3 = 2
    · left
      obtain ⟨j, hj3⟩ : ∃ j, r - e * 3 = 3 * j + 2 := ⟨(r - e * 3) / 3, by omega⟩
      have := mz j (by omega)
      rw [l2, if_pos hm3, Finset.sum_eq_single (r - e * 3)]
      · rw [l1 _ (by omega), if_pos ⟨rfl, hm3⟩, hj3]
        change _ ≤ y (3 * j + 2) at this
        linarith
      · intro c hc hne
        rw [l1 c (Finset.mem_range.mp hc), if_neg fun hh => hne hh.1.symm, zero_mul]
      · intro hh
        exact absurd (Finset.mem_range.mpr (by omega)) hh
    · right
      refine ⟨fun c hc => ?_, ?_⟩
      · rw [l1 c hc, if_neg fun hh => hm3 hh.2]
      · rw [l2, if_neg hm3]

end Verif
