import Verif.Model.EndEffector
import Verif.Lemmas.ZeroStep

/-!
# The inequality matrix of the end effector problem
-/

namespace Verif
open Matrix

/-- The free points read from the unknowns. -/
def pointsOf (y : ℕ → ℝ) : ℕ → V3 := fun j k => y (3 * j + k)

/-- Row `r` of the system holds at `y`. -/
def RowOk (m : ℕ) (a : ℕ → ℕ → ℝ) (β : ℕ → ℝ) (y : ℕ → ℝ) (r : ℕ) : Prop :=
  ∑ c ∈ Finset.range m, a r c * y c ≤ β r

theorem view_write {A b : Buf} {n m : ℕ} {a : ℕ → ℕ → ℝ} {β : ℕ → ℝ} (h : View A b n m a β) (i nr : ℕ)
    (f : ℕ → ℕ → ℝ) (g : ℕ → ℝ) (hi : i + nr ≤ n) :
    ∃ A' b', A.write i 0 nr m f = .ok A' ∧ b.write i 0 nr 1 (fun r _ => g r) = .ok b' ∧ View A' b' n m
      (fun r c => if i ≤ r ∧ r < i + nr ∧ c < m then f (r - i) c else a r c)
      (fun r => if i ≤ r ∧ r < i + nr then g (r - i) else β r) := by
  have w : A.write i 0 nr m f = .ok _ := if_pos ⟨by rw [h.ar]; exact hi, by rw [h.ac]; omega⟩
  have v : b.write i 0 nr 1 (fun r _ => g r) = .ok _ := if_pos ⟨by rw [h.br]; exact hi, by rw [h.bc]⟩
  refine ⟨_, _, w, v, h.ar, h.ac, h.br, h.bc, fun r c => ?_, fun r => ?_⟩
  · dsimp only
    by_cases hc : i ≤ r ∧ r < i + nr ∧ c < m
    · rw [if_pos hc, if_pos ⟨hc.1, hc.2.1, Nat.zero_le _, by omega⟩]; rfl
    · rw [if_neg hc, if_neg fun hh => hc ⟨hh.1, hh.2.1, by omega⟩]
      exact h.a r c
  · dsimp only
    by_cases hr : i ≤ r ∧ r < i + nr
    · rw [if_pos hr, if_pos ⟨hr.1, hr.2, le_rfl, by norm_num⟩]
    · rw [if_neg hr, if_neg fun hc => hr ⟨hc.1, hc.2.1⟩]
      exact h.b r

theorem sum_thirds (K : ℕ) (f : ℕ → ℝ) :
    ∑ c ∈ Finset.range (3 * K), f c = ∑ j ∈ Finset.range K, (f (3 * j) + f (3 * j + 1) + f (3 * j + 2)) := by
  induction K with
  | zero => rfl
  | succ K ih =>
    rw [Finset.sum_range_succ, ← ih, show 3 * (K + 1) = 3 * K + 1 + 1 + 1 by ring, Finset.sum_range_succ,
      Finset.sum_range_succ, Finset.sum_range_succ]
    ring

theorem entry_sum {K : ℕ} (w : WpB K) (k : Fin 3) (s : ℝ) (y : ℕ → ℝ) :
    ∑ c ∈ Finset.range (3 * K), s * w.entry k c * y c = s * (w.at (pointsOf y) k - w.second k) := by
  rw [sum_thirds, WpB.at, Pi.add_apply, add_sub_cancel_right, Finset.sum_apply, Finset.mul_sum, Finset.sum_range]
  refine Finset.sum_congr rfl fun j _ => ?_
  have d0 : 3 * j.val / 3 = j.val := by omega
  have d1 : (3 * j.val + 1) / 3 = j.val := by omega
  have d2 : (3 * j.val + 2) / 3 = j.val := by omega
  have m0 : 3 * j.val % 3 = 0 := by omega
  have m1 : (3 * j.val + 1) % 3 = 1 := by omega
  have m2 : (3 * j.val + 2) % 3 = 2 := by omega
  have hj := j.isLt
  fin_cases k <;> simp [WpB.entry, d0, d1, d2, m0, m1, m2, hj, pointsOf] <;> ring

/-- The contents of the rows written by one loop: each control point that depends on the unknowns is bounded. -/
theorem boundLoop_view {K : ℕ} (s : ℝ) (bounds : V3) (n : ℕ) :
    ∀ (ws : List (WpB K)) (i : ℕ) (A b : Buf) (a : ℕ → ℕ → ℝ) (β : ℕ → ℝ), View A b n (3 * K) a β →
      (i + countBound ws) * 3 ≤ n →
      ∃ q a' β', boundLoop s bounds ws i A b = .ok (i + countBound ws, q) ∧ View q.1 q.2 n (3 * K) a' β' ∧
        (∀ r, r < i * 3 ∨ (i + countBound ws) * 3 ≤ r → ∀ y, RowOk (3 * K) a' β' y r ↔ RowOk (3 * K) a β y r) ∧
        ∀ y, (∀ r, i * 3 ≤ r → r < (i + countBound ws) * 3 → RowOk (3 * K) a' β' y r) ↔
          ∀ w ∈ ws, ¬ w.isZero → ∀ k, s * w.at (pointsOf y) k ≤ bounds k := by
  intro ws
  induction ws with
  | nil =>
    intro i A b a β h _
    refine ⟨(A, b), a, β, rfl, h, fun r _ y => Iff.rfl, fun y => ?_⟩
    simp only [List.not_mem_nil, false_implies, implies_true, iff_true, countBound]
    intro r h1 h2; omega
  | cons w ws ih =>
    intro i A b a β h hle
    by_cases hz : w.isZero
    · simp only [countBound, if_pos hz] at hle ⊢
      obtain ⟨q, a', β', hq, hV, h1, h2⟩ := ih i A b a β h hle
      refine ⟨q, a', β', ?_, hV, h1, fun y => ?_⟩
      · rw [boundLoop, if_pos hz]; exact hq
      · rw [h2 y]
        simp only [List.mem_cons, forall_eq_or_imp, hz, not_true_eq_false, false_implies, true_and]
    · simp only [countBound, if_neg hz] at hle ⊢
      obtain ⟨A1, b1, hA, hb, hV1⟩ := view_write h (i * 3) 3 (fun r c => s * w.entry r c)
        (fun r => V3.get (bounds - s • w.second) r) (by omega)
      obtain ⟨q, a', β', hq, hV, h1, h2⟩ := ih (i + 1) A1 b1 _ _ hV1 (by omega)
      have hown : ∀ y, (∀ k : Fin 3, RowOk (3 * K) a' β' y (i * 3 + k)) ↔ ∀ k, s * w.at (pointsOf y) k ≤ bounds k := by
        intro y
        refine forall_congr' fun k => ?_
        have hk := k.isLt
        rw [h1 _ (Or.inl (by omega)) y]
        unfold RowOk
        have e : i * 3 + k.val - i * 3 = k.val := by omega
        dsimp only
        rw [e]
        have : ∑ c ∈ Finset.range (3 * K), (if i * 3 ≤ i * 3 + k.val ∧ i * 3 + k.val < i * 3 + 3 ∧ c < 3 * K then
            s * w.entry k.val c else a (i * 3 + k.val) c) * y c = s * (w.at (pointsOf y) k - w.second k) := by
          rw [← entry_sum]
          refine Finset.sum_congr rfl fun c hc => ?_
          rw [if_pos ⟨by omega, by omega, Finset.mem_range.mp hc⟩]
        rw [this, if_pos ⟨by omega, by omega⟩]
        simp only [V3.get, hk, dif_pos, Pi.sub_apply, Pi.smul_apply, smul_eq_mul, Fin.eta]
        constructor <;> intro hh <;> linarith
      refine ⟨q, a', β', ?_, hV, ?_, fun y => ?_⟩
      · rw [boundLoop, if_neg hz, hA, Out.ok_bind, hb, Out.ok_bind, hq]
        rw [show i + 1 + countBound ws = i + (countBound ws + 1) by omega]
      · intro r hr y
        rw [h1 r (by omega) y]
        unfold RowOk
        dsimp only
        have : ∑ c ∈ Finset.range (3 * K), (if i * 3 ≤ r ∧ r < i * 3 + 3 ∧ c < 3 * K then
            s * w.entry (r - i * 3) c else a r c) * y c = ∑ c ∈ Finset.range (3 * K), a r c * y c :=
          Finset.sum_congr rfl fun c _ => by rw [if_neg (by omega)]
        rw [this, if_neg (by omega)]
      · simp only [List.mem_cons, forall_eq_or_imp, hz, not_false_eq_true, true_implies]
        rw [← hown y, ← h2 y]
        constructor
        · intro hh
          exact ⟨fun k => hh _ (by omega) (by have := k.isLt; omega), fun r p1 p2 => hh r (by omega) (by omega)⟩
        · rintro ⟨g1, g2⟩ r p1 p2
          by_cases hr : r < i * 3 + 3
          · have := g1 ⟨r - i * 3, by omega⟩
            simpa [show i * 3 + (r - i * 3) = r by omega] using this
          · exact g2 r (by omega) (by omega)

end Verif
