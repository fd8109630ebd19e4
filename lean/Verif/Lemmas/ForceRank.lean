import Verif.Props.C23
import Mathlib.LinearAlgebra.FiniteDimensional.Lemmas
import Mathlib.LinearAlgebra.Dimension.Constructions

/-!
# Rank of the equality system of the formulation with forces
-/

namespace Verif
open Matrix

/-- The generators span the space of wrenches: nothing is orthogonal to all of them. -/
def Spans (e : Equilibrium) : Prop :=
  ∀ u v : V3, (∀ q ∈ e.gens, dot u q.1 + dot v q.2 = 0) → u = 0 ∧ v = 0

theorem get6_dot (u v f τ : V3) : ∑ r ∈ Finset.range 6, get6 u v r * get6 f τ r = dot u f + dot v τ := by
  simp [Finset.sum_range_succ, get6, V3.get, dot]
  ring

/-- Fewer than six generators do not span. -/
theorem Spans.six {e : Equilibrium} (h : Spans e) : 6 ≤ e.gens.length := by
  by_contra hlt
  push_neg at hlt
  let f : (V3 × V3) →ₗ[ℝ] (Fin e.gens.length → ℝ) :=
    { toFun := fun p k => dot p.1 (e.gens.get k).1 + dot p.2 (e.gens.get k).2
      map_add' := by intro p q; funext k; simp [dot]; ring
      map_smul' := by intro c p; funext k; simp [dot]; ring }
  have hinj : Function.Injective f := by
    rw [← LinearMap.ker_eq_bot, LinearMap.ker_eq_bot']
    intro p hp
    obtain ⟨h1, h2⟩ := h p.1 p.2 (by
      intro q hq
      obtain ⟨k, hk⟩ := List.get_of_mem hq
      rw [← hk]
      exact congrFun hp k)
    exact Prod.ext h1 h2
  have := LinearMap.finrank_le_finrank_of_injective hinj
  simp at this
  omega

theorem gcols_take_le (B : List (Wp6 × Equilibrium)) (j : ℕ) (q : Wp6 × Equilibrium) (h : B[j]? = some q) :
    gcols (B.take j) + q.2.gens.length = gcols (B.take (j + 1)) := by
  obtain ⟨hj, he⟩ := List.getElem?_eq_some_iff.mp h
  rw [List.take_succ_eq_append_getElem hj, gcols_append, he]
  simp [gcols]

theorem gcols_take_mono (B : List (Wp6 × Equilibrium)) {j k : ℕ} (h : j ≤ k) :
    gcols (B.take j) ≤ gcols (B.take k) := by
  have : B.take k = B.take j ++ (B.take k).drop j := by
    have := (List.take_append_drop j (B.take k)).symm
    rwa [List.take_take, min_eq_left h] at this
  rw [this, gcols_append]
  omega

/-- Blocks whose generators span give linearly independent equations, no more than unknowns. -/
theorem blocks_independent (B : List (Wp6 × Equilibrium)) (D : Mat) (hrows : D.rows = 6 * B.length)
    (he : ∀ j q, B[j]? = some q → ∀ r < 6, ∀ c, D.e (6 * j + r) c = blockEntry q (3 + gcols (B.take j)) r c)
    (hs : ∀ q ∈ B, Spans q.2) :
    D.rows ≤ 3 + gcols B ∧
    ∀ i < D.rows, ∀ c : ℕ → ℝ, ¬ ∀ l < 3 + gcols B, D.e i l = ∑ k ∈ Finset.range i, c k * D.e k l := by
  constructor
  · have : 6 * B.length ≤ gcols B := by
      clear he hrows
      induction B with
      | nil => simp [gcols]
      | cons q B ih =>
        have h1 := (hs q (by simp)).six
        have h2 := ih fun p hp => hs p (by simp [hp])
        simp [gcols] at h2 ⊢
        omega
    omega
  · intro i hi c hdep
    set w : ℕ → ℝ := fun k => if k = i then 1 else if k < i then -c k else 0 with hw
    have hsum : ∀ x : ℕ → ℝ, ∑ k ∈ Finset.range D.rows, w k * x k = x i - ∑ k ∈ Finset.range i, c k * x k := by
      intro x
      rw [← Finset.sum_subset (Finset.range_subset_range.mpr (show i + 1 ≤ D.rows from hi))]
      · rw [Finset.sum_range_succ, Finset.sum_congr rfl (g := fun k => -(c k * x k)), Finset.sum_neg_distrib]
        · simp [hw]; ring
        · intro k hk
          have := Finset.mem_range.mp hk
          simp only [hw]
          rw [if_neg (by omega), if_pos this]; ring
      · intro k _ hk
        have : ¬ k < i + 1 := fun h => hk (Finset.mem_range.mpr h)
        simp only [hw]
        rw [if_neg (by omega), if_neg (by omega), zero_mul]
    set j := i / 6 with hj
    obtain ⟨q, hq⟩ : ∃ q, B[j]? = some q := ⟨B[j]'(by omega), List.getElem?_eq_getElem (by omega)⟩
    have hqB : q ∈ B := List.mem_of_getElem? hq
    have horth : ∀ k < q.2.gens.length,
        ∑ r ∈ Finset.range 6, w (6 * j + r) * get6 (q.2.gens.getD k 0).1 (q.2.gens.getD k 0).2 r = 0 := by
      intro k hk
      have hend := gcols_take_le B j q hq
      have hle : gcols (B.take (j + 1)) ≤ gcols B := by
        have := gcols_take_mono B (show j + 1 ≤ B.length by omega)
        rwa [List.take_length] at this
      have h0 := hsum fun m => D.e m (3 + gcols (B.take j) + k)
      rw [hdep _ (by omega), sub_self] at h0
      have hsub : (Finset.range 6).image (fun r => 6 * j + r) ⊆ Finset.range D.rows := by
        intro m hm
        obtain ⟨r, hr, rfl⟩ := Finset.mem_image.mp hm
        have := Finset.mem_range.mp hr
        exact Finset.mem_range.mpr (by omega)
      rw [← Finset.sum_subset hsub, Finset.sum_image (by intro a _ b _ h; simpa using h)] at h0
      · rw [← h0]
        refine Finset.sum_congr rfl fun r hr => ?_
        rw [he j q hq r (Finset.mem_range.mp hr), blockEntry, if_neg (by omega), if_pos (by omega),
          show 3 + gcols (B.take j) + k - (3 + gcols (B.take j)) = k by omega]
      · intro m hm hnot
        have hm := Finset.mem_range.mp hm
        have hmj : m / 6 ≠ j := by
          intro h
          exact hnot (Finset.mem_image.mpr ⟨m % 6, Finset.mem_range.mpr (Nat.mod_lt _ (by norm_num)), by omega⟩)
        obtain ⟨q', hq'⟩ : ∃ q', B[m / 6]? = some q' := ⟨B[m / 6]'(by omega), List.getElem?_eq_getElem (by omega)⟩
        have : D.e m (3 + gcols (B.take j) + k) = 0 := by
          have e := he (m / 6) q' hq' (m % 6) (Nat.mod_lt _ (by norm_num)) (3 + gcols (B.take j) + k)
          rw [Nat.div_add_mod] at e
          have hend' := gcols_take_le B (m / 6) q' hq'
          rw [e, blockEntry, if_neg (by omega), if_neg]
          rintro ⟨h1, h2⟩
          rcases Nat.lt_or_gt_of_ne hmj with h | h
          · have := gcols_take_mono B (show m / 6 + 1 ≤ j from h)
            omega
          · have := gcols_take_mono B (show j + 1 ≤ m / 6 from h)
            omega
        rw [this, mul_zero]
    obtain ⟨hu, hv⟩ := hs q hqB ![w (6 * j), w (6 * j + 1), w (6 * j + 2)]
      ![w (6 * j + 3), w (6 * j + 4), w (6 * j + 5)] (by
        intro p hp
        obtain ⟨k, hk, hpk⟩ := List.mem_iff_getElem.mp hp
        have := horth k hk
        have e : q.2.gens.getD k 0 = p := by simp [List.getD, hk, hpk]
        rw [e] at this
        rw [← get6_dot, ← this]
        simp [Finset.sum_range_succ, get6, V3.get])
    have hone : w i = 1 := by simp [hw]
    have hi6 : i = 6 * j + i % 6 := by omega
    have hlt : i % 6 < 6 := Nat.mod_lt _ (by norm_num)
    rw [hi6] at hone
    have a0 := congrFun hu 0
    have a1 := congrFun hu 1
    have a2 := congrFun hu 2
    have b0 := congrFun hv 0
    have b1 := congrFun hv 1
    have b2 := congrFun hv 2
    simp at a0 a1 a2 b0 b1 b2
    generalize i % 6 = r at hone hlt
    rw [← Nat.add_zero (6 * j)] at a0
    have : r = 0 ∨ r = 1 ∨ r = 2 ∨ r = 3 ∨ r = 4 ∨ r = 5 := by omega
    rcases this with rfl | rfl | rfl | rfl | rfl | rfl <;> linarith

/-- The blocks hold the contacts of the phases. -/
theorem contBlocks_phase (e : ℕ → Equilibrium) (T : ℝ) (w : List Wp6) (Ts : List ℝ) :
    ∀ (i : ℕ) (t : ℝ) (cSize : ℕ), ∀ q ∈ contBlocks e T w Ts i t cSize, ∃ p < Ts.length, q.2 = e (i + p) := by
  induction Ts with
  | nil => intro i t cSize q hq; simp [contBlocks] at hq
  | cons D Ts ih =>
    intro i t cSize q hq
    rw [contBlocks, List.mem_append] at hq
    rcases hq with hq | hq
    · obtain ⟨v, -, rfl⟩ := List.mem_map.mp hq
      exact ⟨0, by simp, rfl⟩
    · obtain ⟨p, hp, hqe⟩ := ih _ _ _ q hq
      exact ⟨p + 1, by simp; omega, by rw [hqe]; congr 1; omega⟩

/-- If the generators of every phase span the space of wrenches, the equations of the formulation with forces are
linearly independent and not more than the unknowns. -/
theorem force_independent (κ : ℝ) (pData : ProblemData) (Ts : List ℝ) (g : V3) (h : AcceptedC pData Ts g)
    (hr : pData.representation ≠ DOUBLE_DESCRIPTION)
    (hs : ∀ ct ∈ pData.contacts, ∀ e, ct.contactPhase = some e → Spans e)
    (S : ContSystem) (hS : computeConstraintsContinuous κ pData Ts = .ok S) :
    S.D.rows ≤ S.A.cols ∧
    ∀ i < S.D.rows, ∀ c : ℕ → ℝ, ¬ ∀ l < S.A.cols, S.D.e i l = ∑ k ∈ Finset.range i, c k * S.D.e k l := by
  obtain ⟨ct, e, pts, ws, S', R⟩ := cont_raw κ pData Ts g h
  have := R.hS
  rw [hS] at this
  cases this
  rw [(R.eqn hr).1]
  refine blocks_independent _ _ (R.deqn hr).1 (R.deqn hr).2 fun q hq => ?_
  obtain ⟨p, hp, hqe⟩ := contBlocks_phase _ _ _ _ _ _ _ q hq
  rw [hqe, zero_add]
  exact hs (ct p) (List.mem_of_getElem? (R.hct p hp)) _ (R.he p hp)

end Verif
