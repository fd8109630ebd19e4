import Verif.Model.Utils
import Mathlib.Algebra.Order.Floor.Semiring
import Mathlib.Algebra.Order.Archimedean.Basic
import Mathlib.Data.Real.Archimedean
import Mathlib.Tactic.Positivity

/-!
# Helper lemmas for C16 and C17: time discretisation
-/

namespace Verif

/-- The samples of one phase. -/
noncomputable def phaseSamples (step start T : ℝ) (i : ℤ) : TTime :=
  (List.range ⌈T / step⌉₊).map (fun k : ℕ => (start + k * step, i)) ++ [(start + T, i)]

/-- The samples of all phases. -/
noncomputable def allSamples (step : ℝ) : List ℝ → ℤ → ℝ → TTime
  | [], _, _ => []
  | T :: Ts, i, start => phaseSamples step start T i ++ allSamples step Ts (i + 1) (start + T)

theorem discWhile_eq (step c : ℝ) (i : ℤ) (m : ℕ) :
    ∀ (fuel : ℕ) (t : ℝ) (acc : TTime), m + 1 ≤ fuel → (∀ k < m, t + k * step < c) →
      ¬ (t + m * step < c) →
      discWhile step c i fuel t acc
        = .ok (acc ++ (List.range m).map (fun k : ℕ => (t + k * step, i))) := by
  induction m with
  | zero =>
    intro fuel t acc hf _ hn
    obtain ⟨f, rfl⟩ : ∃ f, fuel = f + 1 := ⟨fuel - 1, by omega⟩
    have : ¬ t < c := by simpa using hn
    simp [discWhile, this]
  | succ m ih =>
    intro fuel t acc hf hk hn
    obtain ⟨f, rfl⟩ : ∃ f, fuel = f + 1 := ⟨fuel - 1, by omega⟩
    have h0 : t < c := by simpa using hk 0 (by omega)
    rw [discWhile, if_pos h0, ih f (t + step) _ (by omega)]
    · rw [List.range_succ_eq_map]
      simp [Function.comp_def]
      intro a _
      ring
    · intro k hk'
      have := hk (k + 1) (by omega)
      push_cast at this
      linarith
    · push_cast at hn
      linarith

theorem ceil_props (step T : ℝ) (hs : 0 < step) :
    (∀ k < ⌈T / step⌉₊, (k : ℝ) * step < T) ∧ T ≤ ⌈T / step⌉₊ * step := by
  constructor
  · intro k hk
    have := Nat.lt_ceil.mp hk
    rwa [lt_div_iff₀ hs] at this
  · have := Nat.le_ceil (T / step)
    rwa [div_le_iff₀ hs] at this

theorem discFor_eq (step : ℝ) (hs : 0 < step) (Ts : List ℝ) :
    (∀ T ∈ Ts, step * 2 ≤ T) → ∃ N, ∀ fuel ≥ N, ∀ (i : ℤ) (start : ℝ) (acc : TTime),
      discFor step fuel Ts i start acc = .ok (acc ++ allSamples step Ts i start) := by
  induction Ts with
  | nil => intro _; exact ⟨0, fun fuel _ i start acc => by simp [discFor, allSamples]⟩
  | cons T Ts ih =>
    intro h
    obtain ⟨N, hN⟩ := ih fun T hT => h T (List.mem_cons_of_mem _ hT)
    refine ⟨max N (⌈T / step⌉₊ + 1), fun fuel hf i start acc => ?_⟩
    have h1 := h T List.mem_cons_self
    obtain ⟨c1, c2⟩ := ceil_props step T hs
    rw [discFor, if_pos h1, discWhile_eq step (start + T) i ⌈T / step⌉₊ fuel start acc
      (le_trans (le_max_right _ _) hf) (fun k hk => by have := c1 k hk; linarith) (by linarith)]
    rw [Out.ok_bind, hN fuel (le_trans (le_max_left _ _) hf)]
    simp [allSamples, phaseSamples]

theorem phaseSamples_bounds (step start T : ℝ) (i : ℤ) (hs : 0 < step) (hT : 0 ≤ T) :
    ∀ q ∈ phaseSamples step start T i, start ≤ q.1 ∧ q.1 ≤ start + T ∧ q.2 = i := by
  intro q hq
  obtain ⟨c1, -⟩ := ceil_props step T hs
  simp only [phaseSamples, List.mem_append, List.mem_map, List.mem_range, List.mem_singleton] at hq
  rcases hq with ⟨k, hk, rfl⟩ | rfl
  · have := c1 k hk
    have h0 : 0 ≤ (k : ℝ) * step := by positivity
    exact ⟨by simpa using h0, by simpa using this.le, rfl⟩
  · exact ⟨by simpa using hT, le_rfl, rfl⟩

theorem allSamples_bounds (step : ℝ) (hs : 0 < step) (Ts : List ℝ) :
    (∀ T ∈ Ts, 0 ≤ T) → ∀ (i : ℤ) (start : ℝ), ∀ q ∈ allSamples step Ts i start,
      start ≤ q.1 ∧ q.1 ≤ start + Ts.sum ∧ i ≤ q.2 ∧ q.2 < i + Ts.length := by
  induction Ts with
  | nil => intro _ i start q hq; simp [allSamples] at hq
  | cons T Ts ih =>
    intro h i start q hq
    have hT := h T List.mem_cons_self
    have hTs : ∀ T ∈ Ts, 0 ≤ T := fun T hT => h T (List.mem_cons_of_mem _ hT)
    have hsum := List.sum_nonneg hTs
    rw [allSamples, List.mem_append] at hq
    rcases hq with hq | hq
    · obtain ⟨h1, h2, h3⟩ := phaseSamples_bounds step start T i hs hT q hq
      simp only [List.sum_cons, List.length_cons]
      refine ⟨h1, by linarith, h3.ge, ?_⟩
      rw [h3]; push_cast; omega
    · obtain ⟨h1, h2, h3, h4⟩ := ih hTs (i + 1) (start + T) q hq
      simp only [List.sum_cons, List.length_cons]
      refine ⟨by linarith, by linarith, by omega, ?_⟩
      push_cast; omega

theorem phaseSamples_pairwise (step start T : ℝ) (i : ℤ) (hs : 0 < step) :
    (phaseSamples step start T i).Pairwise (fun a b => a.1 ≤ b.1 ∧ a.2 ≤ b.2) := by
  obtain ⟨c1, -⟩ := ceil_props step T hs
  unfold phaseSamples
  rw [List.pairwise_append]
  refine ⟨?_, by simp, ?_⟩
  · rw [List.pairwise_map]
    refine List.pairwise_lt_range.imp ?_
    intro a b hab
    refine ⟨?_, le_rfl⟩
    have : (a : ℝ) ≤ b := by exact_mod_cast hab.le
    have := mul_le_mul_of_nonneg_right this hs.le
    simpa using this
  · intro a ha b hb
    simp only [List.mem_map, List.mem_range, List.mem_singleton] at ha hb
    obtain ⟨k, hk, rfl⟩ := ha
    subst hb
    exact ⟨by have := c1 k hk; simpa using this.le, le_rfl⟩

theorem allSamples_pairwise (step : ℝ) (hs : 0 < step) (Ts : List ℝ) :
    (∀ T ∈ Ts, 0 ≤ T) → ∀ (i : ℤ) (start : ℝ),
      (allSamples step Ts i start).Pairwise (fun a b => a.1 ≤ b.1 ∧ a.2 ≤ b.2) := by
  induction Ts with
  | nil => intro _ i start; simp [allSamples]
  | cons T Ts ih =>
    intro h i start
    have hT := h T List.mem_cons_self
    have hTs : ∀ T ∈ Ts, 0 ≤ T := fun T hT => h T (List.mem_cons_of_mem _ hT)
    rw [allSamples, List.pairwise_append]
    refine ⟨phaseSamples_pairwise _ _ _ _ hs, ih hTs _ _, ?_⟩
    intro a ha b hb
    obtain ⟨h1, h2, h3⟩ := phaseSamples_bounds step start T i hs hT a ha
    obtain ⟨k1, k2, k3, k4⟩ := allSamples_bounds step hs Ts hTs (i + 1) (start + T) b hb
    exact ⟨by linarith, by omega⟩

/-- Time gap between consecutive samples. -/
def Gap (step : ℝ) (a b : ℝ × ℤ) : Prop := b.1 ≤ a.1 + step

theorem phaseSamples_gap (step start T : ℝ) (i : ℤ) (hs : 0 < step) (hT : 0 < T) :
    (phaseSamples step start T i).IsChain (Gap step) := by
  obtain ⟨c1, c2⟩ := ceil_props step T hs
  unfold phaseSamples
  rw [List.isChain_append]
  refine ⟨?_, by simp, ?_⟩
  · rw [List.isChain_map, List.isChain_iff_getElem]
    intro k hk
    simp [Gap]
    ring_nf
    exact le_rfl
  · intro a ha b hb
    simp at hb
    subst hb
    have hpos : 0 < ⌈T / step⌉₊ := Nat.ceil_pos.mpr (by positivity)
    rw [List.getLast?_map, List.getLast?_range] at ha
    simp [hpos.ne'] at ha
    subst ha
    simp only [Gap]
    have : ((⌈T / step⌉₊ - 1 : ℕ) : ℝ) = (⌈T / step⌉₊ : ℝ) - 1 := by
      push_cast [Nat.cast_sub hpos]; ring
    simp only [this]
    linarith

theorem phaseSamples_ne (step start T : ℝ) (i : ℤ) : phaseSamples step start T i ≠ [] := by
  simp [phaseSamples]

theorem phaseSamples_head (step start T : ℝ) (i : ℤ) (hs : 0 < step) (hT : 0 < T) :
    (phaseSamples step start T i).head? = some (start, i) := by
  have hpos : 0 < ⌈T / step⌉₊ := Nat.ceil_pos.mpr (by positivity)
  obtain ⟨m, hm⟩ : ∃ m, ⌈T / step⌉₊ = m + 1 := ⟨⌈T / step⌉₊ - 1, by omega⟩
  rw [phaseSamples, hm, List.range_succ_eq_map]
  simp

theorem phaseSamples_last (step start T : ℝ) (i : ℤ) :
    (phaseSamples step start T i).getLast? = some (start + T, i) := by
  simp [phaseSamples]

theorem allSamples_head (step start : ℝ) (T : ℝ) (Ts : List ℝ) (i : ℤ) (hs : 0 < step) (hT : 0 < T) :
    (allSamples step (T :: Ts) i start).head? = some (start, i) := by
  rw [allSamples, List.head?_append, phaseSamples_head _ _ _ _ hs hT]
  rfl

theorem allSamples_gap (step : ℝ) (hs : 0 < step) (Ts : List ℝ) :
    (∀ T ∈ Ts, 0 < T) → ∀ (i : ℤ) (start : ℝ),
      (allSamples step Ts i start).IsChain (Gap step) := by
  induction Ts with
  | nil => intro _ i start; simp [allSamples]
  | cons T Ts ih =>
    intro h i start
    have hT := h T List.mem_cons_self
    have hTs : ∀ T ∈ Ts, 0 < T := fun T hT => h T (List.mem_cons_of_mem _ hT)
    rw [allSamples, List.isChain_append]
    refine ⟨phaseSamples_gap _ _ _ _ hs hT, ih hTs _ _, ?_⟩
    intro a ha b hb
    rw [phaseSamples_last] at ha
    cases Ts with
    | nil => simp [allSamples] at hb
    | cons T' Ts' =>
      rw [allSamples_head _ _ _ _ _ hs (hTs T' List.mem_cons_self)] at hb
      simp at ha hb
      subst ha; subst hb
      simp [Gap, hs.le]

theorem allSamples_last (step : ℝ) (Ts : List ℝ) :
    Ts ≠ [] → ∀ (i : ℤ) (start : ℝ),
      (allSamples step Ts i start).getLast? = some (start + Ts.sum, i + Ts.length - 1) := by
  induction Ts with
  | nil => intro h; exact absurd rfl h
  | cons T Ts ih =>
    intro _ i start
    rw [allSamples, List.getLast?_append, phaseSamples_last]
    cases Ts with
    | nil => simp [allSamples]
    | cons T' Ts' =>
      rw [ih (by simp) (i + 1) (start + T)]
      simp
      constructor
      · ring
      · ring

theorem allSamples_phase (step : ℝ) (hs : 0 < step) (Ts : List ℝ) :
    (∀ T ∈ Ts, 0 < T) → ∀ (i : ℤ) (start : ℝ), ∀ j < Ts.length,
      (start + (Ts.take j).sum, i + j) ∈ allSamples step Ts i start ∧
      (start + (Ts.take (j + 1)).sum, i + j) ∈ allSamples step Ts i start ∧
      ∀ q ∈ allSamples step Ts i start, q.2 = i + j →
        start + (Ts.take j).sum ≤ q.1 ∧ q.1 ≤ start + (Ts.take (j + 1)).sum := by
  induction Ts with
  | nil => intro _ i start j hj; simp at hj
  | cons T Ts ih =>
    intro h i start j hj
    have hT := h T List.mem_cons_self
    have hTs : ∀ T ∈ Ts, 0 < T := fun T hT => h T (List.mem_cons_of_mem _ hT)
    have hTs0 : ∀ T ∈ Ts, 0 ≤ T := fun T hT => (hTs T hT).le
    cases j with
    | zero =>
      refine ⟨?_, ?_, ?_⟩
      · have := allSamples_head step start T Ts i hs hT
        simpa using List.mem_of_head? this
      · rw [allSamples, List.mem_append]
        left
        have := phaseSamples_last step start T i
        simpa using List.mem_of_getLast? this
      · intro q hq hqi
        rw [allSamples, List.mem_append] at hq
        rcases hq with hq | hq
        · obtain ⟨h1, h2, h3⟩ := phaseSamples_bounds step start T i hs hT.le q hq
          simpa using ⟨h1, h2⟩
        · obtain ⟨k1, k2, k3, k4⟩ := allSamples_bounds step hs Ts hTs0 (i + 1) (start + T) q hq
          simp at hqi
          omega
    | succ j =>
      obtain ⟨h1, h2, h3⟩ := ih hTs (i + 1) (start + T) j (by simpa using hj)
      have e1 : start + ((T :: Ts).take (j + 1)).sum = start + T + (Ts.take j).sum := by
        simp; ring
      have e2 : start + ((T :: Ts).take (j + 1 + 1)).sum = start + T + (Ts.take (j + 1)).sum := by
        rw [List.take_succ_cons, List.sum_cons]; ring
      have e3 : i + ((j + 1 : ℕ) : ℤ) = i + 1 + (j : ℤ) := by push_cast; ring
      rw [e1, e2, e3]
      refine ⟨?_, ?_, ?_⟩
      · rw [allSamples, List.mem_append]; right; exact h1
      · rw [allSamples, List.mem_append]; right; exact h2
      · intro q hq hqi
        rw [allSamples, List.mem_append] at hq
        rcases hq with hq | hq
        · obtain ⟨_, _, g3⟩ := phaseSamples_bounds step start T i hs hT.le q hq
          omega
        · exact h3 q hq hqi

/-! ## Fixed number of points per phase -/

theorem fixedInner_eq (step : ℝ) (i : ℤ) (n : ℕ) : ∀ t : ℝ,
    fixedInner step i n t
      = (t + n * step, (List.range n).map fun j : ℕ => (t + (j + 1) * step, i)) := by
  induction n with
  | zero => intro t; simp [fixedInner]
  | succ n ih =>
    intro t
    rw [fixedInner, ih]
    refine Prod.ext ?_ ?_
    · simp; ring
    · rw [List.range_succ_eq_map]
      simp [Function.comp_def]
      intro a _
      ring

theorem fixedOuter_length (n : ℕ) (Ts : List ℝ) : ∀ (i : ℤ) (t : ℝ),
    (fixedOuter n Ts i t).length = Ts.length * n := by
  induction Ts with
  | nil => intro i t; simp [fixedOuter]
  | cons T Ts ih =>
    intro i t
    rw [fixedOuter, fixedInner_eq]
    simp [ih]
    ring

theorem fixedOuter_get (n : ℕ) (hn : 0 < n) (Ts : List ℝ) : ∀ (i : ℤ) (t : ℝ) (a b : ℕ),
    a < Ts.length → b < n →
    (fixedOuter n Ts i t)[a * n + b]?
      = some (t + (Ts.take a).sum + (b + 1) * (Ts.getD a 0 / n), i + a) := by
  induction Ts with
  | nil => intro i t a b ha; simp at ha
  | cons T Ts ih =>
    intro i t a b ha hb
    rw [fixedOuter, fixedInner_eq]
    have hn' : (n : ℝ) ≠ 0 := by exact_mod_cast hn.ne'
    cases a with
    | zero =>
      rw [List.getElem?_append_left (by simpa using hb)]
      simp [hb]
    | succ a =>
      rw [List.getElem?_append_right (by simp; nlinarith)]
      have : (a + 1) * n + b - (List.map (fun j : ℕ => (t + ((j : ℝ) + 1) * (T / n), i)) (List.range n)).length
          = a * n + b := by
        simp only [List.length_map, List.length_range]
        have : (a + 1) * n = a * n + n := by ring
        omega
      simp only [this]
      rw [ih (i + 1) _ a b (by simpa using ha) hb]
      have e : (n : ℝ) * (T / n) = T := by field_simp
      simp [e]
      constructor
      · ring
      · ring

end Verif
