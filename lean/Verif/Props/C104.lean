import Verif.Model.Cross
import Verif.Props.C15
import Verif.SpecConstraints

/-!
# C104 — the unused variant of the stability rows reads a column that was never assigned
-/

namespace Verif
open Matrix

/-- The unknowns `x` and the slack variable `s`. -/
def withSlack (x : V3) (s : ℝ) : Fin 4 → ℝ := ![x 0, x 1, x 2, s]

theorem crossBuf_ok (mH : HRows) (g : V3) (c ddc : Coefs) :
    ∃ B : Buf, crossBuf mH g c ddc = .ok B ∧ B.rows = mH.length ∧ B.cols = 4 ∧
      (∀ i < mH.length, ∀ j < 3, B.e i j = some (V3.get ((mH.map fun r => (crossRow g c ddc r).1).getD i 0) j)) ∧
      ∀ i, B.e i 3 = none := by
  unfold crossBuf Buf.writeRows Buf.write
  rw [if_pos (by simp [Buf.uninit])]
  refine ⟨_, rfl, rfl, rfl, ?_, ?_⟩
  · intro i hi j hj
    simp [Buf.uninit, hi, hj]
  · intro i
    simp [Buf.uninit]

/-- C104. On a system with at least one row the function reads coefficients that were never assigned
(column 3, before it is set to one): its behaviour is undefined, for every input. -/
theorem C104_undefined (mH : HRows) (g : V3) (c ddc : Coefs) :
    (mH ≠ [] → dynamicStabilityConstraints_cross mH g c ddc = .ub) ∧
      (mH = [] → dynamicStabilityConstraints_cross mH g c ddc = .ok []) := by
  obtain ⟨B, hB, hr, hc, -, h3⟩ := crossBuf_ok mH g c ddc
  constructor
  · intro hne
    have hv : B.value = .ub := by
      unfold Buf.value
      rw [if_neg]
      intro h
      have := h 0 (by rw [hr]; exact List.length_pos_iff.mpr hne) 3 (by rw [hc]; norm_num)
      rw [h3] at this
      simp at this
    show (crossBuf mH g c ddc >>= _) = _
    rw [hB]
    show (B.value >>= _) = _
    rw [hv]
    rfl
  · rintro rfl
    have hv : ∃ M, B.value = .ok M ∧ M.rows = 0 := by
      unfold Buf.value
      rw [if_pos (by intro r hr'; rw [hr] at hr'; simp at hr')]
      exact ⟨_, rfl, hr⟩
    obtain ⟨M, hM, hM0⟩ := hv
    show (crossBuf [] g c ddc >>= _) = _
    rw [hB]
    show (B.value >>= _) = _
    rw [hM]
    show Out.ok (setSlack (Normalize (M.rows4 _)).1) = _
    simp [Mat.rows4, hM0, Normalize, removeZeroRows, rzLoop, setSlack]

/-- The row the code computes is the wrench inequality of the row of `mH`, the position `c(x)` and the
acceleration `ddc(x)` being affine in `x`. -/
theorem crossRow_wrench (g : V3) (c ddc : Coefs) (r : (V3 × V3) × ℝ) (x : V3) :
    (crossRow g c ddc r).1 ⬝ᵥ x ≤ (crossRow g c ddc r).2 ↔
      dot r.1.1 (ddc.first • x + ddc.second - g) +
          dot r.1.2 (cr (c.first • x + c.second) (ddc.first • x + ddc.second - g)) ≤ r.2 := by
  have h : dot r.1.1 (ddc.first • x + ddc.second - g) +
          dot r.1.2 (cr (c.first • x + c.second) (ddc.first • x + ddc.second - g)) - r.2 =
      (crossRow g c ddc r).1 ⬝ᵥ x - (crossRow g c ddc r).2 := by
    simp [crossRow, dot, cr, crossProduct, skew, eigenCross, dotProduct, vecMul, Fin.sum_univ_three]
    ring
  constructor <;> intro h' <;> linarith

theorem rowsHold_setSlack (rows : List ((Fin 4 → ℝ) × ℝ)) (x : V3) :
    RowsHold (setSlack rows) (withSlack x 0) ↔ RowsHold rows (withSlack x 0) := by
  have h : ∀ r : (Fin 4 → ℝ) × ℝ, Function.update r.1 3 1 ⬝ᵥ withSlack x 0 = r.1 ⬝ᵥ withSlack x 0 := by
    intro r
    simp [dotProduct, Fin.sum_univ_four, withSlack, Function.update]
  constructor
  · intro hh r hr
    have := hh _ (List.mem_map.mpr ⟨r, hr, rfl⟩)
    rwa [h] at this
  · intro hh r hr
    obtain ⟨r', hr', rfl⟩ := List.mem_map.mp hr
    show Function.update r'.1 3 1 ⬝ᵥ withSlack x 0 ≤ r'.2
    rw [h]
    exact hh r' hr'

/-- C104. Whatever the memory contained: as many rows as inequalities, and without the slack variable they
hold exactly when the wrench of the position `c(x)` and the acceleration `ddc(x)` satisfies every inequality
of the polytope. -/
theorem C104_any_memory (mem : ℕ → ℕ → ℝ) (mH : HRows) (g : V3) (c ddc : Coefs) :
    ∃ out, crossWith mem mH g c ddc = .ok out ∧ out.length = mH.length ∧
      (∀ r ∈ out, r.1 3 = 1) ∧
      ∀ x : V3, RowsHold out (withSlack x 0) ↔
        ∀ r ∈ mH, dot r.1.1 (ddc.first • x + ddc.second - g) +
          dot r.1.2 (cr (c.first • x + c.second) (ddc.first • x + ddc.second - g)) ≤ r.2 := by
  obtain ⟨B, hB, hr, hc, he, h3⟩ := crossBuf_ok mH g c ddc
  have hlen : ((B.readWith mem).rows4 (mH.map fun r => (crossRow g c ddc r).2)).length = mH.length := by
    simp [Mat.rows4, Buf.readWith, hr]
  obtain ⟨h1, h2⟩ := C15_feasible_set ((B.readWith mem).rows4 (mH.map fun r => (crossRow g c ddc r).2))
  refine ⟨setSlack (Normalize ((B.readWith mem).rows4 (mH.map fun r => (crossRow g c ddc r).2))).1, ?_, ?_, ?_, ?_⟩
  · show (crossBuf mH g c ddc >>= _) = _
    rw [hB]
    rfl
  · rw [setSlack, List.length_map, h1, hlen]
  · intro r hr'
    obtain ⟨r', -, rfl⟩ := List.mem_map.mp hr'
    simp
  · intro x
    rw [rowsHold_setSlack, h2]
    have hrow : ∀ (i : ℕ) (hi : i < mH.length),
        (fun j : Fin 4 => (B.readWith mem).e i j) ⬝ᵥ withSlack x 0 = (crossRow g c ddc mH[i]).1 ⬝ᵥ x := by
      intro i hi
      have e : ∀ j < 3, (B.readWith mem).e i j = V3.get (crossRow g c ddc mH[i]).1 j := by
        intro j hj
        simp [Buf.readWith, he i hi j hj, hi]
      have e0 := e 0 (by norm_num)
      have e1 := e 1 (by norm_num)
      have e2 := e 2 (by norm_num)
      simp only [dotProduct, Fin.sum_univ_four, Fin.sum_univ_three, withSlack]
      simp [e0, e1, e2, V3.get]
    constructor
    · intro hh r hr'
      obtain ⟨i, hi, rfl⟩ := List.mem_iff_getElem.mp hr'
      have := hh _ (List.mem_map.mpr ⟨i, List.mem_range.mpr (by simpa [Buf.readWith, hr] using hi), rfl⟩)
      rw [← crossRow_wrench, ← hrow i hi]
      simpa [hi] using this
    · intro hh r hr'
      obtain ⟨i, hi, rfl⟩ := List.mem_map.mp hr'
      have hi' : i < mH.length := by simpa [Buf.readWith, hr] using List.mem_range.mp hi
      have := (crossRow_wrench g c ddc mH[i] x).mpr (hh _ (List.getElem_mem hi'))
      rw [← hrow i hi'] at this
      simpa [hi'] using this

theorem normalize_single {n : ℕ} (a : Fin n → ℝ) (b : ℝ) (ha : a ≠ 0) :
    (Normalize [(a, b)]).1 = [((fun j => a j / eNorm a), b / eNorm a)] := by
  have : ¬ ∀ k, a k = 0 := fun h => ha (funext h)
  simp [Normalize, removeZeroRows, rzLoop, zrow, this]

/-- C104. The weight of the slack variable is not: on one inequality whose coefficients are not all zero,
slack `s` is allowed exactly when `a · x + ‖(a, m)‖ s ≤ b`, where `m` is what the memory contained. -/
theorem C104_slack (mem : ℕ → ℕ → ℝ) (r : (V3 × V3) × ℝ) (g : V3) (c ddc : Coefs)
    (h : (crossRow g c ddc r).1 ≠ 0) :
    ∃ out, crossWith mem [r] g c ddc = .ok out ∧
      ∀ (x : V3) (s : ℝ), RowsHold out (withSlack x s) ↔
        (crossRow g c ddc r).1 ⬝ᵥ x +
          Real.sqrt ((crossRow g c ddc r).1 ⬝ᵥ (crossRow g c ddc r).1 + mem 0 3 ^ 2) * s ≤ (crossRow g c ddc r).2 := by
  obtain ⟨B, hB, hr, hc, he, h3⟩ := crossBuf_ok [r] g c ddc
  generalize ha : (crossRow g c ddc r).1 = a at *
  generalize hb : (crossRow g c ddc r).2 = b at *
  have e : ∀ j < 3, (B.e 0 j) = some (V3.get a j) := by
    intro j hj
    simpa [ha] using he 0 (by simp) j hj
  have hrows : (B.readWith mem).rows4 ([r].map fun r => (crossRow g c ddc r).2) = [(![a 0, a 1, a 2, mem 0 3], b)] := by
    simp only [Mat.rows4, Buf.readWith, hr, List.length_singleton, List.range_one, List.map_cons, List.map_nil, hb]
    congr 1
    refine Prod.ext ?_ rfl
    funext j
    fin_cases j
    · simp [e 0 (by norm_num), V3.get]
    · simp [e 1 (by norm_num), V3.get]
    · simp [e 2 (by norm_num), V3.get]
    · simp [h3]
  have hne : (![a 0, a 1, a 2, mem 0 3] : Fin 4 → ℝ) ≠ 0 := by
    intro h0
    apply h
    funext j
    fin_cases j
    · simpa using congrFun h0 0
    · simpa using congrFun h0 1
    · simpa using congrFun h0 2
  have hN := eNorm_pos hne
  have hNv : eNorm (![a 0, a 1, a 2, mem 0 3] : Fin 4 → ℝ) = Real.sqrt (a ⬝ᵥ a + mem 0 3 ^ 2) := by
    simp only [eNorm, dotProduct, Fin.sum_univ_four, Fin.sum_univ_three]
    congr 1
    simp
    ring
  refine ⟨setSlack (Normalize [(![a 0, a 1, a 2, mem 0 3], b)]).1, ?_, ?_⟩
  · show (crossBuf [r] g c ddc >>= _) = _
    rw [hB]
    show Out.ok (setSlack (Normalize ((B.readWith mem).rows4 _)).1) = _
    rw [hrows]
  · intro x s
    rw [normalize_single _ _ hne]
    have : RowsHold (setSlack [((fun j => (![a 0, a 1, a 2, mem 0 3] : Fin 4 → ℝ) j / eNorm (![a 0, a 1, a 2, mem 0 3] : Fin 4 → ℝ)),
        b / eNorm (![a 0, a 1, a 2, mem 0 3] : Fin 4 → ℝ))]) (withSlack x s) ↔
        (a ⬝ᵥ x + eNorm (![a 0, a 1, a 2, mem 0 3] : Fin 4 → ℝ) * s) / eNorm (![a 0, a 1, a 2, mem 0 3] : Fin 4 → ℝ) ≤
          b / eNorm (![a 0, a 1, a 2, mem 0 3] : Fin 4 → ℝ) := by
      generalize eNorm (![a 0, a 1, a 2, mem 0 3] : Fin 4 → ℝ) = N at hN
      have hN' := hN.ne'
      simp only [RowsHold, setSlack, List.map_cons, List.map_nil, List.mem_singleton, forall_eq]
      simp only [dotProduct, Fin.sum_univ_four, Fin.sum_univ_three, withSlack, Function.update]
      simp
      rw [add_div, mul_div_cancel_left₀ _ hN']
      constructor <;> intro h' <;> (convert h' using 1; ring)
    rw [this, div_le_div_iff_of_pos_right hN, hNv]

/-- The same call, the same unknowns and slack: accepted or not according to the previous contents of the
memory. -/
example : ∃ o₁ o₂,
    crossWith (fun _ _ => 0) [((![1, 0, 0], 0), 1)] 0 ⟨0, 0⟩ ⟨1, 0⟩ = .ok o₁ ∧
      crossWith (fun _ _ => 2) [((![1, 0, 0], 0), 1)] 0 ⟨0, 0⟩ ⟨1, 0⟩ = .ok o₂ ∧
      RowsHold o₁ (withSlack 0 1) ∧ ¬ RowsHold o₂ (withSlack 0 1) := by
  have hr : crossRow 0 ⟨0, 0⟩ ⟨1, 0⟩ ((![1, 0, 0], 0), 1) = (![1, 0, 0], 1) := by
    refine Prod.ext ?_ ?_
    · simp [crossRow]
    · simp [crossRow]
  have hne : (crossRow 0 ⟨0, 0⟩ ⟨1, 0⟩ ((![1, 0, 0], 0), 1)).1 ≠ 0 := by
    rw [hr]
    intro h
    simpa using congrFun h 0
  obtain ⟨o₁, h₁, e₁⟩ := C104_slack (fun _ _ => 0) ((![1, 0, 0], 0), 1) 0 ⟨0, 0⟩ ⟨1, 0⟩ hne
  obtain ⟨o₂, h₂, e₂⟩ := C104_slack (fun _ _ => 2) ((![1, 0, 0], 0), 1) 0 ⟨0, 0⟩ ⟨1, 0⟩ hne
  refine ⟨o₁, o₂, h₁, h₂, (e₁ 0 1).mpr ?_, fun h => ?_⟩
  · rw [hr]
    simp [dotProduct, Fin.sum_univ_three]
  · have := (e₂ 0 1).mp h
    rw [hr] at this
    simp [dotProduct, Fin.sum_univ_three] at this

end Verif
