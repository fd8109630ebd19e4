import Verif.Lemmas.OneStepSem
import Verif.SpecTol
import Verif.Lemmas.QuadStruct

/-!
# Rows that hold up to a tolerance
-/

namespace Verif
open Matrix

theorem eNorm_nonneg {n : ℕ} (a : Fin n → ℝ) : 0 ≤ eNorm a := Real.sqrt_nonneg _

theorem eNorm_sq {n : ℕ} (a : Fin n → ℝ) : eNorm a ^ 2 = a ⬝ᵥ a := by
  unfold eNorm
  rw [Real.sq_sqrt]
  rw [dotProduct]; exact Finset.sum_nonneg fun i _ => mul_self_nonneg _

/-- If the rows returned by `Normalize` hold up to `δ`, the rows given to it hold up to `δ` times their norm, or `δ`. -/
theorem normalize_tol {n : ℕ} (rows : List ((Fin n → ℝ) × ℝ)) (δ : ℝ) (hδ : 0 ≤ δ) (x : Fin n → ℝ)
    (h : ∀ r ∈ (Normalize rows).1, r.1 ⬝ᵥ x ≤ r.2 + δ) : ∀ r ∈ rows, r.1 ⬝ᵥ x ≤ r.2 + δ * max 1 (eNorm r.1) := by
  have hweak : ∀ r : (Fin n → ℝ) × ℝ, r.1 ⬝ᵥ x ≤ r.2 + δ → r.1 ⬝ᵥ x ≤ r.2 + δ * max 1 (eNorm r.1) := by
    intro r hr
    have := le_mul_of_one_le_right hδ (le_max_left 1 (eNorm r.1))
    linarith
  obtain ⟨hp, hcase⟩ := removeZeroRows_spec rows
  rw [Normalize] at h
  generalize hq : removeZeroRows rows = q at *
  obtain ⟨l, o⟩ := q
  intro r hr
  have hr' := hp.mem_iff.mpr hr
  cases o with
  | none => exact hweak r (h r hr')
  | some k =>
    rcases hcase with ⟨k', hk', hle, hnz, hz⟩ | ⟨h, -⟩
    · cases hk'
      dsimp only at *
      rw [← List.take_append_drop k l, List.mem_append] at hr'
      rcases hr' with hr' | hr'
      · have h1 := h _ (List.mem_append_left _ (List.mem_map_of_mem hr'))
        have hpos := eNorm_pos (hnz r hr')
        have h2 : r.2 / eNorm r.1 + δ = (r.2 + δ * eNorm r.1) / eNorm r.1 := by field_simp
        dsimp only at h1
        rw [h2, row_div_le _ _ _ _ hpos] at h1
        refine h1.trans ?_
        have := mul_le_mul_of_nonneg_left (le_max_right 1 (eNorm r.1)) hδ
        linarith
      · exact hweak r (h r (List.mem_append_right _ hr'))
    · cases h

/-- If the rows given to `Normalize` hold with the margin `R m` and `R ≥ 1` bounds their norms, the rows returned by it
hold with the margin `m`. -/
theorem normalize_margin {n : ℕ} (rows : List ((Fin n → ℝ) × ℝ)) {m R : ℝ} (hm : 0 ≤ m) (hR : 1 ≤ R) (x : Fin n → ℝ)
    (hn : ∀ r ∈ rows, eNorm r.1 ≤ R) (h : ∀ r ∈ rows, r.1 ⬝ᵥ x ≤ r.2 - R * m) :
    ∀ r ∈ (Normalize rows).1, r.1 ⬝ᵥ x ≤ r.2 - m := by
  have hweak : ∀ r ∈ rows, r.1 ⬝ᵥ x ≤ r.2 - m := fun r hr => (h r hr).trans (by nlinarith)
  obtain ⟨hp, hcase⟩ := removeZeroRows_spec rows
  rw [Normalize]
  generalize hq : removeZeroRows rows = q at *
  obtain ⟨l, o⟩ := q
  cases o with
  | none => exact fun r hr => hweak r (hp.mem_iff.mp hr)
  | some k =>
    rcases hcase with ⟨k', hk', hle, hnz, hz⟩ | ⟨h, -⟩
    · cases hk'
      dsimp only at *
      intro r hr
      rw [List.mem_append, List.mem_map] at hr
      rcases hr with ⟨q, hq, rfl⟩ | hr
      · have hmem := hp.mem_iff.mp (List.mem_of_mem_take hq)
        have hpos := eNorm_pos (hnz q hq)
        have h2 : q.2 / eNorm q.1 - m = (q.2 - m * eNorm q.1) / eNorm q.1 := by field_simp
        dsimp only
        rw [h2, row_div_le _ _ _ _ hpos]
        have h1 := h q hmem
        have h3 := hn q hmem
        nlinarith
      · exact hweak r (hp.mem_iff.mp (List.mem_of_mem_drop hr))
    · cases h

/-- The norms of the rows returned by `Normalize`. -/
theorem normalize_norm {n : ℕ} (rows : List ((Fin n → ℝ) × ℝ)) (M : ℝ) (hM : ∀ r ∈ rows, eNorm r.1 ≤ M) :
    ∀ r ∈ (Normalize rows).1, eNorm r.1 ≤ max 1 M := by
  obtain ⟨hp, hcase⟩ := removeZeroRows_spec rows
  rw [Normalize]
  generalize hq : removeZeroRows rows = q at *
  obtain ⟨l, o⟩ := q
  cases o with
  | none => intro r hr; exact (hM r (hp.mem_iff.mp hr)).trans (le_max_right _ _)
  | some k =>
    rcases hcase with ⟨k', hk', hle, hnz, hz⟩ | ⟨h, -⟩
    · cases hk'
      dsimp only at *
      intro r hr
      rw [List.mem_append, List.mem_map] at hr
      rcases hr with ⟨q, hq, rfl⟩ | hr
      · dsimp only
        rw [eNorm_normalized (hnz q hq)]
        exact le_max_left _ _
      · exact (hM r (hp.mem_iff.mp (List.mem_of_mem_drop hr))).trans (le_max_right _ _)
    · cases h

/-- Moving the argument by `y` moves the wrench by at most `L |y|`. -/
def Wp6.Lip (w : Wp6) (L : ℝ) : Prop :=
  ∀ y : V3, (w.top *ᵥ y) ⬝ᵥ (w.top *ᵥ y) + (w.bot *ᵥ y) ⬝ᵥ (w.bot *ᵥ y) ≤ L ^ 2 * (y ⬝ᵥ y)

theorem cauchy6 (u v p q : V3) : (u ⬝ᵥ p + v ⬝ᵥ q) ^ 2 ≤ (u ⬝ᵥ u + v ⬝ᵥ v) * (p ⬝ᵥ p + q ⬝ᵥ q) := by
  simp only [dot_eq, dot]
  nlinarith [sq_nonneg (u 0 * p 1 - u 1 * p 0), sq_nonneg (u 0 * p 2 - u 2 * p 0), sq_nonneg (u 1 * p 2 - u 2 * p 1),
    sq_nonneg (v 0 * q 1 - v 1 * q 0), sq_nonneg (v 0 * q 2 - v 2 * q 0), sq_nonneg (v 1 * q 2 - v 2 * q 1),
    sq_nonneg (u 0 * q 0 - v 0 * p 0), sq_nonneg (u 0 * q 1 - v 1 * p 0), sq_nonneg (u 0 * q 2 - v 2 * p 0),
    sq_nonneg (u 1 * q 0 - v 0 * p 1), sq_nonneg (u 1 * q 1 - v 1 * p 1), sq_nonneg (u 1 * q 2 - v 2 * p 1),
    sq_nonneg (u 2 * q 0 - v 0 * p 2), sq_nonneg (u 2 * q 1 - v 1 * p 2), sq_nonneg (u 2 * q 2 - v 2 * p 2)]

theorem wrow_norm {w : Wp6} {L : ℝ} (hL0 : 0 ≤ L) (hL : w.Lip L) (u v : V3) (h1 : u ⬝ᵥ u + v ⬝ᵥ v ≤ 1) :
    eNorm (u ᵥ* w.top + v ᵥ* w.bot) ≤ L := by
  set y := u ᵥ* w.top + v ᵥ* w.bot with hy
  have e1 : y ⬝ᵥ y = u ⬝ᵥ (w.top *ᵥ y) + v ⬝ᵥ (w.bot *ᵥ y) := by
    conv_lhs => rw [hy]
    rw [add_dotProduct, ← dotProduct_mulVec, ← dotProduct_mulVec]
  have e2 := cauchy6 u v (w.top *ᵥ y) (w.bot *ᵥ y)
  have e3 := hL y
  have hy0 : 0 ≤ y ⬝ᵥ y := by rw [← eNorm_sq]; positivity
  have hp0 : 0 ≤ (w.top *ᵥ y) ⬝ᵥ (w.top *ᵥ y) + (w.bot *ᵥ y) ⬝ᵥ (w.bot *ᵥ y) := by
    have h1 := eNorm_sq (w.top *ᵥ y)
    have h2 := eNorm_sq (w.bot *ᵥ y)
    rw [← h1, ← h2]; positivity
  rw [← e1] at e2
  have e4 : (y ⬝ᵥ y) ^ 2 ≤ L ^ 2 * (y ⬝ᵥ y) := e2.trans ((mul_le_of_le_one_left hp0 h1).trans e3)
  rw [← eNorm_sq] at e4
  have hn := eNorm_nonneg y
  rcases hn.lt_or_eq with hpos | h0
  · have : eNorm y ^ 2 ≤ L ^ 2 := by
      have hp2 : 0 < eNorm y ^ 2 := by positivity
      nlinarith
    exact (pow_le_pow_iff_left₀ hn hL0 two_ne_zero).mp this
  · rw [← h0]; exact hL0

/-- The rows given to `Normalize` for a good contact. -/
theorem unit_row {e : Equilibrium} {r : (V3 × V3) × ℝ} (hm : e.mass ≠ 0) (hr : r.1 ≠ 0) :
    let s := norm6 (-(e.mass • r.1.1), -(e.mass • r.1.2))
    (s⁻¹ • -(e.mass • r.1.1)) ⬝ᵥ (s⁻¹ • -(e.mass • r.1.1)) + (s⁻¹ • -(e.mass • r.1.2)) ⬝ᵥ (s⁻¹ • -(e.mass • r.1.2)) = 1 := by
  intro s
  have hnz : (-(e.mass • r.1.1), -(e.mass • r.1.2)) ≠ (0 : V3 × V3) := by
    intro h0
    apply hr
    have e1 := congrArg Prod.fst h0
    have e2 := congrArg Prod.snd h0
    simp only [Prod.fst_zero, Prod.snd_zero, neg_eq_zero, smul_eq_zero, hm, false_or] at e1 e2
    exact Prod.ext e1 e2
  have hpos : 0 < s := norm6_pos hnz
  have hsq : s ^ 2 = -(e.mass • r.1.1) ⬝ᵥ -(e.mass • r.1.1) + -(e.mass • r.1.2) ⬝ᵥ -(e.mass • r.1.2) := by
    have h1 := eNorm_sq (-(e.mass • r.1.1))
    have h2 := eNorm_sq (-(e.mass • r.1.2))
    show norm6 _ ^ 2 = _
    unfold norm6
    rw [Real.sq_sqrt]
    dsimp only
    rw [← h1, ← h2]; positivity
  rw [smul_dotProduct, dotProduct_smul, smul_dotProduct, dotProduct_smul, smul_smul, smul_smul, ← smul_add, ← hsq, smul_eq_mul]
  field_simp

/-- The stability rows of a good contact, up to a tolerance. -/
theorem stab_rows_tol {ρ : ℝ} {ct : ContactData} {e : Equilibrium} (h : GoodContact ct e)
    {H : HRows} (hH : updateH ρ ct = .ok H) (g : V3) (w : Wp6) {L : ℝ} (hL0 : 0 ≤ L) (hL : w.Lip L) {δ : ℝ} (hδ : 0 ≤ δ) (x : V3)
    (hx : ∀ r ∈ dynamicStabilityConstraints H g w, r.1 ⬝ᵥ x ≤ r.2 + δ) :
    WrenchOkTol e ρ (δ * max 1 L) (e.mass • (g - w.headAt x)) (e.mass • (-w.tailAt x)) := by
  rw [updateH_ok h] at hH
  cases hH
  have hx := normalize_tol _ δ hδ x hx
  simp only [List.mem_map, forall_exists_index, and_imp, forall_apply_eq_imp_iff₂] at hx
  intro r hr
  have hle := hx r hr
  have hnz : (-(e.mass • r.1.1), -(e.mass • r.1.2)) ≠ (0 : V3 × V3) := by
    intro h0
    apply h.2.2.2.1 r hr
    have e1 := congrArg Prod.fst h0
    have e2 := congrArg Prod.snd h0
    simp only [Prod.fst_zero, Prod.snd_zero, neg_eq_zero, smul_eq_zero, h.2.2.1, false_or] at e1 e2
    exact Prod.ext e1 e2
  have hpos := norm6_pos hnz
  have hunit := unit_row h.2.2.1 (h.2.2.2.1 r hr)
  unfold WrenchRowOkTol
  rw [← norm6_neg_smul]
  dsimp only at hunit
  set s := norm6 (-(e.mass • r.1.1), -(e.mass • r.1.2)) with hs
  have hnorm := wrow_norm hL0 hL _ _ hunit.le
  have hh : (if 0 < ρ then r.2 - ρ else r.2) = r.2 - max ρ 0 := by
    split_ifs with h0
    · rw [max_eq_left h0.le]
    · rw [max_eq_right (not_lt.mp h0), sub_zero]
  rw [hh] at hle
  have key : (s⁻¹ • -(e.mass • r.1.1)) ᵥ* w.top ⬝ᵥ x + (s⁻¹ • -(e.mass • r.1.2)) ᵥ* w.bot ⬝ᵥ x
      - ((s⁻¹ • -(e.mass • r.1.1)) ⬝ᵥ (g - w.head) + (s⁻¹ • -(e.mass • r.1.2)) ⬝ᵥ (0 - w.tail))
      = s⁻¹ * (dot r.1.1 (e.mass • (g - w.headAt x)) + dot r.1.2 (e.mass • (-w.tailAt x))) := by
    rw [← dotProduct_mulVec, ← dotProduct_mulVec]
    simp only [Wp6.headAt, Wp6.tailAt, dot_eq, dot, Pi.smul_apply, Pi.neg_apply, Pi.sub_apply,
      Pi.add_apply, smul_eq_mul, Pi.zero_apply]
    ring
  rw [add_dotProduct] at hle
  have hmx : δ * max 1 (eNorm ((s⁻¹ • -(e.mass • r.1.1)) ᵥ* w.top + (s⁻¹ • -(e.mass • r.1.2)) ᵥ* w.bot)) ≤ δ * max 1 L :=
    mul_le_mul_of_nonneg_left (max_le_max le_rfl hnorm) hδ
  have h1 : s⁻¹ * (dot r.1.1 (e.mass • (g - w.headAt x)) + dot r.1.2 (e.mass • (-w.tailAt x)))
      ≤ r.2 - max ρ 0 + δ * max 1 L := by rw [← key]; linarith
  rwa [inv_mul_le_iff₀ hpos, mul_comm] at h1

/-- The stability rows of a good contact, with a margin. -/
theorem stab_rows_margin {ρ : ℝ} {ct : ContactData} {e : Equilibrium} (h : GoodContact ct e)
    {H : HRows} (hH : updateH ρ ct = .ok H) (g : V3) (w : Wp6) {R : ℝ} (hR : 1 ≤ R) (hL : w.Lip R) {m : ℝ} (hm : 0 ≤ m)
    (x : V3) (hx : WrenchOkTol e ρ (-(R * m)) (e.mass • (g - w.headAt x)) (e.mass • (-w.tailAt x))) :
    ∀ r ∈ dynamicStabilityConstraints H g w, r.1 ⬝ᵥ x ≤ r.2 - m := by
  have hR0 : 0 ≤ R := zero_le_one.trans hR
  rw [updateH_ok h] at hH
  cases hH
  refine normalize_margin _ hm hR x ?_ ?_
  · simp only [List.mem_map, forall_exists_index, and_imp, forall_apply_eq_imp_iff₂]
    intro r hr
    exact wrow_norm hR0 hL _ _ (unit_row h.2.2.1 (h.2.2.2.1 r hr)).le
  · simp only [List.mem_map, forall_exists_index, and_imp, forall_apply_eq_imp_iff₂]
    intro r hr
    have hle := hx r hr
    have hnz : (-(e.mass • r.1.1), -(e.mass • r.1.2)) ≠ (0 : V3 × V3) := by
      intro h0
      apply h.2.2.2.1 r hr
      have e1 := congrArg Prod.fst h0
      have e2 := congrArg Prod.snd h0
      simp only [Prod.fst_zero, Prod.snd_zero, neg_eq_zero, smul_eq_zero, h.2.2.1, false_or] at e1 e2
      exact Prod.ext e1 e2
    have hpos := norm6_pos hnz
    unfold WrenchRowOkTol at hle
    rw [← norm6_neg_smul] at hle
    set s := norm6 (-(e.mass • r.1.1), -(e.mass • r.1.2)) with hs
    have hh : (if 0 < ρ then r.2 - ρ else r.2) = r.2 - max ρ 0 := by
      split_ifs with h0
      · rw [max_eq_left h0.le]
      · rw [max_eq_right (not_lt.mp h0), sub_zero]
    rw [hh]
    have key : (s⁻¹ • -(e.mass • r.1.1)) ᵥ* w.top ⬝ᵥ x + (s⁻¹ • -(e.mass • r.1.2)) ᵥ* w.bot ⬝ᵥ x
        - ((s⁻¹ • -(e.mass • r.1.1)) ⬝ᵥ (g - w.head) + (s⁻¹ • -(e.mass • r.1.2)) ⬝ᵥ (0 - w.tail))
        = s⁻¹ * (dot r.1.1 (e.mass • (g - w.headAt x)) + dot r.1.2 (e.mass • (-w.tailAt x))) := by
      rw [← dotProduct_mulVec, ← dotProduct_mulVec]
      simp only [Wp6.headAt, Wp6.tailAt, dot_eq, dot, Pi.smul_apply, Pi.neg_apply, Pi.sub_apply,
        Pi.add_apply, smul_eq_mul, Pi.zero_apply]
      ring
    rw [add_dotProduct]
    rw [mul_comm, ← inv_mul_le_iff₀ hpos, ← key] at hle
    linarith

/-- The norms of the stability rows. -/
theorem stab_rows_norm {ρ : ℝ} {ct : ContactData} {e : Equilibrium} (h : GoodContact ct e)
    {H : HRows} (hH : updateH ρ ct = .ok H) (g : V3) (w : Wp6) {L : ℝ} (hL0 : 0 ≤ L) (hL : w.Lip L) :
    ∀ r ∈ dynamicStabilityConstraints H g w, eNorm r.1 ≤ max 1 L := by
  rw [updateH_ok h] at hH
  cases hH
  refine normalize_norm _ L ?_
  simp only [List.mem_map, forall_exists_index, and_imp, forall_apply_eq_imp_iff₂]
  intro r hr
  exact wrow_norm hL0 hL _ _ (unit_row h.2.2.1 (h.2.2.2.1 r hr)).le

/-- The kinematic rows up to a tolerance. -/
theorem kin_rows_tol {ct : ContactData} (co : Coefs) (δ : ℝ) (x : V3)
    (h : ∀ r ∈ kinRows ct co, r.1 ⬝ᵥ x ≤ r.2 + δ) : KinOkTol ct δ (co.first • x + co.second) := by
  unfold kinRows at h
  split_ifs at h with h0
  · rw [zipWith_as_map] at h
    intro q hq
    have := h _ (List.mem_map_of_mem (f := fun q : V3 × ℝ => (co.first • q.1, q.2 - q.1 ⬝ᵥ co.second)) hq)
    simp only [dot_eq, dot, Pi.smul_apply, Pi.add_apply, smul_eq_mul] at this ⊢
    linarith
  · simp only [gt_iff_lt, not_lt, Nat.le_zero, List.length_eq_zero_iff] at h0
    simp [KinOkTol, h0]

/-- The kinematic rows of a position that meets the constraints up to a tolerance, or with a margin. -/
theorem kin_rows_tol_of {ct : ContactData} (co : Coefs) (δ : ℝ) (x : V3)
    (h : KinOkTol ct δ (co.first • x + co.second)) : ∀ r ∈ kinRows ct co, r.1 ⬝ᵥ x ≤ r.2 + δ := by
  unfold kinRows
  split_ifs with h0
  · rw [zipWith_as_map]
    intro r hr
    obtain ⟨q, hq, rfl⟩ := List.mem_map.mp hr
    have := h q hq
    simp only [dot_eq, dot, Pi.smul_apply, Pi.add_apply, smul_eq_mul] at this ⊢
    linarith
  · simp

theorem kin_rows_norm {ct : ContactData} (co : Coefs) (hco : |co.first| ≤ 1) :
    ∀ r ∈ kinRows ct co, ∃ K ∈ ct.Kin, eNorm r.1 ≤ eNorm K := by
  unfold kinRows
  split_ifs with h0
  · rw [zipWith_as_map]
    intro r hr
    obtain ⟨q, hq, rfl⟩ := List.mem_map.mp hr
    refine ⟨q.1, (List.of_mem_zip hq).1, ?_⟩
    apply Real.sqrt_le_sqrt
    dsimp only
    rw [smul_dotProduct, dotProduct_smul, smul_smul, smul_eq_mul, ← sq]
    have : 0 ≤ q.1 ⬝ᵥ q.1 := by rw [← eNorm_sq]; positivity
    have h1 : co.first ^ 2 ≤ 1 := by rw [sq_le_one_iff_abs_le_one]; exact hco
    nlinarith
  · simp

/-- The acceleration rows up to a tolerance. -/
theorem acc_rows_tol (B : ℝ) (co : Coefs) (δ : ℝ) (x : V3)
    (h : ∀ r ∈ accRows B co, r.1 ⬝ᵥ x ≤ r.2 + δ) : ∀ k, |(co.first • x + co.second) k| ≤ B + δ := by
  have hu : ∀ i, (co.first • unit3 i) ⬝ᵥ x = co.first * x i := by
    intro i
    rw [smul_dotProduct, dotProduct]
    simp [unit3]
  unfold accRows at h
  simp only [List.mem_append, List.mem_map, List.mem_finRange, true_and] at h
  intro k
  have h1 := h _ (Or.inl ⟨k, rfl⟩)
  have h2 := h _ (Or.inr ⟨k, rfl⟩)
  simp only [neg_dotProduct, hu] at h1 h2
  rw [abs_le]
  simp only [Pi.add_apply, Pi.smul_apply, smul_eq_mul]
  constructor <;> linarith

/-- The acceleration rows of an acceleration that meets the bound up to a tolerance, or with a margin. -/
theorem acc_rows_tol_of (B : ℝ) (co : Coefs) (δ : ℝ) (x : V3) (h : ∀ k, |(co.first • x + co.second) k| ≤ B + δ) :
    ∀ r ∈ accRows B co, r.1 ⬝ᵥ x ≤ r.2 + δ := by
  have hu : ∀ i, (co.first • unit3 i) ⬝ᵥ x = co.first * x i := by
    intro i
    rw [smul_dotProduct, dotProduct]
    simp [unit3]
  unfold accRows
  simp only [List.mem_append, List.mem_map, List.mem_finRange, true_and]
  rintro r (⟨k, rfl⟩ | ⟨k, rfl⟩)
  · have := (abs_le.mp (h k)).2
    simp only [hu, Pi.add_apply, Pi.smul_apply, smul_eq_mul] at this ⊢
    linarith
  · have := (abs_le.mp (h k)).1
    simp only [neg_dotProduct, hu, Pi.add_apply, Pi.smul_apply, smul_eq_mul] at this ⊢
    linarith

theorem acc_rows_norm (B : ℝ) (co : Coefs) : ∀ r ∈ accRows B co, eNorm r.1 = |co.first| := by
  have key : ∀ i, (co.first • unit3 i) ⬝ᵥ (co.first • unit3 i) = co.first ^ 2 := by
    intro i
    rw [smul_dotProduct, dotProduct]
    simp [unit3, sq]
  unfold accRows
  simp only [List.mem_append, List.mem_map, List.mem_finRange, true_and]
  rintro r (⟨k, rfl⟩ | ⟨k, rfl⟩)
  · unfold eNorm
    dsimp only
    rw [key, Real.sqrt_sq_eq_abs]
  · unfold eNorm
    dsimp only
    rw [neg_dotProduct, dotProduct_neg, neg_neg, key, Real.sqrt_sq_eq_abs]

end Verif
