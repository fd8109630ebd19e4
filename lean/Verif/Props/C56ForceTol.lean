import Verif.Props.C56RoundedTol
import Verif.Props.C56Ex
import Verif.Lemmas.SolveTolFull

/-!
# C56: the formulation with forces, with the threshold of the solver
-/

namespace Verif
open Matrix

/-! ## Specification -/

/-- The wrench `(f, τ)` is close to one that the contact forces of the phase generate: every coordinate of the force up to
`ρf`, of the moment up to `ρt`. -/
def NearCone (e : Equilibrium) (ρf ρt : ℝ) (f τ : V3) : Prop :=
  ∃ f' τ', InCone e f' τ' ∧ ∀ k, |f k - f' k| ≤ ρf ∧ |τ k - τ' k| ≤ ρt

/-- The equations hold up to `ε`. -/
def EqSatTol (D d : Mat) (ε : ℝ) (y : ℕ → ℝ) : Prop :=
  ∀ r < D.rows, |∑ c ∈ Finset.range D.cols, D.e r c * y c - d.e r 0| ≤ ε

/-- `Γ` bounds, per unit of mass, the sums of the absolute values of each coordinate of the generators. -/
def GenBound (pData : ProblemData) (Γ : ℝ) : Prop :=
  ∀ ct ∈ pData.contacts, ∀ e, ct.contactPhase = some e → ∀ k,
    ∑ i ∈ Finset.range e.gens.length, |(e.gens.getD i 0).1 k| ≤ Γ * e.mass ∧
    ∑ i ∈ Finset.range e.gens.length, |(e.gens.getD i 0).2 k| ≤ Γ * e.mass

/-- The size of the data: `R` bounds the norms of the rows of the assembled system, whose equations are independent by a
margin; `k` is the curvature of the cost; the threshold `eps` is small compared to them. -/
structure ForceScale (pData : ProblemData) (T : ℝ) (l : TTime) (S : ContSystem) (eps k R : ℝ) : Prop where
  one : 1 ≤ R
  ineq : ∀ r < S.A.rows, ∑ c ∈ Finset.range S.A.cols, S.A.e r c ^ 2 ≤ R ^ 2
  eqs : ∀ r < S.D.rows, ∑ c ∈ Finset.range S.A.cols, S.D.e r c ^ 2 ≤ R ^ 2
  size : S.D.rows ≤ S.A.cols
  sep : RowsSep S.D (eps * max k 1e-6 ^ 2)
  curv : ∀ x c v a x' c' v' a' c'' v'' a'', Motion pData T x c v a → Motion pData T x' c' v' a' →
    Motion pData T ((1 / 2 : ℝ) • (x + x')) c'' v'' a'' →
    motionCost pData l x a + motionCost pData l x' a' - 2 * motionCost pData l ((1 / 2 : ℝ) • (x + x')) a''
      = k / 2 * dot (x - x') (x - x')
  small : eps ≤ min k 1e-6
  small2 : eps * R ^ 2 ≤ min k 1e-6 ^ 2

/-- The tolerance: the number of inequalities and bounds, the threshold, the trace of the Hessian, the number of unknowns. -/
noncomputable def forceTol (S : ContSystem) (eps k : ℝ) : ℝ :=
  solverTolGen eps (min k 1e-6) (3 * k + (S.A.cols - 3 : ℕ) * 1e-6) S.A.cols (S.A.rows + S.minBounds.length)

/-! ## Close to the cone -/

theorem nearCone_bez (e : Equilibrium) {ρf ρt : ℝ} (n : ℕ) (f τ : ℕ → V3) (u : ℝ) (h0 : 0 ≤ u) (h1 : u ≤ 1)
    (h : ∀ i ≤ n, NearCone e ρf ρt (f i) (τ i)) : NearCone e ρf ρt (bez n f u) (bez n τ u) := by
  have h' : ∀ i, ∃ f' τ', i ≤ n → InCone e f' τ' ∧ ∀ k, |f i k - f' k| ≤ ρf ∧ |τ i k - τ' k| ≤ ρt := by
    intro i
    by_cases hi : i ≤ n
    · obtain ⟨f', τ', hc⟩ := h i hi; exact ⟨f', τ', fun _ => hc⟩
    · exact ⟨0, 0, fun h => absurd h hi⟩
  choose f' τ' hc using h'
  have key : ∀ (p q : ℕ → V3) (ρ : ℝ) (k : Fin 3), (∀ i ≤ n, |p i k - q i k| ≤ ρ) → |bez n p u k - bez n q u k| ≤ ρ := by
    intro p q ρ k hpq
    rw [bez_apply, bez_apply, ← bez_sub]
    exact bez_convex (s := {x : ℝ | |x| ≤ ρ}) (by
      have : {x : ℝ | |x| ≤ ρ} = Set.Icc (-ρ) ρ := by ext x; simp [abs_le]
      rw [this]; exact convex_Icc _ _) n u h0 h1 _ hpq
  exact ⟨bez n f' u, bez n τ' u, inCone_bez e n f' τ' u h0 h1 fun i hi => (hc i hi).1, fun k =>
    ⟨key _ _ _ _ fun i hi => ((hc i hi).2 k).1, key _ _ _ _ fun i hi => ((hc i hi).2 k).2⟩⟩

theorem nearCone_le {e e' : Equilibrium} (h : ConeLe e e') {ρf ρt : ℝ} {f τ : V3} (hn : NearCone e ρf ρt f τ) :
    NearCone e' ρf ρt f τ := by
  obtain ⟨f', τ', h1, h2⟩ := hn
  exact ⟨f', τ', h _ _ h1, h2⟩

theorem nearCone_scale (e : Equilibrium) {f τ : V3} {m m' ρf ρt : ℝ} (hm : 0 < m) (hm' : 0 < m')
    (h : NearCone e (m * ρf) (m * ρt) (m • f) (m • τ)) : NearCone e (m' * ρf) (m' * ρt) (m' • f) (m' • τ) := by
  obtain ⟨f', τ', h1, h2⟩ := h
  have e1 : ∀ w : V3, m • (m⁻¹ • w) = w := fun w => by rw [smul_smul, mul_inv_cancel₀ hm.ne', one_smul]
  refine ⟨m' • (m⁻¹ • f'), m' • (m⁻¹ • τ'), inCone_scale e hm hm' (by rwa [e1, e1]), fun k => ?_⟩
  have key : ∀ (p q : V3) (ρ : ℝ), |(m • p) k - q k| ≤ m * ρ → |(m' • p) k - (m' • (m⁻¹ • q)) k| ≤ m' * ρ := by
    intro p q ρ hpq
    have e2 : (m • p) k - q k = m * (p k - m⁻¹ * q k) := by
      simp only [Pi.smul_apply, smul_eq_mul]
      field_simp
    have e3 : (m' • p) k - (m' • (m⁻¹ • q)) k = m' * (p k - m⁻¹ * q k) := by
      simp only [Pi.smul_apply, smul_eq_mul]; ring
    rw [e2, abs_mul, abs_of_pos hm] at hpq
    rw [e3, abs_mul, abs_of_pos hm']
    exact mul_le_mul_of_nonneg_left (le_of_mul_le_mul_left hpq hm) hm'.le
  exact ⟨key _ _ _ (h2 k).1, key _ _ _ (h2 k).2⟩

/-- Coefficients that are nonnegative up to `δ` give a wrench close to the cone. -/
theorem nearCone_of_coefs (e : Equilibrium) {f τ : V3} {δ B : ℝ} (hδ : 0 ≤ δ) (β : ℕ → ℝ)
    (hβ : ∀ k < e.gens.length, -δ ≤ β k)
    (hf : ∑ k ∈ Finset.range e.gens.length, β k • (e.gens.getD k 0).1 = f)
    (hτ : ∑ k ∈ Finset.range e.gens.length, β k • (e.gens.getD k 0).2 = τ)
    (hB : ∀ k, ∑ i ∈ Finset.range e.gens.length, |(e.gens.getD i 0).1 k| ≤ B ∧
      ∑ i ∈ Finset.range e.gens.length, |(e.gens.getD i 0).2 k| ≤ B) : NearCone e (δ * B) (δ * B) f τ := by
  refine ⟨_, _, ⟨fun k => max (β k) 0, fun k _ => le_max_right _ _, rfl, rfl⟩, fun k => ?_⟩
  have hd : ∀ i < e.gens.length, |β i - max (β i) 0| ≤ δ := by
    intro i hi
    have := hβ i hi
    rcases le_total (β i) 0 with h | h
    · rw [max_eq_right h, sub_zero, abs_of_nonpos h]; linarith
    · rw [max_eq_left h, sub_self, abs_zero]; exact hδ
  have key : ∀ w : ℕ → V3, ∑ i ∈ Finset.range e.gens.length, |w i k| ≤ B →
      |(∑ i ∈ Finset.range e.gens.length, β i • w i) k - (∑ i ∈ Finset.range e.gens.length, max (β i) 0 • w i) k|
        ≤ δ * B := by
    intro w hw
    rw [Finset.sum_apply, Finset.sum_apply, ← Finset.sum_sub_distrib]
    refine (Finset.abs_sum_le_sum_abs _ _).trans (le_trans ?_ (mul_le_mul_of_nonneg_left hw hδ))
    rw [Finset.mul_sum]
    refine Finset.sum_le_sum fun i hi => ?_
    rw [Pi.smul_apply, Pi.smul_apply, smul_eq_mul, smul_eq_mul, ← sub_mul, abs_mul]
    exact mul_le_mul_of_nonneg_right (hd i (Finset.mem_range.mp hi)) (abs_nonneg _)
  rw [← hf, ← hτ]
  exact ⟨key (fun i => (e.gens.getD i 0).1) (hB k).1, key (fun i => (e.gens.getD i 0).2) (hB k).2⟩

theorem NearCone.add {e : Equilibrium} {ρf ρt ε : ℝ} {f τ f' τ' : V3} (h : NearCone e ρf ρt f τ)
    (hf : ∀ k, |f' k - f k| ≤ ε) (ht : ∀ k, |τ' k - τ k| ≤ ε) : NearCone e (ρf + ε) (ρt + ε) f' τ' := by
  obtain ⟨f0, τ0, h1, h2⟩ := h
  refine ⟨f0, τ0, h1, fun k => ⟨?_, ?_⟩⟩
  · have := abs_sub_le (f' k) (f k) (f0 k)
    have := hf k
    have := (h2 k).1
    linarith
  · have := abs_sub_le (τ' k) (τ k) (τ0 k)
    have := ht k
    have := (h2 k).2
    linarith

/-- The residuals of the equations of a block. -/
theorem block_residual {κ : ℝ} {pData : ProblemData} {Ts : List ℝ} {g : V3} {ct : ℕ → ContactData}
    {e : ℕ → Equilibrium} {pts : List V3} {ws : List Wp6} {S : ContSystem}
    (R : ContRaw κ pData Ts g ct e pts ws S) (hr : pData.representation ≠ DOUBLE_DESCRIPTION) {ε : ℝ}
    (y : ℕ → ℝ) (hy : EqSatTol S.D S.d ε y) (j : ℕ) (q : Wp6 × Equilibrium) (hj : (contBlocks e Ts.sum ws Ts 0 0 0)[j]? = some q) :
    (∀ k, |(q.2.mass • (q.2.gravity - q.1.headAt (first3 y))) k - (∑ k ∈ Finset.range q.2.gens.length,
      y (3 + gcols ((contBlocks e Ts.sum ws Ts 0 0 0).take j) + k) • (q.2.gens.getD k 0).1) k| ≤ ε) ∧
    ∀ k, |(q.2.mass • (-q.1.tailAt (first3 y))) k - (∑ k ∈ Finset.range q.2.gens.length,
      y (3 + gcols ((contBlocks e Ts.sum ws Ts 0 0 0).take j) + k) • (q.2.gens.getD k 0).2) k| ≤ ε := by
  obtain ⟨hc, -⟩ := R.eqn hr
  obtain ⟨hrows, hent⟩ := R.deqn hr
  have hval := R.dval hr
  have hj' : j < (contBlocks e Ts.sum ws Ts 0 0 0).length := by
    rw [List.getElem?_eq_some_iff] at hj; exact hj.1
  have hlt : gcols ((contBlocks e Ts.sum ws Ts 0 0 0).take j) + q.2.gens.length
      ≤ gcols (contBlocks e Ts.sum ws Ts 0 0 0) := by
    rw [gcols_take_le _ _ _ hj]
    have := gcols_take_mono (contBlocks e Ts.sum ws Ts 0 0 0) (show j + 1 ≤ (contBlocks e Ts.sum ws Ts 0 0 0).length from hj')
    rwa [List.take_length] at this
  have key : ∀ r < 6, |get6 (q.2.mass • (q.2.gravity - q.1.headAt (first3 y))) (q.2.mass • (-q.1.tailAt (first3 y))) r -
      get6 (∑ k ∈ Finset.range q.2.gens.length, y (3 + gcols ((contBlocks e Ts.sum ws Ts 0 0 0).take j) + k) • (q.2.gens.getD k 0).1)
        (∑ k ∈ Finset.range q.2.gens.length, y (3 + gcols ((contBlocks e Ts.sum ws Ts 0 0 0).take j) + k) • (q.2.gens.getD k 0).2) r| ≤ ε := by
    intro r hr6
    have h := hy (6 * j + r) (by omega)
    rw [R.cols, hc, Finset.sum_congr rfl fun c _ => by rw [hent j q hj r hr6 c], hval j q hj r hr6,
      blockEntry_sum q _ _ r (by omega) (by omega), get6_gens q.2 (fun k => y (3 + gcols ((contBlocks e Ts.sum ws Ts 0 0 0).take j) + k)) r hr6] at h
    have e3 := get6_sum q.1 y r hr6
    have e4 : get6 (q.2.mass • (q.2.gravity - q.1.headAt (first3 y))) (q.2.mass • (-q.1.tailAt (first3 y))) r
        = q.2.mass * (get6 q.2.gravity 0 r - get6 (q.1.headAt (first3 y)) (q.1.tailAt (first3 y)) r) := by
      have : r = 0 ∨ r = 1 ∨ r = 2 ∨ r = 3 ∨ r = 4 ∨ r = 5 := by omega
      rcases this with rfl | rfl | rfl | rfl | rfl | rfl <;> simp [get6, V3.get]
    rw [e4, ← e3, abs_sub_comm]
    refine le_trans (le_of_eq (congrArg _ ?_)) h
    ring
  constructor
  · intro k
    have := key k.val (by omega)
    have e1 : ∀ a b : V3, get6 a b k.val = a k := fun a b => by fin_cases k <;> rfl
    rwa [e1, e1] at this
  · intro k
    have := key (3 + k.val) (by omega)
    have e1 : ∀ a b : V3, get6 a b (3 + k.val) = b k := fun a b => by fin_cases k <;> rfl
    rwa [e1, e1] at this

/-- The blocks of a point that satisfies the equations up to `ε` and the bounds up to `δ`. -/
theorem blocks_nearCone {κ : ℝ} {pData : ProblemData} {Ts : List ℝ} {g : V3} {ct : ℕ → ContactData}
    {e : ℕ → Equilibrium} {pts : List V3} {ws : List Wp6} {S : ContSystem}
    (R : ContRaw κ pData Ts g ct e pts ws S) (hr : pData.representation ≠ DOUBLE_DESCRIPTION)
    {δ Γ ε ε' : ℝ} (hδ : 0 ≤ δ)
    (hΓ : ∀ p < Ts.length, ∀ k, ∑ i ∈ Finset.range (e p).gens.length, |((e p).gens.getD i 0).1 k| ≤ Γ * (e p).mass ∧
      ∑ i ∈ Finset.range (e p).gens.length, |((e p).gens.getD i 0).2 k| ≤ Γ * (e p).mass)
    (hε : ∀ p < Ts.length, ε ≤ ε' * (e p).mass)
    (y : ℕ → ℝ) (hy : EqSatTol S.D S.d ε y) (hb : AboveBoundsTol S.minBounds δ y) :
    ∀ q ∈ contBlocks e Ts.sum ws Ts 0 0 0,
      NearCone q.2 (q.2.mass * (Γ * δ + ε')) (q.2.mass * (Γ * δ + ε')) (q.2.mass • (q.2.gravity - q.1.headAt (first3 y)))
        (q.2.mass • (-q.1.tailAt (first3 y))) := by
  intro q hq
  obtain ⟨j, hj⟩ := List.mem_iff_getElem?.mp hq
  obtain ⟨hc, -⟩ := R.eqn hr
  obtain ⟨h1, h2⟩ := block_residual R hr y hy j q hj
  obtain ⟨p, hp, hqp⟩ : ∃ p < Ts.length, q.2 = e p := by
    obtain ⟨p, hp, h'⟩ := contBlocks_phase e Ts.sum ws Ts 0 0 0 q hq
    exact ⟨p, hp, by rw [h', Nat.zero_add]⟩
  have hle : ε ≤ ε' * q.2.mass := by rw [hqp]; exact hε p hp
  have := nearCone_of_coefs q.2 hδ (fun k => y (3 + gcols ((contBlocks e Ts.sum ws Ts 0 0 0).take j) + k))
    (fun k hk => ?_) rfl rfl (hqp ▸ hΓ p hp)
  · have := this.add (fun k => (h1 k).trans hle) (fun k => (h2 k).trans hle)
    rwa [show δ * (Γ * q.2.mass) + ε' * q.2.mass = q.2.mass * (Γ * δ + ε') by ring] at this
  have := hb (3 + gcols ((contBlocks e Ts.sum ws Ts 0 0 0).take j) + k) 0
  rw [zero_sub] at this
  apply this
  rw [R.min, if_neg hr, List.getElem?_append_right (by simp; omega)]
  have hlt : gcols ((contBlocks e Ts.sum ws Ts 0 0 0).take j) + q.2.gens.length
      ≤ gcols (contBlocks e Ts.sum ws Ts 0 0 0) := by
    rw [gcols_take_le _ _ _ hj]
    have hj' : j < (contBlocks e Ts.sum ws Ts 0 0 0).length := by
      rw [List.getElem?_eq_some_iff] at hj; exact hj.1
    have := gcols_take_mono (contBlocks e Ts.sum ws Ts 0 0 0) (show j + 1 ≤ (contBlocks e Ts.sum ws Ts 0 0 0).length from hj')
    rwa [List.take_length] at this
  rw [List.length_replicate, List.getElem?_replicate, if_pos (by rw [hc]; omega)]

/-! ## The Hessian -/

theorem costH_diag (n : ℕ) (k : ℝ) :
    (fun i j : Fin (3 + n) => (costH n k).e i j : Matrix (Fin (3 + n)) (Fin (3 + n)) ℝ)
      = Matrix.diagonal fun i : Fin (3 + n) => if i.val < 3 then k else 1e-6 := by
  ext i j
  simp only [costH, Matrix.diagonal_apply, Fin.ext_iff]
  by_cases h : i.val = j.val
  · simp [h]
  · simp [h]

theorem costH_lower (n : ℕ) (k : ℝ) (v : VecN (3 + n)) :
    min k 1e-6 * (v ⬝ᵥ v)
      ≤ v ⬝ᵥ (fun i j => (costH n k).e i j : Matrix (Fin (3 + n)) (Fin (3 + n)) ℝ) *ᵥ v := by
  rw [costH_diag, dotProduct, dotProduct, Finset.mul_sum]
  refine Finset.sum_le_sum fun i _ => ?_
  rw [mulVec_diagonal]
  have h0 := mul_self_nonneg (v i)
  split_ifs
  · have := mul_le_mul_of_nonneg_right (min_le_left k (1e-6 : ℝ)) h0
    linarith
  · have := mul_le_mul_of_nonneg_right (min_le_right k (1e-6 : ℝ)) h0
    linarith

theorem costH_upper (n : ℕ) (k : ℝ) (hk : 0 < k) (v : VecN (3 + n)) :
    (fun i j => (costH n k).e i j : Matrix (Fin (3 + n)) (Fin (3 + n)) ℝ) *ᵥ v ⬝ᵥ
      (fun i j => (costH n k).e i j : Matrix (Fin (3 + n)) (Fin (3 + n)) ℝ) *ᵥ v ≤ max k 1e-6 ^ 2 * (v ⬝ᵥ v) := by
  rw [costH_diag, dotProduct, dotProduct, Finset.mul_sum]
  refine Finset.sum_le_sum fun i _ => ?_
  rw [mulVec_diagonal]
  have h0 := mul_self_nonneg (v i)
  split_ifs
  · have := mul_le_mul_of_nonneg_right (pow_le_pow_left₀ hk.le (le_max_left k (1e-6 : ℝ)) 2) h0
    linarith
  · have := mul_le_mul_of_nonneg_right (pow_le_pow_left₀ (by norm_num) (le_max_right k (1e-6 : ℝ)) 2) h0
    linarith

theorem costH_trace (n : ℕ) (k : ℝ) :
    ∑ i ∈ Finset.range (3 + n), (costH n k).e i i = 3 * k + n * 1e-6 := by
  rw [Finset.sum_range_add]
  congr 1
  · simp [Finset.sum_range_succ, costH]; ring
  · rw [Finset.sum_congr rfl fun i _ => by
      show (costH n k).e (3 + i) (3 + i) = 1e-6
      simp [costH]]
    rw [Finset.sum_const, Finset.card_range, nsmul_eq_mul]

/-- The curvature of the cost, and the cost given to the solver. -/
theorem curv_hess_n {pData : ProblemData} {Ts : List ℝ} {l : TTime} {k : ℝ}
    (hs : ∀ x c v a x' c' v' a' c'' v'' a'', Motion pData Ts.sum x c v a → Motion pData Ts.sum x' c' v' a' →
      Motion pData Ts.sum ((1 / 2 : ℝ) • (x + x')) c'' v'' a'' →
      motionCost pData l x a + motionCost pData l x' a' - 2 * motionCost pData l ((1 / 2 : ℝ) • (x + x')) a''
        = k / 2 * dot (x - x') (x - x')) (hT : 0 < Ts.sum) (hle : ∀ q ∈ l, q.1 ≤ Ts.sum)
    (hf : pData.flag ∈ comFlags) (hc : GoodCost pData Ts.sum l) (pts : List V3)
    (hpts : computeConstantWaypoints pData.flag pData.bc Ts.sum = .ok pts) (n : ℕ) :
    0 < k ∧ ∃ w, genCostFunction pData Ts Ts.sum l (3 + n) = .ok (costH n k, costG n w) := by
  obtain ⟨k', w, K, hk', hgen, hcost⟩ := cost_hess pData Ts hT l hle hf hc pts hpts n
  have hm : ∀ x, ∃ c v a, Motion pData Ts.sum x c v a := fun x => by
    obtain ⟨v, a, h⟩ := motion_exists pData Ts.sum pts hpts hf hT.ne' x
    exact ⟨_, v, a, h⟩
  have hq : ∀ x c v a, Motion pData Ts.sum x c v a → k' * dot x x + 2 * dot w x = motionCost pData l x a - K := by
    intro x c v a h
    have := hcost (ext3 x) c v a (by rw [first3_ext3]; exact h)
    rw [quadForm_head n, first3_ext3] at this
    linarith
  obtain ⟨c, v, a, h1⟩ := hm fun _ => 1
  obtain ⟨c', v', a', h2⟩ := hm 0
  obtain ⟨c'', v'', a'', h3⟩ := hm ((1 / 2 : ℝ) • ((fun _ => 1) + (0 : V3)))
  have e := hs _ _ _ _ _ _ _ _ _ _ _ h1 h2 h3
  have e1 := hq _ _ _ _ h1
  have e2 := hq _ _ _ _ h2
  have e3 := hq _ _ _ _ h3
  have : k = k' := by
    simp only [dot, Pi.add_apply, Pi.smul_apply, Pi.zero_apply, Pi.sub_apply, smul_eq_mul] at e e1 e2 e3
    linarith
  subst this
  exact ⟨hk', w, hgen⟩

/-! ## The planner -/

theorem force_tol (κ : ℝ) (lib : Lib) (hL : LibOk lib) (he : 0 ≤ lib.eps) (pData : ProblemData) (Ts : List ℝ)
    (g : V3) (h : AcceptedC pData Ts g) (hr : pData.representation ≠ DOUBLE_DESCRIPTION) (step : ℝ) (hstep : step ≤ 0)
    (hc : pData.costFunction = DISTANCE_TRAVELED ∨ pData.costFunction = ACCELERATION ∧ pData.flag ≠ 63#32)
    (S : ContSystem) (hS : computeConstraintsContinuous κ pData Ts = .ok S)
    (pts : List V3) (hpts : computeConstantWaypoints pData.flag pData.bc Ts.sum = .ok pts) {k R : ℝ}
    (hs : ForceScale pData Ts.sum (computeDiscretizedTimeFixed Ts 7) S lib.eps k R) :
    ∃ res N, (∀ fuel ≥ N, computeCOMTraj κ lib fuel pData Ts step SOLVER_QUADPROG = .ok res) ∧
      0 ≤ forceTol S lib.eps k ∧
      (res.success = true → ∃ y, first3 y = res.point ∧ SatTol S.A S.b (forceTol S lib.eps k) y ∧
        AboveBoundsTol S.minBounds (forceTol S lib.eps k) y ∧ EqSat S.D S.d y ∧
        res.c_of_t.eval = curve (degreeOf pData.flag) (fill pData.flag (nth pts) res.point) Ts.sum) := by
  obtain ⟨S', hS', h1, h2, h3, h4, h5, h6, h7, h8⟩ := C21_in_bounds_and_complete κ pData Ts g h
  rw [hS] at hS'
  cases hS'
  have hl : Discretisation Ts (computeDiscretizedTimeFixed Ts 7) := Or.inl ⟨7, by norm_num, rfl⟩
  obtain ⟨hk, w, hgen⟩ := curv_hess_n hs.curv h.total (C26_samples Ts h.ne h.pos _ hl) h.flag
    (goodCost pData Ts h.total h.ne h.flag h.capt _ hl hc) pts hpts (S.A.cols - 3)
  have hdim : 3 + (S.A.cols - 3) = S.A.cols := by omega
  have hfits : Fits S.A S.b S.D S.d (costH (S.A.cols - 3) k) (costG (S.A.cols - 3) w) :=
    ⟨⟨rfl, rfl⟩, ⟨h1, h2, hdim.symm⟩, ⟨h3, by rw [h5]; exact hdim.symm⟩⟩
  have hrows : (costG (S.A.cols - 3) w).rows = 3 + (S.A.cols - 3) := rfl
  have hm : S.minBounds = [] ∨ S.minBounds.length = (costG (S.A.cols - 3) w).rows := by
    right; rw [h8 hr]; exact hdim.symm
  have hmin : 0 < min k 1e-6 := lt_min hk (by norm_num)
  obtain ⟨q, N, hrun, hxl, hsucc⟩ := solve_tol_full lib hL he hmin hfits S.minBounds hm (List.replicate S.A.cols 0)
    (costH_posDef _ k hk) (costH_lower _ k) (sq_nonneg _) (costH_upper _ k hk) (by rw [hrows, hdim]; exact hs.size)
    hs.one (by rw [hrows, hdim]; exact hs.ineq) (by rw [hrows, hdim]; exact hs.eqs) hs.sep hs.small hs.small2
  rw [hrows, costH_trace] at hsucc
  rw [hrows, hdim] at hxl
  rw [hdim] at hsucc
  obtain ⟨res, hres, hss, hgood⟩ := genTraj_total q pData Ts.sum h.total pts hpts h.flag (by omega)
  refine ⟨res, N, fun fuel hfuel => ?_, ?_, fun hrs => ?_⟩
  · unfold computeCOMTraj comSystem
    rw [if_neg (not_not.mpr h.size), if_neg (not_lt.mpr hstep), hS, Out.ok_bind, Out.pure_eq, Out.ok_bind]
    rw [hdim] at hgen
    dsimp only
    rw [hgen, Out.ok_bind]
    dsimp only
    rw [hrun fuel hfuel, Out.ok_bind, hres]
  · unfold forceTol solverTolGen; positivity
  · rw [hss] at hrs
    obtain ⟨hp, -, hcurve⟩ := hgood hrs
    obtain ⟨q1, q2, q3⟩ := hsucc hrs
    exact ⟨_, hp.symm, q1, q2, q3, hcurve⟩

/-- The inequality rows of a system with forces. -/
theorem frows_satTol {A b : Mat} {L : List (V3 × ℝ)} (hr : A.rows = L.length) (hc : 3 ≤ A.cols)
    (h : ∀ r q, L[r]? = some q → (∀ c < 3, A.e r c = V3.get q.1 c) ∧ b.e r 0 = q.2)
    (hz : ∀ r c, 3 ≤ c → A.e r c = 0) (δ : ℝ) (y : ℕ → ℝ) (hs : SatTol A b δ y) :
    ∀ r ∈ L, r.1 ⬝ᵥ first3 y ≤ r.2 + δ := by
  intro q hq
  obtain ⟨r, hr'⟩ := List.mem_iff_getElem?.mp hq
  have hrn : r < A.rows := by
    have := (List.getElem?_eq_some_iff.mp hr').1
    omega
  obtain ⟨q1, q2⟩ := h r q hr'
  have := hs r hrn
  obtain ⟨n, hn⟩ : ∃ n, A.cols = 3 + n := ⟨A.cols - 3, by omega⟩
  rw [q2, hn, Finset.sum_range_add, Finset.sum_eq_zero (s := Finset.range n) (fun c _ => by
    rw [hz r _ (by omega), zero_mul]), add_zero] at this
  refine le_trans (le_of_eq ?_) this
  rw [Finset.sum_congr rfl fun c hc => by rw [q1 c (Finset.mem_range.mp hc)]]
  simp [Finset.sum_range_succ, V3.get, first3, dotProduct, Fin.sum_univ_three]

/-- What a point that satisfies the system up to a tolerance gives along the motion: the wrench of the wrench waypoints
is close to the cone, the position is reachable, the acceleration is bounded. -/
theorem force_along_tol (κ : ℝ) (pData : ProblemData) (Ts : List ℝ) (g : V3) (h : AcceptedC pData Ts g)
    (hr : pData.representation ≠ DOUBLE_DESCRIPTION)
    (hm : ∀ ct ∈ pData.contacts, ∀ e, ct.contactPhase = some e → 0 < e.mass)
    (hn : NestedPhases pData.contacts) {Γ : ℝ} (hΓ : GenBound pData Γ)
    (S : ContSystem) (hS : computeConstraintsContinuous κ pData Ts = .ok S)
    (pts : List V3) (hpts : computeConstantWaypoints pData.flag pData.bc Ts.sum = .ok pts)
    (hz : ∀ i < pts.length, i ∉ freeSlots pData.flag → ∃ k, 1e-12 < |nth pts i k|) {δ ε ε' : ℝ} (hδ : 0 ≤ δ)
    (hε : ∀ ct ∈ pData.contacts, ∀ e, ct.contactPhase = some e → ε ≤ ε' * e.mass) (y : ℕ → ℝ)
    (hsat : SatTol S.A S.b δ y) (hb : AboveBoundsTol S.minBounds δ y) (hy : EqSatTol S.D S.d ε y) :
    ∃ ws, computeWwaypoints pData.flag pData.contacts pData.bc Ts.sum = .ok ws ∧
      (∀ p t, InPhase Ts p t → AtPhase pData.contacts p fun ct e =>
        NearCone e (e.mass * (Γ * δ + ε')) (e.mass * (Γ * δ + ε')) (e.mass • (g - headCurve ws (first3 y) (t / Ts.sum)))
          (e.mass • (-tailCurve ws (first3 y) (t / Ts.sum))) ∧
        KinOkTol ct δ (curve (degreeOf pData.flag) (fill pData.flag (nth pts) (first3 y)) Ts.sum t)) ∧
      ∃ v a, IsDeriv (curve (degreeOf pData.flag) (fill pData.flag (nth pts) (first3 y)) Ts.sum) v ∧ IsDeriv v a ∧
        ∀ p t, InPhase Ts p t → ∀ j, |κ * Ts.sum ^ 2 * a t j| ≤ pData.maxAcceleration + δ := by
  obtain ⟨ct, e, pts', ws, S', Raw⟩ := cont_raw κ pData Ts g h
  have hSS := Raw.hS
  rw [hS] at hSS
  cases hSS
  have hpp := Raw.hpts
  rw [hpts] at hpp
  cases hpp
  obtain ⟨L, hAr, hrow, hzero, hall⟩ := Raw.frows hr
  obtain ⟨hcols, -⟩ := Raw.eqn hr
  have hsat' := frows_satTol hAr (by omega) hrow hzero δ y hsat
  rw [hall fun r => r.1 ⬝ᵥ first3 y ≤ r.2 + δ] at hsat'
  have hmass : ∀ p < Ts.length, 0 < (e p).mass := fun p hp =>
    hm (ct p) (List.mem_of_getElem? (Raw.hct p hp)) (e p) (Raw.he p hp)
  have hnest : ∀ p, p + 1 < Ts.length →
      ((e (p + 1)).gens.length ≤ (e p).gens.length → ConeLe (e (p + 1)) (e p)) ∧
      ((e p).gens.length < (e (p + 1)).gens.length → ConeLe (e p) (e (p + 1))) := fun p hp =>
    hn p (ct p) (ct (p + 1)) (e p) (e (p + 1)) (Raw.hct p (by omega)) (Raw.hct (p + 1) hp)
      (Raw.he p (by omega)) (Raw.he (p + 1) hp)
  have hB := blocks_nearCone Raw hr hδ (fun p hp => hΓ (ct p) (List.mem_of_getElem? (Raw.hct p hp)) (e p) (Raw.he p hp))
    (fun p hp => hε (ct p) (List.mem_of_getElem? (Raw.hct p hp)) (e p) (Raw.he p hp)) y hy hb
  refine ⟨ws, Raw.hws, fun p t hp => ⟨ct p, e p, Raw.hct p hp.1, Raw.he p hp.1, ?_, fun q hq => ?_⟩,
    acc_along κ h.pos h.total h.flag pts hpts Raw.hlen hz (first3 y) (pData.maxAcceleration + δ) fun p hp co hco =>
      acc_rows_tol _ co δ _ ((hsat' p hp).2 co hco)⟩
  · refine C23_along h Raw
      (fun e f τ => NearCone e (e.mass * (Γ * δ + ε')) (e.mass * (Γ * δ + ε')) (e.mass • f) (e.mass • τ)) (first3 y) hB ?_ ?_ p t hp
    · intro p hp n f τ u u0 u1 hall
      have := nearCone_bez (e p) n (fun i => (e p).mass • f i) (fun i => (e p).mass • τ i) u u0 u1 hall
      rwa [bez_smul, bez_smul] at this
    · intro p hp
      refine ⟨fun hle f τ hK => ?_, fun hlt f τ hK => ?_⟩
      · exact nearCone_scale _ (hmass _ hp) (hmass p (by omega)) (nearCone_le ((hnest p hp).1 hle) hK)
      · exact nearCone_scale _ (hmass p (by omega)) (hmass _ hp) (nearCone_le ((hnest p hp).2 hlt) hK)
  · exact half_along h.pos h.total h.flag pts hpts Raw.hlen hz _ (q.1, q.2 + δ) hp fun co hco =>
      kin_rows_tol co δ _ ((hsat' p hp.1).1 co hco) q hq

/-- `force_along_tol` with exact equations: the wrench of the wrench waypoints
is close to the cone, the position is reachable, the acceleration is bounded. -/
theorem force_along (κ : ℝ) (pData : ProblemData) (Ts : List ℝ) (g : V3) (h : AcceptedC pData Ts g)
    (hr : pData.representation ≠ DOUBLE_DESCRIPTION)
    (hm : ∀ ct ∈ pData.contacts, ∀ e, ct.contactPhase = some e → 0 < e.mass)
    (hn : NestedPhases pData.contacts) {Γ : ℝ} (hΓ : GenBound pData Γ)
    (S : ContSystem) (hS : computeConstraintsContinuous κ pData Ts = .ok S)
    (pts : List V3) (hpts : computeConstantWaypoints pData.flag pData.bc Ts.sum = .ok pts)
    (hz : ∀ i < pts.length, i ∉ freeSlots pData.flag → ∃ k, 1e-12 < |nth pts i k|) {δ : ℝ} (hδ : 0 ≤ δ) (y : ℕ → ℝ)
    (hsat : SatTol S.A S.b δ y) (hb : AboveBoundsTol S.minBounds δ y) (hy : EqSat S.D S.d y) :
    ∃ ws, computeWwaypoints pData.flag pData.contacts pData.bc Ts.sum = .ok ws ∧
      (∀ p t, InPhase Ts p t → AtPhase pData.contacts p fun ct e =>
        NearCone e (e.mass * (Γ * δ)) (e.mass * (Γ * δ)) (e.mass • (g - headCurve ws (first3 y) (t / Ts.sum)))
          (e.mass • (-tailCurve ws (first3 y) (t / Ts.sum))) ∧
        KinOkTol ct δ (curve (degreeOf pData.flag) (fill pData.flag (nth pts) (first3 y)) Ts.sum t)) ∧
      ∃ v a, IsDeriv (curve (degreeOf pData.flag) (fill pData.flag (nth pts) (first3 y)) Ts.sum) v ∧ IsDeriv v a ∧
        ∀ p t, InPhase Ts p t → ∀ j, |κ * Ts.sum ^ 2 * a t j| ≤ pData.maxAcceleration + δ := by
  have := force_along_tol κ pData Ts g h hr hm hn hΓ S hS pts hpts hz hδ (ε := 0) (ε' := 0) (fun ct _ e _ => by rw [zero_mul]) y hsat hb
    (fun r hr => by rw [hy r hr, sub_self, abs_zero])
  rwa [add_zero] at this

/-- C56, force variables with the threshold of the solver, the five exact sets, positive masses and nested phases, no
constant waypoint at the origin: the call returns; a curve returned with `success_` meets the boundary conditions
exactly and, at every instant, its wrench is close to one that the contact forces of its phase can generate, its position is reachable and
its acceleration bounded, up to the tolerance. -/
theorem C56_force_tolerance_partial (κ : ℝ) (lib : Lib) (hL : LibOk lib) (he : 0 ≤ lib.eps) (pData : ProblemData)
    (Ts : List ℝ) (g : V3) (h : AcceptedC pData Ts g) (hr : pData.representation ≠ DOUBLE_DESCRIPTION)
    (hf : pData.flag ∈ [11#32, 19#32, 27#32, 7#32, 15#32]) (step : ℝ) (hstep : step ≤ 0)
    (hc : pData.costFunction = DISTANCE_TRAVELED ∨ pData.costFunction = ACCELERATION)
    (hm : ∀ ct ∈ pData.contacts, ∀ e, ct.contactPhase = some e → 0 < e.mass)
    (hn : NestedPhases pData.contacts) {Γ : ℝ} (hΓ : GenBound pData Γ)
    (S : ContSystem) (hS : computeConstraintsContinuous κ pData Ts = .ok S)
    (pts : List V3) (hpts : computeConstantWaypoints pData.flag pData.bc Ts.sum = .ok pts)
    (hz : ∀ i < pts.length, i ∉ freeSlots pData.flag → ∃ k, 1e-12 < |nth pts i k|) {k R : ℝ}
    (hs : ForceScale pData Ts.sum (computeDiscretizedTimeFixed Ts 7) S lib.eps k R) :
    ∃ res N, (∀ fuel ≥ N, computeCOMTraj κ lib fuel pData Ts step SOLVER_QUADPROG = .ok res) ∧
      (res.success = true → MeetsBoundary pData.flag pData.bc res.c_of_t.eval Ts.sum ∧
        ∃ v a, IsDeriv res.c_of_t.eval v ∧ IsDeriv v a ∧
          (∀ p t, InPhase Ts p t → AtPhase pData.contacts p fun ct e =>
            NearCone e (e.mass * (Γ * forceTol S lib.eps k)) (e.mass * (Γ * forceTol S lib.eps k))
              (e.mass • (g - a t)) (e.mass • cr (res.c_of_t.eval t) (g - a t)) ∧
            KinOkTol ct (forceTol S lib.eps k) (res.c_of_t.eval t)) ∧
          ∀ p t, InPhase Ts p t → ∀ j, |κ * Ts.sum ^ 2 * a t j| ≤ pData.maxAcceleration + forceTol S lib.eps k) := by
  obtain ⟨res, N, hrun, hδ, hsucc⟩ := force_tol κ lib hL he pData Ts g h hr step hstep
    (hc.imp_right fun hc => ⟨hc, fun e => by rw [e] at hf; simp at hf⟩) S hS pts hpts hs
  refine ⟨res, N, hrun, fun hrs => ?_⟩
  obtain ⟨q, hq⟩ := (C29_planned pData Ts res).2 _ _ _ _ _ (hrun _ le_rfl)
  refine ⟨(C07_boundary_partial pData Ts q res hq hrs h.flag).2.2, ?_⟩
  obtain ⟨y, hy, q1, q2, q3, hcurve⟩ := hsucc hrs
  obtain ⟨ws, hws, hall, v, a, hv, ha, hacc⟩ := force_along κ pData Ts g h hr hm hn hΓ S hS pts hpts hz hδ y q1 q2 q3
  rw [hy, ← hcurve] at hall hv
  refine ⟨v, a, hv, ha, fun p t hp => ?_, hacc⟩
  have h0 : 0 < pData.contacts.length := by rw [← h.size]; exact List.length_pos_iff.mpr h.ne
  obtain ⟨ct0, rest, hrest⟩ : ∃ ct0 rest, pData.contacts = ct0 :: rest := by
    cases hcs : pData.contacts with
    | nil => rw [hcs] at h0; simp at h0
    | cons a r => exact ⟨a, r, rfl⟩
  obtain ⟨e0, he0, hg0, -⟩ := h.phases ct0 (by rw [hrest]; simp)
  obtain ⟨ws', hw', hx'⟩ := C04_wrench_waypoints_partial pData.flag hf ct0 rest e0 he0 pData.bc
    Ts.sum h.total.ne' pts hpts
  rw [← hrest, hws] at hw'
  cases hw'
  obtain ⟨v', a', hv', ha', hst⟩ := hx' res.point
  rw [← hcurve] at hv' hst
  have e1 := deriv_unique hv hv'
  subst e1
  have e2 := deriv_unique ha ha'
  subst e2
  obtain ⟨ct, e, i1, i2, i3, i4⟩ := hall p t hp
  rw [(hst t).1, (hst t).2, hg0, neg_wrenchTail] at i3
  exact ⟨ct, e, i1, i2, i3, i4⟩

/-- `C56_force_tolerance_partial` for the two sets whose wrench waypoints have rounded coefficients: the errors of the
coefficients add to the tolerance of the wrench. -/
theorem C56_force_rounded_tolerance_partial (κ : ℝ) (lib : Lib) (hL : LibOk lib) (he : 0 ≤ lib.eps) (pData : ProblemData)
    (Ts : List ℝ) (g : V3) (h : AcceptedC pData Ts g) (hr : pData.representation ≠ DOUBLE_DESCRIPTION)
    (hf : pData.flag ∈ [31#32, 63#32]) (step : ℝ) (hstep : step ≤ 0)
    (hc : pData.costFunction = DISTANCE_TRAVELED ∨ pData.costFunction = ACCELERATION ∧ pData.flag ≠ 63#32)
    (hm : ∀ ct ∈ pData.contacts, ∀ e, ct.contactPhase = some e → 0 < e.mass)
    (hn : NestedPhases pData.contacts) {Γ : ℝ} (hΓ : GenBound pData Γ)
    (S : ContSystem) (hS : computeConstraintsContinuous κ pData Ts = .ok S)
    (pts : List V3) (hpts : computeConstantWaypoints pData.flag pData.bc Ts.sum = .ok pts)
    (hz : ∀ i < pts.length, i ∉ freeSlots pData.flag → ∃ k, 1e-12 < |nth pts i k|) {k R : ℝ}
    (hs : ForceScale pData Ts.sum (computeDiscretizedTimeFixed Ts 7) S lib.eps k R) :
    ∃ res N, (∀ fuel ≥ N, computeCOMTraj κ lib fuel pData Ts step SOLVER_QUADPROG = .ok res) ∧
      (res.success = true → MeetsBoundary pData.flag pData.bc res.c_of_t.eval Ts.sum ∧
        ∃ v a, IsDeriv res.c_of_t.eval v ∧ IsDeriv v a ∧
          (∀ M G, Sizes pData Ts.sum g res.point M G → ∀ p t, InPhase Ts p t → AtPhase pData.contacts p fun ct e =>
            NearCone e (e.mass * (Γ * forceTol S lib.eps k + 1e-12 * M / Ts.sum ^ 2))
              (e.mass * (Γ * forceTol S lib.eps k + 1e-12 * (M * M + Ts.sum ^ 2 * (G * M)) / Ts.sum ^ 2))
              (e.mass • (g - a t)) (e.mass • cr (res.c_of_t.eval t) (g - a t)) ∧
            KinOkTol ct (forceTol S lib.eps k) (res.c_of_t.eval t)) ∧
          ∀ p t, InPhase Ts p t → ∀ j, |κ * Ts.sum ^ 2 * a t j| ≤ pData.maxAcceleration + forceTol S lib.eps k) := by
  obtain ⟨res, N, hrun, hδ, hsucc⟩ := force_tol κ lib hL he pData Ts g h hr step hstep hc S hS pts hpts hs
  refine ⟨res, N, hrun, fun hrs => ?_⟩
  obtain ⟨q, hq⟩ := (C29_planned pData Ts res).2 _ _ _ _ _ (hrun _ le_rfl)
  refine ⟨(C07_boundary_partial pData Ts q res hq hrs h.flag).2.2, ?_⟩
  obtain ⟨y, hy, q1, q2, q3, hcurve⟩ := hsucc hrs
  obtain ⟨ws, hws, hall, v, a, hv, ha, hacc⟩ := force_along κ pData Ts g h hr hm hn hΓ S hS pts hpts hz hδ y q1 q2 q3
  rw [hy, ← hcurve] at hall hv
  refine ⟨v, a, hv, ha, fun M G hsz p t hp => ?_, hacc⟩
  obtain ⟨hM, hxM, hG⟩ := hsz
  have h0 : 0 < pData.contacts.length := by rw [← h.size]; exact List.length_pos_iff.mpr h.ne
  obtain ⟨ct0, rest, hrest⟩ : ∃ ct0 rest, pData.contacts = ct0 :: rest := by
    cases hcs : pData.contacts with
    | nil => rw [hcs] at h0; simp at h0
    | cons a r => exact ⟨a, r, rfl⟩
  obtain ⟨e0, he0, hg0, -⟩ := h.phases ct0 (by rw [hrest]; simp)
  obtain ⟨ws', hw', hx'⟩ := C04_wrench_waypoints_rounded_partial pData.flag hf ct0 rest e0 he0 pData.bc
    Ts.sum h.total pts hpts
  rw [← hrest, hws] at hw'
  cases hw'
  obtain ⟨v', a', hv', ha', hst⟩ := hx' res.point M G (hM pts hpts) hxM (by rw [hg0]; exact hG)
  rw [← hcurve] at hv' hst
  have e1 := deriv_unique hv hv'
  subst e1
  have e2 := deriv_unique ha ha'
  subst e2
  obtain ⟨ct, e, i1, i2, ⟨f', τ', i3, i5⟩, i4⟩ := hall p t hp
  refine ⟨ct, e, i1, i2, ⟨f', τ', i3, fun j => ?_⟩, i4⟩
  obtain ⟨t0, t1⟩ := inPhase_bounds h.pos hp
  obtain ⟨d1, d2⟩ := hst t t0 t1 j
  rw [hg0] at d2
  have hmass := hm ct (List.mem_of_getElem? i1) e i2
  have key : ∀ (x w z E B : ℝ), |e.mass * x - z| ≤ e.mass * B → |w| ≤ E → |e.mass * (x + w) - z| ≤ e.mass * (B + E) := by
    intro x w z E B h1 h2
    have := mul_le_mul_of_nonneg_left h2 hmass.le
    rw [show e.mass * (x + w) - z = (e.mass * x - z) + e.mass * w by ring]
    refine (abs_add_le _ _).trans ?_
    rw [abs_mul, abs_of_pos hmass]
    linarith
  obtain ⟨k1, k2⟩ := i5 j
  constructor
  · have := key _ _ _ _ _ (by simpa only [Pi.smul_apply, Pi.sub_apply, smul_eq_mul] using k1) d1
    refine le_trans (le_of_eq ?_) this
    congr 1
    simp only [Pi.smul_apply, Pi.sub_apply, smul_eq_mul]; ring
  · have := key _ _ _ _ _ (by simpa only [Pi.smul_apply, Pi.neg_apply, smul_eq_mul] using k2) d2
    refine le_trans (le_of_eq ?_) this
    congr 1
    rw [← neg_wrenchTail]
    simp only [Pi.smul_apply, Pi.neg_apply, smul_eq_mul]; ring

/-! ## Existence of the scale -/

theorem RowsSep.mono {D : Mat} {s s' : ℝ} (h : RowsSep D s) (hle : s' ≤ s) : RowsSep D s' :=
  fun i hi c => lt_of_le_of_lt hle (h i hi c)

theorem nat_bound (f : ℕ → ℝ) (n : ℕ) : ∃ B, 1 ≤ B ∧ ∀ i < n, f i ≤ B := by
  obtain ⟨B, h1, h2⟩ := list_bound f (List.range n)
  exact ⟨B, h1, fun i hi => h2 i (List.mem_range.mpr hi)⟩

/-- C56, the scale for the formulation with forces: when the generators of every phase span the space of wrenches, every
threshold that is small enough has one. -/
theorem C56_force_scale_exists (κ : ℝ) (pData : ProblemData) (Ts : List ℝ) (g : V3) (h : AcceptedC pData Ts g)
    (hr : pData.representation ≠ DOUBLE_DESCRIPTION)
    (hs : ∀ ct ∈ pData.contacts, ∀ e, ct.contactPhase = some e → Spans e)
    (hm : ∀ ct ∈ pData.contacts, ∀ e, ct.contactPhase = some e → 0 < e.mass)
    (hc : pData.costFunction = DISTANCE_TRAVELED ∨ pData.costFunction = ACCELERATION ∧ pData.flag ≠ 63#32)
    (S : ContSystem) (hS : computeConstraintsContinuous κ pData Ts = .ok S) :
    ∃ k R Γ ε, 0 < k ∧ 0 < ε ∧ GenBound pData Γ ∧
      ∀ eps ≤ ε, ForceScale pData Ts.sum (computeDiscretizedTimeFixed Ts 7) S eps k R := by
  obtain ⟨k, R', hk, hcs⟩ := C56_continuous_scale_exists κ pData Ts g h hc
  obtain ⟨hsize, hind⟩ := force_independent κ pData Ts g h hr hs S hS
  obtain ⟨S', hS', -, -, -, -, h5, -⟩ := C21_in_bounds_and_complete κ pData Ts g h
  rw [hS] at hS'
  cases hS'
  rw [← h5] at hind
  obtain ⟨s, hs0, hsep⟩ := rowsSep_of_independent S.D hind
  obtain ⟨B1, b1, hB1⟩ := nat_bound (fun r => ∑ c ∈ Finset.range S.A.cols, S.A.e r c ^ 2) S.A.rows
  obtain ⟨B2, b2, hB2⟩ := nat_bound (fun r => ∑ c ∈ Finset.range S.A.cols, S.D.e r c ^ 2) S.D.rows
  obtain ⟨Γ, -, hΓ⟩ := list_bound (fun e : Equilibrium =>
    (∑ k : Fin 3, (∑ i ∈ Finset.range e.gens.length, |(e.gens.getD i 0).1 k|
      + ∑ i ∈ Finset.range e.gens.length, |(e.gens.getD i 0).2 k|)) / e.mass)
    (pData.contacts.filterMap fun ct => ct.contactPhase)
  have hR : 1 ≤ max B1 B2 := b1.trans (le_max_left _ _)
  have hR0 : 0 < max B1 B2 := lt_of_lt_of_le one_pos hR
  have hmin : 0 < min k 1e-6 := lt_min hk (by norm_num)
  have hmax : 0 < max k 1e-6 := lt_max_of_lt_left hk
  have hsq : max B1 B2 ≤ max B1 B2 ^ 2 := by nlinarith
  refine ⟨k, max B1 B2, Γ, min (min k 1e-6) (min (min k 1e-6 ^ 2 / max B1 B2 ^ 2) (s / max k 1e-6 ^ 2)), hk,
    by positivity, ?_, fun eps he => ⟨hR, ?_, ?_, hsize, ?_, hcs.curv, ?_, ?_⟩⟩
  · intro ct hct e hce
    have hmass := hm ct hct e hce
    have := hΓ e (List.mem_filterMap.mpr ⟨ct, hct, hce⟩)
    rw [div_le_iff₀ hmass] at this
    intro j
    have hn1 : 0 ≤ ∑ i ∈ Finset.range e.gens.length, |(e.gens.getD i 0).1 j| :=
      Finset.sum_nonneg fun _ _ => abs_nonneg _
    have hn2 : 0 ≤ ∑ i ∈ Finset.range e.gens.length, |(e.gens.getD i 0).2 j| :=
      Finset.sum_nonneg fun _ _ => abs_nonneg _
    have hle := (Finset.single_le_sum (f := fun k : Fin 3 => ∑ i ∈ Finset.range e.gens.length, |(e.gens.getD i 0).1 k|
      + ∑ i ∈ Finset.range e.gens.length, |(e.gens.getD i 0).2 k|) (fun k _ => add_nonneg
        (Finset.sum_nonneg fun _ _ => abs_nonneg _) (Finset.sum_nonneg fun _ _ => abs_nonneg _)) (Finset.mem_univ j)).trans
      this
    constructor <;> linarith
  · exact fun r hr => (hB1 r hr).trans ((le_max_left _ _).trans hsq)
  · exact fun r hr => (hB2 r hr).trans ((le_max_right _ _).trans hsq)
  · refine hsep.mono ?_
    have := he.trans ((min_le_right _ _).trans (min_le_right _ _))
    rwa [le_div_iff₀ (by positivity)] at this
  · exact he.trans (min_le_left _ _)
  · have := he.trans ((min_le_right _ _).trans (min_le_left _ _))
    rwa [le_div_iff₀ (by positivity)] at this

/-- The hypotheses of `C56_force_tolerance_partial` are met by the gripping robot, for every threshold that is small
enough. -/
theorem gripProblem_tolerance (κ : ℝ) : ∃ S k R Γ ε pts, 0 < ε ∧ computeConstraintsContinuous κ gripProblem [3] = .ok S ∧
    AcceptedC gripProblem [3] ![0, 0, -10] ∧ NestedPhases gripProblem.contacts ∧ GenBound gripProblem Γ ∧
    computeConstantWaypoints gripProblem.flag gripProblem.bc ([3] : List ℝ).sum = .ok pts ∧
    (∀ i < pts.length, i ∉ freeSlots gripProblem.flag → ∃ k, 1e-12 < |nth pts i k|) ∧
    ∀ eps ≤ ε, ForceScale gripProblem ([3] : List ℝ).sum (computeDiscretizedTimeFixed [3] 7) S eps k R := by
  obtain ⟨S, hS, -⟩ := C21_in_bounds_and_complete κ _ _ _ gripProblem_accepted
  obtain ⟨pts, hpts⟩ := C01_answers gripProblem.flag gripProblem_accepted.flag
    gripProblem.bc ([3] : List ℝ).sum gripProblem_accepted.capt
  obtain ⟨k, R, Γ, ε, -, h0, hΓ, hsc⟩ := C56_force_scale_exists κ _ _ _ gripProblem_accepted
    (by simp [gripProblem, standProblem, DOUBLE_DESCRIPTION]) gripProblem_spans (by
      intro ct hct e he
      simp only [gripProblem, List.mem_singleton] at hct
      subst hct
      simp only [standContact, Option.some.injEq] at he
      subst he
      norm_num) (Or.inr ⟨rfl, by simp [gripProblem, standProblem]⟩) S hS
  exact ⟨S, k, R, Γ, ε, pts, h0, hS, gripProblem_accepted, by
      intro p ct ct' e e' h1 h2
      simp [gripProblem] at h2, hΓ, hpts, standProblem_hz 2 _ pts hpts, hsc⟩

end Verif
