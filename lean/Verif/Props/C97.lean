import Verif.Props.C96
import Verif.Lemmas.QuadRoundedStat

/-!
# C97: a point returned with `OPTIMAL` by a solver with rounded arithmetic is nearly optimal
-/

namespace Verif

variable {n : ℕ}

/-- The objective of the quadratic program. -/
noncomputable def objective (P : FQP ℝ n) (x : Fin n → ℝ) : ℝ := 1 / 2 * ∑ i, x i * ∑ j, P.G i j * x j + ∑ i, P.g i * x i

/-- The matrix of the objective is symmetric, positive semidefinite and bounded by `Λ`; `J0 J0'` is its inverse up to `θ` and the gradient at the first
point is at most `θ0`. These are the results of the Cholesky decomposition, eiquadprog-fast.cpp:266-315, up to its rounding errors. -/
structure NearFactor (P : FQP ℝ n) (J0 : ℕ → Fin n → ℝ) (x0 : Fin n → ℝ) (Λ θ θ0 : ℝ) : Prop where
  sym : ∀ i j, P.G i j = P.G j i
  psd : ∀ y : Fin n → ℝ, 0 ≤ ∑ i, y i * ∑ j, P.G i j * y j
  size : ∀ (y : Fin n → ℝ) (Y : ℝ), 0 ≤ Y → ∑ i, y i ^ 2 ≤ Y ^ 2 → ∑ i, (∑ j, P.G i j * y j) ^ 2 ≤ (Λ * Y) ^ 2
  Λ0 : 0 ≤ Λ
  θ00 : 0 ≤ θ0
  inv : ∀ (c y : Fin n → ℝ) (Γ Y : ℝ), 0 ≤ Γ → 0 ≤ Y → ∑ i, c i ^ 2 ≤ Γ ^ 2 → ∑ i, y i ^ 2 ≤ Y ^ 2 →
    |∑ j ∈ Finset.range n, (∑ i, c i * J0 j i) * (∑ i, (∑ l, P.G i l * y l) * J0 j i) - ∑ i, c i * y i| ≤ θ * (Γ * Y)
  grad : ∑ i, (∑ j, P.G i j * x0 j + P.g i) ^ 2 ≤ θ0 ^ 2

namespace Arith

variable {o : Arith ℝ n} {m : ℕ} {u g : ℝ}

theorem quad_symm {G : Matrix (Fin n) (Fin n) ℝ} (h : ∀ i j, G i j = G j i) (x y : Fin n → ℝ) : ∑ i, x i * ∑ j, G i j * y j = ∑ i, y i * ∑ j, G i j * x j := by
  simp only [Finset.mul_sum]
  rw [Finset.sum_comm]
  refine Finset.sum_congr rfl fun i _ => Finset.sum_congr rfl fun j _ => ?_
  rw [h i j]
  ring

/-- The objective lies above its linearisation. -/
theorem objective_convex {P : FQP ℝ n} (hs : ∀ i j, P.G i j = P.G j i) (hp : ∀ y : Fin n → ℝ, 0 ≤ ∑ i, y i * ∑ j, P.G i j * y j) (x v : Fin n → ℝ) :
    objective P x + ∑ i, (∑ j, P.G i j * x j + P.g i) * (v i - x i) ≤ objective P v := by
  have h1 := hp fun i => v i - x i
  have e1 : ∑ i, (v i - x i) * ∑ j, P.G i j * (v j - x j) =
      ∑ i, v i * ∑ j, P.G i j * v j - 2 * ∑ i, v i * ∑ j, P.G i j * x j + ∑ i, x i * ∑ j, P.G i j * x j := by
    have : ∑ i, (v i - x i) * ∑ j, P.G i j * (v j - x j) =
        ∑ i, v i * ∑ j, P.G i j * v j - ∑ i, v i * ∑ j, P.G i j * x j - ∑ i, x i * ∑ j, P.G i j * v j + ∑ i, x i * ∑ j, P.G i j * x j := by
      rw [← Finset.sum_sub_distrib, ← Finset.sum_sub_distrib, ← Finset.sum_add_distrib]
      refine Finset.sum_congr rfl fun i _ => ?_
      simp only [mul_sub, Finset.sum_sub_distrib]
      ring
    rw [this, quad_symm hs x v]
    ring
  have e2 : ∑ i, (∑ j, P.G i j * x j + P.g i) * (v i - x i) =
      ∑ i, v i * ∑ j, P.G i j * x j - ∑ i, x i * ∑ j, P.G i j * x j + ∑ i, P.g i * v i - ∑ i, P.g i * x i := by
    rw [← Finset.sum_sub_distrib, ← Finset.sum_add_distrib, ← Finset.sum_sub_distrib]
    exact Finset.sum_congr rfl fun i _ => by ring
  rw [e1] at h1
  unfold objective
  rw [e2]
  linarith

/-- From the point and the multipliers to the gradient. -/
theorem Stat.grad {P : FQP ℝ n} {J0 : ℕ → Fin n → ℝ} {x0 x c : Fin n → ℝ} {Λ θ θ0 E Γ W : ℝ} (hF : NearFactor P J0 x0 Λ θ θ0) (h : Stat J0 x0 x c E) (hΓ : 0 ≤ Γ)
    (hc : ∑ i, c i ^ 2 ≤ Γ ^ 2) (hW : 0 ≤ W) {y : Fin n → ℝ} (hy : ∑ i, y i ^ 2 ≤ W ^ 2) :
    |∑ i, (∑ j, P.G i j * x j + P.g i) * y i - ∑ i, c i * y i| ≤ (θ0 + Λ * E + θ * Γ) * W := by
  have h1 := h (fun i => ∑ j, P.G i j * y j) (Λ * W) (mul_nonneg hF.Λ0 hW) (hF.size y W hW hy)
  have h2 := hF.inv c y Γ W hΓ hW hc hy
  have h3 := abs_sum_mul_le Finset.univ (fun i => ∑ j, P.G i j * x0 j + P.g i) y hF.θ00 hW hF.grad hy
  have e : ∑ i, (∑ j, P.G i j * x j + P.g i) * y i = ∑ i, (x i - x0 i) * ∑ j, P.G i j * y j + ∑ i, (∑ j, P.G i j * x0 j + P.g i) * y i := by
    have := quad_symm hF.sym y fun i => x i - x0 i
    rw [← this, ← Finset.sum_add_distrib]
    refine Finset.sum_congr rfl fun i _ => ?_
    simp only [mul_sub, Finset.sum_sub_distrib]
    ring
  unfold gram at h1
  rw [e]
  rw [abs_le] at *
  constructor <;> linarith [h1.1, h1.2, h2.1, h2.2, h3.1, h3.2]

end Arith

open Arith

/-- C97, with equalities whose normals are far enough from each other (`hfar`): when `solve_quadprog` with rounded arithmetic, on well-scaled data whose
Cholesky factors are accurate up to `θ` and `θ0`, returns `OPTIMAL` and the multipliers of the inequalities are at least `-δ`, the objective of the
returned point exceeds the one of any point that meets the equalities up to `η` and the inequalities by at most a multiple of the rounding errors
and of `η`. -/
theorem C97_equalities (o : Arith ℝ n) {m : ℕ} {u g γ : ℝ} (ho : o.Rounded m u g) (hsm : o.SubMulRounded u) (hγ : 0 ≤ γ) (htri : o.TriRounded γ)
    (maxIter : ℕ) (P : FQP ℝ n) (hE' : P.CE.length ≤ n) (hm : P.CI.length ≤ m) (J0 : ℕ → Fin n → ℝ) (x0 : Fin n → ℝ) (w : FWork ℝ n) {ν σ β b X U : ℝ}
    (hC : o.ScaledFp u g maxIter P J0 ν σ β b) (hX : 0 ≤ X) (hU : 0 ≤ U)
    (hx : ∀ q, o.Reach maxIter P J0 (.eq 0 (o.init P J0 x0 w)) q → ∑ k, (st q).x k ^ 2 ≤ X ^ 2)
    (hfar : ∀ i s, o.Reach maxIter P J0 (.eq 0 (o.init P J0 x0 w)) (.eq i s) → i < P.CE.length →
      o.far (o.updateZ s.J (o.gemvT s.J (P.CE.getD i (0, 0)).1) s.iq))
    (hu : ∀ q, o.Reach maxIter P J0 (.eq 0 (o.init P J0 x0 w)) q → multSum q ≤ U)
    {Λ θ θ0 : ℝ} (hF : NearFactor P J0 x0 Λ θ θ0)
    (fuel : ℕ) (hf : P.CE.length + 2 + maxIter * (n + 3) ≤ fuel) (s : FState ℝ n) (h : o.solve maxIter P J0 x0 w fuel = .ok (.optimal, s))
    {δ η : ℝ} (hδ : 0 ≤ δ) (hs : ∀ k, P.CE.length ≤ k → k < s.iq → -δ ≤ s.u k) (v : Fin n → ℝ) {V : ℝ} (hV : 0 ≤ V) (hv : ∑ k, v k ^ 2 ≤ V ^ 2)
    (hη0 : 0 ≤ η) (hη : ∀ e ∈ P.CE, |val e v| ≤ η) (hfeas : ∀ e ∈ P.CI, 0 ≤ val e v) :
    let C : ℝ := (P.CE.length + 2 + maxIter * (n + 3) : ℕ)
    let τ := 6 * (g + u) * (β * X + b) + C * (β * X) * (12 * (g + 80 * u * (n * C)) * (ν / σ) + 4 * u)
    let E := C * statD u g o.eps γ σ β (1.07 * ν) X U (n * (P.CE.length + 2 + maxIter * (n + 3)))
    objective P s.x ≤ objective P v + (U * (τ + η) + n * δ * (β * V + b) + (θ0 + Λ * E + θ * (U * β)) * (X + V)) := by
  intro C τ E
  have hacc := (C87_rounded o ho maxIter P hE' J0 x0 w hC.cond).1
  obtain ⟨r, s', h1, h2⟩ := Arith.run_good ho.sane hacc _ (.eq 0 (o.init P J0 x0 w)) le_rfl ⟨rfl, Nat.zero_le _, hE', rfl⟩ .refl
  have h3 := h1 fuel (by simp only [Arith.cost]; omega)
  rw [show o.run maxIter P J0 fuel (.eq 0 (o.init P J0 x0 w)) = .ok (.optimal, s) from h] at h3
  cases h3
  obtain ⟨hτE, hτ, -⟩ := C88_constraints o ho maxIter P hE' hm J0 x0 w hC hX hx hfar fuel hf s h
  have hn : s.iq ≤ n := by
    rcases reach_optimal (fun _ _ => by simp) h2 s rfl with ⟨st, hr, -, -, e3, -⟩ | ⟨st, hr, -, -, e3, -⟩
    · obtain ⟨hact, -⟩ := hC.reach ho hX hE' hx hfar hr
      rw [e3]
      exact ActOk.le_n hact
    · obtain ⟨⟨hact, -⟩, -⟩ := hC.reach ho hX hE' hx hfar hr
      rw [e3]
      exact hact.le_n
  obtain ⟨c, hc, hdual⟩ := hC.dual_reach ho hsm hγ htri hX hU hE' hx hfar hu h2
  have hD := hC.statD_nonneg hγ hX hU (rots n maxIter P)
  have hstat : Arith.Stat J0 x0 s.x (comb P s.A s.u s.iq) E := by
    refine (hdual rfl).mono ?_
    refine mul_le_mul_of_nonneg_right (Nat.cast_le.mpr ?_) hD
    simp only [Arith.cost] at hc
    omega
  have hUs : ∑ k ∈ Finset.range s.iq, |s.u k| ≤ U := hu _ h2
  have hβ := hC.β0
  have hb := hC.b0
  have hrow : ∀ k, ∑ i, (active P s.A k).1 i ^ 2 ≤ β ^ 2 ∧ |(active P s.A k).2| ≤ b ∧ (k < P.CE.length → |val (active P s.A k) v| ≤ η) ∧
      (P.CE.length ≤ k → 0 ≤ val (active P s.A k) v) := by
    intro k
    unfold active
    by_cases hk0 : k < P.CE.length
    · rw [if_pos hk0]
      have hmem := getD_mem (l := P.CE) hk0 (0, 0)
      exact ⟨hC.cond.ce _ hmem, hC.ce _ hmem, fun _ => hη _ hmem, fun h => by omega⟩
    rw [if_neg hk0]
    rcases Nat.lt_or_ge (s.A k).toNat P.CI.length with hk | hk
    · have hmem := getD_mem (l := P.CI) hk (0, 0)
      exact ⟨hC.cond.ci _ hmem, hC.ci _ hmem, fun h => absurd h hk0, fun _ => hfeas _ hmem⟩
    · have e : P.CI.getD (s.A k).toNat (0, 0) = (0, 0) := by simp [List.getD, List.getElem?_eq_none hk]
      rw [e]
      exact ⟨by simp; positivity, by simpa using hb, by simp [val, hη0], by simp [val]⟩
  have hcomb : ∑ i, comb P s.A s.u s.iq i ^ 2 ≤ (U * β) ^ 2 := by
    refine le_trans (comb_sq_le (act := fun k => (active P s.A k).1) hβ (fun k _ => (hrow k).1) s.u) ?_
    exact pow_le_pow_left₀ (mul_nonneg (Finset.sum_nonneg fun _ _ => abs_nonneg _) hβ) (mul_le_mul_of_nonneg_right hUs hβ) 2
  have hxs : ∑ k, s.x k ^ 2 ≤ X ^ 2 := hx _ h2
  have hg := hstat.grad hF (mul_nonneg hU hβ) hcomb (add_nonneg hX hV) (sq_sub_le hX hV hxs hv)
  have hconv := objective_convex hF.sym hF.psd s.x v
  have hval : ∀ k, val (active P s.A k) v ≤ β * V + b := by
    intro k
    have h5 := (abs_le.mp (abs_sum_mul_le Finset.univ (active P s.A k).1 v hβ hV (hrow k).1 hv)).2
    have h6 := (abs_le.mp (hrow k).2.1).2
    unfold val
    linarith
  have hcw : -(U * (τ + η) + n * δ * (β * V + b)) ≤ ∑ i, comb P s.A s.u s.iq i * (v i - s.x i) := by
    have e : ∑ i, comb P s.A s.u s.iq i * (v i - s.x i) =
        ∑ k ∈ Finset.range s.iq, s.u k * (val (active P s.A k) v - val (active P s.A k) s.x) := by
      unfold comb
      simp only [val_sub, Finset.sum_mul, Finset.mul_sum]
      rw [Finset.sum_comm]
      exact Finset.sum_congr rfl fun k _ => Finset.sum_congr rfl fun i _ => by ring
    rw [e]
    have hterm : ∀ k ∈ Finset.range s.iq, -(|s.u k| * (τ + η) + δ * (β * V + b)) ≤ s.u k * (val (active P s.A k) v - val (active P s.A k) s.x) := by
      intro k hk
      have hk := Finset.mem_range.mp hk
      have h5 : |val (active P s.A k) s.x| ≤ τ := by
        unfold active
        split_ifs with hk0
        · exact hτE k hk0
        · exact hτ k (by omega) hk
      have h6 : |s.u k * val (active P s.A k) s.x| ≤ |s.u k| * τ := by
        rw [_root_.abs_mul]
        exact mul_le_mul_of_nonneg_left h5 (abs_nonneg _)
      have h7 : -(|s.u k| * η + δ * (β * V + b)) ≤ s.u k * val (active P s.A k) v := by
        have hδV : 0 ≤ δ * (β * V + b) := by positivity
        have hη1 : 0 ≤ |s.u k| * η := by positivity
        by_cases hk0 : k < P.CE.length
        · have h8 := mul_le_mul_of_nonneg_left ((hrow k).2.2.1 hk0) (abs_nonneg (s.u k))
          rw [← _root_.abs_mul] at h8
          have := (abs_le.mp h8).1
          linarith
        · have := mul_le_mul_of_nonneg_right (hs k (by omega) hk) ((hrow k).2.2.2 (by omega))
          have := mul_le_mul_of_nonneg_left (hval k) hδ
          linarith
      have := (abs_le.mp h6).2
      rw [mul_sub]
      linarith
    refine le_trans ?_ (Finset.sum_le_sum hterm)
    rw [Finset.sum_neg_distrib, Finset.sum_add_distrib, ← Finset.sum_mul, Finset.sum_const, Finset.card_range, nsmul_eq_mul]
    have hτ0 : 0 ≤ τ := by
      have := hC.cond.u0
      have := hC.cond.g0
      have := hC.ν0
      have := hC.σ0
      show 0 ≤ 6 * (g + u) * (β * X + b) + C * (β * X) * (12 * (g + 80 * u * (n * C)) * (ν / σ) + 4 * u)
      have : 0 ≤ C := Nat.cast_nonneg _
      positivity
    have h8 := mul_le_mul_of_nonneg_right hUs (add_nonneg hτ0 hη0)
    have h9 : (s.iq : ℝ) * (δ * (β * V + b)) ≤ n * (δ * (β * V + b)) := mul_le_mul_of_nonneg_right (Nat.cast_le.mpr hn) (by positivity)
    linarith
  have h10 := (abs_le.mp hg).1
  linarith

/-- C97. With rounded arithmetic, without equalities, on well-scaled data whose Cholesky factors are accurate up to `θ` and `θ0`: when `solve_quadprog`
returns `OPTIMAL` with multipliers of at least `-δ`, the objective of the returned point exceeds the one of any feasible point by at most a multiple
of the rounding errors. -/
theorem C97_near_optimal (o : Arith ℝ n) {m : ℕ} {u g γ : ℝ} (ho : o.Rounded m u g) (hsm : o.SubMulRounded u) (hγ : 0 ≤ γ) (htri : o.TriRounded γ)
    (maxIter : ℕ) (P : FQP ℝ n) (hE : P.CE = []) (hm : P.CI.length ≤ m) (J0 : ℕ → Fin n → ℝ) (x0 : Fin n → ℝ) (w : FWork ℝ n) {ν σ β b X U : ℝ}
    (hC : o.ScaledFp u g maxIter P J0 ν σ β b) (hX : 0 ≤ X) (hU : 0 ≤ U)
    (hx : ∀ q, o.Reach maxIter P J0 (.eq 0 (o.init P J0 x0 w)) q → ∑ k, (st q).x k ^ 2 ≤ X ^ 2)
    (hu : ∀ q, o.Reach maxIter P J0 (.eq 0 (o.init P J0 x0 w)) q → multSum q ≤ U)
    {Λ θ θ0 : ℝ} (hF : NearFactor P J0 x0 Λ θ θ0)
    (fuel : ℕ) (hf : 2 + maxIter * (n + 3) ≤ fuel) (s : FState ℝ n) (h : o.solve maxIter P J0 x0 w fuel = .ok (.optimal, s))
    {δ : ℝ} (hδ : 0 ≤ δ) (hs : ∀ k < s.iq, -δ ≤ s.u k) (v : Fin n → ℝ) {V : ℝ} (hV : 0 ≤ V) (hv : ∑ k, v k ^ 2 ≤ V ^ 2) (hfeas : ∀ e ∈ P.CI, 0 ≤ val e v) :
    let C : ℝ := (2 + maxIter * (n + 3) : ℕ)
    let τ := 6 * (g + u) * (β * X + b) + C * (β * X) * (12 * (g + 80 * u * (n * C)) * (ν / σ) + 4 * u)
    let E := C * statD u g o.eps γ σ β (1.07 * ν) X U (n * (2 + maxIter * (n + 3)))
    objective P s.x ≤ objective P v + (U * τ + n * δ * (β * V + b) + (θ0 + Λ * E + θ * (U * β)) * (X + V)) := by
  have hl : P.CE.length = 0 := by rw [hE]; rfl
  have key := C97_equalities o ho hsm hγ htri maxIter P (by omega) hm J0 x0 w hC hX hU hx (fun i s _ hi => by omega) hu hF fuel (by omega) s h hδ
    (fun k _ hk => hs k hk) v hV hv (η := 0) le_rfl (by rw [hE]; simp) hfeas
  rw [hl, Nat.zero_add] at key
  dsimp only at key
  rw [add_zero (_ + _ * _ * _)] at key
  exact key

/-- The bound of C97. -/
noncomputable def optErr (o : Arith ℝ n) (u g γ : ℝ) (maxIter : ℕ) (ν σ β b X U V δ Λ θ θ0 : ℝ) : ℝ :=
  U * (6 * (g + u) * (β * X + b) + ((2 + maxIter * (n + 3) : ℕ) : ℝ) * (β * X) *
      (12 * (g + 80 * u * (n * ((2 + maxIter * (n + 3) : ℕ) : ℝ))) * (ν / σ) + 4 * u)) + n * δ * (β * V + b) +
    (θ0 + Λ * (((2 + maxIter * (n + 3) : ℕ) : ℝ) * statD u g o.eps γ σ β (1.07 * ν) X U (n * (2 + maxIter * (n + 3)))) + θ * (U * β)) * (X + V)

/-- The solver is given the cost `H`, `g` up to `κ`. -/
structure GivenCost (P : FQP ℝ n) (H g : Mat) (κ : ℝ) : Prop where
  hess : ∀ i j, |P.G i j - H.e i j| ≤ κ
  lin : ∀ i, |P.g i - g.e i 0| ≤ κ

/-- The objective in terms of the cost before it was rounded. -/
theorem GivenCost.objective_error {P : FQP ℝ 3} {k κ : ℝ} {w : V3} (h : GivenCost P (costH 0 k) (costG 0 w) κ) (hκ : 0 ≤ κ) (x : Fin 3 → ℝ) {X : ℝ}
    (hX : 0 ≤ X) (hx : ∑ i, x i ^ 2 ≤ X ^ 2) : |2 * objective P x - (k * dot x x + 2 * dot w x)| ≤ κ * (3 * X ^ 2 + 4 * X) := by
  have e : 2 * objective P x - (k * dot x x + 2 * dot w x) =
      ∑ i, ∑ j, x i * ((P.G i j - (costH 0 k).e i j) * x j) + 2 * ∑ i, (P.g i - (costG 0 w).e i 0) * x i := by
    unfold objective
    have e2 : ∀ h, w (⟨2, h⟩ : Fin 3) = w 2 := fun _ => rfl
    simp only [Fin.sum_univ_three, costH, costG, dot, V3.get]
    norm_num [e2]
    ring
  rw [e]
  have hS : 0 ≤ ∑ i, |x i| := Finset.sum_nonneg fun _ _ => abs_nonneg _
  have hS2 : (∑ i, |x i|) ^ 2 ≤ 3 * X ^ 2 := by
    have := sq_sum_le_card_mul_sum_sq (s := Finset.univ) (f := fun i => |x i|)
    simp only [sq_abs, Finset.card_univ, Fintype.card_fin] at this
    push_cast at this
    linarith
  have hS1 : ∑ i, |x i| ≤ 2 * X := abs_le_of_sq_le_sq' (by nlinarith) (by linarith) |>.2
  have k1 : |∑ i, ∑ j, x i * ((P.G i j - (costH 0 k).e i j) * x j)| ≤ κ * (∑ i, |x i|) ^ 2 := by
    rw [pow_two, Finset.sum_mul_sum, Finset.mul_sum]
    refine le_trans (Finset.abs_sum_le_sum_abs _ _) (Finset.sum_le_sum fun i _ => ?_)
    rw [Finset.mul_sum]
    refine le_trans (Finset.abs_sum_le_sum_abs _ _) (Finset.sum_le_sum fun j _ => ?_)
    rw [_root_.abs_mul, _root_.abs_mul]
    have := mul_le_mul_of_nonneg_right (h.hess i j) (mul_nonneg (abs_nonneg (x i)) (abs_nonneg (x j)))
    linarith
  have k2 : |∑ i, (P.g i - (costG 0 w).e i 0) * x i| ≤ κ * ∑ i, |x i| := by
    rw [Finset.mul_sum]
    refine le_trans (Finset.abs_sum_le_sum_abs _ _) (Finset.sum_le_sum fun i _ => ?_)
    rw [_root_.abs_mul]
    exact mul_le_mul_of_nonneg_right (h.lin i) (abs_nonneg _)
  have k3 := mul_le_mul_of_nonneg_left hS2 hκ
  have k4 := mul_le_mul_of_nonneg_left hS1 hκ
  rw [abs_le] at *
  constructor <;> linarith [k1.1, k1.2, k2.1, k2.2]

/-- C97, the planner on samples, the five sets whose coefficients are exact: when the run ends with `success_` and the multipliers of the solver are at
least `-δ`, no motion that meets the requirements at the samples, with a margin for the rounding of the rows, costs less than the returned one by more
than the rounding errors. -/
theorem C97_samples (pData : ProblemData) (Ts : List ℝ) (gr : V3) (h : Accepted pData Ts gr)
    (hf : pData.flag ∈ [11#32, 19#32, 27#32, 7#32, 15#32]) (l : TTime) (hl : Discretisation Ts l)
    (hc : pData.costFunction = DISTANCE_TRAVELED ∨ pData.costFunction = ACCELERATION) {k R : ℝ} (hs : DataScale pData Ts.sum l gr k R) :
    ∃ A b H c, computeConstraintsOneStep pData Ts.length Ts.sum l = .ok (A, b) ∧ genCostFunction pData Ts Ts.sum l 3 = .ok (H, c) ∧
      ∀ (o : Arith ℝ 3) (m : ℕ) (u g γ : ℝ) (_ : o.Rounded m u g) (_ : o.SubMulRounded u) (_ : 0 ≤ γ) (_ : o.TriRounded γ) (maxIter : ℕ) (P : FQP ℝ 3)
        (_ : P.CI.length ≤ m) (J0 : ℕ → Fin 3 → ℝ) (x0 : Fin 3 → ℝ) (w : FWork ℝ 3) (ν σ β B X U ρ κ Λ θ θ0 : ℝ)
        (_ : o.ScaledFp u g maxIter P J0 ν σ β B) (_ : 0 ≤ X) (_ : 0 ≤ U)
        (_ : ∀ q, o.Reach maxIter P J0 (.eq 0 (o.init P J0 x0 w)) q → ∑ k, (st q).x k ^ 2 ≤ X ^ 2)
        (_ : ∀ q, o.Reach maxIter P J0 (.eq 0 (o.init P J0 x0 w)) q → multSum q ≤ U)
        (_ : 0 ≤ ρ) (_ : GivenRows P A b ρ) (_ : 0 ≤ κ) (_ : GivenCost P H c κ) (_ : NearFactor P J0 x0 Λ θ θ0),
      ∃ r s, (∀ fuel ≥ 2 + maxIter * (3 + 3), o.solve maxIter P J0 x0 w fuel = .ok (r, s)) ∧
        ∃ res, genTraj { success := r = .optimal, cost := if r = .optimal then s.f else -1, x := List.ofFn s.x } pData Ts.sum = .ok res ∧
          (res.success = true ↔ r = .optimal) ∧
          (res.success = true → MeetsBoundary pData.flag pData.bc res.c_of_t.eval Ts.sum ∧
            ∃ v a, Motion pData Ts.sum res.point res.c_of_t.eval v a ∧
              MeetsSamplesTol pData l (R * (fpTol o u g maxIter P J0 ν σ β B X + ρ * (X + 1)))
                (fpTol o u g maxIter P J0 ν σ β B X + ρ * (X + 1)) res.c_of_t.eval a ∧
              ∀ δ, 0 ≤ δ → (∀ j < s.iq, -δ ≤ s.u j) → ∀ x' c' v' a' V, Motion pData Ts.sum x' c' v' a' → 0 ≤ V → ∑ i, x' i ^ 2 ≤ V ^ 2 →
                MeetsSamplesTol pData l (-(R * (ρ * (V + 1)))) (-(ρ * (V + 1))) c' a' →
                motionCost pData l res.point a ≤ motionCost pData l x' a' + 2 * optErr o u g γ maxIter ν σ β B X U V δ Λ θ θ0 +
                  κ * (3 * X ^ 2 + 4 * X + (3 * V ^ 2 + 4 * V))) := by
  have hgc := goodCost pData Ts h.total h.ne h.flag h.capt l hl (hc.imp_right fun hc => ⟨hc, fun e => by rw [e] at hf; simp at hf⟩)
  obtain ⟨A, b, w', K, pts, hpts, hA, hk, hgen, hcost, hcols, hfits, hRow, hrows⟩ := planSamples_rows pData Ts gr h hf l hl hgc hs
  obtain ⟨A', b', hA', hall⟩ := C90_samples pData Ts gr h hf l hl hc hs
  rw [hA] at hA'
  cases hA'
  refine ⟨A, b, _, _, hA, hgen, ?_⟩
  intro o m u g γ ho hsm hγ htri maxIter P hm J0 x0 w ν σ β B X U ρ κ Λ θ θ0 hC hX hU hx hu hρ hP hκ hG hF
  obtain ⟨r, s, h1, res, hres, hiff, hgood⟩ := hall o m u g ho maxIter P hm J0 x0 w ν σ β B X ρ hC hX hx hρ hP
  have hl0 : P.CE.length = 0 := by rw [hP.noEq]; rfl
  have hrun : ∀ fuel ≥ 2 + maxIter * (3 + 3), o.solve maxIter P J0 x0 w fuel = .ok (r, s) := fun fuel hfu => h1 fuel (by omega)
  refine ⟨r, s, hrun, res, hres, hiff, fun hsucc => ?_⟩
  obtain ⟨hb, v, a, hmo, hmeet⟩ := hgood hsucc
  refine ⟨hb, v, a, hmo, hmeet, ?_⟩
  intro δ hδ hmul x' c' v' a' V hmo' hV hx' hmeet'
  obtain rfl := hiff.mp hsucc
  obtain ⟨r2, s2, hrun2, hxs2, -⟩ := optimal_rows o ho maxIter P hm J0 x0 w hC hX hx hρ hP
  have e2 := hrun2 (2 + maxIter * (3 + 3)) (by omega)
  rw [hrun _ le_rfl] at e2
  cases e2
  have hpt : res.point = s.x := by
    obtain ⟨res2, hres2, hss, hg2⟩ := genTraj_total
      { success := QPStatus.optimal = .optimal, cost := if QPStatus.optimal = .optimal then s.f else -1, x := List.ofFn s.x } pData Ts.sum h.total pts hpts h.flag (by simp)
    rw [hres] at hres2
    cases hres2
    obtain ⟨hp, -⟩ := hg2 (by rw [← hss]; exact hsucc)
    rw [hp]
    have := ext3_ofFn s.x
    funext i
    have := congrFun this i
    simpa [ext3, extN] using this
  have hfeas : ∀ e ∈ P.CI, 0 ≤ val e x' := hP.margin hρ hV hx' (by rw [zero_add]; exact (hrows _ _ _ _ hmo').2 _ (by positivity) hmeet')
  have key : objective P s.x ≤ objective P x' + optErr o u g γ maxIter ν σ β B X U V δ Λ θ θ0 :=
    C97_near_optimal o ho hsm hγ htri maxIter P hP.noEq hm J0 x0 w hC hX hU hx hu hF _ le_rfl s (hrun _ le_rfl) hδ hmul x' hV hx' hfeas
  have k1 := hcost _ _ _ _ hmo
  have k2 := hcost _ _ _ _ hmo'
  rw [hpt] at k1 ⊢
  have k3 := (abs_le.mp (hG.objective_error hκ s.x hX hxs2)).1
  have k4 := (abs_le.mp (hG.objective_error hκ x' hV hx')).2
  linarith

/-- Any quantity is bounded along a run on well-scaled data. -/
theorem run_bound {o : Arith ℝ n} (ho : o.Sane) {maxIter : ℕ} {P : FQP ℝ n} {J0 : ℕ → Fin n → ℝ} {a : FNext ℝ n}
    (hacc : ∀ st, o.Reach maxIter P J0 a (.l2a st) → o.Accepts P st) (φ : FNext ℝ n → ℝ) : ∀ (c : ℕ) (q : FNext ℝ n),
    Arith.cost maxIter P q ≤ c → Good o P q → o.Reach maxIter P J0 a q → ∃ U : ℝ, 0 ≤ U ∧ ∀ q', o.Reach maxIter P J0 q q' → φ q' ≤ U := by
  have hret : ∀ r s q', o.Reach maxIter P J0 (.ret r s) q' → q' = .ret r s := by
    intro r s q' h
    induction h with
    | refl => rfl
    | tail _ hs ih => subst ih; exact (Out.ok.inj hs).symm
  intro c
  induction c with
  | zero =>
    intro q hc hq hr
    cases q with
    | ret r s => exact ⟨|φ (.ret r s)|, abs_nonneg _, fun q' h => by rw [hret r s q' h]; exact le_abs_self _⟩
    | _ => simp only [Arith.cost] at hc; omega
  | succ c ih =>
    intro q hc hq hr
    by_cases h : ∃ r s, q = .ret r s
    · obtain ⟨r, s, rfl⟩ := h
      exact ⟨|φ (.ret r s)|, abs_nonneg _, fun q' h => by rw [hret r s q' h]; exact le_abs_self _⟩
    · obtain ⟨q', h1, h2, h3, -⟩ := step_good ho (maxIter := maxIter) (J0 := J0) (T := fun _ _ => True) (T' := fun _ _ => True)
        ⟨fun _ _ _ => trivial, fun _ _ _ _ _ _ _ _ _ _ => trivial, fun _ _ _ _ _ _ _ _ _ _ _ _ _ => trivial⟩ trivial hq (fun r s e => h ⟨r, s, e⟩)
        (fun st e => hacc st (e ▸ hr))
      obtain ⟨U, hU, hall⟩ := ih q' (by omega) h2 (hr.tail h1)
      refine ⟨max U (φ q), le_max_of_le_left hU, fun p hp => ?_⟩
      rcases reach_head hp with rfl | ⟨b, hb, hp⟩
      · exact le_max_right _ _
      · rw [h1] at hb
        cases hb
        exact le_trans (hall p hp) (le_max_left _ _)

/-- C97, the bound of the multipliers exists for every run on well-scaled data. -/
theorem C97_multipliers_exist (o : Arith ℝ n) {m : ℕ} {u g : ℝ} (ho : o.Rounded m u g) (maxIter : ℕ) (P : FQP ℝ n) (hE : P.CE.length ≤ n)
    (J0 : ℕ → Fin n → ℝ) (x0 : Fin n → ℝ) (w : FWork ℝ n) {N B : ℝ} (hC : o.ConditionedFp u g maxIter P J0 N B) :
    ∃ U : ℝ, 0 ≤ U ∧ ∀ q, o.Reach maxIter P J0 (.eq 0 (o.init P J0 x0 w)) q → multSum q ≤ U :=
  run_bound ho.sane (C87_rounded o ho maxIter P hE J0 x0 w hC).1 multSum _ (.eq 0 (o.init P J0 x0 w)) le_rfl ⟨rfl, Nat.zero_le _, hE, rfl⟩ .refl

/-- C96, the bound `L` of the coefficients of the equalities exists for every run on well-scaled data. -/
theorem C96_coefficients_exist (o : Arith ℝ n) {m : ℕ} {u g : ℝ} (ho : o.Rounded m u g) (maxIter : ℕ) (P : FQP ℝ n) (hE : P.CE.length ≤ n)
    (J0 : ℕ → Fin n → ℝ) (x0 : Fin n → ℝ) (w : FWork ℝ n) {N B : ℝ} (hC : o.ConditionedFp u g maxIter P J0 N B) :
    ∃ L : ℝ, 0 ≤ L ∧ ∀ s, o.Reach maxIter P J0 (.eq 0 (o.init P J0 x0 w)) (.l2a s) →
      ∑ k ∈ Finset.range P.CE.length, |o.triSolve s.R (o.gemvT s.J (P.CI.getD s.ip (0, 0)).1) s.iq k| ≤ L := by
  obtain ⟨L, hL, h⟩ := run_bound ho.sane (C87_rounded o ho maxIter P hE J0 x0 w hC).1
    (fun q => ∑ k ∈ Finset.range P.CE.length, |o.triSolve (st q).R (o.gemvT (st q).J (P.CI.getD (st q).ip (0, 0)).1) (st q).iq k|)
    _ (.eq 0 (o.init P J0 x0 w)) le_rfl ⟨rfl, Nat.zero_le _, hE, rfl⟩ .refl
  exact ⟨L, hL, fun s hs => h _ hs⟩

/-- A multiple of the identity with the inverse Cholesky factor `diag d`. -/
theorem nearFactor_diag {P : FQP ℝ n} {k θ θ0 : ℝ} {d : ℕ → ℝ} {x0 : Fin n → ℝ} (hk : 0 ≤ k) (hG : ∀ i j, P.G i j = if i = j then k else 0) (hθ : 0 ≤ θ) (hθ0 : 0 ≤ θ0)
    (hd : ∀ j < n, |k * d j ^ 2 - 1| ≤ θ) (hg : ∑ i, (k * x0 i + P.g i) ^ 2 ≤ θ0 ^ 2) :
    NearFactor P (fun j i => if j = i then d j else 0) x0 k θ θ0 := by
  have hmul : ∀ (y : Fin n → ℝ) i, ∑ j, P.G i j * y j = k * y i := by
    intro y i
    rw [Finset.sum_eq_single i (fun j _ hj => by rw [hG, if_neg (Ne.symm hj), zero_mul]) (fun h => absurd (Finset.mem_univ i) h), hG, if_pos rfl]
  constructor
  · intro i j
    rw [hG, hG]
    by_cases h : i = j
    · rw [if_pos h, if_pos h.symm]
    · rw [if_neg h, if_neg (Ne.symm h)]
  · intro y
    simp only [hmul]
    exact Finset.sum_nonneg fun i _ => by nlinarith [mul_nonneg hk (mul_self_nonneg (y i))]
  · intro y Y _ hy
    simp only [hmul, mul_pow]
    rw [← Finset.mul_sum]
    exact mul_le_mul_of_nonneg_left hy (sq_nonneg k)
  · exact hk
  · exact hθ0
  · intro c y Γ Y hΓ hY hc hy
    simp only [hmul]
    have e : ∀ (z : Fin n → ℝ) (j : Fin n), ∑ i : Fin n, z i * (if (j : ℕ) = i then d j else 0) = z j * d j := by
      intro z j
      rw [Finset.sum_eq_single j (fun i _ hi => by rw [if_neg (fun h => hi (Fin.ext h.symm)), mul_zero]) (fun h => absurd (Finset.mem_univ j) h), if_pos rfl]
    rw [Finset.sum_range (fun j => (∑ i : Fin n, c i * (if j = i then d j else 0)) * ∑ i : Fin n, k * y i * (if j = i then d j else 0)),
      ← Finset.sum_sub_distrib]
    refine le_trans (Finset.abs_sum_le_sum_abs _ _) (le_trans (Finset.sum_le_sum (g := fun j => θ * |c j * y j|) fun j _ => ?_) ?_)
    · rw [e c j, e (fun i => k * y i) j, show c j * d j * (k * y j * d j) - c j * y j = (k * d j ^ 2 - 1) * (c j * y j) by ring, _root_.abs_mul]
      exact mul_le_mul_of_nonneg_right (hd j j.2) (abs_nonneg _)
    · rw [← Finset.mul_sum]
      exact mul_le_mul_of_nonneg_left (abs_sum_abs_le _ _ _ hΓ hY hc hy) hθ
  · simp only [hmul]
    exact hg

/-- An arithmetic that rounds every operation rounds `a - b * c`. -/
theorem flArith_subMul {fl : ℝ → ℝ} {u : ℝ} (hu : 0 ≤ u) (hfl : ∀ x, |fl x - x| ≤ u * |x|) (eps : ℝ) (tri : (ℕ → ℕ → ℝ) → (ℕ → ℝ) → ℕ → ℕ → ℝ) (n : ℕ) :
    (flArith fl eps tri n).SubMulRounded u := by
  intro a b c
  show |fl (a - fl (b * c)) - (a - b * c)| ≤ _
  have h1 := hfl (b * c)
  have h2 := hfl (a - fl (b * c))
  have h3 : |a - fl (b * c)| ≤ |a - b * c| + u * |b * c| := by
    have := abs_sub_abs_le_abs_sub (a - fl (b * c)) (a - b * c)
    rw [show a - fl (b * c) - (a - b * c) = -(fl (b * c) - b * c) by ring, abs_neg] at this
    linarith
  have h4 := mul_le_mul_of_nonneg_left h3 hu
  have h5 : |fl (a - fl (b * c)) - (a - b * c)| ≤ |fl (a - fl (b * c)) - (a - fl (b * c))| + |fl (b * c) - b * c| := by
    have := _root_.abs_sub (fl (a - fl (b * c)) - (a - fl (b * c))) (fl (b * c) - b * c)
    rw [show fl (a - fl (b * c)) - (a - fl (b * c)) - (fl (b * c) - b * c) = fl (a - fl (b * c)) - (a - b * c) by ring] at this
    exact this
  linarith

theorem rowsQP_cost (k : ℝ) (w : V3) (A b : Mat) : GivenCost (rowsQP k w A b) (costH 0 k) (costG 0 w) 0 :=
  ⟨fun i j => by simp [rowsQP, qpOf, QP.toF], fun i => by simp [rowsQP, qpOf, QP.toF]⟩

theorem rowsQP_diag (k : ℝ) (w : V3) (A b : Mat) (i j : Fin 3) : (rowsQP k w A b).G i j = if i = j then k else 0 := by
  show (costH 0 k).e i j = _
  simp only [costH, i.2, j.2, and_self, if_true, Fin.val_inj]

/-- C97, the hypotheses are met: for every accepted problem with one of the five sets, under the conditions of `C90_scale_exists` on the threshold and
the arithmetic, the solver with all operations rounded, sums from left to right, back substitution and a Cholesky factor known up to `θ` meets all
hypotheses of `C97_samples`. -/
theorem C97_scale_exists (pData : ProblemData) (Ts : List ℝ) (gr : V3) (h : Accepted pData Ts gr)
    (hf : pData.flag ∈ [11#32, 19#32, 27#32, 7#32, 15#32]) (l : TTime) (hl : Discretisation Ts l)
    (hc : pData.costFunction = DISTANCE_TRAVELED ∨ pData.costFunction = ACCELERATION) :
    ∃ k R A b B w', 0 < k ∧ 0 ≤ R ∧ DataScale pData Ts.sum l gr k R ∧ computeConstraintsOneStep pData Ts.length Ts.sum l = .ok (A, b) ∧
      genCostFunction pData Ts Ts.sum l 3 = .ok (costH 0 k, costG 0 w') ∧
      ∀ (maxIter M : ℕ), A.rows ≤ M → 3 ≤ M → ∀ (eps u : ℝ), 0 ≤ eps → 0 ≤ u → u ≤ 1 / 1000 → 3000 * u * (2 + maxIter * 6 : ℕ) ≤ 1 →
        2 * (M + 1 : ℕ) * u ≤ 1 / 100 → 14 * (2 * (M + 1 : ℕ) * u * (R + 0) * (4 / k)) ^ 2 ≤ eps →
        2 * eps * (4 / k) * max 1 (2 * (4 / k) * (R + 0) ^ 2) ≤ 1 →
      ∀ (fl : ℝ → ℝ) (d : ℕ → ℝ) (x0 : Fin 3 → ℝ) (w : FWork ℝ 3) (θ θ0 : ℝ),
        (∀ x, |fl x - x| ≤ u * |x|) → 0 ≤ θ → θ ≤ 0.19 → (∀ j < 3, |k * d j ^ 2 - 1| ≤ θ) → 0 ≤ θ0 → ∑ i, (k * x0 i + w' i) ^ 2 ≤ θ0 ^ 2 →
      ∃ X U, 0 ≤ X ∧ 0 ≤ U ∧ (flArith fl eps (backSubFl fl) 3).Rounded M u ((1 + u) ^ (M + 1) - 1) ∧ (flArith fl eps (backSubFl fl) 3).SubMulRounded u ∧
        (flArith fl eps (backSubFl fl) 3).TriRounded (3 * (((1 + u) ^ (M + 1) - 1) + u)) ∧ (rowsQP k w' A b).CI.length ≤ M ∧
        (flArith fl eps (backSubFl fl) 3).ScaledFp u ((1 + u) ^ (M + 1) - 1) maxIter (rowsQP k w' A b) (fun j i => if j = i then d j else 0)
          (2 / Real.sqrt k) (0.9 / Real.sqrt k) (R + 0) (B + 0) ∧
        (∀ q, (flArith fl eps (backSubFl fl) 3).Reach maxIter (rowsQP k w' A b) (fun j i => if j = i then d j else 0)
          (.eq 0 ((flArith fl eps (backSubFl fl) 3).init (rowsQP k w' A b) (fun j i => if j = i then d j else 0) x0 w)) q → ∑ k, (st q).x k ^ 2 ≤ X ^ 2) ∧
        (∀ q, (flArith fl eps (backSubFl fl) 3).Reach maxIter (rowsQP k w' A b) (fun j i => if j = i then d j else 0)
          (.eq 0 ((flArith fl eps (backSubFl fl) 3).init (rowsQP k w' A b) (fun j i => if j = i then d j else 0) x0 w)) q → multSum q ≤ U) ∧
        GivenRows (rowsQP k w' A b) A b 0 ∧ GivenCost (rowsQP k w' A b) (costH 0 k) (costG 0 w') 0 ∧
        NearFactor (rowsQP k w' A b) (fun j i => if j = i then d j else 0) x0 k θ θ0 := by
  obtain ⟨k, R, -, hs⟩ := C56_scale_exists pData Ts gr h hf l hl hc
  have hgc := goodCost pData Ts h.total h.ne h.flag h.capt l hl (hc.imp_right fun hc => ⟨hc, fun e => by rw [e] at hf; simp at hf⟩)
  obtain ⟨A, b, w', K, pts, hpts, hA, hk, hgen, -, hcols, hfits, hRow, -⟩ := planSamples_rows pData Ts gr h hf l hl hgc hs
  obtain ⟨B, hB, hb⟩ := rhs_bound b A.rows
  refine ⟨k, R, A, b, B, w', hk, zero_le_one.trans hs.one, hs, hA, hgen, ?_⟩
  intro maxIter M hM hM3 eps u he hu hu1 h1 h2 h3 h4 fl d x0 w θ θ0 hfl hθ hθ1 hd hθ0 hx0
  have hP := rowsQP_given k w' b hcols
  have hd' : ∀ j < 3, 0.81 ≤ k * d j ^ 2 ∧ k * d j ^ 2 ≤ 1.21 := fun j hj => by
    have := abs_le.mp (hd j hj)
    constructor <;> linarith [this.1, this.2]
  have hS := C90_scaled (fl := fl) (backSubFl fl) (maxIter := maxIter) hk (zero_le_one.trans hs.one) hB le_rfl hu hRow hb hP d hd' h1 h2 h3 h4
  have hro := C87_left_to_right (n := 3) (m := M) (N := M) hu hfl he (backSubFl fl) hM3 le_rfl
  have hE : (rowsQP k w' A b).CE.length ≤ 3 := by rw [hP.noEq]; exact Nat.zero_le _
  obtain ⟨X, hX, hx⟩ := reach_radius _ hro maxIter (rowsQP k w' A b) hE (fun j i => if j = i then d j else 0) x0 w hS.cond
  obtain ⟨U, hU, hmul⟩ := C97_multipliers_exist _ hro maxIter (rowsQP k w' A b) hE (fun j i => if j = i then d j else 0) x0 w hS.cond
  refine ⟨X, U, hX, hU, hro, flArith_subMul hu hfl _ _ _, flArith_tri hu hu1 hfl hM3 ?_ _, by rw [hP.count]; exact hM, hS, hx, hmul, hP, rowsQP_cost _ _ _ _,
    nearFactor_diag hk.le (rowsQP_diag k w' A b) hθ hθ0 hd ?_⟩
  · exact hS.cond.g1
  · refine le_trans (le_of_eq (Finset.sum_congr rfl fun i _ => ?_)) hx0
    have : (rowsQP k w' A b).g i = w' i := by
      show (costG 0 w').e i 0 = w' i
      simp only [costG, V3.get, i.2, if_true, dif_pos]
    rw [this]

namespace C97Example

open C88Example

variable {fl : ℝ → ℝ} (hfl : ∀ x, |fl x - x| ≤ 2⁻¹ ^ 53 * |x|) (h1 : fl 1 = 1) (hm : fl (-1) = -1)
  (tri : (ℕ → ℕ → ℝ) → (ℕ → ℝ) → ℕ → ℕ → ℝ)

/-- The multipliers of the run. -/
def Mult : FNext ℝ 1 → Prop
  | .ret _ s => s.iq ≤ 1 ∧ (s.iq = 1 → s.u 0 = 1)
  | .eq _ s => s.iq = 0
  | .l1 s => s.iq ≤ 1 ∧ (s.iq = 1 → s.u 0 = 1)
  | .l2 s => s.iq = 0
  | .l2a s => s.iq = 0 ∧ s.u 0 = 0

include hfl h1 hm in
theorem mult {w : FWork ℝ 1} {q : FNext ℝ 1}
    (hr : (flArith fl (2⁻¹ ^ 52) tri 1).Reach 1000 prob (fun _ _ => 1) (.eq 0 ((flArith fl (2⁻¹ ^ 52) tri 1).init prob (fun _ _ => 1) (fun _ => 0) w)) q) :
    Mult q := by
  have h0 := fl_zero hfl
  have ho := C87_left_to_right (n := 1) (m := 1) (N := 1) (by norm_num) hfl (eps := 2⁻¹ ^ 52) (by norm_num) tri le_rfl le_rfl
  have hC := scaled hfl tri
  induction hr with
  | refl => rfl
  | @tail b q' hb hs ih =>
    have hinv := inv hfl h1 hm tri hb
    have hinv' := inv hfl h1 hm tri (.tail hb hs)
    obtain ⟨hg, c, hc, hB⟩ := hC.cond.reach ho (by simp [prob]) hb
    cases b with
    | ret r s => cases Out.ok.inj (show Out.ok (FNext.ret r s) = Out.ok q' from hs); exact ih
    | eq i s =>
      cases Out.ok.inj (show Out.ok (FNext.l1 _) = Out.ok q' from hs)
      obtain ih : s.iq = 0 := ih
      exact ⟨by show s.iq ≤ 1; omega, fun e => by have : s.iq = 1 := e; omega⟩
    | l1 s =>
      replace hs : (flArith fl (2⁻¹ ^ 52) tri 1).stepL1 1000 prob (fun _ _ => 1) s = .ok q' := hs
      unfold Arith.stepL1 at hs
      dsimp only at hs
      split_ifs at hs
      · cases Out.ok.inj hs
        exact ih
      · cases Out.ok.inj hs
        exact ih
      · cases Out.ok.inj hs
        exact hinv'.2.2.1
    | l2 s =>
      replace hs : (flArith fl (2⁻¹ ^ 52) tri 1).stepL2 prob s = .ok q' := hs
      obtain ih : s.iq = 0 := ih
      unfold Arith.stepL2 at hs
      dsimp only at hs
      split_ifs at hs
      · cases Out.ok.inj hs
        exact ⟨by show s.iq ≤ 1; omega, fun e => by have : s.iq = 1 := e; omega⟩
      · cases Out.ok.inj hs
        refine ⟨ih, ?_⟩
        dsimp only
        rw [ih, Function.update_self]
        rfl
    | l2a s =>
      obtain ⟨i1, i2, i3, i5, i4⟩ := hinv
      obtain ⟨-, j2⟩ := ih
      have hacc := hC.cond.accepts ho (c := c) (by omega) hB
      have hip : s.ip = 0 := by
        have := hg.2.1
        simp only [prob, List.length_singleton] at this
        omega
      have hz : (flArith fl (2⁻¹ ^ 52) tri 1).updateZ (fun _ _ => 1)
          ((flArith fl (2⁻¹ ^ 52) tri 1).gemvT (fun _ _ => 1) ((flArith fl (2⁻¹ ^ 52) tri 1).row prob 0).1) 0 = fun _ => 1 := by
        unfold Arith.updateZ
        rw [if_pos one_pos]
        funext i
        simp [flArith, prob, flSum, List.ofFn_succ, h1, Arith.row]
      rcases stepL2a_dual ho.sane (fun a => (ho.eq a a).mpr rfl) hg hacc hs rfl rfl rfl with rfl | ⟨k, st1, k1, k2, -⟩ | ⟨k, st1, k1, k2, -⟩ |
        ⟨t, a, k1, k2, k3, k4, rfl⟩
      · exact ⟨by show s.iq ≤ 1; omega, fun e => by have : s.iq = 1 := e; omega⟩
      · omega
      · omega
      · rw [ho.eq, hip, i4, i3, i2, hz] at k3
        have ht : t = 1 := by
          rw [k3]
          simp [flArith, prob, flSum, List.ofFn_succ, h1, Arith.row]
        refine ⟨by show s.iq + 1 ≤ 1; omega, fun _ => ?_⟩
        dsimp only
        unfold Arith.moveU
        rw [if_pos i3.symm, j2, ht]
        show fl (0 + 1) = 1
        rw [zero_add, h1]

include hfl h1 hm in
theorem point_le {w : FWork ℝ 1} {q : FNext ℝ 1}
    (hq : (flArith fl (2⁻¹ ^ 52) tri 1).Reach 1000 prob (fun _ _ => 1) (.eq 0 ((flArith fl (2⁻¹ ^ 52) tri 1).init prob (fun _ _ => 1) (fun _ => 0) w)) q) :
    ∑ k, (st q).x k ^ 2 ≤ (1 : ℝ) ^ 2 := by
  have := inv hfl h1 hm tri hq
  rw [one_pow]
  cases q with
  | ret r s => exact this.1
  | eq i s => simp [st, this.1]
  | l1 s => rcases this with this | this <;> simp [st, this.1]
  | l2 s => simp [st, this.1]
  | l2a s => simp [st, this.1]

include hfl h1 hm in
theorem mult_le {w : FWork ℝ 1} {q : FNext ℝ 1}
    (hq : (flArith fl (2⁻¹ ^ 52) tri 1).Reach 1000 prob (fun _ _ => 1) (.eq 0 ((flArith fl (2⁻¹ ^ 52) tri 1).init prob (fun _ _ => 1) (fun _ => 0) w)) q) :
    multSum q ≤ 1 := by
  have := mult hfl h1 hm tri hq
  have key : ∀ (s : FState ℝ 1), s.iq ≤ 1 → (s.iq = 1 → s.u 0 = 1) → ∑ k ∈ Finset.range s.iq, |s.u k| ≤ 1 := by
    intro s k1 k2
    rcases Nat.lt_or_ge s.iq 1 with k | k
    · rw [show s.iq = 0 by omega]
      simp
    · have k : s.iq = 1 := by omega
      rw [k]
      simp [k2 k]
  cases q with
  | ret r s => exact key s this.1 this.2
  | eq i s => exact key s (by rw [show s.iq = 0 from this]; exact zero_le_one) (fun e => by rw [show s.iq = 0 from this] at e; exact absurd e (by norm_num))
  | l1 s => exact key s this.1 this.2
  | l2 s => exact key s (by rw [show s.iq = 0 from this]; exact zero_le_one) (fun e => by rw [show s.iq = 0 from this] at e; exact absurd e (by norm_num))
  | l2a s =>
    show ∑ k ∈ Finset.range (s.iq + 1), |s.u k| ≤ 1
    rw [this.1]
    simp [this.2]

end C97Example

/-- A non-trivial case: doubles with back substitution and one thousand passes, minimise `x² / 2` under `x ≥ 1` from `x = 0`. -/
example (fl : ℝ → ℝ) (hfl : ∀ x, |fl x - x| ≤ 2⁻¹ ^ 53 * |x|) (h1 : fl 1 = 1) (hm : fl (-1) = -1) (w : FWork ℝ 1) :
    ∃ s, (flArith fl (2⁻¹ ^ 52) (backSubFl fl) 1).solve 1000 C88Example.prob (fun _ _ => 1) (fun _ => 0) w 4002 = .ok (.optimal, s) ∧
      objective C88Example.prob s.x ≤ objective C88Example.prob (fun _ => 1) + 10⁻¹ ^ 3 := by
  have ho := C87_left_to_right (n := 1) (m := 1) (N := 1) (by norm_num) hfl (eps := 2⁻¹ ^ 52) (by norm_num) (backSubFl fl) le_rfl le_rfl
  have hC := C88Example.scaled hfl (backSubFl fl)
  have hacc := (C87_rounded _ ho 1000 C88Example.prob (by simp [C88Example.prob]) (fun _ _ => 1) (fun _ => 0) w hC.cond).1
  obtain ⟨r, s, h3, h4⟩ := Arith.run_good ho.sane hacc _ (.eq 0 _) le_rfl ⟨rfl, Nat.zero_le _, by simp [C88Example.prob], rfl⟩ .refl
  have h : (flArith fl (2⁻¹ ^ 52) (backSubFl fl) 1).solve 1000 C88Example.prob (fun _ _ => 1) (fun _ => 0) w 4002 = .ok (r, s) :=
    h3 4002 (by simp [Arith.cost, C88Example.prob])
  obtain rfl := (C88Example.inv hfl h1 hm (backSubFl fl) h4).2
  refine ⟨s, h, ?_⟩
  have hmul := C97Example.mult hfl h1 hm (backSubFl fl) h4
  have hF : NearFactor C88Example.prob (fun _ _ => 1) (fun _ => 0) 1 0 0 := by
    constructor <;> simp [C88Example.prob]
    · exact fun y => mul_self_nonneg _
  have e : Real.sqrt (flArith fl (2⁻¹ ^ 52) (backSubFl fl) 1).eps = 2⁻¹ ^ 26 := by
    show Real.sqrt (2⁻¹ ^ 52) = _
    rw [show (2⁻¹ : ℝ) ^ 52 = (2⁻¹ ^ 26) ^ 2 by norm_num]
    exact Real.sqrt_sq (by norm_num)
  refine le_trans (C97_near_optimal _ ho (flArith_subMul (by norm_num) hfl _ _ _) (γ := 3 * (((1 + 2⁻¹ ^ 53) ^ (1 + 1) - 1) + 2⁻¹ ^ 53)) (by norm_num)
    (flArith_tri (by norm_num) (by norm_num) hfl le_rfl (by norm_num) _) 1000 C88Example.prob rfl (by simp [C88Example.prob]) (fun _ _ => 1) (fun _ => 0) w
    hC (X := 1) (U := 1) (by norm_num) (by norm_num) (fun q hq => ?_) (fun q hq => ?_) hF 4002 (by norm_num) s h (δ := 0) le_rfl (fun k hk => ?_)
    (fun _ => 1) (V := 1) (by norm_num) (by simp) (by simp [C88Example.prob, val])) (add_le_add le_rfl ?_)
  · exact C97Example.point_le hfl h1 hm (backSubFl fl) hq
  · exact C97Example.mult_le hfl h1 hm (backSubFl fl) hq
  · obtain ⟨k1, k2⟩ := hmul
    have hk0 : k = 0 := by omega
    rw [hk0, k2 (by omega)]
    norm_num
  · have hp := one_add_pow_mul (x := 84 * 2⁻¹ ^ 53) 4002 (by norm_num) (by norm_num)
    have hp0 : (1 : ℝ) ≤ (1 + 84 * 2⁻¹ ^ 53) ^ 4002 := one_le_pow₀ (by norm_num)
    unfold statD dl
    rw [e, show 1 * (2 + 1000 * (1 + 3)) = 4002 by norm_num]
    generalize (1 + 84 * (2⁻¹ : ℝ) ^ 53) ^ 4002 = p at *
    have hp1 : p ≤ 1.1 := by
      norm_num at hp ⊢
      linarith
    clear hp
    norm_num
    linarith

namespace C96Example

variable {fl : ℝ → ℝ} (hfl : ∀ x, |fl x - x| ≤ 2⁻¹ ^ 53 * |x|) (h1 : fl 1 = 1) (hm : fl (-1) = -1)
  (tri : (ℕ → ℕ → ℝ) → (ℕ → ℝ) → ℕ → ℕ → ℝ)

include hfl h1 hm in
theorem mult_le {maxIter : ℕ} (hi2 : 2 ≤ maxIter) {w : FWork ℝ 1} {q : FNext ℝ 1}
    (hr : (flArith fl (2⁻¹ ^ 52) tri 1).Reach maxIter prob (fun _ _ => 1) (.eq 0 ((flArith fl (2⁻¹ ^ 52) tri 1).init prob (fun _ _ => 1) (fun _ => 0) w)) q) :
    multSum q ≤ 1 := by
  have h := (inv hfl h1 hm tri hi2 hr).1
  cases q with
  | ret r s => simp [multSum, st, h.1.2.1, h.1.2.2.1]
  | eq i s =>
    rcases h.2 with h | h
    · simp [multSum, st, h.2.2.2.1]
    · simp [multSum, st, h.2.2.1, h.2.2.2.1]
  | l1 s => simp [multSum, st, h.2.2.1, h.2.2.2.1]
  | l2 s => exact h.elim
  | l2a s => exact h.elim

end C96Example

/-- A non-trivial case with an equality: doubles with back substitution and one thousand passes, minimise `x² / 2` with `x = 1` and `x ≥ 0` from `x = 0`. -/
example (fl : ℝ → ℝ) (hfl : ∀ x, |fl x - x| ≤ 2⁻¹ ^ 53 * |x|) (h1 : fl 1 = 1) (hm : fl (-1) = -1) (w : FWork ℝ 1) :
    ∃ s, (flArith fl (2⁻¹ ^ 52) (backSubFl fl) 1).solve 1000 C96Example.prob (fun _ _ => 1) (fun _ => 0) w 4003 = .ok (.optimal, s) ∧
      objective C96Example.prob s.x ≤ objective C96Example.prob (fun _ => 1) + 10⁻¹ ^ 3 := by
  have ho := C87_left_to_right (n := 1) (m := 1) (N := 1) (by norm_num) hfl (eps := 2⁻¹ ^ 52) (by norm_num) (backSubFl fl) le_rfl le_rfl
  have hC := C96Example.scaled hfl (backSubFl fl) (maxIter := 1000) le_rfl
  have hacc := (C87_rounded _ ho 1000 C96Example.prob (by simp [C96Example.prob]) (fun _ _ => 1) (fun _ => 0) w hC.cond).1
  obtain ⟨r, s, h3, h4⟩ := Arith.run_good ho.sane hacc _ (.eq 0 _) le_rfl ⟨rfl, Nat.zero_le _, by simp [C96Example.prob], rfl⟩ .refl
  have h : (flArith fl (2⁻¹ ^ 52) (backSubFl fl) 1).solve 1000 C96Example.prob (fun _ _ => 1) (fun _ => 0) w 4003 = .ok (r, s) :=
    h3 4003 (by simp [Arith.cost, C96Example.prob])
  obtain ⟨hdone, rfl⟩ := (C96Example.inv hfl h1 hm (backSubFl fl) (by norm_num) h4).1
  refine ⟨s, h, ?_⟩
  have hF : NearFactor C96Example.prob (fun _ _ => 1) (fun _ => 0) 1 0 0 := by
    constructor <;> simp [C96Example.prob]
    · exact fun y => mul_self_nonneg _
  have e : Real.sqrt (flArith fl (2⁻¹ ^ 52) (backSubFl fl) 1).eps = 2⁻¹ ^ 26 := by
    show Real.sqrt (2⁻¹ ^ 52) = _
    rw [show (2⁻¹ : ℝ) ^ 52 = (2⁻¹ ^ 26) ^ 2 by norm_num]
    exact Real.sqrt_sq (by norm_num)
  refine le_trans (C97_equalities _ ho (flArith_subMul (by norm_num) hfl _ _ _) (γ := 3 * (((1 + 2⁻¹ ^ 53) ^ (1 + 1) - 1) + 2⁻¹ ^ 53)) (by norm_num)
    (flArith_tri (by norm_num) (by norm_num) hfl le_rfl (by norm_num) _) 1000 C96Example.prob (by simp [C96Example.prob]) (by simp [C96Example.prob])
    (fun _ _ => 1) (fun _ => 0) w hC (X := 1) (U := 1) (by norm_num) (by norm_num)
    (fun q hq => C96Example.point_le hfl h1 hm (backSubFl fl) (by norm_num) hq)
    (fun i s hr hi => (C96Example.inv hfl h1 hm (backSubFl fl) (by norm_num) hr).2 i s rfl hi)
    (fun q hq => C96Example.mult_le hfl h1 hm (backSubFl fl) (by norm_num) hq) hF 4003 (by simp [C96Example.prob]) s h (δ := 0) (η := 0) le_rfl
    (fun k hk1 hk2 => by rw [hdone.2.1] at hk2; simp [C96Example.prob] at hk1; omega)
    (fun _ => 1) (V := 1) (by norm_num) (by simp) le_rfl (by simp [C96Example.prob, val]) (by simp [C96Example.prob, val])) (add_le_add le_rfl ?_)
  have hp := one_add_pow_mul (x := 84 * 2⁻¹ ^ 53) 4003 (by norm_num) (by norm_num)
  have hp0 : (1 : ℝ) ≤ (1 + 84 * 2⁻¹ ^ 53) ^ 4003 := one_le_pow₀ (by norm_num)
  unfold statD dl
  rw [e, show C96Example.prob.CE.length = 1 from rfl, show 1 * (1 + 2 + 1000 * (1 + 3)) = 4003 by norm_num]
  generalize (1 + 84 * (2⁻¹ : ℝ) ^ 53) ^ 4003 = p at *
  have hp1 : p ≤ 1.1 := by
    norm_num at hp ⊢
    linarith
  clear hp
  norm_num
  linarith

end Verif
