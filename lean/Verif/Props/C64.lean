import Verif.Lemmas.EndSolve
import Verif.Props.C48
import Verif.Props.C60
import Verif.Props.C63
import Verif.Model.Python

/-!
# C64: the end effector planner end to end
-/

namespace Verif
open Finset

theorem sum_range_three (K : ℕ) (f : ℕ → ℝ) :
    ∑ r ∈ range (3 * K), f r = ∑ a : Fin K, ∑ k : Fin 3, f (3 * a.val + k.val) := by
  rw [← Finset.sum_range (fun a => ∑ k : Fin 3, f (3 * a + k.val))]
  induction K with
  | zero => simp
  | succ K ih =>
    rw [sum_range_succ, ← ih, show 3 * (K + 1) = 3 * K + 1 + 1 + 1 by ring, sum_range_succ, sum_range_succ, sum_range_succ,
      Fin.sum_univ_three]
    simp
    ring

theorem blockH_entry {K : ℕ} (c : BlockCost K) (a b : Fin K) (k l : Fin 3) :
    c.H.e (3 * a.val + k.val) (3 * b.val + l.val) = if k = l then c.1 a b else 0 := by
  have h1 : (3 * a.val + k.val) / 3 = a.val := by omega
  have h2 : (3 * b.val + l.val) / 3 = b.val := by omega
  have h3 : (3 * a.val + k.val) % 3 = k.val := by omega
  have h4 : (3 * b.val + l.val) % 3 = l.val := by omega
  simp only [BlockCost.H, h1, h2, h3, h4, a.isLt, b.isLt, dif_pos, Fin.ext_iff, Fin.eta]

theorem blockg_entry {K : ℕ} (c : BlockCost K) (a : Fin K) (k : Fin 3) : c.g.e (3 * a.val + k.val) 0 = c.2 a k := by
  have h1 : (3 * a.val + k.val) / 3 = a.val := by omega
  have h3 : (3 * a.val + k.val) % 3 = k.val := by omega
  simp only [BlockCost.g, h1, h3, a.isLt, dif_pos, Fin.eta]
  fin_cases k <;> rfl

theorem blockH_form {K : ℕ} (c : BlockCost K) (y : ℕ → ℝ) :
    ∑ r ∈ range (3 * K), ∑ s ∈ range (3 * K), y r * c.H.e r s * y s
      = ∑ k : Fin 3, ∑ a, ∑ b, c.1 a b * (pointsOf y a.val k * pointsOf y b.val k) := by
  have e : ∀ (a : Fin K) (k : Fin 3), ∑ s ∈ range (3 * K), y (3 * a.val + k.val) * c.H.e (3 * a.val + k.val) s * y s
      = ∑ b, c.1 a b * (pointsOf y a.val k * pointsOf y b.val k) := by
    intro a k
    rw [sum_range_three]
    refine sum_congr rfl fun b _ => ?_
    simp only [blockH_entry, mul_ite, ite_mul, mul_zero, zero_mul]
    rw [Finset.sum_ite_eq univ k]
    simp only [mem_univ, if_true, pointsOf]
    ring
  rw [sum_range_three, sum_comm]
  exact sum_congr rfl fun k _ => sum_congr rfl fun a _ => e a k

theorem quadForm_blocks {K : ℕ} (c : BlockCost K) (y : ℕ → ℝ) :
    quadForm c.H c.g (3 * K) y = blockForm c.1 c.2 (pointsOf y) := by
  unfold quadForm
  rw [blockH_form, blockForm_axes, sum_add_distrib, ← mul_sum, sum_range_three, sum_comm (s := univ) (t := univ)]
  congr 2
  rw [sum_comm]
  refine sum_congr rfl fun k _ => sum_congr rfl fun a _ => ?_
  rw [blockg_entry]
  rfl

theorem blockH_posDef {K : ℕ} (c : BlockCost K) (h : AxisPos c.1) :
    Matrix.PosDef (fun i j : Fin c.g.rows => c.H.e i j : Matrix (Fin c.g.rows) (Fin c.g.rows) ℝ) := by
  change Matrix.PosDef (fun i j : Fin (3 * K) => c.H.e i j : Matrix (Fin (3 * K)) (Fin (3 * K)) ℝ)
  apply Matrix.PosDef.of_dotProduct_mulVec_pos
  · apply Matrix.ext
    intro i j
    change c.H.e j.val i.val = c.H.e i.val j.val
    simp only [BlockCost.H]
    have hi : i.val / 3 < K := by omega
    have hj : j.val / 3 < K := by omega
    simp only [hi, hj, dif_pos, h.1 ⟨j.val / 3, hj⟩, eq_comm (a := j.val % 3)]
  · intro x hx
    let y : ℕ → ℝ := fun r => if h : r < 3 * K then x ⟨r, h⟩ else 0
    have hy : ∀ i : Fin (3 * K), y i.val = x i := fun i => dif_pos i.isLt
    have e : star x ⬝ᵥ (Matrix.mulVec (fun i j : Fin (3 * K) => c.H.e i j : Matrix (Fin (3 * K)) (Fin (3 * K)) ℝ) x)
        = ∑ r ∈ range (3 * K), ∑ s ∈ range (3 * K), y r * c.H.e r s * y s := by
      rw [star_trivial, dotProduct, Finset.sum_range]
      refine sum_congr rfl fun i _ => ?_
      change x i * ∑ j : Fin (3 * K), c.H.e i.val j.val * x j = _
      rw [mul_sum, Finset.sum_range]
      refine sum_congr rfl fun j _ => ?_
      rw [hy, hy]; ring
    rw [e, blockH_form]
    obtain ⟨i, hi⟩ := Function.ne_iff.mp hx
    have h0 := h.nonneg
    refine Finset.sum_pos' (fun k _ => h0.2 fun a => pointsOf y a.val k) ⟨⟨i.val % 3, by omega⟩, mem_univ _, ?_⟩
    refine h.2 (fun a => pointsOf y a.val _) fun hz => hi ?_
    have := congrFun hz ⟨i.val / 3, by omega⟩
    simp only [pointsOf, Pi.zero_apply] at this
    rw [show 3 * (i.val / 3) + i.val % 3 = i.val by omega, hy] at this
    exact this

/-- The point whose coordinates are the given free points. -/
def coordsOf (X : ℕ → V3) : ℕ → ℝ := fun c => X (c / 3) ⟨c % 3, by omega⟩

theorem pointsOf_coordsOf (X : ℕ → V3) : pointsOf (coordsOf X) = X := by
  funext j k
  unfold pointsOf coordsOf
  have h1 : (3 * j + k.val) / 3 = j := by omega
  have h2 : (⟨(3 * j + k.val) % 3, by omega⟩ : Fin 3) = k := Fin.ext (show (3 * j + k.val) % 3 = k.val by omega)
  rw [h1, h2]

theorem endCost_pos (flag : Flag) (hf : flag ∈ effFlags) (d : BC) (path : ℝ → V3) (T w : ℝ) (hT : 0 < T) (h0 : 0 ≤ w)
    (h1 : w ≤ 1) (pi : List V3) (hl : pi.length = degreeOf flag + 1) :
    ∃ c, computeEndEffectorCost flag d path T w pi = .ok c ∧ AxisPos c.1 ∧
      ∃ S, computeVelocityCost flag d T pi = .ok ⟨dimVarPts flag, S⟩ ∧
      (w = 0 → c = S) ∧ (0 < w → ∃ R, computeDistanceCostFunctionPath flag d T 50 path = .ok R ∧
        ∀ X, blockForm c.1 c.2 X = (1 - w) * blockForm S.1 S.2 X + w * blockForm R.1 R.2 X) := by
  obtain ⟨S, hS, hSp⟩ := smooth_pos flag hf d T hT pi hl
  obtain ⟨R, hR, hRp⟩ := distance_pos flag hf d T path
  unfold computeEndEffectorCost endEffectorDistanceCost
  rw [if_pos ⟨h0, h1⟩, hS]
  have ha : asCost (dimVarPts flag) ⟨dimVarPts flag, S⟩ = .ok S := by simp [asCost]
  rcases h0.eq_or_lt with rfl | hw
  · rw [if_neg (lt_irrefl _)]
    simp only [Out.ok_bind, ha]
    refine ⟨_, rfl, ?_, S, rfl, fun _ => ?_, fun h => absurd h (lt_irrefl _)⟩
    · simpa using hSp
    · simp
  · rw [if_pos hw, hR]
    simp only [Out.ok_bind, ha]
    refine ⟨_, rfl, hSp.combine hRp w h0 h1, S, rfl, fun h => absurd h hw.ne', fun _ => ⟨R, rfl, fun X => ?_⟩⟩
    rw [blockForm_axes, blockForm_axes, blockForm_axes, mul_sum, mul_sum, ← sum_add_distrib]
    refine sum_congr rfl fun k _ => ?_
    rw [form_combine S.1 R.1 (1 - w) w fun a => X a.val k]
    have : ∑ a, ((1 - w) * S.2 a k + w * R.2 a k) * X a.val k = (1 - w) * ∑ a, S.2 a k * X a.val k + w * ∑ a, R.2 a k * X a.val k := by
      rw [mul_sum, mul_sum, ← sum_add_distrib]
      exact sum_congr rfl fun a _ => by ring
    rw [this]
    ring

/-- The free points satisfy the constraints of the end effector problem: the velocity, acceleration and jerk control points
that depend on them are between -10000 and 10000, and they are not lower than the lower end of the motion. -/
def EndOk (flag : Flag) (d : BC) (T : ℝ) (pi : List V3) (X : ℕ → V3) : Prop :=
  ∃ vel acc jerk, computeVelocityWaypoints flag d T pi = .ok vel ∧ computeAccelerationWaypoints flag d T pi = .ok acc ∧
    computeJerkWaypoints flag d T pi = .ok jerk ∧
    Within vel.2 (fun _ => 10000) (fun _ => 10000) X ∧ Within acc.2 (fun _ => 10000) (fun _ => 10000) X ∧
    Within jerk.2 (fun _ => 10000) (fun _ => 10000) X ∧ AboveEnds (dimVarPts flag) d.c0 d.c1 X

theorem endOk_iff (flag : Flag) (hf : flag ∈ effFlags) (d : BC) (T : ℝ) (pi : List V3) (hl : pi.length = degreeOf flag + 1) :
    ∃ A b, computeEndEffectorConstraints flag d T pi = .ok (A, b) ∧ A.cols = 3 * dimVarPts flag ∧ b.rows = A.rows ∧ b.cols = 1 ∧
      ∀ y, Sat A b y ↔ EndOk flag d T pi (pointsOf y) := by
  obtain ⟨vel, acc, jerk, A, b, h1, h2, h3, h4, h5, h6, h7, h8⟩ := C48_end_effector flag hf d T pi hl
  refine ⟨A, b, h4, h5, h6, h7, fun y => ?_⟩
  rw [h8]
  constructor
  · rintro ⟨k1, k2, k3, k4⟩
    exact ⟨vel, acc, jerk, h1, h2, h3, k2, k1, k3, k4⟩
  · rintro ⟨vel', acc', jerk', e1, e2, e3, k1, k2, k3, k4⟩
    rw [h1] at e1; rw [h2] at e2; rw [h3] at e3
    obtain rfl := Out.ok.inj e1
    obtain rfl := Out.ok.inj e2
    obtain rfl := Out.ok.inj e3
    exact ⟨k2, k1, k3, k4⟩

/-- C64. `solveEndEffector` in exact arithmetic, for each of the three sets, each positive duration, each weight between 0
and 1 and whatever the contents of the uninitialised initial guess: it returns. When it succeeds, the curve meets the
boundary conditions, its free points satisfy the constraints and their cost is the least possible. When it does not, the
result is the default one and no free points satisfy the constraints, or the iteration limit is small. -/
theorem C64_solves (lib : Lib) (hL : LibOk lib) (he : lib.eps = 0) (flag : Flag) (hf : flag ∈ effFlags) (d : BC)
    (path : ℝ → V3) (T w : ℝ) (hT : 0 < T) (h0 : 0 ≤ w) (h1 : w ≤ 1) (init : List ℝ) :
    ∃ pi A b c r N, computeConstantWaypoints flag d T = .ok pi ∧ computeEndEffectorConstraints flag d T pi = .ok (A, b) ∧
      computeEndEffectorCost flag d path T w pi = .ok c ∧
      (∀ fuel ≥ N, solveEndEffector lib fuel flag d path T w init = .ok r) ∧
      (r.success = true →
        ∃ X, r.c_of_t.T = T ∧ r.c_of_t.eval = curve (degreeOf flag) (fillMany flag (nth pi) X) T ∧
          MeetsBoundary flag d r.c_of_t.eval T ∧ EndOk flag d T pi X ∧
          ∀ X', EndOk flag d T pi X' → blockForm c.1 c.2 X ≤ blockForm c.1 c.2 X') ∧
      (r.success = false → r = ResultDataCOMTraj.default ∧ (lib.maxIter ≤ 2 ^ A.rows ∨ ∀ X, ¬ EndOk flag d T pi X)) := by
  obtain ⟨pi, hpi, hl⟩ := effPts flag hf d T
  obtain ⟨A, b, hA, hc, hb, hb1, hS⟩ := endOk_iff flag hf d T pi hl
  obtain ⟨c, hcost, hpos, -⟩ := endCost_pos flag hf d path T w hT h0 h1 pi hl
  have hfit : Fits A b { rows := 0, cols := A.cols, e := fun _ _ => 0 } { rows := 0, cols := 1, e := fun _ _ => 0 } c.H c.g :=
    ⟨⟨rfl, rfl⟩, ⟨hb, hb1, hc⟩, ⟨rfl, hc⟩⟩
  obtain ⟨q, N, hrun, hlen, hok, hfail⟩ := solve_exact lib hL he hfit [] init (Or.inl rfl) (blockH_posDef c hpos) (Nat.zero_le _)
  have hg : c.g.rows = 3 * dimVarPts flag := rfl
  obtain ⟨r, hr⟩ : ∃ r, endEffectorResult flag d T q = .ok r := by
    unfold endEffectorResult
    split
    · obtain ⟨cu, hcu⟩ := C50_curve_exists flag hf d T hT q.x (hlen.trans hg)
      rw [hcu, Out.ok_bind]
      exact ⟨_, rfl⟩
    · exact ⟨_, rfl⟩
  have hall : ∀ fuel ≥ N, solveEndEffector lib fuel flag d path T w init = .ok r := by
    intro fuel hfu
    unfold solveEndEffector
    rw [hpi, Out.ok_bind, hA, Out.ok_bind, hcost, Out.ok_bind, hrun fuel hfu, Out.ok_bind, hr]
  obtain ⟨k1, k2⟩ := C50_result lib N flag hf d path T w init r (hall N le_rfl)
  have hsx : r.success = q.success ∧ (q.success = true → r.x = q.x) := by
    unfold endEffectorResult at hr
    cases hq : q.success with
    | true =>
      rw [if_pos hq] at hr
      obtain ⟨cu, -, hr⟩ := Out.bind_eq_ok.mp hr
      obtain rfl := Out.ok.inj hr
      exact ⟨rfl, fun _ => rfl⟩
    | false =>
      rw [if_neg (by simp [hq])] at hr
      obtain rfl := Out.ok.inj hr
      exact ⟨rfl, fun h => (by cases h)⟩
  refine ⟨pi, A, b, c, r, N, hpi, hA, hcost, hall, fun hs => ?_, fun hs => ⟨k2 hs, ?_⟩⟩
  · obtain ⟨-, -, t1, pi', e1, t2, t3⟩ := k1 hs
    rw [hpi] at e1
    obtain rfl := Out.ok.inj e1
    have hq : q.success = true := hsx.1 ▸ hs
    rw [hsx.2 hq] at t2
    obtain ⟨u1, -, u2⟩ := hok hq
    refine ⟨pointsOf (unk q.x), t1, t2, t3, (hS _).mp ((allSat_iff rfl _).mp u1), fun X' hX' => ?_⟩
    have := u2 (coordsOf X') ((allSat_iff rfl _).mpr ((hS _).mpr (by rw [pointsOf_coordsOf]; exact hX')))
    rw [hg, quadForm_blocks, quadForm_blocks, pointsOf_coordsOf] at this
    exact this
  · rcases hfail (hsx.1 ▸ hs) with h | h | ⟨i, hi, -⟩
    · left; simpa using h
    · right
      intro X hX
      exact h (coordsOf X) ((allSat_iff rfl _).mpr ((hS _).mpr (by rw [pointsOf_coordsOf]; exact hX)))
    · exact absurd hi (Nat.not_lt_zero _)

theorem curve_heights {flag : Flag} (hf : flag ∈ effFlags) {pi : List V3} {X : ℕ → V3} {T m : ℝ} (hT : 0 < T)
    (hX : ∀ j < dimVarPts flag, m ≤ X j 2) (hc : ∀ i ≤ degreeOf flag, i ∉ freeSlots flag → m ≤ nth pi i 2) (s : ℝ)
    (h0 : 0 ≤ s) (h1 : s ≤ T) : m ≤ curve (degreeOf flag) (fillMany flag (nth pi) X) T s 2 := by
  have hp : ∀ i ≤ degreeOf flag, m ≤ fillMany flag (nth pi) X i 2 := by
    intro i hi
    unfold fillMany
    split
    · rename_i hm
      refine hX _ ?_
      simp only [effFlags, List.mem_cons, List.not_mem_nil, or_false] at hf
      have d1 : dimVarPts 255#32 = 1 := by decide
      have d2 : dimVarPts 767#32 = 3 := by decide
      have d3 : dimVarPts 2303#32 = 5 := by decide
      rcases hf with rfl | rfl | rfl <;> simp [freeSlots] at hm ⊢ <;> omega
    · exact hc i hi (by assumption)
  have := bez_le (n := degreeOf flag) (p := fun i => -fillMany flag (nth pi) X i 2) (b := -m) (t := s / T) (by positivity)
    ((div_le_one hT).mpr h1) fun i hi => neg_le_neg (hp i hi)
  have e : bez (degreeOf flag) (fun i => -fillMany flag (nth pi) X i 2) (s / T)
      = -bez (degreeOf flag) (fun i => fillMany flag (nth pi) X i 2) (s / T) := by
    unfold bez
    rw [← Finset.sum_neg_distrib]
    exact Finset.sum_congr rfl fun i _ => by simp
  unfold curve
  rw [bez_apply]
  linarith

/-- C64, what a success says of the motion: at every instant its velocity and its jerk are within 10000 in each coordinate,
as soon as the control points that are imposed by the boundary conditions are; and it is never lower than the lower end,
as soon as the imposed control points of the curve are not. -/
theorem C64_motion (lib : Lib) (hL : LibOk lib) (he : lib.eps = 0) (flag : Flag) (hf : flag ∈ effFlags) (d : BC)
    (path : ℝ → V3) (T w : ℝ) (hT : 0 < T) (h0 : 0 ≤ w) (h1 : w ≤ 1) (init : List ℝ) :
    ∃ pi vel jerk r N, computeConstantWaypoints flag d T = .ok pi ∧ computeVelocityWaypoints flag d T pi = .ok vel ∧
      computeJerkWaypoints flag d T pi = .ok jerk ∧
      (∀ fuel ≥ N, solveEndEffector lib fuel flag d path T w init = .ok r) ∧
      (r.success = true → ∃ X v a j, r.c_of_t.eval = curve (degreeOf flag) (fillMany flag (nth pi) X) T ∧
        IsDeriv r.c_of_t.eval v ∧ IsDeriv v a ∧ IsDeriv a j ∧
        ((∀ p ∈ vel.2, ¬ Depends p → ∀ k, |p.at X k| ≤ 10000) → ∀ s, 0 ≤ s → s ≤ T → ∀ k, |v s k| ≤ 10000) ∧
        ((∀ p ∈ jerk.2, ¬ Depends p → ∀ k, |p.at X k| ≤ 10000) → ∀ s, 0 ≤ s → s ≤ T → ∀ k, |j s k| ≤ 10000) ∧
        ((∀ i ≤ degreeOf flag, i ∉ freeSlots flag → min (d.c0 2) (d.c1 2) ≤ nth pi i 2) →
          ∀ s, 0 ≤ s → s ≤ T → min (d.c0 2) (d.c1 2) ≤ r.c_of_t.eval s 2)) := by
  obtain ⟨pi, A, b, c, r, N, hpi, hA, -, hr, hok, -⟩ := C64_solves lib hL he flag hf d path T w hT h0 h1 init
  obtain ⟨pi', hpi', hl⟩ := effPts flag hf d T
  rw [hpi] at hpi'
  obtain rfl := Out.ok.inj hpi'
  obtain ⟨vel, jerk, A', b', e1, e2, e3, hm⟩ := C48_motion_bounds flag hf d T hT pi hl
  obtain ⟨A'', b'', e4, -, -, -, hS⟩ := endOk_iff flag hf d T pi hl
  rw [e3] at e4
  obtain ⟨rfl, rfl⟩ := Prod.mk.inj (Out.ok.inj e4)
  refine ⟨pi, vel, jerk, r, N, hpi, e1, e2, hr, fun hs => ?_⟩
  obtain ⟨X, -, hX, -, hE, -⟩ := hok hs
  obtain ⟨v, a, j, d1, d2, d3, hv, hj⟩ := hm (coordsOf X) ((hS _).mpr (by rw [pointsOf_coordsOf]; exact hE))
  rw [pointsOf_coordsOf] at d1 hv hj
  refine ⟨X, v, a, j, hX, hX ▸ d1, d2, d3, hv, hj, fun hc s s0 s1 => ?_⟩
  obtain ⟨-, -, -, -, -, -, -, -, -, hab⟩ := hE
  rw [hX]
  exact curve_heights hf hT hab hc s s0 s1

/-- C64 for `computeEndEffector` of the Python module, which gives the path no weight. When it succeeds, the integral of the
squared velocity of the curve is the least among the curves that satisfy the boundary conditions and the constraints, up to
the precision of the decimals in the cost. -/
theorem C64_least_velocity (lib : Lib) (hL : LibOk lib) (he : lib.eps = 0) (flag : Flag) (hf : flag ∈ effFlags) (d : BC)
    (T : ℝ) (hT : 0 < T) (init : List ℝ) :
    ∃ pi r N, computeConstantWaypoints flag d T = .ok pi ∧
      (∀ fuel ≥ N, computeEndEffector lib fuel flag d T init = .ok r) ∧
      (r.success = true →
        ∃ X, r.c_of_t.T = T ∧ r.c_of_t.eval = curve (degreeOf flag) (fillMany flag (nth pi) X) T ∧
          MeetsBoundary flag d r.c_of_t.eval T ∧ EndOk flag d T pi X ∧
          ∀ X', EndOk flag d T pi X' → ∀ v v', IsDeriv r.c_of_t.eval v →
            IsDeriv (curve (degreeOf flag) (fillMany flag (nth pi) X') T) v' →
            ∫ t in (0 : ℝ)..T, sq3 (v t) ≤ (∫ t in (0 : ℝ)..T, sq3 (v' t))
              + velTol flag / T * ((∑ i ∈ range (degreeOf flag + 1), sq3 (fillMany flag (nth pi) X i))
                + ∑ i ∈ range (degreeOf flag + 1), sq3 (fillMany flag (nth pi) X' i))) := by
  obtain ⟨pi, A, b, c, r, N, hpi, -, hc, hr, hok, -⟩ := C64_solves lib hL he flag hf d (fun _ => 0) T 0 hT le_rfl zero_le_one init
  obtain ⟨pi', hpi', hl⟩ := effPts flag hf d T
  rw [hpi] at hpi'
  obtain rfl := Out.ok.inj hpi'
  refine ⟨pi, r, N, hpi, hr, fun hs => ?_⟩
  obtain ⟨X, h1, h2, h3, h4, h5⟩ := hok hs
  refine ⟨X, h1, h2, h3, h4, fun X' hX' v v' hv hv' => ?_⟩
  obtain ⟨c', hc', -, S, hS, hSc, -⟩ := endCost_pos flag hf d (fun _ => 0) T 0 hT le_rfl zero_le_one pi hl
  rw [hc] at hc'
  obtain rfl := Out.ok.inj hc'
  obtain rfl := hSc rfl
  obtain ⟨c2, hc2, -, s, hs0, C, hC⟩ := C63_velocity_cost flag hf d T hT pi hl
  rw [hS] at hc2
  obtain rfl := Out.ok.inj hc2
  rw [h2] at hv
  have k1 := abs_le.mp (hC X v hv)
  have k2 := abs_le.mp (hC X' v' hv')
  have k3 := h5 X' hX'
  refine le_of_mul_le_mul_left ?_ hs0
  rw [mul_add, mul_add (velTol flag / T), mul_add]
  have e1 : ∀ u : ℝ, s * (velTol flag / T * u) = velTol flag * s / T * u := fun u => by ring
  rw [e1, e1]
  dsimp only at k1 k2
  linarith [k1.1, k2.2]

/-- C64 applies: the motion of one metre along x in one second satisfies the constraints with its middle point half way, so
the planner succeeds when the iteration limit is large. -/
theorem C64_unitMove : ∃ M, ∀ maxIter ≥ M, ∀ init, ∃ r N,
    (∀ fuel ≥ N, computeEndEffector (exactLib maxIter) fuel 255#32 unitMove 1 init = .ok r) ∧ r.success = true := by
  obtain ⟨pi, p1, p2, p3, p4⟩ := unitMove_pts
  obtain ⟨A, b, hA, -⟩ := endOk_iff 255#32 (by decide) unitMove 1 pi (by simpa [degreeOf] using p2)
  refine ⟨2 ^ A.rows + 1, fun maxIter hm init => ?_⟩
  obtain ⟨pi', A', b', c, r, N, h1, h2, -, h3, -, h4⟩ := C64_solves (exactLib maxIter) (exactLib_ok maxIter) rfl 255#32 (by decide)
    unitMove (fun _ => 0) 1 0 one_pos le_rfl zero_le_one init
  rw [p1] at h1
  obtain rfl := Out.ok.inj h1
  rw [hA] at h2
  obtain ⟨rfl, rfl⟩ := Prod.mk.inj (Out.ok.inj h2)
  refine ⟨r, N, h3, ?_⟩
  by_contra hs
  rcases (h4 (by simpa using hs)).2 with h | h
  · have : maxIter ≤ 2 ^ A.rows := h
    omega
  · refine h (xPt (1 / 2)) ⟨_, _, _, by simp [computeVelocityWaypoints, p2]; rfl, by simp [computeAccelerationWaypoints, p2]; rfl,
      by simp [computeJerkWaypoints, p2]; rfl, ?_, ?_, ?_, ?_⟩
    · intro w hw _ k
      simp only [c0_dc0_ddc0_j0_j1_ddc1_dc1_c1.computeVelocityWaypoints, List.mem_cons, List.not_mem_nil, or_false] at hw
      have q0 := p3 0 (by norm_num)
      have q1 := p3 1 (by norm_num)
      have q2 := p3 2 (by norm_num)
      have q3 := p3 3 (by norm_num)
      have q5 := p4 5 (by norm_num) (by norm_num)
      have q6 := p4 6 (by norm_num) (by norm_num)
      have q7 := p4 7 (by norm_num) (by norm_num)
      have q8 := p4 8 (by norm_num) (by norm_num)
      rcases hw with rfl | rfl | rfl | rfl | rfl | rfl | rfl | rfl <;> fin_cases k <;>
        norm_num [WpB.at, xPt, q0, q1, q2, q3, q5, q6, q7, q8]
    · intro w hw _ k
      simp only [c0_dc0_ddc0_j0_j1_ddc1_dc1_c1.computeAccelerationWaypoints, List.mem_cons, List.not_mem_nil, or_false] at hw
      have q0 := p3 0 (by norm_num)
      have q1 := p3 1 (by norm_num)
      have q2 := p3 2 (by norm_num)
      have q3 := p3 3 (by norm_num)
      have q5 := p4 5 (by norm_num) (by norm_num)
      have q6 := p4 6 (by norm_num) (by norm_num)
      have q7 := p4 7 (by norm_num) (by norm_num)
      have q8 := p4 8 (by norm_num) (by norm_num)
      rcases hw with rfl | rfl | rfl | rfl | rfl | rfl | rfl <;> fin_cases k <;>
        norm_num [WpB.at, xPt, q0, q1, q2, q3, q5, q6, q7, q8]
    · intro w hw _ k
      simp only [c0_dc0_ddc0_j0_j1_ddc1_dc1_c1.computeJerkWaypoints, List.mem_cons, List.not_mem_nil, or_false] at hw
      have q0 := p3 0 (by norm_num)
      have q1 := p3 1 (by norm_num)
      have q2 := p3 2 (by norm_num)
      have q3 := p3 3 (by norm_num)
      have q5 := p4 5 (by norm_num) (by norm_num)
      have q6 := p4 6 (by norm_num) (by norm_num)
      have q7 := p4 7 (by norm_num) (by norm_num)
      have q8 := p4 8 (by norm_num) (by norm_num)
      rcases hw with rfl | rfl | rfl | rfl | rfl | rfl <;> fin_cases k <;>
        norm_num [WpB.at, xPt, q0, q1, q2, q3, q5, q6, q7, q8]
    · intro j hj
      simp [unitMove, xPt]

end Verif
