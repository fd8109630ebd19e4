import Verif.Props.C94Exact

/-!
# C94: arithmetic with a rounding function, double precision

`RowFns.ofFl fl` computes every number by applying `fl` to the result of every operation, sums from left to right.
-/

namespace Verif
open FExp Matrix

/-! ## Sums and products -/

/-- A sum from left to right. -/
noncomputable def sumFl (fl : ℝ → ℝ) : List ℝ → ℝ
  | [] => 0
  | [a] => a
  | a :: b :: l => sumFl fl (fl (a + b) :: l)
  termination_by l => l.length

theorem abs_sum_le_sum_abs (l : List ℝ) : |l.sum| ≤ (l.map abs).sum := by
  induction l with
  | nil => simp
  | cons a l ih => simp only [List.sum_cons, List.map_cons]; exact (abs_add_le _ _).trans (by linarith)

theorem sumFl_err {fl : ℝ → ℝ} {u : ℝ} (hu : 0 ≤ u) (h : Rounding fl u) : ∀ (n : ℕ) (l : List ℝ), l.length ≤ n + 1 →
    |sumFl fl l - l.sum| ≤ ((1 + u) ^ n - 1) * (l.map abs).sum := by
  intro n
  induction n with
  | zero =>
    intro l hl
    match l, hl with
    | [], _ => simp [sumFl]
    | [a], _ => simp [sumFl]
  | succ n ih =>
    intro l hl
    match l, hl with
    | [], _ => simp [sumFl]
    | [a], _ =>
      simp only [sumFl, List.sum_cons, List.sum_nil, add_zero, sub_self, abs_zero, List.map_cons, List.map_nil]
      exact mul_nonneg (pow_one_add_nonneg _ hu) (abs_nonneg _)
    | a :: b :: l, hl =>
      have h1 := ih (fl (a + b) :: l) (by simp at hl ⊢; omega)
      have h2 := h (a + b)
      have h3 : |a + b| ≤ |a| + |b| := abs_add_le _ _
      have hp : 1 ≤ (1 + u) ^ n := one_le_pow₀ (by linarith)
      rw [sumFl]
      simp only [List.sum_cons, List.map_cons] at h1 ⊢
      set S := (l.map abs).sum
      have hS : 0 ≤ S := List.sum_nonneg (by intro x hx; obtain ⟨y, -, rfl⟩ := List.mem_map.mp hx; exact abs_nonneg _)
      have h4 : |fl (a + b)| ≤ (1 + u) * (|a| + |b|) := by
        have : |fl (a + b)| ≤ |fl (a + b) - (a + b)| + |a + b| := by simpa using abs_add_le (fl (a + b) - (a + b)) (a + b)
        nlinarith [abs_nonneg (a + b)]
      have h5 : |sumFl fl (fl (a + b) :: l) - (a + (b + l.sum))| ≤ |sumFl fl (fl (a + b) :: l) - (fl (a + b) + l.sum)| + |fl (a + b) - (a + b)| := by
        have := abs_add_le (sumFl fl (fl (a + b) :: l) - (fl (a + b) + l.sum)) (fl (a + b) - (a + b))
        rw [show sumFl fl (fl (a + b) :: l) - (fl (a + b) + l.sum) + (fl (a + b) - (a + b)) = sumFl fl (fl (a + b) :: l) - (a + (b + l.sum)) by ring] at this
        exact this
      have hq : 0 ≤ |a| + |b| := by positivity
      rw [pow_succ]
      have k1 : ((1 + u) ^ n - 1) * |fl (a + b)| ≤ ((1 + u) ^ n - 1) * ((1 + u) * (|a| + |b|)) := mul_le_mul_of_nonneg_left h4 (by linarith)
      have k2 : u * |a + b| ≤ u * (|a| + |b|) := mul_le_mul_of_nonneg_left h3 hu
      have k3 : 0 ≤ (1 + u) ^ n * u * S := by positivity
      nlinarith

/-- The sum of products, from left to right. -/
noncomputable def dotFl (fl : ℝ → ℝ) {n : ℕ} (x : Fin n → ℝ) : ℝ := sumFl fl (List.ofFn fun i => fl (x i))

theorem sumTo_comp {u a : ℝ} (hu : 0 ≤ u) (n : ℕ) {k : ℕ} {x y : Fin k → ℝ} (hy : ∀ i, |y i - x i| ≤ u * |x i|)
    (h : |a - ∑ i, y i| ≤ ((1 + u) ^ n - 1) * ∑ i, |y i|) : SumTo (n + 1) u x a := by
  unfold SumTo
  have h1 : |∑ i, y i - ∑ i, x i| ≤ u * ∑ i, |x i| := by
    rw [← Finset.sum_sub_distrib, Finset.mul_sum]
    exact (Finset.abs_sum_le_sum_abs _ _).trans (Finset.sum_le_sum fun i _ => hy i)
  have h2 : ∑ i, |y i| ≤ (1 + u) * ∑ i, |x i| := by
    rw [Finset.mul_sum]
    refine Finset.sum_le_sum fun i _ => ?_
    have := abs_add_le (y i - x i) (x i)
    rw [sub_add_cancel] at this
    linarith [hy i]
  have h3 := abs_add_le (a - ∑ i, y i) (∑ i, y i - ∑ i, x i)
  rw [sub_add_sub_cancel] at h3
  have h4 := mul_le_mul_of_nonneg_left h2 (pow_one_add_nonneg n hu)
  rw [pow_succ]
  nlinarith

theorem dotFl_rounded {fl : ℝ → ℝ} {u : ℝ} (hu : 0 ≤ u) (h : Rounding fl u) (n : ℕ) (x : Fin (n + 1) → ℝ) : SumTo (n + 1) u x (dotFl fl x) := by
  have h1 := sumFl_err hu h n (List.ofFn fun i => fl (x i)) (by simp)
  rw [List.map_ofFn, List.sum_ofFn, List.sum_ofFn] at h1
  exact sumTo_comp hu n (fun i => h (x i)) h1

/-- One more term. -/
theorem sumTo_cons {fl : ℝ → ℝ} {u : ℝ} (hu : 0 ≤ u) (h : Rounding fl u) (a : ℝ) {k n : ℕ} {x : Fin k → ℝ} {z : ℝ} (hz : SumTo n u x z) :
    SumTo (n + 1) u (Fin.cons a x : Fin (k + 1) → ℝ) (fl (a + z)) := by
  unfold SumTo at *
  simp only [Fin.sum_univ_succ, Fin.cons_zero, Fin.cons_succ]
  have hp : 1 ≤ (1 + u) ^ n := one_le_pow₀ (by linarith)
  have hS : |∑ i, x i| ≤ ∑ i, |x i| := Finset.abs_sum_le_sum_abs _ _
  set S := ∑ i, |x i|
  have hS0 : 0 ≤ S := Finset.sum_nonneg fun i _ => abs_nonneg _
  have h1 := h (a + z)
  have h2 := abs_add_le (fl (a + z) - (a + z)) (z - ∑ i, x i)
  rw [show fl (a + z) - (a + z) + (z - ∑ i, x i) = fl (a + z) - (a + ∑ i, x i) by ring] at h2
  have h3 : |a + z| ≤ |a| + |z| := abs_add_le _ _
  have h4 := abs_add_le (z - ∑ i, x i) (∑ i, x i)
  rw [sub_add_cancel] at h4
  have h5 : |z| ≤ (1 + u) ^ n * S := by linarith
  have h6 : u * |a + z| ≤ u * (|a| + (1 + u) ^ n * S) := mul_le_mul_of_nonneg_left (by linarith) hu
  have h7 : u * |a| ≤ ((1 + u) ^ n * (1 + u) - 1) * |a| := mul_le_mul_of_nonneg_right (by nlinarith) (abs_nonneg a)
  rw [pow_succ]
  nlinarith

/-! ## Bernstein polynomials -/

theorem RelTo.mul {u x y r s : ℝ} (hu : 0 ≤ u) {k l : ℕ} (h1 : RelTo k u x r) (h2 : RelTo l u y s) : RelTo (k + l) u (x * y) (r * s) := by
  unfold RelTo at *
  have hk := pow_one_add_nonneg k hu
  have hl := pow_one_add_nonneg l hu
  rw [show r * s - x * y = (r - x) * (s - y) + (r - x) * y + x * (s - y) by ring, abs_mul x y, pow_add]
  have t1 : |(r - x) * (s - y)| ≤ (((1 + u) ^ k - 1) * |x|) * (((1 + u) ^ l - 1) * |y|) := by
    rw [abs_mul]; exact mul_le_mul h1 h2 (abs_nonneg _) (mul_nonneg hk (abs_nonneg _))
  have t2 : |(r - x) * y| ≤ (((1 + u) ^ k - 1) * |x|) * |y| := by rw [abs_mul]; exact mul_le_mul_of_nonneg_right h1 (abs_nonneg _)
  have t3 : |x * (s - y)| ≤ |x| * (((1 + u) ^ l - 1) * |y|) := by rw [abs_mul]; exact mul_le_mul_of_nonneg_left h2 (abs_nonneg _)
  have t4 := abs_add_le ((r - x) * (s - y) + (r - x) * y) (x * (s - y))
  have t5 := abs_add_le ((r - x) * (s - y)) ((r - x) * y)
  nlinarith

theorem RelTo.round {fl : ℝ → ℝ} {u x r : ℝ} (hu : 0 ≤ u) (h : Rounding fl u) {k : ℕ} (h1 : RelTo k u x r) : RelTo (k + 1) u x (fl r) := by
  unfold RelTo at *
  have h2 := h r
  have h3 := abs_add_le (fl r - r) (r - x)
  rw [sub_add_sub_cancel] at h3
  have h4 := abs_add_le (r - x) x
  rw [sub_add_cancel] at h4
  have h5 : u * |r| ≤ u * ((1 + u) ^ k * |x|) := mul_le_mul_of_nonneg_left (by linarith) hu
  rw [pow_succ]
  nlinarith

theorem RelTo.mono {u x r : ℝ} (hu : 0 ≤ u) {k l : ℕ} (h : RelTo k u x r) (hkl : k ≤ l) : RelTo l u x r := by
  unfold RelTo at *
  exact h.trans (mul_le_mul_of_nonneg_right (by linarith [pow_le_pow_right₀ (show 1 ≤ 1 + u by linarith) hkl]) (abs_nonneg _))

/-- A power, by repeated products. -/
noncomputable def powFl (fl : ℝ → ℝ) (x : ℝ) : ℕ → ℝ
  | 0 => 1
  | n + 1 => fl (powFl fl x n * x)

theorem powFl_rel {fl : ℝ → ℝ} {u : ℝ} (hu : 0 ≤ u) (h : Rounding fl u) {k : ℕ} {x r : ℝ} (hx : RelTo k u x r) (n : ℕ) :
    RelTo (n * (k + 1)) u (x ^ n) (powFl fl r n) := by
  induction n with
  | zero => simpa [powFl] using relTo_self hu 0 1
  | succ n ih =>
    rw [pow_succ, powFl]
    refine ((ih.mul hu hx).round hu h).mono hu (le_of_eq ?_)
    ring

/-- `Bern::operator()` of ndcurves: `bin_m_i * pow(u, i) * pow(1 - u, m_minus_i)`. -/
noncomputable def bernFl (fl : ℝ → ℝ) (b : Bern) (s : ℝ) : ℝ := fl (fl ((b.m.choose b.i : ℝ) * powFl fl s b.i) * powFl fl (fl (1 - s)) (b.m - b.i))

theorem bernFl_rel {fl : ℝ → ℝ} {u : ℝ} (hu : 0 ≤ u) (h : Rounding fl u) (b : Bern) (hi : b.i ≤ b.m) (hm : b.m ≤ 31) (s : ℝ) :
    RelTo 64 u (b.eval s) (bernFl fl b s) := by
  have h1 := powFl_rel hu h (relTo_self hu 0 s) b.i
  have h2 := powFl_rel hu h ((relTo_self hu 0 (1 - s)).round hu h) (b.m - b.i)
  exact (((((relTo_self hu 0 (b.m.choose b.i : ℝ)).mul hu h1).round hu h).mul hu h2).round hu h).mono hu (by omega)

/-! ## Waypoints, positions and accelerations -/

section
variable (fl : ℝ → ℝ)

/-- Waypoints. -/
noncomputable def ptsFl (flag : Flag) (d : BC) (T : ℝ) : List V3 :=
  match pointsFp flag with
  | some es => roundedPoints fl es (env d 0 0 T 0)
  | none => []

/-- Coefficients of the position. -/
noncomputable def curveFl (flag : Flag) (pts : List V3) (t : ℝ) : Coefs :=
  match curveFp flag with
  | some (_, es) => roundedCoefs fl es (env ⟨0, 0, 0, 0, 0, 0, 0, 0⟩ (nth pts) 0 0 t)
  | none => ⟨0, 0⟩

/-- Coefficients of the acceleration. -/
noncomputable def accelerationFl (flag : Flag) (pts : List V3) (T t : ℝ) : Coefs :=
  match accelerationFp flag with
  | some (_, es) => roundedCoefs fl es (env ⟨0, 0, 0, 0, 0, 0, 0, 0⟩ (nth pts) 0 T t)
  | none => ⟨0, 0⟩

/-- A wrench waypoint. -/
noncomputable def FWp6.evalFl (ρ : Var → ℝ) (w : FWp6) : Wp6 :=
  ⟨fun i j => (w.top.e i j).eval fl ρ, fun i j => (w.bot.e i j).eval fl ρ, fun i => (w.head.e i).eval fl ρ, fun i => (w.tail.e i).eval fl ρ⟩

/-- The wrench waypoints. -/
noncomputable def wsFl (flag : Flag) (pts : List V3) (g : V3) (T : ℝ) : List Wp6 :=
  ((wwaypointsFp flag).getD []).map (FWp6.evalFl fl (env ⟨0, 0, 0, 0, 0, 0, 0, 0⟩ (nth pts) g T 0))

/-- `t / T`, at most one. -/
noncomputable def timeFl (t T : ℝ) : ℝ := min (fl (t / T)) 1

/-- `a += b * p`. -/
noncomputable def accFl : List (ℝ × ℝ) → ℝ → ℝ
  | [], a => a
  | (b, p) :: l, a => accFl l (fl (a + fl (b * p)))

/-- The wrench at one sample. -/
noncomputable def wFl (ws : List Wp6) (s : ℝ) : Wp6 :=
  let bs := (List.range ws.length).map fun i => bernFl fl ⟨ws.length - 1, i⟩ s
  let f := fun p : Wp6 → ℝ => accFl fl (List.zipWith (fun b w => (b, p w)) bs ws) 0
  ⟨fun i j => f fun w => w.top i j, fun i j => f fun w => w.bot i j, fun i => f fun w => w.head i, fun i => f fun w => w.tail i⟩

/-! ## Rows -/

/-- A row of `updateH`. -/
noncomputable def hRowFl (m ρ : ℝ) (r : (V3 × V3) × ℝ) : (V3 × V3) × ℝ :=
  let y : Fin 6 → ℝ := fun i => fl (-(six r.1 i * m))
  let n := fl (Real.sqrt (dotFl fl fun i => y i * y i))
  (((fun k => fl (fl (-(r.1.1 k * m)) / n)), (fun k => fl (fl (-(r.1.2 k * m)) / n))), if 0 < ρ then fl (r.2 - ρ) else r.2)

/-- A row of the stability constraints before it is normalised. -/
noncomputable def rawRowFl (g : V3) (w : Wp6) (r : (V3 × V3) × ℝ) : V3 × ℝ :=
  (fun j => dotFl fl fun i => six r.1 i * w.mat i j, fl (r.2 + dotFl fl fun i => six r.1 i * fl (six (g, 0) i - w.vec i)))

/-- A row divided by its norm. -/
noncomputable def normRowFl (r : V3 × ℝ) : V3 × ℝ :=
  let n := fl (Real.sqrt (dotFl fl fun i => r.1 i * r.1 i))
  (fun j => fl (r.1 j / n), fl (r.2 / n))

/-- `Normalize`. -/
noncomputable def normalizeFl (rows : List (V3 × ℝ)) : List (V3 × ℝ) :=
  match removeZeroRows rows with
  | (l, none) => l
  | (l, some k) => (l.take k).map (normRowFl fl) ++ l.drop k

/-- All numbers are computed with the rounding function `fl`. -/
noncomputable def RowFns.ofFl (pData : ProblemData) (g : V3) (T : ℝ) : RowFns where
  w t := .ok (wFl fl (wsFl fl pData.flag (ptsFl fl pData.flag pData.bc T) g T) (timeFl fl t T))
  co t := .ok (curveFl fl pData.flag (ptsFl fl pData.flag pData.bc T) (timeFl fl t T))
  ac t := .ok (accelerationFl fl pData.flag (ptsFl fl pData.flag pData.bc T) T (timeFl fl t T))
  updH ct :=
    match ct.contactPhase with
    | none => .ub
    | some e => if e.polyOk then .ok (e.poly.map (hRowFl fl e.mass pData.reduce_h)) else .assertFail
  stab H g w := normalizeFl fl (H.map (rawRowFl fl g w))
  kin ct co := (List.zip ct.Kin ct.kin).map fun q => (fun j => fl (q.1 j * co.first), fl (q.2 + -dotFl fl fun j => q.1 j * co.second j))
  acc co := (List.finRange 3).map (fun i => (co.first • unit3 i, fl (pData.maxAcceleration - co.second i))) ++
    (List.finRange 3).map (fun i => (-(co.first • unit3 i), fl (pData.maxAcceleration + co.second i)))
end

section
variable {fl : ℝ → ℝ} {u : ℝ}

theorem ptsFl_fp (h : Rounding fl u) {flag : Flag} (hf : flag ∈ comFlags) {d : BC} {T : ℝ} (hd : flag = 19#32 → d.dc1 = 0) :
    ConstantWaypointsFp u flag d T (ptsFl fl flag d T) ∧ (ptsFl fl flag d T).length = degreeOf flag + 1 := by
  simp only [comFlags, List.mem_cons, List.not_mem_nil, or_false] at hf
  rcases hf with rfl | rfl | rfl | rfl | rfl | rfl | rfl <;>
    exact ⟨roundedPoints_fp h _ d T _ rfl (by simpa using hd) (fun k => rfl), rfl⟩

theorem curveFl_fp (h : Rounding fl u) {flag : Flag} (hf : flag ∈ comFlags) {pts : List V3} (hl : pts.length = degreeOf flag + 1) (t : ℝ) :
    EvaluateCurveFp u flag pts t (curveFl fl flag pts t) := by
  simp only [comFlags, List.mem_cons, List.not_mem_nil, or_false] at hf
  rcases hf with rfl | rfl | rfl | rfl | rfl | rfl | rfl <;>
    exact ⟨_, _, rfl, by simp [hl, degreeOf], fun k d g T => ⟨computes_eval h (env d (nth pts) g T t) _, computes_eval h (env d (nth pts) g T t) _⟩⟩

theorem accelerationFl_fp (h : Rounding fl u) {flag : Flag} (hf : flag ∈ comFlags) {pts : List V3} (hl : pts.length = degreeOf flag + 1) (T t : ℝ) :
    EvaluateAccelerationFp u flag pts T t (accelerationFl fl flag pts T t) := by
  simp only [comFlags, List.mem_cons, List.not_mem_nil, or_false] at hf
  rcases hf with rfl | rfl | rfl | rfl | rfl | rfl | rfl <;>
    exact ⟨_, _, rfl, by simp [hl, degreeOf], fun k d g => ⟨computes_eval h (env d (nth pts) g T t) _, computes_eval h (env d (nth pts) g T t) _⟩⟩

/-- An expression with no variable but the waypoints, the gravity and the duration. -/
def FExp.wOnly : FExp → Bool
  | lit _ => true
  | dec _ => true
  | var (.pi _ _) => true
  | var (.g _) => true
  | var .T => true
  | var _ => false
  | neg a => a.wOnly
  | add a b => a.wOnly && b.wOnly
  | sub a b => a.wOnly && b.wOnly
  | mul a b => a.wOnly && b.wOnly
  | div a b => a.wOnly && b.wOnly

theorem eval_wOnly (d d' : BC) (p : ℕ → V3) (g : V3) (T t t' : ℝ) (e : FExp) (he : e.wOnly = true) : e.eval fl (env d p g T t) = e.eval fl (env d' p g T t') := by
  induction e with
  | lit n => rfl
  | dec q => rfl
  | var v => cases v <;> simp [wOnly] at he <;> rfl
  | neg a ih => simp only [wOnly] at he; simp only [FExp.eval, ih he]
  | add a b iha ihb => simp only [wOnly, Bool.and_eq_true] at he; simp only [FExp.eval, iha he.1, ihb he.2]
  | sub a b iha ihb => simp only [wOnly, Bool.and_eq_true] at he; simp only [FExp.eval, iha he.1, ihb he.2]
  | mul a b iha ihb => simp only [wOnly, Bool.and_eq_true] at he; simp only [FExp.eval, iha he.1, ihb he.2]
  | div a b iha ihb => simp only [wOnly, Bool.and_eq_true] at he; simp only [FExp.eval, iha he.1, ihb he.2]

theorem wrench_wOnly {flag : Flag} (hf : flag ∈ comFlags) {es : List FWp6} (h : wwaypointsFp flag = some es) :
    ∀ e ∈ es, ∀ i, (∀ j, (e.mat i j).wOnly = true) ∧ (e.vec i).wOnly = true := by
  have : (List.all ((wwaypointsFp flag).toList) fun es => es.all fun e => (List.finRange 6).all fun i =>
      ((List.finRange 3).all fun j => (e.mat i j).wOnly) && (e.vec i).wOnly) = true := by
    simp only [comFlags, List.mem_cons, List.not_mem_nil, or_false] at hf
    rcases hf with rfl | rfl | rfl | rfl | rfl | rfl | rfl <;> decide
  simp only [h, Option.toList_some, List.all_cons, List.all_nil, Bool.and_true, List.all_eq_true, List.mem_finRange, forall_true_left,
    Bool.and_eq_true] at this
  exact this

theorem evalFl_mat (ρ : Var → ℝ) (w : FWp6) (i : Fin 6) (j : Fin 3) : (w.evalFl fl ρ).mat i j = (w.mat i j).eval fl ρ := by
  fin_cases i <;> rfl

theorem evalFl_vec (ρ : Var → ℝ) (w : FWp6) (i : Fin 6) : (w.evalFl fl ρ).vec i = (w.vec i).eval fl ρ := by
  fin_cases i <;> rfl

theorem wsFl_fp (h : Rounding fl u) {flag : Flag} (hf : flag ∈ comFlags) (pts : List V3) (g : V3) (T : ℝ) :
    WwaypointsFp u flag pts g T (wsFl fl flag pts g T) ∧ (wsFl fl flag pts g T).length ≤ 12 := by
  obtain ⟨es, hes, hl⟩ : ∃ es, wwaypointsFp flag = some es ∧ es.length ≤ 12 := by
    simp only [comFlags, List.mem_cons, List.not_mem_nil, or_false] at hf
    rcases hf with rfl | rfl | rfl | rfl | rfl | rfl | rfl <;> exact ⟨_, rfl, by decide⟩
  have hw := wrench_wOnly hf hes
  unfold wsFl
  rw [hes, Option.getD_some, List.length_map]
  refine ⟨⟨es, hes, forall₂_map_self es fun e he i d t => ⟨fun j => ?_, ?_⟩⟩, hl⟩
  · rw [evalFl_mat, eval_wOnly _ d _ _ _ _ t _ ((hw e he i).1 j)]
    exact computes_eval h _ _
  · rw [evalFl_vec, eval_wOnly _ d _ _ _ _ t _ (hw e he i).2]
    exact computes_eval h _ _

theorem accFl_fp (h : Rounding fl u) (l : List (ℝ × ℝ)) : ∀ a, AccFp u l a (accFl fl l a) := by
  induction l with
  | nil => intro a; rfl
  | cons q l ih => intro a; exact ⟨_, _, h _, h _, ih _⟩

theorem wFl_fp (hu : 0 ≤ u) (h : Rounding fl u) {ws : List Wp6} (hl : ws.length ≤ 12) (s : ℝ) : WSumFp u ws s (wFl fl ws s) := by
  refine ⟨_, forall₂_map_self (f := fun i => bernFl fl ⟨ws.length - 1, i⟩ s) _ fun i hi => ?_, fun i => ⟨fun j => ?_, ?_⟩⟩
  · rw [List.mem_range] at hi
    exact bernFl_rel hu h _ (by show i ≤ ws.length - 1; omega) (by show ws.length - 1 ≤ 31; omega) s
  · fin_cases i <;> exact accFl_fp h _ 0
  · fin_cases i <;> exact accFl_fp h _ 0

theorem hRowFl_fp (hu : 0 ≤ u) (h : Rounding fl u) (m ρ : ℝ) (r : (V3 × V3) × ℝ) : UpdateHRowFp u m ρ r (hRowFl fl m ρ r) := by
  refine ⟨fun i => fl (-(six r.1 i * m)), _, _, fun i => h _, dotFl_rounded hu h 5 _, h _, fun i => ?_, ?_⟩
  · fin_cases i <;> exact h _
  · simp only [hRowFl]
    split_ifs
    · exact h _
    · rfl

theorem rawRowFl_fp (hu : 0 ≤ u) (h : Rounding fl u) (g : V3) (w : Wp6) (r : (V3 × V3) × ℝ) : StabRowFp u g w r (rawRowFl fl g w r) :=
  ⟨fun _ => dotFl_rounded hu h 5 _, _, fun _ => h _, sumTo_cons hu h _ (dotFl_rounded hu h 5 _)⟩

theorem normalizeFl_fp (hu : 0 ≤ u) (h : Rounding fl u) (rows : List (V3 × ℝ)) : NormalizeFp u rows (normalizeFl fl rows) := by
  unfold NormalizeFp normalizeFl
  generalize removeZeroRows rows = q
  obtain ⟨l, o⟩ := q
  cases o with
  | none => rfl
  | some k => exact ⟨_, forall₂_map_self (f := normRowFl fl) _ fun r _ => ⟨_, _, dotFl_rounded hu h 2 _, h _, fun j => h _, h _⟩, rfl⟩

/-- C94, non-vacuity: arithmetic with any rounding function is allowed. -/
theorem C94_rounding (hu : 0 ≤ u) (h : Rounding fl u) (pData : ProblemData) (Ts : List ℝ) (g : V3) (ha : Accepted pData Ts g) :
    (RowFns.ofFl fl pData g Ts.sum).Rounded u pData g Ts.sum := by
  obtain ⟨hp, hl⟩ := ptsFl_fp h ha.flag (T := Ts.sum) ha.capt
  obtain ⟨hw, hwl⟩ := wsFl_fp h ha.flag (ptsFl fl pData.flag pData.bc Ts.sum) g Ts.sum
  refine ⟨⟨_, _, hp, hw, fun t => ⟨_, _, ⟨_, h _, rfl⟩, wFl_fp hu h hwl _, rfl⟩⟩, ⟨_, hp, fun t => ⟨_, _, ⟨_, h _, rfl⟩, curveFl_fp h ha.flag hl _, rfl⟩⟩,
    ⟨_, hp, fun t => ⟨_, _, ⟨_, h _, rfl⟩, accelerationFl_fp h ha.flag hl _ _, rfl⟩⟩, ?_, ?_, ?_, ?_⟩
  · intro ct e h1 h2 _ _
    exact ⟨_, forall₂_map_self _ fun r _ => hRowFl_fp hu h _ _ r, by simp [RowFns.ofFl, h1, h2]⟩
  · exact fun H g w => ⟨_, forall₂_map_self H fun r _ => rawRowFl_fp hu h g w r, normalizeFl_fp hu h _⟩
  · intro ct co
    refine forall₂_map_self _ fun q _ => ⟨fun j => h _, sumTo_cons hu h _ ?_⟩
    have := dotFl_rounded hu h 2 fun j => q.1 j * co.second j
    unfold SumTo at this ⊢
    simp only [Finset.sum_neg_distrib, abs_neg]
    rwa [show ∀ a b : ℝ, -a - -b = -(a - b) by intros; ring, abs_neg]
  · exact fun co => ⟨_, _, fun i => h _, fun i => h _, rfl⟩
end

/-- A non-trivial case: the example of C56, for every rounding function precise enough. -/
theorem restPhases_fl (n : ℕ) (hn : 0 < n) : ∃ C u0 : ℝ, 0 ≤ C ∧ 0 < u0 ∧ ∀ u, 0 ≤ u → u ≤ u0 → ∀ fl : ℝ → ℝ, Rounding fl u →
    ∃ A b, (RowFns.ofFl fl restPhases ![0, 0, -9.81] ([1, 2] : List ℝ).sum).computeConstraintsOneStep restPhases 2 (computeDiscretizedTimeFixed [1, 2] n) = .ok (A, b) ∧
      ∀ (x : V3) (δ : ℝ), 0 ≤ δ → SatTol A b δ (ext3 x) →
        ∃ cv v a, computeBezierCurve restPhases.flag ([1, 2] : List ℝ).sum (ptsFl fl restPhases.flag restPhases.bc ([1, 2] : List ℝ).sum) x = .ok cv ∧
          IsDeriv cv.eval v ∧ IsDeriv v a ∧ MeetsBoundaryFp u (degreeOf restPhases.flag) restPhases.flag restPhases.bc cv.eval ([1, 2] : List ℝ).sum ∧
          MeetsSamplesTol restPhases (computeDiscretizedTimeFixed [1, 2] n) ((11 + C * u) * δ + C * u * (1 + ∑ k, |x k|)) (δ + C * u * (1 + ∑ k, |x k|))
            cv.eval a := by
  have hD : Discretisation [1, 2] (computeDiscretizedTimeFixed [1, 2] n) := Or.inl ⟨n, hn, rfl⟩
  have hs : DataScale restPhases ([1, 2] : List ℝ).sum (computeDiscretizedTimeFixed [1, 2] n) ![0, 0, -9.81] 1 11 := by
    rw [show ([1, 2] : List ℝ).sum = 3 by norm_num]
    exact restPhases_scale _ hD
  have hf : restPhases.flag ∈ [11#32, 19#32, 27#32, 7#32, 15#32] := by simp [restPhases, twoPhases]
  obtain ⟨C, u0, hC, hu0, hall⟩ := C94_rows restPhases [1, 2] _ restPhases_accepted hf _ hD hs.wrench
  refine ⟨C, u0, hC, hu0, fun u hu hu1 fl hfl => ?_⟩
  obtain ⟨A, b, k1, -, -, -, k5⟩ := hall u hu hu1 _ (C94_rounding hu hfl restPhases [1, 2] _ restPhases_accepted)
  exact ⟨A, b, k1, k5 _ (ptsFl_fp hfl restPhases_accepted.flag restPhases_accepted.capt).1⟩

end Verif
