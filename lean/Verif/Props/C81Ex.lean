import Verif.Props.C81
import Verif.Props.C28
import Verif.Props.C73

/-!
# C81: the curve of the planner, and double precision
-/

namespace Verif
open FExp

/-- C81, for the planner: the curve built by `computeBezierCurve` from waypoints computed with rounding and any free
point `x` is defined over `[0,T]` and meets the boundary conditions up to the stated rounding error. -/
theorem C81_curve {u : ℝ} (h0 : 0 ≤ u) (hu : (11 : ℕ) * u < 1) (flag : Flag) (hf : flag ∈ comFlags) (d : BC) (T : ℝ)
    (pts : List V3) (h : ConstantWaypointsFp u flag d T pts) (x : V3) (c : Bezier) (hc : computeBezierCurve flag T pts x = .ok c) :
    0 < T ∧ c.T = T ∧ MeetsBoundaryFp u (degreeOf flag) flag d c.eval T := by
  have hT : 0 < T ∧ c.T = T := by
    unfold computeBezierCurve mkBezier at hc
    simp only [Out.bind_eq_ok] at hc
    obtain ⟨w0, -, w1, -, e⟩ := hc
    split_ifs at e with hn
    cases e
    push Not at hn
    exact ⟨hn.2, rfl⟩
  obtain ⟨hl, hm⟩ := C81_boundary h0 hu flag hf d T hT.1 pts h x
  obtain ⟨-, he⟩ := bezierCurve_eval flag hf T pts hl x c hc
  rw [he]
  exact ⟨hT.1, hT.2, hm⟩

/-! ## Arithmetic with a rounding function -/

/-- The value obtained when `fl` is applied to the result of every operation. -/
noncomputable def FExp.eval (fl : ℝ → ℝ) (ρ : Var → ℝ) : FExp → ℝ
  | lit n => n
  | dec q => fl q
  | var v => ρ v
  | neg a => -a.eval fl ρ
  | add a b => fl (a.eval fl ρ + b.eval fl ρ)
  | sub a b => fl (a.eval fl ρ - b.eval fl ρ)
  | mul a b => fl (a.eval fl ρ * b.eval fl ρ)
  | div a b => fl (a.eval fl ρ / b.eval fl ρ)

theorem FExp.computes_eval {fl : ℝ → ℝ} {u : ℝ} (h : Rounding fl u) (ρ : Var → ℝ) (e : FExp) : e.Computes u ρ (e.eval fl ρ) := by
  induction e with
  | lit n => rfl
  | dec q => exact h _
  | var v => rfl
  | neg a ih => exact ⟨_, ih, rfl⟩
  | add a b iha ihb => exact ⟨_, _, iha, ihb, h _⟩
  | sub a b iha ihb => exact ⟨_, _, iha, ihb, h _⟩
  | mul a b iha ihb => exact ⟨_, _, iha, ihb, h _⟩
  | div a b iha ihb => exact ⟨_, _, iha, ihb, h _⟩

/-- The waypoints obtained with a rounding function. -/
noncomputable def roundedPoints (fl : ℝ → ℝ) (es : Fin 3 → List FExp) (ρ : Var → ℝ) : List V3 :=
  (List.range (es 0).length).map fun i k => (((es k)[i]?.map (FExp.eval fl ρ)).getD 0)

theorem roundedPoints_fp {fl : ℝ → ℝ} {u : ℝ} (h : Rounding fl u) (flag : Flag) (d : BC) (T : ℝ) (es : Fin 3 → List FExp)
    (hes : pointsFp flag = some es) (hd : flag = c0_dc0_dc1.flag → d.dc1 = 0) (hl : ∀ k, (es k).length = (es 0).length) :
    ConstantWaypointsFp u flag d T (roundedPoints fl es (env d 0 0 T 0)) := by
  refine ⟨hd, es, hes, fun k => ⟨by simp [roundedPoints, hl k], fun i e he => ?_⟩⟩
  have hi : i < (es k).length := by
    by_contra hc
    rw [List.getElem?_eq_none (not_lt.mp hc)] at he
    cases he
  have hi0 : i < (es 0).length := hl k ▸ hi
  have : nth (roundedPoints fl es (env d 0 0 T 0)) i k = e.eval fl (env d 0 0 T 0) := by
    simp [nth, roundedPoints, List.getD, hi0, he]
  rw [this]
  exact FExp.computes_eval h _ e

/-- Non-vacuity of C81: in double precision every set of the planner has waypoints. -/
theorem C81_answers (flag : Flag) (hf : flag ∈ comFlags) (d : BC) (T : ℝ) (hd : flag = 19#32 → d.dc1 = 0) :
    (11 : ℕ) * (2 : ℝ) ^ (-53 : ℤ) < 1 ∧ ∃ pts, ConstantWaypointsFp (2 ^ (-53 : ℤ)) flag d T pts := by
  refine ⟨by norm_num, ?_⟩
  simp only [comFlags, List.mem_cons, List.not_mem_nil, or_false] at hf
  rcases hf with rfl | rfl | rfl | rfl | rfl | rfl | rfl <;>
    exact ⟨_, roundedPoints_fp nearest53_rounding _ d T _ (by simp [pointsFp]; rfl) (by simpa using hd) (fun k => rfl)⟩

/-- A number with 53 significant bits is not one third. -/
theorem nearest53_ne_third (x : ℝ) : nearest53 x ≠ 1 / 3 := by
  intro h
  set e := Int.log 2 |x| - 52 with he
  set m := round (x / 2 ^ e) with hm
  have h1 : (m : ℝ) * 2 ^ e * 3 = 1 := by
    have : (m : ℝ) * 2 ^ e = 1 / 3 := by rw [← h, nearest53]
    rw [this]; norm_num
  rcases le_total 0 e with hp | hn
  · obtain ⟨k, hk⟩ := Int.eq_ofNat_of_zero_le hp
    rw [hk, zpow_natCast] at h1
    have h2 : m * 2 ^ k * 3 = 1 := by exact_mod_cast h1
    omega
  · obtain ⟨k, hk⟩ := Int.eq_ofNat_of_zero_le (neg_nonneg.mpr hn)
    have he' : e = -(k : ℤ) := by omega
    rw [he', zpow_neg, zpow_natCast] at h1
    have h2 : (m : ℝ) * 3 = 2 ^ k := by
      have : (2 : ℝ) ^ k ≠ 0 := by positivity
      field_simp at h1
      linarith
    have h3 : m * 3 = 2 ^ k := by exact_mod_cast h2
    have h4 : ∀ k : ℕ, (2 : ℤ) ^ k % 3 = 1 ∨ (2 : ℤ) ^ k % 3 = 2 := by
      intro k
      induction k with
      | zero => left; rfl
      | succ k ih => rw [pow_succ]; omega
    have := h4 k
    omega

/-- C81. The conditions are not met exactly: a motion of one second from the origin with a speed of one metre per second, in
double precision. -/
theorem C81_not_exact : ∃ (d : BC) (pts : List V3), ConstantWaypointsFp (2 ^ (-53 : ℤ)) 11#32 d 1 pts ∧
    ∀ x v, IsDeriv (curve 3 (fill 11#32 (nth pts) x) 1) v → v 0 ≠ d.dc0 := by
  let d : BC := { c0 := 0, dc0 := fun _ => 1, ddc0 := 0, j0 := 0, c1 := 0, dc1 := 0, ddc1 := 0, j1 := 0 }
  refine ⟨d, roundedPoints nearest53 Fp.c0_dc0_c1.computeConstantWaypoints (env d 0 0 1 0),
    roundedPoints_fp nearest53_rounding _ d 1 _ (by simp [pointsFp]) (by simp [d]) (fun k => rfl), fun x v hv h => ?_⟩
  have hder := curve_isDeriv 2 (fill 11#32 (nth (roundedPoints nearest53 Fp.c0_dc0_c1.computeConstantWaypoints (env d 0 0 1 0))) x) 1
  have hv0 := congrFun ((hv 0).unique (hder 0)) 0
  rw [h, curve_zero] at hv0
  have e1 : nth (roundedPoints nearest53 Fp.c0_dc0_c1.computeConstantWaypoints (env d 0 0 1 0)) 1 0 =
      (Fp.dc0 0 * Fp.T / 3 + Fp.c0 0 : FExp).eval nearest53 (env d 0 0 1 0) := by
    simp [nth, roundedPoints, Fp.c0_dc0_c1.computeConstantWaypoints]
  have e0 : nth (roundedPoints nearest53 Fp.c0_dc0_c1.computeConstantWaypoints (env d 0 0 1 0)) 0 0 = 0 := by
    simp [nth, roundedPoints, Fp.c0_dc0_c1.computeConstantWaypoints, Fp.c0, FExp.eval, env, d]
  have e2 : (Fp.dc0 0 * Fp.T / 3 + Fp.c0 0 : FExp).eval nearest53 (env d 0 0 1 0) = 1 / 3 := by
    rw [← e1]
    simp [hodo, fill, freeSlots, d] at hv0
    rw [e0] at hv0
    linarith
  exact nearest53_ne_third _ e2

end Verif
