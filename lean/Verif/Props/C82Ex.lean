import Verif.Props.C82
import Verif.Props.C81Ex

/-!
# C82: links with the exact queries, and double precision
-/

namespace Verif
open FExp

/-! ## Without rounding -/

theorem coefs_exact {es : Fin 3 → FExp × FExp} {ρ : Var → ℝ} {co co' : Coefs} (h1 : ∀ k, (es k).1.exact ρ = co'.first)
    (h2 : ∀ k, (es k).2.exact ρ = co'.second k) :
    (∀ k, (es k).1.Computes 0 ρ co.first ∧ (es k).2.Computes 0 ρ (co.second k)) ↔ co' = co := by
  simp only [FExp.computes_zero, h1, h2]
  constructor
  · intro h
    obtain ⟨a, b⟩ := co
    obtain ⟨a', b'⟩ := co'
    have e1 : a = a' := (h 0).1
    have e2 : b = b' := funext fun k => (h k).2
    rw [e1, e2]
  · rintro rfl k
    exact ⟨rfl, rfl⟩

theorem curve_link {flag : Flag} {pts : List V3} {t : ℝ} {co : Coefs} {n : ℕ} {es : Fin 3 → FExp × FExp} {f : (ℕ → V3) → Coefs}
    (h : curveFp flag = some (n, es)) (h' : evaluateCurveAtTime flag pts t = withPts n pts f)
    (h1 : ∀ d g T k, (es k).1.exact (env d (nth pts) g T t) = (f (nth pts)).first)
    (h2 : ∀ d g T k, (es k).2.exact (env d (nth pts) g T t) = (f (nth pts)).second k) :
    EvaluateCurveFp 0 flag pts t co ↔ evaluateCurveAtTime flag pts t = .ok co := by
  unfold EvaluateCurveFp withPts at *
  have key := fun d g T => coefs_exact (co := co) (h1 d g T) (h2 d g T)
  rw [h, h']
  constructor
  · rintro ⟨m, es', e, hn, H⟩
    cases e
    rw [if_neg (not_lt.mpr hn), (key ⟨0, 0, 0, 0, 0, 0, 0, 0⟩ 0 0).mp fun k => H k _ _ _]
  · intro e
    split_ifs at e with hn
    cases e
    exact ⟨n, es, rfl, not_lt.mp hn, fun k d g T => (key d g T).mpr rfl k⟩

/-- With `u = 0` the rounded `evaluateCurveAtTime` is the exact one. -/
theorem evaluateCurveFp_zero (flag : Flag) (hf : flag ∈ comFlags) (pts : List V3) (t : ℝ) (co : Coefs) :
    EvaluateCurveFp 0 flag pts t co ↔ evaluateCurveAtTime flag pts t = .ok co := by
  simp only [comFlags, List.mem_cons, List.not_mem_nil, or_false] at hf
  rcases hf with rfl | rfl | rfl | rfl | rfl | rfl | rfl
  · exact curve_link (n := 4) (es := Fp.c0_dc0_c1.evaluateCurveAtTime) (f := fun p => c0_dc0_c1.evaluateCurveAtTime p t) (by simp [curveFp])
      (by simp [evaluateCurveAtTime]) (fun _ _ _ _ => by simp [Fp.c0_dc0_c1.evaluateCurveAtTime, c0_dc0_c1.evaluateCurveAtTime, Fp.t, Fp.pi, env])
      (fun _ _ _ _ => by simp [Fp.c0_dc0_c1.evaluateCurveAtTime, c0_dc0_c1.evaluateCurveAtTime, Fp.t, Fp.pi, env])
  · exact curve_link (n := 2) (es := Fp.c0_dc0_dc1.evaluateCurveAtTime) (f := fun p => c0_dc0_dc1.evaluateCurveAtTime p t) (by simp [curveFp])
      (by simp [evaluateCurveAtTime]) (fun _ _ _ _ => by simp [Fp.c0_dc0_dc1.evaluateCurveAtTime, c0_dc0_dc1.evaluateCurveAtTime, Fp.t, Fp.pi, env])
      (fun _ _ _ _ => by simp [Fp.c0_dc0_dc1.evaluateCurveAtTime, c0_dc0_dc1.evaluateCurveAtTime, Fp.t, Fp.pi, env])
  · exact curve_link (n := 5) (es := Fp.c0_dc0_dc1_c1.evaluateCurveAtTime) (f := fun p => c0_dc0_dc1_c1.evaluateCurveAtTime p t) (by simp [curveFp])
      (by simp [evaluateCurveAtTime]) (fun _ _ _ _ => by simp [Fp.c0_dc0_dc1_c1.evaluateCurveAtTime, c0_dc0_dc1_c1.evaluateCurveAtTime, Fp.t, Fp.pi, env])
      (fun _ _ _ _ => by simp [Fp.c0_dc0_dc1_c1.evaluateCurveAtTime, c0_dc0_dc1_c1.evaluateCurveAtTime, Fp.t, Fp.pi, env])
  · exact curve_link (n := 3) (es := Fp.c0_dc0_ddc0.evaluateCurveAtTime) (f := fun p => c0_dc0_ddc0.evaluateCurveAtTime p t) (by simp [curveFp])
      (by simp [evaluateCurveAtTime]) (fun _ _ _ _ => by simp [Fp.c0_dc0_ddc0.evaluateCurveAtTime, c0_dc0_ddc0.evaluateCurveAtTime, Fp.t, Fp.pi, env])
      (fun _ _ _ _ => by simp [Fp.c0_dc0_ddc0.evaluateCurveAtTime, c0_dc0_ddc0.evaluateCurveAtTime, Fp.t, Fp.pi, env])
  · exact curve_link (n := 5) (es := Fp.c0_dc0_ddc0_c1.evaluateCurveAtTime) (f := fun p => c0_dc0_ddc0_c1.evaluateCurveAtTime p t) (by simp [curveFp])
      (by simp [evaluateCurveAtTime]) (fun _ _ _ _ => by simp [Fp.c0_dc0_ddc0_c1.evaluateCurveAtTime, c0_dc0_ddc0_c1.evaluateCurveAtTime, Fp.t, Fp.pi, env])
      (fun _ _ _ _ => by simp [Fp.c0_dc0_ddc0_c1.evaluateCurveAtTime, c0_dc0_ddc0_c1.evaluateCurveAtTime, Fp.t, Fp.pi, env])
  · exact curve_link (n := 6) (es := Fp.c0_dc0_ddc0_dc1_c1.evaluateCurveAtTime) (f := fun p => c0_dc0_ddc0_dc1_c1.evaluateCurveAtTime p t) (by simp [curveFp])
      (by simp [evaluateCurveAtTime]) (fun _ _ _ _ => by simp [Fp.c0_dc0_ddc0_dc1_c1.evaluateCurveAtTime, c0_dc0_ddc0_dc1_c1.evaluateCurveAtTime, Fp.t, Fp.pi, env])
      (fun _ _ _ _ => by simp [Fp.c0_dc0_ddc0_dc1_c1.evaluateCurveAtTime, c0_dc0_ddc0_dc1_c1.evaluateCurveAtTime, Fp.t, Fp.pi, env])
  · exact curve_link (n := 7) (es := Fp.c0_dc0_ddc0_ddc1_dc1_c1.evaluateCurveAtTime) (f := fun p => c0_dc0_ddc0_ddc1_dc1_c1.evaluateCurveAtTime p t) (by simp [curveFp])
      (by simp [evaluateCurveAtTime]) (fun _ _ _ _ => by simp [Fp.c0_dc0_ddc0_ddc1_dc1_c1.evaluateCurveAtTime, c0_dc0_ddc0_ddc1_dc1_c1.evaluateCurveAtTime, Fp.t, Fp.pi, env])
      (fun _ _ _ _ => by simp [Fp.c0_dc0_ddc0_ddc1_dc1_c1.evaluateCurveAtTime, c0_dc0_ddc0_ddc1_dc1_c1.evaluateCurveAtTime, Fp.t, Fp.pi, env])

theorem acceleration_link {flag : Flag} {pts : List V3} {T t : ℝ} {co : Coefs} {n : ℕ} {es : Fin 3 → FExp × FExp}
    {f : (ℕ → V3) → Coefs} (h : accelerationFp flag = some (n, es))
    (h' : evaluateAccelerationCurveAtTime flag pts T t = withPts n pts f)
    (h1 : ∀ d g k, (es k).1.exact (env d (nth pts) g T t) = (f (nth pts)).first)
    (h2 : ∀ d g k, (es k).2.exact (env d (nth pts) g T t) = (f (nth pts)).second k) :
    EvaluateAccelerationFp 0 flag pts T t co ↔ evaluateAccelerationCurveAtTime flag pts T t = .ok co := by
  unfold EvaluateAccelerationFp withPts at *
  have key := fun d g => coefs_exact (co := co) (h1 d g) (h2 d g)
  rw [h, h']
  constructor
  · rintro ⟨m, es', e, hn, H⟩
    cases e
    rw [if_neg (not_lt.mpr hn), (key ⟨0, 0, 0, 0, 0, 0, 0, 0⟩ 0).mp fun k => H k _ _]
  · intro e
    split_ifs at e with hn
    cases e
    exact ⟨n, es, rfl, not_lt.mp hn, fun k d g => (key d g).mpr rfl k⟩

/-- With `u = 0` the rounded `evaluateAccelerationCurveAtTime` is the exact one. -/
theorem evaluateAccelerationFp_zero (flag : Flag) (hf : flag ∈ comFlags) (pts : List V3) (T t : ℝ) (co : Coefs) :
    EvaluateAccelerationFp 0 flag pts T t co ↔ evaluateAccelerationCurveAtTime flag pts T t = .ok co := by
  simp only [comFlags, List.mem_cons, List.not_mem_nil, or_false] at hf
  rcases hf with rfl | rfl | rfl | rfl | rfl | rfl | rfl
  · exact acceleration_link (n := 4) (es := Fp.c0_dc0_c1.evaluateAccelerationCurveAtTime) (f := fun p => c0_dc0_c1.evaluateAccelerationCurveAtTime p T t) (by simp [accelerationFp])
      (by simp [evaluateAccelerationCurveAtTime]) (fun _ _ _ => by simp [Fp.c0_dc0_c1.evaluateAccelerationCurveAtTime, c0_dc0_c1.evaluateAccelerationCurveAtTime, Fp.t, Fp.T, Fp.pi, env])
      (fun _ _ _ => by simp [Fp.c0_dc0_c1.evaluateAccelerationCurveAtTime, c0_dc0_c1.evaluateAccelerationCurveAtTime, Fp.t, Fp.T, Fp.pi, env])
  · exact acceleration_link (n := 2) (es := Fp.c0_dc0_dc1.evaluateAccelerationCurveAtTime) (f := fun p => c0_dc0_dc1.evaluateAccelerationCurveAtTime p T t) (by simp [accelerationFp])
      (by simp [evaluateAccelerationCurveAtTime]) (fun _ _ _ => by simp [Fp.c0_dc0_dc1.evaluateAccelerationCurveAtTime, c0_dc0_dc1.evaluateAccelerationCurveAtTime, Fp.t, Fp.T, Fp.pi, env])
      (fun _ _ _ => by simp [Fp.c0_dc0_dc1.evaluateAccelerationCurveAtTime, c0_dc0_dc1.evaluateAccelerationCurveAtTime, Fp.t, Fp.T, Fp.pi, env])
  · exact acceleration_link (n := 5) (es := Fp.c0_dc0_dc1_c1.evaluateAccelerationCurveAtTime) (f := fun p => c0_dc0_dc1_c1.evaluateAccelerationCurveAtTime p T t) (by simp [accelerationFp])
      (by simp [evaluateAccelerationCurveAtTime]) (fun _ _ _ => by simp [Fp.c0_dc0_dc1_c1.evaluateAccelerationCurveAtTime, c0_dc0_dc1_c1.evaluateAccelerationCurveAtTime, Fp.t, Fp.T, Fp.pi, env])
      (fun _ _ _ => by simp [Fp.c0_dc0_dc1_c1.evaluateAccelerationCurveAtTime, c0_dc0_dc1_c1.evaluateAccelerationCurveAtTime, Fp.t, Fp.T, Fp.pi, env])
  · exact acceleration_link (n := 3) (es := Fp.c0_dc0_ddc0.evaluateAccelerationCurveAtTime) (f := fun p => c0_dc0_ddc0.evaluateAccelerationCurveAtTime p T t) (by simp [accelerationFp])
      (by simp [evaluateAccelerationCurveAtTime]) (fun _ _ _ => by simp [Fp.c0_dc0_ddc0.evaluateAccelerationCurveAtTime, c0_dc0_ddc0.evaluateAccelerationCurveAtTime, Fp.t, Fp.T, Fp.pi, env])
      (fun _ _ _ => by simp [Fp.c0_dc0_ddc0.evaluateAccelerationCurveAtTime, c0_dc0_ddc0.evaluateAccelerationCurveAtTime, Fp.t, Fp.T, Fp.pi, env])
  · exact acceleration_link (n := 5) (es := Fp.c0_dc0_ddc0_c1.evaluateAccelerationCurveAtTime) (f := fun p => c0_dc0_ddc0_c1.evaluateAccelerationCurveAtTime p T t) (by simp [accelerationFp])
      (by simp [evaluateAccelerationCurveAtTime]) (fun _ _ _ => by simp [Fp.c0_dc0_ddc0_c1.evaluateAccelerationCurveAtTime, c0_dc0_ddc0_c1.evaluateAccelerationCurveAtTime, Fp.t, Fp.T, Fp.pi, env])
      (fun _ _ _ => by simp [Fp.c0_dc0_ddc0_c1.evaluateAccelerationCurveAtTime, c0_dc0_ddc0_c1.evaluateAccelerationCurveAtTime, Fp.t, Fp.T, Fp.pi, env])
  · exact acceleration_link (n := 6) (es := Fp.c0_dc0_ddc0_dc1_c1.evaluateAccelerationCurveAtTime) (f := fun p => c0_dc0_ddc0_dc1_c1.evaluateAccelerationCurveAtTime p T t) (by simp [accelerationFp])
      (by simp [evaluateAccelerationCurveAtTime]) (fun _ _ _ => by simp [Fp.c0_dc0_ddc0_dc1_c1.evaluateAccelerationCurveAtTime, c0_dc0_ddc0_dc1_c1.evaluateAccelerationCurveAtTime, Fp.t, Fp.T, Fp.pi, env])
      (fun _ _ _ => by simp [Fp.c0_dc0_ddc0_dc1_c1.evaluateAccelerationCurveAtTime, c0_dc0_ddc0_dc1_c1.evaluateAccelerationCurveAtTime, Fp.t, Fp.T, Fp.pi, env])
  · exact acceleration_link (n := 7) (es := Fp.c0_dc0_ddc0_ddc1_dc1_c1.evaluateAccelerationCurveAtTime) (f := fun p => c0_dc0_ddc0_ddc1_dc1_c1.evaluateAccelerationCurveAtTime p T t) (by simp [accelerationFp])
      (by simp [evaluateAccelerationCurveAtTime]) (fun _ _ _ => by simp [Fp.c0_dc0_ddc0_ddc1_dc1_c1.evaluateAccelerationCurveAtTime, c0_dc0_ddc0_ddc1_dc1_c1.evaluateAccelerationCurveAtTime, Fp.t, Fp.T, Fp.pi, env])
      (fun _ _ _ => by simp [Fp.c0_dc0_ddc0_ddc1_dc1_c1.evaluateAccelerationCurveAtTime, c0_dc0_ddc0_ddc1_dc1_c1.evaluateAccelerationCurveAtTime, Fp.t, Fp.T, Fp.pi, env])

theorem final_link {flag : Flag} {d : BC} {T : ℝ} {co : Coefs} {es : Fin 3 → FExp × FExp}
    {f : (ℕ → V3) → Coefs} (h : finalVelocityFp flag = some es)
    (h' : ∀ pts, computeConstantWaypoints flag d T = .ok pts → (computeFinalVelocityPoint flag d T = .ok co ↔ f (nth pts) = co))
    (hw : computeFinalVelocityPoint flag d T = .ok co → ∃ pts, computeConstantWaypoints flag d T = .ok pts)
    (h1 : ∀ pts g t k, (es k).1.exact (env d (nth pts) g T t) = (f (nth pts)).first)
    (h2 : ∀ pts g t k, (es k).2.exact (env d (nth pts) g T t) = (f (nth pts)).second k) :
    (∃ pts, FinalVelocityFp 0 flag d T pts co) ↔ computeFinalVelocityPoint flag d T = .ok co := by
  unfold FinalVelocityFp
  have key := fun pts g t => coefs_exact (co := co) (h1 pts g t) (h2 pts g t)
  simp only [constantWaypointsFp_zero]
  rw [h]
  constructor
  · rintro ⟨pts, hp, es', e, H⟩
    cases e
    exact (h' pts hp).mpr ((key pts 0 0).mp fun k => H k _ _)
  · intro e
    obtain ⟨pts, hp⟩ := hw e
    exact ⟨pts, hp, es, rfl, fun k g t => (key pts g t).mpr ((h' pts hp).mp e) k⟩

/-- With `u = 0` the rounded `computeFinalVelocityPoint` is the exact one. -/
theorem finalVelocityFp_zero (flag : Flag) (hf : flag ∈ comFlags) (d : BC) (T : ℝ) (co : Coefs)
    (hd : flag = 19#32 → d.dc1 = 0) :
    (∃ pts, FinalVelocityFp 0 flag d T pts co) ↔ computeFinalVelocityPoint flag d T = .ok co := by
  simp only [comFlags, List.mem_cons, List.not_mem_nil, or_false] at hf
  rcases hf with rfl | rfl | rfl | rfl | rfl | rfl | rfl
  · exact final_link (es := Fp.c0_dc0_c1.computeFinalVelocityPoint) (f := fun p => c0_dc0_c1.computeFinalVelocityPoint d p T) (by simp [finalVelocityFp])
      (fun pts hp => by
        simp [computeConstantWaypoints, ] at hp
        subst hp
        simp [computeFinalVelocityPoint, computeConstantWaypoints, c0_dc0_c1.computeFinalVelocityPoint])
      (fun _ => by simp [computeConstantWaypoints])
      (fun _ _ _ _ => by simp [Fp.c0_dc0_c1.computeFinalVelocityPoint, c0_dc0_c1.computeFinalVelocityPoint, Fp.c0, Fp.dc0, Fp.ddc0, Fp.c1, Fp.dc1, Fp.ddc1, Fp.T, Fp.pi, env])
      (fun _ _ _ _ => by simp [Fp.c0_dc0_c1.computeFinalVelocityPoint, c0_dc0_c1.computeFinalVelocityPoint, Fp.c0, Fp.dc0, Fp.ddc0, Fp.c1, Fp.dc1, Fp.ddc1, Fp.T, Fp.pi, env])
  · exact final_link (es := Fp.c0_dc0_dc1.computeFinalVelocityPoint) (f := fun p => c0_dc0_dc1.computeFinalVelocityPoint d p T) (by simp [finalVelocityFp])
      (fun pts hp => by
        simp [computeConstantWaypoints, hd] at hp
        subst hp
        simp [computeFinalVelocityPoint, computeConstantWaypoints, c0_dc0_dc1.computeFinalVelocityPoint, hd])
      (fun _ => by simp [computeConstantWaypoints, hd])
      (fun _ _ _ _ => by simp [Fp.c0_dc0_dc1.computeFinalVelocityPoint, c0_dc0_dc1.computeFinalVelocityPoint, Fp.c0, Fp.dc0, Fp.ddc0, Fp.c1, Fp.dc1, Fp.ddc1, Fp.T, Fp.pi, env])
      (fun _ _ _ _ => by simp [Fp.c0_dc0_dc1.computeFinalVelocityPoint, c0_dc0_dc1.computeFinalVelocityPoint, Fp.c0, Fp.dc0, Fp.ddc0, Fp.c1, Fp.dc1, Fp.ddc1, Fp.T, Fp.pi, env])
  · exact final_link (es := Fp.c0_dc0_dc1_c1.computeFinalVelocityPoint) (f := fun p => c0_dc0_dc1_c1.computeFinalVelocityPoint d p T) (by simp [finalVelocityFp])
      (fun pts hp => by
        simp [computeConstantWaypoints, ] at hp
        subst hp
        simp [computeFinalVelocityPoint, computeConstantWaypoints, c0_dc0_dc1_c1.computeFinalVelocityPoint])
      (fun _ => by simp [computeConstantWaypoints])
      (fun _ _ _ _ => by simp [Fp.c0_dc0_dc1_c1.computeFinalVelocityPoint, c0_dc0_dc1_c1.computeFinalVelocityPoint, Fp.c0, Fp.dc0, Fp.ddc0, Fp.c1, Fp.dc1, Fp.ddc1, Fp.T, Fp.pi, env])
      (fun _ _ _ _ => by simp [Fp.c0_dc0_dc1_c1.computeFinalVelocityPoint, c0_dc0_dc1_c1.computeFinalVelocityPoint, Fp.c0, Fp.dc0, Fp.ddc0, Fp.c1, Fp.dc1, Fp.ddc1, Fp.T, Fp.pi, env])
  · exact final_link (es := Fp.c0_dc0_ddc0.computeFinalVelocityPoint) (f := fun p => c0_dc0_ddc0.computeFinalVelocityPoint d p T) (by simp [finalVelocityFp])
      (fun pts hp => by
        simp [computeConstantWaypoints, ] at hp
        subst hp
        simp [computeFinalVelocityPoint, computeConstantWaypoints, c0_dc0_ddc0.computeFinalVelocityPoint])
      (fun _ => by simp [computeConstantWaypoints])
      (fun _ _ _ _ => by simp [Fp.c0_dc0_ddc0.computeFinalVelocityPoint, c0_dc0_ddc0.computeFinalVelocityPoint, Fp.c0, Fp.dc0, Fp.ddc0, Fp.c1, Fp.dc1, Fp.ddc1, Fp.T, Fp.pi, env])
      (fun _ _ _ _ => by simp [Fp.c0_dc0_ddc0.computeFinalVelocityPoint, c0_dc0_ddc0.computeFinalVelocityPoint, Fp.c0, Fp.dc0, Fp.ddc0, Fp.c1, Fp.dc1, Fp.ddc1, Fp.T, Fp.pi, env])
  · exact final_link (es := Fp.c0_dc0_ddc0_c1.computeFinalVelocityPoint) (f := fun p => c0_dc0_ddc0_c1.computeFinalVelocityPoint d p T) (by simp [finalVelocityFp])
      (fun pts hp => by
        simp [computeConstantWaypoints, ] at hp
        subst hp
        simp [computeFinalVelocityPoint, computeConstantWaypoints, c0_dc0_ddc0_c1.computeFinalVelocityPoint])
      (fun _ => by simp [computeConstantWaypoints])
      (fun _ _ _ _ => by simp [Fp.c0_dc0_ddc0_c1.computeFinalVelocityPoint, c0_dc0_ddc0_c1.computeFinalVelocityPoint, Fp.c0, Fp.dc0, Fp.ddc0, Fp.c1, Fp.dc1, Fp.ddc1, Fp.T, Fp.pi, env])
      (fun _ _ _ _ => by simp [Fp.c0_dc0_ddc0_c1.computeFinalVelocityPoint, c0_dc0_ddc0_c1.computeFinalVelocityPoint, Fp.c0, Fp.dc0, Fp.ddc0, Fp.c1, Fp.dc1, Fp.ddc1, Fp.T, Fp.pi, env])
  · exact final_link (es := Fp.c0_dc0_ddc0_dc1_c1.computeFinalVelocityPoint) (f := fun p => c0_dc0_ddc0_dc1_c1.computeFinalVelocityPoint d p T) (by simp [finalVelocityFp])
      (fun pts hp => by
        simp [computeConstantWaypoints, ] at hp
        subst hp
        simp [computeFinalVelocityPoint, computeConstantWaypoints, c0_dc0_ddc0_dc1_c1.computeFinalVelocityPoint])
      (fun _ => by simp [computeConstantWaypoints])
      (fun _ _ _ _ => by simp [Fp.c0_dc0_ddc0_dc1_c1.computeFinalVelocityPoint, c0_dc0_ddc0_dc1_c1.computeFinalVelocityPoint, Fp.c0, Fp.dc0, Fp.ddc0, Fp.c1, Fp.dc1, Fp.ddc1, Fp.T, Fp.pi, env])
      (fun _ _ _ _ => by simp [Fp.c0_dc0_ddc0_dc1_c1.computeFinalVelocityPoint, c0_dc0_ddc0_dc1_c1.computeFinalVelocityPoint, Fp.c0, Fp.dc0, Fp.ddc0, Fp.c1, Fp.dc1, Fp.ddc1, Fp.T, Fp.pi, env])
  · exact final_link (es := Fp.c0_dc0_ddc0_ddc1_dc1_c1.computeFinalVelocityPoint) (f := fun p => c0_dc0_ddc0_ddc1_dc1_c1.computeFinalVelocityPoint d p T) (by simp [finalVelocityFp])
      (fun pts hp => by
        simp [computeConstantWaypoints, ] at hp
        subst hp
        simp [computeFinalVelocityPoint, computeConstantWaypoints, c0_dc0_ddc0_ddc1_dc1_c1.computeFinalVelocityPoint])
      (fun _ => by simp [computeConstantWaypoints])
      (fun _ _ _ _ => by simp [Fp.c0_dc0_ddc0_ddc1_dc1_c1.computeFinalVelocityPoint, c0_dc0_ddc0_ddc1_dc1_c1.computeFinalVelocityPoint, Fp.c0, Fp.dc0, Fp.ddc0, Fp.c1, Fp.dc1, Fp.ddc1, Fp.T, Fp.pi, env])
      (fun _ _ _ _ => by simp [Fp.c0_dc0_ddc0_ddc1_dc1_c1.computeFinalVelocityPoint, c0_dc0_ddc0_ddc1_dc1_c1.computeFinalVelocityPoint, Fp.c0, Fp.dc0, Fp.ddc0, Fp.c1, Fp.dc1, Fp.ddc1, Fp.T, Fp.pi, env])

/-! ## Double precision -/

/-- The pair obtained with a rounding function. -/
noncomputable def roundedCoefs (fl : ℝ → ℝ) (es : Fin 3 → FExp × FExp) (ρ : Var → ℝ) : Coefs :=
  { first := (es 0).1.eval fl ρ, second := fun k => (es k).2.eval fl ρ }

/-- Non-vacuity of C82: in double precision the three queries answer for every set of the planner. -/
theorem C82_answers (flag : Flag) (hf : flag ∈ comFlags) (d : BC) (T t : ℝ) (hd : flag = 19#32 → d.dc1 = 0) :
    (30 : ℕ) * (2 : ℝ) ^ (-53 : ℤ) < 1 ∧
    (∀ pts : List V3, pts.length = degreeOf flag + 1 → ∃ co, EvaluateCurveFp (2 ^ (-53 : ℤ)) flag pts t co) ∧
    (∀ pts : List V3, pts.length = degreeOf flag + 1 → ∃ co, EvaluateAccelerationFp (2 ^ (-53 : ℤ)) flag pts T t co) ∧
    ∃ pts co, FinalVelocityFp (2 ^ (-53 : ℤ)) flag d T pts co := by
  refine ⟨by norm_num, fun pts hl => ?_, fun pts hl => ?_, ?_⟩
  all_goals
    simp only [comFlags, List.mem_cons, List.not_mem_nil, or_false] at hf
    rcases hf with rfl | rfl | rfl | rfl | rfl | rfl | rfl
  · exact ⟨roundedCoefs nearest53 Fp.c0_dc0_c1.evaluateCurveAtTime (env ⟨0, 0, 0, 0, 0, 0, 0, 0⟩ (nth pts) 0 0 t), _,
      Fp.c0_dc0_c1.evaluateCurveAtTime, by simp [curveFp]; rfl, by simp [hl, degreeOf],
      fun k d g T => ⟨FExp.computes_eval nearest53_rounding (env d (nth pts) g T t) (Fp.c0_dc0_c1.evaluateCurveAtTime k).1,
        FExp.computes_eval nearest53_rounding (env d (nth pts) g T t) (Fp.c0_dc0_c1.evaluateCurveAtTime k).2⟩⟩
  · exact ⟨roundedCoefs nearest53 Fp.c0_dc0_dc1.evaluateCurveAtTime (env ⟨0, 0, 0, 0, 0, 0, 0, 0⟩ (nth pts) 0 0 t), _,
      Fp.c0_dc0_dc1.evaluateCurveAtTime, by simp [curveFp]; rfl, by simp [hl, degreeOf],
      fun k d g T => ⟨FExp.computes_eval nearest53_rounding (env d (nth pts) g T t) (Fp.c0_dc0_dc1.evaluateCurveAtTime k).1,
        FExp.computes_eval nearest53_rounding (env d (nth pts) g T t) (Fp.c0_dc0_dc1.evaluateCurveAtTime k).2⟩⟩
  · exact ⟨roundedCoefs nearest53 Fp.c0_dc0_dc1_c1.evaluateCurveAtTime (env ⟨0, 0, 0, 0, 0, 0, 0, 0⟩ (nth pts) 0 0 t), _,
      Fp.c0_dc0_dc1_c1.evaluateCurveAtTime, by simp [curveFp]; rfl, by simp [hl, degreeOf],
      fun k d g T => ⟨FExp.computes_eval nearest53_rounding (env d (nth pts) g T t) (Fp.c0_dc0_dc1_c1.evaluateCurveAtTime k).1,
        FExp.computes_eval nearest53_rounding (env d (nth pts) g T t) (Fp.c0_dc0_dc1_c1.evaluateCurveAtTime k).2⟩⟩
  · exact ⟨roundedCoefs nearest53 Fp.c0_dc0_ddc0.evaluateCurveAtTime (env ⟨0, 0, 0, 0, 0, 0, 0, 0⟩ (nth pts) 0 0 t), _,
      Fp.c0_dc0_ddc0.evaluateCurveAtTime, by simp [curveFp]; rfl, by simp [hl, degreeOf],
      fun k d g T => ⟨FExp.computes_eval nearest53_rounding (env d (nth pts) g T t) (Fp.c0_dc0_ddc0.evaluateCurveAtTime k).1,
        FExp.computes_eval nearest53_rounding (env d (nth pts) g T t) (Fp.c0_dc0_ddc0.evaluateCurveAtTime k).2⟩⟩
  · exact ⟨roundedCoefs nearest53 Fp.c0_dc0_ddc0_c1.evaluateCurveAtTime (env ⟨0, 0, 0, 0, 0, 0, 0, 0⟩ (nth pts) 0 0 t), _,
      Fp.c0_dc0_ddc0_c1.evaluateCurveAtTime, by simp [curveFp]; rfl, by simp [hl, degreeOf],
      fun k d g T => ⟨FExp.computes_eval nearest53_rounding (env d (nth pts) g T t) (Fp.c0_dc0_ddc0_c1.evaluateCurveAtTime k).1,
        FExp.computes_eval nearest53_rounding (env d (nth pts) g T t) (Fp.c0_dc0_ddc0_c1.evaluateCurveAtTime k).2⟩⟩
  · exact ⟨roundedCoefs nearest53 Fp.c0_dc0_ddc0_dc1_c1.evaluateCurveAtTime (env ⟨0, 0, 0, 0, 0, 0, 0, 0⟩ (nth pts) 0 0 t), _,
      Fp.c0_dc0_ddc0_dc1_c1.evaluateCurveAtTime, by simp [curveFp]; rfl, by simp [hl, degreeOf],
      fun k d g T => ⟨FExp.computes_eval nearest53_rounding (env d (nth pts) g T t) (Fp.c0_dc0_ddc0_dc1_c1.evaluateCurveAtTime k).1,
        FExp.computes_eval nearest53_rounding (env d (nth pts) g T t) (Fp.c0_dc0_ddc0_dc1_c1.evaluateCurveAtTime k).2⟩⟩
  · exact ⟨roundedCoefs nearest53 Fp.c0_dc0_ddc0_ddc1_dc1_c1.evaluateCurveAtTime (env ⟨0, 0, 0, 0, 0, 0, 0, 0⟩ (nth pts) 0 0 t), _,
      Fp.c0_dc0_ddc0_ddc1_dc1_c1.evaluateCurveAtTime, by simp [curveFp]; rfl, by simp [hl, degreeOf],
      fun k d g T => ⟨FExp.computes_eval nearest53_rounding (env d (nth pts) g T t) (Fp.c0_dc0_ddc0_ddc1_dc1_c1.evaluateCurveAtTime k).1,
        FExp.computes_eval nearest53_rounding (env d (nth pts) g T t) (Fp.c0_dc0_ddc0_ddc1_dc1_c1.evaluateCurveAtTime k).2⟩⟩
  · exact ⟨roundedCoefs nearest53 Fp.c0_dc0_c1.evaluateAccelerationCurveAtTime (env ⟨0, 0, 0, 0, 0, 0, 0, 0⟩ (nth pts) 0 T t), _,
      Fp.c0_dc0_c1.evaluateAccelerationCurveAtTime, by simp [accelerationFp]; rfl, by simp [hl, degreeOf],
      fun k d g => ⟨FExp.computes_eval nearest53_rounding (env d (nth pts) g T t) (Fp.c0_dc0_c1.evaluateAccelerationCurveAtTime k).1,
        FExp.computes_eval nearest53_rounding (env d (nth pts) g T t) (Fp.c0_dc0_c1.evaluateAccelerationCurveAtTime k).2⟩⟩
  · exact ⟨roundedCoefs nearest53 Fp.c0_dc0_dc1.evaluateAccelerationCurveAtTime (env ⟨0, 0, 0, 0, 0, 0, 0, 0⟩ (nth pts) 0 T t), _,
      Fp.c0_dc0_dc1.evaluateAccelerationCurveAtTime, by simp [accelerationFp]; rfl, by simp [hl, degreeOf],
      fun k d g => ⟨FExp.computes_eval nearest53_rounding (env d (nth pts) g T t) (Fp.c0_dc0_dc1.evaluateAccelerationCurveAtTime k).1,
        FExp.computes_eval nearest53_rounding (env d (nth pts) g T t) (Fp.c0_dc0_dc1.evaluateAccelerationCurveAtTime k).2⟩⟩
  · exact ⟨roundedCoefs nearest53 Fp.c0_dc0_dc1_c1.evaluateAccelerationCurveAtTime (env ⟨0, 0, 0, 0, 0, 0, 0, 0⟩ (nth pts) 0 T t), _,
      Fp.c0_dc0_dc1_c1.evaluateAccelerationCurveAtTime, by simp [accelerationFp]; rfl, by simp [hl, degreeOf],
      fun k d g => ⟨FExp.computes_eval nearest53_rounding (env d (nth pts) g T t) (Fp.c0_dc0_dc1_c1.evaluateAccelerationCurveAtTime k).1,
        FExp.computes_eval nearest53_rounding (env d (nth pts) g T t) (Fp.c0_dc0_dc1_c1.evaluateAccelerationCurveAtTime k).2⟩⟩
  · exact ⟨roundedCoefs nearest53 Fp.c0_dc0_ddc0.evaluateAccelerationCurveAtTime (env ⟨0, 0, 0, 0, 0, 0, 0, 0⟩ (nth pts) 0 T t), _,
      Fp.c0_dc0_ddc0.evaluateAccelerationCurveAtTime, by simp [accelerationFp]; rfl, by simp [hl, degreeOf],
      fun k d g => ⟨FExp.computes_eval nearest53_rounding (env d (nth pts) g T t) (Fp.c0_dc0_ddc0.evaluateAccelerationCurveAtTime k).1,
        FExp.computes_eval nearest53_rounding (env d (nth pts) g T t) (Fp.c0_dc0_ddc0.evaluateAccelerationCurveAtTime k).2⟩⟩
  · exact ⟨roundedCoefs nearest53 Fp.c0_dc0_ddc0_c1.evaluateAccelerationCurveAtTime (env ⟨0, 0, 0, 0, 0, 0, 0, 0⟩ (nth pts) 0 T t), _,
      Fp.c0_dc0_ddc0_c1.evaluateAccelerationCurveAtTime, by simp [accelerationFp]; rfl, by simp [hl, degreeOf],
      fun k d g => ⟨FExp.computes_eval nearest53_rounding (env d (nth pts) g T t) (Fp.c0_dc0_ddc0_c1.evaluateAccelerationCurveAtTime k).1,
        FExp.computes_eval nearest53_rounding (env d (nth pts) g T t) (Fp.c0_dc0_ddc0_c1.evaluateAccelerationCurveAtTime k).2⟩⟩
  · exact ⟨roundedCoefs nearest53 Fp.c0_dc0_ddc0_dc1_c1.evaluateAccelerationCurveAtTime (env ⟨0, 0, 0, 0, 0, 0, 0, 0⟩ (nth pts) 0 T t), _,
      Fp.c0_dc0_ddc0_dc1_c1.evaluateAccelerationCurveAtTime, by simp [accelerationFp]; rfl, by simp [hl, degreeOf],
      fun k d g => ⟨FExp.computes_eval nearest53_rounding (env d (nth pts) g T t) (Fp.c0_dc0_ddc0_dc1_c1.evaluateAccelerationCurveAtTime k).1,
        FExp.computes_eval nearest53_rounding (env d (nth pts) g T t) (Fp.c0_dc0_ddc0_dc1_c1.evaluateAccelerationCurveAtTime k).2⟩⟩
  · exact ⟨roundedCoefs nearest53 Fp.c0_dc0_ddc0_ddc1_dc1_c1.evaluateAccelerationCurveAtTime (env ⟨0, 0, 0, 0, 0, 0, 0, 0⟩ (nth pts) 0 T t), _,
      Fp.c0_dc0_ddc0_ddc1_dc1_c1.evaluateAccelerationCurveAtTime, by simp [accelerationFp]; rfl, by simp [hl, degreeOf],
      fun k d g => ⟨FExp.computes_eval nearest53_rounding (env d (nth pts) g T t) (Fp.c0_dc0_ddc0_ddc1_dc1_c1.evaluateAccelerationCurveAtTime k).1,
        FExp.computes_eval nearest53_rounding (env d (nth pts) g T t) (Fp.c0_dc0_ddc0_ddc1_dc1_c1.evaluateAccelerationCurveAtTime k).2⟩⟩
  · obtain ⟨-, pts, hp⟩ := C81_answers _ (by simp [comFlags]) d T hd
    exact ⟨pts, roundedCoefs nearest53 Fp.c0_dc0_c1.computeFinalVelocityPoint (env d (nth pts) 0 T 0), hp,
      Fp.c0_dc0_c1.computeFinalVelocityPoint, by simp [finalVelocityFp],
      fun k g t => ⟨FExp.computes_eval nearest53_rounding (env d (nth pts) g T t) (Fp.c0_dc0_c1.computeFinalVelocityPoint k).1,
        FExp.computes_eval nearest53_rounding (env d (nth pts) g T t) (Fp.c0_dc0_c1.computeFinalVelocityPoint k).2⟩⟩
  · obtain ⟨-, pts, hp⟩ := C81_answers _ (by simp [comFlags]) d T hd
    exact ⟨pts, roundedCoefs nearest53 Fp.c0_dc0_dc1.computeFinalVelocityPoint (env d (nth pts) 0 T 0), hp,
      Fp.c0_dc0_dc1.computeFinalVelocityPoint, by simp [finalVelocityFp],
      fun k g t => ⟨FExp.computes_eval nearest53_rounding (env d (nth pts) g T t) (Fp.c0_dc0_dc1.computeFinalVelocityPoint k).1,
        FExp.computes_eval nearest53_rounding (env d (nth pts) g T t) (Fp.c0_dc0_dc1.computeFinalVelocityPoint k).2⟩⟩
  · obtain ⟨-, pts, hp⟩ := C81_answers _ (by simp [comFlags]) d T hd
    exact ⟨pts, roundedCoefs nearest53 Fp.c0_dc0_dc1_c1.computeFinalVelocityPoint (env d (nth pts) 0 T 0), hp,
      Fp.c0_dc0_dc1_c1.computeFinalVelocityPoint, by simp [finalVelocityFp],
      fun k g t => ⟨FExp.computes_eval nearest53_rounding (env d (nth pts) g T t) (Fp.c0_dc0_dc1_c1.computeFinalVelocityPoint k).1,
        FExp.computes_eval nearest53_rounding (env d (nth pts) g T t) (Fp.c0_dc0_dc1_c1.computeFinalVelocityPoint k).2⟩⟩
  · obtain ⟨-, pts, hp⟩ := C81_answers _ (by simp [comFlags]) d T hd
    exact ⟨pts, roundedCoefs nearest53 Fp.c0_dc0_ddc0.computeFinalVelocityPoint (env d (nth pts) 0 T 0), hp,
      Fp.c0_dc0_ddc0.computeFinalVelocityPoint, by simp [finalVelocityFp],
      fun k g t => ⟨FExp.computes_eval nearest53_rounding (env d (nth pts) g T t) (Fp.c0_dc0_ddc0.computeFinalVelocityPoint k).1,
        FExp.computes_eval nearest53_rounding (env d (nth pts) g T t) (Fp.c0_dc0_ddc0.computeFinalVelocityPoint k).2⟩⟩
  · obtain ⟨-, pts, hp⟩ := C81_answers _ (by simp [comFlags]) d T hd
    exact ⟨pts, roundedCoefs nearest53 Fp.c0_dc0_ddc0_c1.computeFinalVelocityPoint (env d (nth pts) 0 T 0), hp,
      Fp.c0_dc0_ddc0_c1.computeFinalVelocityPoint, by simp [finalVelocityFp],
      fun k g t => ⟨FExp.computes_eval nearest53_rounding (env d (nth pts) g T t) (Fp.c0_dc0_ddc0_c1.computeFinalVelocityPoint k).1,
        FExp.computes_eval nearest53_rounding (env d (nth pts) g T t) (Fp.c0_dc0_ddc0_c1.computeFinalVelocityPoint k).2⟩⟩
  · obtain ⟨-, pts, hp⟩ := C81_answers _ (by simp [comFlags]) d T hd
    exact ⟨pts, roundedCoefs nearest53 Fp.c0_dc0_ddc0_dc1_c1.computeFinalVelocityPoint (env d (nth pts) 0 T 0), hp,
      Fp.c0_dc0_ddc0_dc1_c1.computeFinalVelocityPoint, by simp [finalVelocityFp],
      fun k g t => ⟨FExp.computes_eval nearest53_rounding (env d (nth pts) g T t) (Fp.c0_dc0_ddc0_dc1_c1.computeFinalVelocityPoint k).1,
        FExp.computes_eval nearest53_rounding (env d (nth pts) g T t) (Fp.c0_dc0_ddc0_dc1_c1.computeFinalVelocityPoint k).2⟩⟩
  · obtain ⟨-, pts, hp⟩ := C81_answers _ (by simp [comFlags]) d T hd
    exact ⟨pts, roundedCoefs nearest53 Fp.c0_dc0_ddc0_ddc1_dc1_c1.computeFinalVelocityPoint (env d (nth pts) 0 T 0), hp,
      Fp.c0_dc0_ddc0_ddc1_dc1_c1.computeFinalVelocityPoint, by simp [finalVelocityFp],
      fun k g t => ⟨FExp.computes_eval nearest53_rounding (env d (nth pts) g T t) (Fp.c0_dc0_ddc0_ddc1_dc1_c1.computeFinalVelocityPoint k).1,
        FExp.computes_eval nearest53_rounding (env d (nth pts) g T t) (Fp.c0_dc0_ddc0_ddc1_dc1_c1.computeFinalVelocityPoint k).2⟩⟩

end Verif
