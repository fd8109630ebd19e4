import Verif.Model.Continuous
import Verif.BezLemmas
import Verif.SpecTraj

/-!
# Sub-curves and derivatives of curves given by lists of control points
-/

namespace Verif
open Matrix

section
variable {E F : Type} [AddCommGroup E] [Module ℝ E] [AddCommGroup F] [Module ℝ F]

theorem getD_map (f : E →ₗ[ℝ] F) (l : List E) (i : ℕ) : (l.map f).getD i 0 = f (l.getD i 0) := by
  simp only [List.getD, List.getElem?_map]
  cases l[i]? <;> simp

theorem bez_map_fun (f : E →ₗ[ℝ] F) (n : ℕ) (p : ℕ → E) (t : ℝ) :
    f (bez n p t) = bez n (fun i => f (p i)) t := by
  simp [bez, map_sum]

@[simp] theorem extractCtrl_length (P : List E) (a s : ℝ) : (extractCtrl P a s).length = P.length := by
  simp [extractCtrl]

theorem extractCtrl_map (f : E →ₗ[ℝ] F) (P : List E) (a s : ℝ) :
    (extractCtrl P a s).map f = extractCtrl (P.map f) a s := by
  unfold extractCtrl
  rw [List.map_map, List.length_map]
  refine List.map_congr_left fun k _ => ?_
  simp only [Function.comp, bez_map_fun, getD_map]

theorem bez_extract (P : List E) (hP : P ≠ []) (a s u : ℝ) :
    bez (P.length - 1) (fun i => (extractCtrl P a s).getD i 0) u
      = bez (P.length - 1) (fun i => P.getD i 0) (a + u * s * (1 - a)) := by
  have hpos : 0 < P.length := List.length_pos_iff.mpr hP
  rw [← bez_split_right, ← bez_split_left]
  apply bez_congr
  intro i hi
  simp only [extractCtrl, List.getD, List.getElem?_map]
  rw [List.getElem?_range (by omega)]
  rfl

theorem derivCtrl_length (P : List E) : (derivCtrl P).length = P.length - 1 := by
  simp [derivCtrl]

theorem derivCtrl_getD (P : List E) (i : ℕ) (hi : i + 1 < P.length) :
    (derivCtrl P).getD i 0 = ((P.length - 1 : ℕ) : ℝ) • (P.getD (i + 1) 0 - P.getD i 0) := by
  simp only [derivCtrl, List.getD, List.getElem?_zipWith, List.getElem?_tail]
  rw [List.getElem?_eq_getElem (show i < P.length by omega), List.getElem?_eq_getElem hi]
  rfl

theorem derivCtrl_map (f : E →ₗ[ℝ] F) (P : List E) : (derivCtrl P).map f = derivCtrl (P.map f) := by
  unfold derivCtrl
  apply List.ext_getElem
  · simp
  · intro i h1 h2
    simp

end

/-- Second derivative of a curve from its list of control points. -/
theorem curve_second (P : List V3) (n : ℕ) (hn : P.length = n + 3) (T : ℝ) :
    ∃ v, IsDeriv (curve (n + 2) (fun i => P.getD i 0) T) v ∧
      IsDeriv v (fun s => (T ^ 2)⁻¹ • bez n (fun i => (derivCtrl (derivCtrl P)).getD i 0) (s / T)) := by
  refine ⟨_, curve_isDeriv (n + 1) _ T, ?_⟩
  have h := curve_isDeriv n (hodo (n + 1 + 1) (fun i => P.getD i 0) T) T
  convert h using 1
  funext s
  unfold curve
  rw [← bez_smul]
  apply bez_congr
  intro i hi
  rw [derivCtrl_getD _ _ (by rw [derivCtrl_length]; omega), derivCtrl_getD _ _ (by omega),
    derivCtrl_getD _ _ (by omega), derivCtrl_length]
  simp only [hodo, hn]
  have e1 : ((n + 3 - 1 - 1 : ℕ) : ℝ) = (n : ℝ) + 1 := by
    rw [show n + 3 - 1 - 1 = n + 1 by omega]; push_cast; ring
  have e2 : ((n + 3 - 1 : ℕ) : ℝ) = (n : ℝ) + 2 := by
    rw [show n + 3 - 1 = n + 2 by omega]; push_cast; ring
  rw [e1, e2]
  push_cast
  rw [← smul_sub, ← smul_sub, smul_smul, smul_smul, smul_smul]
  congr 1
  by_cases hT : T = 0
  · subst hT; simp
  · field_simp; ring

/-- Evaluation of a 3x3 waypoint, as a linear map on the pair. -/
noncomputable def coefsAt (x : V3) : (ℝ × V3) →ₗ[ℝ] V3 where
  toFun q := q.1 • x + q.2
  map_add' a b := by simp only [Prod.fst_add, Prod.snd_add]; module
  map_smul' c a := by simp only [Prod.smul_fst, Prod.smul_snd, smul_eq_mul, RingHom.id_apply]; module

/-- A 3x3 waypoint evaluated at `x`. -/
noncomputable def Coefs.at (w : Coefs) (x : V3) : V3 := w.first • x + w.second

/-- Evaluation of a 6x3 waypoint (first rows), as a linear map. -/
noncomputable def headLin (x : V3) : (M3 × M3 × V3 × V3) →ₗ[ℝ] V3 where
  toFun q := q.1 *ᵥ x + q.2.2.1
  map_add' a b := by
    simp only [Prod.fst_add, Prod.snd_add, add_mulVec]; abel
  map_smul' c a := by
    simp only [Prod.smul_fst, Prod.smul_snd, smul_mulVec, RingHom.id_apply, smul_add]

/-- Evaluation of a 6x3 waypoint (last rows), as a linear map. -/
noncomputable def tailLin (x : V3) : (M3 × M3 × V3 × V3) →ₗ[ℝ] V3 where
  toFun q := q.2.1 *ᵥ x + q.2.2.2
  map_add' a b := by
    simp only [Prod.fst_add, Prod.snd_add, add_mulVec]; abel
  map_smul' c a := by
    simp only [Prod.smul_fst, Prod.smul_snd, smul_mulVec, RingHom.id_apply, smul_add]

/-- The waypoints of a sub-curve of a list of 3x3 waypoints. -/
noncomputable def subCoefs (P : List Coefs) (T t D : ℝ) : List Coefs :=
  (extractCtrl (P.map Coefs.toProd) (t / T) (((D + t) / T - t / T) / (1 - t / T))).map Coefs.ofProd

/-- The waypoints of a sub-curve of a list of 6x3 waypoints. -/
noncomputable def subWp6 (P : List Wp6) (T t D : ℝ) : List Wp6 :=
  (extractCtrl (P.map Wp6.toProd) (t / T) (((D + t) / T - t / T) / (1 - t / T))).map Wp6.ofProd

@[simp] theorem subCoefs_length (P : List Coefs) (T t D : ℝ) :
    (subCoefs P T t D).length = P.length := by simp [subCoefs]

@[simp] theorem subWp6_length (P : List Wp6) (T t D : ℝ) :
    (subWp6 P T t D).length = P.length := by simp [subWp6]

theorem extractCoefs_ok (P : List Coefs) (T t D : ℝ) (h0 : 0 ≤ t) (hD : 0 < D) (hT : t + D ≤ T) :
    extractCoefs P T t (D + t) = .ok (subCoefs P T t D) := by
  unfold extractCoefs extract subCoefs
  rw [if_neg (by simp only [not_or, not_lt]; exact ⟨h0, by linarith, by linarith, by linarith⟩),
    if_neg (by linarith)]
  rfl

theorem extractWp6_ok (P : List Wp6) (T t D : ℝ) (h0 : 0 ≤ t) (hD : 0 < D) (hT : t + D ≤ T) :
    extractWp6 P T t (D + t) = .ok (subWp6 P T t D) := by
  unfold extractWp6 extract subWp6
  rw [if_neg (by simp only [not_or, not_lt]; exact ⟨h0, by linarith, by linarith, by linarith⟩),
    if_neg (by linarith)]
  rfl

theorem sub_param {T t D : ℝ} (hT : 0 < T) (htT : t < T) (u : ℝ) :
    t / T + u * (((D + t) / T - t / T) / (1 - t / T)) * (1 - t / T) = (t + u * D) / T := by
  have : 1 - t / T ≠ 0 := by
    rw [ne_eq, sub_eq_zero]; intro h
    rw [eq_div_iff hT.ne'] at h; linarith
  rw [mul_assoc, div_mul_cancel₀ _ this]
  field_simp
  ring

/-- The sub-curve of 3x3 waypoints, evaluated at `x`. -/
theorem subCoefs_bez (P : List Coefs) (hP : P ≠ []) {T t D : ℝ} (hT : 0 < T) (htT : t < T)
    (x : V3) (u : ℝ) :
    bez (P.length - 1) (fun i => ((subCoefs P T t D).map (·.at x)).getD i 0) u
      = bez (P.length - 1) (fun i => (P.map (·.at x)).getD i 0) ((t + u * D) / T) := by
  have e : (subCoefs P T t D).map (·.at x)
      = extractCtrl (P.map (·.at x)) (t / T) (((D + t) / T - t / T) / (1 - t / T)) := by
    rw [subCoefs, List.map_map]
    have := extractCtrl_map (coefsAt x) (P.map Coefs.toProd) (t / T)
      (((D + t) / T - t / T) / (1 - t / T))
    rw [List.map_map] at this
    exact this
  rw [e]
  have := bez_extract (P.map (·.at x)) (by simpa using hP) (t / T)
    (((D + t) / T - t / T) / (1 - t / T)) u
  rw [List.length_map, sub_param hT htT] at this
  exact this

theorem subWp6_map (f : (M3 × M3 × V3 × V3) →ₗ[ℝ] V3) (g : Wp6 → V3)
    (hg : ∀ w, g w = f w.toProd) (P : List Wp6) (hP : P ≠ []) {T t D : ℝ} (hT : 0 < T) (htT : t < T)
    (u : ℝ) :
    bez (P.length - 1) (fun i => ((subWp6 P T t D).map g).getD i 0) u
      = bez (P.length - 1) (fun i => (P.map g).getD i 0) ((t + u * D) / T) := by
  have e : (subWp6 P T t D).map g
      = extractCtrl (P.map g) (t / T) (((D + t) / T - t / T) / (1 - t / T)) := by
    rw [subWp6, List.map_map]
    have := extractCtrl_map f (P.map Wp6.toProd) (t / T) (((D + t) / T - t / T) / (1 - t / T))
    rw [List.map_map] at this
    have e1 : (f ∘ Wp6.toProd) = g := by funext w; exact (hg w).symm
    have e2 : (g ∘ Wp6.ofProd) = f := by funext w; rw [Function.comp, hg]; rfl
    rw [e2]
    rw [e1] at this
    exact this
  rw [e]
  have := bez_extract (P.map g) (by simpa using hP) (t / T)
    (((D + t) / T - t / T) / (1 - t / T)) u
  rw [List.length_map, sub_param hT htT] at this
  exact this

theorem map_getD_bang (P : List Wp6) (g : Wp6 → V3) (n : ℕ) (hn : P.length = n + 1) (u : ℝ) :
    bez n (fun i => (P.map g).getD i 0) u = bez n (fun i => g (P[i]!)) u := by
  apply bez_congr
  intro i hi
  have : i < P.length := by omega
  simp [List.getD, this]

/-- The sub-curve of the wrench waypoints, first rows. -/
theorem subWp6_head (P : List Wp6) (hP : P ≠ []) {T t D : ℝ} (hT : 0 < T) (htT : t < T)
    (x : V3) (u : ℝ) :
    bez (P.length - 1) (fun i => ((subWp6 P T t D).map (·.headAt x)).getD i 0) u
      = headCurve P x ((t + u * D) / T) := by
  have hpos : 0 < P.length := List.length_pos_iff.mpr hP
  rw [subWp6_map (headLin x) (·.headAt x) (fun w => rfl) P hP hT htT, headCurve,
    map_getD_bang P _ (P.length - 1) (by omega)]

/-- The sub-curve of the wrench waypoints, last rows. -/
theorem subWp6_tail (P : List Wp6) (hP : P ≠ []) {T t D : ℝ} (hT : 0 < T) (htT : t < T)
    (x : V3) (u : ℝ) :
    bez (P.length - 1) (fun i => ((subWp6 P T t D).map (·.tailAt x)).getD i 0) u
      = tailCurve P x ((t + u * D) / T) := by
  have hpos : 0 < P.length := List.length_pos_iff.mpr hP
  rw [subWp6_map (tailLin x) (·.tailAt x) (fun w => rfl) P hP hT htT, tailCurve,
    map_getD_bang P _ (P.length - 1) (by omega)]

theorem secondDeriv_length (κ : ℝ) (P : List Coefs) : (secondDeriv κ P).length = P.length - 1 - 1 := by
  simp [secondDeriv, derivCtrl_length]

theorem secondDeriv_at (κ : ℝ) (P : List Coefs) (x : V3) :
    (secondDeriv κ P).map (·.at x) = (derivCtrl (derivCtrl (P.map (·.at x)))).map (κ • ·) := by
  have e : P.map (·.at x) = (P.map Coefs.toProd).map (coefsAt x) := by
    rw [List.map_map]; rfl
  rw [e, ← derivCtrl_map, ← derivCtrl_map, secondDeriv, List.map_map, List.map_map]
  refine List.map_congr_left fun q _ => ?_
  change (coefsAt x) (κ • q) = κ • coefsAt x q
  exact map_smul _ _ _

end Verif
