import Verif.Model.WaypointsFp
import Verif.Lemmas.FpShapes
import Verif.Props.C09

/-!
# C81: boundary conditions with rounded arithmetic
-/

namespace Verif
open FExp

/-! ## Specification -/

/-- The curve `c` of degree `n`, traversed over `[0,T]`, meets the boundary conditions requested by the flag: the
positions exactly, velocities, accelerations and jerks up to the relative errors of 3, 7 and 11 roundings of the terms they
are computed from. -/
def MeetsBoundaryFp (u : ℝ) (n : ℝ) (flag : BitVec 32) (d : BC) (c : ℝ → V3) (T : ℝ) : Prop :=
  ∃ v a j : ℝ → V3, IsDeriv c v ∧ IsDeriv v a ∧ IsDeriv a j ∧
    (flag.getLsbD 0 = true → c 0 = d.c0) ∧
    (flag.getLsbD 1 = true → ∀ k, |v 0 k - d.dc0 k| ≤ gam 3 u * (|d.dc0 k| + n / T * |d.c0 k|)) ∧
    (flag.getLsbD 2 = true → ∀ k, |a 0 k - d.ddc0 k| ≤
      gam 7 u * (|d.ddc0 k| + 4 * (n - 1) / T * |d.dc0 k| + 3 * n * (n - 1) / T ^ 2 * |d.c0 k|)) ∧
    (flag.getLsbD 6 = true → ∀ k, |j 0 k - d.j0 k| ≤
      gam 11 u * (|d.j0 k| + 6 * (n - 2) / T * |d.ddc0 k| + 12 * (n - 1) * (n - 2) / T ^ 2 * |d.dc0 k| +
        7 * n * (n - 1) * (n - 2) / T ^ 3 * |d.c0 k|)) ∧
    (flag.getLsbD 3 = true → c T = d.c1) ∧
    (flag.getLsbD 4 = true → ∀ k, |v T k - d.dc1 k| ≤ gam 3 u * (|d.dc1 k| + n / T * |d.c1 k|)) ∧
    (flag.getLsbD 5 = true → ∀ k, |a T k - d.ddc1 k| ≤
      gam 7 u * (|d.ddc1 k| + 4 * (n - 1) / T * |d.dc1 k| + 3 * n * (n - 1) / T ^ 2 * |d.c1 k|)) ∧
    (flag.getLsbD 7 = true → ∀ k, |j T k - d.j1 k| ≤
      gam 11 u * (|d.j1 k| + 6 * (n - 2) / T * |d.ddc1 k| + 12 * (n - 1) * (n - 2) / T ^ 2 * |d.dc1 k| +
        7 * n * (n - 1) * (n - 2) / T ^ 3 * |d.c1 k|))

/-! ## Without rounding -/

theorem FExp.computes_zero (ρ : Var → ℝ) (e : FExp) : ∀ r, e.Computes 0 ρ r ↔ r = e.exact ρ := by
  have hz : ∀ x r, RoundsTo 0 x r ↔ r = x := by
    intro x r
    unfold RoundsTo
    rw [zero_mul, abs_nonpos_iff, sub_eq_zero]
  induction e with
  | lit n => intro r; rfl
  | dec q => intro r; exact hz _ _
  | var v => intro r; rfl
  | neg a ih => intro r; simp [Computes, exact, ih]
  | add a b iha ihb => intro r; simp [Computes, exact, iha, ihb, hz]
  | sub a b iha ihb => intro r; simp [Computes, exact, iha, ihb, hz]
  | mul a b iha ihb => intro r; simp [Computes, exact, iha, ihb, hz]
  | div a b iha ihb => intro r; simp [Computes, exact, iha, ihb, hz]


theorem points_exact {es : Fin 3 → List FExp} {l : List V3} {ρ : Var → ℝ} (pts : List V3)
    (h : ∀ k, (es k).map (FExp.exact ρ) = l.map (fun p => p k)) :
    (∀ k, pts.length = (es k).length ∧ ∀ (i : ℕ) (e : FExp), (es k)[i]? = some e → e.Computes 0 ρ (nth pts i k)) ↔ pts = l := by
  have hlen : ∀ k, (es k).length = l.length := fun k => by simpa using congrArg List.length (h k)
  have hget : ∀ k (i : ℕ) (e : FExp), (es k)[i]? = some e → ∃ hi : i < l.length, l[i] k = e.exact ρ := by
    intro k i e he
    have hi : i < (es k).length := by
      by_contra hc
      rw [List.getElem?_eq_none (not_lt.mp hc)] at he
      cases he
    have hi' : i < l.length := hlen k ▸ hi
    refine ⟨hi', ?_⟩
    have := congrArg (fun z : List ℝ => z[i]?) (h k)
    simp only [List.getElem?_map, he, List.getElem?_eq_getElem hi', Option.map_some, Option.some.injEq] at this
    exact this.symm
  constructor
  · intro H
    apply List.ext_getElem
    · rw [(H 0).1, hlen]
    · intro i h1 h2
      funext k
      have hi : i < (es k).length := by rw [hlen]; exact h2
      have hc := (FExp.computes_zero ρ _ _).mp ((H k).2 i _ (List.getElem?_eq_getElem hi))
      obtain ⟨_, hl⟩ := hget k i _ (List.getElem?_eq_getElem hi)
      rw [hl, ← hc]
      simp [nth, List.getD, h1]
  · rintro rfl k
    refine ⟨(hlen k).symm, fun i e he => ?_⟩
    obtain ⟨hi, hl⟩ := hget k i e he
    rw [FExp.computes_zero, ← hl]
    simp [nth, List.getD, hi]

set_option linter.unusedSimpArgs false in
/-- The model generalises the exact one. -/
theorem constantWaypointsFp_zero (flag : Flag) (d : BC) (T : ℝ) (pts : List V3) :
    ConstantWaypointsFp 0 flag d T pts ↔ computeConstantWaypoints flag d T = .ok pts := by
  unfold ConstantWaypointsFp pointsFp computeConstantWaypoints
  by_cases h : flag = c0_dc0_c1.flag
  · have key := points_exact (es := Fp.c0_dc0_c1.computeConstantWaypoints) (l := c0_dc0_c1.computeConstantWaypoints d T)
      (ρ := env d 0 0 T 0) pts (fun k => by
        simp [Fp.c0_dc0_c1.computeConstantWaypoints, c0_dc0_c1.computeConstantWaypoints, Fp.c0, Fp.dc0, Fp.ddc0, Fp.j0, Fp.c1, Fp.dc1,
          Fp.ddc1, Fp.j1, Fp.T, env])
    rw [if_pos h, if_pos h]
    simp only [Option.some.injEq, exists_eq_left', key, Out.ok.injEq]
    subst h
    simp [eq_comm]
  rw [if_neg h, if_neg h]
  clear h
  by_cases h : flag = c0_dc0_dc1.flag
  · have key := points_exact (es := Fp.c0_dc0_dc1.computeConstantWaypoints) (l := c0_dc0_dc1.computeConstantWaypoints d T)
      (ρ := env d 0 0 T 0) pts (fun k => by
        simp [Fp.c0_dc0_dc1.computeConstantWaypoints, c0_dc0_dc1.computeConstantWaypoints, Fp.c0, Fp.dc0, Fp.ddc0, Fp.j0, Fp.c1, Fp.dc1,
          Fp.ddc1, Fp.j1, Fp.T, env])
    rw [if_pos h, if_pos h]
    simp only [Option.some.injEq, exists_eq_left', key, Out.ok.injEq]
    subst h
    by_cases hd : d.dc1 = 0
    · simp [hd, eq_comm]
    · simp [hd]
  rw [if_neg h, if_neg h]
  clear h
  by_cases h : flag = c0_dc0_dc1_c1.flag
  · have key := points_exact (es := Fp.c0_dc0_dc1_c1.computeConstantWaypoints) (l := c0_dc0_dc1_c1.computeConstantWaypoints d T)
      (ρ := env d 0 0 T 0) pts (fun k => by
        simp [Fp.c0_dc0_dc1_c1.computeConstantWaypoints, c0_dc0_dc1_c1.computeConstantWaypoints, Fp.c0, Fp.dc0, Fp.ddc0, Fp.j0, Fp.c1, Fp.dc1,
          Fp.ddc1, Fp.j1, Fp.T, env])
    rw [if_pos h, if_pos h]
    simp only [Option.some.injEq, exists_eq_left', key, Out.ok.injEq]
    subst h
    simp [eq_comm]
  rw [if_neg h, if_neg h]
  clear h
  by_cases h : flag = c0_dc0_ddc0.flag
  · have key := points_exact (es := Fp.c0_dc0_ddc0.computeConstantWaypoints) (l := c0_dc0_ddc0.computeConstantWaypoints d T)
      (ρ := env d 0 0 T 0) pts (fun k => by
        simp [Fp.c0_dc0_ddc0.computeConstantWaypoints, c0_dc0_ddc0.computeConstantWaypoints, Fp.c0, Fp.dc0, Fp.ddc0, Fp.j0, Fp.c1, Fp.dc1,
          Fp.ddc1, Fp.j1, Fp.T, env])
    rw [if_pos h, if_pos h]
    simp only [Option.some.injEq, exists_eq_left', key, Out.ok.injEq]
    subst h
    simp [eq_comm]
  rw [if_neg h, if_neg h]
  clear h
  by_cases h : flag = c0_dc0_ddc0_c1.flag
  · have key := points_exact (es := Fp.c0_dc0_ddc0_c1.computeConstantWaypoints) (l := c0_dc0_ddc0_c1.computeConstantWaypoints d T)
      (ρ := env d 0 0 T 0) pts (fun k => by
        simp [Fp.c0_dc0_ddc0_c1.computeConstantWaypoints, c0_dc0_ddc0_c1.computeConstantWaypoints, Fp.c0, Fp.dc0, Fp.ddc0, Fp.j0, Fp.c1, Fp.dc1,
          Fp.ddc1, Fp.j1, Fp.T, env])
    rw [if_pos h, if_pos h]
    simp only [Option.some.injEq, exists_eq_left', key, Out.ok.injEq]
    subst h
    simp [eq_comm]
  rw [if_neg h, if_neg h]
  clear h
  by_cases h : flag = c0_dc0_ddc0_dc1_c1.flag
  · have key := points_exact (es := Fp.c0_dc0_ddc0_dc1_c1.computeConstantWaypoints) (l := c0_dc0_ddc0_dc1_c1.computeConstantWaypoints d T)
      (ρ := env d 0 0 T 0) pts (fun k => by
        simp [Fp.c0_dc0_ddc0_dc1_c1.computeConstantWaypoints, c0_dc0_ddc0_dc1_c1.computeConstantWaypoints, Fp.c0, Fp.dc0, Fp.ddc0, Fp.j0, Fp.c1, Fp.dc1,
          Fp.ddc1, Fp.j1, Fp.T, env])
    rw [if_pos h, if_pos h]
    simp only [Option.some.injEq, exists_eq_left', key, Out.ok.injEq]
    subst h
    simp [eq_comm]
  rw [if_neg h, if_neg h]
  clear h
  by_cases h : flag = c0_dc0_ddc0_ddc1_dc1_c1.flag
  · have key := points_exact (es := Fp.c0_dc0_ddc0_ddc1_dc1_c1.computeConstantWaypoints) (l := c0_dc0_ddc0_ddc1_dc1_c1.computeConstantWaypoints d T)
      (ρ := env d 0 0 T 0) pts (fun k => by
        simp [Fp.c0_dc0_ddc0_ddc1_dc1_c1.computeConstantWaypoints, c0_dc0_ddc0_ddc1_dc1_c1.computeConstantWaypoints, Fp.c0, Fp.dc0, Fp.ddc0, Fp.j0, Fp.c1, Fp.dc1,
          Fp.ddc1, Fp.j1, Fp.T, env])
    rw [if_pos h, if_pos h]
    simp only [Option.some.injEq, exists_eq_left', key, Out.ok.injEq]
    subst h
    simp [eq_comm]
  rw [if_neg h, if_neg h]
  clear h
  by_cases h : flag = c0_dc0_ddc0_j0_j1_ddc1_dc1_c1.flag
  · have key := points_exact (es := Fp.c0_dc0_ddc0_j0_j1_ddc1_dc1_c1.computeConstantWaypoints) (l := c0_dc0_ddc0_j0_j1_ddc1_dc1_c1.computeConstantWaypoints d T)
      (ρ := env d 0 0 T 0) pts (fun k => by
        simp [Fp.c0_dc0_ddc0_j0_j1_ddc1_dc1_c1.computeConstantWaypoints, c0_dc0_ddc0_j0_j1_ddc1_dc1_c1.computeConstantWaypoints, Fp.c0, Fp.dc0, Fp.ddc0, Fp.j0, Fp.c1, Fp.dc1,
          Fp.ddc1, Fp.j1, Fp.T, env])
    rw [if_pos h, if_pos h]
    simp only [Option.some.injEq, exists_eq_left', key, Out.ok.injEq]
    subst h
    simp [eq_comm]
  rw [if_neg h, if_neg h]
  clear h
  by_cases h : flag = c0_dc0_ddc0_j0_x3_j1_ddc1_dc1_c1.flag
  · have key := points_exact (es := Fp.c0_dc0_ddc0_j0_x3_j1_ddc1_dc1_c1.computeConstantWaypoints) (l := c0_dc0_ddc0_j0_x3_j1_ddc1_dc1_c1.computeConstantWaypoints d T)
      (ρ := env d 0 0 T 0) pts (fun k => by
        simp [Fp.c0_dc0_ddc0_j0_x3_j1_ddc1_dc1_c1.computeConstantWaypoints, c0_dc0_ddc0_j0_x3_j1_ddc1_dc1_c1.computeConstantWaypoints, Fp.c0, Fp.dc0, Fp.ddc0, Fp.j0, Fp.c1, Fp.dc1,
          Fp.ddc1, Fp.j1, Fp.T, env])
    rw [if_pos h, if_pos h]
    simp only [Option.some.injEq, exists_eq_left', key, Out.ok.injEq]
    subst h
    simp [eq_comm]
  rw [if_neg h, if_neg h]
  clear h
  by_cases h : flag = c0_dc0_ddc0_j0_x5_j1_ddc1_dc1_c1.flag
  · have key := points_exact (es := Fp.c0_dc0_ddc0_j0_x5_j1_ddc1_dc1_c1.computeConstantWaypoints) (l := c0_dc0_ddc0_j0_x5_j1_ddc1_dc1_c1.computeConstantWaypoints d T)
      (ρ := env d 0 0 T 0) pts (fun k => by
        simp [Fp.c0_dc0_ddc0_j0_x5_j1_ddc1_dc1_c1.computeConstantWaypoints, c0_dc0_ddc0_j0_x5_j1_ddc1_dc1_c1.computeConstantWaypoints, Fp.c0, Fp.dc0, Fp.ddc0, Fp.j0, Fp.c1, Fp.dc1,
          Fp.ddc1, Fp.j1, Fp.T, env])
    rw [if_pos h, if_pos h]
    simp only [Option.some.injEq, exists_eq_left', key, Out.ok.injEq]
    subst h
    simp [eq_comm]
  rw [if_neg h, if_neg h]
  clear h
  simp

/-! ## The theorem -/

theorem meets_fp (u : ℝ) (m : ℕ) (q : ℕ → V3) (T : ℝ) (hT : T ≠ 0) (flag : BitVec 32) (d : BC) (n : ℝ) (hn : n = m + 3)
    (h0 : q 0 = d.c0)
    (h1 : flag.getLsbD 1 = true → ∀ k, |n / T * (q 1 k - d.c0 k) - d.dc0 k| ≤ gam 3 u * (|d.dc0 k| + n / T * |d.c0 k|))
    (h2 : flag.getLsbD 2 = true → ∀ k, |(n - 1) / T * (n / T * (q 2 k - q 1 k) - n / T * (q 1 k - d.c0 k)) - d.ddc0 k| ≤
      gam 7 u * (|d.ddc0 k| + 4 * (n - 1) / T * |d.dc0 k| + 3 * n * (n - 1) / T ^ 2 * |d.c0 k|))
    (h6 : flag.getLsbD 6 = true → ∀ k, |(n - 2) / T * ((n - 1) / T * (n / T * (q 3 k - q 2 k) - n / T * (q 2 k - q 1 k)) -
        (n - 1) / T * (n / T * (q 2 k - q 1 k) - n / T * (q 1 k - d.c0 k))) - d.j0 k| ≤
      gam 11 u * (|d.j0 k| + 6 * (n - 2) / T * |d.ddc0 k| + 12 * (n - 1) * (n - 2) / T ^ 2 * |d.dc0 k| +
        7 * n * (n - 1) * (n - 2) / T ^ 3 * |d.c0 k|))
    (h3 : flag.getLsbD 3 = true → q (m + 3) = d.c1)
    (h4 : flag.getLsbD 4 = true → ∀ k, |n / T * (q (m + 3) k - q (m + 2) k) - d.dc1 k| ≤ gam 3 u * (|d.dc1 k| + n / T * |d.c1 k|))
    (h5 : flag.getLsbD 5 = true → ∀ k, |(n - 1) / T * (n / T * (q (m + 3) k - q (m + 2) k) - n / T * (q (m + 2) k - q (m + 1) k)) - d.ddc1 k| ≤
      gam 7 u * (|d.ddc1 k| + 4 * (n - 1) / T * |d.dc1 k| + 3 * n * (n - 1) / T ^ 2 * |d.c1 k|))
    (h7 : flag.getLsbD 7 = true → ∀ k, |(n - 2) / T * ((n - 1) / T * (n / T * (q (m + 3) k - q (m + 2) k) - n / T * (q (m + 2) k - q (m + 1) k)) -
        (n - 1) / T * (n / T * (q (m + 2) k - q (m + 1) k) - n / T * (q (m + 1) k - q m k))) - d.j1 k| ≤
      gam 11 u * (|d.j1 k| + 6 * (n - 2) / T * |d.ddc1 k| + 12 * (n - 1) * (n - 2) / T ^ 2 * |d.dc1 k| +
        7 * n * (n - 1) * (n - 2) / T ^ 3 * |d.c1 k|)) :
    MeetsBoundaryFp u n flag d (curve (m + 3) q T) T := by
  have c3 : ((m + 3 : ℕ) : ℝ) = n := by rw [hn]; push_cast; ring
  have c2 : ((m + 2 : ℕ) : ℝ) = n - 1 := by rw [hn]; push_cast; ring
  have c1 : ((m + 1 : ℕ) : ℝ) = n - 2 := by rw [hn]; push_cast; ring
  refine ⟨_, _, _, curve_isDeriv (m + 2) q T, curve_isDeriv (m + 1) _ T, curve_isDeriv m _ T, ?_, ?_, ?_, ?_, ?_, ?_, ?_, ?_⟩
  · rw [curve_zero]; exact fun _ => h0
  · intro hb k
    rw [curve_zero]
    have := h1 hb k
    rw [← h0] at this ⊢
    simpa only [hodo, c3, Pi.smul_apply, Pi.sub_apply, smul_eq_mul, zero_add] using this
  · intro hb k
    rw [curve_zero]
    have := h2 hb k
    rw [← h0] at this ⊢
    simpa only [hodo, c3, c2, Pi.smul_apply, Pi.sub_apply, smul_eq_mul, zero_add] using this
  · intro hb k
    rw [curve_zero]
    have := h6 hb k
    rw [← h0] at this ⊢
    simpa only [hodo, c3, c2, c1, Pi.smul_apply, Pi.sub_apply, smul_eq_mul, zero_add] using this
  · rw [curve_end _ _ _ hT]; exact h3
  · intro hb k
    rw [curve_end _ _ _ hT]
    simpa only [hodo, c3, Pi.smul_apply, Pi.sub_apply, smul_eq_mul] using h4 hb k
  · intro hb k
    rw [curve_end _ _ _ hT]
    simpa only [hodo, c3, c2, Pi.smul_apply, Pi.sub_apply, smul_eq_mul] using h5 hb k
  · intro hb k
    rw [curve_end _ _ _ hT]
    simpa only [hodo, c3, c2, c1, Pi.smul_apply, Pi.sub_apply, smul_eq_mul] using h7 hb k

theorem jet_v' {T n g c d q1 : ℝ} (hT : 0 < T) (hn : 2 < n) (h1 : |q1 - (-d * T / n + c)| ≤ g * (|d| * T / n + |c|)) :
    |n / T * (c - q1) - d| ≤ g * (|d| + n / T * |c|) := by
  have := jet_v hT hn (d := -d) (c := c) (q1 := q1) (g := g) (by simpa only [abs_neg] using h1)
  rw [abs_neg] at this
  rwa [← abs_neg, show -(n / T * (c - q1) - d) = n / T * (q1 - c) - -d by ring]

theorem jet_a' {T n g c d q1 dd q2 : ℝ} (hT : 0 < T) (hn : 2 < n) (h1 : |q1 - (-d * T / n + c)| ≤ g * (|d| * T / n + |c|))
    (h2 : |q2 - (dd * T * T / (n * (n - 1)) - 2 * d * T / n + c)| ≤ g * (|dd| * T * T / (n * (n - 1)) + 2 * |d| * T / n + |c|)) :
    |(n - 1) / T * (n / T * (c - q1) - n / T * (q1 - q2)) - dd| ≤
      g * (|dd| + 4 * (n - 1) / T * |d| + 3 * n * (n - 1) / T ^ 2 * |c|) := by
  have := jet_a hT hn (d := -d) (c := c) (q1 := q1) (g := g) (dd := dd) (q2 := q2) (by simpa only [abs_neg] using h1)
    (by rw [abs_neg]; convert h2 using 3; ring)
  rw [abs_neg] at this
  rwa [show (n - 1) / T * (n / T * (c - q1) - n / T * (q1 - q2)) - dd = (n - 1) / T * (n / T * (q2 - q1) - n / T * (q1 - c)) - dd by ring]

theorem jet_j' {T n g c d q1 dd q2 j q3 : ℝ} (hT : 0 < T) (hn : 2 < n) (h1 : |q1 - (-d * T / n + c)| ≤ g * (|d| * T / n + |c|))
    (h2 : |q2 - (dd * T * T / (n * (n - 1)) - 2 * d * T / n + c)| ≤ g * (|dd| * T * T / (n * (n - 1)) + 2 * |d| * T / n + |c|))
    (h3 : |q3 - (-j * T * T * T / (n * (n - 1) * (n - 2)) + 3 * dd * T * T / (n * (n - 1)) - 3 * d * T / n + c)| ≤
      g * (|j| * T * T * T / (n * (n - 1) * (n - 2)) + 3 * |dd| * T * T / (n * (n - 1)) + 3 * |d| * T / n + |c|)) :
    |(n - 2) / T * ((n - 1) / T * (n / T * (c - q1) - n / T * (q1 - q2)) - (n - 1) / T * (n / T * (q1 - q2) - n / T * (q2 - q3))) - j| ≤
      g * (|j| + 6 * (n - 2) / T * |dd| + 12 * (n - 1) * (n - 2) / T ^ 2 * |d| + 7 * n * (n - 1) * (n - 2) / T ^ 3 * |c|) := by
  have := jet_j hT hn (d := -d) (c := c) (q1 := q1) (g := g) (dd := dd) (q2 := q2) (j := -j) (q3 := q3)
    (by simpa only [abs_neg] using h1) (by rw [abs_neg]; convert h2 using 3; ring) (by rw [abs_neg, abs_neg]; convert h3 using 3; ring)
  rw [abs_neg, abs_neg] at this
  rw [← abs_neg]
  convert this using 2
  ring

/-- A larger constant. -/
theorem weaken {x g g' m : ℝ} (h : |x| ≤ g * m) (hg : g ≤ g') (hm : 0 ≤ m) : |x| ≤ g' * m :=
  h.trans (mul_le_mul_of_nonneg_right hg hm)

/-- C81. For each of the seven CoM constraint sets, whatever the free point `x`, the curve over `[0,T]` built on the
waypoints that `computeConstantWaypoints` returns with rounded arithmetic starts and ends at the requested positions and
meets the other boundary conditions selected by the flag up to the stated rounding error. -/
theorem C81_boundary {u : ℝ} (h0 : 0 ≤ u) (hu : (11 : ℕ) * u < 1) (flag : Flag) (hf : flag ∈ comFlags) (d : BC) (T : ℝ) (hT : 0 < T)
    (pts : List V3) (h : ConstantWaypointsFp u flag d T pts) (x : V3) :
    pts.length = degreeOf flag + 1 ∧
      MeetsBoundaryFp u (degreeOf flag) flag d (curve (degreeOf flag) (fill flag (nth pts) x) T) T := by
  obtain ⟨hd, es, hes, H⟩ := h
  have hu3 : (3 : ℕ) * u < 1 := by push_cast at hu ⊢; linarith
  have hu7 : (7 : ℕ) * u < 1 := by push_cast at hu ⊢; linarith
  have g37 : gam 3 u ≤ gam 7 u := gam_mono h0 (by norm_num) hu7
  have g311 : gam 3 u ≤ gam 11 u := gam_mono h0 (by norm_num) hu
  have g711 : gam 7 u ≤ gam 11 u := gam_mono h0 (by norm_num) hu
  simp only [comFlags, List.mem_cons, List.not_mem_nil, or_false] at hf
  rcases hf with rfl | rfl | rfl | rfl | rfl | rfl | rfl
  · have hes' : Fp.c0_dc0_c1.computeConstantWaypoints = es := by simpa [pointsFp] using hes
    subst hes'
    have hq : ∀ i, i ∉ [2] → fill 11#32 (nth pts) x i = nth pts i := fun i hi => by simp only [fill, freeSlots] at *; simp_all
    refine ⟨(H 0).1, ?_⟩
    change MeetsBoundaryFp u ((3 : ℕ) : ℝ) _ d (curve (0 + 3) _ T) T
    have hn : (2 : ℝ) < ((3 : ℕ) : ℝ) := by norm_num
    have E1 := fun k => shape1 h0 hT (ρ := env d 0 0 T 0) rfl 3 (by norm_num) hu3 (.dc0 k) (.c0 k) ((H k).2 1 _ rfl)
    have C1 : nth pts 3 = d.c1 := funext fun k => (H k).2 3 _ rfl
    refine meets_fp u 0 _ T hT.ne' _ d _ (by norm_num) ?_ ?_ ?_ ?_ ?_ ?_ ?_ ?_
    · rw [hq 0 (by decide)]; exact funext fun k => (H k).2 0 _ rfl
    · intro _ k
      rw [hq 1 (by decide)]
      exact jet_v hT hn (E1 k)
    · intro hb; exact absurd hb (by decide)
    · intro hb; exact absurd hb (by decide)
    · intro _
      rw [hq _ (by decide)]; exact C1
    · intro hb; exact absurd hb (by decide)
    · intro hb; exact absurd hb (by decide)
    · intro hb; exact absurd hb (by decide)
  · have hes' : Fp.c0_dc0_dc1.computeConstantWaypoints = es := by simpa [pointsFp] using hes
    subst hes'
    have hq : ∀ i, i ∉ [2, 3] → fill 19#32 (nth pts) x i = nth pts i := fun i hi => by simp only [fill, freeSlots] at *; simp_all
    refine ⟨(H 0).1, ?_⟩
    change MeetsBoundaryFp u ((3 : ℕ) : ℝ) _ d (curve (0 + 3) _ T) T
    have hn : (2 : ℝ) < ((3 : ℕ) : ℝ) := by norm_num
    have E1 := fun k => shape1 h0 hT (ρ := env d 0 0 T 0) rfl 3 (by norm_num) hu3 (.dc0 k) (.c0 k) ((H k).2 1 _ rfl)
    refine meets_fp u 0 _ T hT.ne' _ d _ (by norm_num) ?_ ?_ ?_ ?_ ?_ ?_ ?_ ?_
    · rw [hq 0 (by decide)]; exact funext fun k => (H k).2 0 _ rfl
    · intro _ k
      rw [hq 1 (by decide)]
      exact jet_v hT hn (E1 k)
    · intro hb; exact absurd hb (by decide)
    · intro hb; exact absurd hb (by decide)
    · intro hb; exact absurd hb (by decide)
    · intro _ k
      have hd' := hd rfl
      have e : fill 19#32 (nth pts) x (0 + 3) k - fill 19#32 (nth pts) x (0 + 2) k = 0 := by simp [fill, freeSlots]
      rw [e, hd', mul_zero, Pi.zero_apply, sub_zero, abs_zero]
      have := gam_nonneg h0 hu3
      positivity
    · intro hb; exact absurd hb (by decide)
    · intro hb; exact absurd hb (by decide)
  · have hes' : Fp.c0_dc0_dc1_c1.computeConstantWaypoints = es := by simpa [pointsFp] using hes
    subst hes'
    have hq : ∀ i, i ∉ [2] → fill 27#32 (nth pts) x i = nth pts i := fun i hi => by simp only [fill, freeSlots] at *; simp_all
    refine ⟨(H 0).1, ?_⟩
    change MeetsBoundaryFp u ((4 : ℕ) : ℝ) _ d (curve (1 + 3) _ T) T
    have hn : (2 : ℝ) < ((4 : ℕ) : ℝ) := by norm_num
    have E1 := fun k => shape1 h0 hT (ρ := env d 0 0 T 0) rfl 4 (by norm_num) hu3 (.dc0 k) (.c0 k) ((H k).2 1 _ rfl)
    have F1 := fun k => shape1n h0 hT (ρ := env d 0 0 T 0) rfl 4 (by norm_num) hu3 (.dc1 k) (.c1 k) ((H k).2 3 _ rfl)
    have C1 : nth pts 4 = d.c1 := funext fun k => (H k).2 4 _ rfl
    refine meets_fp u 1 _ T hT.ne' _ d _ (by norm_num) ?_ ?_ ?_ ?_ ?_ ?_ ?_ ?_
    · rw [hq 0 (by decide)]; exact funext fun k => (H k).2 0 _ rfl
    · intro _ k
      rw [hq 1 (by decide)]
      exact jet_v hT hn (E1 k)
    · intro hb; exact absurd hb (by decide)
    · intro hb; exact absurd hb (by decide)
    · intro _
      rw [hq _ (by decide)]; exact C1
    · intro _ k
      rw [hq _ (by decide), hq _ (by decide)]
      change |_ / T * (nth pts 4 k - _) - _| ≤ _
      rw [C1]
      exact jet_v' hT hn (F1 k)
    · intro hb; exact absurd hb (by decide)
    · intro hb; exact absurd hb (by decide)
  · have hes' : Fp.c0_dc0_ddc0.computeConstantWaypoints = es := by simpa [pointsFp] using hes
    subst hes'
    have hq : ∀ i, i ∉ [3] → fill 7#32 (nth pts) x i = nth pts i := fun i hi => by simp only [fill, freeSlots] at *; simp_all
    refine ⟨(H 0).1, ?_⟩
    change MeetsBoundaryFp u ((3 : ℕ) : ℝ) _ d (curve (0 + 3) _ T) T
    have hn : (2 : ℝ) < ((3 : ℕ) : ℝ) := by norm_num
    have E1 := fun k => shape1 h0 hT (ρ := env d 0 0 T 0) rfl 3 (by norm_num) hu3 (.dc0 k) (.c0 k) ((H k).2 1 _ rfl)
    have E2 := fun k => shape2 h0 hT (ρ := env d 0 0 T 0) rfl 3 (by norm_num) hu7 (.ddc0 k) (.dc0 k) (.c0 k) ((H k).2 2 _ rfl)
    refine meets_fp u 0 _ T hT.ne' _ d _ (by norm_num) ?_ ?_ ?_ ?_ ?_ ?_ ?_ ?_
    · rw [hq 0 (by decide)]; exact funext fun k => (H k).2 0 _ rfl
    · intro _ k
      rw [hq 1 (by decide)]
      exact jet_v hT hn (E1 k)
    · intro _ k
      rw [hq 1 (by decide), hq 2 (by decide)]
      exact jet_a hT hn (weaken (E1 k) g37 (by positivity)) (E2 k)
    · intro hb; exact absurd hb (by decide)
    · intro hb; exact absurd hb (by decide)
    · intro hb; exact absurd hb (by decide)
    · intro hb; exact absurd hb (by decide)
    · intro hb; exact absurd hb (by decide)
  · have hes' : Fp.c0_dc0_ddc0_c1.computeConstantWaypoints = es := by simpa [pointsFp] using hes
    subst hes'
    have hq : ∀ i, i ∉ [3] → fill 15#32 (nth pts) x i = nth pts i := fun i hi => by simp only [fill, freeSlots] at *; simp_all
    refine ⟨(H 0).1, ?_⟩
    change MeetsBoundaryFp u ((4 : ℕ) : ℝ) _ d (curve (1 + 3) _ T) T
    have hn : (2 : ℝ) < ((4 : ℕ) : ℝ) := by norm_num
    have E1 := fun k => shape1 h0 hT (ρ := env d 0 0 T 0) rfl 4 (by norm_num) hu3 (.dc0 k) (.c0 k) ((H k).2 1 _ rfl)
    have E2 := fun k => shape2 h0 hT (ρ := env d 0 0 T 0) rfl 4 (by norm_num) hu7 (.ddc0 k) (.dc0 k) (.c0 k) ((H k).2 2 _ rfl)
    have C1 : nth pts 4 = d.c1 := funext fun k => (H k).2 4 _ rfl
    refine meets_fp u 1 _ T hT.ne' _ d _ (by norm_num) ?_ ?_ ?_ ?_ ?_ ?_ ?_ ?_
    · rw [hq 0 (by decide)]; exact funext fun k => (H k).2 0 _ rfl
    · intro _ k
      rw [hq 1 (by decide)]
      exact jet_v hT hn (E1 k)
    · intro _ k
      rw [hq 1 (by decide), hq 2 (by decide)]
      exact jet_a hT hn (weaken (E1 k) g37 (by positivity)) (E2 k)
    · intro hb; exact absurd hb (by decide)
    · intro _
      rw [hq _ (by decide)]; exact C1
    · intro hb; exact absurd hb (by decide)
    · intro hb; exact absurd hb (by decide)
    · intro hb; exact absurd hb (by decide)
  · have hes' : Fp.c0_dc0_ddc0_dc1_c1.computeConstantWaypoints = es := by simpa [pointsFp] using hes
    subst hes'
    have hq : ∀ i, i ∉ [3] → fill 31#32 (nth pts) x i = nth pts i := fun i hi => by simp only [fill, freeSlots] at *; simp_all
    refine ⟨(H 0).1, ?_⟩
    change MeetsBoundaryFp u ((5 : ℕ) : ℝ) _ d (curve (2 + 3) _ T) T
    have hn : (2 : ℝ) < ((5 : ℕ) : ℝ) := by norm_num
    have E1 := fun k => shape1 h0 hT (ρ := env d 0 0 T 0) rfl 5 (by norm_num) hu3 (.dc0 k) (.c0 k) ((H k).2 1 _ rfl)
    have E2 := fun k => shape2 h0 hT (ρ := env d 0 0 T 0) rfl 5 (by norm_num) hu7 (.ddc0 k) (.dc0 k) (.c0 k) ((H k).2 2 _ rfl)
    have F1 := fun k => shape1n h0 hT (ρ := env d 0 0 T 0) rfl 5 (by norm_num) hu3 (.dc1 k) (.c1 k) ((H k).2 4 _ rfl)
    have C1 : nth pts 5 = d.c1 := funext fun k => (H k).2 5 _ rfl
    refine meets_fp u 2 _ T hT.ne' _ d _ (by norm_num) ?_ ?_ ?_ ?_ ?_ ?_ ?_ ?_
    · rw [hq 0 (by decide)]; exact funext fun k => (H k).2 0 _ rfl
    · intro _ k
      rw [hq 1 (by decide)]
      exact jet_v hT hn (E1 k)
    · intro _ k
      rw [hq 1 (by decide), hq 2 (by decide)]
      exact jet_a hT hn (weaken (E1 k) g37 (by positivity)) (E2 k)
    · intro hb; exact absurd hb (by decide)
    · intro _
      rw [hq _ (by decide)]; exact C1
    · intro _ k
      rw [hq _ (by decide), hq _ (by decide)]
      change |_ / T * (nth pts 5 k - _) - _| ≤ _
      rw [C1]
      exact jet_v' hT hn (F1 k)
    · intro hb; exact absurd hb (by decide)
    · intro hb; exact absurd hb (by decide)
  · have hes' : Fp.c0_dc0_ddc0_ddc1_dc1_c1.computeConstantWaypoints = es := by simpa [pointsFp] using hes
    subst hes'
    have hq : ∀ i, i ∉ [3] → fill 63#32 (nth pts) x i = nth pts i := fun i hi => by simp only [fill, freeSlots] at *; simp_all
    refine ⟨(H 0).1, ?_⟩
    change MeetsBoundaryFp u ((6 : ℕ) : ℝ) _ d (curve (3 + 3) _ T) T
    have hn : (2 : ℝ) < ((6 : ℕ) : ℝ) := by norm_num
    have E1 := fun k => shape1 h0 hT (ρ := env d 0 0 T 0) rfl 6 (by norm_num) hu3 (.dc0 k) (.c0 k) ((H k).2 1 _ rfl)
    have E2 := fun k => shape2 h0 hT (ρ := env d 0 0 T 0) rfl 6 (by norm_num) hu7 (.ddc0 k) (.dc0 k) (.c0 k) ((H k).2 2 _ rfl)
    have F1 := fun k => shape1n h0 hT (ρ := env d 0 0 T 0) rfl 6 (by norm_num) hu3 (.dc1 k) (.c1 k) ((H k).2 5 _ rfl)
    have F2 := fun k => shape2n h0 hT (ρ := env d 0 0 T 0) rfl 6 (by norm_num) hu7 (.ddc1 k) (.dc1 k) (.c1 k) ((H k).2 4 _ rfl)
    have C1 : nth pts 6 = d.c1 := funext fun k => (H k).2 6 _ rfl
    refine meets_fp u 3 _ T hT.ne' _ d _ (by norm_num) ?_ ?_ ?_ ?_ ?_ ?_ ?_ ?_
    · rw [hq 0 (by decide)]; exact funext fun k => (H k).2 0 _ rfl
    · intro _ k
      rw [hq 1 (by decide)]
      exact jet_v hT hn (E1 k)
    · intro _ k
      rw [hq 1 (by decide), hq 2 (by decide)]
      exact jet_a hT hn (weaken (E1 k) g37 (by positivity)) (E2 k)
    · intro hb; exact absurd hb (by decide)
    · intro _
      rw [hq _ (by decide)]; exact C1
    · intro _ k
      rw [hq _ (by decide), hq _ (by decide)]
      change |_ / T * (nth pts 6 k - _) - _| ≤ _
      rw [C1]
      exact jet_v' hT hn (F1 k)
    · intro _ k
      rw [hq _ (by decide), hq _ (by decide), hq _ (by decide)]
      change |_ / T * (_ / T * (nth pts 6 k - _) - _) - _| ≤ _
      rw [C1]
      exact jet_a' hT hn (weaken (F1 k) g37 (by positivity)) (F2 k)
    · intro hb; exact absurd hb (by decide)

/-- C81, the three end-effector sets: the eight boundary conditions hold up to the stated rounding error. -/
theorem C81_effector {u : ℝ} (h0 : 0 ≤ u) (hu : (11 : ℕ) * u < 1) (flag : Flag) (hf : flag ∈ effFlags) (d : BC) (T : ℝ) (hT : 0 < T)
    (pts : List V3) (h : ConstantWaypointsFp u flag d T pts) (X : ℕ → V3) :
    pts.length = degreeOf flag + 1 ∧
      MeetsBoundaryFp u (degreeOf flag) flag d (curve (degreeOf flag) (fillMany flag (nth pts) X) T) T := by
  obtain ⟨hd, es, hes, H⟩ := h
  have hu3 : (3 : ℕ) * u < 1 := by push_cast at hu ⊢; linarith
  have hu7 : (7 : ℕ) * u < 1 := by push_cast at hu ⊢; linarith
  have g37 : gam 3 u ≤ gam 7 u := gam_mono h0 (by norm_num) hu7
  have g311 : gam 3 u ≤ gam 11 u := gam_mono h0 (by norm_num) hu
  have g711 : gam 7 u ≤ gam 11 u := gam_mono h0 (by norm_num) hu
  simp only [effFlags, List.mem_cons, List.not_mem_nil, or_false] at hf
  rcases hf with rfl | rfl | rfl
  · have hes' : Fp.c0_dc0_ddc0_j0_j1_ddc1_dc1_c1.computeConstantWaypoints = es := by simpa [pointsFp] using hes
    subst hes'
    have hq : ∀ i, i ∉ [4] → fillMany 255#32 (nth pts) X i = nth pts i := fun i hi => by simp only [fillMany, freeSlots] at *; simp_all
    refine ⟨(H 0).1, ?_⟩
    change MeetsBoundaryFp u ((8 : ℕ) : ℝ) _ d (curve (5 + 3) _ T) T
    have hn : (2 : ℝ) < ((8 : ℕ) : ℝ) := by norm_num
    have E1 := fun k => shape1 h0 hT (ρ := env d 0 0 T 0) rfl 8 (by norm_num) hu3 (.dc0 k) (.c0 k) ((H k).2 1 _ rfl)
    have E2 := fun k => shape2 h0 hT (ρ := env d 0 0 T 0) rfl 8 (by norm_num) hu7 (.ddc0 k) (.dc0 k) (.c0 k) ((H k).2 2 _ rfl)
    have E3 := fun k => shape3 h0 hT (ρ := env d 0 0 T 0) rfl 8 (by norm_num) hu (.j0 k) (.ddc0 k) (.dc0 k) (.c0 k) ((H k).2 3 _ rfl)
    have F1 := fun k => shape1n h0 hT (ρ := env d 0 0 T 0) rfl 8 (by norm_num) hu3 (.dc1 k) (.c1 k) ((H k).2 7 _ rfl)
    have F2 := fun k => shape2n h0 hT (ρ := env d 0 0 T 0) rfl 8 (by norm_num) hu7 (.ddc1 k) (.dc1 k) (.c1 k) ((H k).2 6 _ rfl)
    have F3 := fun k => shape3n h0 hT (ρ := env d 0 0 T 0) rfl 8 (by norm_num) hu (.j1 k) (.ddc1 k) (.dc1 k) (.c1 k) ((H k).2 5 _ rfl)
    have C1 : nth pts 8 = d.c1 := funext fun k => (H k).2 8 _ rfl
    refine meets_fp u 5 _ T hT.ne' _ d _ (by norm_num) ?_ ?_ ?_ ?_ ?_ ?_ ?_ ?_
    · rw [hq 0 (by decide)]; exact funext fun k => (H k).2 0 _ rfl
    · intro _ k
      rw [hq 1 (by decide)]
      exact jet_v hT hn (E1 k)
    · intro _ k
      rw [hq 1 (by decide), hq 2 (by decide)]
      exact jet_a hT hn (weaken (E1 k) g37 (by positivity)) (E2 k)
    · intro _ k
      rw [hq 1 (by decide), hq 2 (by decide), hq 3 (by decide)]
      exact jet_j hT hn (weaken (E1 k) g311 (by positivity)) (weaken (E2 k) g711 (by norm_num; positivity)) (E3 k)
    · intro _
      rw [hq _ (by decide)]; exact C1
    · intro _ k
      rw [hq _ (by decide), hq _ (by decide)]
      change |_ / T * (nth pts 8 k - _) - _| ≤ _
      rw [C1]
      exact jet_v' hT hn (F1 k)
    · intro _ k
      rw [hq _ (by decide), hq _ (by decide), hq _ (by decide)]
      change |_ / T * (_ / T * (nth pts 8 k - _) - _) - _| ≤ _
      rw [C1]
      exact jet_a' hT hn (weaken (F1 k) g37 (by positivity)) (F2 k)
    · intro _ k
      rw [hq _ (by decide), hq _ (by decide), hq _ (by decide), hq _ (by decide)]
      change |_ / T * (_ / T * (_ / T * (nth pts 8 k - _) - _) - _) - _| ≤ _
      rw [C1]
      exact jet_j' hT hn (weaken (F1 k) g311 (by positivity)) (weaken (F2 k) g711 (by norm_num; positivity)) (F3 k)
  · have hes' : Fp.c0_dc0_ddc0_j0_x3_j1_ddc1_dc1_c1.computeConstantWaypoints = es := by simpa [pointsFp] using hes
    subst hes'
    have hq : ∀ i, i ∉ [4, 5, 6] → fillMany 767#32 (nth pts) X i = nth pts i := fun i hi => by simp only [fillMany, freeSlots] at *; simp_all
    refine ⟨(H 0).1, ?_⟩
    change MeetsBoundaryFp u ((10 : ℕ) : ℝ) _ d (curve (7 + 3) _ T) T
    have hn : (2 : ℝ) < ((10 : ℕ) : ℝ) := by norm_num
    have E1 := fun k => shape1 h0 hT (ρ := env d 0 0 T 0) rfl 10 (by norm_num) hu3 (.dc0 k) (.c0 k) ((H k).2 1 _ rfl)
    have E2 := fun k => shape2 h0 hT (ρ := env d 0 0 T 0) rfl 10 (by norm_num) hu7 (.ddc0 k) (.dc0 k) (.c0 k) ((H k).2 2 _ rfl)
    have E3 := fun k => shape3 h0 hT (ρ := env d 0 0 T 0) rfl 10 (by norm_num) hu (.j0 k) (.ddc0 k) (.dc0 k) (.c0 k) ((H k).2 3 _ rfl)
    have F1 := fun k => shape1n h0 hT (ρ := env d 0 0 T 0) rfl 10 (by norm_num) hu3 (.dc1 k) (.c1 k) ((H k).2 9 _ rfl)
    have F2 := fun k => shape2n h0 hT (ρ := env d 0 0 T 0) rfl 10 (by norm_num) hu7 (.ddc1 k) (.dc1 k) (.c1 k) ((H k).2 8 _ rfl)
    have F3 := fun k => shape3n h0 hT (ρ := env d 0 0 T 0) rfl 10 (by norm_num) hu (.j1 k) (.ddc1 k) (.dc1 k) (.c1 k) ((H k).2 7 _ rfl)
    have C1 : nth pts 10 = d.c1 := funext fun k => (H k).2 10 _ rfl
    refine meets_fp u 7 _ T hT.ne' _ d _ (by norm_num) ?_ ?_ ?_ ?_ ?_ ?_ ?_ ?_
    · rw [hq 0 (by decide)]; exact funext fun k => (H k).2 0 _ rfl
    · intro _ k
      rw [hq 1 (by decide)]
      exact jet_v hT hn (E1 k)
    · intro _ k
      rw [hq 1 (by decide), hq 2 (by decide)]
      exact jet_a hT hn (weaken (E1 k) g37 (by positivity)) (E2 k)
    · intro _ k
      rw [hq 1 (by decide), hq 2 (by decide), hq 3 (by decide)]
      exact jet_j hT hn (weaken (E1 k) g311 (by positivity)) (weaken (E2 k) g711 (by norm_num; positivity)) (E3 k)
    · intro _
      rw [hq _ (by decide)]; exact C1
    · intro _ k
      rw [hq _ (by decide), hq _ (by decide)]
      change |_ / T * (nth pts 10 k - _) - _| ≤ _
      rw [C1]
      exact jet_v' hT hn (F1 k)
    · intro _ k
      rw [hq _ (by decide), hq _ (by decide), hq _ (by decide)]
      change |_ / T * (_ / T * (nth pts 10 k - _) - _) - _| ≤ _
      rw [C1]
      exact jet_a' hT hn (weaken (F1 k) g37 (by positivity)) (F2 k)
    · intro _ k
      rw [hq _ (by decide), hq _ (by decide), hq _ (by decide), hq _ (by decide)]
      change |_ / T * (_ / T * (_ / T * (nth pts 10 k - _) - _) - _) - _| ≤ _
      rw [C1]
      exact jet_j' hT hn (weaken (F1 k) g311 (by positivity)) (weaken (F2 k) g711 (by norm_num; positivity)) (F3 k)
  · have hes' : Fp.c0_dc0_ddc0_j0_x5_j1_ddc1_dc1_c1.computeConstantWaypoints = es := by simpa [pointsFp] using hes
    subst hes'
    have hq : ∀ i, i ∉ [4, 5, 6, 7, 8] → fillMany 2303#32 (nth pts) X i = nth pts i := fun i hi => by simp only [fillMany, freeSlots] at *; simp_all
    refine ⟨(H 0).1, ?_⟩
    change MeetsBoundaryFp u ((12 : ℕ) : ℝ) _ d (curve (9 + 3) _ T) T
    have hn : (2 : ℝ) < ((12 : ℕ) : ℝ) := by norm_num
    have E1 := fun k => shape1 h0 hT (ρ := env d 0 0 T 0) rfl 12 (by norm_num) hu3 (.dc0 k) (.c0 k) ((H k).2 1 _ rfl)
    have E2 := fun k => shape2 h0 hT (ρ := env d 0 0 T 0) rfl 12 (by norm_num) hu7 (.ddc0 k) (.dc0 k) (.c0 k) ((H k).2 2 _ rfl)
    have E3 := fun k => shape3 h0 hT (ρ := env d 0 0 T 0) rfl 12 (by norm_num) hu (.j0 k) (.ddc0 k) (.dc0 k) (.c0 k) ((H k).2 3 _ rfl)
    have F1 := fun k => shape1n h0 hT (ρ := env d 0 0 T 0) rfl 12 (by norm_num) hu3 (.dc1 k) (.c1 k) ((H k).2 11 _ rfl)
    have F2 := fun k => shape2n h0 hT (ρ := env d 0 0 T 0) rfl 12 (by norm_num) hu7 (.ddc1 k) (.dc1 k) (.c1 k) ((H k).2 10 _ rfl)
    have F3 := fun k => shape3n h0 hT (ρ := env d 0 0 T 0) rfl 12 (by norm_num) hu (.j1 k) (.ddc1 k) (.dc1 k) (.c1 k) ((H k).2 9 _ rfl)
    have C1 : nth pts 12 = d.c1 := funext fun k => (H k).2 12 _ rfl
    refine meets_fp u 9 _ T hT.ne' _ d _ (by norm_num) ?_ ?_ ?_ ?_ ?_ ?_ ?_ ?_
    · rw [hq 0 (by decide)]; exact funext fun k => (H k).2 0 _ rfl
    · intro _ k
      rw [hq 1 (by decide)]
      exact jet_v hT hn (E1 k)
    · intro _ k
      rw [hq 1 (by decide), hq 2 (by decide)]
      exact jet_a hT hn (weaken (E1 k) g37 (by positivity)) (E2 k)
    · intro _ k
      rw [hq 1 (by decide), hq 2 (by decide), hq 3 (by decide)]
      exact jet_j hT hn (weaken (E1 k) g311 (by positivity)) (weaken (E2 k) g711 (by norm_num; positivity)) (E3 k)
    · intro _
      rw [hq _ (by decide)]; exact C1
    · intro _ k
      rw [hq _ (by decide), hq _ (by decide)]
      change |_ / T * (nth pts 12 k - _) - _| ≤ _
      rw [C1]
      exact jet_v' hT hn (F1 k)
    · intro _ k
      rw [hq _ (by decide), hq _ (by decide), hq _ (by decide)]
      change |_ / T * (_ / T * (nth pts 12 k - _) - _) - _| ≤ _
      rw [C1]
      exact jet_a' hT hn (weaken (F1 k) g37 (by positivity)) (F2 k)
    · intro _ k
      rw [hq _ (by decide), hq _ (by decide), hq _ (by decide), hq _ (by decide)]
      change |_ / T * (_ / T * (_ / T * (nth pts 12 k - _) - _) - _) - _| ≤ _
      rw [C1]
      exact jet_j' hT hn (weaken (F1 k) g311 (by positivity)) (weaken (F2 k) g711 (by norm_num; positivity)) (F3 k)

end Verif
