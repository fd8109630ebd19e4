import Verif.Props.C30
import Verif.Props.C21

/-!
# C34, C35: the constraints of the zero step problem
-/

namespace Verif
open Matrix

/-! ## Specification -/

/-- The wrench `(f, τ)` is in the cone given by the rows of the polytope. -/
def ConeOk (e : Equilibrium) (f τ : V3) : Prop := ∀ r ∈ e.poly, dot r.1.1 f + dot r.1.2 τ ≤ 0

/-- A contact phase for the zero step problem. -/
def ZeroContact (ct : ContactData) (e : Equilibrium) : Prop :=
  ct.contactPhase = some e ∧ e.isPP = true ∧ e.polyOk = true ∧ (∀ r ∈ e.poly, r.1 ≠ 0) ∧
    (ct.kin ≠ [] → ct.Kin.length = ct.kin.length)

/-! ## Rows -/

theorem stab_row_iff (m : ℝ) (g x : V3) (r : V3 × V3) (hr : r ≠ 0) (w : Wp6) (a : ℕ → ℝ) (β : ℝ)
    (h : LoopRow m g (-((norm6 r)⁻¹ • r.1), -((norm6 r)⁻¹ • r.2)) w a β) :
    seg3 a 0 ⬝ᵥ x ≤ β ↔ dot r.1 (m • (g - w.headAt x)) + dot r.2 (m • (-w.tailAt x)) ≤ 0 := by
  have hp := norm6_pos hr
  rw [h.fst, h.rhs]
  have key : (m • rowMul (-((norm6 r)⁻¹ • r.1), -((norm6 r)⁻¹ • r.2)) w) ⬝ᵥ x
      - m * rowDot (-((norm6 r)⁻¹ • r.1), -((norm6 r)⁻¹ • r.2)) (g - w.head) (0 - w.tail)
      = (norm6 r)⁻¹ * (dot r.1 (m • (g - w.headAt x)) + dot r.2 (m • (-w.tailAt x))) := by
    unfold rowMul rowDot
    rw [smul_dotProduct, add_dotProduct, ← dotProduct_mulVec, ← dotProduct_mulVec]
    simp only [Wp6.headAt, Wp6.tailAt, dot_eq, dot, Pi.smul_apply, Pi.neg_apply, Pi.sub_apply,
      Pi.add_apply, smul_eq_mul, Pi.zero_apply]
    ring
  rw [← sub_nonpos, key]
  constructor
  · intro hle
    by_contra hc
    exact absurd hle (not_le.mpr (mul_pos (inv_pos.mpr hp) (not_le.mp hc)))
  · intro hle
    exact mul_nonpos_of_nonneg_of_nonpos (inv_pos.mpr hp).le hle

theorem stab_row_iff_ang (m : ℝ) (g x xL : V3) (r : V3 × V3) (hr : r ≠ 0) (w u : Wp6) (a : ℕ → ℝ) (β : ℝ)
    (h : LoopRowAng m g (-((norm6 r)⁻¹ • r.1), -((norm6 r)⁻¹ • r.2)) w u a β) :
    seg3 a 0 ⬝ᵥ x + seg3 a 3 ⬝ᵥ xL ≤ β ↔
      dot r.1 (m • (g - w.headAt x) - u.headAt xL) + dot r.2 (m • (-w.tailAt x) - u.tailAt xL) ≤ 0 := by
  have hp := norm6_pos hr
  rw [h.fst, h.snd, h.rhs]
  have key : (m • rowMul (-((norm6 r)⁻¹ • r.1), -((norm6 r)⁻¹ • r.2)) w) ⬝ᵥ x
      + rowMul (-((norm6 r)⁻¹ • r.1), -((norm6 r)⁻¹ • r.2)) u ⬝ᵥ xL
      - (m * rowDot (-((norm6 r)⁻¹ • r.1), -((norm6 r)⁻¹ • r.2)) (g - w.head) (0 - w.tail)
        + rowDot (-((norm6 r)⁻¹ • r.1), -((norm6 r)⁻¹ • r.2)) (-u.head) (-u.tail))
      = (norm6 r)⁻¹ * (dot r.1 (m • (g - w.headAt x) - u.headAt xL) + dot r.2 (m • (-w.tailAt x) - u.tailAt xL)) := by
    unfold rowMul rowDot
    rw [smul_dotProduct, add_dotProduct, add_dotProduct, ← dotProduct_mulVec, ← dotProduct_mulVec,
      ← dotProduct_mulVec, ← dotProduct_mulVec]
    simp only [Wp6.headAt, Wp6.tailAt, dot_eq, dot, Pi.smul_apply, Pi.neg_apply, Pi.sub_apply,
      Pi.add_apply, smul_eq_mul, Pi.zero_apply]
    ring
  rw [← sub_nonpos, key]
  constructor
  · intro hle
    by_contra hc
    exact absurd hle (not_le.mpr (mul_pos (inv_pos.mpr hp) (not_le.mp hc)))
  · intro hle
    exact mul_nonpos_of_nonneg_of_nonpos (inv_pos.mpr hp).le hle

theorem kin_zip_iff {K : List V3} {k : List ℝ} (h : K.length = k.length) (P : V3 → ℝ → Prop) :
    (∀ q ∈ List.zip K k, P q.1 q.2) ↔ ∀ j < k.length, P (K.getD j 0) (k.getD j 0) := by
  constructor
  · intro hq j hj
    have h1 : j < K.length := by omega
    have := hq (K[j], k[j]) (by
      rw [List.mem_iff_getElem]
      exact ⟨j, by simp; omega, by simp⟩)
    simpa [List.getD, h1, hj] using this
  · rintro hj ⟨a, b⟩ hab
    obtain ⟨j, hl, he⟩ := List.mem_iff_getElem.mp hab
    simp at hl he
    have := hj j hl.2
    rw [← he.1, ← he.2]
    simpa [List.getD, hl.1, hl.2] using this

/-- Row index of polytope row `j` for waypoint `k`. -/
theorem split_index {r d n : ℕ} (h : r < n * d) : ∃ k < n, ∃ j < d, r = (0 + k) * d + j := by
  have hd : 0 < d := by
    rcases Nat.eq_zero_or_pos d with h0 | h0
    · rw [h0] at h; simp at h
    · exact h0
  exact ⟨r / d, Nat.div_lt_of_lt_mul (by rw [mul_comm]; exact h), r % d, Nat.mod_lt _ hd, by
    rw [zero_add, mul_comm]; exact (Nat.div_add_mod r d).symm⟩

theorem index_lt {k n j d : ℕ} (hk : k < n) (hj : j < d) : (0 + k) * d + j < n * d := by
  have : (k + 1) * d ≤ n * d := Nat.mul_le_mul_right _ hk
  rw [zero_add]
  linarith [this, show (k + 1) * d = k * d + d by ring]

/-- The rows without angular momentum. -/
theorem ineq_plain (ct : ContactData) (e : Equilibrium) (h : ZeroContact ct e) (wps wpL : List Wp6) :
    ∃ A b, compute6dControlPointInequalities ct wps wpL false = .ok (A, b) ∧ A.cols = 3 ∧ b.rows = A.rows ∧ b.cols = 1 ∧
      A.rows = e.poly.length * wps.length + ct.kin.length ∧
      ∀ y, Sat A b y ↔ (∀ w ∈ wps, ConeOk e (e.mass • (e.gravity - w.headAt (first3 y))) (e.mass • (-w.tailAt (first3 y))))
        ∧ KinOk ct (first3 y) := by
  obtain ⟨h1, h2, h3, h4, h5⟩ := h
  unfold compute6dControlPointInequalities
  rw [h1]
  dsimp only
  rw [if_pos ⟨h2, h3, h4⟩]
  set H := e.poly.map fun r => (-((norm6 r.1)⁻¹ • r.1.1), -((norm6 r.1)⁻¹ • r.1.2)) with hH
  have hHl : H.length = e.poly.length := by simp [hH]
  simp only [Bool.false_eq_true, if_false, addAngularIf, Nat.add_zero]
  obtain ⟨q, a, β, hq, hV, hout, hin⟩ := loop6d_view e.mass e.gravity H wpL (H.length * wps.length + ct.kin.length) wps 0
    _ _ _ _ (view_zero (H.length * wps.length + ct.kin.length) 3) (by rw [zero_add, mul_comm]; omega)
  rw [hq, Out.ok_bind]
  have hst : ∀ x : V3, (∀ r < wps.length * H.length, seg3 (a r) 0 ⬝ᵥ x ≤ β r) ↔
      ∀ w ∈ wps, ConeOk e (e.mass • (e.gravity - w.headAt x)) (e.mass • (-w.tailAt x)) := by
    intro x
    constructor
    · intro hr w hw p hp
      obtain ⟨k, hk, rfl⟩ := List.mem_iff_getElem.mp hw
      obtain ⟨j, hj, rfl⟩ := List.mem_iff_getElem.mp hp
      have := hin k hk j (by omega)
      simp only [hH, List.getElem_map] at this
      rw [← stab_row_iff _ _ _ _ (h4 _ (List.getElem_mem hj)) _ _ _ this]
      have := hr _ (index_lt hk (j := j) (d := H.length) (by omega))
      simpa [hH] using this
    · intro hw r hr
      obtain ⟨k, hk, j, hj, rfl⟩ := split_index hr
      have hj' : j < e.poly.length := by omega
      have := hin k hk j hj
      simp only [hH, List.getElem_map] at this
      have h6 := (stab_row_iff _ _ x _ (h4 _ (List.getElem_mem hj')) _ _ _ this).mpr
        (hw _ (List.getElem_mem hk) _ (List.getElem_mem hj'))
      simpa [hH] using h6
  by_cases hk : ct.kin.length = 0
  · unfold addKinematic
    rw [if_pos hk, Out.ok_bind, Out.ok_bind]
    obtain ⟨A', b', hA, hb, r1, r2, r3, r4, hS⟩ := view_value hV
    rw [hA, Out.ok_bind, hb, Out.ok_bind]
    refine ⟨A', b', rfl, r2, by rw [r3, r1], r4, by rw [r1, hHl], fun y => ?_⟩
    rw [hS]
    simp only [sum_first]
    rw [← hst (first3 y), hk, Nat.add_zero, mul_comm]
    have : KinOk ct (first3 y) := by
      intro q hq
      simp [List.length_eq_zero_iff.mp hk] at hq
    simp [this]
  · have hl := h5 (fun h0 => hk (by simp [h0]))
    unfold addKinematic
    rw [if_neg hk, if_pos hl]
    have hrow : q.1.rows - ct.kin.length - 0 = wps.length * H.length := by
      rw [hV.ar, mul_comm]; omega
    rw [if_pos (by rw [hV.ar]; omega), hrow]
    obtain ⟨A1, hA1, hV1⟩ := view_rows hV (wps.length * H.length) 0 ct.Kin (by rw [hl, mul_comm]) le_rfl
    obtain ⟨b1, hb1, hV2⟩ := view_seg hV1 (wps.length * H.length) ct.kin (by rw [mul_comm])
    rw [hA1, Out.ok_bind, hb1, Out.ok_bind]
    obtain ⟨A', b', hA, hb, r1, r2, r3, r4, hS⟩ := view_value hV2
    simp only [Out.pure_eq, Out.ok_bind]
    rw [hA, Out.ok_bind, hb, Out.ok_bind]
    refine ⟨A', b', rfl, r2, by rw [r3, r1], r4, by rw [r1, hHl], fun y => ?_⟩
    rw [hS]
    simp only [sum_first]
    rw [← hst (first3 y)]
    unfold KinOk
    rw [kin_zip_iff hl fun K k => dot K (first3 y) ≤ k]
    have hlow : ∀ r < wps.length * H.length, seg3 (fun c => if wps.length * H.length ≤ r ∧
        r < wps.length * H.length + ct.Kin.length ∧ 0 ≤ c ∧ c < 0 + 3 then
        V3.get (ct.Kin.getD (r - wps.length * H.length) 0) (c - 0) else a r c) 0 = seg3 (a r) 0 := by
      intro r hr
      funext k
      simp only [seg3]
      rw [if_neg (by omega)]
    have hhigh : ∀ j < ct.kin.length, seg3 (fun c => if wps.length * H.length ≤ wps.length * H.length + j ∧
        wps.length * H.length + j < wps.length * H.length + ct.Kin.length ∧ 0 ≤ c ∧ c < 0 + 3 then
        V3.get (ct.Kin.getD (wps.length * H.length + j - wps.length * H.length) 0) (c - 0)
        else a (wps.length * H.length + j) c) 0 = ct.Kin.getD j 0 := by
      intro j hj
      apply seg3_block
      intro c _ hc
      rw [if_pos ⟨by omega, by omega, by omega, by omega⟩]
      simp
    constructor
    · intro hr
      constructor
      · intro r hr'
        have := hr r (by rw [mul_comm] at hr'; omega)
        rw [hlow r hr', if_neg (by omega)] at this
        exact this
      · intro j hj
        have := hr (wps.length * H.length + j) (by rw [mul_comm H.length]; omega)
        rw [hhigh j hj, if_pos ⟨by omega, by omega⟩, dot_eq] at this
        simpa using this
    · rintro ⟨p1, p2⟩ r hr
      by_cases hr' : r < wps.length * H.length
      · rw [hlow r hr', if_neg (by omega)]
        exact p1 r hr'
      · obtain ⟨j, rfl⟩ : ∃ j, r = wps.length * H.length + j := ⟨r - wps.length * H.length, by omega⟩
        have hj : j < ct.kin.length := by rw [mul_comm] at hr; omega
        rw [hhigh j hj, if_pos ⟨by omega, by omega⟩, dot_eq]
        simpa using p2 j hj

/-- Row number `i` after the stability rows, with angular momentum, when `d` rows are reserved for angular
constraints: coefficients of `x`, coefficients of `xL`, bound. -/
noncomputable def angRow (ct : ContactData) (d i : ℕ) : V3 × V3 × ℝ :=
  (if i < ct.kin.length then ct.Kin.getD i 0 else 0, if d ≤ i then ct.Kin.getD (i - d) 0 else 0,
    if d ≤ i then ct.kin.getD (i - d) 0 else if i < ct.kin.length then ct.kin.getD i 0 else 0)

/-- The rows with angular momentum. -/
theorem ineq_ang (ct : ContactData) (e : Equilibrium) (h : ZeroContact ct e) (wps wpL : List Wp6)
    (hlen : wps.length = wpL.length) :
    ∃ A b, compute6dControlPointInequalities ct wps wpL true = .ok (A, b) ∧ A.cols = 6 ∧ b.rows = A.rows ∧ b.cols = 1 ∧
      ∀ y, Sat A b y ↔ (∀ k (hk : k < wps.length) (hk' : k < wpL.length),
          ConeOk e (e.mass • (e.gravity - (wps[k]).headAt (first3 y)) - (wpL[k]).headAt (last3 y))
            (e.mass • (-(wps[k]).tailAt (first3 y)) - (wpL[k]).tailAt (last3 y)))
        ∧ ∀ i < ct.kin.length + ct.ang.length, (angRow ct ct.ang.length i).1 ⬝ᵥ first3 y
            + (angRow ct ct.ang.length i).2.1 ⬝ᵥ last3 y ≤ (angRow ct ct.ang.length i).2.2 := by
  obtain ⟨h1, h2, h3, h4, h5⟩ := h
  unfold compute6dControlPointInequalities
  rw [h1]
  dsimp only
  rw [if_pos ⟨h2, h3, h4⟩]
  set H := e.poly.map fun r => (-((norm6 r.1)⁻¹ • r.1.1), -((norm6 r.1)⁻¹ • r.1.2)) with hH
  have hHl : H.length = e.poly.length := by simp [hH]
  simp only [if_true, addAngularIf]
  set d := ct.ang.length with hd
  obtain ⟨q, a, β, hq, hV, hout, hin⟩ := loop6d_view_ang e.mass e.gravity H
    (H.length * wps.length + (ct.kin.length + d)) wps wpL 0
    _ _ _ _ (view_zero (H.length * wps.length + (ct.kin.length + d)) 6) hlen (by rw [zero_add, mul_comm]; omega)
  rw [hq, Out.ok_bind]
  rw [zero_mul, zero_add] at hout
  have hst : ∀ x xL : V3, (∀ r < wps.length * H.length, seg3 (a r) 0 ⬝ᵥ x + seg3 (a r) 3 ⬝ᵥ xL ≤ β r) ↔
      ∀ k (hk : k < wps.length) (hk' : k < wpL.length),
          ConeOk e (e.mass • (e.gravity - (wps[k]).headAt x) - (wpL[k]).headAt xL)
            (e.mass • (-(wps[k]).tailAt x) - (wpL[k]).tailAt xL) := by
    intro x xL
    constructor
    · intro hr k hk hk' p hp
      obtain ⟨j, hj, rfl⟩ := List.mem_iff_getElem.mp hp
      have := hin k hk hk' j (by omega)
      simp only [hH, List.getElem_map] at this
      rw [← stab_row_iff_ang _ _ _ _ _ (h4 _ (List.getElem_mem hj)) _ _ _ _ this]
      have := hr _ (index_lt hk (j := j) (d := H.length) (by omega))
      simpa [hH] using this
    · intro hw r hr
      obtain ⟨k, hk, j, hj, rfl⟩ := split_index hr
      have hj' : j < e.poly.length := by omega
      have := hin k hk (by omega) j hj
      simp only [hH, List.getElem_map] at this
      have h6 := (stab_row_iff_ang _ _ x xL _ (h4 _ (List.getElem_mem hj')) _ _ _ _ this).mpr
        (hw k hk (by omega) _ (List.getElem_mem hj'))
      simpa [hH] using h6
  set S := wps.length * H.length with hS0
  have hS' : H.length * wps.length = S := mul_comm _ _
  rw [hS'] at hV
  -- the final contents
  obtain ⟨q2, a2, β2, hq2, hV2, hlo, hhi⟩ : ∃ (q2 : Buf × Buf) (a2 : ℕ → ℕ → ℝ) (β2 : ℕ → ℝ),
      (do let q ← addKinematic q.1 q.2 ct.Kin ct.kin d
          addAngularMomentum q.1 q.2 ct.Kin ct.kin) = .ok q2 ∧
      View q2.1 q2.2 (S + (ct.kin.length + d)) 6 a2 β2 ∧
      (∀ r < S, (∀ c, a2 r c = a r c) ∧ β2 r = β r) ∧
      ∀ i < ct.kin.length + d, seg3 (a2 (S + i)) 0 = (angRow ct d i).1 ∧ seg3 (a2 (S + i)) 3 = (angRow ct d i).2.1 ∧
        β2 (S + i) = (angRow ct d i).2.2 := by
    by_cases hk : ct.kin.length = 0
    · unfold addKinematic addAngularMomentum
      rw [if_pos hk, Out.ok_bind, if_neg (by omega)]
      refine ⟨q, a, β, rfl, hV, fun r _ => ⟨fun _ => rfl, rfl⟩, fun i hi => ?_⟩
      obtain ⟨h6, h7⟩ := hout (S + i) (Or.inr (by omega))
      unfold angRow
      rw [if_neg (by omega), if_neg (by omega), if_neg (by omega), if_neg (by omega), h7]
      refine ⟨?_, ?_, rfl⟩ <;> funext k <;> simp [seg3, h6]
    · have hl := h5 (fun h0 => hk (by simp [h0]))
      unfold addKinematic addAngularMomentum
      rw [if_neg hk, if_pos hl]
      have hrow : q.1.rows - ct.kin.length - d = S := by
        rw [hV.ar]; omega
      rw [if_pos (by rw [hV.ar]; omega), hrow]
      obtain ⟨A1, hA1, hV1⟩ := view_rows hV S 0 ct.Kin (by omega) (by norm_num)
      obtain ⟨b1, hb1, hV2⟩ := view_seg hV1 S ct.kin (by omega)
      rw [hA1, Out.ok_bind, hb1, Out.ok_bind]
      simp only [Out.pure_eq, Out.ok_bind]
      rw [if_pos (by omega), if_pos hl, if_pos ⟨by rw [hV2.ar]; omega, by rw [hV2.br]; omega⟩]
      have hrow2 : S + (ct.kin.length + d) - ct.kin.length = S + d := by omega
      rw [hV2.ar, hV2.br, hrow2]
      obtain ⟨A2, hA2, hV3⟩ := view_rows hV2 (S + d) 3 ct.Kin (by omega) (by norm_num)
      obtain ⟨b2, hb2, hV4⟩ := view_seg hV3 (S + d) ct.kin (by omega)
      rw [hA2, Out.ok_bind, hb2, Out.ok_bind]
      refine ⟨(A2, b2), _, _, rfl, hV4, ?_, ?_⟩
      · intro r hr
        constructor
        · intro c
          rw [if_neg (by omega), if_neg (by omega)]
        · rw [if_neg (by omega), if_neg (by omega)]
      · intro i hi
        obtain ⟨h6, h7⟩ := hout (S + i) (Or.inr (by omega))
        refine ⟨?_, ?_, ?_⟩
        · apply seg3_block
          intro c _ hc
          rw [if_neg (by omega)]
          unfold angRow
          by_cases hik : i < ct.kin.length
          · rw [if_pos ⟨by omega, by omega, by omega, by omega⟩]
            simp [hik]
          · rw [if_neg (by omega), h6]
            simp [hik, V3.get]
        · apply seg3_block
          intro c h8 hc
          unfold angRow
          by_cases hid : d ≤ i
          · rw [if_pos ⟨by omega, by omega, by omega, by omega⟩]
            simp only [hid, if_true]
            congr 2
            omega
          · rw [if_neg (by omega), if_neg (by omega), h6]
            simp [hid, V3.get]
        · unfold angRow
          by_cases hid : d ≤ i
          · rw [if_pos ⟨by omega, by omega⟩]
            simp only [hid, if_true]
            congr 1
            omega
          · rw [if_neg (by omega)]
            simp only [hid, if_false]
            by_cases hik : i < ct.kin.length
            · rw [if_pos ⟨by omega, by omega⟩]
              simp [hik]
            · rw [if_neg (by omega), h7]
              simp [hik]
  obtain ⟨z, hz1, hz2⟩ := Out.bind_eq_ok.mp hq2
  rw [hz1, Out.ok_bind, hz2, Out.ok_bind]
  obtain ⟨A', b', hA, hb, r1, r2, r3, r4, hS⟩ := view_value hV2
  rw [hA, Out.ok_bind, hb, Out.ok_bind]
  refine ⟨A', b', rfl, r2, by rw [r3, r1], r4, fun y => ?_⟩
  rw [hS]
  simp only [sum_both]
  rw [← hst (first3 y) (last3 y)]
  have hlow : ∀ r < S, ∀ j, seg3 (a2 r) j = seg3 (a r) j := by
    intro r hr j
    funext k
    simp only [seg3, (hlo r hr).1]
  constructor
  · intro hr
    constructor
    · intro r hr'
      have := hr r (by omega)
      rwa [hlow r hr', hlow r hr', (hlo r hr').2] at this
    · intro i hi
      have := hr (S + i) (by omega)
      rwa [(hhi i hi).1, (hhi i hi).2.1, (hhi i hi).2.2] at this
  · rintro ⟨p1, p2⟩ r hr
    by_cases hr' : r < S
    · rw [hlow r hr', hlow r hr', (hlo r hr').2]
      exact p1 r hr'
    · obtain ⟨i, rfl⟩ : ∃ i, r = S + i := ⟨r - S, by omega⟩
      have hi : i < ct.kin.length + d := by omega
      rw [(hhi i hi).1, (hhi i hi).2.1, (hhi i hi).2.2]
      exact p2 i hi

/-! ## C34 -/

/-- The derivative of the angular momentum: that of the momentum curve, or zero. -/
def MomentumRate (useAng : Bool) (l0 xL : V3) (T : ℝ) (dL : ℝ → V3) : Prop :=
  if useAng then IsDeriv (momentumCurve l0 xL T) dL else dL = fun _ => 0

theorem wTail_eq (m : ℝ) (g c a : V3) : m • (-wrenchTail g c a) = m • cr c (g - a) := by
  funext k
  fin_cases k <;> simp [wrenchTail, cr, cross_apply] <;> left <;> ring

/-- The cone is convex. -/
theorem cone_bez (e : Equilibrium) (n : ℕ) (f τ : ℕ → V3) (u : ℝ) (h0 : 0 ≤ u) (h1 : u ≤ 1)
    (h : ∀ i ≤ n, ConeOk e (f i) (τ i)) : ConeOk e (bez n f u) (bez n τ u) := by
  intro r hr
  rw [dot_bez, dot_bez, ← bez_add]
  exact bez_le h0 h1 fun i hi => h i hi r hr

theorem bez_affine (m : ℝ) (g : V3) (n : ℕ) (p : ℕ → V3) (u : ℝ) :
    bez n (fun i => m • (g - p i)) u = m • (g - bez n p u) := by
  rw [bez_smul, bez_sub, bez_const]

theorem bez_negs (m : ℝ) (n : ℕ) (p : ℕ → V3) (u : ℝ) :
    bez n (fun i => m • (-p i)) u = m • (-bez n p u) := by
  have := bez_affine m 0 n p u
  simpa using this

/-- C34. Without discretisation, every point satisfying the inequalities of the zero step problem keeps the
gravito-inertial wrench of the motion, momentum derivative included, in the cone at every instant of `[0, T]`. -/
theorem C34_every_instant (ct : ContactData) (e : Equilibrium) (h : ZeroContact ct e) (c0 dc0 l0 : V3) (useAng : Bool)
    (T timeStep : ℝ) (hT : 0 < T) (hs : timeStep ≤ 0 ∨ T < timeStep) :
    ∃ A b, zeroStepInequalities ct c0 dc0 l0 useAng T timeStep = .ok (A, b) ∧ A.cols = (if useAng then 6 else 3) ∧
      ∀ y, Sat A b y → ∃ v a dL, IsDeriv (stopCurve c0 dc0 (first3 y) T) v ∧ IsDeriv v a ∧
        MomentumRate useAng l0 (last3 y) T dL ∧ ∀ t, 0 ≤ t → t ≤ T →
          ConeOk e (e.mass • (e.gravity - a t))
            (e.mass • cr (stopCurve c0 dc0 (first3 y) T t) (e.gravity - a t) - dL t) := by
  obtain ⟨ws, hws, hl, hw⟩ := C31_continuous c0 dc0 e.gravity T timeStep hT hs
  unfold zeroStepInequalities angularWaypoints
  rw [h.1]
  dsimp only
  rw [hws, Out.ok_bind]
  cases useAng with
  | false =>
    simp only [Bool.false_eq_true, if_false, Out.ok_bind]
    obtain ⟨A, b, hA, hc, -, -, hrw, hS⟩ := ineq_plain ct e h ws []
    refine ⟨A, b, hA, hc, fun y hy => ?_⟩
    obtain ⟨v, a, hv, ha, hW⟩ := hw (first3 y)
    refine ⟨v, a, fun _ => 0, hv, ha, rfl, fun t ht0 htT => ?_⟩
    have := cone_bez e (ws.length - 1) _ _ (t / T) (div_nonneg ht0 hT.le) ((div_le_one hT).mpr htT)
      (fun i hi => ((hS y).mp hy).1 (ws[i]!) (by
        rw [getElem!_pos ws i (by omega)]; exact List.getElem_mem _))
    rw [bez_affine, bez_negs] at this
    have e1 := (hW t).1
    have e2 := (hW t).2
    unfold headCurve at e1
    unfold tailCurve at e2
    rw [e1, e2, wTail_eq] at this
    simpa using this
  | true =>
    simp only [if_true]
    obtain ⟨us, hus, hl', hu⟩ := C32_waypoints_continuous l0 T timeStep hT hs
    rw [hus, Out.ok_bind]
    obtain ⟨A, b, hA, hc, -, -, hS⟩ := ineq_ang ct e h ws us (by omega)
    refine ⟨A, b, hA, hc, fun y hy => ?_⟩
    obtain ⟨v, a, hv, ha, hW⟩ := hw (first3 y)
    obtain ⟨dL, hdL, hU⟩ := hu (last3 y)
    refine ⟨v, a, dL, hv, ha, hdL, fun t ht0 htT => ?_⟩
    have := cone_bez e (ws.length - 1)
      (fun i => e.mass • (e.gravity - (ws[i]!).headAt (first3 y)) - (us[i]!).headAt (last3 y))
      (fun i => e.mass • (-(ws[i]!).tailAt (first3 y)) - (us[i]!).tailAt (last3 y))
      (t / T) (div_nonneg ht0 hT.le) ((div_le_one hT).mpr htT) (fun i hi => by
        have := ((hS y).mp hy).1 i (by omega) (by omega)
        rwa [getElem!_pos ws i (by omega), getElem!_pos us i (by omega)])
    rw [bez_sub, bez_sub, bez_affine, bez_negs] at this
    have e1 := (hW t).1
    have e2 := (hW t).2
    have e3 := (hU t).1
    have e4 := (hU t).2
    unfold headCurve at e1 e3
    unfold tailCurve at e2 e4
    rw [show us.length - 1 = ws.length - 1 by omega] at e3 e4
    rw [e1, e2, e3, e4, wTail_eq] at this
    simpa using this

/-- C34. With a time step the same holds at the instants `0, T/N, …, T`. -/
theorem C34_samples (ct : ContactData) (e : Equilibrium) (h : ZeroContact ct e) (c0 dc0 l0 : V3) (useAng : Bool)
    (T timeStep : ℝ) (N : ℕ) (hN : 1 ≤ N) (hs : StepCount T timeStep N) :
    ∃ A b, zeroStepInequalities ct c0 dc0 l0 useAng T timeStep = .ok (A, b) ∧ A.cols = (if useAng then 6 else 3) ∧
      ∀ y, Sat A b y → ∃ v a dL, IsDeriv (stopCurve c0 dc0 (first3 y) T) v ∧ IsDeriv v a ∧
        MomentumRate useAng l0 (last3 y) T dL ∧ ∀ i : ℕ, i ≤ N →
          ConeOk e (e.mass • (e.gravity - a (i * (T / N))))
            (e.mass • cr (stopCurve c0 dc0 (first3 y) T (i * (T / N))) (e.gravity - a (i * (T / N)))
              - dL (i * (T / N))) := by
  obtain ⟨ws, hws, hl, hw⟩ := C31_discretised c0 dc0 e.gravity T timeStep N hN hs
  unfold zeroStepInequalities angularWaypoints
  rw [h.1]
  dsimp only
  rw [hws, Out.ok_bind]
  cases useAng with
  | false =>
    simp only [Bool.false_eq_true, if_false, Out.ok_bind]
    obtain ⟨A, b, hA, hc, -, -, hrw, hS⟩ := ineq_plain ct e h ws []
    refine ⟨A, b, hA, hc, fun y hy => ?_⟩
    obtain ⟨v, a, hv, ha, hW⟩ := hw (first3 y)
    refine ⟨v, a, fun _ => 0, hv, ha, rfl, fun i hi => ?_⟩
    have := ((hS y).mp hy).1 (ws[i]) (List.getElem_mem (by omega))
    rw [(hW i (by omega)).1, (hW i (by omega)).2, wTail_eq] at this
    simpa using this
  | true =>
    simp only [if_true]
    obtain ⟨us, hus, hl', hu⟩ := C32_waypoints_discretised l0 T timeStep N hN hs
    rw [hus, Out.ok_bind]
    obtain ⟨A, b, hA, hc, -, -, hS⟩ := ineq_ang ct e h ws us (by omega)
    refine ⟨A, b, hA, hc, fun y hy => ?_⟩
    obtain ⟨v, a, hv, ha, hW⟩ := hw (first3 y)
    obtain ⟨dL, hdL, hU⟩ := hu (last3 y)
    refine ⟨v, a, dL, hv, ha, hdL, fun i hi => ?_⟩
    have := ((hS y).mp hy).1 i (by omega) (by omega)
    rw [(hW i (by omega)).1, (hW i (by omega)).2, (hU i (by omega)).1, (hU i (by omega)).2, wTail_eq] at this
    simpa using this

/-- C34. Without angular momentum and with a time step, the inequalities say nothing more than the cone at the
instants `0, T/N, …, T` and the kinematic constraints on the final point. -/
theorem C34_exact (ct : ContactData) (e : Equilibrium) (h : ZeroContact ct e) (c0 dc0 l0 : V3)
    (T timeStep : ℝ) (N : ℕ) (hN : 1 ≤ N) (hs : StepCount T timeStep N) :
    ∃ A b, zeroStepInequalities ct c0 dc0 l0 false T timeStep = .ok (A, b) ∧
      A.rows = e.poly.length * (N + 1) + ct.kin.length ∧ ∀ y v a, IsDeriv (stopCurve c0 dc0 (first3 y) T) v → IsDeriv v a →
        (Sat A b y ↔ (∀ i : ℕ, i ≤ N → ConeOk e (e.mass • (e.gravity - a (i * (T / N))))
            (e.mass • cr (stopCurve c0 dc0 (first3 y) T (i * (T / N))) (e.gravity - a (i * (T / N)))))
          ∧ KinOk ct (first3 y)) := by
  obtain ⟨ws, hws, hl, hw⟩ := C31_discretised c0 dc0 e.gravity T timeStep N hN hs
  unfold zeroStepInequalities angularWaypoints
  rw [h.1]
  dsimp only
  rw [hws, Out.ok_bind]
  simp only [Bool.false_eq_true, if_false, Out.ok_bind]
  obtain ⟨A, b, hA, hc, -, -, hrw, hS⟩ := ineq_plain ct e h ws []
  refine ⟨A, b, hA, by rw [hrw, hl], fun y v a hv ha => ?_⟩
  obtain ⟨v', a', hv', ha', hW⟩ := hw (first3 y)
  obtain rfl := deriv_unique hv hv'
  obtain rfl := deriv_unique ha ha'
  rw [hS]
  refine and_congr ?_ Iff.rfl
  constructor
  · intro hall i hi
    have := hall (ws[i]) (List.getElem_mem (by omega))
    rwa [(hW i (by omega)).1, (hW i (by omega)).2, wTail_eq] at this
  · intro hall w hw
    obtain ⟨i, hi, rfl⟩ := List.mem_iff_getElem.mp hw
    rw [(hW i hi).1, (hW i hi).2, wTail_eq]
    exact hall i (by omega)

/-- C34. Without angular momentum the kinematic constraints hold for the final point. -/
theorem C34_kinematics (ct : ContactData) (e : Equilibrium) (h : ZeroContact ct e) (c0 dc0 l0 : V3)
    (T timeStep : ℝ) (A b : Mat) (hA : zeroStepInequalities ct c0 dc0 l0 false T timeStep = .ok (A, b)) (y : ℕ → ℝ)
    (hy : Sat A b y) : KinOk ct (first3 y) := by
  unfold zeroStepInequalities angularWaypoints at hA
  rw [h.1] at hA
  simp only [Out.bind_eq_ok] at hA
  obtain ⟨ws, -, us, hu, hA⟩ := hA
  obtain ⟨A', b', hA', -, -, -, -, hS⟩ := ineq_plain ct e h ws us
  rw [hA'] at hA
  cases hA
  exact ((hS y).mp hy).2

/-- C34: the cone is inside the polytope `H w ≤ h` when the bounds are not negative (for a cone they are zero). -/
theorem C34_polytope (e : Equilibrium) (f τ : V3) (h : ConeOk e f τ) (hh : ∀ r ∈ e.poly, 0 ≤ r.2) :
    ∀ r ∈ e.poly, dot r.1.1 f + dot r.1.2 τ ≤ r.2 :=
  fun r hr => (h r hr).trans (hh r hr)

end Verif
