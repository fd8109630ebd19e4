import Verif.Props.C34

/-!
# The rows of the zero step problem, one by one
-/

namespace Verif
open Matrix

theorem view_entries {A b : Buf} {n m : ℕ} {a : ℕ → ℕ → ℝ} {β : ℕ → ℝ} (h : View A b n m a β) :
    ∃ A' b', A.value = .ok A' ∧ b.value = .ok b' ∧ A'.rows = n ∧ A'.cols = m ∧ b'.rows = n ∧ b'.cols = 1 ∧
      (∀ r, A'.e r = a r) ∧ ∀ r, b'.e r 0 = β r := by
  refine ⟨{ rows := A.rows, cols := A.cols, e := fun r c => (A.e r c).getD 0 },
    { rows := b.rows, cols := b.cols, e := fun r c => (b.e r c).getD 0 }, ?_, ?_, h.ar, h.ac, h.br, h.bc, fun r => ?_,
    fun r => ?_⟩
  · unfold Buf.value
    rw [if_pos]
    intro r _ c _
    rw [h.a]; rfl
  · unfold Buf.value
    rw [if_pos]
    intro r _ c hc
    rw [h.bc] at hc
    obtain rfl : c = 0 := by omega
    rw [h.b]; rfl
  · funext c
    simp [h.a]
  · simp [h.b]

/-- A row of the polytope as the code uses it. -/
noncomputable def unitRow (r : V3 × V3) : V3 × V3 := (-((norm6 r)⁻¹ • r.1), -((norm6 r)⁻¹ • r.2))

/-- The rows without angular momentum. -/
theorem ineq_plain_rows (ct : ContactData) (e : Equilibrium) (h : ZeroContact ct e) (wps wpL : List Wp6) :
    ∃ A b, compute6dControlPointInequalities ct wps wpL false = .ok (A, b) ∧ A.cols = 3 ∧ b.rows = A.rows ∧ b.cols = 1 ∧
      A.rows = wps.length * e.poly.length + ct.kin.length ∧
      (∀ k (hk : k < wps.length) j (hj : j < e.poly.length), LoopRow e.mass e.gravity (unitRow (e.poly[j]).1) wps[k]
        (A.e (k * e.poly.length + j)) (b.e (k * e.poly.length + j) 0)) ∧
      ∀ i < ct.kin.length, seg3 (A.e (wps.length * e.poly.length + i)) 0 = ct.Kin.getD i 0 ∧
        b.e (wps.length * e.poly.length + i) 0 = ct.kin.getD i 0 := by
  obtain ⟨h1, h2, h3, h4, h5⟩ := h
  unfold compute6dControlPointInequalities
  rw [h1]
  dsimp only
  rw [if_pos ⟨h2, h3, h4⟩]
  set H := e.poly.map fun r => (-((norm6 r.1)⁻¹ • r.1.1), -((norm6 r.1)⁻¹ • r.1.2)) with hH
  have hHl : H.length = e.poly.length := by simp [hH]
  simp only [Bool.false_eq_true, if_false, addAngularIf, Nat.add_zero]
  obtain ⟨q, a, β, hq, hV, hout, hin⟩ := loop6d_view e.mass e.gravity H wpL (H.length * wps.length + ct.kin.length) wps 0
    _ _ _ _ (view_zero (H.length * wps.length + ct.kin.length) 3) (by rw [zero_add, mul_comm]; omega)
  rw [hq, Out.ok_bind]
  by_cases hk : ct.kin.length = 0
  · unfold addKinematic
    rw [if_pos hk, Out.ok_bind, Out.ok_bind]
    obtain ⟨A', b', hA, hb, r1, r2, r3, r4, e1, e2⟩ := view_entries hV
    rw [hA, Out.ok_bind, hb, Out.ok_bind]
    refine ⟨A', b', rfl, r2, by rw [r3, r1], r4, by rw [r1, hHl, mul_comm], fun k hk j hj => ?_, fun i hi => by omega⟩
    have := hin k hk j (by omega)
    simp only [zero_add, hHl] at this
    rw [e1, e2]
    simpa [hH, unitRow] using this
  · have hl := h5 (fun h0 => hk (by simp [h0]))
    unfold addKinematic
    rw [if_neg hk, if_pos hl]
    have hrow : q.1.rows - ct.kin.length - 0 = wps.length * H.length := by
      rw [hV.ar, mul_comm]; omega
    rw [if_pos (by rw [hV.ar]; omega), hrow]
    obtain ⟨A1, hA1, hV1⟩ := view_rows hV (wps.length * H.length) 0 ct.Kin (by rw [hl, mul_comm]) le_rfl
    obtain ⟨b1, hb1, hV2⟩ := view_seg hV1 (wps.length * H.length) ct.kin (by rw [mul_comm])
    rw [hA1, Out.ok_bind, hb1, Out.ok_bind]
    obtain ⟨A', b', hA, hb, r1, r2, r3, r4, e1, e2⟩ := view_entries hV2
    simp only [Out.pure_eq, Out.ok_bind]
    rw [hA, Out.ok_bind, hb, Out.ok_bind]
    refine ⟨A', b', rfl, r2, by rw [r3, r1], r4, by rw [r1, hHl, mul_comm], fun k hk j hj => ?_, fun i hi => ?_⟩
    · have := hin k hk j (by omega)
      have hlt := index_lt hk (j := j) (d := H.length) (by omega)
      simp only [zero_add, hHl] at this hlt
      rw [e1, e2]
      simp only [hHl]
      rw [if_neg (by omega)]
      have hs : seg3 (fun c => if wps.length * e.poly.length ≤ k * e.poly.length + j ∧
          k * e.poly.length + j < wps.length * e.poly.length + ct.Kin.length ∧ 0 ≤ c ∧ c < 0 + 3 then
          V3.get (ct.Kin.getD (k * e.poly.length + j - wps.length * e.poly.length) 0) (c - 0)
          else a (k * e.poly.length + j) c) 0 = seg3 (a (k * e.poly.length + j)) 0 := by
        funext k
        simp only [seg3]
        rw [if_neg (by omega)]
      refine ⟨?_, ?_⟩
      · rw [hs, this.fst]
        simp [hH, unitRow]
      · rw [this.rhs]
        simp [hH, unitRow]
    · rw [e1, e2, hHl]
      constructor
      · apply seg3_block
        intro c _ hc
        rw [if_pos ⟨by omega, by omega, by omega, by omega⟩]
        simp
      · rw [if_pos ⟨by omega, by omega⟩]
        simp

/-- The rows with angular momentum. -/
theorem ineq_ang_rows (ct : ContactData) (e : Equilibrium) (h : ZeroContact ct e) (wps wpL : List Wp6)
    (hlen : wps.length = wpL.length) :
    ∃ A b, compute6dControlPointInequalities ct wps wpL true = .ok (A, b) ∧ A.cols = 6 ∧ b.rows = A.rows ∧ b.cols = 1 ∧
      A.rows = wps.length * e.poly.length + (ct.kin.length + ct.ang.length) ∧
      (∀ k (hk : k < wps.length) (hk' : k < wpL.length) j (hj : j < e.poly.length),
        LoopRowAng e.mass e.gravity (unitRow (e.poly[j]).1) wps[k] wpL[k]
          (A.e (k * e.poly.length + j)) (b.e (k * e.poly.length + j) 0)) ∧
      ∀ i < ct.kin.length + ct.ang.length,
        seg3 (A.e (wps.length * e.poly.length + i)) 0 = (angRow ct ct.ang.length i).1 ∧
        seg3 (A.e (wps.length * e.poly.length + i)) 3 = (angRow ct ct.ang.length i).2.1 ∧
        b.e (wps.length * e.poly.length + i) 0 = (angRow ct ct.ang.length i).2.2 := by
  obtain ⟨h1, h2, h3, h4, h5⟩ := h
  unfold compute6dControlPointInequalities
  rw [h1]
  dsimp only
  rw [if_pos ⟨h2, h3, h4⟩]
  set H := e.poly.map fun r => (-((norm6 r.1)⁻¹ • r.1.1), -((norm6 r.1)⁻¹ • r.1.2)) with hH
  have hHl : H.length = e.poly.length := by simp [hH]
  simp only [if_true, addAngularIf]
  set d := ct.ang.length with hd
  obtain ⟨q, a, β, hq, hV, hout, hin⟩ := loop6d_view_ang e.mass e.gravity H
    (H.length * wps.length + (ct.kin.length + d)) wps wpL 0
    _ _ _ _ (view_zero (H.length * wps.length + (ct.kin.length + d)) 6) hlen (by rw [zero_add, mul_comm]; omega)
  rw [hq, Out.ok_bind]
  rw [zero_mul, zero_add] at hout
  set S := wps.length * H.length with hS0
  have hS' : H.length * wps.length = S := mul_comm _ _
  rw [hS'] at hV
  -- the final contents
  obtain ⟨q2, a2, β2, hq2, hV2, hlo, hhi⟩ : ∃ (q2 : Buf × Buf) (a2 : ℕ → ℕ → ℝ) (β2 : ℕ → ℝ),
      (do let q ← addKinematic q.1 q.2 ct.Kin ct.kin d
          addAngularMomentum q.1 q.2 ct.Kin ct.kin) = .ok q2 ∧
      View q2.1 q2.2 (S + (ct.kin.length + d)) 6 a2 β2 ∧
      (∀ r < S, (∀ c, a2 r c = a r c) ∧ β2 r = β r) ∧
      ∀ i < ct.kin.length + d, seg3 (a2 (S + i)) 0 = (angRow ct d i).1 ∧ seg3 (a2 (S + i)) 3 = (angRow ct d i).2.1 ∧
        β2 (S + i) = (angRow ct d i).2.2 := by
    by_cases hk : ct.kin.length = 0
    · unfold addKinematic addAngularMomentum
      rw [if_pos hk, Out.ok_bind, if_neg (by omega)]
      refine ⟨q, a, β, rfl, hV, fun r _ => ⟨fun _ => rfl, rfl⟩, fun i hi => ?_⟩
      obtain ⟨h6, h7⟩ := hout (S + i) (Or.inr (by omega))
      unfold angRow
      rw [if_neg (by omega), if_neg (by omega), if_neg (by omega), if_neg (by omega), h7]
      refine ⟨?_, ?_, rfl⟩ <;> funext k <;> simp [seg3, h6]
    · have hl := h5 (fun h0 => hk (by simp [h0]))
      unfold addKinematic addAngularMomentum
      rw [if_neg hk, if_pos hl]
      have hrow : q.1.rows - ct.kin.length - d = S := by
        rw [hV.ar]; omega
      rw [if_pos (by rw [hV.ar]; omega), hrow]
      obtain ⟨A1, hA1, hV1⟩ := view_rows hV S 0 ct.Kin (by omega) (by norm_num)
      obtain ⟨b1, hb1, hV2⟩ := view_seg hV1 S ct.kin (by omega)
      rw [hA1, Out.ok_bind, hb1, Out.ok_bind]
      simp only [Out.pure_eq, Out.ok_bind]
      rw [if_pos (by omega), if_pos hl, if_pos ⟨by rw [hV2.ar]; omega, by rw [hV2.br]; omega⟩]
      have hrow2 : S + (ct.kin.length + d) - ct.kin.length = S + d := by omega
      rw [hV2.ar, hV2.br, hrow2]
      obtain ⟨A2, hA2, hV3⟩ := view_rows hV2 (S + d) 3 ct.Kin (by omega) (by norm_num)
      obtain ⟨b2, hb2, hV4⟩ := view_seg hV3 (S + d) ct.kin (by omega)
      rw [hA2, Out.ok_bind, hb2, Out.ok_bind]
      refine ⟨(A2, b2), _, _, rfl, hV4, ?_, ?_⟩
      · intro r hr
        constructor
        · intro c
          rw [if_neg (by omega), if_neg (by omega)]
        · rw [if_neg (by omega), if_neg (by omega)]
      · intro i hi
        obtain ⟨h6, h7⟩ := hout (S + i) (Or.inr (by omega))
        refine ⟨?_, ?_, ?_⟩
        · apply seg3_block
          intro c _ hc
          rw [if_neg (by omega)]
          unfold angRow
          by_cases hik : i < ct.kin.length
          · rw [if_pos ⟨by omega, by omega, by omega, by omega⟩]
            simp [hik]
          · rw [if_neg (by omega), h6]
            simp [hik, V3.get]
        · apply seg3_block
          intro c h8 hc
          unfold angRow
          by_cases hid : d ≤ i
          · rw [if_pos ⟨by omega, by omega, by omega, by omega⟩]
            simp only [hid, if_true]
            congr 2
            omega
          · rw [if_neg (by omega), if_neg (by omega), h6]
            simp [hid, V3.get]
        · unfold angRow
          by_cases hid : d ≤ i
          · rw [if_pos ⟨by omega, by omega⟩]
            simp only [hid, if_true]
            congr 1
            omega
          · rw [if_neg (by omega)]
            simp only [hid, if_false]
            by_cases hik : i < ct.kin.length
            · rw [if_pos ⟨by omega, by omega⟩]
              simp [hik]
            · rw [if_neg (by omega), h7]
              simp [hik]
  obtain ⟨z, hz1, hz2⟩ := Out.bind_eq_ok.mp hq2
  rw [hz1, Out.ok_bind, hz2, Out.ok_bind]
  obtain ⟨A', b', hA, hb, r1, r2, r3, r4, e1, e2⟩ := view_entries hV2
  rw [hA, Out.ok_bind, hb, Out.ok_bind]
  have hSe : wps.length * e.poly.length = S := by rw [hS0, hHl]
  refine ⟨A', b', rfl, r2, by rw [r3, r1], r4, by rw [r1, hSe], fun k hk hk' j hj => ?_, fun i hi => ?_⟩
  · have := hin k hk hk' j (by omega)
    have hlt := index_lt hk (j := j) (d := H.length) (by omega)
    simp only [zero_add] at this hlt
    rw [← hHl, e1, e2]
    obtain ⟨l1, l2⟩ := hlo _ hlt
    have l3 : a2 (k * H.length + j) = a (k * H.length + j) := funext l1
    rw [l2, l3]
    simpa [hH, unitRow] using this
  · rw [hSe, e1, e2]
    exact hhi i hi

end Verif
