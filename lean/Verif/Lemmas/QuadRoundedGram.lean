import Verif.Lemmas.QuadRoundedBig

/-! The rotations keep `J J'` up to rounding. -/

namespace Verif

variable {n : ℕ}

namespace Arith

variable {o : Arith ℝ n} {m : ℕ} {u g : ℝ}

/-- `v' J J' w`. -/
noncomputable def gram (J : ℕ → Fin n → ℝ) (v w : Fin n → ℝ) : ℝ :=
  ∑ j ∈ Finset.range n, (∑ k, v k * J j k) * ∑ k, w k * J j k

theorem rot_gram_pt {p q p2 q2 p' q' p2' q2' c s K L : ℝ} (hu0 : 0 ≤ u) (hu : u ≤ 1 / 1000) (hK : 0 ≤ K) (hL : 0 ≤ L)
    (hcs : |c ^ 2 + s ^ 2 - 1| ≤ 16 * u) (h1 : p ^ 2 + q ^ 2 ≤ K ^ 2) (h2 : p2 ^ 2 + q2 ^ 2 ≤ L ^ 2)
    (a1 : |p' - (c * p + s * q)| ≤ 38 * u * K) (a2 : |q' - (s * p - c * q)| ≤ 38 * u * K)
    (b1 : |p2' - (c * p2 + s * q2)| ≤ 38 * u * L) (b2 : |q2' - (s * p2 - c * q2)| ≤ 38 * u * L) :
    |p' * p2' + q' * q2' - (p * p2 + q * q2)| ≤ 180 * u * (K * L) := by
  have hc2 := (abs_le.mp hcs).2
  have big : ∀ {a b M : ℝ}, 0 ≤ M → a ^ 2 + b ^ 2 ≤ M ^ 2 → |c * a + s * b| ≤ 1.01 * M ∧ |s * a - c * b| ≤ 1.01 * M := by
    intro a b M hM h
    have e : (c * a + s * b) ^ 2 + (s * a - c * b) ^ 2 = (c ^ 2 + s ^ 2) * (a ^ 2 + b ^ 2) := by ring
    have k : (c ^ 2 + s ^ 2) * (a ^ 2 + b ^ 2) ≤ (1.01 * M) ^ 2 := by
      calc (c ^ 2 + s ^ 2) * (a ^ 2 + b ^ 2) ≤ 1.016 * M ^ 2 := mul_le_mul (by linarith) h (by positivity) (by norm_num)
        _ ≤ (1.01 * M) ^ 2 := by nlinarith [sq_nonneg M]
    exact ⟨abs_le_of_sq_le_sq (by nlinarith [sq_nonneg (s * a - c * b)]) (by positivity),
      abs_le_of_sq_le_sq (by nlinarith [sq_nonneg (c * a + s * b)]) (by positivity)⟩
  obtain ⟨m1, m2⟩ := big hK h1
  obtain ⟨n1, n2⟩ := big hL h2
  have hpq : |p * p2 + q * q2| ≤ K * L := by
    refine abs_le_of_sq_le_sq ?_ (mul_nonneg hK hL)
    calc (p * p2 + q * q2) ^ 2 ≤ (p ^ 2 + q ^ 2) * (p2 ^ 2 + q2 ^ 2) := by nlinarith [sq_nonneg (p * q2 - q * p2)]
      _ ≤ K ^ 2 * L ^ 2 := mul_le_mul h1 h2 (by positivity) (by positivity)
      _ = (K * L) ^ 2 := (mul_pow _ _ _).symm
  have e : p' * p2' + q' * q2' - (p * p2 + q * q2) = (c ^ 2 + s ^ 2 - 1) * (p * p2 + q * q2) +
      ((c * p + s * q) * (p2' - (c * p2 + s * q2)) + (p' - (c * p + s * q)) * (c * p2 + s * q2) +
        (p' - (c * p + s * q)) * (p2' - (c * p2 + s * q2))) +
      ((s * p - c * q) * (q2' - (s * p2 - c * q2)) + (q' - (s * p - c * q)) * (s * p2 - c * q2) +
        (q' - (s * p - c * q)) * (q2' - (s * p2 - c * q2))) := by ring
  rw [e]
  have hKL : 0 ≤ K * L := mul_nonneg hK hL
  have three : ∀ {A B x y : ℝ}, |A| ≤ 1.01 * K → |B| ≤ 1.01 * L → |x| ≤ 38 * u * K → |y| ≤ 38 * u * L →
      |A * y + x * B + x * y| ≤ 80 * u * (K * L) := by
    intro A B x y hA hB hx hy
    have t1 : |A * y| ≤ 1.01 * K * (38 * u * L) := by
      rw [abs_mul]; exact mul_le_mul hA hy (abs_nonneg _) (by positivity)
    have t2 : |x * B| ≤ 38 * u * K * (1.01 * L) := by
      rw [abs_mul]; exact mul_le_mul hx hB (abs_nonneg _) (by positivity)
    have t3 : |x * y| ≤ 38 * u * K * (38 * u * L) := by
      rw [abs_mul]; exact mul_le_mul hx hy (abs_nonneg _) (by positivity)
    have t4 := abs_add_le (A * y + x * B) (x * y)
    have t5 := abs_add_le (A * y) (x * B)
    have t6 : u * (u * (K * L)) ≤ 1 / 1000 * (u * (K * L)) := mul_le_mul_of_nonneg_right hu (mul_nonneg hu0 hKL)
    have t7 := mul_nonneg hu0 hKL
    nlinarith
  have s1 := three m1 n1 a1 b1
  have s2 := three m2 n2 a2 b2
  have s3 : |(c ^ 2 + s ^ 2 - 1) * (p * p2 + q * q2)| ≤ 16 * u * (K * L) := by
    rw [abs_mul]; exact mul_le_mul hcs hpq (abs_nonneg _) (by positivity)
  refine le_trans (abs_add_le _ _) ?_
  have s4 := abs_add_le ((c ^ 2 + s ^ 2 - 1) * (p * p2 + q * q2)) ((c * p + s * q) * (p2' - (c * p2 + s * q2)) + (p' - (c * p + s * q)) * (c * p2 + s * q2) +
        (p' - (c * p + s * q)) * (p2' - (c * p2 + s * q2)))
  have t7 := mul_nonneg hu0 hKL
  linarith

/-- One rotation. -/
theorem rot_gram {v w : Fin n → ℝ} {J J' : ℕ → Fin n → ℝ} {j : ℕ} {c s V W Y : ℝ} (hu0 : 0 ≤ u) (hu : u ≤ 1 / 1000) (hj : j + 1 < n)
    (hV : 0 ≤ V) (hW : 0 ≤ W) (hY : 0 ≤ Y) (hv : ∑ k, v k ^ 2 ≤ V ^ 2) (hw : ∑ k, w k ^ 2 ≤ W ^ 2) (hJ : sqJ J ≤ Y ^ 2)
    (hcs : |c ^ 2 + s ^ 2 - 1| ≤ 16 * u) (hJo : ∀ i, i ≠ j → i ≠ j + 1 → J' i = J i)
    (hrot : ∀ k M, 0 ≤ M → J j k ^ 2 + J (j + 1) k ^ 2 ≤ M ^ 2 → RotOk u c s M (J j k) (J (j + 1) k) (J' j k) (J' (j + 1) k)) :
    |gram J' v w - gram J v w| ≤ 180 * u * (V * W * Y ^ 2) := by
  obtain ⟨a1, a2⟩ := rot_dot hu0 hj hV hY hv hJ hrot
  obtain ⟨b1, b2⟩ := rot_dot hu0 hj hW hY hw hJ hrot
  have hs := sq_dot_le hv hJ
  have ht := sq_dot_le hw hJ
  unfold gram
  rw [split_two hj] at hs ht
  rw [split_two hj, split_two hj]
  have e1 : ∑ i ∈ ((Finset.range n).erase j).erase (j + 1), (∑ k, v k * J' i k) * ∑ k, w k * J' i k =
      ∑ i ∈ ((Finset.range n).erase j).erase (j + 1), (∑ k, v k * J i k) * ∑ k, w k * J i k := by
    refine Finset.sum_congr rfl fun i hi => ?_
    rw [Finset.mem_erase, Finset.mem_erase] at hi
    rw [hJo i hi.2.1 hi.1]
  rw [e1]
  have p1 : 0 ≤ ∑ i ∈ ((Finset.range n).erase j).erase (j + 1), (∑ k, v k * J i k) ^ 2 := Finset.sum_nonneg fun _ _ => sq_nonneg _
  have p2 : 0 ≤ ∑ i ∈ ((Finset.range n).erase j).erase (j + 1), (∑ k, w k * J i k) ^ 2 := Finset.sum_nonneg fun _ _ => sq_nonneg _
  have := rot_gram_pt hu0 hu (mul_nonneg hV hY) (mul_nonneg hW hY) hcs (by linarith) (by linarith) a1 a2 b1 b2
  refine le_trans (le_of_eq ?_) (le_trans this (le_of_eq (by ring)))
  congr 1
  ring

/-- `J J'` after `r` rotations, from `J0 J0'`. -/
def Gr (u Y : ℝ) (r : ℕ) (J0 J : ℕ → Fin n → ℝ) : Prop :=
  ∀ (v w : Fin n → ℝ) (V W : ℝ), 0 ≤ V → 0 ≤ W → ∑ k, v k ^ 2 ≤ V ^ 2 → ∑ k, w k ^ 2 ≤ W ^ 2 →
    |gram J v w - gram J0 v w| ≤ 180 * u * r * (V * W * Y ^ 2)

theorem Gr.refl {Y : ℝ} (J : ℕ → Fin n → ℝ) : Gr u Y 0 J J := by
  intro v w V W _ _ _ _
  simp

theorem Gr.trans {Y : ℝ} {r r' : ℕ} {J J' J'' : ℕ → Fin n → ℝ} (h : Gr u Y r J J') (h' : Gr u Y r' J' J'') : Gr u Y (r + r') J J'' := by
  intro v w V W hV hW hv hw
  have h1 := h v w V W hV hW hv hw
  have h2 := h' v w V W hV hW hv hw
  have h3 := abs_add_le (gram J'' v w - gram J' v w) (gram J' v w - gram J v w)
  rw [sub_add_sub_cancel] at h3
  push_cast
  linarith

theorem Gr.mono {Y : ℝ} {r r' : ℕ} {J J' : ℕ → Fin n → ℝ} (hu : 0 ≤ u) (hr : r ≤ r') (h : Gr u Y r J J') : Gr u Y r' J J' := by
  intro v w V W hV hW hv hw
  refine le_trans (h v w V W hV hW hv hw) ?_
  have : (r : ℝ) ≤ r' := Nat.cast_le.mpr hr
  gcongr

section
variable {N σ β Y : ℝ} {Rm : ℕ}

theorem Rounded.addGivens_gram (h : o.Rounded m u g) (hp : Par u g N σ β Y Rm) (q : (ℕ → Fin n → ℝ) × (ℕ → ℝ)) {j : ℕ} (hj : j + 1 < n)
    (hY : sqJ q.1 ≤ Y ^ 2) : Gr u Y 1 q.1 (o.addGivens q j).1 := by
  classical
  intro v w V W hV hW hv hw
  have hu0 := hp.u0
  have hu := hp.u1
  have hY0 := hp.Y0
  unfold addGivens
  dsimp only
  by_cases hd : o.eq (o.dist (q.2 j) (q.2 (j + 1))) o.zero
  · rw [if_pos hd, sub_self, abs_zero]
    positivity
  · rw [if_neg hd]
    rw [h.eq, h.zero] at hd
    obtain ⟨g1, g2, -⟩ := h.givens_spec hu0 hu hd
    rw [Nat.cast_one, mul_one]
    refine rot_gram hu0 hu hj hV hW hY0 hv hw hY g2 (fun i h1 h2 => ?_) fun k M hM ht => ?_
    · dsimp only
      rw [Function.update_of_ne h2, Function.update_of_ne h1]
    · dsimp only
      rw [Function.update_of_ne (by omega : j ≠ j + 1), Function.update_self, Function.update_self]
      exact h.rotOk hu0 hu g1 g2 hM ht

theorem Rounded.delGivens_gram (h : o.Rounded m u g) (hp : Par u g N σ β Y Rm) (iq : ℕ) (q : (ℕ → Fin n → ℝ) × (ℕ → ℕ → ℝ)) {j : ℕ} (hj : j + 1 < n)
    (hY : sqJ q.1 ≤ Y ^ 2) : Gr u Y 1 q.1 (o.delGivens iq q j).1 := by
  classical
  intro v w V W hV hW hv hw
  have hu0 := hp.u0
  have hu := hp.u1
  have hY0 := hp.Y0
  unfold delGivens
  dsimp only
  by_cases hd : o.eq (o.dist (q.2 j j) (q.2 (j + 1) j)) o.zero
  · rw [if_pos hd, sub_self, abs_zero]
    positivity
  · rw [if_neg hd]
    rw [h.eq, h.zero] at hd
    obtain ⟨g1, g2, -⟩ := h.givens_spec hu0 hu hd
    rw [Nat.cast_one, mul_one]
    refine rot_gram hu0 hu hj hV hW hY0 hv hw hY g2 (fun i h1 h2 => ?_) fun k M hM ht => ?_
    · dsimp only
      rw [Function.update_of_ne h2, Function.update_of_ne h1]
    · dsimp only
      rw [Function.update_of_ne (by omega : j ≠ j + 1), Function.update_self, Function.update_self]
      exact h.rotOk' hu0 hu g1 g2 hM ht

theorem Rounded.addLoop_gram (h : o.Rounded m u g) (hp : Par u g N σ β Y Rm) (iq : ℕ) : ∀ (k : ℕ) (q : (ℕ → Fin n → ℝ) × (ℕ → ℝ)) (r : ℕ),
    iq + k < n → r + k ≤ Rm → sqJ q.1 ≤ (1 + 120 * u) ^ r * N → Gr u Y k q.1 (o.addLoop iq k q).1
  | 0, q, _, _, _, _ => Gr.refl _
  | k + 1, q, r, hk, hr, hJ => by
    unfold addLoop
    have s1 := h.addGivens_gram hp q (j := iq + k) (by omega) (le_trans hJ (hp.sq r (by omega)))
    have s2 := h.addLoop_gram hp iq k (o.addGivens q (iq + k)) (r + 1) (by omega) (by omega) (by
      refine le_trans (h.addGivens_sqJ hp.u0 hp.u1 q (by omega)) ?_
      rw [pow_succ', mul_assoc]
      exact mul_le_mul_of_nonneg_left hJ (by linarith [hp.u0]))
    rw [add_comm k 1]
    exact s1.trans s2

theorem Rounded.delLoop_gram (h : o.Rounded m u g) (hp : Par u g N σ β Y Rm) (iq : ℕ) : ∀ (k j : ℕ) (q : (ℕ → Fin n → ℝ) × (ℕ → ℕ → ℝ)) (r : ℕ),
    j + k < n → r + k ≤ Rm → sqJ q.1 ≤ (1 + 120 * u) ^ r * N → Gr u Y k q.1 (o.delLoop iq j k q).1
  | 0, _, q, _, _, _, _ => Gr.refl _
  | k + 1, j, q, r, hk, hr, hJ => by
    unfold delLoop
    have s1 := h.delGivens_gram hp iq q (j := j) (by omega) (le_trans hJ (hp.sq r (by omega)))
    have s2 := h.delLoop_gram hp iq k (j + 1) (o.delGivens iq q j) (r + 1) (by omega) (by omega) (by
      refine le_trans (h.delGivens_sqJ hp.u0 hp.u1 iq q (by omega)) ?_
      rw [pow_succ', mul_assoc]
      exact mul_le_mul_of_nonneg_left hJ (by linarith [hp.u0]))
    rw [add_comm k 1]
    exact s1.trans s2

theorem Rounded.addConstraint_gram (h : o.Rounded m u g) (hp : Par u g N σ β Y Rm) {J : ℕ → Fin n → ℝ} {R : ℕ → ℕ → ℝ} {d : ℕ → ℝ} {iq : ℕ}
    {rn : ℝ} {a : AddRes ℝ n} {r : ℕ} (hr : r + n ≤ Rm) (hJ : JOk u N σ Y r J) (ha : o.addConstraint J R d iq rn = .ok a) : Gr u Y n J a.J := by
  unfold addConstraint at ha
  dsimp only at ha
  by_cases hiq : iq < n
  swap
  · rw [if_neg hiq] at ha; cases ha
  rw [if_pos hiq] at ha
  cases Out.ok.inj ha
  exact (h.addLoop_gram hp iq (n - 1 - iq) (J, d) r (by omega) (by omega) hJ.sq).mono hp.u0 (by omega)

theorem Rounded.deleteConstraint_gram (h : o.Rounded m u g) (hp : Par u g N σ β Y Rm) {m' nE : ℕ} {J : ℕ → Fin n → ℝ} {R : ℕ → ℕ → ℝ}
    {A : ℕ → ℤ} {w : ℕ → ℝ} {iq : ℕ} {l : ℤ} {b : DelRes ℝ n} {r : ℕ} (hr : r + n ≤ Rm) (hJ : JOk u N σ Y r J)
    (hb : o.deleteConstraint m' nE J R A w iq l = .ok b) (hq : findActive A nE iq l < iq) : Gr u Y n J b.J := by
  unfold deleteConstraint at hb
  dsimp only at hb
  split_ifs at hb with hcond
  cases Out.ok.inj hb
  exact (h.delLoop_gram hp _ (iq - 1 - findActive A nE iq l) _ (J, _) r (by omega) (by omega) hJ.sq).mono hp.u0 (by omega)

end

end Arith

end Verif
