import Verif.Lemmas.QuadFpCases

/-! What a step at label `l2a` does to the multipliers, over an arbitrary arithmetic. -/

namespace Verif

variable {F : Type} {n : ℕ}

namespace Arith

variable {o : Arith F n}

/-- The partial step length is a quotient at the constraint to be dropped. -/
theorem partialLen_quot (o : Arith F n) (r u : ℕ → F) (A : ℕ → ℤ) : ∀ (l : List ℕ) (b : FLen F × ℤ),
    o.partialLen r u A l b = b ∨ ∃ k ∈ l, o.lt o.zero (r k) ∧ o.partialLen r u A l b = (some (o.div (u k) (r k)), A k)
  | [], b => Or.inl rfl
  | k :: l, b => by
    unfold partialLen
    split_ifs with h
    · rcases partialLen_quot o r u A l (some (o.div (u k) (r k)), A k) with h' | ⟨j, hj, h0, h'⟩
      · exact Or.inr ⟨k, List.mem_cons_self, h.1, h'⟩
      · exact Or.inr ⟨j, List.mem_cons_of_mem _ hj, h0, h'⟩
    · rcases partialLen_quot o r u A l b with h' | ⟨j, hj, h0, h'⟩
      · exact Or.inl h'
      · exact Or.inr ⟨j, List.mem_cons_of_mem _ hj, h0, h'⟩

/-- The outcomes of a step at `l2a` when nothing is rejected, with the step length and the new multipliers. -/
theorem stepL2a_dual (ho : o.Sane) (hrefl : ∀ a, o.eq a a) {P : FQP F n} {st : FState F n} (hq : Good2a P st) (hacc : o.Accepts P st) {q' : FNext F n}
    (hs : o.stepL2a P st = .ok q') {d r : ℕ → F} {z : Fin n → F} (hd : o.gemvT st.J (o.row P st.ip).1 = d) (hr : o.triSolve st.R d st.iq = r)
    (hz : o.updateZ st.J d st.iq = z) :
    q' = .ret .unbounded st ∨
    (∃ k st1, P.CE.length ≤ k ∧ k < st.iq ∧ o.lt o.zero (r k) ∧ (¬ o.far z ∨ ∃ t, o.geInf t) ∧
      o.dropActive P { st with u := o.moveU st.u r st.iq (o.div (st.u k) (r k)) } (st.A k) = .ok st1 ∧ q' = .l2a st1) ∨
    (∃ k st1, P.CE.length ≤ k ∧ k < st.iq ∧ o.lt o.zero (r k) ∧ o.far z ∧
      o.dropActive P { st with x := fun i => o.mulAdd (o.div (st.u k) (r k)) (z i) (st.x i), f := o.mulAdd (o.mul (o.div (st.u k) (r k)) (o.dot z (o.row P st.ip).1)) (o.mulAdd o.half (o.div (st.u k) (r k)) (st.u st.iq)) st.f,
                               u := o.moveU st.u r st.iq (o.div (st.u k) (r k)) } (st.A k) = .ok st1 ∧
      q' = .l2a { st1 with s := Function.update st1.s st1.ip (o.slack P st1.x st1.ip) }) ∨
    ∃ t a, o.far z ∧ st.iq < n ∧ o.eq t (o.div (o.neg (st.s st.ip)) (o.dot z (o.row P st.ip).1)) ∧ o.addConstraint st.J st.R d st.iq st.Rnorm = .ok a ∧
      q' = .l1 { st with
        x := fun i => o.mulAdd t (z i) (st.x i), f := o.mulAdd (o.mul t (o.dot z (o.row P st.ip).1)) (o.mulAdd o.half t (st.u st.iq)) st.f, u := o.moveU st.u r st.iq t, J := a.J, R := a.R,
        Rnorm := a.Rnorm, iq := st.iq + 1, iai := Function.update st.iai st.ip (-1) } := by
  classical
  obtain ⟨h, h1, h2, h3⟩ := hq
  have hroom := h.room h1 h3
  unfold stepL2a at hs
  unfold Accepts at hacc
  dsimp only at hs
  rw [if_pos ⟨h.le_n, hroom, h1⟩, hd, hr, hz] at hs
  rw [hd, hz] at hacc
  have hsp := o.partialLen_quot r st.u st.A (List.range' P.CE.length (st.iq - P.CE.length)) (none, 0)
  generalize o.partialLen r st.u st.A (List.range' P.CE.length (st.iq - P.CE.length)) (none, 0) = p at hsp hs
  have hsp : p = (none, 0) ∨ ∃ k, P.CE.length ≤ k ∧ k < st.iq ∧ o.lt o.zero (r k) ∧ p = (some (o.div (st.u k) (r k)), st.A k) := by
    rcases hsp with hp | ⟨k, hk, h0, hp⟩
    · exact Or.inl hp
    · have := List.mem_range'_1.mp hk
      exact Or.inr ⟨k, this.1, by have := h.ne_le; omega, h0, hp⟩
  have dual : ∀ k, P.CE.length ≤ k → k < st.iq → o.lt o.zero (r k) → (¬ o.far z ∨ ∃ t, o.geInf t) → o.dualStep P r (st.A k) (o.div (st.u k) (r k)) st = .ok q' →
      ∃ k st1, P.CE.length ≤ k ∧ k < st.iq ∧ o.lt o.zero (r k) ∧ (¬ o.far z ∨ ∃ t, o.geInf t) ∧
      o.dropActive P { st with u := o.moveU st.u r st.iq (o.div (st.u k) (r k)) } (st.A k) = .ok st1 ∧ q' = .l2a st1 := by
    intro k hk hk' h0 hf hd
    unfold dualStep at hd
    split at hd
    · rename_i st1 e1
      exact ⟨k, st1, hk, hk', h0, hf, e1, (Out.ok.inj hd).symm⟩
    all_goals cases hd
  by_cases hfar : o.far z
  · have hlt : st.iq < n := by
      by_contra hn
      rw [← hz] at hfar
      unfold updateZ at hfar
      rw [if_neg hn] at hfar
      exact ho.zero hfar
    rw [if_pos hfar] at hs
    generalize hT : o.div (o.neg (st.s st.ip)) (o.dot z (o.row P st.ip).1) = T2 at hs
    have move : ∀ l t, (¬ o.eq t T2 → ∃ k, P.CE.length ≤ k ∧ k < st.iq ∧ o.lt o.zero (r k) ∧ l = st.A k ∧ t = o.div (st.u k) (r k)) →
        o.moveStep P (o.row P st.ip).1 d z r l t T2 st = .ok q' →
        (∃ k st1, P.CE.length ≤ k ∧ k < st.iq ∧ o.lt o.zero (r k) ∧ o.far z ∧
          o.dropActive P { st with x := fun i => o.mulAdd (o.div (st.u k) (r k)) (z i) (st.x i), f := o.mulAdd (o.mul (o.div (st.u k) (r k)) (o.dot z (o.row P st.ip).1)) (o.mulAdd o.half (o.div (st.u k) (r k)) (st.u st.iq)) st.f,
                                   u := o.moveU st.u r st.iq (o.div (st.u k) (r k)) } (st.A k) = .ok st1 ∧
          q' = .l2a { st1 with s := Function.update st1.s st1.ip (o.slack P st1.x st1.ip) }) ∨
        ∃ t a, o.far z ∧ st.iq < n ∧ o.eq t T2 ∧ o.addConstraint st.J st.R d st.iq st.Rnorm = .ok a ∧
          q' = .l1 { st with
            x := fun i => o.mulAdd t (z i) (st.x i), f := o.mulAdd (o.mul t (o.dot z (o.row P st.ip).1)) (o.mulAdd o.half t (st.u st.iq)) st.f, u := o.moveU st.u r st.iq t, J := a.J, R := a.R,
            Rnorm := a.Rnorm, iq := st.iq + 1, iai := Function.update st.iai st.ip (-1) } := by
      intro l t hl hm
      unfold moveStep at hm
      dsimp only at hm
      by_cases he : o.eq t T2
      · rw [if_pos he] at hm
        right
        obtain ⟨a, ha⟩ := o.addConstraint_ok (J := st.J) (R := st.R) (d := d) (Rnorm := st.Rnorm) hlt
        unfold fullStep at hm
        dsimp only at hm
        rw [ha] at hm
        dsimp only at hm
        rw [if_pos (hacc a hfar ha)] at hm
        exact ⟨t, a, hfar, hlt, he, ha, (Out.ok.inj hm).symm⟩
      · rw [if_neg he] at hm
        left
        obtain ⟨k, hk, hk', h0, rfl, rfl⟩ := hl he
        split at hm
        · rename_i st1 e1
          exact ⟨k, st1, hk, hk', h0, hfar, e1, (Out.ok.inj hm).symm⟩
        all_goals cases hm
    rcases hsp with rfl | ⟨k, hk, hk', h0, rfl⟩
    · by_cases hi : o.ltInf T2
      · rw [if_pos (show o.lenLt (some T2) none from hi)] at hs
        dsimp only at hs
        split_ifs at hs with hg
        · exact Or.inl (Out.ok.inj hs).symm
        · exact Or.inr (Or.inr (move _ _ (fun hne => absurd (hrefl T2) hne) hs))
      · rw [if_neg (show ¬ o.lenLt (some T2) none from hi)] at hs
        exact Or.inl (Out.ok.inj hs).symm
    · by_cases hi : o.lt T2 (o.div (st.u k) (r k))
      · rw [if_pos (show o.lenLt (some T2) (some (o.div (st.u k) (r k))) from hi)] at hs
        dsimp only at hs
        split_ifs at hs with hgt
        · exact Or.inl (Out.ok.inj hs).symm
        · exact Or.inr (Or.inr (move _ _ (fun hne => absurd (hrefl T2) hne) hs))
      · rw [if_neg (show ¬ o.lenLt (some T2) (some (o.div (st.u k) (r k))) from hi)] at hs
        dsimp only at hs
        split_ifs at hs with hgt hg2
        · exact Or.inl (Out.ok.inj hs).symm
        · exact Or.inr (Or.inl (dual k hk hk' h0 (Or.inr ⟨_, hg2⟩) hs))
        · exact Or.inr (Or.inr (move _ _ (fun he => ⟨k, hk, hk', h0, rfl, rfl⟩) hs))
  · rw [if_neg hfar, if_neg (show ¬ o.lenLt none p.1 from id)] at hs
    rcases hsp with rfl | ⟨k, hk, hk', h0, rfl⟩
    · exact Or.inl (Out.ok.inj hs).symm
    · dsimp only at hs
      split_ifs at hs with hg
      · exact Or.inl (Out.ok.inj hs).symm
      · exact Or.inr (Or.inl (dual k hk hk' h0 (Or.inl hfar) hs))

end Arith

end Verif
