import Verif.Lemmas.QuadFp

/-! What a step at label `l2a` does, over an arbitrary arithmetic. -/

namespace Verif

variable {F : Type} {n : ℕ}

namespace Arith

variable {o : Arith F n}

theorem dropActive_cases {P : FQP F n} {st st' : FState F n} {l : ℤ} (h : o.dropActive P st l = .ok st') :
    ∃ b, o.deleteConstraint (P.CE.length + P.CI.length) P.CE.length st.J st.R st.A st.u st.iq l = .ok b ∧
      st' = { st with J := b.J, R := b.R, A := b.A, u := b.u, iq := st.iq - 1, iai := Function.update st.iai l.toNat l } := by
  unfold dropActive at h
  split at h
  · split at h
    · rename_i b hb
      exact ⟨b, hb, (Out.ok.inj h).symm⟩
    all_goals cases h
  · cases h

/-- No partial step: no component of `r` is positive. -/
theorem partialLen_none (o : Arith F n) (r u : ℕ → F) (A : ℕ → ℤ) : ∀ (l : List ℕ) (z : ℤ), o.partialLen r u A l (none, z) = (none, 0) →
    ∀ k ∈ l, o.lt o.zero (r k) → ∃ t, ¬ o.ltInf t
  | [], _, _, k, hk, _ => absurd hk List.not_mem_nil
  | j :: l, z, h, k, hk, hr => by
    classical
    unfold partialLen at h
    split_ifs at h with hc
    · exfalso
      have : ∀ (l : List ℕ) (t : F) (z : ℤ), (o.partialLen r u A l (some t, z)).1 ≠ none := by
        intro l
        induction l with
        | nil => intro t z; simp [partialLen]
        | cons i l ih =>
          intro t z
          unfold partialLen
          split_ifs
          · exact ih _ _
          · exact ih _ _
      exact this _ _ _ (by rw [h])
    · rcases List.mem_cons.mp hk with rfl | hk
      · exact ⟨_, fun hi => hc ⟨hr, hi⟩⟩
      · exact partialLen_none o r u A l z h k hk hr

/-- The four outcomes of a step at `l2a` when nothing is rejected: the return of `UNBOUNDED`, a step in dual space, a partial step, a full step. -/
theorem stepL2a_cases (ho : o.Sane) {P : FQP F n} {st : FState F n} (hq : Good2a P st) (hacc : o.Accepts P st) {q' : FNext F n}
    (hs : o.stepL2a P st = .ok q') :
    (q' = .ret .unbounded st ∧ (¬ o.far (o.updateZ st.J (o.gemvT st.J (o.row P st.ip).1) st.iq) ∧
      (∀ k, P.CE.length ≤ k → k < st.iq → ¬ o.lt o.zero (o.triSolve st.R (o.gemvT st.J (o.row P st.ip).1) st.iq k)) ∨
      ∃ t, o.geInf t ∨ ¬ o.ltInf t)) ∨
    (∃ k r t st1, P.CE.length ≤ k ∧ k < st.iq ∧ o.dropActive P { st with u := o.moveU st.u r st.iq t } (st.A k) = .ok st1 ∧ q' = .l2a st1) ∨
    (∃ k t f' u' st1, P.CE.length ≤ k ∧ k < st.iq ∧ o.far (o.updateZ st.J (o.gemvT st.J (o.row P st.ip).1) st.iq) ∧
      o.dropActive P { st with
        x := fun i => o.mulAdd t (o.updateZ st.J (o.gemvT st.J (o.row P st.ip).1) st.iq i) (st.x i), f := f', u := u' } (st.A k) = .ok st1 ∧
      (o.eq (o.div (o.neg (st.s st.ip)) (o.dot (o.updateZ st.J (o.gemvT st.J (o.row P st.ip).1) st.iq) (o.row P st.ip).1))
        (o.div (o.neg (st.s st.ip)) (o.dot (o.updateZ st.J (o.gemvT st.J (o.row P st.ip).1) st.iq) (o.row P st.ip).1)) →
        ¬ o.lt (o.div (o.neg (st.s st.ip)) (o.dot (o.updateZ st.J (o.gemvT st.J (o.row P st.ip).1) st.iq) (o.row P st.ip).1)) t) ∧
      q' = .l2a { st1 with s := Function.update st1.s st1.ip (o.slack P st1.x st1.ip) }) ∨
    ∃ t f' u' a, o.far (o.updateZ st.J (o.gemvT st.J (o.row P st.ip).1) st.iq) ∧ st.iq < n ∧
      o.eq t (o.div (o.neg (st.s st.ip)) (o.dot (o.updateZ st.J (o.gemvT st.J (o.row P st.ip).1) st.iq) (o.row P st.ip).1)) ∧
      o.addConstraint st.J st.R (o.gemvT st.J (o.row P st.ip).1) st.iq st.Rnorm = .ok a ∧ a.ok ∧
      q' = .l1 { st with
        x := fun i => o.mulAdd t (o.updateZ st.J (o.gemvT st.J (o.row P st.ip).1) st.iq i) (st.x i), f := f', u := u', J := a.J, R := a.R,
        Rnorm := a.Rnorm, iq := st.iq + 1, iai := Function.update st.iai st.ip (-1) } := by
  classical
  obtain ⟨h, h1, h2, h3⟩ := hq
  have hroom := h.room h1 h3
  unfold stepL2a at hs
  dsimp only at hs
  rw [if_pos ⟨h.le_n, hroom, h1⟩] at hs
  have hsp := o.partialLen_spec (o.triSolve st.R (o.gemvT st.J (o.row P st.ip).1) st.iq) st.u st.A
    (List.range' P.CE.length (st.iq - P.CE.length)) (none, 0)
  have hno := o.partialLen_none (o.triSolve st.R (o.gemvT st.J (o.row P st.ip).1) st.iq) st.u st.A
    (List.range' P.CE.length (st.iq - P.CE.length)) 0
  generalize o.partialLen (o.triSolve st.R (o.gemvT st.J (o.row P st.ip).1) st.iq) st.u st.A
    (List.range' P.CE.length (st.iq - P.CE.length)) (none, 0) = p at hsp hno hs
  generalize o.triSolve st.R (o.gemvT st.J (o.row P st.ip).1) st.iq = r at hs hno ⊢
  have hsp : p = (none, 0) ∨ ∃ k, P.CE.length ≤ k ∧ k < st.iq ∧ ∃ t, p = (some t, st.A k) := by
    rcases hsp with hp | ⟨k, hk, t, hp⟩
    · exact Or.inl hp
    · have := List.mem_range'_1.mp hk
      exact Or.inr ⟨k, this.1, by have := h.ne_le; omega, t, hp⟩
  have dual : ∀ k t, P.CE.length ≤ k → k < st.iq → o.dualStep P r (st.A k) t st = .ok q' →
      ∃ k r t st1, P.CE.length ≤ k ∧ k < st.iq ∧ o.dropActive P { st with u := o.moveU st.u r st.iq t } (st.A k) = .ok st1 ∧ q' = .l2a st1 := by
    intro k t hk hk' hd
    unfold dualStep at hd
    split at hd
    · rename_i st1 e1
      exact ⟨k, r, t, st1, hk, hk', e1, (Out.ok.inj hd).symm⟩
    all_goals cases hd
  by_cases hfar : o.far (o.updateZ st.J (o.gemvT st.J (o.row P st.ip).1) st.iq)
  · have hlt : st.iq < n := by
      by_contra hn
      unfold updateZ at hfar
      rw [if_neg hn] at hfar
      exact ho.zero hfar
    rw [if_pos hfar] at hs
    generalize hT : o.div (o.neg (st.s st.ip)) (o.dot (o.updateZ st.J (o.gemvT st.J (o.row P st.ip).1) st.iq) (o.row P st.ip).1) = T2 at hs ⊢
    have move : ∀ l t, (¬ o.eq t T2 → (o.eq T2 T2 → ¬ o.lt T2 t) ∧ ∃ k, P.CE.length ≤ k ∧ k < st.iq ∧ l = st.A k) →
        o.moveStep P (o.row P st.ip).1 (o.gemvT st.J (o.row P st.ip).1) (o.updateZ st.J (o.gemvT st.J (o.row P st.ip).1) st.iq) r l t T2 st = .ok q' →
        (∃ k t f' u' st1, P.CE.length ≤ k ∧ k < st.iq ∧ o.far (o.updateZ st.J (o.gemvT st.J (o.row P st.ip).1) st.iq) ∧
          o.dropActive P { st with
            x := fun i => o.mulAdd t (o.updateZ st.J (o.gemvT st.J (o.row P st.ip).1) st.iq i) (st.x i), f := f', u := u' } (st.A k) = .ok st1 ∧
          (o.eq T2 T2 → ¬ o.lt T2 t) ∧ q' = .l2a { st1 with s := Function.update st1.s st1.ip (o.slack P st1.x st1.ip) }) ∨
        ∃ t f' u' a, o.far (o.updateZ st.J (o.gemvT st.J (o.row P st.ip).1) st.iq) ∧ st.iq < n ∧ o.eq t T2 ∧
          o.addConstraint st.J st.R (o.gemvT st.J (o.row P st.ip).1) st.iq st.Rnorm = .ok a ∧ a.ok ∧
          q' = .l1 { st with
            x := fun i => o.mulAdd t (o.updateZ st.J (o.gemvT st.J (o.row P st.ip).1) st.iq i) (st.x i), f := f', u := u', J := a.J, R := a.R,
            Rnorm := a.Rnorm, iq := st.iq + 1, iai := Function.update st.iai st.ip (-1) } := by
      intro l t hl hm
      unfold moveStep at hm
      dsimp only at hm
      by_cases he : o.eq t T2
      · rw [if_pos he] at hm
        right
        obtain ⟨a, ha⟩ := o.addConstraint_ok (J := st.J) (R := st.R) (d := o.gemvT st.J (o.row P st.ip).1) (Rnorm := st.Rnorm) hlt
        unfold fullStep at hm
        dsimp only at hm
        rw [ha] at hm
        dsimp only at hm
        rw [if_pos (hacc a hfar ha)] at hm
        exact ⟨t, _, _, a, hfar, hlt, he, ha, hacc a hfar ha, (Out.ok.inj hm).symm⟩
      · rw [if_neg he] at hm
        left
        obtain ⟨hl2, k, hk, hk', rfl⟩ := hl he
        split at hm
        · rename_i st1 e1
          exact ⟨k, t, _, _, st1, hk, hk', hfar, e1, hl2, (Out.ok.inj hm).symm⟩
        all_goals cases hm
    rcases hsp with rfl | ⟨k, hk, hk', t1, rfl⟩
    · by_cases hi : o.ltInf T2
      · rw [if_pos (show o.lenLt (some T2) none from hi)] at hs
        dsimp only at hs
        split_ifs at hs with hg
        · exact Or.inl ⟨(Out.ok.inj hs).symm, Or.inr ⟨_, Or.inl hg⟩⟩
        · exact Or.inr (Or.inr (move _ _ (fun hne => absurd (ho.refl _ hi) hne) hs))
      · rw [if_neg (show ¬ o.lenLt (some T2) none from hi)] at hs
        exact Or.inl ⟨(Out.ok.inj hs).symm, Or.inr ⟨_, Or.inr hi⟩⟩
    · have key : ∃ t, (¬ o.eq t T2 → o.eq T2 T2 → ¬ o.lt T2 t) ∧ (if o.geInf t then Out.ok (FNext.ret QPStatus.unbounded st) else
            if o.geInf T2 then o.dualStep P r (st.A k) t st
            else o.moveStep P (o.row P st.ip).1 (o.gemvT st.J (o.row P st.ip).1)
              (o.updateZ st.J (o.gemvT st.J (o.row P st.ip).1) st.iq) r (st.A k) t T2 st) = .ok q' := by
        by_cases hi : o.lt T2 t1
        · rw [if_pos (show o.lenLt (some T2) (some t1) from hi)] at hs
          exact ⟨T2, fun hne hr => absurd hr hne, hs⟩
        · rw [if_neg (show ¬ o.lenLt (some T2) (some t1) from hi)] at hs; exact ⟨t1, fun _ _ => hi, hs⟩
      obtain ⟨t, hlt2, ht⟩ := key
      split_ifs at ht with hgt
      · exact Or.inl ⟨(Out.ok.inj ht).symm, Or.inr ⟨_, Or.inl hgt⟩⟩
      · exact Or.inr (Or.inl (dual k t hk hk' ht))
      · exact Or.inr (Or.inr (move _ _ (fun he => ⟨hlt2 he, k, hk, hk', rfl⟩) ht))
  · rw [if_neg hfar, if_neg (show ¬ o.lenLt none p.1 from id)] at hs
    rcases hsp with rfl | ⟨k, hk, hk', t1, rfl⟩
    · by_cases hi : ∃ t, ¬ o.ltInf t
      · obtain ⟨t, hi⟩ := hi
        exact Or.inl ⟨(Out.ok.inj hs).symm, Or.inr ⟨t, Or.inr hi⟩⟩
      · refine Or.inl ⟨(Out.ok.inj hs).symm, Or.inl ⟨hfar, fun k hk hk' hr => hi ?_⟩⟩
        exact (hno rfl k (List.mem_range'_1.mpr ⟨hk, by omega⟩) hr).imp fun t ht => ht
    · dsimp only at hs
      split_ifs at hs with hg
      · exact Or.inl ⟨(Out.ok.inj hs).symm, Or.inr ⟨_, Or.inl hg⟩⟩
      · exact Or.inr (Or.inl (dual k t1 hk hk' hs))

end Arith

end Verif
