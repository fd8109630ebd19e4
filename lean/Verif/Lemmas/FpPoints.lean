import Verif.Lemmas.FpDefined
import Verif.Lemmas.OneStepSem

/-!
# Waypoints, positions, accelerations and wrenches computed with rounding
-/

namespace Verif
open FExp Matrix

/-- Two coefficients of the free point at a distance at most `ε`. -/
def CoClose (ε : ℝ) (co co' : Coefs) : Prop := |co.first - co'.first| ≤ ε ∧ ∀ k, |co.second k - co'.second k| ≤ ε

/-- Two wrenches at a distance at most `ε`. -/
def WClose (ε : ℝ) (w w' : Wp6) : Prop := ∀ i, (∀ j, |w.mat i j - w'.mat i j| ≤ ε) ∧ |w.vec i - w'.vec i| ≤ ε

theorem CoClose.mono {ε ε' : ℝ} {co co' : Coefs} (h : CoClose ε co co') (hle : ε ≤ ε') : CoClose ε' co co' :=
  ⟨h.1.trans hle, fun k => (h.2 k).trans hle⟩

theorem WClose.mono {ε ε' : ℝ} {w w' : Wp6} (h : WClose ε w w') (hle : ε ≤ ε') : WClose ε' w w' :=
  fun i => ⟨fun j => ((h i).1 j).trans hle, (h i).2.trans hle⟩

section
variable {flag : Flag} {d : BC} {T : ℝ} {pts : List V3}

/-! ## Waypoints -/

theorem pts_near (hf : flag ∈ comFlags) (hT : T ≠ 0) (hpts : computeConstantWaypoints flag d T = .ok pts) (i : ℕ) (k : Fin 3) :
    CloseTo (fun u r => ∃ pts', ConstantWaypointsFp u flag d T pts' ∧ r = nth pts' i k) (nth pts i k) := by
  obtain ⟨-, es, hes, hk⟩ := (constantWaypointsFp_zero flag d T pts).mpr hpts
  rcases he : (es k)[i]? with _ | e
  · have hlen : (es k).length ≤ i := List.getElem?_eq_none_iff.mp he
    have hz : ∀ p : List V3, p.length = (es k).length → nth p i k = 0 := by
      intro p hp
      unfold nth
      rw [List.getD_eq_getElem?_getD, List.getElem?_eq_none_iff.mpr (by omega)]
      rfl
    rw [hz pts (hk k).1]
    refine (near_exact 0).sub ?_
    rintro u r - ⟨pts', ⟨-, es', hes', hk'⟩, rfl⟩
    rw [hes] at hes'
    cases hes'
    exact hz pts' (hk' k).1
  · have hex := (hk k).2 i e he
    rw [computes_zero] at hex
    rw [hex]
    refine (computes_near e (env d 0 0 T 0) (okT_defined hT (points_okT hf hes k e (List.mem_of_getElem? he)))
      (E := fun _ ρ => ρ = env d 0 0 T 0) fun v => (near_exact _).sub ?_).sub ?_
    · rintro u r - ⟨ρ', rfl, rfl⟩
      rfl
    · rintro u r - ⟨pts', ⟨-, es', hes', hk'⟩, rfl⟩
      rw [hes] at hes'
      cases hes'
      exact ⟨_, rfl, (hk' k).2 i e he⟩

/-- The values of the variables when a query is evaluated at the sample `t`. -/
def EnvFp (flag : Flag) (d : BC) (T : ℝ) (g : V3) (t : ℝ) (u : ℝ) (ρ : Var → ℝ) : Prop :=
  ∃ pts s, ConstantWaypointsFp u flag d T pts ∧ TimeFp u t T s ∧ ρ = env d (nth pts) g T s

theorem time_near {t T : ℝ} (h : t / T ≤ 1) : CloseTo (fun u r => TimeFp u t T r) (t / T) := by
  have := near_min (c := 1) (near_exact (t / T)).round
  rw [min_eq_left h] at this
  refine this.sub ?_
  rintro u r - ⟨a, ha, rfl⟩
  exact ⟨a, ⟨_, rfl, ha⟩, rfl⟩

theorem env_near (hf : flag ∈ comFlags) (hT : T ≠ 0) (hpts : computeConstantWaypoints flag d T = .ok pts) {t : ℝ} (ht : t / T ≤ 1) (g : V3) (v : Var) :
    CloseTo (fun u r => ∃ ρ, EnvFp flag d T g t u ρ ∧ r = ρ v) (env d (nth pts) g T (t / T) v) := by
  have fixed : ∀ v, (∀ p s, env d p g T s v = env d (nth pts) g T (t / T) v) →
      CloseTo (fun u r => ∃ ρ, EnvFp flag d T g t u ρ ∧ r = ρ v) (env d (nth pts) g T (t / T) v) := by
    intro v hv
    refine (near_exact _).sub ?_
    rintro u r - ⟨ρ, ⟨p, s, -, -, rfl⟩, rfl⟩
    exact hv _ _
  cases v with
  | pi i k =>
    refine (pts_near hf hT hpts i k).sub ?_
    rintro u r - ⟨ρ, ⟨p, s, hp, -, rfl⟩, rfl⟩
    exact ⟨p, hp, rfl⟩
  | t =>
    refine (time_near ht).sub ?_
    rintro u r - ⟨ρ, ⟨p, s, -, hs, rfl⟩, rfl⟩
    exact hs
  | _ => exact fixed _ fun _ _ => rfl

theorem exp_near (hf : flag ∈ comFlags) (hT : T ≠ 0) (hpts : computeConstantWaypoints flag d T = .ok pts) {t : ℝ} (ht : t / T ≤ 1) (g : V3) {e : FExp}
    (he : e.okT = true) : CloseTo (fun u r => ∃ ρ, EnvFp flag d T g t u ρ ∧ e.Computes u ρ r) (e.exact (env d (nth pts) g T (t / T))) :=
  computes_near e _ (okT_defined hT he) fun v => env_near hf hT hpts ht g v

/-! ## Positions and accelerations -/

theorem coefs_near (hf : flag ∈ comFlags) (hT : T ≠ 0) (hpts : computeConstantWaypoints flag d T = .ok pts) {t : ℝ} (ht : t / T ≤ 1)
    {es : Fin 3 → FExp × FExp} (he : ∀ k, (es k).1.okT = true ∧ (es k).2.okT = true) {co' : Coefs}
    (h' : ∀ k, co'.first = (es k).1.exact (env d (nth pts) 0 T (t / T)) ∧ co'.second k = (es k).2.exact (env d (nth pts) 0 T (t / T))) :
    Ev fun u ε => ∀ pts' s co, ConstantWaypointsFp u flag d T pts' → TimeFp u t T s →
      (∀ k, (es k).1.Computes u (env d (nth pts') 0 T s) co.first ∧ (es k).2.Computes u (env d (nth pts') 0 T s) (co.second k)) → CoClose ε co co' := by
  have h1 := exp_near hf hT hpts ht 0 (he 0).1
  have h2 := Ev.forall_fin (fun k => exp_near hf hT hpts ht 0 (he k).2) fun k => near_mono _ _
  refine (Ev.and h1 h2 (near_mono _ _) fun u ε ε' h hle k r hr => (h k r hr).trans hle).imp 1 zero_le_one ?_
  intro u ε _ _ ⟨q1, q2⟩ pts' s co hp hs hco
  rw [one_mul]
  refine ⟨?_, fun k => ?_⟩
  · rw [(h' 0).1]
    exact q1 _ ⟨_, ⟨pts', s, hp, hs, rfl⟩, (hco 0).1⟩
  · rw [(h' k).2]
    exact q2 k _ ⟨_, ⟨pts', s, hp, hs, rfl⟩, (hco k).2⟩

theorem curve_near (hf : flag ∈ comFlags) (hT : T ≠ 0) (hpts : computeConstantWaypoints flag d T = .ok pts) {t : ℝ} (ht : t / T ≤ 1) {co' : Coefs}
    (h : evaluateCurveAtTime flag pts (t / T) = .ok co') :
    Ev fun u ε => ∀ pts' s co, ConstantWaypointsFp u flag d T pts' → TimeFp u t T s → EvaluateCurveFp u flag pts' s co → CoClose ε co co' := by
  obtain ⟨n, es, hes, -, hk⟩ := (evaluateCurveFp_zero flag hf pts (t / T) co').mpr h
  refine (coefs_near hf hT hpts ht (curve_okT hf hes) (co' := co') fun k => ?_).imp 1 zero_le_one ?_
  · have := hk k d 0 T
    simp only [computes_zero] at this
    exact this
  · rintro u ε _ _ H pts' s co hp hs ⟨n', es', hes', -, hco⟩
    rw [hes] at hes'
    cases hes'
    rw [one_mul]
    exact H pts' s co hp hs fun k => hco k d 0 T

theorem acc_near (hf : flag ∈ comFlags) (hT : T ≠ 0) (hpts : computeConstantWaypoints flag d T = .ok pts) {t : ℝ} (ht : t / T ≤ 1) {co' : Coefs}
    (h : evaluateAccelerationCurveAtTime flag pts T (t / T) = .ok co') :
    Ev fun u ε => ∀ pts' s co, ConstantWaypointsFp u flag d T pts' → TimeFp u t T s → EvaluateAccelerationFp u flag pts' T s co → CoClose ε co co' := by
  obtain ⟨n, es, hes, -, hk⟩ := (evaluateAccelerationFp_zero flag hf pts T (t / T) co').mpr h
  refine (coefs_near hf hT hpts ht (acc_okT hf hes) (co' := co') fun k => ?_).imp 1 zero_le_one ?_
  · have := hk k d 0
    simp only [computes_zero] at this
    exact this
  · rintro u ε _ _ H pts' s co hp hs ⟨n', es', hes', -, hco⟩
    rw [hes] at hes'
    cases hes'
    rw [one_mul]
    exact H pts' s co hp hs fun k => hco k d 0

/-! ## Wrenches -/

theorem wws_val (hf : flag ∈ comFlags) {ct : ContactData} {rest : List ContactData} {e : Equilibrium} (he : ct.contactPhase = some e)
    (hpts : computeConstantWaypoints flag d T = .ok pts) {ws : List Wp6} (hws : computeWwaypoints flag (ct :: rest) d T = .ok ws) :
    ∃ es, wwaypointsFp flag = some es ∧ ∀ d' t, es.map (FWp6.val (env d' (nth pts) e.gravity T t)) = ws := by
  simp only [comFlags, List.mem_cons, List.not_mem_nil, or_false] at hf
  rcases hf with rfl | rfl | rfl | rfl | rfl | rfl | rfl
  all_goals
    simp [computeWwaypoints, frontGravity, he, hpts] at hws
    subst hws
  · exact ⟨_, by simp [wwaypointsFp], fun d' t => val_c0_dc0_c1 ..⟩
  · exact ⟨_, by simp [wwaypointsFp], fun d' t => val_c0_dc0_dc1 ..⟩
  · exact ⟨_, by simp [wwaypointsFp], fun d' t => val_c0_dc0_dc1_c1 ..⟩
  · exact ⟨_, by simp [wwaypointsFp], fun d' t => val_c0_dc0_ddc0 ..⟩
  · exact ⟨_, by simp [wwaypointsFp], fun d' t => val_c0_dc0_ddc0_c1 ..⟩
  · exact ⟨_, by simp [wwaypointsFp], fun d' t => val_c0_dc0_ddc0_dc1_c1 ..⟩
  · exact ⟨_, by simp [wwaypointsFp], fun d' t => val_c0_dc0_ddc0_ddc1_dc1_c1 ..⟩

theorem near_pow {R : ℝ → ℝ → Prop} {x : ℝ} (h : CloseTo R x) (n : ℕ) : CloseTo (fun u r => ∃ a, R u a ∧ r = a ^ n) (x ^ n) := by
  induction n with
  | zero =>
    refine (near_exact (x ^ 0)).sub ?_
    rintro u r - ⟨a, -, rfl⟩
    simp
  | succ n ih =>
    rw [pow_succ]
    refine (ih.mul h).sub ?_
    rintro u r - ⟨a, ha, rfl⟩
    exact ⟨a ^ n, a, ⟨a, ha, rfl⟩, ha, by rw [pow_succ]⟩

theorem bern_near {R : ℝ → ℝ → Prop} {x : ℝ} (h : CloseTo R x) (b : Bern) : CloseTo (fun u r => ∃ a, R u a ∧ RelTo 64 u (b.eval a) r) (b.eval x) := by
  have h1 := ((near_exact (b.m.choose b.i : ℝ)).mul (near_pow h b.i)).mul (near_pow ((near_exact 1).sub' h) (b.m - b.i))
  refine (h1.rel 64).sub ?_
  rintro u r - ⟨a, ha, hr⟩
  exact ⟨_, ⟨_, _, ⟨_, _, rfl, ⟨a, ha, rfl⟩, rfl⟩, ⟨1 - a, ⟨1, a, rfl, ha, rfl⟩, rfl⟩, rfl⟩, hr⟩

/-- A sum of products, accumulated from left to right. -/
theorem accFp_near (L : List (((ℝ → ℝ → Prop) × ℝ) × ((ℝ → ℝ → Prop) × ℝ))) :
    (∀ q ∈ L, CloseTo q.1.1 q.1.2 ∧ CloseTo q.2.1 q.2.2) → ∀ (R : ℝ → ℝ → Prop) (a : ℝ), CloseTo R a →
      CloseTo (fun u r => ∃ l a', List.Forall₂ (fun (p : ℝ × ℝ) q => q.1.1 u p.1 ∧ q.2.1 u p.2) l L ∧ R u a' ∧ AccFp u l a' r)
        (a + (L.map fun q => q.1.2 * q.2.2).sum) := by
  induction L with
  | nil =>
    intro _ R a hR
    simp only [List.map_nil, List.sum_nil, add_zero]
    refine hR.sub ?_
    rintro u r - ⟨l, a', hl, ha, hr⟩
    cases hl
    rw [show r = a' from hr]
    exact ha
  | cons q L ih =>
    intro hL R a hR
    obtain ⟨hq1, hq2⟩ := hL q List.mem_cons_self
    have := ih (fun q hq => hL q (List.mem_cons_of_mem _ hq)) _ _ (hR.add (hq1.mul hq2).round).round
    rw [List.map_cons, List.sum_cons, ← add_assoc]
    refine this.sub ?_
    rintro u r - ⟨l, a', hl, ha, hr⟩
    cases hl with
    | @cons p _ l' _ hp hl =>
      obtain ⟨b, m⟩ := p
      obtain ⟨z, a2, hz, ha2, hr⟩ := hr
      exact ⟨l', a2, hl, ⟨_, ⟨a', z, ha, ⟨_, ⟨b, m, hp.1, hp.2, rfl⟩, hz⟩, rfl⟩, ha2⟩, hr⟩

theorem addScaled_mat (w p : Wp6) (b : ℝ) (i : Fin 6) : (∀ j, (w.addScaled b p).mat i j = w.mat i j + b * p.mat i j) ∧
    (w.addScaled b p).vec i = w.vec i + b * p.vec i := by
  constructor
  · intro j
    fin_cases i <;> simp [Wp6.addScaled, Wp6.mat, six]
  · fin_cases i <;> simp [Wp6.addScaled, Wp6.vec, six]

theorem wSum_mat (t : ℝ) (i : Fin 6) (wps : List Wp6) : ∀ (bs : List Bern) (w r : Wp6), wSum wps bs t w = .ok r →
    (∀ j, r.mat i j = w.mat i j + (List.zipWith (fun (b : Bern) p => b.eval t * p.mat i j) bs wps).sum) ∧
      r.vec i = w.vec i + (List.zipWith (fun (b : Bern) p => b.eval t * p.vec i) bs wps).sum := by
  induction wps with
  | nil =>
    intro bs w r h
    cases h
    simp
  | cons p ps ih =>
    intro bs w r h
    cases bs with
    | nil => cases h
    | cons b bs =>
      rw [wSum] at h
      obtain ⟨h1, h2⟩ := ih bs _ r h
      refine ⟨fun j => ?_, ?_⟩
      · rw [h1 j, (addScaled_mat w p _ i).1 j, List.zipWith_cons_cons, List.sum_cons, add_assoc]
      · rw [h2, (addScaled_mat w p _ i).2, List.zipWith_cons_cons, List.sum_cons, add_assoc]

/-- Terms of the sum of `computeDiscretizedWwaypoints`: `f` is one of the components. -/
noncomputable def wTerms (d : BC) (pts : List V3) (flag : Flag) (g : V3) (T t : ℝ) (f : FWp6 → FExp) (es : List FWp6) (is : List ℕ) (n : ℕ) :
    List (((ℝ → ℝ → Prop) × ℝ) × ((ℝ → ℝ → Prop) × ℝ)) :=
  List.zipWith (fun i e => ((fun u b => ∃ s, TimeFp u t T s ∧ RelTo 64 u ((Bern.mk n i).eval s) b, (Bern.mk n i).eval (t / T)),
    (fun u r => ∃ ρ, EnvFp flag d T g t u ρ ∧ (f e).Computes u ρ r, (f e).exact (env d (nth pts) g T (t / T))))) is es

theorem comp_near (hf : flag ∈ comFlags) (hT : T ≠ 0) (hpts : computeConstantWaypoints flag d T = .ok pts) {t : ℝ} (ht : t / T ≤ 1) (g : V3)
    (f : FWp6 → FExp) (f' : Wp6 → ℝ) {es : List FWp6} (he : ∀ e ∈ es, (f e).okT = true)
    (hv : ∀ e, f' (FWp6.val (env d (nth pts) g T (t / T)) e) = (f e).exact (env d (nth pts) g T (t / T))) :
    CloseTo (fun u r => ∃ pts' ws s bs, ConstantWaypointsFp u flag d T pts' ∧ TimeFp u t T s ∧
        List.Forall₂ (fun e w => (f e).Computes u (env d (nth pts') g T s) (f' w)) es ws ∧
        List.Forall₂ (fun i b => RelTo 64 u ((Bern.mk (ws.length - 1) i).eval s) b) (List.range ws.length) bs ∧
        AccFp u (List.zipWith (fun b p => (b, f' p)) bs ws) 0 r)
      (List.zipWith (fun (b : Bern) p => b.eval (t / T) * f' p) ((List.range es.length).map fun i => ⟨es.length - 1, i⟩)
        (es.map (FWp6.val (env d (nth pts) g T (t / T))))).sum := by
  have key := accFp_near (wTerms d pts flag g T t f es (List.range es.length) (es.length - 1)) ?_ _ 0 (near_exact 0)
  · rw [zero_add] at key
    have e1 : ∀ (is : List ℕ) (es : List FWp6) (n : ℕ), ((wTerms d pts flag g T t f es is n).map fun q => q.1.2 * q.2.2) =
        List.zipWith (fun (b : Bern) p => b.eval (t / T) * f' p) (is.map fun i => ⟨n, i⟩) (es.map (FWp6.val (env d (nth pts) g T (t / T)))) := by
      intro is es n
      unfold wTerms
      rw [List.map_zipWith, List.zipWith_map]
      simp only [hv]
    rw [e1] at key
    refine key.sub ?_
    rintro u r - ⟨pts', ws, s, bs, hp, hs, hw, hb, hr⟩
    have hlen := hw.length_eq
    refine ⟨_, 0, ?_, rfl, hr⟩
    rw [← hlen] at hb
    have gen : ∀ (is : List ℕ) (n : ℕ) (bs : List ℝ) (es : List FWp6) (ws : List Wp6),
        List.Forall₂ (fun e w => (f e).Computes u (env d (nth pts') g T s) (f' w)) es ws →
        List.Forall₂ (fun i b => RelTo 64 u ((Bern.mk n i).eval s) b) is bs →
        List.Forall₂ (fun (p : ℝ × ℝ) q => q.1.1 u p.1 ∧ q.2.1 u p.2) (List.zipWith (fun b p => (b, f' p)) bs ws) (wTerms d pts flag g T t f es is n) := by
      intro is
      induction is with
      | nil =>
        intro n bs es ws _ hb
        cases hb
        simp [wTerms]
      | cons i is ih =>
        intro n bs es ws hw hb
        cases hb with
        | cons hb1 hb2 =>
          cases hw with
          | nil => simp [wTerms]
          | cons hw1 hw2 =>
            refine List.Forall₂.cons ⟨⟨s, hs, hb1⟩, ⟨_, ⟨pts', s, hp, hs, rfl⟩, hw1⟩⟩ ?_
            exact ih n _ _ _ hw2 hb2
    exact gen _ _ _ _ _ hw hb
  · have gen : ∀ (is : List ℕ) (n : ℕ) (es : List FWp6), (∀ e ∈ es, (f e).okT = true) →
        ∀ q ∈ wTerms d pts flag g T t f es is n, CloseTo q.1.1 q.1.2 ∧ CloseTo q.2.1 q.2.2 := by
      intro is n es he q hq
      unfold wTerms at hq
      rw [← List.map_uncurry_zip_eq_zipWith, List.mem_map] at hq
      obtain ⟨⟨i, e⟩, hie, rfl⟩ := hq
      exact ⟨bern_near (time_near ht) _, exp_near hf hT hpts ht g (he e (List.of_mem_zip hie).2)⟩
    exact gen _ _ _ he

theorem wrench_near (hf : flag ∈ comFlags) (hT : T ≠ 0) (hpts : computeConstantWaypoints flag d T = .ok pts) {t : ℝ} (ht : t / T ≤ 1)
    {ct : ContactData} {rest : List ContactData} {e : Equilibrium} (he : ct.contactPhase = some e) {ws : List Wp6}
    (hws : computeWwaypoints flag (ct :: rest) d T = .ok ws) (hne : ws ≠ []) {w : Wp6}
    (hw : wSum ws ((List.range (ws.length - 1 + 1)).map fun i => ⟨ws.length - 1, i⟩) (t / T) ⟨0, 0, 0, 0⟩ = .ok w) :
    Ev fun u ε => ∀ pts' ws' s w', ConstantWaypointsFp u flag d T pts' → WwaypointsFp u flag pts' e.gravity T ws' → TimeFp u t T s →
      WSumFp u ws' s w' → WClose ε w' w := by
  obtain ⟨es, hes, hval⟩ := wws_val hf he hpts hws
  have hlen : es.length = ws.length := by rw [← hval d 0, List.length_map]
  have hpos : 0 < ws.length := List.length_pos_iff.mpr hne
  rw [show ws.length - 1 + 1 = ws.length by omega] at hw
  have hok := wrench_okT hf hes
  have hM : Ev fun u ε => ∀ (i : Fin 6) (j : Fin 3), _ := Ev.forall_fin (fun i => Ev.forall_fin (fun j =>
    comp_near hf hT hpts ht e.gravity (fun e => e.mat i j) (fun w => w.mat i j) (fun e he => (hok e he i).1 j) fun e => FWp6.val_mat _ _ _ _)
    fun j => near_mono _ _) fun i u ε ε' h hle j r hr => (h j r hr).trans hle
  have hV : Ev fun u ε => ∀ (i : Fin 6), _ := Ev.forall_fin (fun i =>
    comp_near hf hT hpts ht e.gravity (fun e => e.vec i) (fun w => w.vec i) (fun e he => (hok e he i).2) fun e => FWp6.val_vec _ _ _)
    fun i => near_mono _ _
  refine (Ev.and hM hV (fun u ε ε' h hle i j r hr => (h i j r hr).trans hle) fun u ε ε' h hle i r hr => (h i r hr).trans hle).imp 1 zero_le_one ?_
  rintro u ε - - ⟨q1, q2⟩ pts' ws' s w' hp ⟨es', hes', hw'⟩ hs ⟨bs, hbs, hacc⟩
  rw [hes] at hes'
  cases hes'
  rw [one_mul]
  intro i
  obtain ⟨k1, k2⟩ := wSum_mat (t / T) i ws _ _ _ hw
  have z1 : ∀ j, (⟨0, 0, 0, 0⟩ : Wp6).mat i j = 0 := by intro j; fin_cases i <;> rfl
  have z2 : (⟨0, 0, 0, 0⟩ : Wp6).vec i = 0 := by fin_cases i <;> rfl
  refine ⟨fun j => ?_, ?_⟩
  · rw [k1 j, z1, zero_add]
    have := q1 i j _ ⟨pts', ws', s, bs, hp, hs, hw'.imp fun e w h => (h i d s).1 j, hbs, (hacc i).1 j⟩
    rw [hval, hlen] at this
    exact this
  · rw [k2, z2, zero_add]
    have := q2 i _ ⟨pts', ws', s, bs, hp, hs, hw'.imp fun e w h => (h i d s).2, hbs, (hacc i).2⟩
    rw [hval, hlen] at this
    exact this

end

end Verif
