noncomputable def computeWwaypoints (pi : ℕ → V3) (g : V3) (T : ℝ) : List Wp6 :=
  let T2 : ℝ := T * T
  let alpha : ℝ := 1 / (T2)
  [
    { top := fun i j => 6 * alpha * (1 : M3) i j
      bot := fun i j => 6 * skew (pi 0) i j * alpha
      head := fun k => (6 * pi 0 k - 12 * pi 1 k) * alpha
      tail := (- skew (pi 0)) *ᵥ (fun k => 12 * pi 1 k * alpha + g k) },
    { top := fun i j => 3 * alpha * (1 : M3) i j
      bot := fun i j => skew (fun k => 1.5 * (3 * pi 1 k - pi 0 k)) i j * alpha
      head := fun k => 1.5 * alpha * (3 * pi 0 k - 5 * pi 1 k)
      tail := fun k =>
        (eigenCross (fun k => 3 * alpha * pi 0 k) (fun k => - pi 1 k)) k
          + 0.25 * (skew g *ᵥ (fun k => 3 * pi 1 k + pi 0 k)) k },
    { top := fun i j => 0 * alpha * (1 : M3) i j
      bot := skew (fun k => 0.5 * g k - 3 * alpha * pi 0 k + 3 * alpha * pi 1 k)
      head := fun k => 3 * alpha * (pi 0 k - pi 1 k)
      tail := fun k => 0.5 * (skew g *ᵥ pi 1) k },
    { top := fun i j => -3 * alpha * (1 : M3) i j
      bot := skew (fun k => g k - 1.5 * alpha * (pi 1 k + pi 0 k))
      head := fun k => 1.5 * alpha * (pi 1 k + pi 0 k)
      tail := 0 },
    { top := fun i j => -6 * alpha * (1 : M3) i j
      bot := skew (fun k => g k - 6 * alpha * pi 1 k)
      head := fun k => 6 * pi 1 k * alpha
      tail := 0 }]
