import Verif.Model.Fp

/-!
# Vectors and matrices of floating-point expressions

The operations of Eigen on `Vector3` and `Matrix3` that `computeWwaypoints` uses (include/hpp/bezier-com-traj/waypoints), coefficient
by coefficient. A product of a matrix and a vector is summed from left to right.
-/

namespace Verif

/-- `Vector3`. -/
structure FVec where
  e : Fin 3 → FExp

/-- `Matrix3`. -/
structure FMat where
  e : Fin 3 → Fin 3 → FExp

instance : HMul FExp FVec FVec := ⟨fun s v => ⟨fun k => s * v.e k⟩⟩
instance : HMul FVec FExp FVec := ⟨fun v s => ⟨fun k => v.e k * s⟩⟩
instance : HMul FExp FMat FMat := ⟨fun s m => ⟨fun i j => s * m.e i j⟩⟩
instance : HMul FMat FExp FMat := ⟨fun m s => ⟨fun i j => m.e i j * s⟩⟩
instance : HMul FMat FVec FVec := ⟨fun m v => ⟨fun k => m.e k 0 * v.e 0 + m.e k 1 * v.e 1 + m.e k 2 * v.e 2⟩⟩
instance : Add FVec := ⟨fun v w => ⟨fun k => v.e k + w.e k⟩⟩
instance : Sub FVec := ⟨fun v w => ⟨fun k => v.e k - w.e k⟩⟩
instance : Neg FVec := ⟨fun v => ⟨fun k => -v.e k⟩⟩
instance : Add FMat := ⟨fun v w => ⟨fun i j => v.e i j + w.e i j⟩⟩
instance : Sub FMat := ⟨fun v w => ⟨fun i j => v.e i j - w.e i j⟩⟩
instance : Neg FMat := ⟨fun v => ⟨fun i j => -v.e i j⟩⟩

/-- `initwp`, src/utils.cpp:46-52: blocks that are not assigned are zero. -/
def FVec.zero : FVec := ⟨fun _ => 0⟩

/-- `initwp`, src/utils.cpp:46-52. -/
def FMat.zero : FMat := ⟨fun _ _ => 0⟩

/-- `skew`, src/utils.cpp:62-71. -/
def FMat.skew (x : FVec) : FMat :=
  ⟨![![0, -x.e 2, x.e 1], ![x.e 2, 0, -x.e 0], ![-x.e 1, x.e 0, 0]]⟩

/-- `cross` of Eigen. -/
def FVec.cross (v w : FVec) : FVec :=
  ⟨![v.e 1 * w.e 2 - v.e 2 * w.e 1, v.e 2 * w.e 0 - v.e 0 * w.e 2, v.e 0 * w.e 1 - v.e 1 * w.e 0]⟩

/-- A wrench waypoint: the two blocks of the 6x3 matrix, the two parts of the 6-vector. -/
structure FWp6 where
  top : FMat
  bot : FMat
  head : FVec
  tail : FVec

namespace Fp.Vec

/-- `pi[i]`. -/
def pi (i : ℕ) : FVec := ⟨fun k => .var (.pi i k)⟩

/-- `Cpi[i]`. -/
def Cpi (i : ℕ) : FMat := FMat.skew (pi i)

/-- The gravity. -/
def g : FVec := ⟨fun k => .var (.g k)⟩

/-- `Cg`. -/
def Cg : FMat := FMat.skew g

/-- `Matrix3::Identity()`. -/
def I3 : FMat := ⟨fun i j => if i = j then 1 else 0⟩

end Fp.Vec

end Verif
