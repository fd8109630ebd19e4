import Verif.Model.Dispatch

/-!
# Numerical values of the constraint sets
-/

namespace Verif

@[simp] theorem flag_c0_dc0_c1 : c0_dc0_c1.flag = 11#32 := by decide
@[simp] theorem flag_c0_dc0_dc1 : c0_dc0_dc1.flag = 19#32 := by decide
@[simp] theorem flag_c0_dc0_dc1_c1 : c0_dc0_dc1_c1.flag = 27#32 := by decide
@[simp] theorem flag_c0_dc0_ddc0 : c0_dc0_ddc0.flag = 7#32 := by decide
@[simp] theorem flag_c0_dc0_ddc0_c1 : c0_dc0_ddc0_c1.flag = 15#32 := by decide
@[simp] theorem flag_c0_dc0_ddc0_dc1_c1 : c0_dc0_ddc0_dc1_c1.flag = 31#32 := by decide
@[simp] theorem flag_c0_dc0_ddc0_ddc1_dc1_c1 : c0_dc0_ddc0_ddc1_dc1_c1.flag = 63#32 := by decide
@[simp] theorem flag_j : c0_dc0_ddc0_j0_j1_ddc1_dc1_c1.flag = 255#32 := by decide
@[simp] theorem flag_x3 : c0_dc0_ddc0_j0_x3_j1_ddc1_dc1_c1.flag = 767#32 := by decide
@[simp] theorem flag_x5 : c0_dc0_ddc0_j0_x5_j1_ddc1_dc1_c1.flag = 2303#32 := by decide

end Verif
