import Verif.Lemmas.FpWrench
import Verif.Props.C82Ex

/-!
# The expressions of the planner divide by the duration and by integers only
-/

namespace Verif
open FExp

/-- A product of positive integers, of differences `n - 1` of literals and of the duration. -/
def FExp.nzT : FExp → Bool
  | lit n => n != 0
  | var .T => true
  | mul a b => a.nzT && b.nzT
  | sub (lit m) (lit n) => n != m
  | _ => false

/-- Divisions are by products of positive integers and of the duration. -/
def FExp.okT : FExp → Bool
  | lit _ => true
  | dec _ => true
  | var _ => true
  | neg a => a.okT
  | add a b => a.okT && b.okT
  | sub a b => a.okT && b.okT
  | mul a b => a.okT && b.okT
  | div a b => a.okT && b.okT && b.nzT

theorem nzT_ne {d : BC} {p : ℕ → V3} {g : V3} {T t : ℝ} (hT : T ≠ 0) : ∀ {e : FExp}, e.nzT = true → e.exact (env d p g T t) ≠ 0
  | lit n, h => by simpa [nzT, FExp.exact] using h
  | var v, h => by
    cases v <;> first | exact hT | simp [nzT] at h
  | mul a b, h => by
    simp only [nzT, Bool.and_eq_true] at h
    exact mul_ne_zero (nzT_ne hT h.1) (nzT_ne hT h.2)
  | dec _, h => by simp [nzT] at h
  | neg _, h => by simp [nzT] at h
  | add _ _, h => by simp [nzT] at h
  | sub a b, h => by
    unfold nzT at h
    split at h <;> simp_all [FExp.exact, sub_eq_zero]
    rename_i h1
    obtain ⟨rfl, rfl⟩ := h1
    exact fun e => h e.symm
  | div _ _, h => by simp [nzT] at h

theorem okT_defined {d : BC} {p : ℕ → V3} {g : V3} {T t : ℝ} (hT : T ≠ 0) : ∀ {e : FExp}, e.okT = true → e.Defined (env d p g T t)
  | lit _, _ => trivial
  | dec _, _ => trivial
  | var _, _ => trivial
  | neg a, h => by
    simp only [okT] at h
    exact okT_defined (e := a) hT h
  | add a b, h => by
    simp only [okT, Bool.and_eq_true] at h
    exact ⟨okT_defined hT h.1, okT_defined hT h.2⟩
  | sub a b, h => by
    simp only [okT, Bool.and_eq_true] at h
    exact ⟨okT_defined hT h.1, okT_defined hT h.2⟩
  | mul a b, h => by
    simp only [okT, Bool.and_eq_true] at h
    exact ⟨okT_defined hT h.1, okT_defined hT h.2⟩
  | div a b, h => by
    simp only [okT, Bool.and_eq_true] at h
    exact ⟨okT_defined hT h.1.1, okT_defined hT h.1.2, nzT_ne hT h.2⟩

theorem points_okT {flag : Flag} (hf : flag ∈ comFlags) {es : Fin 3 → List FExp} (h : pointsFp flag = some es) (k : Fin 3) : ∀ e ∈ es k, e.okT = true := by
  have : (List.all ((pointsFp flag).toList) fun es => (List.finRange 3).all fun k => (es k).all okT) = true := by
    simp only [comFlags, List.mem_cons, List.not_mem_nil, or_false] at hf
    rcases hf with rfl | rfl | rfl | rfl | rfl | rfl | rfl <;> decide
  simp only [h, Option.toList_some, List.all_cons, List.all_nil, Bool.and_true, List.all_eq_true, List.mem_finRange, forall_true_left] at this
  exact this k

theorem curve_okT {flag : Flag} (hf : flag ∈ comFlags) {n : ℕ} {es : Fin 3 → FExp × FExp} (h : curveFp flag = some (n, es)) (k : Fin 3) :
    (es k).1.okT = true ∧ (es k).2.okT = true := by
  have : (List.all ((curveFp flag).toList) fun es => (List.finRange 3).all fun k => (es.2 k).1.okT && (es.2 k).2.okT) = true := by
    simp only [comFlags, List.mem_cons, List.not_mem_nil, or_false] at hf
    rcases hf with rfl | rfl | rfl | rfl | rfl | rfl | rfl <;> decide
  simp only [h, Option.toList_some, List.all_cons, List.all_nil, Bool.and_true, List.all_eq_true, List.mem_finRange, forall_true_left,
    Bool.and_eq_true] at this
  exact this k

theorem acc_okT {flag : Flag} (hf : flag ∈ comFlags) {n : ℕ} {es : Fin 3 → FExp × FExp} (h : accelerationFp flag = some (n, es)) (k : Fin 3) :
    (es k).1.okT = true ∧ (es k).2.okT = true := by
  have : (List.all ((accelerationFp flag).toList) fun es => (List.finRange 3).all fun k => (es.2 k).1.okT && (es.2 k).2.okT) = true := by
    simp only [comFlags, List.mem_cons, List.not_mem_nil, or_false] at hf
    rcases hf with rfl | rfl | rfl | rfl | rfl | rfl | rfl <;> decide
  simp only [h, Option.toList_some, List.all_cons, List.all_nil, Bool.and_true, List.all_eq_true, List.mem_finRange, forall_true_left,
    Bool.and_eq_true] at this
  exact this k

theorem wrench_okT {flag : Flag} (hf : flag ∈ comFlags) {es : List FWp6} (h : wwaypointsFp flag = some es) :
    ∀ e ∈ es, ∀ i, (∀ j, (e.mat i j).okT = true) ∧ (e.vec i).okT = true := by
  have : (List.all ((wwaypointsFp flag).toList) fun es => es.all fun e => (List.finRange 6).all fun i =>
      ((List.finRange 3).all fun j => (e.mat i j).okT) && (e.vec i).okT) = true := by
    simp only [comFlags, List.mem_cons, List.not_mem_nil, or_false] at hf
    rcases hf with rfl | rfl | rfl | rfl | rfl | rfl | rfl <;> decide
  simp only [h, Option.toList_some, List.all_cons, List.all_nil, Bool.and_true, List.all_eq_true, List.mem_finRange, forall_true_left,
    Bool.and_eq_true] at this
  exact this

end Verif
