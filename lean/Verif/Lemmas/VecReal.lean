import Verif.Spec.Triangle
import Mathlib.Tactic.GCongr

/-! # Vectors over ℝ: norms, dot products, orthonormal frames -/

set_option linter.unusedSectionVars false
namespace Rendering

theorem Vec3.lengthSq_eq (v : Vec3 ℝ) : v.lengthSq = v.x ^ 2 + v.y ^ 2 + v.z ^ 2 := by
  simp only [Vec3.lengthSq, Vec3.dot]; ring

theorem Vec3.lengthSq_nonneg (v : Vec3 ℝ) : 0 ≤ v.lengthSq := by
  rw [Vec3.lengthSq_eq]; positivity

theorem Vec3.length_eq (v : Vec3 ℝ) : v.length = Norm v := by
  unfold Vec3.length Norm; rw [Vec3.lengthSq_eq]

theorem Vec3.length_sq (v : Vec3 ℝ) : v.length ^ 2 = v.lengthSq := Real.sq_sqrt v.lengthSq_nonneg

theorem Vec3.length_nonneg (v : Vec3 ℝ) : 0 ≤ v.length := Real.sqrt_nonneg _

theorem Vec3.length_pos {v : Vec3 ℝ} (h : 0 < v.lengthSq) : 0 < v.length := Real.sqrt_pos.2 h

theorem Vec3.normalized_lengthSq {v : Vec3 ℝ} (h : 0 < v.lengthSq) : v.normalized.lengthSq = 1 := by
  have h1 := Vec3.length_sq v
  have h2 := Vec3.length_pos h
  rw [Vec3.lengthSq_eq] at h1 ⊢
  simp only [Vec3.normalized, Vec3.scale_x, Vec3.scale_y, Vec3.scale_z]
  field_simp
  linarith

theorem Vec3.dot_comm' (a b : Vec3 ℝ) : a.dot b = b.dot a := by simp only [Vec3.dot]; ring
theorem Vec3.dot_scale (a b : Vec3 ℝ) (k : ℝ) : (a.scale k).dot b = k * a.dot b := by simp [Vec3.dot]; ring
theorem Vec3.dot_neg' (a b : Vec3 ℝ) : (-a).dot b = -(a.dot b) := by simp [Vec3.dot]; ring


theorem Vec3.dot_eq (a b : Vec3 ℝ) : a.dot b = Dot a b := rfl

theorem Norm_sq (v : Vec3 ℝ) : Norm v ^ 2 = Dot v v := by
  unfold Norm Dot
  rw [Real.sq_sqrt (by positivity)]; ring

theorem Norm_nonneg (v : Vec3 ℝ) : 0 ≤ Norm v := Real.sqrt_nonneg _

theorem Norm_eq_one {v : Vec3 ℝ} (h : Dot v v = 1) : Norm v = 1 := by
  unfold Norm
  rw [show v.x ^ 2 + v.y ^ 2 + v.z ^ 2 = Dot v v by unfold Dot; ring, h, Real.sqrt_one]

theorem Dot_self_of_norm {v : Vec3 ℝ} (h : Norm v = 1) : Dot v v = 1 := by
  rw [← Norm_sq, h]; ring

theorem normalized_dot_self {v : Vec3 ℝ} (h : 0 < Dot v v) : Dot v.normalized v.normalized = 1 :=
  Vec3.normalized_lengthSq h

theorem Norm_pos {v : Vec3 ℝ} (h : 0 < Dot v v) : 0 < Norm v := by
  unfold Norm
  exact Real.sqrt_pos.2 (by unfold Dot at h; nlinarith)

theorem normalized_eq (v : Vec3 ℝ) : v.normalized = v.scale (1 / Norm v) := by
  unfold Vec3.normalized
  rw [Vec3.length_eq]

end Rendering
