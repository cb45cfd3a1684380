import Verif.Model.Camera
import Verif.Lemmas.VecReal
import Mathlib.Analysis.SpecialFunctions.Trigonometric.Bounds
import Mathlib.Algebra.Order.Floor.Semifield
import Mathlib.Tactic.Abel

/-!
# C36–C38, C72: the pinhole camera
-/

set_option linter.unusedSectionVars false
namespace Rendering

/-- Specification: a proper view — unit direction and up vectors, perpendicular to each other, and a field of view strictly between 0 and
180 degrees. -/
structure View.Proper (v : View) : Prop where
  dir_unit : Norm v.viewDirection = 1
  up_unit : Norm v.viewUp = 1
  perp : Dot v.viewDirection v.viewUp = 0
  fov_pos : 0 < v.fieldOfView
  fov_lt : v.fieldOfView < 180

theorem View.default_proper : View.default.Proper := by
  refine ⟨Norm_eq_one ?_, Norm_eq_one ?_, ?_, ?_, ?_⟩ <;> norm_num [View.default, Dot]

namespace Pinhole

section
variable {v : View} (hv : v.Proper) (w h : Nat)
include hv

theorem half_angle : 0 < v.fieldOfView * (Real.pi / 180) / 2 ∧ v.fieldOfView * (Real.pi / 180) / 2 < Real.pi / 2 := by
  have := Real.pi_pos
  have := hv.fov_pos; have := hv.fov_lt
  constructor
  · positivity
  · nlinarith

theorem filmDistance_pos : 0 < (Pinhole.new v w h).filmDistance := by
  obtain ⟨h1, h2⟩ := half_angle hv
  exact one_div_pos.2 (Real.tan_pos_of_pos_of_lt_pi_div_two h1 h2)

theorem filmDistance_ge : 1 - v.fieldOfView / 180 ≤ (Pinhole.new v w h).filmDistance := by
  obtain ⟨h1, h2⟩ := half_angle hv
  have hpi := Real.pi_pos
  set θ := v.fieldOfView * (Real.pi / 180) / 2 with hθ
  show 1 - v.fieldOfView / 180 ≤ 1 / Real.tan θ
  have hs : 0 < Real.sin θ := Real.sin_pos_of_pos_of_lt_pi h1 (by linarith)
  have hc : 0 < Real.cos θ := Real.cos_pos_of_mem_Ioo ⟨by linarith, h2⟩
  have hj : 2 / Real.pi * (Real.pi / 2 - θ) ≤ Real.sin (Real.pi / 2 - θ) := Real.mul_le_sin (by linarith) (by linarith)
  rw [Real.sin_pi_div_two_sub] at hj
  have e : 2 / Real.pi * (Real.pi / 2 - θ) = 1 - v.fieldOfView / 180 := by
    rw [hθ]; field_simp
  rw [e] at hj
  rw [Real.tan_eq_sin_div_cos, one_div_div]
  refine hj.trans ?_
  rw [le_div_iff₀ hs]
  nlinarith [Real.sin_le_one θ]

theorem frame : Dot (Pinhole.new v w h).u (Pinhole.new v w h).u = 1 ∧ Dot (Pinhole.new v w h).u v.viewDirection = 0 ∧
    Dot (Pinhole.new v w h).u v.viewUp = 0 ∧ Dot v.viewDirection v.viewDirection = 1 ∧ Dot v.viewUp v.viewUp = 1 := by
  have h1 := Dot_self_of_norm hv.dir_unit
  have h2 := Dot_self_of_norm hv.up_unit
  have h3 := hv.perp
  refine ⟨?_, ?_, ?_, h1, h2⟩
  · have : Dot (Pinhole.new v w h).u (Pinhole.new v w h).u =
        Dot v.viewDirection v.viewDirection * Dot v.viewUp v.viewUp - Dot v.viewDirection v.viewUp ^ 2 := by
      simp only [Pinhole.new, Vec3.cross, Dot]; ring
    rw [this, h1, h2, h3]; ring
  · simp only [Pinhole.new, Vec3.cross, Dot]; ring
  · simp only [Pinhole.new, Vec3.cross, Dot]; ring

theorem filmPoint_dots (p : Nat × Nat) :
    Dot ((Pinhole.new v w h).filmPoint p) v.viewDirection = (Pinhole.new v w h).filmDistance ∧
    Dot ((Pinhole.new v w h).filmPoint p) (Pinhole.new v w h).u = (Pinhole.new v w h).filmX p.1 ∧
    Dot ((Pinhole.new v w h).filmPoint p) v.viewUp = -(Pinhole.new v w h).filmY p.2 ∧
    Dot ((Pinhole.new v w h).filmPoint p) ((Pinhole.new v w h).filmPoint p) =
      (Pinhole.new v w h).filmDistance ^ 2 + (Pinhole.new v w h).filmX p.1 ^ 2 + (Pinhole.new v w h).filmY p.2 ^ 2 := by
  obtain ⟨huu, hud, hup, hdd, hpp⟩ := frame hv w h
  have hdp := hv.perp
  have key : ∀ t : Vec3 ℝ, Dot ((Pinhole.new v w h).filmPoint p) t = (Pinhole.new v w h).filmDistance * Dot v.viewDirection t +
      (Pinhole.new v w h).filmX p.1 * Dot (Pinhole.new v w h).u t - (Pinhole.new v w h).filmY p.2 * Dot v.viewUp t := by
    intro t
    simp only [filmPoint, Dot, Vec3.sub_x, Vec3.sub_y, Vec3.sub_z, Vec3.add_x, Vec3.add_y, Vec3.add_z, Vec3.scale_x, Vec3.scale_y, Vec3.scale_z]
    simp only [Pinhole.new]
    ring
  have comm : ∀ a b : Vec3 ℝ, Dot a b = Dot b a := fun a b => by simp only [Dot]; ring
  have a1 : Dot ((Pinhole.new v w h).filmPoint p) v.viewDirection = (Pinhole.new v w h).filmDistance := by
    rw [key, hdd, hud, comm v.viewUp, hdp]; ring
  have a2 : Dot ((Pinhole.new v w h).filmPoint p) (Pinhole.new v w h).u = (Pinhole.new v w h).filmX p.1 := by
    rw [key, huu, comm v.viewDirection, hud, comm v.viewUp, hup]; ring
  have a3 : Dot ((Pinhole.new v w h).filmPoint p) v.viewUp = -(Pinhole.new v w h).filmY p.2 := by
    rw [key, hdp, hup, hpp]; ring
  refine ⟨a1, a2, a3, ?_⟩
  rw [key, comm v.viewDirection, a1, comm (Pinhole.new v w h).u, a2, comm v.viewUp, a3]
  ring

theorem filmPoint_pos (p : Nat × Nat) : 0 < Dot ((Pinhole.new v w h).filmPoint p) ((Pinhole.new v w h).filmPoint p) := by
  rw [(filmPoint_dots hv w h p).2.2.2]
  have := filmDistance_pos hv w h
  positivity

end

theorem filmX_eq (c : Pinhole) (hw : 0 < c.width) (x : Nat) : c.filmX x = (2 * x + 1 - c.width) / c.width := by
  have : (c.width : ℝ) ≠ 0 := by positivity
  unfold filmX
  field_simp
  ring

theorem filmY_eq (c : Pinhole) (hw : 0 < c.width) (hh : 0 < c.height) (y : Nat) : c.filmY y = (2 * y + 1 - c.height) / c.width := by
  have : (c.width : ℝ) ≠ 0 := by positivity
  have : (c.height : ℝ) ≠ 0 := by positivity
  unfold filmY
  field_simp
  ring

end Pinhole

open Pinhole

/-- **C37.** Every camera ray starts at the view point, has a unit direction pointing into the viewing half-space, and weight 1. -/
theorem C37_rays_well_formed (v : View) (hv : v.Proper) (w h : Nat) (p : Nat × Nat) :
    let r := (Pinhole.new v w h).genRay p
    r.1.origin = v.viewPoint ∧ Norm r.1.direction = 1 ∧ 0 < Dot r.1.direction v.viewDirection ∧ r.2 = 1 := by
  have hpos := filmPoint_pos hv w h p
  refine ⟨rfl, Norm_eq_one (normalized_dot_self hpos), ?_, rfl⟩
  show 0 < Dot ((Pinhole.new v w h).filmPoint p).normalized v.viewDirection
  rw [normalized_eq]
  have : Dot (((Pinhole.new v w h).filmPoint p).scale (1 / Norm ((Pinhole.new v w h).filmPoint p))) v.viewDirection =
      1 / Norm ((Pinhole.new v w h).filmPoint p) * Dot ((Pinhole.new v w h).filmPoint p) v.viewDirection := Vec3.dot_scale _ _ _
  rw [this, (filmPoint_dots hv w h p).1]
  have h1 := Norm_pos hpos
  have h2 := filmDistance_pos hv w h
  positivity

/-- The direction of a camera ray is a positive multiple of the film point it goes through. -/
theorem genRay_direction (v : View) (hv : v.Proper) (w h : Nat) (p : Nat × Nat) :
    ∃ k > 0, ((Pinhole.new v w h).genRay p).1.direction.scale k = (Pinhole.new v w h).filmPoint p ∧
      k = Norm ((Pinhole.new v w h).filmPoint p) := by
  have h1 := Norm_pos (filmPoint_pos hv w h p)
  refine ⟨_, h1, ?_, rfl⟩
  show ((Pinhole.new v w h).filmPoint p).normalized.scale _ = _
  rw [normalized_eq]
  ext <;> simp only [Vec3.scale_x, Vec3.scale_y, Vec3.scale_z] <;> field_simp

/-- **C37.** Different pixels get different directions. -/
theorem C37_rays_distinct (v : View) (hv : v.Proper) (w h : Nat) (hw : 0 < w) (hh : 0 < h) (p q : Nat × Nat)
    (hpq : ((Pinhole.new v w h).genRay p).1.direction = ((Pinhole.new v w h).genRay q).1.direction) : p = q := by
  obtain ⟨k, hk, ek, -⟩ := genRay_direction v hv w h p
  obtain ⟨l, hl, el, -⟩ := genRay_direction v hv w h q
  rw [hpq] at ek
  set d := ((Pinhole.new v w h).genRay q).1.direction
  obtain ⟨p1, p2, p3, -⟩ := filmPoint_dots hv w h p
  obtain ⟨q1, q2, q3, -⟩ := filmPoint_dots hv w h q
  have hs : ∀ (k : ℝ) (t : Vec3 ℝ), Dot (d.scale k) t = k * Dot d t := fun k t => Vec3.dot_scale _ _ _
  rw [← ek, hs] at p1 p2 p3
  rw [← el, hs] at q1 q2 q3
  have hf := filmDistance_pos hv w h
  have hd : Dot d v.viewDirection ≠ 0 := by rintro h0; rw [h0] at p1; simp at p1; linarith
  have hkl : k = l := mul_right_cancel₀ hd (p1.trans q1.symm)
  subst hkl
  have ex : (Pinhole.new v w h).filmX p.1 = (Pinhole.new v w h).filmX q.1 := by rw [← p2, ← q2]
  have ey : (Pinhole.new v w h).filmY p.2 = (Pinhole.new v w h).filmY q.2 := by
    have := p3.symm.trans q3; linarith
  have hw' : (0 : ℝ) < w := by exact_mod_cast hw
  rw [filmX_eq _ hw, filmX_eq _ hw] at ex
  rw [filmY_eq _ hw hh, filmY_eq _ hw hh] at ey
  have ex := (div_left_inj' (ne_of_gt hw')).1 ex
  have ey := (div_left_inj' (ne_of_gt hw')).1 ey
  have e1 : (p.1 : ℝ) = q.1 := by linarith
  have e2 : (p.2 : ℝ) = q.2 := by linarith
  exact Prod.ext (by exact_mod_cast e1) (by exact_mod_cast e2)

/-- **C37.** Opposite pixels (turned by 180 degrees about the film's centre) get rays symmetric about the view direction: their
sum is along the view direction. -/
theorem C37_central_symmetry (v : View) (hv : v.Proper) (w h : Nat) (x y : Nat) (hx : x < w) (hy : y < h) :
    let d := ((Pinhole.new v w h).genRay (x, y)).1.direction
    let d' := ((Pinhole.new v w h).genRay (w - 1 - x, h - 1 - y)).1.direction
    d + d' = v.viewDirection.scale (2 * Dot d v.viewDirection) := by
  have hw : 0 < w := by omega
  have hh : 0 < h := by omega
  have hw' : (w : ℝ) ≠ 0 := by positivity
  obtain ⟨p1, p2, p3, p4⟩ := filmPoint_dots hv w h (x, y)
  obtain ⟨q1, q2, q3, q4⟩ := filmPoint_dots hv w h (w - 1 - x, h - 1 - y)
  have ex : (Pinhole.new v w h).filmX (w - 1 - x) = -(Pinhole.new v w h).filmX x := by
    rw [filmX_eq _ hw, filmX_eq _ hw]
    have : ((w - 1 - x : ℕ) : ℝ) = w - 1 - x := by
      rw [Nat.sub_sub, Nat.cast_sub (by omega)]; push_cast; ring
    rw [this, ← neg_div]
    congr 1
    show (2 * ((w : ℝ) - 1 - x) + 1 - w) = -(2 * x + 1 - w)
    ring
  have ey : (Pinhole.new v w h).filmY (h - 1 - y) = -(Pinhole.new v w h).filmY y := by
    rw [filmY_eq _ hw hh, filmY_eq _ hw hh]
    have : ((h - 1 - y : ℕ) : ℝ) = h - 1 - y := by
      rw [Nat.sub_sub, Nat.cast_sub (by omega)]; push_cast; ring
    rw [this, ← neg_div]
    congr 1
    show (2 * ((h : ℝ) - 1 - y) + 1 - h) = -(2 * y + 1 - h)
    ring
  have hsame : Dot ((Pinhole.new v w h).filmPoint (w - 1 - x, h - 1 - y)) ((Pinhole.new v w h).filmPoint (w - 1 - x, h - 1 - y)) =
      Dot ((Pinhole.new v w h).filmPoint (x, y)) ((Pinhole.new v w h).filmPoint (x, y)) := by
    rw [p4, q4]
    simp only [ex, ey]
    ring
  have hnorm : Norm ((Pinhole.new v w h).filmPoint (w - 1 - x, h - 1 - y)) = Norm ((Pinhole.new v w h).filmPoint (x, y)) := by
    rw [← Real.sqrt_sq (Norm_nonneg _), Norm_sq, hsame, ← Norm_sq, Real.sqrt_sq (Norm_nonneg _)]
  show ((Pinhole.new v w h).filmPoint (x, y)).normalized + ((Pinhole.new v w h).filmPoint (w - 1 - x, h - 1 - y)).normalized =
    v.viewDirection.scale (2 * Dot ((Pinhole.new v w h).filmPoint (x, y)).normalized v.viewDirection)
  rw [normalized_eq, normalized_eq, hnorm]
  have hd : Dot (((Pinhole.new v w h).filmPoint (x, y)).scale (1 / Norm ((Pinhole.new v w h).filmPoint (x, y)))) v.viewDirection =
      1 / Norm ((Pinhole.new v w h).filmPoint (x, y)) * (Pinhole.new v w h).filmDistance := by rw [← p1]; exact Vec3.dot_scale _ _ _
  rw [hd]
  set N := Norm ((Pinhole.new v w h).filmPoint (x, y))
  have hv' : (Pinhole.new v w h).view = v := rfl
  ext <;> simp only [filmPoint, ex, ey, hv', Vec3.sub_x, Vec3.sub_y, Vec3.sub_z, Vec3.add_x, Vec3.add_y, Vec3.add_z, Vec3.scale_x, Vec3.scale_y, Vec3.scale_z] <;> ring

/-- **C72.** The rays through the film's columns fill the horizontal field of view evenly: seen from the view point the tangent of the horizontal angle of
pixel column `x` is `(2x+1-w)/w` times the tangent of half the field of view (so it is below that tangent in absolute value); rows are spaced
like columns (square pixels), downwards. -/
theorem C72_field_of_view_partial (v : View) (hv : v.Proper) (w h x y : Nat) (hx : x < w) (hy : y < h) :
    let d := ((Pinhole.new v w h).genRay (x, y)).1.direction
    Dot d (Cross v.viewDirection v.viewUp) =
      (2 * x + 1 - w) / w * Real.tan (v.fieldOfView * Real.pi / 180 / 2) * Dot d v.viewDirection ∧
    Dot d v.viewUp = -((2 * y + 1 - h) / w * Real.tan (v.fieldOfView * Real.pi / 180 / 2) * Dot d v.viewDirection) ∧
    |(2 * (x : ℝ) + 1 - w) / w| < 1 := by
  have hw : 0 < w := by omega
  have hh : 0 < h := by omega
  have hw' : (0 : ℝ) < w := by exact_mod_cast hw
  obtain ⟨k, hk, ek, -⟩ := genRay_direction v hv w h (x, y)
  obtain ⟨p1, p2, p3, -⟩ := filmPoint_dots hv w h (x, y)
  set d := ((Pinhole.new v w h).genRay (x, y)).1.direction
  have hs : ∀ (k : ℝ) (t : Vec3 ℝ), Dot (d.scale k) t = k * Dot d t := fun k t => Vec3.dot_scale _ _ _
  rw [← ek, hs] at p1 p2 p3
  have hfd : (Pinhole.new v w h).filmDistance * Real.tan (v.fieldOfView * Real.pi / 180 / 2) = 1 := by
    obtain ⟨h1, h2⟩ := half_angle hv
    have ht := Real.tan_pos_of_pos_of_lt_pi_div_two h1 h2
    have e : v.fieldOfView * Real.pi / 180 / 2 = v.fieldOfView * (Real.pi / 180) / 2 := by ring
    rw [e]
    show 1 / Real.tan (v.fieldOfView * (Real.pi / 180) / 2) * Real.tan (v.fieldOfView * (Real.pi / 180) / 2) = 1
    exact one_div_mul_cancel ht.ne'
  have hu : (Pinhole.new v w h).u = Cross v.viewDirection v.viewUp := rfl
  rw [filmX_eq _ hw, hu] at p2
  rw [filmY_eq _ hw hh] at p3
  change k * Dot d (Cross v.viewDirection v.viewUp) = (2 * (x : ℝ) + 1 - w) / w at p2
  change k * Dot d v.viewUp = -((2 * (y : ℝ) + 1 - h) / w) at p3
  set T := Real.tan (v.fieldOfView * Real.pi / 180 / 2)
  have hT : k * (Dot d v.viewDirection * T) = 1 := by rw [← hfd, ← p1]; ring
  refine ⟨?_, ?_, ?_⟩
  · apply mul_left_cancel₀ hk.ne'
    rw [p2]
    calc (2 * (x : ℝ) + 1 - w) / w = (2 * (x : ℝ) + 1 - w) / w * (k * (Dot d v.viewDirection * T)) := by rw [hT, mul_one]
      _ = _ := by ring
  · apply mul_left_cancel₀ hk.ne'
    rw [p3]
    calc -((2 * (y : ℝ) + 1 - h) / w) = -((2 * (y : ℝ) + 1 - h) / w * (k * (Dot d v.viewDirection * T))) := by rw [hT, mul_one]
      _ = _ := by ring
  · rw [abs_lt, lt_div_iff₀ hw', div_lt_iff₀ hw']
    have : (x : ℝ) + 1 ≤ w := by exact_mod_cast hx
    have : (0 : ℝ) ≤ x := Nat.cast_nonneg x
    constructor <;> linarith

/-- **C72 (violation).** With an up vector that is not perpendicular to the view direction (the usual case when the user gives the vertical as up and
looks up or down; `spict` passes it on unchanged), the rays leave the field of view they were asked for: for direction (0,1,0), up (0,3/5,4/5) and a
field of view of 90 degrees the rightmost ray of a one-row film is only `4/5` as far to the right as it should be. -/
theorem C72_violation_slanted_up (w : Nat) (hw : 0 < w) :
    let v : View := ⟨⟨0, 0, 0⟩, ⟨0, 1, 0⟩, ⟨0, 3 / 5, 4 / 5⟩, 90⟩
    let d := ((Pinhole.new v w 1).genRay (w - 1, 0)).1.direction
    d.x = 4 / 5 * ((w - 1) / w) * Real.tan (v.fieldOfView * Real.pi / 180 / 2) * Dot d v.viewDirection := by
  intro v d
  have hw' : (w : ℝ) ≠ 0 := by positivity
  have ht : Real.tan (90 * (Real.pi / 180) / 2) = 1 := by
    rw [show (90 : ℝ) * (Real.pi / 180) / 2 = Real.pi / 4 by ring]; exact Real.tan_pi_div_four
  have ht' : Real.tan (v.fieldOfView * Real.pi / 180 / 2) = 1 := by
    rw [show v.fieldOfView * Real.pi / 180 / 2 = 90 * (Real.pi / 180) / 2 by simp only [v]; ring]; exact ht
  have hy : (Pinhole.new v w 1).filmY 0 = 0 := by rw [filmY_eq _ hw (by exact Nat.one_pos)]; simp [Pinhole.new]
  have hx : (Pinhole.new v w 1).filmX (w - 1) = (w - 1) / w := by
    rw [filmX_eq _ hw]
    have : ((w - 1 : ℕ) : ℝ) = w - 1 := by rw [Nat.cast_sub hw]; simp
    rw [this]
    show (2 * ((w : ℝ) - 1) + 1 - w) / w = _
    congr 1; ring
  have hd : d = (⟨(w - 1) / w * (4 / 5), 1, 0⟩ : Vec3 ℝ).normalized := by
    show ((Pinhole.new v w 1).filmPoint (w - 1, 0)).normalized = _
    congr 1
    unfold filmPoint
    rw [hx, hy]
    ext <;> simp [Pinhole.new, Vec3.cross, v, ht] <;> ring
  rw [ht', hd]
  simp only [Vec3.normalized, Dot, Vec3.scale_x, Vec3.scale_y, Vec3.scale_z, v]
  ring

/-- What `pixel_from_ray` answers for a camera ray, on any film: the column is right, but rows are measured from the wrong edge of the film unless
it is square. -/
theorem pixelFromRay_genRay (v : View) (hv : v.Proper) (hfov : v.fieldOfView ≤ 179) (w h x y : Nat) (hx : x < w) (hy : y < h) (hh : h ≤ 1000 * w) :
    (Pinhole.new v w h).pixelFromRay ((Pinhole.new v w h).genRay (x, y)).1 =
      if |(2 * (y : ℝ) + 1 - h) / w| ≤ 1 then .ok ((x, ⌊(2 * (y : ℝ) + 1 + w - h) / 2⌋₊), 1) else .ok ((0, 0), 0) := by
  have hw : 0 < w := by omega
  have hh' : 0 < h := by omega
  have hw' : (0 : ℝ) < w := by exact_mod_cast hw
  have hhr : (0 : ℝ) < h := by exact_mod_cast hh'
  obtain ⟨k, hk, ek, hkn⟩ := genRay_direction v hv w h (x, y)
  obtain ⟨p1, p2, p3, p4⟩ := filmPoint_dots hv w h (x, y)
  have hd0 : ((Pinhole.new v w h).genRay (x, y)).1.origin = v.viewPoint := rfl
  unfold pixelFromRay
  have hsub : (((Pinhole.new v w h).genRay (x, y)).1.origin - (Pinhole.new v w h).view.viewPoint).lengthSq = 0 := by
    rw [hd0]
    simp [Vec3.lengthSq, Vec3.dot, Pinhole.new]
  rw [if_neg (by rw [hsub]; norm_num)]
  rw [hd0]
  set d := ((Pinhole.new v w h).genRay (x, y)).1.direction with hd
  have hs : ∀ (k : ℝ) (t : Vec3 ℝ), Dot (d.scale k) t = k * Dot d t := fun k t => Vec3.dot_scale _ _ _
  rw [← ek, hs] at p1 p2 p3
  have comm : ∀ a b : Vec3 ℝ, Dot a b = Dot b a := fun a b => by simp only [Dot]; ring
  have hf := filmDistance_pos hv w h
  have hfge := filmDistance_ge hv w h
  set f := (Pinhole.new v w h).filmDistance with hfdef
  have hview : (Pinhole.new v w h).view = v := rfl
  have hcos : v.viewDirection.dot d = f / k := by
    show Dot v.viewDirection d = f / k
    rw [comm, eq_div_iff hk.ne', mul_comm]; exact p1
  have hxa : |(Pinhole.new v w h).filmX x| ≤ 1 := by
    rw [filmX_eq _ hw]
    show |(2 * (x : ℝ) + 1 - w) / w| ≤ 1
    rw [abs_le, le_div_iff₀ hw', div_le_iff₀ hw']
    have : (x : ℝ) + 1 ≤ w := by exact_mod_cast hx
    have : (0 : ℝ) ≤ x := Nat.cast_nonneg x
    constructor <;> linarith
  have hya : |(Pinhole.new v w h).filmY y| ≤ 1000 := by
    rw [filmY_eq _ hw hh']
    show |(2 * (y : ℝ) + 1 - h) / w| ≤ 1000
    rw [abs_le, le_div_iff₀ hw', div_le_iff₀ hw']
    have h1 : (y : ℝ) + 1 ≤ h := by exact_mod_cast hy
    have h2 : (0 : ℝ) ≤ y := Nat.cast_nonneg y
    have h3 : (h : ℝ) ≤ 1000 * w := by exact_mod_cast hh
    constructor <;> linarith
  -- the distance to the film point is bounded, so the cosine is not tiny
  have hk2 : k ^ 2 = f ^ 2 + (Pinhole.new v w h).filmX x ^ 2 + (Pinhole.new v w h).filmY y ^ 2 := by
    rw [hkn, Norm_sq, p4]
  have hf180 : 1 / 180 ≤ f := by
    refine le_trans ?_ hfge; linarith
  have hkle : k ≤ 10 ^ 6 * f := by
    have h1 : (Pinhole.new v w h).filmX x ^ 2 ≤ 1 := by nlinarith [abs_le.1 hxa]
    have h2 : (Pinhole.new v w h).filmY y ^ 2 ≤ 1000 ^ 2 := by nlinarith [abs_le.1 hya]
    have : k ^ 2 ≤ (10 ^ 6 * f) ^ 2 := by rw [hk2]; nlinarith
    exact le_of_sq_le_sq this (by positivity)
  have hcosbig : ¬ |v.viewDirection.dot d| < 1 / 10 ^ 12 := by
    rw [hcos, abs_of_pos (by positivity), not_lt, div_le_div_iff₀ (by norm_num) hk]
    nlinarith
  simp only [hview]
  rw [if_neg hcosbig]
  have hlen : (v.viewPoint + v.viewDirection.scale f - v.viewPoint).dot v.viewDirection / v.viewDirection.dot d = k := by
    have : (v.viewPoint + v.viewDirection.scale f - v.viewPoint).dot v.viewDirection = f := by
      have h1 := Dot_self_of_norm hv.dir_unit
      have : (v.viewPoint + v.viewDirection.scale f - v.viewPoint).dot v.viewDirection = f * Dot v.viewDirection v.viewDirection := by
        simp [Vec3.dot, Dot]; ring
      rw [this, h1, mul_one]
    rw [this, hcos, div_div_eq_mul_div, mul_div_assoc, mul_comm, div_mul_cancel₀ _ hf.ne']
  rw [hlen]
  have hX : (d.scale k).dot (Pinhole.new v w h).u = (2 * (x : ℝ) + 1 - w) / w := by
    have : (2 * (x : ℝ) + 1 - w) / w = (Pinhole.new v w h).filmX x := (filmX_eq (Pinhole.new v w h) hw x).symm
    rw [this, ← p2]; exact hs k _
  have hZ : (d.scale k).dot v.viewUp = -((2 * (y : ℝ) + 1 - h) / w) := by
    have : (2 * (y : ℝ) + 1 - h) / w = (Pinhole.new v w h).filmY y := (filmY_eq (Pinhole.new v w h) hw hh' y).symm
    rw [this, ← p3]; exact hs k _
  rw [hX, hZ, abs_neg]
  have hxb : ¬ |(2 * (x : ℝ) + 1 - w) / w| > 1 := by
    rw [filmX_eq _ hw] at hxa
    exact not_lt.2 hxa
  by_cases hz : |(2 * (y : ℝ) + 1 - h) / w| ≤ 1
  · rw [if_neg (by rw [not_or]; exact ⟨not_lt.2 hz, hxb⟩), if_pos hz]
    have hwid : ((Pinhole.new v w h).width : ℝ) = w := rfl
    have hhei : ((Pinhole.new v w h).height : ℝ) = h := rfl
    simp only [hwid, hhei]
    have e1 : ((2 * (x : ℝ) + 1 - w) / w + 1) / (2 / w) = x + 1 / 2 := by field_simp; ring
    have e2 : (1 - -((2 * (y : ℝ) + 1 - h) / w)) / ((h : ℝ) / w * 2 / h) = (2 * (y : ℝ) + 1 + w - h) / 2 := by field_simp; ring
    rw [e1, e2]
    have : ⌊(x : ℝ) + 1 / 2⌋₊ = x := by
      rw [Nat.floor_eq_iff (by positivity)]; constructor <;> linarith
    rw [this]
  · rw [if_pos (Or.inl (not_le.1 hz)), if_neg hz]

/-- **C36 (partial).** On a square film every camera ray comes back to the pixel it was generated for, with weight 1. -/
theorem C36_roundtrip_square_partial (v : View) (hv : v.Proper) (hfov : v.fieldOfView ≤ 179) (n x y : Nat) (hx : x < n) (hy : y < n) :
    (Pinhole.new v n n).pixelFromRay ((Pinhole.new v n n).genRay (x, y)).1 = .ok ((x, y), 1) := by
  have hn : (0 : ℝ) < n := by exact_mod_cast (by omega : 0 < n)
  rw [pixelFromRay_genRay v hv hfov n n x y hx hy (by omega), if_pos]
  · have : (2 * (y : ℝ) + 1 + n - n) / 2 = y + 1 / 2 := by ring
    have h2 : ⌊(y : ℝ) + 1 / 2⌋₊ = y := by
      rw [Nat.floor_eq_iff (by positivity)]; constructor <;> linarith
    rw [this, h2]
  · rw [abs_le, le_div_iff₀ hn, div_le_iff₀ hn]
    have : (y : ℝ) + 1 ≤ n := by exact_mod_cast hy
    have : (0 : ℝ) ≤ y := Nat.cast_nonneg y
    constructor <;> linarith

/-- **C36 (violation).** On every film wider than high, every pixel comes back with its row shifted down by half the difference (rounded up), weight 1. -/
theorem C36_violation_landscape (v : View) (hv : v.Proper) (hfov : v.fieldOfView ≤ 179) (w h x y : Nat) (hx : x < w) (hy : y < h) (hwh : h < w) :
    (Pinhole.new v w h).pixelFromRay ((Pinhole.new v w h).genRay (x, y)).1 = .ok ((x, y + (w - h + 1) / 2), 1) ∧ y + (w - h + 1) / 2 ≠ y := by
  have hw' : (0 : ℝ) < w := by exact_mod_cast (by omega : 0 < w)
  refine ⟨?_, by omega⟩
  rw [pixelFromRay_genRay v hv hfov w h x y hx hy (by omega), if_pos]
  · obtain ⟨m, rfl⟩ : ∃ m, w = h + m := ⟨w - h, by omega⟩
    have e : (2 * (y : ℝ) + 1 + (h + m : ℕ) - h) / 2 = ((2 * y + 1 + m : ℕ) : ℝ) / (2 : ℕ) := by push_cast; ring
    rw [e, Nat.floor_div_eq_div]
    congr 3
    omega
  · rw [abs_le, le_div_iff₀ hw', div_le_iff₀ hw']
    have h1 : (y : ℝ) + 1 ≤ h := by exact_mod_cast hy
    have h2 : (0 : ℝ) ≤ y := Nat.cast_nonneg y
    have h3 : (h : ℝ) ≤ w := by exact_mod_cast hwh.le
    constructor <;> linarith

/-- **C36 (violation).** On a portrait film (higher than wide by two or more) the top row is reported as out of view (pixel (0,0), weight 0). -/
theorem C36_violation_portrait (v : View) (hv : v.Proper) (hfov : v.fieldOfView ≤ 179) (w h x : Nat) (hx : x < w) (hwh : w + 2 ≤ h) (hh : h ≤ 1000 * w) :
    (Pinhole.new v w h).pixelFromRay ((Pinhole.new v w h).genRay (x, 0)).1 = .ok ((0, 0), 0) := by
  have hw' : (0 : ℝ) < w := by exact_mod_cast (by omega : 0 < w)
  rw [pixelFromRay_genRay v hv hfov w h x 0 hx (by omega) hh, if_neg]
  have : (w : ℝ) + 2 ≤ h := by exact_mod_cast hwh
  rw [not_le, lt_abs]
  right
  rw [← neg_div, lt_div_iff₀ hw']
  push_cast
  linarith

/-- **C38.** A random sample is a pixel of the film, whatever is drawn (on an empty film the remainder panics). -/
theorem C38_random_sample (v : View) (w h : Nat) (draw : Nat × Nat) :
    (0 < w → 0 < h → ∃ p, (Pinhole.new v w h).genRandomSample draw = .ok p ∧ p.1 < w ∧ p.2 < h) ∧
    (w = 0 ∨ h = 0 → (Pinhole.new v w h).genRandomSample draw = .panic) := by
  constructor
  · intro hw hh
    refine ⟨(draw.1 % w, draw.2 % h), if_neg (fun h => ?_), Nat.mod_lt _ hw, Nat.mod_lt _ hh⟩
    change w = 0 ∨ _ = 0 at h
    rcases h with h | h
    · omega
    · exact hh.ne' h
  · intro h0
    exact if_pos h0

/-- **C38.** Every pixel can be drawn. -/
theorem C38_every_pixel_drawn (v : View) (w h x y : Nat) (hx : x < w) (hy : y < h) :
    (Pinhole.new v w h).genRandomSample (x, y) = .ok (x, y) := by
  have : (Pinhole.new v w h).genRandomSample (x, y) = .ok (x % w, y % h) := by
    refine if_neg (fun h0 => ?_)
    rcases h0 with h0 | h0
    · change w = 0 at h0; omega
    · change h = 0 at h0; omega
  rw [this, Nat.mod_eq_of_lt hx, Nat.mod_eq_of_lt hy]

/-- **C38.** `pixel_index` maps the pixels of the film one-to-one onto `0..width*height`. -/
theorem C38_pixel_index_bijective (v : View) (w h : Nat) :
    (∀ p : Nat × Nat, p.1 < w → p.2 < h → (Pinhole.new v w h).pixelIndex p < w * h) ∧
    (∀ p q : Nat × Nat, p.1 < w → q.1 < w → (Pinhole.new v w h).pixelIndex p = (Pinhole.new v w h).pixelIndex q → p = q) ∧
    (∀ i < w * h, ∃ p : Nat × Nat, p.1 < w ∧ p.2 < h ∧ (Pinhole.new v w h).pixelIndex p = i) := by
  simp only [pixelIndex, Pinhole.new]
  refine ⟨?_, ?_, ?_⟩
  · intro p h1 h2
    calc w * p.2 + p.1 < w * p.2 + w := by omega
      _ = w * (p.2 + 1) := by ring
      _ ≤ w * h := Nat.mul_le_mul_left _ h2
  · intro p q hp hq he
    have hw : 0 < w := by omega
    have e1 : p.1 = q.1 := by
      have := congrArg (· % w) he
      simpa [Nat.add_mod, Nat.mod_eq_of_lt hp, Nat.mod_eq_of_lt hq] using this
    have e2 : p.2 = q.2 := by
      have : w * p.2 = w * q.2 := by omega
      exact Nat.eq_of_mul_eq_mul_left hw this
    exact Prod.ext e1 e2
  · intro i hi
    have hw : 0 < w := by
      rcases Nat.eq_zero_or_pos w with rfl | h0
      · simp at hi
      · exact h0
    exact ⟨(i % w, i / w), Nat.mod_lt _ hw, Nat.div_lt_of_lt_mul hi, Nat.div_add_mod i w⟩

/-! ### C113 -/

/-- **C113 (partial).** For a ray that starts at the view point, the answer is a pixel with weight one or pixel (0,0) with weight zero; rays parallel to the film get the latter; and a weight of one means that the line of the ray meets the film:
some multiple of its direction is at the film's distance in the direction of view and at most one away from its middle, both sideways and upwards. (Missing: that it meets the film in front of the camera, and in the pixel, see below.) -/
theorem C113_weight_partial (c : Pinhole) (d : Vec3 ℝ) :
    ∃ p k, c.pixelFromRay ⟨c.view.viewPoint, d⟩ = .ok (p, k) ∧ (k = 0 ∧ p = (0, 0) ∨ k = 1) ∧ (Dot c.view.viewDirection d = 0 → k = 0 ∧ p = (0, 0)) ∧
      (k = 1 → ∃ t : ℝ, Dot (d.scale t) c.view.viewDirection = Dot c.view.viewDirection c.view.viewDirection * c.filmDistance ∧ |Dot (d.scale t) c.u| ≤ 1 ∧ |Dot (d.scale t) c.view.viewUp| ≤ 1) := by
  unfold pixelFromRay
  have h0 : ¬ (c.view.viewPoint - c.view.viewPoint).lengthSq > 1 / 10 ^ 24 := by
    have : (c.view.viewPoint - c.view.viewPoint).lengthSq = 0 := by simp [Vec3.lengthSq, Vec3.dot]
    rw [this]; norm_num
  simp only [h0, if_false]
  simp only [Vec3.dot_eq]
  by_cases h1 : |Dot c.view.viewDirection d| < 1 / 10 ^ 12
  · simp only [h1, if_true]
    exact ⟨_, _, rfl, .inl ⟨rfl, rfl⟩, fun _ => ⟨rfl, rfl⟩, fun h => absurd h (by norm_num)⟩
  simp only [h1, if_false]
  have hc : Dot c.view.viewDirection d ≠ 0 := fun h => h1 (by rw [h]; norm_num)
  have e2 : Dot (c.view.viewPoint + c.view.viewDirection.scale c.filmDistance - c.view.viewPoint) c.view.viewDirection = Dot c.view.viewDirection c.view.viewDirection * c.filmDistance := by
    simp only [Dot, Vec3.scale_x, Vec3.scale_y, Vec3.scale_z, Vec3.add_x, Vec3.add_y, Vec3.add_z, Vec3.sub_x, Vec3.sub_y, Vec3.sub_z]; ring
  simp only [e2]
  obtain ⟨t, ht⟩ : ∃ t, t = Dot c.view.viewDirection c.view.viewDirection * c.filmDistance / Dot c.view.viewDirection d := ⟨_, rfl⟩
  simp only [← ht]
  by_cases h2 : |Dot (d.scale t) c.view.viewUp| > 1 ∨ |Dot (d.scale t) c.u| > 1
  · simp only [h2, if_true]
    exact ⟨_, _, rfl, .inl ⟨rfl, rfl⟩, fun _ => ⟨rfl, rfl⟩, fun h => absurd h (by norm_num)⟩
  · simp only [h2, if_false]
    push Not at h2
    refine ⟨_, _, rfl, .inr rfl, fun h => absurd h hc, fun _ => ⟨t, ?_, h2.2, h2.1⟩⟩
    have e1 : Dot (d.scale t) c.view.viewDirection = t * Dot c.view.viewDirection d := by simp only [Dot, Vec3.scale_x, Vec3.scale_y, Vec3.scale_z]; ring
    rw [e1, ht, div_mul_cancel₀ _ hc]

/-- A ray and the ray in the opposite direction are taken for the same. -/
theorem pixelFromRay_opposite (c : Pinhole) (o d : Vec3 ℝ) : c.pixelFromRay ⟨o, d.scale (-1)⟩ = c.pixelFromRay ⟨o, d⟩ := by
  unfold pixelFromRay
  have e : c.view.viewDirection.dot (d.scale (-1)) = -c.view.viewDirection.dot d := by simp only [Vec3.dot, Vec3.scale_x, Vec3.scale_y, Vec3.scale_z]; ring
  have e2 : ∀ a b : ℝ, (d.scale (-1)).scale (a / -b) = d.scale (a / b) := by
    intro a b
    ext <;> simp only [Vec3.scale_x, Vec3.scale_y, Vec3.scale_z] <;> rw [div_neg] <;> ring
  simp only [e, abs_neg, e2]

/-- **C113 (violation).** A ray that leaves the camera backwards, away from everything in the picture, is reported as seen with weight one: on a square film the opposite of the ray through a pixel is reported at that pixel. -/
theorem C113_violation_backwards (v : View) (hv : v.Proper) (hfov : v.fieldOfView ≤ 179) (n x y : Nat) (hx : x < n) (hy : y < n) :
    let c := Pinhole.new v n n
    let back : Ray3 ℝ := ⟨(c.genRay (x, y)).1.origin, (c.genRay (x, y)).1.direction.scale (-1)⟩
    Dot back.direction v.viewDirection < 0 ∧ c.pixelFromRay back = .ok ((x, y), 1) := by
  intro c back
  refine ⟨?_, ?_⟩
  · have h := (C37_rays_well_formed v hv n n (x, y)).2.2.1
    have e : Dot back.direction v.viewDirection = -Dot (c.genRay (x, y)).1.direction v.viewDirection := by simp only [back, Dot, Vec3.scale_x, Vec3.scale_y, Vec3.scale_z]; ring
    rw [e]
    simpa [c] using h
  · rw [pixelFromRay_opposite]
    exact C36_roundtrip_square_partial v hv hfov n x y hx hy

/-- **C113 (violation).** On a film wider than high, the ray through any pixel of the bottom row is reported, with weight one, at a row that the picture does not have. -/
theorem C113_violation_off_picture (v : View) (hv : v.Proper) (hfov : v.fieldOfView ≤ 179) (w h x : Nat) (hx : x < w) (hh : 0 < h) (hwh : h < w) :
    ∃ row, h ≤ row ∧ (Pinhole.new v w h).pixelFromRay ((Pinhole.new v w h).genRay (x, h - 1)).1 = .ok ((x, row), 1) :=
  ⟨h - 1 + (w - h + 1) / 2, by omega, (C36_violation_landscape v hv hfov w h x (h - 1) hx (by omega) hwh).1⟩

/-- The hypotheses are met by the default view. -/
example : (Pinhole.new View.default 512 512).pixelFromRay ((Pinhole.new View.default 512 512).genRay (10, 20)).1 = .ok ((10, 20), 1) :=
  C36_roundtrip_square_partial _ View.default_proper (by norm_num [View.default]) 512 10 20 (by norm_num) (by norm_num)
example : (Pinhole.new View.default 512 367).pixelFromRay ((Pinhole.new View.default 512 367).genRay (10, 20)).1 = .ok ((10, 93), 1) :=
  (C36_violation_landscape _ View.default_proper (by norm_num [View.default]) 512 367 10 20 (by norm_num) (by norm_num) (by norm_num)).1

example := C113_violation_backwards _ View.default_proper (by norm_num [View.default]) 512 10 20 (by norm_num) (by norm_num)
example := C113_violation_off_picture _ View.default_proper (by norm_num [View.default]) 512 367 10 (by norm_num) (by norm_num) (by norm_num)
example := C113_weight_partial (Pinhole.new View.default 512 512) ⟨1, 2, 3⟩

/-! ### Concrete cases of the theorems above, for the default view -/

/-- C37, C72, C36 on a film of 640 by 480 and a tall one. -/
example := C37_rays_well_formed View.default View.default_proper 640 480 (10, 20)

example := C37_rays_distinct View.default View.default_proper 640 480 (by norm_num) (by norm_num) (10, 20) (10, 20) rfl

example := C37_central_symmetry View.default View.default_proper 640 480 10 20 (by norm_num) (by norm_num)

example := C72_field_of_view_partial View.default View.default_proper 640 480 10 20 (by norm_num) (by norm_num)

example := C72_violation_slanted_up 640 (by norm_num)

example := C36_violation_portrait View.default View.default_proper (by norm_num [View.default]) 480 640 10 (by norm_num) (by norm_num) (by norm_num)

example := C38_every_pixel_drawn View.default 640 480 639 479 (by norm_num) (by norm_num)

end Rendering
