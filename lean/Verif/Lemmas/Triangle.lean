import Verif.Lemmas.BBox

set_option linter.unusedSectionVars false

namespace Rendering
variable {K : Type} [Field K] [LinearOrder K] [IsStrictOrderedRing K]

theorem tiny_pos : 0 < tiny K := by unfold tiny; positivity
theorem floatEps_pos : 0 < floatEps K := by unfold floatEps; positivity

theorem det_eq (ray : Ray3 K) (tri : Tri K) :
    (tri.b - tri.a).dot (ray.direction.cross (tri.c - tri.a)) = tripleProduct ray tri := by
  simp only [Vec3.dot, Vec3.cross, tripleProduct]

/-- Soundness: a reported intersection is a point of the ray and (up to the tolerance) of the triangle. -/
theorem baricentric_sound (ray : Ray3 K) (tri : Tri K) (r : Bary K) (h : baricentricCoordinates ray tri = some r) :
    TolerantHit ray tri r.t r.p r.u r.v ∧ 1 / 10 ^ 5 ≤ |tripleProduct ray tri| := by
  unfold baricentricCoordinates at h
  simp only [det_eq] at h
  split at h
  · simp at h
  rename_i hdet
  split at h
  · simp at h
  rename_i hu
  split at h
  · simp at h
  rename_i hv
  split at h
  swap
  · simp at h
  rename_i ht
  have hd : tripleProduct ray tri ≠ 0 := by
    intro h0
    rw [h0, abs_zero] at hdet
    exact hdet tiny_pos
  simp only [Option.some.injEq] at h
  subst h
  simp only [not_not] at hu
  simp only [not_or, not_lt] at hv
  refine ⟨⟨rfl, ht, ?_, ?_, ?_, ?_, ?_⟩, not_lt.1 hdet⟩
  · have hf : tripleProduct ray tri * (1 / tripleProduct ray tri) = 1 := by field_simp
    clear ht hu hv hdet hd
    generalize 1 / tripleProduct ray tri = f at hf
    simp only [Ray3.project]
    unfold tripleProduct at hf
    ext <;>
    simp only [Vec3.add_x, Vec3.add_y, Vec3.add_z, Vec3.scale_x, Vec3.scale_y, Vec3.scale_z, Vec3.dot, Vec3.cross, Vec3.sub_x, Vec3.sub_y,
        Vec3.sub_z] at hf ⊢
    · linear_combination (-(ray.origin.x - tri.a.x)) * hf
    · linear_combination (-(ray.origin.y - tri.a.y)) * hf
    · linear_combination (-(ray.origin.z - tri.a.z)) * hf
  · exact hu.1
  · exact hu.2
  · exact hv.2
  · exact hv.1

/-- Completeness: every genuine crossing is reported, with the crossing point and parameter. -/
theorem baricentric_complete (ray : Ray3 K) (tri : Tri K) (t u v : K) (p : Vec3 K)
    (hp : p = ray.origin + ray.direction.scale t)
    (hq : p = tri.a.scale (1 - u - v) + tri.b.scale u + tri.c.scale v)
    (hu : 0 ≤ u) (hv : 0 ≤ v) (huv : u + v ≤ 1) (ht : 1 / 10 ^ 5 < t)
    (hdet : 1 / 10 ^ 5 ≤ |tripleProduct ray tri|) :
    baricentricCoordinates ray tri = some ⟨p, u, v, t⟩ := by
  have hd : tripleProduct ray tri ≠ 0 := by
    intro h0
    rw [h0, abs_zero] at hdet
    have : (0 : K) < 1 / 10 ^ 5 := by positivity
    linarith
  have hs : ray.origin - tri.a = (tri.b - tri.a).scale u + (tri.c - tri.a).scale v - ray.direction.scale t := by
    rw [hp] at hq
    have hx := congrArg Vec3.x hq
    have hy := congrArg Vec3.y hq
    have hz := congrArg Vec3.z hq
    simp only [Vec3.add_x, Vec3.add_y, Vec3.add_z, Vec3.scale_x, Vec3.scale_y, Vec3.scale_z] at hx hy hz
    ext <;> simp only [Vec3.add_x, Vec3.add_y, Vec3.add_z, Vec3.scale_x, Vec3.scale_y, Vec3.scale_z, Vec3.sub_x, Vec3.sub_y, Vec3.sub_z]
    · linear_combination hx
    · linear_combination hy
    · linear_combination hz
  have e1 : 1 / tripleProduct ray tri * (ray.origin - tri.a).dot (ray.direction.cross (tri.c - tri.a)) = u := by
    rw [one_div, inv_mul_eq_iff_eq_mul₀ hd, hs]
    simp only [Vec3.add_x, Vec3.add_y, Vec3.add_z, Vec3.scale_x, Vec3.scale_y, Vec3.scale_z, Vec3.dot, Vec3.cross, Vec3.sub_x, Vec3.sub_y,
        Vec3.sub_z, tripleProduct]
    ring
  have e2 : 1 / tripleProduct ray tri * ray.direction.dot ((ray.origin - tri.a).cross (tri.b - tri.a)) = v := by
    rw [one_div, inv_mul_eq_iff_eq_mul₀ hd, hs]
    simp only [Vec3.add_x, Vec3.add_y, Vec3.add_z, Vec3.scale_x, Vec3.scale_y, Vec3.scale_z, Vec3.dot, Vec3.cross, Vec3.sub_x, Vec3.sub_y,
        Vec3.sub_z, tripleProduct]
    ring
  have e3 : 1 / tripleProduct ray tri * (tri.c - tri.a).dot ((ray.origin - tri.a).cross (tri.b - tri.a)) = t := by
    rw [one_div, inv_mul_eq_iff_eq_mul₀ hd, hs]
    simp only [Vec3.add_x, Vec3.add_y, Vec3.add_z, Vec3.scale_x, Vec3.scale_y, Vec3.scale_z, Vec3.dot, Vec3.cross, Vec3.sub_x, Vec3.sub_y,
        Vec3.sub_z, tripleProduct]
    ring
  unfold baricentricCoordinates
  simp only [det_eq, e1, e2, e3]
  have heps := floatEps_pos (K := K)
  rw [if_neg (show ¬ |tripleProduct ray tri| < tiny K from not_lt.2 hdet), if_neg (by simp only [not_not]; constructor <;> linarith),
    if_neg (by simp only [not_or, not_lt]; constructor <;> linarith), if_pos (show t > tiny K from ht)]
  rw [hp]; rfl

theorem visible_reported {ray : Ray3 K} {tri : Tri K} {d2 : K} (h : VisibleHit ray tri d2) :
    ∃ info, triangleIntersect tri ray = some info ∧ distSq info.p ray.origin = d2 ∧
      ∃ t, 0 ≤ t ∧ (worldBounds tri).Contains (ray.origin + ray.direction.scale t) := by
  obtain ⟨t, p, ⟨hp, u, v, hu, hv, huv, hq⟩, ht, hdet, hd⟩ := h
  refine ⟨⟨p, u, v, t⟩, baricentric_complete ray tri t u v p hp hq hu hv huv ht hdet, hd, t, ?_, ?_⟩
  · have : (0 : K) < 1 / 10 ^ 5 := by positivity
    linarith
  · rw [← hp, hq]
    exact worldBounds_contains_point tri hu hv huv

end Rendering
