import Verif.Spec.Triangle
import Verif.Lemmas.Scene
import Verif.Lemmas.VecReal
import Mathlib.Tactic.GCongr

/-!
# C15–C19, C21, C22: triangles

Over ℝ; `Verif/Spec/Triangle.lean` has the vocabulary.
-/

set_option linter.unusedSectionVars false

namespace Rendering

theorem triple_eq (ray : Ray3 ℝ) (tri : Tri ℝ) :
    tripleProduct ray tri = -((tri.b - tri.a).cross (tri.c - tri.a)).dot ray.direction := by
  simp only [tripleProduct, Vec3.dot, Vec3.cross, Vec3.sub_x, Vec3.sub_y, Vec3.sub_z]; ring

theorem geometricNormal_eq (t : Tri ℝ) : geometricNormal t = (t.b - t.a).cross (t.c - t.a) := rfl

/-- The squared length of the normal is positive as soon as some ray has a non-zero triple product. -/
theorem normal_pos {ray : Ray3 ℝ} {tri : Tri ℝ} (h : tripleProduct ray tri ≠ 0) : 0 < (geometricNormal tri).lengthSq := by
  rw [triple_eq] at h
  rcases (Vec3.lengthSq_nonneg (geometricNormal tri)).lt_or_eq with h1 | h1
  · exact h1
  · exfalso
    rw [Vec3.lengthSq_eq] at h1
    have hx : (geometricNormal tri).x = 0 := by nlinarith [sq_nonneg (geometricNormal tri).x, sq_nonneg (geometricNormal tri).y, sq_nonneg (geometricNormal tri).z]
    have hy : (geometricNormal tri).y = 0 := by nlinarith [sq_nonneg (geometricNormal tri).x, sq_nonneg (geometricNormal tri).y, sq_nonneg (geometricNormal tri).z]
    have hz : (geometricNormal tri).z = 0 := by nlinarith [sq_nonneg (geometricNormal tri).x, sq_nonneg (geometricNormal tri).y, sq_nonneg (geometricNormal tri).z]
    apply h
    rw [← geometricNormal_eq]
    simp [Vec3.dot, hx, hy, hz]

/-- **C15.** A hit reported by `triangle_intersect` is a point of the ray beyond 1e-5 and, up to the 2^-52 tolerance on the barycentric coordinates
reported, of the triangle; the normal reported is a unit vector orthogonal to both edges and facing against the ray; the side is `Front`
exactly when the geometric normal faces the ray's origin side, and `Back` otherwise (never `NonApplicable`). -/
theorem C15_hit_is_geometric (tri : Tri ℝ) (ray : Ray3 ℝ) (info : IntersectionInfo) (h : triangleIntersectInfo tri ray = some info) :
    (∃ t, TolerantHit ray tri t info.p info.u info.v) ∧
    Norm info.normal = 1 ∧ Dot info.normal (tri.b - tri.a) = 0 ∧ Dot info.normal (tri.c - tri.a) = 0 ∧
    Dot info.normal ray.direction < 0 ∧
    (info.side = .Front ↔ Dot (geometricNormal tri) ray.direction < 0) ∧
    (info.side = .Back ↔ Dot (geometricNormal tri) ray.direction > 0) ∧ info.side ≠ .NonApplicable := by
  unfold triangleIntersectInfo at h
  cases hb : baricentricCoordinates ray tri with
  | none => rw [hb] at h; cases h
  | some b =>
    rw [hb] at h
    simp only [Option.some.injEq] at h
    subst h
    obtain ⟨hs, hdet⟩ := baricentric_sound ray tri b hb
    have hne : tripleProduct ray tri ≠ 0 := by
      intro h0; rw [h0, abs_zero] at hdet; norm_num at hdet
    have hpos := normal_pos hne
    have hlen := Vec3.length_pos hpos
    have hdot : (geometricNormal tri).dot ray.direction ≠ 0 := by
      intro h0; apply hne; rw [triple_eq, ← geometricNormal_eq, h0, neg_zero]
    have hnd : (geometricNormal tri).normalized.dot ray.direction = (geometricNormal tri).dot ray.direction / (geometricNormal tri).length := by
      rw [Vec3.normalized, Vec3.dot_scale]; field_simp
    have hunit := Vec3.normalized_lengthSq hpos
    have ho1 : (geometricNormal tri).normalized.dot (tri.b - tri.a) = 0 := by
      rw [Vec3.normalized, Vec3.dot_scale]
      simp only [geometricNormal, Cross, Vec3.dot, Vec3.sub_x, Vec3.sub_y, Vec3.sub_z]; ring
    have ho2 : (geometricNormal tri).normalized.dot (tri.c - tri.a) = 0 := by
      rw [Vec3.normalized, Vec3.dot_scale]
      simp only [geometricNormal, Cross, Vec3.dot, Vec3.sub_x, Vec3.sub_y, Vec3.sub_z]; ring
    refine ⟨⟨b.t, hs⟩, ?_⟩
    have dd : ∀ a b : Vec3 ℝ, Dot a b = a.dot b := fun _ _ => rfl
    simp only [dd]
    unfold newInfo
    simp only [← geometricNormal_eq]
    unfold getSide
    have norm1 : ∀ n : Vec3 ℝ, n.lengthSq = 1 → Norm n = 1 := by
      intro n hn; rw [← Vec3.length_eq, Vec3.length, hn, Real.sqrt_one]
    rcases lt_or_gt_of_ne hdot with hlt | hgt
    · have h1 : (geometricNormal tri).normalized.dot ray.direction < 0 := by
        rw [hnd]; exact div_neg_of_neg_of_pos hlt hlen
      rw [if_pos h1]
      exact ⟨norm1 _ hunit, ho1, ho2, h1, by simp [hlt], by simp [hlt.le], by simp⟩
    · have h1 : 0 < (geometricNormal tri).normalized.dot ray.direction := by
        rw [hnd]; exact div_pos hgt hlen
      rw [if_neg (not_lt.2 h1.le), if_pos h1]
      refine ⟨norm1 _ ?_, ?_, ?_, ?_, by simp [hgt.le], by simp [hgt], by simp⟩
      · rw [Vec3.lengthSq_eq] at hunit ⊢; simpa using hunit
      · rw [Vec3.dot_neg', ho1, neg_zero]
      · rw [Vec3.dot_neg', ho2, neg_zero]
      · rw [Vec3.dot_neg']; linarith

/-- **C15**, tangent frame: `dpdu`, `dpdv` and the normal reported are orthonormal. -/
theorem C15_frame_orthonormal (tri : Tri ℝ) (ray : Ray3 ℝ) (info : IntersectionInfo) (h : triangleIntersectInfo tri ray = some info) :
    Norm info.dpdu = 1 ∧ Norm info.dpdv = 1 ∧ Dot info.dpdu info.dpdv = 0 ∧ Dot info.dpdu info.normal = 0 ∧
    Dot info.dpdv info.normal = 0 := by
  obtain ⟨_, hn, ho1, _⟩ := C15_hit_is_geometric tri ray info h
  unfold triangleIntersectInfo at h
  cases hb : baricentricCoordinates ray tri with
  | none => rw [hb] at h; cases h
  | some b =>
    rw [hb] at h
    simp only [Option.some.injEq] at h
    obtain ⟨hs, hdet⟩ := baricentric_sound ray tri b hb
    have hne : tripleProduct ray tri ≠ 0 := by
      intro h0; rw [h0, abs_zero] at hdet; norm_num at hdet
    have he : 0 < (tri.b - tri.a).lengthSq := by
      rcases (Vec3.lengthSq_nonneg (tri.b - tri.a)).lt_or_eq with h1 | h1
      · exact h1
      · exfalso
        rw [Vec3.lengthSq_eq] at h1
        set e := tri.b - tri.a
        have hx : e.x = 0 := by nlinarith [sq_nonneg e.x, sq_nonneg e.y, sq_nonneg e.z]
        have hy : e.y = 0 := by nlinarith [sq_nonneg e.x, sq_nonneg e.y, sq_nonneg e.z]
        have hz : e.z = 0 := by nlinarith [sq_nonneg e.x, sq_nonneg e.y, sq_nonneg e.z]
        apply hne
        rw [triple_eq]
        change -(e.cross _).dot _ = 0
        simp [Vec3.cross, Vec3.dot, hx, hy, hz]
    have dd : ∀ a b : Vec3 ℝ, Dot a b = a.dot b := fun _ _ => rfl
    have nl : ∀ a : Vec3 ℝ, Norm a = 1 ↔ a.lengthSq = 1 := by
      intro a; rw [← Vec3.length_eq, Vec3.length, Real.sqrt_eq_one]
    have hn1 : info.normal.lengthSq = 1 := (nl _).1 hn
    have hdu : info.dpdu = (tri.b - tri.a).normalized := by rw [← h]; rfl
    have hdv : info.dpdv = (info.normal.cross info.dpdu).normalized := by rw [← h]; rfl
    have hu1 : info.dpdu.lengthSq = 1 := by rw [hdu]; exact Vec3.normalized_lengthSq he
    have hun : info.dpdu.dot info.normal = 0 := by
      rw [hdu, Vec3.normalized, Vec3.dot_scale, Vec3.dot_comm']
      rw [dd] at ho1; rw [ho1, mul_zero]
    have hcr : (info.normal.cross info.dpdu).lengthSq = 1 := by
      have : (info.normal.cross info.dpdu).lengthSq = info.normal.lengthSq * info.dpdu.lengthSq - (info.dpdu.dot info.normal) ^ 2 := by
        simp only [Vec3.lengthSq, Vec3.dot, Vec3.cross]; ring
      rw [this, hn1, hu1, hun]; norm_num
    refine ⟨(nl _).2 hu1, (nl _).2 ?_, ?_, hun, ?_⟩
    · rw [hdv]; exact Vec3.normalized_lengthSq (by rw [hcr]; norm_num)
    · rw [dd, hdv, Vec3.dot_comm', Vec3.normalized, Vec3.dot_scale]
      simp only [Vec3.cross, Vec3.dot]; ring
    · rw [dd, hdv, Vec3.normalized, Vec3.dot_scale]
      simp only [Vec3.cross, Vec3.dot]; ring

/-- **C16.** A ray that passes through a point of the closed triangle at a parameter beyond 1e-5, with a triple product of at least 1e-5, is
reported by both intersection functions, with exactly that point and those barycentric coordinates (so that parameter). -/
theorem C16_hit_is_complete {K : Type} [Field K] [LinearOrder K] [IsStrictOrderedRing K] (ray : Ray3 K) (tri : Tri K) (t u v : K)
    (hu : 0 ≤ u) (hv : 0 ≤ v) (huv : u + v ≤ 1) (ht : 1 / 10 ^ 5 < t)
    (hmeet : ray.origin + ray.direction.scale t = tri.a.scale (1 - u - v) + tri.b.scale u + tri.c.scale v)
    (hdet : 1 / 10 ^ 5 ≤ |tripleProduct ray tri|) :
    triangleIntersect tri ray = some ⟨ray.origin + ray.direction.scale t, u, v, t⟩ ∧
    simpleTriangleIntersect tri ray = some (ray.origin + ray.direction.scale t) := by
  have h := baricentric_complete ray tri t u v _ rfl hmeet hu hv huv ht hdet
  refine ⟨h, ?_⟩
  unfold simpleTriangleIntersect
  rw [h]

/-- **C16**, over ℝ and for the full information. -/
theorem C16_info_is_complete (ray : Ray3 ℝ) (tri : Tri ℝ) (t : ℝ) (p : Vec3 ℝ) (hc : Crosses ray tri t p) (ht : 1 / 10 ^ 5 < t)
    (hdet : 1 / 10 ^ 5 ≤ |tripleProduct ray tri|) :
    ∃ info, triangleIntersectInfo tri ray = some info ∧ info.p = p := by
  obtain ⟨hp, u, v, hu, hv, huv, hq⟩ := hc
  have h := baricentric_complete ray tri t u v _ hp hq hu hv huv ht hdet
  unfold triangleIntersectInfo
  rw [h]
  exact ⟨_, rfl, rfl⟩

theorem abs_triple_le (ray : Ray3 ℝ) (tri : Tri ℝ) (hd : Norm ray.direction = 1) : |tripleProduct ray tri| ≤ doubleArea tri := by
  have hd1 : ray.direction.lengthSq = 1 := by
    rw [← Vec3.length_eq, Vec3.length, Real.sqrt_eq_one] at hd; exact hd
  rw [triple_eq, abs_neg, ← geometricNormal_eq]
  unfold doubleArea
  rw [← Vec3.length_eq]
  apply Real.abs_le_sqrt
  have : (geometricNormal tri).lengthSq * ray.direction.lengthSq - ((geometricNormal tri).dot ray.direction) ^ 2 =
      ((geometricNormal tri).cross ray.direction).lengthSq := by
    simp only [Vec3.lengthSq, Vec3.dot, Vec3.cross]; ring
  have h0 := Vec3.lengthSq_nonneg ((geometricNormal tri).cross ray.direction)
  rw [hd1] at this
  linarith

/-- **C17 (partial).** Full statement: every non-degenerate triangle is hit by some unit-direction ray. Proved when twice the area is at least 1e-5
(a ray along the normal through the centroid is reported). -/
theorem C17_hittable_partial (tri : Tri ℝ) (h : 1 / 10 ^ 5 ≤ doubleArea tri) :
    ∃ ray info, Norm ray.direction = 1 ∧ triangleIntersectInfo tri ray = some info := by
  have hpos : 0 < doubleArea tri := lt_of_lt_of_le (by norm_num) h
  have hl : (geometricNormal tri).length = doubleArea tri := Vec3.length_eq _
  have hsq : 0 < (geometricNormal tri).lengthSq := by rw [← Vec3.length_sq, hl]; positivity
  let n := (geometricNormal tri).normalized
  let p := tri.a.scale (1 - 1 / 3 - 1 / 3) + tri.b.scale (1 / 3) + tri.c.scale (1 / 3)
  let ray : Ray3 ℝ := ⟨p - n, n⟩
  have hn1 : n.lengthSq = 1 := Vec3.normalized_lengthSq hsq
  obtain ⟨info, hi, _⟩ := C16_info_is_complete ray tri 1 p
    ⟨by ext <;> simp [ray], 1 / 3, 1 / 3, by norm_num, by norm_num, by norm_num, rfl⟩ (by norm_num) (by
      rw [triple_eq, abs_neg, ← geometricNormal_eq]
      have : (geometricNormal tri).dot ray.direction = doubleArea tri := by
        change (geometricNormal tri).dot n = _
        rw [Vec3.dot_comm']
        simp only [n, Vec3.normalized]
        rw [Vec3.dot_scale]
        change 1 / (geometricNormal tri).length * (geometricNormal tri).lengthSq = _
        rw [← Vec3.length_sq, hl]
        field_simp
      rw [this]
      exact h.trans (le_abs_self _))
  refine ⟨ray, info, ?_, hi⟩
  change Norm n = 1
  rw [← Vec3.length_eq, Vec3.length, hn1, Real.sqrt_one]

/-- **C17, violation.** A triangle whose double area is below 1e-5 (for instance any right triangle with legs of 3 mm) is invisible to every
unit-direction ray. -/
theorem C17_violation_small_triangles_invisible (tri : Tri ℝ) (h : doubleArea tri < 1 / 10 ^ 5) (ray : Ray3 ℝ)
    (hd : Norm ray.direction = 1) : triangleIntersectInfo tri ray = none ∧ simpleTriangleIntersect tri ray = none := by
  have hn : baricentricCoordinates ray tri = none := by
    cases hb : baricentricCoordinates ray tri with
    | none => rfl
    | some b =>
      obtain ⟨_, hdet⟩ := baricentric_sound ray tri b hb
      have := abs_triple_le ray tri hd
      linarith
  unfold triangleIntersectInfo simpleTriangleIntersect
  rw [hn]
  exact ⟨rfl, rfl⟩

/-- A 3 mm right triangle is non-degenerate and small enough. -/
example : 0 < doubleArea ⟨⟨0, 0, 0⟩, ⟨3 / 1000, 0, 0⟩, ⟨0, 3 / 1000, 0⟩⟩ ∧
    doubleArea ⟨⟨0, 0, 0⟩, ⟨3 / 1000, 0, 0⟩, ⟨0, 3 / 1000, 0⟩⟩ < 1 / 10 ^ 5 := by
  have : doubleArea ⟨⟨0, 0, 0⟩, ⟨3 / 1000, 0, 0⟩, ⟨0, 3 / 1000, 0⟩⟩ = 9 / 10 ^ 6 := by
    simp only [doubleArea, geometricNormal, Cross, Norm, Vec3.sub_x, Vec3.sub_y, Vec3.sub_z]
    rw [show ((0 - 0 : ℝ) * (0 - 0) - (0 - 0) * (3 / 1000 - 0)) ^ 2 + ((0 - 0) * (0 - 0) - (3 / 1000 - 0) * (0 - 0)) ^ 2 +
      ((3 / 1000 - 0) * (3 / 1000 - 0) - (0 - 0) * (0 - 0)) ^ 2 = (9 / 10 ^ 6) ^ 2 by norm_num]
    exact Real.sqrt_sq (by norm_num)
  rw [this]
  norm_num

/-! ### C18 -/

/-- **C18.** Heron's formula gives half the norm of the cross product of two edges. -/
theorem C18_area_is_half_cross (t : Tri ℝ) : triangleArea t = doubleArea t / 2 := by
  unfold triangleArea
  simp only
  set ab := Real.sqrt ((t.b.x - t.a.x) ^ 2 + (t.b.y - t.a.y) ^ 2 + (t.b.z - t.a.z) ^ 2) with hab
  set bc := Real.sqrt ((t.c.x - t.b.x) ^ 2 + (t.c.y - t.b.y) ^ 2 + (t.c.z - t.b.z) ^ 2) with hbc
  set ca := Real.sqrt ((t.a.x - t.c.x) ^ 2 + (t.a.y - t.c.y) ^ 2 + (t.a.z - t.c.z) ^ 2) with hca
  have e1 : ab ^ 2 = (t.b.x - t.a.x) ^ 2 + (t.b.y - t.a.y) ^ 2 + (t.b.z - t.a.z) ^ 2 := Real.sq_sqrt (by positivity)
  have e2 : bc ^ 2 = (t.c.x - t.b.x) ^ 2 + (t.c.y - t.b.y) ^ 2 + (t.c.z - t.b.z) ^ 2 := Real.sq_sqrt (by positivity)
  have e3 : ca ^ 2 = (t.a.x - t.c.x) ^ 2 + (t.a.y - t.c.y) ^ 2 + (t.a.z - t.c.z) ^ 2 := Real.sq_sqrt (by positivity)
  have key : (ca + bc + ab) * ((ca + bc + ab) / 2 - ab) * ((ca + bc + ab) / 2 - bc) * ((ca + bc + ab) / 2 - ca) / 2 =
      (2 * ab ^ 2 * bc ^ 2 + 2 * bc ^ 2 * ca ^ 2 + 2 * ca ^ 2 * ab ^ 2 - (ab ^ 2) ^ 2 - (bc ^ 2) ^ 2 - (ca ^ 2) ^ 2) / 16 := by ring
  rw [key, e1, e2, e3]
  have : doubleArea t / 2 = Real.sqrt (((geometricNormal t).x ^ 2 + (geometricNormal t).y ^ 2 + (geometricNormal t).z ^ 2) / 4) := by
    rw [doubleArea, Norm, Real.sqrt_div (by positivity), show (4 : ℝ) = 2 ^ 2 by norm_num, Real.sqrt_sq (by norm_num)]
  rw [this]
  congr 1
  simp only [geometricNormal, Cross, Vec3.sub_x, Vec3.sub_y, Vec3.sub_z]
  ring

/-- **C18.** The area is non-negative, zero exactly for collinear vertices, independent of the order of the vertices, invariant under translation and
quadratic under scaling. -/
theorem C18_area_laws (t : Tri ℝ) (d : Vec3 ℝ) (k : ℝ) :
    0 ≤ triangleArea t ∧ (triangleArea t = 0 ↔ geometricNormal t = 0) ∧
    triangleArea ⟨t.b, t.c, t.a⟩ = triangleArea t ∧ triangleArea ⟨t.b, t.a, t.c⟩ = triangleArea t ∧
    triangleArea (t.translate d) = triangleArea t ∧ triangleArea (t.scaled k) = k ^ 2 * triangleArea t := by
  refine ⟨Real.sqrt_nonneg _, ?_, ?_, ?_, ?_, ?_⟩
  · rw [C18_area_is_half_cross, doubleArea, Norm]
    constructor
    · intro h
      have h0 : Real.sqrt ((geometricNormal t).x ^ 2 + (geometricNormal t).y ^ 2 + (geometricNormal t).z ^ 2) = 0 := by linarith
      rw [Real.sqrt_eq_zero (by positivity)] at h0
      have hx : (geometricNormal t).x = 0 := by nlinarith [sq_nonneg (geometricNormal t).x, sq_nonneg (geometricNormal t).y, sq_nonneg (geometricNormal t).z]
      have hy : (geometricNormal t).y = 0 := by nlinarith [sq_nonneg (geometricNormal t).x, sq_nonneg (geometricNormal t).y, sq_nonneg (geometricNormal t).z]
      have hz : (geometricNormal t).z = 0 := by nlinarith [sq_nonneg (geometricNormal t).x, sq_nonneg (geometricNormal t).y, sq_nonneg (geometricNormal t).z]
      ext <;> simp [hx, hy, hz]
    · intro h; rw [h]; simp
  · rw [C18_area_is_half_cross, C18_area_is_half_cross, doubleArea, doubleArea, Norm, Norm]
    congr 2
    simp only [geometricNormal, Cross, Vec3.sub_x, Vec3.sub_y, Vec3.sub_z]; ring
  · rw [C18_area_is_half_cross, C18_area_is_half_cross, doubleArea, doubleArea, Norm, Norm]
    congr 2
    simp only [geometricNormal, Cross, Vec3.sub_x, Vec3.sub_y, Vec3.sub_z]; ring
  · rw [C18_area_is_half_cross, C18_area_is_half_cross, doubleArea, doubleArea, Norm, Norm]
    congr 2
    simp only [geometricNormal, Cross, Tri.translate, Vec3.sub_x, Vec3.sub_y, Vec3.sub_z, Vec3.add_x, Vec3.add_y, Vec3.add_z]; ring
  · rw [C18_area_is_half_cross, C18_area_is_half_cross, doubleArea, doubleArea, Norm, Norm]
    rw [show (geometricNormal (t.scaled k)).x ^ 2 + (geometricNormal (t.scaled k)).y ^ 2 + (geometricNormal (t.scaled k)).z ^ 2 =
      (k ^ 2) ^ 2 * ((geometricNormal t).x ^ 2 + (geometricNormal t).y ^ 2 + (geometricNormal t).z ^ 2) by
        simp only [geometricNormal, Cross, Tri.scaled, Vec3.sub_x, Vec3.sub_y, Vec3.sub_z, Vec3.scale_x, Vec3.scale_y, Vec3.scale_z]; ring,
      Real.sqrt_mul (by positivity), Real.sqrt_sq (by positivity)]
    ring

example : triangleArea ⟨⟨0, 0, 0⟩, ⟨2, 0, 0⟩, ⟨0, 2, 0⟩⟩ = 2 := by
  rw [C18_area_is_half_cross]
  simp only [doubleArea, geometricNormal, Cross, Norm, Vec3.sub_x, Vec3.sub_y, Vec3.sub_z]
  rw [show ((0 - 0 : ℝ) * (0 - 0) - (0 - 0) * (2 - 0)) ^ 2 + ((0 - 0) * (0 - 0) - (2 - 0) * (0 - 0)) ^ 2 +
      ((2 - 0) * (2 - 0) - (0 - 0) * (0 - 0)) ^ 2 = 4 ^ 2 by norm_num, Real.sqrt_sq (by norm_num)]
  norm_num

/-! ### C19 -/

/-- **C19.** The world bounds contain every point of the triangle, and lie inside every box that contains the three vertices. -/
theorem C19_bounds_tight {K : Type} [Field K] [LinearOrder K] [IsStrictOrderedRing K] (t : Tri K) :
    (∀ u v, 0 ≤ u → 0 ≤ v → u + v ≤ 1 → (worldBounds t).Contains (t.a.scale (1 - u - v) + t.b.scale u + t.c.scale v)) ∧
    (∀ b : BBox K, b.Contains t.a → b.Contains t.b → b.Contains t.c → ∀ p, (worldBounds t).Contains p → b.Contains p) := by
  refine ⟨fun u v hu hv huv => worldBounds_contains_point t hu hv huv, ?_⟩
  rintro b ⟨⟨a1, a2⟩, ⟨a3, a4⟩, a5, a6⟩ ⟨⟨b1, b2⟩, ⟨b3, b4⟩, b5, b6⟩ ⟨⟨c1, c2⟩, ⟨c3, c4⟩, c5, c6⟩ p ⟨⟨p1, p2⟩, ⟨p3, p4⟩, p5, p6⟩
  simp only [worldBounds, BBox.fromPoint, BBox.fromUnionPoint] at p1 p2 p3 p4 p5 p6
  refine ⟨⟨le_trans (le_min (le_min a1 b1) c1) p1, le_trans p2 (max_le (max_le a2 b2) c2)⟩,
    ⟨le_trans (le_min (le_min a3 b3) c3) p3, le_trans p4 (max_le (max_le a4 b4) c4)⟩,
    le_trans (le_min (le_min a5 b5) c5) p5, le_trans p6 (max_le (max_le a6 b6) c6)⟩

/-! ### C21 -/

/-- **C21 (partial).** Full statement: for a hit with barycentric coordinates `u` (of b) and `v` (of c), the shading normal is the normalised
`n0 (1-u-v) + n1 u + n2 v`, flipped on the back. Proved for equal vertex normals (every mesh of a flat triangle); in general the code
weights `n0` by `u`, `n1` by `v` and `n2` by `1-u-v` (`C21_violation`). -/
theorem C21_interpolated_normal_partial (i : Interaction) (n : Vec3 ℝ) :
    (i.interpolateNormal n n n).shading.normal =
      (if i.shading.side = .Back then fun w : Vec3 ℝ => w.scale (-1) else id)
        ((n.scale (1 - i.shading.u - i.shading.v) + n.scale i.shading.u + n.scale i.shading.v).normalized) ∧
    (Norm n = 1 → (i.interpolateNormal n n n).shading.normal = if i.shading.side = .Back then n.scale (-1) else n) ∧
    (i.interpolateNormal n n n).shading.p = i.shading.p ∧ (i.interpolateNormal n n n).point = i.point := by
  have e1 : n.scale i.shading.u + n.scale i.shading.v + n.scale (1 - i.shading.u - i.shading.v) = n := by
    ext <;> simp <;> ring
  have e2 : n.scale (1 - i.shading.u - i.shading.v) + n.scale i.shading.u + n.scale i.shading.v = n := by
    ext <;> simp <;> ring
  unfold Interaction.interpolateNormal
  simp only [e1, e2]
  refine ⟨by split <;> rfl, ?_, trivial, trivial⟩
  intro hn
  have : n.normalized = n := by
    rw [Vec3.normalized, Vec3.length_eq, hn]; ext <;> simp
  rw [this]

/-- **C21, violation.** A hit at the vertex `a` (u = v = 0) of a triangle with unit vertex normals gets the normal of vertex `c`. -/
theorem C21_violation (i : Interaction) (hu : i.shading.u = 0) (hv : i.shading.v = 0) (hs : i.shading.side = .Front)
    (n0 n1 n2 : Vec3 ℝ) (h2 : Norm n2 = 1) : (i.interpolateNormal n0 n1 n2).shading.normal = n2 := by
  have e1 : n0.scale 0 + n1.scale 0 + n2.scale (1 - 0 - 0) = n2 := by ext <;> simp
  unfold Interaction.interpolateNormal
  simp only [hu, hv, hs, e1, reduceCtorEq, if_false]
  rw [Vec3.normalized, Vec3.length_eq, h2]; ext <;> simp

/-! ### C22 -/

/-- **C22 (partial).** Full statement: translating light, sampled point and ray together leaves the density unchanged. Proved for translations parallel
to the light's plane (orthogonal to its normal); the code uses the position of the ray's origin, not the direction, in its cosine. -/
theorem C22_pdf_translation_partial (t : Tri ℝ) (point normal : Vec3 ℝ) (ray : Ray3 ℝ) (d : Vec3 ℝ) (hd : Dot d normal = 0) :
    triangleSolidAnglePdf (t.translate d) (point + d) normal ⟨ray.origin + d, ray.direction⟩ = triangleSolidAnglePdf t point normal ray := by
  unfold triangleSolidAnglePdf
  have e1 : (ray.origin + d).dot normal = ray.origin.dot normal := by
    have : (ray.origin + d).dot normal = ray.origin.dot normal + Dot d normal := by simp [Vec3.dot, Dot]; ring
    rw [this, hd, add_zero]
  have e2 : point + d - (ray.origin + d) = point - ray.origin := by ext <;> simp
  simp only [e1, e2, (C18_area_laws t d 0).2.2.2.2.1]

/-- **C22 (partial).** Full statement: the density of a direction that goes to a point of a triangle chosen uniformly by area is the squared distance over the cosine with which it arrives and the area. Proved for rays whose origin, as a vector
from the origin of coordinates, is as inclined to the light as their direction — rays that start at the tip of their own unit direction, say; elsewhere it is false (`C22_violation`). -/
theorem C22_density_partial (t : Tri ℝ) (point normal : Vec3 ℝ) (ray : Ray3 ℝ) (h : Dot ray.origin normal = |Dot ray.direction normal|) (hpos : 1 / 10 ^ 7 ≤ |Dot ray.direction normal|) :
    triangleSolidAnglePdf t point normal ray = Norm (point - ray.origin) ^ 2 / (|Dot ray.direction normal| * (doubleArea t / 2)) := by
  unfold triangleSolidAnglePdf
  simp only [Vec3.dot_eq, h]
  rw [if_neg (not_lt.2 hpos), abs_abs, C18_area_is_half_cross, Norm_sq, div_div]
  congr 1

/-- C22: a light two metres above a point one metre up, seen straight from below. -/
example : triangleSolidAnglePdf (⟨⟨0, 0, 3⟩, ⟨2, 0, 3⟩, ⟨0, 2, 3⟩⟩ : Tri ℝ) ⟨0, 0, 3⟩ ⟨0, 0, 1⟩ ⟨⟨0, 0, 1⟩, ⟨0, 0, 1⟩⟩ = Norm (⟨0, 0, 3⟩ - ⟨0, 0, 1⟩ : Vec3 ℝ) ^ 2 / (|Dot (⟨0, 0, 1⟩ : Vec3 ℝ) ⟨0, 0, 1⟩| * (doubleArea ⟨⟨0, 0, 3⟩, ⟨2, 0, 3⟩, ⟨0, 2, 3⟩⟩ / 2)) :=
  C22_density_partial _ _ _ ⟨⟨0, 0, 1⟩, ⟨0, 0, 1⟩⟩ (by norm_num [Dot]) (by norm_num [Dot])

/-- **C22, violation.** The same light seen from the same relative position: density zero at one place, positive at another. -/
theorem C22_violation :
    let t : Tri ℝ := ⟨⟨0, 0, 1⟩, ⟨2, 0, 1⟩, ⟨0, 2, 1⟩⟩
    let d : Vec3 ℝ := ⟨0, 0, 5⟩
    triangleSolidAnglePdf t ⟨0, 0, 1⟩ ⟨0, 0, 1⟩ ⟨⟨0, 0, 0⟩, ⟨0, 0, 1⟩⟩ = 0 ∧
    triangleSolidAnglePdf (t.translate d) (⟨0, 0, 1⟩ + d) ⟨0, 0, 1⟩ ⟨⟨0, 0, 0⟩ + d, ⟨0, 0, 1⟩⟩ > 0 := by
  intro t d
  constructor
  · unfold triangleSolidAnglePdf
    simp only
    rw [if_pos]
    simp [Vec3.dot]
  · have harea : triangleArea (t.translate d) = 2 := by
      rw [(C18_area_laws t d 0).2.2.2.2.1, C18_area_is_half_cross]
      simp only [doubleArea, geometricNormal, Cross, Norm, Vec3.sub_x, Vec3.sub_y, Vec3.sub_z, t]
      rw [show ((0 - 0 : ℝ) * (1 - 1) - (1 - 1) * (2 - 0)) ^ 2 + ((1 - 1) * (0 - 0) - (2 - 0) * (1 - 1)) ^ 2 +
        ((2 - 0) * (2 - 0) - (0 - 0) * (0 - 0)) ^ 2 = 4 ^ 2 by norm_num, Real.sqrt_sq (by norm_num)]
      norm_num
    unfold triangleSolidAnglePdf
    simp only [harea]
    rw [if_neg]
    · simp [Vec3.dot, Vec3.lengthSq, d]
    · simp [Vec3.dot, d]; norm_num

/-! ### Interaction recorded by `cast_ray` -/

/-- **C15**, the recorded interaction point: for a unit-direction ray, `interaction.point` (the ray projected by the square root of the squared distance)
is the intersection point, and `wo` is the reversed direction. -/
theorem C15_recorded_point (tri : Tri ℝ) (ray : Ray3 ℝ) (b : Bary ℝ) (hd : Norm ray.direction = 1) (h : triangleIntersect tri ray = some b) :
    (recordedInteraction tri ray b).point = b.p ∧ (recordedInteraction tri ray b).wo = -ray.direction := by
  have hd1 : ray.direction.lengthSq = 1 := by
    rw [← Vec3.length_eq, Vec3.length, Real.sqrt_eq_one] at hd; exact hd
  obtain ⟨⟨hp, ht, _⟩, _⟩ := baricentric_sound ray tri b h
  have ht0 : 0 ≤ b.t := by
    have : (0 : ℝ) < 1 / 10 ^ 5 := by norm_num
    linarith
  have : (b.p - ray.origin).lengthSq = b.t ^ 2 := by
    rw [hp]
    have e : (ray.origin + ray.direction.scale b.t - ray.origin).lengthSq = b.t ^ 2 * ray.direction.lengthSq := by
      simp only [Vec3.lengthSq, Vec3.dot, Vec3.sub_x, Vec3.sub_y, Vec3.sub_z, Vec3.add_x, Vec3.add_y, Vec3.add_z, Vec3.scale_x, Vec3.scale_y, Vec3.scale_z]; ring
    rw [e, hd1, mul_one]
  constructor
  · unfold recordedInteraction
    simp only [this, Real.sqrt_sq ht0]
    rw [hp]; rfl
  · ext <;> simp [recordedInteraction]

/-- The hypotheses are met: a vertical ray through a triangle of the plane z = 1. -/
example : ∃ info, triangleIntersectInfo ⟨⟨0, 0, 1⟩, ⟨1, 0, 1⟩, ⟨0, 1, 1⟩⟩ ⟨⟨1 / 4, 1 / 4, 0⟩, ⟨0, 0, 1⟩⟩ = some info ∧ info.p = ⟨1 / 4, 1 / 4, 1⟩ ∧
    info.side = .Back := by
  obtain ⟨info, h1, h2⟩ := C16_info_is_complete ⟨⟨1 / 4, 1 / 4, 0⟩, ⟨0, 0, 1⟩⟩ ⟨⟨0, 0, 1⟩, ⟨1, 0, 1⟩, ⟨0, 1, 1⟩⟩ 1 ⟨1 / 4, 1 / 4, 1⟩
    ⟨by ext <;> simp, 1 / 4, 1 / 4, by norm_num, by norm_num, by norm_num, by ext <;> simp⟩ (by norm_num) (by
      simp [tripleProduct]; norm_num)
  refine ⟨info, h1, h2, ?_⟩
  rw [(C15_hit_is_geometric _ _ _ h1).2.2.2.2.2.2.1]
  simp [Dot, geometricNormal, Cross]

/-! ### Concrete cases of the theorems above -/

/-- A triangle of the plane z = 1 and a vertical ray through it. -/
def sampleTri : Tri ℝ := ⟨⟨0, 0, 1⟩, ⟨2, 0, 1⟩, ⟨0, 2, 1⟩⟩

/-- See `sampleTri`. -/
noncomputable def sampleRay : Ray3 ℝ := ⟨⟨1 / 2, 1 / 4, 0⟩, ⟨0, 0, 1⟩⟩

theorem sampleRay_unit : Norm sampleRay.direction = 1 := by
  rw [← Vec3.length_eq]; simp [sampleRay, Vec3.length, Vec3.lengthSq, Vec3.dot]

/-- C16: the ray meets the triangle at the given place. -/
theorem sampleRay_hits : triangleIntersect sampleTri sampleRay = some ⟨sampleRay.origin + sampleRay.direction.scale 1, 1 / 4, 1 / 8, 1⟩ ∧ simpleTriangleIntersect sampleTri sampleRay = some (sampleRay.origin + sampleRay.direction.scale 1) :=
  C16_hit_is_complete sampleRay sampleTri 1 (1 / 4) (1 / 8) (by norm_num) (by norm_num) (by norm_num) (by norm_num) (by ext <;> simp [sampleRay, sampleTri] <;> norm_num) (by simp [sampleRay, sampleTri, tripleProduct]; norm_num)

/-- C15: the frame there. -/
example : ∃ info, triangleIntersectInfo sampleTri sampleRay = some info ∧ Norm info.dpdu = 1 ∧ Dot info.dpdu info.normal = 0 := by
  obtain ⟨info, h, _⟩ := C16_info_is_complete sampleRay sampleTri 1 ⟨1 / 2, 1 / 4, 1⟩ ⟨by ext <;> simp [sampleRay], 1 / 4, 1 / 8, by norm_num, by norm_num, by norm_num, by ext <;> simp [sampleTri] <;> norm_num⟩ (by norm_num) (by
    simp [sampleRay, sampleTri, tripleProduct]; norm_num)
  have := C15_frame_orthonormal _ _ info h
  exact ⟨info, h, this.1, this.2.2.2.1⟩

/-- C15: what is recorded there. -/
example := C15_recorded_point sampleTri sampleRay _ sampleRay_unit sampleRay_hits.1

/-- C17: this triangle is large enough, and the one of 3 mm (above) is not. -/
example := C17_hittable_partial sampleTri (by
  have : doubleArea sampleTri = 4 := by
    unfold doubleArea; rw [← Vec3.length_eq]
    simp [Vec3.length, Vec3.lengthSq, Vec3.dot, geometricNormal, Cross, sampleTri]
    norm_num
  rw [this]; norm_num)

/-- C21: a mesh with three different normals at a corner: the normal of another corner is used. -/
example := C21_violation { point := ⟨0, 0, 0⟩, wo := ⟨0, 0, 1⟩, shading := { p := ⟨0, 0, 0⟩, normal := ⟨0, 0, 1⟩, dpdu := ⟨1, 0, 0⟩, dpdv := ⟨0, 1, 0⟩, side := .Front, u := 0, v := 0 } } rfl rfl rfl ⟨0, 0, 1⟩ ⟨3 / 5, 0, 4 / 5⟩ ⟨0, 3 / 5, 4 / 5⟩ (by
  rw [← Vec3.length_eq]; simp [Vec3.length, Vec3.lengthSq, Vec3.dot]; norm_num)

/-- C22: a shift along the triangle. -/
example := C22_pdf_translation_partial sampleTri ⟨1 / 2, 1 / 4, 1⟩ ⟨0, 0, 1⟩ sampleRay ⟨7, -3, 0⟩ (by simp [Dot])

end Rendering
