import Verif.Lemmas.BvhFloat
import Verif.Props.TriangleFloat

/-!
# C132: ray casting in double precision
-/

set_option linter.unusedSectionVars false
open scoped List
namespace Rendering

/-! ## Rounding errors of distances -/

theorem distSq64_error (ray : Ray3 F64) (t : F64) (M T : ℝ) (ho : ray.reals.origin.Within M) (hd : ray.reals.direction.Within 1) (ht : |(t.val : ℝ)| ≤ T) :
    |((distSq64 (project64 ray t) ray.origin).val : ℝ) - (t.val : ℝ) ^ 2 * ray.reals.direction.lengthSq| ≤ 60 * (2 * M + T) ^ 2 / 2 ^ 53 := by
  have key : ∀ o d : F64, |(o.val : ℝ)| ≤ M → |(d.val : ℝ)| ≤ 1 →
      Near ((o + d * t) - o) ((o.val + d.val * t.val) - o.val) (2 * M + T) 6 := by
    intro o d h1 h2
    have e1 := (Near.exact h2).mul (Near.exact ht) (le_refl _) (le_refl _) (by norm_num)
    have e2 := Near.add ((Near.exact h1).mono (show (0 : ℝ) ≤ 0 + 0 + 2 by norm_num)) e1 (by norm_num) (by norm_num)
    have e3 := Near.sub e2 ((Near.exact h1).mono (show (0 : ℝ) ≤ 0 + 0 + 2 + 2 by norm_num)) (by norm_num) (by norm_num)
    exact e3.congr (by ring) (by norm_num)
  have hx := key ray.origin.x ray.direction.x ho.1 hd.1
  have hy := key ray.origin.y ray.direction.y ho.2.1 hd.2.1
  have hz := key ray.origin.z ray.direction.z ho.2.2 hd.2.2
  have sx := hx.mul hx (by norm_num) (by norm_num) (by norm_num)
  have sy := hy.mul hy (by norm_num) (by norm_num) (by norm_num)
  have sz := hz.mul hz (by norm_num) (by norm_num) (by norm_num)
  have s1 := sx.add sy (by norm_num) (by norm_num)
  have s2 := s1.add (sz.mono (show (6 : ℝ) + 6 + 2 ≤ 6 + 6 + 2 + 2 by norm_num)) (by norm_num) (by norm_num)
  have h := s2.2
  have hB : 0 ≤ (2 * M + T) ^ 2 := sq_nonneg _
  have e : (t.val : ℝ) ^ 2 * ray.reals.direction.lengthSq =
      (((ray.origin.x.val : ℝ) + ray.direction.x.val * t.val) - ray.origin.x.val) * (((ray.origin.x.val : ℝ) + ray.direction.x.val * t.val) - ray.origin.x.val) +
      (((ray.origin.y.val : ℝ) + ray.direction.y.val * t.val) - ray.origin.y.val) * (((ray.origin.y.val : ℝ) + ray.direction.y.val * t.val) - ray.origin.y.val) +
      (((ray.origin.z.val : ℝ) + ray.direction.z.val * t.val) - ray.origin.z.val) * (((ray.origin.z.val : ℝ) + ray.direction.z.val * t.val) - ray.origin.z.val) := by
    simp only [Vec3.lengthSq, Vec3.dot, Ray3.reals, Vec3.reals]
    ring
  rw [e]
  refine le_trans h ?_
  have : (2 * M + T) * (2 * M + T) = (2 * M + T) ^ 2 := by ring
  rw [this]
  norm_num
  linarith

/-- `shake` for scenes of at most a kilometre. -/
theorem shake_small {M a : ℝ} (hM : 0 < M) (hM' : M ≤ 1000) (ha : 8 / 10 ^ 6 ≤ |a|) : 0 < shake M a ∧ shake M a ≤ 114 / 1000 := by
  have ha0 : 0 < |a| := lt_of_lt_of_le (by norm_num) ha
  unfold shake
  refine ⟨by positivity, ?_⟩
  rw [div_le_iff₀ (by positivity)]
  have h1 : M ^ 2 ≤ 1000 ^ 2 := by gcongr
  have h2 : (114 / 1000 : ℝ) * (2 ^ 40 * (8 / 10 ^ 6)) ≤ 114 / 1000 * (2 ^ 40 * |a|) := by gcongr
  refine le_trans h1 (le_trans ?_ h2)
  norm_num

theorem abs_le_shift {x e : ℝ} (h : -e ≤ x) (he : 0 ≤ e) : |x| ≤ x + 2 * e := by
  rcases abs_cases x with ⟨h1, _⟩ | ⟨h1, _⟩ <;> rw [h1] <;> linarith

theorem coordinate_bound {M a b c u v : ℝ} (hM : 0 < M) (ha : |a| ≤ M) (hb : |b| ≤ M) (hc : |c| ≤ M) (hu : -(1151 / 10000) ≤ u) (hv : -(1151 / 10000) ≤ v) (huv : u + v ≤ 1 + 23 / 100) :
    |a * (1 - u - v) + b * u + c * v| ≤ 2 * M := by
  have h1 := abs_le_shift hu (by norm_num)
  have h2 := abs_le_shift hv (by norm_num)
  have h3 : |1 - u - v| ≤ (1 - u - v) + 2 * (23 / 100) := abs_le_shift (by linarith) (by norm_num)
  have e1 : |a * (1 - u - v)| ≤ M * |1 - u - v| := by rw [abs_mul]; gcongr
  have e2 : |b * u| ≤ M * |u| := by rw [abs_mul]; gcongr
  have e3 : |c * v| ≤ M * |v| := by rw [abs_mul]; gcongr
  have e4 := abs_add_three (a * (1 - u - v)) (b * u) (c * v)
  have e5 : M * (|1 - u - v| + |u| + |v|) ≤ M * 2 := by gcongr; linarith
  nlinarith

/-- The arithmetic of `hit_distance`. -/
theorem distance_real {M S L t τ q : ℝ} (hM : 0 < M) (hs0 : 0 < S) (hs1 : S ≤ 114 / 1000) (hunit : 9 / 10 ≤ L ∧ L ≤ 11 / 10) (hdist : t ^ 2 * L ≤ 27 * M ^ 2)
    (ht' : |τ - t| ≤ (M + |t|) * S) (h1 : 1 ≤ 24 * (2 ^ 40 * S)) (hq : ∀ T : ℝ, |τ| ≤ T → |q - τ ^ 2 * L| ≤ 60 * (2 * M + T) ^ 2 / 2 ^ 53) :
    |q - t ^ 2 * L| ≤ 120 * M ^ 2 * S := by
  have ht2 : t ^ 2 ≤ 30 * M ^ 2 := by nlinarith [sq_nonneg t, hunit.1]
  have htM : |t| ≤ 55 / 10 * M := by
    rw [← Real.sqrt_sq_eq_abs]
    apply Real.sqrt_le_iff.mpr
    exact ⟨by positivity, by nlinarith [sq_nonneg M]⟩
  have hterr : |τ - t| ≤ 65 / 10 * M * S := by
    refine le_trans ht' ?_
    exact mul_le_mul_of_nonneg_right (by linarith) hs0.le
  have ht'M : |τ| ≤ 63 / 10 * M := by
    have h1 : |τ| ≤ |τ - t| + |t| := by
      have := abs_add_le (τ - t) t
      rwa [sub_add_cancel] at this
    have h2 : 65 / 10 * M * S ≤ 65 / 10 * M * (114 / 1000) := by gcongr
    nlinarith
  have e1 := hq _ ht'M
  have e2 : |τ ^ 2 * L - t ^ 2 * L| ≤ 85 * M ^ 2 * S := by
    have : τ ^ 2 * L - t ^ 2 * L = (τ - t) * (τ + t) * L := by ring
    rw [this, abs_mul, abs_mul]
    have hL0 : |L| ≤ 11 / 10 := by rw [abs_of_nonneg (by linarith [hunit.1])]; exact hunit.2
    have hsum : |τ + t| ≤ 118 / 10 * M := by
      have := abs_add_le τ t
      linarith
    calc |τ - t| * |τ + t| * |L| ≤ (65 / 10 * M * S) * (118 / 10 * M) * (11 / 10) := by gcongr
      _ ≤ 85 * M ^ 2 * S := by
        have : 0 ≤ M ^ 2 * S := by positivity
        nlinarith
  have e3 : 60 * (2 * M + 63 / 10 * M) ^ 2 / 2 ^ 53 ≤ 24 * M ^ 2 * S := by
    have h2 : M ^ 2 * 1 ≤ M ^ 2 * (24 * (2 ^ 40 * S)) := by gcongr
    have h3 : 60 * (2 * M + 63 / 10 * M) ^ 2 / 2 ^ 53 ≤ M ^ 2 / 2 ^ 40 := by
      have : 0 ≤ M ^ 2 := by positivity
      have e : 60 * (2 * M + 63 / 10 * M) ^ 2 = (41334 / 10) * M ^ 2 := by ring
      rw [e]
      norm_num
      linarith
    refine le_trans h3 ?_
    rw [div_le_iff₀ (by norm_num)]
    linarith
  have := abs_sub_le q (τ ^ 2 * L) (t ^ 2 * L)
  have hMS : 0 ≤ M ^ 2 * S := by positivity
  linarith

/-- The squared distance computed for a hit, against the true one. -/
theorem hit_distance (ray : Ray3 F64) (tri : Tri F64) (M : ℝ) (hM : 0 < M) (hM' : M ≤ 1000) (ho : ray.reals.origin.Within M) (hd : ray.reals.direction.Within 1)
    (hta : tri.reals.a.Within M) (htb : tri.reals.b.Within M) (htc : tri.reals.c.Within M) (hunit : 9 / 10 ≤ ray.reals.direction.lengthSq ∧ ray.reals.direction.lengthSq ≤ 11 / 10)
    (hdet : 8 / 10 ^ 6 ≤ |tripleProduct ray.reals tri.reals|) (t u v : ℝ) (hmeet : Meets ray.reals tri.reals t u v) (t' : F64)
    (ht' : |(t'.val : ℝ) - t| ≤ (M + |t|) * shake M (tripleProduct ray.reals tri.reals))
    (hu : -(1 / 2 ^ 52) - shake M (tripleProduct ray.reals tri.reals) ≤ u) (hv : -(1 / 2 ^ 52) - shake M (tripleProduct ray.reals tri.reals) ≤ v)
    (huv : u + v ≤ 1 + 1 / 2 ^ 51 + 2 * shake M (tripleProduct ray.reals tri.reals)) :
    |((distSq64 (project64 ray t') ray.origin).val : ℝ) - t ^ 2 * ray.reals.direction.lengthSq| ≤ 120 * M ^ 2 * shake M (tripleProduct ray.reals tri.reals) ∧
    t ^ 2 * ray.reals.direction.lengthSq ≤ 27 * M ^ 2 := by
  set a := tripleProduct ray.reals tri.reals with ha
  obtain ⟨hs0, hs1⟩ := shake_small hM hM' hdet
  have haM : |a| ≤ 24 * M ^ 2 := by
    obtain ⟨n1, -, -, -⟩ := test_errors ray tri M ho hd hta htb htc
    rw [det_eq] at n1
    exact n1.1
  set S := shake M a with hS
  set L := ray.reals.direction.lengthSq with hL
  obtain ⟨mx, my, mz⟩ := Meets.iff.mp hmeet
  have hu' : -(1151 / 10000) ≤ u := by norm_num at hu ⊢; linarith
  have hv' : -(1151 / 10000) ≤ v := by norm_num at hv ⊢; linarith
  have huv' : u + v ≤ 1 + 23 / 100 := by norm_num at huv ⊢; linarith
  have bx := coordinate_bound hM hta.1 htb.1 htc.1 hu' hv' huv'
  have by' := coordinate_bound hM hta.2.1 htb.2.1 htc.2.1 hu' hv' huv'
  have bz := coordinate_bound hM hta.2.2 htb.2.2 htc.2.2 hu' hv' huv'
  rw [← mx] at bx
  rw [← my] at by'
  rw [← mz] at bz
  have sq3 : ∀ o d : ℝ, |o| ≤ M → |o + d * t| ≤ 2 * M → (d * t) ^ 2 ≤ 9 * M ^ 2 := by
    intro o d h1 h2
    rw [abs_le] at h1 h2
    nlinarith
  have qx := sq3 _ _ ho.1 bx
  have qy := sq3 _ _ ho.2.1 by'
  have qz := sq3 _ _ ho.2.2 bz
  have hdist : t ^ 2 * L ≤ 27 * M ^ 2 := by
    have : t ^ 2 * L = (ray.reals.direction.x * t) ^ 2 + (ray.reals.direction.y * t) ^ 2 + (ray.reals.direction.z * t) ^ 2 := by
      rw [hL]; simp only [Vec3.lengthSq, Vec3.dot]; ring
    rw [this]; linarith
  refine ⟨?_, hdist⟩
  have h1 : 1 ≤ 24 * (2 ^ 40 * S) := by
    rw [hS]; unfold shake
    have ha0 : 0 < |a| := lt_of_lt_of_le (by norm_num) hdet
    have : 24 * (2 ^ 40 * (M ^ 2 / (2 ^ 40 * |a|))) = 24 * M ^ 2 / |a| := by field_simp
    rw [this, le_div_iff₀ ha0]
    linarith
  exact distance_real hM hs0 hs1 hunit hdist ht' h1 (fun T hT => distSq64_error ray t' M T ho hd hT)

/-! ## Boxes -/

theorem F64.reals_le {x y : F64} (h : x ≤ y) : (x.val : ℝ) ≤ (y.val : ℝ) := by
  have h' : x.val ≤ y.val := h
  exact_mod_cast h'

theorem F64.reals_lt {x y : F64} : x < y ↔ (x.val : ℝ) < (y.val : ℝ) := by
  show x.val < y.val ↔ _
  exact_mod_cast Iff.rfl

theorem BBox.Contains.reals {b : BBox F64} {p : Vec3 F64} (h : b.Contains p) : b.reals.Contains p.reals :=
  ⟨⟨F64.reals_le h.1.1, F64.reals_le h.1.2⟩, ⟨F64.reals_le h.2.1.1, F64.reals_le h.2.1.2⟩, F64.reals_le h.2.2.1, F64.reals_le h.2.2.2⟩

/-- The ray goes through the closed triangle, exactly. -/
def GoesThrough (ray : Ray3 F64) (tri : Tri F64) : Prop := ∃ t u v : ℝ, 0 ≤ t ∧ Meets ray.reals tri.reals t u v ∧ 0 ≤ u ∧ 0 ≤ v ∧ u + v ≤ 1

theorem boxHit64_of_through (env : BvhEnv F64) (hB : env.BoxTestConservative64) (ray : Ray3 F64) (tri : Tri F64) (h : GoesThrough ray tri) (b : BBox F64)
    (hb : (worldBounds tri).Sub b) : env.boxHit b ray = true := by
  obtain ⟨t, u, v, ht, hm, hu, hv, huv⟩ := h
  refine hB b ray t ht ?_
  have hm' : ray.reals.origin + ray.reals.direction.scale t = tri.reals.a.scale (1 - u - v) + tri.reals.b.scale u + tri.reals.c.scale v := hm
  rw [hm']
  exact BBox.contains_convex (hb.contains (worldBounds_a tri)).reals (hb.contains (worldBounds_b tri)).reals (hb.contains (worldBounds_c tri)).reals hu hv huv

/-! ## The theorems -/

section
attribute [local irreducible] distSq64 project64 F64.lit baricentric64 floatMax64

/-- **C132, building.** In double precision, as in exact arithmetic (C04, C05), building never panics and never loops, whatever the triangles, and permutes the rows. -/
theorem C132_build_succeeds {F B N : Type} (env : BvhEnv F64) (hE : env.Lawful64) (tris : List (Tri F64)) (front : List F) (back : List B) (normals : List N)
    (hf : front.length = tris.length) (hb : back.length = tris.length) (hn : normals.length = tris.length) :
    ∃ bvh tris' front' back' normals', bvhNew64 env tris front back normals = .ok (bvh, tris', front', back', normals') ∧
      (rows tris' front' back' normals').Perm (rows tris front back normals) ∧
      tris'.length = tris.length ∧ front'.length = tris.length ∧ back'.length = tris.length ∧ normals'.length = tris.length := by
  obtain ⟨bvh, t, f, b, n, e, h1, h2, h3, h4, h5, -⟩ := bvhNew64_spec env hE tris front back normals hf hb hn
  exact ⟨bvh, t, f, b, n, e, h5, h1, h2, h3, h4⟩

/-- What a build guarantees. -/
theorem built64 {F B N : Type} {env : BvhEnv F64} (hE : env.Lawful64) {tris tris' : List (Tri F64)} {front front' : List F} {back back' : List B} {normals normals' : List N} {bvh : Bvh F64}
    (hf : front.length = tris.length) (hb : back.length = tris.length) (hn : normals.length = tris.length)
    (hbuilt : bvhNew64 env tris front back normals = .ok (bvh, tris', front', back', normals')) (hfit : FitsAccelerator64 tris) :
    AccelFor bvh tris' ∧ tris'.Perm tris ∧ tris'.length < 2 ^ 30 := by
  obtain ⟨bvh1, t, f, b, n, e, h1, h2, h3, h4, h5, h6⟩ := bvhNew64_spec env hE tris front back normals hf hb hn
  rw [e] at hbuilt
  simp only [Res.ok.injEq, Prod.mk.injEq] at hbuilt
  obtain ⟨rfl, rfl, rfl, rfl, rfl⟩ := hbuilt
  refine ⟨h6 hfit, ?_, by rw [h1]; exact hfit.1⟩
  have := h5.map Prod.fst
  unfold rows at this
  rwa [List.map_fst_zip (by simp; omega), List.map_fst_zip (by simp; omega)] at this

/-- **C132, exhaustive.** `cast_ray` on the tree answers, to the last bit, what testing every triangle in double precision would: it reports a triangle whose own test reports that very point, and
no triangle that the (exact) ray goes through is reported by its own test at a smaller computed distance. -/
theorem C132_as_testing_every_triangle {F B N : Type} (env : BvhEnv F64) (hE : env.Lawful64) (hB : env.BoxTestConservative64) (tris tris' : List (Tri F64)) (front front' : List F) (back back' : List B)
    (normals normals' : List N) (bvh : Bvh F64) (hf : front.length = tris.length) (hb : back.length = tris.length) (hn : normals.length = tris.length)
    (hbuilt : bvhNew64 env tris front back normals = .ok (bvh, tris', front', back', normals')) (hfit : FitsAccelerator64 tris) (ray : Ray3 F64) (scratch : List Nat) :
    ∃ r, bvhIntersect64 env bvh.nodes tris' ray scratch = .ok r ∧
      (∀ i info, r = some (i, info) → ∃ tri ∈ tris, tris'[i]? = some tri ∧ baricentric64 ray tri = some (info.t, info.u, info.v) ∧ info.p = project64 ray info.t ∧
        F64.lit (1 / 10 ^ 7) < distSq64 info.p ray.origin ∧
        ∀ tri' ∈ tris, GoesThrough ray tri' → ∀ t u v, baricentric64 ray tri' = some (t, u, v) → F64.lit (1 / 10 ^ 7) < distSq64 (project64 ray t) ray.origin →
          distSq64 info.p ray.origin ≤ distSq64 (project64 ray t) ray.origin) ∧
      (r = none → ∀ tri ∈ tris, GoesThrough ray tri → ∀ t u v, baricentric64 ray tri = some (t, u, v) →
        ¬ (F64.lit (1 / 10 ^ 7) < distSq64 (project64 ray t) ray.origin ∧ distSq64 (project64 ray t) ray.origin < floatMax64)) := by
  obtain ⟨hA, hp, hlen⟩ := built64 hE hf hb hn hbuilt hfit
  obtain ⟨r, e, h1, h2⟩ := intersect_spec64 env bvh tris' hA hlen ray scratch (GoesThrough ray) (boxHit64_of_through env hB ray)
  have hmap : ∀ tri t u v, baricentric64 ray tri = some (t, u, v) → triangleIntersect64 tri ray = some ⟨project64 ray t, u, v, t⟩ := by
    intro tri t u v h
    unfold triangleIntersect64
    rw [h]; rfl
  refine ⟨r, e, ?_, ?_⟩
  · intro i info hr
    obtain ⟨tri, g1, g2, g3, g4⟩ := h1 i info hr
    have hinfo : baricentric64 ray tri = some (info.t, info.u, info.v) ∧ info.p = project64 ray info.t := by
      unfold triangleIntersect64 at g2
      cases hbc : baricentric64 ray tri with
      | none => rw [hbc] at g2; cases g2
      | some x =>
        obtain ⟨t, u, v⟩ := x
        rw [hbc] at g2
        have := Option.some.inj g2
        rw [← this]
        exact ⟨rfl, rfl⟩
    refine ⟨tri, hp.mem_iff.1 (List.mem_of_getElem? g1), g1, hinfo.1, hinfo.2, g3.1, ?_⟩
    intro tri' ht' hg t u v hbc hd
    exact g4 tri' (hp.mem_iff.2 ht') hg _ (hmap tri' t u v hbc) hd
  · intro hr tri ht hg t u v hbc
    exact h2 hr tri (hp.mem_iff.2 ht) hg _ (hmap tri t u v hbc)

/-- How far rounding can move a squared distance, for a hit of this triangle in a scene of size `M`. -/
noncomputable def blur (M : ℝ) (ray : Ray3 F64) (tri : Tri F64) : ℝ := 120 * M ^ 2 * shake M (tripleProduct ray.reals tri.reals)

/-- The exact ray goes through the triangle at parameter `t`, clear of its edges by a margin, not parallel to it and not at its origin. -/
def GoesWellThrough (M : ℝ) (ray : Ray3 F64) (tri : Tri F64) (t : ℝ) : Prop :=
  ∃ u v : ℝ, Meets ray.reals tri.reals t u v ∧ 2 / 10 ^ 5 ≤ |tripleProduct ray.reals tri.reals| ∧
    shake M (tripleProduct ray.reals tri.reals) ≤ u ∧ shake M (tripleProduct ray.reals tri.reals) ≤ v ∧ u + v ≤ 1 - 2 * shake M (tripleProduct ray.reals tri.reals) ∧
    1 / 10 ^ 5 * (1 + 1 / 10 ^ 9) + (M + t) * shake M (tripleProduct ray.reals tri.reals) < t

/-- The exact ray's line meets the plane of the triangle at parameter `t`, inside it up to a margin. -/
def NearlyMeets (M : ℝ) (ray : Ray3 F64) (tri : Tri F64) (t : ℝ) : Prop :=
  ∃ u v : ℝ, Meets ray.reals tri.reals t u v ∧ 8 / 10 ^ 6 ≤ |tripleProduct ray.reals tri.reals| ∧
    -(1 / 2 ^ 52) - shake M (tripleProduct ray.reals tri.reals) ≤ u ∧ -(1 / 2 ^ 52) - shake M (tripleProduct ray.reals tri.reals) ≤ v ∧
    u + v ≤ 1 + 1 / 2 ^ 51 + 2 * shake M (tripleProduct ray.reals tri.reals)

/-- The squared distance from the origin of the ray to its point at parameter `t`, exactly. -/
noncomputable def squareAt (ray : Ray3 F64) (t : ℝ) : ℝ := distSq (ray.reals.origin + ray.reals.direction.scale t) ray.reals.origin

theorem squareAt_eq (ray : Ray3 F64) (t : ℝ) : squareAt ray t = t ^ 2 * ray.reals.direction.lengthSq := by
  simp only [squareAt, distSq, Vec3.lengthSq, Vec3.dot, Vec3.add_x, Vec3.add_y, Vec3.add_z, Vec3.scale_x, Vec3.scale_y, Vec3.scale_z]
  ring

/-- The ray and the triangles of a scene of at most `M`, up to a kilometre; the direction is a unit vector up to a few percent. -/
structure Sized (M : ℝ) (ray : Ray3 F64) (tris : List (Tri F64)) : Prop where
  pos : 0 < M
  km : M ≤ 1000
  origin : ray.reals.origin.Within M
  direction : ray.reals.direction.Within 1
  unit : 9 / 10 ≤ ray.reals.direction.lengthSq ∧ ray.reals.direction.lengthSq ≤ 11 / 10
  tris : ∀ tri ∈ tris, tri.reals.a.Within M ∧ tri.reals.b.Within M ∧ tri.reals.c.Within M

theorem GoesWellThrough.through {M : ℝ} {ray : Ray3 F64} {tri : Tri F64} {t : ℝ} (hM : 0 < M) (hM' : M ≤ 1000) (h : GoesWellThrough M ray tri t) : GoesThrough ray tri ∧ 0 < t := by
  obtain ⟨u, v, hm, hd, hu, hv, huv, ht⟩ := h
  obtain ⟨hs0, hs1⟩ := shake_small hM hM' (le_trans (by norm_num) hd)
  set S := shake M (tripleProduct ray.reals tri.reals)
  have ht0 : 0 < t := by
    by_contra hn
    push Not at hn
    have : t * 1 ≤ t * S := by nlinarith
    have : 0 < M * S := by positivity
    norm_num at ht
    nlinarith
  exact ⟨⟨t, u, v, ht0.le, hm, by linarith, by linarith, by linarith⟩, ht0⟩

/-- A triangle that the ray goes well through is reported by its own test, at the true squared distance up to `blur`. -/
theorem GoesWellThrough.reported {M : ℝ} {ray : Ray3 F64} {tris : List (Tri F64)} (hS : Sized M ray tris) {tri : Tri F64} (hmem : tri ∈ tris) {t : ℝ} (h : GoesWellThrough M ray tri t) :
    ∃ t' u' v', baricentric64 ray tri = some (t', u', v') ∧ |((distSq64 (project64 ray t') ray.origin).val : ℝ) - squareAt ray t| ≤ blur M ray tri ∧ squareAt ray t ≤ 27 * M ^ 2 := by
  obtain ⟨ha, hb, hc⟩ := hS.tris tri hmem
  obtain ⟨-, ht0⟩ := h.through hS.pos hS.km
  obtain ⟨u, v, hm, hd, hu, hv, huv, ht⟩ := h
  obtain ⟨hs0, -⟩ := shake_small hS.pos hS.km (le_trans (by norm_num) hd)
  obtain ⟨t', u', v', e, -, -, et⟩ := C111_hits_are_found ray tri M hS.pos (le_trans hS.km (by norm_num)) hS.origin hS.direction ha hb hc t u v hm hd hu hv huv ht
  refine ⟨t', u', v', e, ?_⟩
  rw [squareAt_eq]
  refine hit_distance ray tri M hS.pos hS.km hS.origin hS.direction ha hb hc hS.unit (le_trans (by norm_num) hd) t u v hm t' ?_ ?_ ?_ ?_
  · rwa [abs_of_pos ht0]
  · have : (0 : ℝ) ≤ 1 / 2 ^ 52 := by positivity
    linarith
  · have : (0 : ℝ) ≤ 1 / 2 ^ 52 := by positivity
    linarith
  · have : (0 : ℝ) ≤ 1 / 2 ^ 51 := by positivity
    linarith

/-- What a triangle's own test reports is nearly true. -/
theorem reported_nearly {M : ℝ} {ray : Ray3 F64} {tris : List (Tri F64)} (hS : Sized M ray tris) {tri : Tri F64} (hmem : tri ∈ tris) {t' u' v' : F64} (h : baricentric64 ray tri = some (t', u', v')) :
    ∃ t, NearlyMeets M ray tri t ∧ |((distSq64 (project64 ray t') ray.origin).val : ℝ) - squareAt ray t| ≤ blur M ray tri ∧ squareAt ray t ≤ 27 * M ^ 2 := by
  obtain ⟨ha, hb, hc⟩ := hS.tris tri hmem
  obtain ⟨hd, t, u, v, hm, -, -, et, hu, hv, huv, -⟩ := C111_hits_are_near ray tri M hS.pos (le_trans hS.km (by norm_num)) hS.origin hS.direction ha hb hc t' u' v' h
  refine ⟨t, ⟨u, v, hm, hd, hu, hv, huv⟩, ?_⟩
  rw [squareAt_eq]
  exact (hit_distance ray tri M hS.pos hS.km hS.origin hS.direction ha hb hc hS.unit hd t u v hm t' et hu hv huv)

theorem lit7 : ((F64.lit (1 / 10 ^ 7)).val : ℝ) < 2 / 10 ^ 7 := by
  have : (F64.lit (1 / 10 ^ 7)).val < 2 / 10 ^ 7 := by decide +kernel
  have h : ((F64.lit (1 / 10 ^ 7)).val : ℝ) < ((2 / 10 ^ 7 : ℚ) : ℝ) := by exact_mod_cast this
  refine lt_of_lt_of_eq h ?_
  push_cast; rfl

theorem floatMax64_big : (10 ^ 10 : ℝ) < (floatMax64.val : ℝ) := by
  have : (10 ^ 10 : ℚ) < floatMax64.val := by decide +kernel
  exact_mod_cast this

theorem blur_le {M : ℝ} {ray : Ray3 F64} {tri : Tri F64} (hM : 0 < M) (hM' : M ≤ 1000) (hd : 8 / 10 ^ 6 ≤ |tripleProduct ray.reals tri.reals|) : blur M ray tri ≤ 14 * M ^ 2 := by
  obtain ⟨hs0, hs1⟩ := shake_small hM hM' hd
  unfold blur
  nlinarith [sq_nonneg M]

/-- **C132, nearest.** In double precision, in a scene of up to a kilometre: `cast_ray` never panics; what it reports is a triangle whose plane the ray does meet, inside the triangle up to the rounding margin;
no triangle that the ray goes well through is nearer by more than the blur of rounding; and it reports nothing only if the ray goes well through no triangle. -/
theorem C132_nearest_up_to_rounding {F B N : Type} (env : BvhEnv F64) (hE : env.Lawful64) (hB : env.BoxTestConservative64) (tris tris' : List (Tri F64)) (front front' : List F) (back back' : List B)
    (normals normals' : List N) (bvh : Bvh F64) (hf : front.length = tris.length) (hb : back.length = tris.length) (hn : normals.length = tris.length)
    (hbuilt : bvhNew64 env tris front back normals = .ok (bvh, tris', front', back', normals')) (hfit : FitsAccelerator64 tris) (ray : Ray3 F64) (scratch : List Nat)
    (M : ℝ) (hS : Sized M ray tris) :
    ∃ r, bvhIntersect64 env bvh.nodes tris' ray scratch = .ok r ∧
      (∀ i info, r = some (i, info) → ∃ tri ∈ tris, tris'[i]? = some tri ∧ ∃ t, NearlyMeets M ray tri t ∧
        |((distSq64 info.p ray.origin).val : ℝ) - squareAt ray t| ≤ blur M ray tri ∧
        ∀ tri' ∈ tris, ∀ s, GoesWellThrough M ray tri' s → 2 / 10 ^ 7 + blur M ray tri' < squareAt ray s →
          squareAt ray t ≤ squareAt ray s + blur M ray tri + blur M ray tri') ∧
      (r = none → ∀ tri ∈ tris, ∀ s, GoesWellThrough M ray tri s → squareAt ray s ≤ 2 / 10 ^ 7 + blur M ray tri) := by
  obtain ⟨r, e, h1, h2⟩ := C132_as_testing_every_triangle env hE hB tris tris' front front' back back' normals normals' bvh hf hb hn hbuilt hfit ray scratch
  refine ⟨r, e, ?_, ?_⟩
  · intro i info hr
    obtain ⟨tri, hm, g1, g2, g3, g4, g5⟩ := h1 i info hr
    obtain ⟨t, k1, k2, -⟩ := reported_nearly hS hm g2
    rw [← g3] at k2
    refine ⟨tri, hm, g1, t, k1, k2, ?_⟩
    intro tri' hm' s hw hfar
    obtain ⟨t', u', v', q1, q2, -⟩ := hw.reported hS hm'
    have hlt : F64.lit (1 / 10 ^ 7) < distSq64 (project64 ray t') ray.origin := by
      rw [F64.reals_lt]
      have := lit7
      have := (abs_le.mp q2).1
      linarith
    have hle := F64.reals_le (g5 tri' hm' (hw.through hS.pos hS.km).1 t' u' v' q1 hlt)
    have a1 := (abs_le.mp q2).2
    have a2 := (abs_le.mp k2).1
    linarith
  · intro hr tri hm s hw
    obtain ⟨t', u', v', q1, q2, q3⟩ := hw.reported hS hm
    have hno := h2 hr tri hm (hw.through hS.pos hS.km).1 t' u' v' q1
    by_contra hfar
    push Not at hfar
    apply hno
    rw [F64.reals_lt, F64.reals_lt]
    have h7 := lit7
    have hmax := floatMax64_big
    have a1 := abs_le.mp q2
    obtain ⟨u, v, -, hd, -⟩ := hw
    have hbl := blur_le (ray := ray) (tri := tri) hS.pos hS.km (le_trans (by norm_num) hd)
    have hM2 : M ^ 2 ≤ 1000 ^ 2 := by have := hS.pos; have := hS.km; gcongr
    constructor
    · linarith
    · norm_num at hmax hM2
      linarith [a1.2]

/-! ### Obstacles -/

theorem lit6 : (9 / 10 ^ 7 : ℚ) < (F64.lit (1 / 10 ^ 6)).val ∧ (F64.lit (1 / 10 ^ 6)).val < 2 / 10 ^ 6 := by decide +kernel
theorem lit4 : (99 / 10 ^ 6 : ℚ) < (F64.lit (1 / 10 ^ 4)).val ∧ (F64.lit (1 / 10 ^ 4)).val < 11 / 10 ^ 5 := by decide +kernel

theorem blocks64_of {t2 D : F64} (h1 : 2 / 10 ^ 6 < t2.val) (h2 : t2.val + 2 / 10 ^ 4 < D.val) (h3 : t2.val ≤ 10 ^ 8) : blocks64 t2 D = true := by
  unfold blocks64
  refine decide_eq_true ⟨?_, ?_, ?_⟩
  · exact lt_trans lit6.2 h1
  · show round64 (t2.val + (F64.lit (1 / 10 ^ 6)).val) < D.val
    have h6 := lit6
    have e := (abs_le.mp (round64_error (t2.val + (F64.lit (1 / 10 ^ 6)).val))).2
    have hp : 0 ≤ t2.val + (F64.lit (1 / 10 ^ 6)).val := by norm_num at h1 h6; linarith [h6.1]
    rw [abs_of_nonneg hp] at e
    have hb : (t2.val + (F64.lit (1 / 10 ^ 6)).val) / 2 ^ 53 ≤ (10 ^ 8 + 1) / 2 ^ 53 := by
      gcongr
      norm_num at h6; linarith [h6.2]
    norm_num at hb h2 h6
    linarith [h6.2]
  · show (F64.lit (1 / 10 ^ 4)).val < |round64 (D.val - t2.val)|
    have h4 := lit4.2
    have e := round64_rel (D.val - t2.val) (by norm_num at h2; linarith)
    refine lt_of_lt_of_le h4 (le_trans ?_ (le_abs_self _))
    refine le_trans ?_ e
    norm_num at h2 ⊢
    linarith

theorem of_blocks64 {t2 D : F64} (h : blocks64 t2 D = true) (h3 : t2.val ≤ 10 ^ 8) : 9 / 10 ^ 7 < t2.val ∧ t2.val + 9 / 10 ^ 5 < D.val := by
  unfold blocks64 at h
  obtain ⟨h1, h2, h4⟩ := of_decide_eq_true h
  have h1' : (F64.lit (1 / 10 ^ 6)).val < t2.val := h1
  have h2' : round64 (t2.val + (F64.lit (1 / 10 ^ 6)).val) < D.val := h2
  have h4' : (F64.lit (1 / 10 ^ 4)).val < |round64 (D.val - t2.val)| := h4
  have h6 := lit6
  have hl4 := lit4.1
  refine ⟨lt_trans h6.1 h1', ?_⟩
  have e2 := round64_rel (t2.val + (F64.lit (1 / 10 ^ 6)).val) (by norm_num at h6; linarith [h6.1])
  have e4 := round64_error (D.val - t2.val)
  have e5 : |round64 (D.val - t2.val)| ≤ |D.val - t2.val| * (1 + 1 / 2 ^ 53) := by
    have := abs_add_le (round64 (D.val - t2.val) - (D.val - t2.val)) (D.val - t2.val)
    rw [sub_add_cancel] at this
    linarith
  by_contra hn
  push Not at hn
  have hlow : t2.val - 1 / 10 ^ 6 < D.val := by
    norm_num at e2 h3 h6 ⊢
    linarith [h6.1]
  have habs : |D.val - t2.val| ≤ 9 / 10 ^ 5 := by
    rw [abs_le]
    norm_num at hlow hn ⊢
    constructor <;> linarith
  norm_num at e5 hl4 habs
  linarith

/-- **C132, obstacles.** In double precision, in a scene of up to a kilometre: `unobstructed_distance` never panics; a triangle that the ray goes well through, between its origin and the target by more than the blur of rounding,
makes it answer "obstructed"; and when it answers so, the ray's line does meet some triangle, up to the rounding margin, before the target. -/
theorem C132_obstacles_up_to_rounding {F B N : Type} (env : BvhEnv F64) (hE : env.Lawful64) (hB : env.BoxTestConservative64) (tris tris' : List (Tri F64)) (front front' : List F) (back back' : List B)
    (normals normals' : List N) (bvh : Bvh F64) (hf : front.length = tris.length) (hb : back.length = tris.length) (hn : normals.length = tris.length)
    (hbuilt : bvhNew64 env tris front back normals = .ok (bvh, tris', front', back', normals')) (hfit : FitsAccelerator64 tris) (ray : Ray3 F64) (D : F64) (scratch : List Nat)
    (M : ℝ) (hS : Sized M ray tris) :
    ∃ r, bvhUnobstructed64 env bvh.nodes tris' ray D scratch = .ok r ∧
      (∀ tri ∈ tris, ∀ s, GoesWellThrough M ray tri s → 2 / 10 ^ 6 + blur M ray tri < squareAt ray s → squareAt ray s + 2 / 10 ^ 4 + blur M ray tri < D.val → r = false) ∧
      (r = false → ∃ tri ∈ tris, ∃ t, NearlyMeets M ray tri t ∧ 9 / 10 ^ 7 < squareAt ray t + blur M ray tri ∧ squareAt ray t + 9 / 10 ^ 5 < D.val + blur M ray tri) := by
  obtain ⟨hA, hp, hlen⟩ := built64 hE hf hb hn hbuilt hfit
  obtain ⟨r, e, h1, h2⟩ := unobstructed_spec64 env bvh tris' hA hlen ray D scratch (GoesThrough ray) (boxHit64_of_through env hB ray)
  have hM2 : M ^ 2 ≤ 1000 ^ 2 := by have := hS.pos; have := hS.km; gcongr
  refine ⟨r, e, ?_, ?_⟩
  · intro tri hm s hw hnear hfar
    by_contra hr
    have hrt : r = true := by simpa using hr
    have hno := h2 hrt tri (hp.mem_iff.2 hm) (hw.through hS.pos hS.km).1
    obtain ⟨t', u', v', q1, q2, q3⟩ := hw.reported hS hm
    obtain ⟨u, v, -, hd, -⟩ := hw
    have hbl := blur_le (ray := ray) (tri := tri) hS.pos hS.km (le_trans (by norm_num) hd)
    have a := abs_le.mp q2
    have hyes : obstructs64 ray D tri = true := by
      rw [obstructs64_iff]
      refine ⟨⟨project64 ray t', u', v', t'⟩, by unfold triangleIntersect64; rw [q1]; rfl, ?_⟩
      apply blocks64_of
      · have : (2 / 10 ^ 6 : ℝ) < ((distSq64 (project64 ray t') ray.origin).val : ℝ) := by linarith [a.1]
        have h' : (((2 / 10 ^ 6 : ℚ)) : ℝ) < ((distSq64 (project64 ray t') ray.origin).val : ℝ) := by push_cast; exact this
        exact_mod_cast h'
      · have : ((distSq64 (project64 ray t') ray.origin).val : ℝ) + 2 / 10 ^ 4 < (D.val : ℝ) := by linarith [a.2]
        have h' : (((distSq64 (project64 ray t') ray.origin).val + 2 / 10 ^ 4 : ℚ) : ℝ) < (D.val : ℝ) := by push_cast; exact this
        exact_mod_cast h'
      · have : ((distSq64 (project64 ray t') ray.origin).val : ℝ) ≤ 10 ^ 8 := by norm_num at hM2 ⊢; linarith [a.2]
        exact_mod_cast this
    rw [hno] at hyes
    cases hyes
  · intro hr
    obtain ⟨tri, hm, hob⟩ := h1 hr
    have hm' := hp.mem_iff.1 hm
    obtain ⟨info, g1, g2⟩ := (obstructs64_iff ray D tri).mp hob
    have hbc : ∃ t u v, baricentric64 ray tri = some (t, u, v) ∧ info.p = project64 ray t := by
      unfold triangleIntersect64 at g1
      cases hbc : baricentric64 ray tri with
      | none => rw [hbc] at g1; cases g1
      | some x =>
        obtain ⟨t, u, v⟩ := x
        rw [hbc] at g1
        have := Option.some.inj g1
        rw [← this]
        exact ⟨t, u, v, rfl, rfl⟩
    obtain ⟨t', u', v', q1, q2⟩ := hbc
    obtain ⟨t, k1, k2, k3⟩ := reported_nearly hS hm' q1
    rw [q2] at g2
    have hd := k1
    obtain ⟨u, v, -, hd, -⟩ := hd
    have hbl := blur_le (ray := ray) (tri := tri) hS.pos hS.km hd
    have a := abs_le.mp k2
    obtain ⟨b1, b2⟩ := of_blocks64 g2 (by
      have : ((distSq64 (project64 ray t') ray.origin).val : ℝ) ≤ 10 ^ 8 := by norm_num at hM2 ⊢; linarith [a.2]
      exact_mod_cast this)
    have b1' : ((9 / 10 ^ 7 : ℚ) : ℝ) < ((distSq64 (project64 ray t') ray.origin).val : ℝ) := by exact_mod_cast b1
    have b2' : (((distSq64 (project64 ray t') ray.origin).val + 9 / 10 ^ 5 : ℚ) : ℝ) < (D.val : ℝ) := by exact_mod_cast b2
    push_cast at b1' b2'
    exact ⟨tri, hm', t, k1, by linarith [a.2], by linarith [a.1]⟩

end

/-! ## A stack of floors in double precision -/

/-- Longest axis, in double precision. -/
def longestAxis64 (b : BBox F64) : Axis :=
  let x := b.max.x - b.min.x
  let y := b.max.y - b.min.y
  let z := b.max.z - b.min.z
  if y ≤ x ∧ z ≤ x then .X else if z ≤ y then .Y else .Z

/-- External functions that meet their contracts; the box test is the coarsest there is. -/
def coarseEnv64 : BvhEnv F64 where
  boxHit _ _ := true
  maxExtent := longestAxis64
  surfaceArea b :=
    let x := b.max.x - b.min.x
    let y := b.max.y - b.min.y
    let z := b.max.z - b.min.z
    F64.lit 2 * (x * y + x * z + y * z)
  sort a l := l.insertionSort (fun i j => i.centroid.get a ≤ j.centroid.get a)
  select _ a l := l.insertionSort (fun i j => i.centroid.get a ≤ j.centroid.get a)

theorem coarseEnv64_lawful : coarseEnv64.Lawful64 where
  sort_perm a l := List.perm_insertionSort _ l
  sort_sorted a l := by
    have : Std.Total (fun i j : ObjInfo F64 => i.centroid.get a ≤ j.centroid.get a) := ⟨fun i j => le_total _ _⟩
    have : IsTrans (ObjInfo F64) (fun i j : ObjInfo F64 => i.centroid.get a ≤ j.centroid.get a) := ⟨fun i j k h h' => le_trans h h'⟩
    exact List.pairwise_insertionSort _ l
  select_perm m a l := List.perm_insertionSort _ l
  maxExtent_max b a := by
    change _ ≤ b.max.get (longestAxis64 b) - b.min.get (longestAxis64 b)
    unfold longestAxis64
    simp only
    split_ifs with h1 h2
    · cases a
      · exact le_refl _
      · exact h1.1
      · exact h1.2
    · rw [not_and_or, not_le, not_le] at h1
      cases a
      · rcases h1 with h | h
        · exact h.le
        · exact (lt_of_lt_of_le h h2).le
      · exact le_refl _
      · exact h2
    · rw [not_le] at h2
      rw [not_and_or, not_le, not_le] at h1
      cases a
      · rcases h1 with h | h
        · exact (lt_trans h h2).le
        · exact h.le
      · exact h2.le
      · exact le_refl _

theorem coarseEnv64_conservative : coarseEnv64.BoxTestConservative64 := fun _ _ _ _ _ => rfl

/-- A triangular floor at height `z`. -/
def floorAt (z : ℚ) : Tri F64 := ⟨⟨⟨0⟩, ⟨0⟩, ⟨z⟩⟩, ⟨⟨1⟩, ⟨0⟩, ⟨z⟩⟩, ⟨⟨0⟩, ⟨1⟩, ⟨z⟩⟩⟩

/-- Twenty-six floors, in no particular order: enough to be split into buckets. -/
def floors : List (Tri F64) := (List.range 26).map fun i => floorAt (-((7 * i + 3) % 26 : Nat))

theorem floors_fit : FitsAccelerator64 floors := by
  refine ⟨by decide, fun l hl hlen => ?_⟩
  have h := hl.length_le
  have : floors.length = 26 := rfl
  omega

/-- The tree over the floors, built and queried: how many nodes it has, which floor lies nearest below `plainRay`, and whether the way down to just below it, or to just above it, is free. -/
def floorsRun : Res (Nat × Option (Option Nat) × Bool × Bool) :=
  (bvhNew64 coarseEnv64 floors (List.range 26) (List.range 26) (List.range 26)).bind fun (bvh, tris, names, _, _) =>
    (bvhIntersect64 coarseEnv64 bvh.nodes tris plainRay [0]).bind fun r =>
      (bvhUnobstructed64 coarseEnv64 bvh.nodes tris plainRay ⟨2⟩ [0]).bind fun b1 =>
        (bvhUnobstructed64 coarseEnv64 bvh.nodes tris plainRay ⟨1 / 2⟩ [0]).bind fun b2 =>
          .ok (bvh.nodes.length, r.map (fun x => names[x.1]?), b1, b2)

/-- Floor number 7, at height zero, is found. -/
example : floorsRun = .ok (33, some (some 7), false, true) := by decide +kernel

example : floors[7]? = some (floorAt 0) := by decide +kernel

theorem floors_mem : floorAt 0 ∈ floors := by decide +kernel

theorem floors_sized : Sized 30 plainRay floors where
  pos := by norm_num
  km := by norm_num
  origin := by norm_num [Vec3.Within, plainRay, Ray3.reals, Vec3.reals]
  direction := by norm_num [Vec3.Within, plainRay, Ray3.reals, Vec3.reals]
  unit := by norm_num [Vec3.lengthSq, Vec3.dot, plainRay, Ray3.reals, Vec3.reals]
  tris := by
    intro tri h
    obtain ⟨i, -, rfl⟩ := List.mem_map.mp h
    have hlt : (((7 * i + 3) % 26 : Nat) : ℝ) ≤ 30 := by
      have : (7 * i + 3) % 26 < 26 := Nat.mod_lt _ (by norm_num)
      exact_mod_cast (by omega : (7 * i + 3) % 26 ≤ 30)
    have h0 : (0 : ℝ) ≤ (((7 * i + 3) % 26 : Nat) : ℝ) := Nat.cast_nonneg _
    generalize (7 * i + 3) % 26 = k at *
    simp only [floorAt, Tri.reals, Vec3.reals, Vec3.Within]
    push_cast
    simp only [abs_neg, abs_of_nonneg h0]
    norm_num
    exact_mod_cast hlt

theorem floor_det (z : ℚ) : tripleProduct plainRay.reals (floorAt z).reals = 1 := by
  norm_num [tripleProduct, plainRay, floorAt, Ray3.reals, Tri.reals, Vec3.reals]

theorem floors_hit : GoesWellThrough 30 plainRay (floorAt 0) 1 := by
  refine ⟨1 / 4, 1 / 4, Meets.iff.mpr (by norm_num [plainRay, floorAt, Ray3.reals, Tri.reals, Vec3.reals]), ?_⟩
  rw [floor_det]
  norm_num [shake]

/-- The theorems apply to the floors: the ray from a metre above goes well through the one at height zero, so something is reported, at a distance of at most a metre up to rounding. -/
example : ∃ bvh tris', ∃ i info, bvhIntersect64 coarseEnv64 bvh tris' plainRay [0] = .ok (some (i, info)) ∧ ((distSq64 info.p plainRay.origin).val : ℝ) ≤ 1 + 1 / 10 ^ 3 := by
  obtain ⟨bvh, tris', front', back', normals', e, -⟩ := C132_build_succeeds coarseEnv64 coarseEnv64_lawful floors (List.range 26) (List.range 26) (List.range 26) rfl rfl rfl
  obtain ⟨r, e', h1, h2⟩ := C132_nearest_up_to_rounding coarseEnv64 coarseEnv64_lawful coarseEnv64_conservative floors tris' (List.range 26) _ (List.range 26) _ (List.range 26) _ bvh rfl rfl rfl e floors_fit plainRay [0] 30 floors_sized
  have hb : ∀ z, blur 30 plainRay (floorAt z) ≤ 1 / 10 ^ 4 := by
    intro z
    unfold blur
    rw [floor_det]
    norm_num [shake]
  have hsq : squareAt plainRay 1 = 1 := by
    norm_num [squareAt_eq, Vec3.lengthSq, Vec3.dot, plainRay, Ray3.reals, Vec3.reals]
  cases r with
  | none =>
    have := h2 rfl _ floors_mem 1 floors_hit
    rw [hsq] at this
    have := hb 0
    norm_num at *
    linarith
  | some x =>
    obtain ⟨i, info⟩ := x
    obtain ⟨tri, hm, -, t, -, hd, hn⟩ := h1 i info rfl
    obtain ⟨k, -, rfl⟩ := List.mem_map.mp hm
    have hk := hb (-((7 * k + 3) % 26 : Nat))
    have h0 := hb 0
    have hn' := hn _ floors_mem 1 floors_hit
    rw [hsq] at hn'
    have a := (abs_le.mp hd).2
    refine ⟨bvh.nodes, tris', i, info, e', ?_⟩
    have hn'' := hn' (by norm_num at *; linarith)
    norm_num at *
    linarith

/-- … and it blocks the way to a point at a squared distance of two. -/
example : ∃ bvh tris', bvhUnobstructed64 coarseEnv64 bvh tris' plainRay ⟨2⟩ [0] = .ok false := by
  obtain ⟨bvh, tris', front', back', normals', e, -⟩ := C132_build_succeeds coarseEnv64 coarseEnv64_lawful floors (List.range 26) (List.range 26) (List.range 26) rfl rfl rfl
  obtain ⟨r, e', h1, -⟩ := C132_obstacles_up_to_rounding coarseEnv64 coarseEnv64_lawful coarseEnv64_conservative floors tris' (List.range 26) _ (List.range 26) _ (List.range 26) _ bvh rfl rfl rfl e floors_fit plainRay ⟨2⟩ [0] 30 floors_sized
  have hb : blur 30 plainRay (floorAt 0) ≤ 1 / 10 ^ 4 := by
    unfold blur
    rw [floor_det]
    norm_num [shake]
  have hsq : squareAt plainRay 1 = 1 := by
    norm_num [squareAt_eq, Vec3.lengthSq, Vec3.dot, plainRay, Ray3.reals, Vec3.reals]
  have := h1 _ floors_mem 1 floors_hit (by rw [hsq]; norm_num at *; linarith) (by rw [hsq]; norm_num at *; linarith)
  exact ⟨_, _, by rw [e', this]⟩

end Rendering
