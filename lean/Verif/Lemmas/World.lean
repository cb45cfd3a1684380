import Verif.Lemmas.TracerRef
import Verif.Props.Bvh
import Verif.Props.Triangle
import Verif.Props.Samplers

/-!
# Casting rays in a rendered world
-/

set_option linter.unusedSectionVars false
namespace Rendering

open Classical

/-- The world's scene is what building the accelerator of `s` leaves, and the external functions meet their contracts. -/
structure World.Renders (w : World) (s : Scene ℝ) : Prop where
  lawful : w.env.bvh.Lawful
  box : w.env.bvh.BoxTestConservative
  aligned : s.Aligned
  fits : FitsAccelerator s.triangles
  built : s.BuiltFrom w.env w.scene

variable {w : World} {s : Scene ℝ}

theorem World.Renders.same (h : w.Renders s) : w.scene.materials = s.materials ∧ w.scene.lights = s.lights ∧ w.scene.distantLights = s.distantLights := by
  obtain ⟨s1, bvh, e, _, _, _, _, h5, h6, h7, _⟩ := rebuild_spec w.env h.lawful s h.aligned
  have he : w.scene = s1 := by
    rcases h.built with h | h
    · unfold Scene.buildAccelerator at h
      split at h
      · simp at h
      · rw [e] at h; exact (Res.ok.inj h).symm
    · rw [e] at h; exact (Res.ok.inj h).symm
  rw [he]
  exact ⟨h5, h6, h7⟩

/-- A ray that tolerantly hits no triangle hits nothing. -/
theorem World.Renders.cast_none (h : w.Renders s) (ray : TRay) (hno : ∀ tri ∈ s.triangles, ∀ t p u v, TolerantHit ray.geometry tri t p u v → ¬ InRange (distSq p ray.geometry.origin)) :
    w.cast ray = .ok none := by
  obtain ⟨r, e, _, h2⟩ := C02_cast_ray_misses_nothing w.env h.lawful h.box s w.scene h.aligned h.fits h.built ray.geometry []
  unfold World.cast
  rw [e, Res.bind_ok, h2 hno]

/-- Whatever the ray, the cast answers: nothing, or a triangle tolerantly hit, with the interaction recorded. -/
theorem World.Renders.cast_cases (h : w.Renders s) (ray : TRay) :
    (w.cast ray = .ok none ∧ ∀ tri ∈ s.triangles, ∀ d2, VisibleHit ray.geometry tri d2 → ¬ InRange d2) ∨
    ∃ (i : Nat) (tri : Tri ℝ) (b : Bary ℝ) (j : Nat), w.cast ray = .ok (some (i, { ray with interaction := recordedInteraction tri ray.geometry b })) ∧
      s.triangles[j]? = some tri ∧ triangleIntersect tri ray.geometry = some b ∧ InRange (distSq b.p ray.geometry.origin) ∧
      w.scene.triangles[i]? = some tri ∧ w.scene.front[i]? = s.front[j]? ∧ w.scene.back[i]? = s.back[j]? ∧ w.scene.normals[i]? = s.normals[j]? ∧
      ∀ tri' ∈ s.triangles, ∀ d2, VisibleHit ray.geometry tri' d2 → 1 / 10 ^ 7 < d2 → distSq b.p ray.geometry.origin ≤ d2 := by
  obtain ⟨ha, hr, hp, bvh, hacc, hA⟩ := builtFrom_spec w.env h.lawful h.aligned h.built
  have hlen : w.scene.triangles.length < 2 ^ 30 := by rw [hp.length_eq]; exact h.fits.1
  obtain ⟨r, e, h1, h2⟩ := intersect_spec w.env.bvh bvh w.scene.triangles (hA h.fits) hlen ray.geometry [] _
    (boxHit_of_reached w.env.bvh h.box ray.geometry)
  have hc : w.scene.castRay w.env ray.geometry [] = .ok r := by unfold Scene.castRay; rw [hacc]; exact e
  cases hr' : r with
  | none =>
    left
    refine ⟨by unfold World.cast; rw [hc, Res.bind_ok, hr'], ?_⟩
    intro tri ht d2 hv
    obtain ⟨info', k1, k2, k3⟩ := visible_reported hv
    have := h2 hr' tri (hp.mem_iff.2 ht) k3 info' k1
    rwa [k2] at this
  | some x =>
    right
    obtain ⟨i, b⟩ := x
    obtain ⟨tri, g1, g2, g3, g4⟩ := h1 i b hr'
    have hi : i < w.scene.triangles.length := (List.getElem?_eq_some_iff.1 g1).1
    obtain ⟨j, hj, e1, e2, e3, e4⟩ := C05_rows_stay_together w.env h.lawful s w.scene h.aligned h.built i hi
    refine ⟨i, tri, b, j, ?_, by rw [← e1]; exact g1, g2, g3, g1, e2, e3, e4, ?_⟩
    · unfold World.cast
      rw [hc, Res.bind_ok, hr']
      simp only [g1, Res.ofOption_some, Res.bind_ok]
    · intro tri' ht' d2 hv hd
      obtain ⟨info', k1, k2, k3⟩ := visible_reported hv
      have := g4 tri' (hp.mem_iff.2 ht') k3 info' k1 (by rw [k2]; exact hd)
      rwa [k2] at this

/-- Small scenes fit the accelerator. -/
theorem fits_of_small (tris : List (Tri ℝ)) (h : tris.length < 2 ^ 15) : FitsAccelerator tris :=
  ⟨h.trans (by norm_num), fun l hl hlen => absurd (hl.length_le.trans_lt h) (by omega)⟩

/-- What a hit records, for a unit direction: the point is in the plane of the triangle, and the frame is orthonormal and turned towards the ray. -/
theorem recorded_spec (tri : Tri ℝ) (ray : Ray3 ℝ) (b : Bary ℝ) (hd : Norm ray.direction = 1) (h : triangleIntersect tri ray = some b) :
    let it := recordedInteraction tri ray b
    it.point = b.p ∧ Frame it.shading.dpdu it.shading.dpdv it.shading.normal ∧
    (it.shading.side = .Front ∧ it.shading.normal = (geometricNormal tri).normalized ∨ it.shading.side = .Back ∧ it.shading.normal = -(geometricNormal tri).normalized) ∧
    Dot it.shading.normal ray.direction < 0 ∧ 0 < Dot (geometricNormal tri) (geometricNormal tri) ∧ it.shading.u = b.u ∧ it.shading.v = b.v := by
  intro it
  have hi : triangleIntersectInfo tri ray = some it.shading := by
    unfold triangleIntersectInfo
    unfold triangleIntersect at h
    rw [h]
    rfl
  obtain ⟨_, hdet⟩ := baricentric_sound ray tri b h
  have hne : tripleProduct ray tri ≠ 0 := by
    intro h0; rw [h0, abs_zero] at hdet; norm_num at hdet
  have hg := normal_pos hne
  have hfr := C15_frame_orthonormal tri ray _ hi
  have hgeo := C15_hit_is_geometric tri ray _ hi
  have hdot : (geometricNormal tri).dot ray.direction ≠ 0 := by
    rw [triple_eq] at hne
    intro h0
    exact hne (by rw [geometricNormal_eq] at h0; rw [h0, neg_zero])
  have hlen := Vec3.length_pos hg
  have hnd : (geometricNormal tri).normalized.dot ray.direction ≠ 0 := by
    rw [Vec3.normalized, Vec3.dot_scale]
    exact mul_ne_zero (by positivity) hdot
  have hside : it.shading.side = .Front ∧ it.shading.normal = (geometricNormal tri).normalized ∧ Dot it.shading.normal ray.direction < 0 ∨
      it.shading.side = .Back ∧ it.shading.normal = -(geometricNormal tri).normalized ∧ Dot it.shading.normal ray.direction < 0 := by
    simp only [it, recordedInteraction, newInfo, getSide]
    rw [← geometricNormal_eq]
    rcases lt_or_gt_of_ne hnd with hl | hl
    · left
      simp only [hl, if_true, true_and]
      exact hl
    · right
      simp only [not_lt.2 hl.le, if_false, hl, gt_iff_lt, if_true, true_and]
      rw [← Vec3.dot_eq, Vec3.dot_neg']; linarith
  refine ⟨(C15_recorded_point tri ray b hd h).1, ⟨hfr.1, hfr.2.1, hgeo.2.1, hfr.2.2.1, hfr.2.2.2.1, hfr.2.2.2.2⟩, ?_, ?_, ?_, rfl, rfl⟩
  · rcases hside with h | h
    · exact Or.inl ⟨h.1, h.2.1⟩
    · exact Or.inr ⟨h.1, h.2.1⟩
  · rcases hside with h | h
    · exact h.2.2
    · exact h.2.2
  · rw [Vec3.lengthSq] at hg; exact hg

end Rendering
