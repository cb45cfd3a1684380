import Verif.Lemmas.World

/-!
# Worlds of one material
-/

set_option linter.unusedSectionVars false
namespace Rendering

open Classical

/-- The program that pushes one material, some triangles of that material, and builds the accelerator. -/
def showing (m : Material ℝ) (tris : List (Tri ℝ)) : List (SceneOp ℝ) :=
  .pushMaterial m :: tris.map (fun t => .pushObject 0 0 (.triangle t)) ++ [.build]

/-- The world's scene is what that program leaves, and the external functions meet their contracts. -/
structure World.Shows (w : World) (m : Material ℝ) (tris : List (Tri ℝ)) : Prop where
  lawful : w.env.bvh.Lawful
  box : w.env.bvh.BoxTestConservative
  normalized : w.env.normalized = Vec3.normalized
  run : Scene.run w.env {} (showing m tris) = .ok w.scene

/-- The unit normal of a triangle. -/
noncomputable def unitNormal (t : Tri ℝ) : Vec3 ℝ := (geometricNormal t).normalized

theorem run_pushes (env : SceneEnv ℝ) (hn : env.normalized = Vec3.normalized) (m : Material ℝ) (hm : m.emitsDirectLight = false) (tris : List (Tri ℝ)) (ops : List (SceneOp ℝ)) (s : Scene ℝ) (hs : s.materials = [m]) :
    Scene.run env s (tris.map (fun t => .pushObject 0 0 (.triangle t)) ++ ops) =
      Scene.run env { s with triangles := s.triangles ++ tris, normals := s.normals ++ tris.map (fun t => (unitNormal t, unitNormal t, unitNormal t)), front := s.front ++ List.replicate tris.length 0, back := s.back ++ List.replicate tris.length 0 } ops := by
  induction tris generalizing s with
  | nil => simp
  | cons t ts ih =>
    rw [List.map_cons, List.cons_append, Scene.run, Scene.step]
    have : s.pushObject env 0 0 (.triangle t) = .ok { s with triangles := s.triangles ++ [t], normals := s.normals ++ [(unitNormal t, unitNormal t, unitNormal t)], front := s.front ++ [0], back := s.back ++ [0] } := by
      unfold Scene.pushObject
      have h0 : s.materials[0]? = some m := by rw [hs]; rfl
      simp only [h0, hm, Bool.or_self, Bool.false_eq_true, if_false, meshTriangle, hn, Res.bind_ok, List.length_singleton, List.replicate_one]
      rfl
    rw [this, Res.bind_ok, ih _ (by exact hs)]
    simp only [List.append_assoc, List.singleton_append, List.map_cons, List.length_cons, List.replicate_succ]

theorem World.Shows.renders {w : World} {m : Material ℝ} {tris : List (Tri ℝ)} (h : w.Shows m tris) (hm : m.emitsDirectLight = false) (hl : tris.length < 2 ^ 15) :
    w.Renders { triangles := tris, normals := tris.map (fun t => (unitNormal t, unitNormal t, unitNormal t)), front := List.replicate tris.length 0, back := List.replicate tris.length 0, materials := [m] } := by
  refine ⟨h.lawful, h.box, ⟨by simp, by simp, by simp⟩, fits_of_small tris hl, Or.inl ?_⟩
  have hr := h.run
  unfold showing at hr
  rw [List.cons_append, Scene.run, Scene.step, Res.bind_ok, run_pushes w.env h.normalized m hm tris _ _ (by simp [Scene.pushMaterial])] at hr
  simp only [Scene.pushMaterial, List.nil_append, Scene.run, Scene.step] at hr
  cases hb : Scene.buildAccelerator w.env { triangles := tris, normals := tris.map (fun t => (unitNormal t, unitNormal t, unitNormal t)), front := List.replicate tris.length 0, back := List.replicate tris.length 0, materials := [m] } with
  | ok s => rw [hb, Res.bind_ok] at hr; exact hr
  | panic => rw [hb] at hr; simp at hr
  | diverge => rw [hb] at hr; simp at hr

/-- Interpolating equal normals changes nothing. -/
theorem interp_recorded (tri : Tri ℝ) (ray : Ray3 ℝ) (b : Bary ℝ) (hd : Norm ray.direction = 1) (h : triangleIntersect tri ray = some b) :
    (recordedInteraction tri ray b).interpolateNormal (unitNormal tri) (unitNormal tri) (unitNormal tri) = recordedInteraction tri ray b := by
  obtain ⟨_, _, hside, _, hpos, _⟩ := recorded_spec tri ray b hd h
  have hn : Norm (unitNormal tri) = 1 := Norm_eq_one (normalized_dot_self hpos)
  have := (C21_interpolated_normal_partial (recordedInteraction tri ray b) (unitNormal tri)).2.1 hn
  have h2 : ((recordedInteraction tri ray b).interpolateNormal (unitNormal tri) (unitNormal tri) (unitNormal tri)).shading.normal = (recordedInteraction tri ray b).shading.normal := by
    rw [this]
    rcases hside with ⟨hs, hn'⟩ | ⟨hs, hn'⟩
    · rw [hs, hn']; rfl
    · rw [hs, hn', if_pos rfl]; ext <;> simp [unitNormal]
  unfold Interaction.interpolateNormal at h2 ⊢
  simp only at h2 ⊢
  rw [h2]

/-- The ray as it is after hitting `tri`. -/
noncomputable def TRay.arrived (ray : TRay) (tri : Tri ℝ) (b : Bary ℝ) : TRay := { ray with interaction := recordedInteraction tri ray.geometry b }

/-- What tracing does in a world of one material that is not a light. -/
theorem World.Shows.step_hit {w : World} {m : Material ℝ} {tris : List (Tri ℝ)} (h : w.Shows m tris) (hm : m.emitsDirectLight = false) (hl : tris.length < 2 ^ 15) (ray : TRay) (hd : Norm ray.geometry.direction = 1)
    (hhit : w.cast ray ≠ .ok none) :
    ∃ tri ∈ tris, ∃ b, triangleIntersect tri ray.geometry = some b ∧ InRange (distSq b.p ray.geometry.origin) ∧
      (∀ tri' ∈ tris, ∀ d2, VisibleHit ray.geometry tri' d2 → 1 / 10 ^ 7 < d2 → distSq b.p ray.geometry.origin ≤ d2) ∧
      (∃ i, w.cast ray = .ok (some (i, ray.arrived tri b)) ∧ w.materialAt (ray.arrived tri b).interaction.shading.side i = .ok m ∧ w.scene.normals[i]? = some (unitNormal tri, unitNormal tri, unitNormal tri)) ∧
      ∀ rt fuel self st, traceStep w rt fuel self st ray =
        (if ray.depth > rt.maxDepth then .ok ((Spectrum.black, 0), ray.arrived tri b, st)
        else if m.specularOnly then
          (m.getPossiblePaths (ray.arrived tri b).interaction.shading.normal (ray.arrived tri b).interaction.point (ray.arrived tri b)).bind fun paths =>
            (specularLoop self rt.countSpecularBounce paths.toList (ray.arrived tri b) Spectrum.black st).bind fun (li, ray, st) =>
              .ok ((li, 0), { ray with colour := ray.colour * li }, st)
        else
          let (nAmbient, ray, rng) := (ray.arrived tri b).getNAmbientSamples rt.nAmbientSamples rt.maxDepth rt.limitWeight st.rng
          (globalIllumination self fuel m nAmbient ray { st with rng := rng }).bind fun (global, ray, st) => .ok ((global, 0), ray, st) : Res ((Spectrum ℝ × ℝ) × TRay × TState)) := by
  have hR := h.renders hm hl
  rcases hR.cast_cases ray with ⟨hno, _⟩ | ⟨i, tri, b, j, hc, hj, hb, hin, ht, hf, hbk, hn, hnear⟩
  · exact absurd hno hhit
  · simp only at hj hf hbk hn hnear
    have hjl : j < tris.length := (List.getElem?_eq_some_iff.1 hj).1
    rw [List.getElem?_replicate, if_pos hjl] at hf hbk
    rw [List.getElem?_map, hj, Option.map_some] at hn
    obtain ⟨_, _, hside, _⟩ := recorded_spec tri ray.geometry b hd hb
    have hmat : w.materialAt (recordedInteraction tri ray.geometry b).shading.side i = .ok m ∧ (recordedInteraction tri ray.geometry b).shading.side ≠ .NonApplicable := by
      rcases hside with ⟨hs, _⟩ | ⟨hs, _⟩
      · rw [hs]; exact ⟨by simp [World.materialAt, hf, hR.same.1], by decide⟩
      · rw [hs]; exact ⟨by simp [World.materialAt, hbk, hR.same.1], by decide⟩
    refine ⟨tri, List.mem_of_getElem? hj, b, hb, hin, hnear, ⟨i, hc, hmat.1, hn⟩, ?_⟩
    intro rt fuel self st
    unfold traceStep
    rw [hc, Res.bind_ok]
    simp only [hmat.2, if_false, hmat.1, Res.bind_ok]
    unfold surfaceStep
    have hel : m.emitsLight = false := by cases m <;> simp_all [Material.emitsDirectLight, Material.emitsLight]
    simp only [TRay.getTriad, hel, Bool.false_eq_true, if_false, hn, Res.ofOption_some, Res.bind_ok]
    have hit := interp_recorded tri ray.geometry b hd hb
    rw [hit]
    have hloc : ∀ f m r rng n, w.localIllumination f m r rng n = .ok (Spectrum.black, rng) := by
      intro f m r rng n
      unfold World.localIllumination World.sampleLightArray
      rw [hR.same.2.1, hR.same.2.2]
      simp only [World.lightsLoop, Res.bind_ok, spectrum_add_black]
    simp only [hloc, Res.bind_ok, spectrum_black_add]
    rfl

theorem World.Shows.step {w : World} {m : Material ℝ} {tris : List (Tri ℝ)} (h : w.Shows m tris) (hm : m.emitsDirectLight = false) (hl : tris.length < 2 ^ 15) (ray : TRay) (hd : Norm ray.geometry.direction = 1)
    (hhit : ∃ tri ∈ tris, ∃ d2, VisibleHit ray.geometry tri d2 ∧ InRange d2) :
    ∃ tri ∈ tris, ∃ b, triangleIntersect tri ray.geometry = some b ∧ InRange (distSq b.p ray.geometry.origin) ∧
      (∀ tri' ∈ tris, ∀ d2, VisibleHit ray.geometry tri' d2 → 1 / 10 ^ 7 < d2 → distSq b.p ray.geometry.origin ≤ d2) ∧
      (∃ i, w.cast ray = .ok (some (i, ray.arrived tri b)) ∧ w.materialAt (ray.arrived tri b).interaction.shading.side i = .ok m ∧ w.scene.normals[i]? = some (unitNormal tri, unitNormal tri, unitNormal tri)) ∧
      ∀ rt fuel self st, traceStep w rt fuel self st ray =
        (if ray.depth > rt.maxDepth then .ok ((Spectrum.black, 0), ray.arrived tri b, st)
        else if m.specularOnly then
          (m.getPossiblePaths (ray.arrived tri b).interaction.shading.normal (ray.arrived tri b).interaction.point (ray.arrived tri b)).bind fun paths =>
            (specularLoop self rt.countSpecularBounce paths.toList (ray.arrived tri b) Spectrum.black st).bind fun (li, ray, st) =>
              .ok ((li, 0), { ray with colour := ray.colour * li }, st)
        else
          let (nAmbient, ray, rng) := (ray.arrived tri b).getNAmbientSamples rt.nAmbientSamples rt.maxDepth rt.limitWeight st.rng
          (globalIllumination self fuel m nAmbient ray { st with rng := rng }).bind fun (global, ray, st) => .ok ((global, 0), ray, st) : Res ((Spectrum ℝ × ℝ) × TRay × TState)) := by
  refine h.step_hit hm hl ray hd fun hno => ?_
  rcases (h.renders hm hl).cast_cases ray with ⟨_, hn⟩ | ⟨i, tri, b, j, hc, _⟩
  · obtain ⟨tri, htri, d2, hv, hi⟩ := hhit
    exact absurd hi (hn tri htri d2 hv)
  · rw [hno] at hc
    cases hc

/-- A ray that starts above the plane of a triangle and does not go down does not hit it. -/
theorem not_hit_leaving (tri : Tri ℝ) (n o d : Vec3 ℝ) (hb : Dot n (tri.b - tri.a) = 0) (hc : Dot n (tri.c - tri.a) = 0) (ho : 0 < Dot n (o - tri.a)) (hd : 0 ≤ Dot n d) (t : ℝ) (p : Vec3 ℝ) (u v : ℝ) :
    ¬ TolerantHit ⟨o, d⟩ tri t p u v := by
  rintro ⟨h1, h2, h3, _⟩
  have e1 : Dot n (p - tri.a) = u * Dot n (tri.b - tri.a) + v * Dot n (tri.c - tri.a) := by
    rw [h3]; simp only [Dot, Vec3.add_x, Vec3.add_y, Vec3.add_z, Vec3.sub_x, Vec3.sub_y, Vec3.sub_z, Vec3.scale_x, Vec3.scale_y, Vec3.scale_z]; ring
  have e2 : Dot n (p - tri.a) = Dot n (o - tri.a) + t * Dot n d := by
    rw [h1]; simp only [Dot, Vec3.add_x, Vec3.add_y, Vec3.add_z, Vec3.sub_x, Vec3.sub_y, Vec3.sub_z, Vec3.scale_x, Vec3.scale_y, Vec3.scale_z]; ring
  rw [hb, hc, e2] at e1
  have ht : (0 : ℝ) < t := lt_trans (by norm_num) h2
  have := mul_nonneg ht.le hd
  linarith

/-- Rays that leave a hit triangle on the side they came from do not hit it again. -/
theorem leaves (tri : Tri ℝ) (ray : Ray3 ℝ) (b : Bary ℝ) (hd : Norm ray.direction = 1) (h : triangleIntersect tri ray = some b) (d : Vec3 ℝ)
    (hup : 0 ≤ Dot d (recordedInteraction tri ray b).shading.normal) (t : ℝ) (p : Vec3 ℝ) (u v : ℝ) :
    ¬ TolerantHit ⟨(recordedInteraction tri ray b).point + (recordedInteraction tri ray b).shading.normal.scale (1 / 10 ^ 5), d⟩ tri t p u v := by
  obtain ⟨hp, hf, hside, _, hpos, _⟩ := recorded_spec tri ray b hd h
  set n := (recordedInteraction tri ray b).shading.normal with hn
  have hperp : Dot (geometricNormal tri) (tri.b - tri.a) = 0 ∧ Dot (geometricNormal tri) (tri.c - tri.a) = 0 := by
    constructor <;> simp only [geometricNormal, Cross, Dot] <;> ring
  have hnp : ∀ x, Dot (geometricNormal tri) x = 0 → Dot n x = 0 := by
    intro x hx
    rcases hside with ⟨_, he⟩ | ⟨_, he⟩
    · rw [he, ← Vec3.dot_eq, Vec3.normalized, Vec3.dot_scale, Vec3.dot_eq, hx, mul_zero]
    · rw [he, ← Vec3.dot_eq, Vec3.dot_neg', Vec3.normalized, Vec3.dot_scale, Vec3.dot_eq, hx, mul_zero, neg_zero]
  refine not_hit_leaving tri n _ d (hnp _ hperp.1) (hnp _ hperp.2) ?_ (by rw [Dot_comm]; exact hup) t p u v
  obtain ⟨⟨_, _, h3, _⟩, _⟩ := baricentric_sound ray tri b h
  have e1 : Dot n (b.p + n.scale (1 / 10 ^ 5) - tri.a) = b.u * Dot n (tri.b - tri.a) + b.v * Dot n (tri.c - tri.a) + 1 / 10 ^ 5 * Dot n n := by
    rw [h3]; simp only [Dot, Vec3.add_x, Vec3.add_y, Vec3.add_z, Vec3.sub_x, Vec3.sub_y, Vec3.sub_z, Vec3.scale_x, Vec3.scale_y, Vec3.scale_z]; ring
  rw [hp, e1, hnp _ hperp.1, hnp _ hperp.2, Dot_self_of_norm hf.n3]
  norm_num

end Rendering
