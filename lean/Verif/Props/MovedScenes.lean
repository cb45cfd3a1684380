import Verif.Props.Moved
import Verif.Props.Spict
import Verif.Props.Cases
import Verif.Model.SphereMesh
import Verif.Props.SphereLight

/-!
# C108: pictures, examples, and the violation
-/

set_option linter.unusedSectionVars false
namespace Rendering

/-! ### The reference environment treats all places alike -/

section
variable {K : Type} [Field K] [LinearOrder K] [IsStrictOrderedRing K]

theorem slabStep_shift (lo hi o d v : K) (r : Option (K × Option K)) : slabStep (lo + v) (hi + v) (o + v) d r = slabStep lo hi o d r := by
  cases r with
  | none => rfl
  | some p =>
    obtain ⟨t0, t1⟩ := p
    simp only [slabStep, add_le_add_iff_right, add_sub_add_right_eq_sub]

theorem slabTest_shift (v : Vec3 K) (b : BBox K) (ray : Ray3 K) : slabTest (b.shift v) (ray.shift v) = slabTest b ray := by
  simp only [slabTest, BBox.shift, Ray3.shift, Vec3.add_x, Vec3.add_y, Vec3.add_z, slabStep_shift]

theorem get_add (a b : Vec3 K) (i : Axis) : (a + b).get i = a.get i + b.get i := by cases i <;> rfl

theorem sortByCentroid_shift (v : Vec3 K) (a : Axis) (l : List (ObjInfo K)) : sortByCentroid a (l.map (ObjInfo.shift v)) = (sortByCentroid a l).map (ObjInfo.shift v) := by
  unfold sortByCentroid
  symm
  apply List.map_insertionSort
  intro x _ y _
  simp only [ObjInfo.shift, get_add, add_le_add_iff_right]

theorem refEnv_uniform (n : Vec3 K → Vec3 K) (mesh : Vec3 K → K → List (Tri K) × List (Normals K)) (hm : ∀ v c r, mesh (c + v) r = ((mesh c r).1.map (Tri.shift v), (mesh c r).2)) : SceneEnv.Uniform ⟨refEnv K, n, mesh⟩ where
  boxHit := slabTest_shift
  maxExtent v b := by simp only [refEnv, longestAxis, BBox.shift, Vec3.add_x, Vec3.add_y, Vec3.add_z, add_sub_add_right_eq_sub]
  surfaceArea v b := by simp only [refEnv, boxArea, BBox.shift, Vec3.add_x, Vec3.add_y, Vec3.add_z, add_sub_add_right_eq_sub]
  sort := sortByCentroid_shift
  select v _ := sortByCentroid_shift v
  mesh := hm

end

theorem realEnv_uniform : realEnv.Uniform := refEnv_uniform _ _ fun _ _ _ => rfl


/-! ### The mesh of a sphere -/

theorem midOnSphere_shift (v c : Vec3 ℝ) (r : ℝ) (a b : Vec3 ℝ) : midOnSphere (c + v) r (a + v) (b + v) = midOnSphere c r a b + v := by
  unfold midOnSphere
  have : ((a + v + (b + v)).scale (1 / 2) : Vec3 ℝ) - (c + v) = (a + b).scale (1 / 2) - c := by ext <;> simp <;> ring
  simp only [this]
  ext <;> simp <;> ring

theorem refine_shift (v c : Vec3 ℝ) (r : ℝ) (ts : List (Tri ℝ)) : refine (c + v) r (ts.map (Tri.shift v)) = (refine c r ts).map (Tri.shift v) := by
  unfold refine
  simp only [List.map_append, List.map_map, List.map_flatMap, List.flatMap_map]
  congr 1
  · refine List.map_congr_left fun t _ => ?_
    simp only [Function.comp, Tri.shift, midOnSphere_shift]
  · refine List.flatMap_congr fun t _ => ?_
    simp only [Tri.shift, midOnSphere_shift, List.map_cons, List.map_nil]

theorem iterate_refine_shift (v c : Vec3 ℝ) (r : ℝ) (n : Nat) (ts : List (Tri ℝ)) : (refine (c + v) r)^[n] (ts.map (Tri.shift v)) = ((refine c r)^[n] ts).map (Tri.shift v) := by
  induction n generalizing ts with
  | zero => rfl
  | succ n ih => rw [Function.iterate_succ_apply, Function.iterate_succ_apply, refine_shift, ih]

theorem baseTriangles_shift (v c : Vec3 ℝ) (r : ℝ) : baseTriangles r (c + v) = (baseTriangles r c).map (Tri.shift v) := by
  have h : ∀ a b h d, ringPoint a h (c + v) d = ringPoint a h c d + v ∧ (b + (c + v) : Vec3 ℝ) = b + c + v := by
    intro a b h d
    constructor
    · ext <;> simp [ringPoint] <;> ring
    · ext <;> simp <;> ring
  have h1 : ∀ a h d, ringPoint a h (c + v) d = ringPoint a h c d + v := fun a e d => (h a 0 e d).1
  have h2 : ∀ b, (b + (c + v) : Vec3 ℝ) = b + c + v := fun b => (h 0 b 0 0).2
  simp only [baseTriangles, h1, h2, List.map_cons, List.map_nil, Tri.shift]

/-- **C108.** The mesh of a displaced sphere is the displaced mesh, with the same normals. -/
theorem C108_sphere_mesh (v c : Vec3 ℝ) (r : ℝ) : meshSphere (c + v) r = ((meshSphere c r).1.map (Tri.shift v), (meshSphere c r).2) := by
  unfold meshSphere
  simp only [baseTriangles_shift, iterate_refine_shift, Prod.mk.injEq, true_and, List.map_map]
  refine List.map_congr_left fun t _ => ?_
  simp only [Function.comp, Tri.shift, add_sub_shift]

/-- The reference environment, with the sphere meshes of the code, treats all places alike. -/
theorem sphereEnv_uniform : SceneEnv.Uniform ⟨refEnv ℝ, Vec3.normalized, meshSphere⟩ := refEnv_uniform _ _ C108_sphere_mesh

theorem info_shift (v : Vec3 ℝ) (t : Tri ℝ) (ray : Ray3 ℝ) : triangleIntersectInfo (t.shift v) (ray.shift v) = (triangleIntersectInfo t ray).map (IntersectionInfo.shift v) := by
  unfold triangleIntersectInfo
  rw [bary_shift]
  cases baricentricCoordinates ray t with
  | none => rfl
  | some b =>
    simp only [Option.map_some, Bary.shift, newInfo, Tri.shift, add_sub_shift, IntersectionInfo.shift, Ray3.shift]

/-- An external intersection that treats all places alike: triangles by the code's own test, a distant source by the direction of the ray, spheres and cylinders never met. -/
noncomputable def plainExt (perp : Vec3 ℝ → Option (Vec3 ℝ)) : GeoExt := ⟨perp, fun p ray => match p with
  | .triangle t => triangleIntersectInfo t ray
  | .source _ _ => some { p := ray.origin + ray.direction.scale 1000, normal := ray.direction.scale (-1), side := .Front, dpdu := 0, dpdv := 0, u := 0, v := 0 }
  | _ => none⟩

theorem plainExt_uniform (perp : Vec3 ℝ → Option (Vec3 ℝ)) : (plainExt perp).Uniform := by
  intro v p ray
  cases p with
  | triangle t => exact info_shift v t ray
  | source d a =>
    simp only [plainExt, Primitive.shift, Ray3.shift, Option.map_some, IntersectionInfo.shift, Option.some.injEq]
    congr 1
    ext <;> simp <;> ring
  | sphere c r => rfl
  | cylinder a b r => rfl

/-! ### Pictures -/

theorem traceableRay_shift (o : SpictOptions) (v : Vec3 ℝ) (p : Nat × Nat) : ({ o with viewPoint := o.viewPoint + v } : SpictOptions).camera.traceableRay p = (o.camera.traceableRay p).shift v := rfl

theorem pixelTracer_of_outcome (w w' : World) (rt : RayTracer) (fuel : Nat) (c c' : Pinhole) (p : Nat × Nat) (st st' : TState) (hrng : st'.rng = st.rng)
    (h : outcome (traceRay w' rt fuel st' (c'.traceableRay p)) = outcome (traceRay w rt fuel st (c.traceableRay p))) :
    (pixelTracer w' rt fuel c' p st').1 = (pixelTracer w rt fuel c p st).1 ∧ (pixelTracer w' rt fuel c' p st').2.rng = (pixelTracer w rt fuel c p st).2.rng := by
  unfold pixelTracer
  cases h1 : traceRay w' rt fuel st' (c'.traceableRay p) with
  | ok x =>
    obtain ⟨⟨a, b⟩, r, s⟩ := x
    rw [h1] at h
    cases h2 : traceRay w rt fuel st (c.traceableRay p) with
    | ok y =>
      obtain ⟨⟨a', b'⟩, r', s'⟩ := y
      rw [h2] at h
      simp only [outcome, Res.bind_ok, Res.ok.injEq, Prod.mk.injEq] at h
      exact ⟨h.1.1, h.2⟩
    | panic => rw [h2] at h; cases h
    | diverge => rw [h2] at h; cases h
  | panic =>
    rw [h1] at h
    cases h2 : traceRay w rt fuel st (c.traceableRay p) with
    | ok y => rw [h2] at h; cases h
    | panic => exact ⟨rfl, hrng⟩
    | diverge => exact ⟨rfl, hrng⟩
  | diverge =>
    rw [h1] at h
    cases h2 : traceRay w rt fuel st (c.traceableRay p) with
    | ok y => rw [h2] at h; cases h
    | panic => exact ⟨rfl, hrng⟩
    | diverge => exact ⟨rfl, hrng⟩

theorem pixels_ext {σ K : Type} [Field K] (width height : Nat) (st st' : RState σ (Spectrum K)) (h : ∀ x y, x < width → y < height → (renderPixels width height st')[y * width + x]? = (renderPixels width height st)[y * width + x]?) :
    renderPixels width height st' = renderPixels width height st := by
  refine List.ext_getElem? fun i => ?_
  by_cases hi : i < width * height
  · have hw : 0 < width := by
      rcases Nat.eq_zero_or_pos width with h0 | h0
      · simp [h0] at hi
      · exact h0
    have := h (i % width) (i / width) (Nat.mod_lt _ hw) (Nat.div_lt_of_lt_mul hi)
    rwa [Nat.mul_comm, Nat.div_add_mod] at this
  · have h1 : ∀ st : RState σ (Spectrum K), (renderPixels width height st)[i]? = none := by
      intro st
      rw [List.getElem?_eq_none]
      simp only [renderPixels, List.length_map, List.length_range]
      omega
    rw [h1, h1]

/-- **C108.** The picture of a scene without lamps taken by `spict`, and the picture of the displaced scene from the displaced view point, are the same pixel by pixel (same settings and random numbers, each rendered by any number of threads in any order). -/
theorem C108_picture_partial (env : SceneEnv ℝ) (hB : env.bvh.Lawful) (hM : env.MeshAligned) (hE : env.Uniform) (ext : GeoExt) (hX : ext.Uniform) (v : Vec3 ℝ) (ops : List (SceneOp ℝ)) (s s' : Scene ℝ) (h : Scene.run env {} ops = .ok s)
    (h' : Scene.run env {} (ops.map (SceneOp.shift v)) = .ok s') (hl : s.lights = []) (dt : DirTests) (sky : Option (Vec3 ℝ → ℝ)) (col : Option (Spectrum ℝ)) (o : SpictOptions) (ho : o.Sized) (hd : o.rt.maxDepth < 15) (fuel : Nat) (rng : Nat → Rng)
    (st st' : RState TState (Spectrum ℝ)) (hr : o.Rendered ⟨s, env, ext, dt, sky, col⟩ fuel rng st) (hr' : ({ o with viewPoint := o.viewPoint + v } : SpictOptions).Rendered ⟨s', env, ext, dt, sky, col⟩ fuel rng st') :
    renderPixels o.width o.height st' = renderPixels o.width o.height st := by
  refine pixels_ext o.width o.height _ _ fun x y hx hy => ?_
  obtain ⟨s1, h1, htr⟩ := C108_moved_partial env hB hM hE ext hX v ops s h hl
  rw [h1] at h'
  cases h'
  obtain ⟨⟨m, hm⟩, hf⟩ := hr
  obtain ⟨⟨m', hm'⟩, hf'⟩ := hr'
  rw [C39_pixel_value _ _ _ _ ho.pixels hm hf x y hx hy, C39_pixel_value _ _ _ _ ho.pixels hm' hf' x y hx hy]
  set w : World := ⟨s, env, ext, dt, sky, col⟩
  set w' : World := ⟨s', env, ext, dt, sky, col⟩
  set o' : SpictOptions := { o with viewPoint := o.viewPoint + v }
  have key : ∀ p (a b : TState), b.rng = a.rng → o.rt.maxDepth < a.rays.length → o.rt.maxDepth < b.rays.length → outcome (traceRay w' o.rt fuel b (o'.camera.traceableRay p)) = outcome (traceRay w o.rt fuel a (o.camera.traceableRay p)) := by
    intro p a b hab ha hb
    rw [traceableRay_shift]
    obtain ⟨ra, la⟩ := a
    obtain ⟨rb, lb⟩ := b
    simp only at hab ha hb
    subst hab
    rw [htr dt sky col o.rt fuel rb lb _ hb, C75_is_reference_tracer _ _ _ _ _ _ hb, C75_is_reference_tracer _ _ _ _ _ _ ha]
  have hk := pixelState_keeps w o.rt fuel o.camera rng o.width hd
  have hk' := pixelState_keeps w' o.rt fuel o'.camera rng o.width hd
  have hrng : ∀ i, (pixelState (pixelTracer w' o.rt fuel o'.camera) (chunkState rng) o.width i).rng = (pixelState (pixelTracer w o.rt fuel o.camera) (chunkState rng) o.width i).rng := by
    intro i
    induction i with
    | zero => rfl
    | succ i ih =>
      unfold pixelState
      split_ifs
      · rfl
      · exact (pixelTracer_of_outcome w w' o.rt fuel o.camera o'.camera _ _ _ ih (key _ _ _ ih (hk i) (hk' i))).2
  exact congrArg some (pixelTracer_of_outcome w w' o.rt fuel o.camera o'.camera _ _ _ (hrng _) (key _ _ _ (hrng _) (hk _) (hk' _))).1


/-! ### A lamp -/

/-- A grey floor, and a lamp: a luminous triangle one unit above it. -/
noncomputable def lampRoom : List (SceneOp ℝ) :=
  [.pushMaterial (.plastic (Spectrum.gray (1 / 2)) 0 0), .pushMaterial (.light (Spectrum.gray 5)), .pushObject 0 0 (.triangle (plane 0)), .pushObject 1 1 (.triangle (plane 1)), .build]

/-- The lamp. -/
noncomputable def lamp : Object ℝ := { front := 1, back := 1, primitive := .triangle (plane 1) }

/-- What has been pushed before the accelerator is built. -/
noncomputable def lampScene : Scene ℝ :=
  { triangles := [plane 0, plane 1], normals := [(⟨0, 0, 1⟩, ⟨0, 0, 1⟩, ⟨0, 0, 1⟩), (⟨0, 0, 1⟩, ⟨0, 0, 1⟩, ⟨0, 0, 1⟩)], front := [0, 1], back := [0, 1], materials := [.plastic (Spectrum.gray (1 / 2)) 0 0, .light (Spectrum.gray 5)], lights := [lamp] }

theorem mesh_plane (h : ℝ) : meshTriangle realEnv (plane h) = ([plane h], [(⟨0, 0, 1⟩, ⟨0, 0, 1⟩, ⟨0, 0, 1⟩)]) := by
  have : ((plane h).b - (plane h).a).cross ((plane h).c - (plane h).a) = geometricNormal (plane h) := rfl
  simp only [meshTriangle, this]
  rw [show realEnv.normalized (geometricNormal (plane h)) = ⟨0, 0, 1⟩ from plane_normal h]

theorem lampRoom_runs : ∃ s, Scene.run realEnv {} lampRoom = .ok s ∧ ∀ ext dt sky col, World.Renders ⟨s, realEnv, ext, dt, sky, col⟩ lampScene := by
  have hal : lampScene.Aligned := ⟨rfl, rfl, rfl⟩
  obtain ⟨s1, bvh, e, _⟩ := rebuild_spec realEnv refEnv_lawful lampScene hal
  refine ⟨s1, ?_, fun ext dt sky col => ⟨refEnv_lawful, refEnv_conservative, hal, fits_of_small _ (by simp [lampScene]), Or.inr e⟩⟩
  have : Scene.run realEnv {} lampRoom = (lampScene.rebuildAccelerator realEnv).bind fun s => .ok s := by
    simp only [lampRoom, Scene.run, Scene.step, Scene.pushMaterial, Scene.pushObject, mesh_plane, List.nil_append, List.cons_append, List.getElem?_cons_zero, List.getElem?_cons_succ, Material.emitsDirectLight, Bool.or_self, Bool.false_eq_true, if_false, if_true, Primitive.id,
      Res.bind_ok, List.length_singleton, List.replicate_one, Scene.buildAccelerator, Option.isSome_none]
    rfl
  rw [this, e]
  rfl

/-- A primary ray onto a matt surface, without ambient samples: the answer is the direct light. -/
theorem outcome_direct (w : World) (rt : RayTracer) (hamb : rt.maxDepth = 0 ∨ rt.nAmbientSamples = 0) (fuel : Nat) (rng : Rng) (rays : List TRay) (hr : rt.maxDepth < rays.length) (ray : TRay) (i : Nat) (hit : TRay) (hcast : w.cast ray = .ok (some (i, hit))) (hdep : hit.depth = 0)
    (hside : hit.interaction.shading.side ≠ .NonApplicable) (col : Spectrum ℝ) (r : ℝ) (hmat : w.materialAt hit.interaction.shading.side i = .ok (.plastic col 0 r)) (n0 n1 n2 : Vec3 ℝ) (hn : w.scene.normals[i]? = some (n0, n1, n2)) :
    outcome (traceRay w rt (fuel + 1) ⟨rng, rays⟩ ray) = (w.localIllumination fuel (.plastic col 0 r) { hit with interaction := hit.interaction.interpolateNormal n0 n1 n2 } rng rt.nShadowSamples).bind fun x => .ok ((x.1, 0), x.2) := by
  rw [C75_is_reference_tracer w rt _ rng rays ray hr]
  obtain ⟨g, ri, it, dep, vl, cl⟩ := hit
  simp only at hdep hside hmat ⊢
  subst hdep
  simp only [refTrace, hcast, Res.bind_ok, hside, if_false, hmat, refSurface, Material.emitsLight, Material.specularOnly, Bool.false_eq_true, hn, Res.ofOption_some, TRay.getNAmbientSamples, hamb, if_true, gt_iff_lt, Nat.not_lt_zero, spectrum_add_black]

/-- Where the ray straight down meets the floor of the lamp room. -/
theorem lamp_cast {w : World} (hR : w.Renders lampScene) : ∃ i b, w.cast downRay = .ok (some (i, { downRay with interaction := recordedInteraction (plane 0) downRay.geometry b })) ∧
    (recordedInteraction (plane 0) downRay.geometry b).shading.side = .Front ∧ (recordedInteraction (plane 0) downRay.geometry b).shading.normal = ⟨0, 0, 1⟩ ∧ (recordedInteraction (plane 0) downRay.geometry b).point = ⟨0, 0, 0⟩ ∧
    w.materialAt .Front i = .ok (.plastic (Spectrum.gray (1 / 2)) 0 0) ∧ w.scene.normals[i]? = some (⟨0, 0, 1⟩, ⟨0, 0, 1⟩, ⟨0, 0, 1⟩) := by
  have hd : Norm downRay.geometry.direction = 1 := Norm_eq_one (by norm_num [Dot, downRay])
  rcases hR.cast_cases downRay with ⟨_, hno⟩ | ⟨i, tri, b, j, hc, hj, hb, _, _, hfr, hbk, hnm, _⟩
  · exact absurd downRay_inRange (hno (plane 0) (by simp [lampScene]) _ downRay_visible)
  · obtain ⟨⟨h1, h2, h3, _⟩, _⟩ := baricentric_sound downRay.geometry tri b hb
    set t := b.t
    set u := b.u
    set v := b.v
    have ht : 0 < t := lt_trans (by norm_num) h2
    have hx : b.p.x = 0 := by rw [h1]; simp [downRay]
    have hy : b.p.y = 0 := by rw [h1]; simp [downRay]
    have hz : b.p.z = 1 / 2 - t := by rw [h1]; simp [downRay]; ring
    have hj0 : j = 0 ∧ tri = plane 0 := by
      rcases j with _ | _ | j
      · simp only [lampScene, List.getElem?_cons_zero, Option.some.injEq] at hj
        exact ⟨rfl, hj.symm⟩
      · exfalso
        simp only [lampScene, List.getElem?_cons_succ, List.getElem?_cons_zero, Option.some.injEq] at hj
        subst hj
        have : b.p.z = 1 := by rw [h3]; simp [plane]; ring
        linarith
      · simp [lampScene] at hj
    obtain ⟨rfl, rfl⟩ := hj0
    have hgn : (geometricNormal (plane 0)).normalized = ⟨0, 0, 1⟩ := plane_normal 0
    obtain ⟨hp, _, hside, hdn, _⟩ := recorded_spec (plane 0) downRay.geometry b hd hb
    have hbp : b.p = ⟨0, 0, 0⟩ := by
      have : b.p.z = 0 := by rw [h3]; simp [plane]
      ext <;> simp [hx, hy, this]
    rcases hside with h | h
    · refine ⟨i, b, hc, h.1, by rw [h.2, hgn], by rw [hp, hbp], ?_, by rw [hnm]; rfl⟩
      simp only [World.materialAt, hfr, hR.same.1]
      rfl
    · exfalso
      rw [h.2, hgn] at hdn
      simp [Dot, downRay] at hdn
      linarith


/-- Below the lamp, whatever meets it meets its back, on which the normal points down. -/
theorem lamp_info (pt d : Vec3 ℝ) (hz : pt.z < 1) (info : IntersectionInfo) (h : triangleIntersectInfo (plane 1) ⟨pt, d⟩ = some info) : info.normal = ⟨0, 0, -1⟩ ∧ info.side = .Back := by
  unfold triangleIntersectInfo at h
  cases hb : baricentricCoordinates (⟨pt, d⟩ : Ray3 ℝ) (plane 1) with
  | none => rw [hb] at h; cases h
  | some b =>
    rw [hb] at h
    obtain ⟨⟨h1, h2, h3, _⟩, _⟩ := baricentric_sound _ _ _ hb
    have hp : b.p.z = 1 := by rw [h3]; simp [plane]; ring
    rw [h1] at hp
    simp only [Vec3.add_z, Vec3.scale_z] at hp
    have ht : 0 < b.t := lt_trans (by norm_num) h2
    have hdz : 0 < d.z := by
      by_contra hn
      push Not at hn
      nlinarith
    have hn : (((plane 1).b - (plane 1).a).cross ((plane 1).c - (plane 1).a)).normalized = ⟨0, 0, 1⟩ := plane_normal 1
    have hs : getSide ⟨0, 0, 1⟩ d = (-(⟨0, 0, 1⟩ : Vec3 ℝ), .Back) := by
      unfold getSide
      rw [if_neg (by simp [Vec3.dot]; exact hdz.le), if_pos (by simpa [Vec3.dot] using hdz)]
    simp only [Option.some.injEq] at h
    subst h
    simp only [newInfo, hn, hs, and_true]
    ext <;> simp

/-- From a point between the origin's height and the lamp, the lamp is given no probability, in any direction. -/
theorem lamp_unlikely {w : World} (hX : ∀ t ray, w.ext.primIntersect (.triangle t) ray = triangleIntersectInfo t ray) (pt d : Vec3 ℝ) (hz0 : 0 ≤ pt.z) (hz : pt.z < 1) (c : Spectrum ℝ) (pdf : ℝ) (h : w.intersectLight lamp ⟨pt, d⟩ = .ok (some (c, pdf))) : pdf = 0 := by
  unfold World.intersectLight at h
  rw [show w.ext.primIntersect lamp.primitive ⟨pt, d⟩ = triangleIntersectInfo (plane 1) ⟨pt, d⟩ from hX _ _] at h
  cases hi : triangleIntersectInfo (plane 1) ⟨pt, d⟩ with
  | none => rw [hi] at h; cases h
  | some info =>
    rw [hi] at h
    obtain ⟨hn, hs⟩ := lamp_info pt d hz info hi
    have hp : lamp.primitive.solidAnglePdf info ⟨pt, d⟩ = .ok 0 := (C79_violation_triangle w.ext (plane 1) (fun _ => 0) pt).2 info d (by rw [hn]; simpa [Dot] using hz0)
    simp only [hs, hp, Res.bind_ok] at h
    obtain ⟨free, _, h⟩ := Res.bind_eq_ok h
    cases free with
    | false =>
      simp only [Bool.not_false, if_true, Res.ok.injEq, Option.some.injEq, Prod.mk.injEq] at h
      exact h.2.symm
    | true =>
      simp only [Bool.not_true, Bool.false_eq_true, if_false] at h
      obtain ⟨m, _, h⟩ := Res.bind_eq_ok h
      simp only [Res.ok.injEq, Option.some.injEq, Prod.mk.injEq] at h
      exact h.2.symm

theorem lamp_loop {w : World} (hX : ∀ t ray, w.ext.primIntersect (.triangle t) ray = triangleIntersectInfo t ray) (m : Material ℝ) (ray : TRay) (n : Nat) (pt normal e1 e2 : Vec3 ℝ) (hz0 : 0 ≤ pt.z) (hz : pt.z < 1) (fuel i : Nat) (acc acc' : Spectrum ℝ) (rng rng' : Rng)
    (h : w.lightLoop m ray n pt normal e1 e2 lamp fuel i acc rng = .ok (acc', rng')) : acc' = acc := by
  induction fuel generalizing i acc rng with
  | zero => cases h
  | succ fuel ih =>
    unfold World.lightLoop at h
    split_ifs at h with hi
    · obtain ⟨⟨d, rng1⟩, _, h⟩ := Res.bind_eq_ok h
      obtain ⟨r, hr, h⟩ := Res.bind_eq_ok h
      cases r with
      | none => exact ih _ _ _ h
      | some x =>
        obtain ⟨c, pdf⟩ := x
        have := lamp_unlikely hX pt d hz0 hz c pdf hr
        subst this
        simp only at h
        rw [if_pos (by norm_num)] at h
        exact ih _ _ _ h
    · simp only [Res.ok.injEq, Prod.mk.injEq] at h
      exact h.1.symm


/-- Two random numbers that draw the point of the lamp above the origin. -/
noncomputable def straightUp : Rng := fun n => if n = 0 then 4 / 9 else 1 / 2

theorem straightUp_draws (ext : GeoExt) : lamp.primitive.sampleDirection ext straightUp ⟨0, 0, 1 / 1000⟩ = .ok (⟨0, 0, 1⟩, fun n => straightUp (n + 2)) := by
  have hs : Real.sqrt (4 / 9) = 2 / 3 := by rw [show (4 / 9 : ℝ) = (2 / 3) ^ 2 by norm_num]; exact Real.sqrt_sq (by norm_num)
  have c1 : clampR (4 / 9) (1 / 10 ^ 8) (1 - 1 / 10 ^ 8) = 4 / 9 := by norm_num [clampR]
  have c2 : clampR (1 / 2) (1 / 10 ^ 8) (1 - 1 / 10 ^ 8) = 1 / 2 := by norm_num [clampR]
  have e : (sampleTriangleSurface (plane 1) straightUp) = (⟨0, 0, 1⟩, fun n => straightUp (n + 2)) := by
    have hr : straightUp 0 = 4 / 9 ∧ straightUp 1 = 1 / 2 := by simp [straightUp]
    simp only [sampleTriangleSurface, uniformSampleTriangle, Rng.gen2, hr.1, hr.2, c1, c2, hs, plane, Prod.mk.injEq, and_true]
    ext <;> norm_num [Vec3.scale]
  simp only [lamp, Primitive.sampleDirection, Primitive.sampleSurface, e, Res.bind_ok]
  congr 2
  have : (⟨0, 0, 1⟩ - ⟨0, 0, 1 / 1000⟩ : Vec3 ℝ) = ⟨0, 0, 999 / 1000⟩ := by ext <;> norm_num
  have hl : (⟨0, 0, 999 / 1000⟩ : Vec3 ℝ).length = 999 / 1000 := by
    rw [Vec3.length_eq]
    unfold Norm
    rw [show ((0 : ℝ) ^ 2 + 0 ^ 2 + (999 / 1000) ^ 2) = (999 / 1000) ^ 2 by norm_num]
    exact Real.sqrt_sq (by norm_num)
  rw [this, Vec3.normalized, hl]
  ext <;> norm_num [Vec3.scale]

theorem lamp_above : ∃ info, triangleIntersectInfo (plane 1) ⟨⟨0, 0, 1 / 1000⟩, ⟨0, 0, 1⟩⟩ = some info ∧ info.p = ⟨0, 0, 1⟩ ∧ info.normal = ⟨0, 0, -1⟩ ∧ info.side = .Back := by
  have hb := baricentric_complete (⟨⟨0, 0, 1 / 1000⟩, ⟨0, 0, 1⟩⟩ : Ray3 ℝ) (plane 1) (999 / 1000) (1 / 3) (1 / 3) ⟨0, 0, 1⟩ (by ext <;> norm_num [Vec3.scale]) (by ext <;> norm_num [Vec3.scale, plane]) (by norm_num) (by norm_num) (by norm_num) (by norm_num)
    (by norm_num [tripleProduct, plane])
  have hi : triangleIntersectInfo (plane 1) ⟨⟨0, 0, 1 / 1000⟩, ⟨0, 0, 1⟩⟩ = some (newInfo (plane 1) ⟨0, 0, 1⟩ (1 / 3) (1 / 3) ⟨0, 0, 1⟩) := by
    unfold triangleIntersectInfo
    rw [hb]
  obtain ⟨h1, h2⟩ := lamp_info _ _ (by norm_num) _ hi
  exact ⟨_, hi, rfl, h1, h2⟩

/-- Nothing is between the floor and the lamp. -/
theorem lamp_free {w : World} (hR : w.Renders lampScene) : w.scene.unobstructedDistance w.env ⟨⟨0, 0, 1 / 1000⟩, ⟨0, 0, 1⟩⟩ ((⟨0, 0, 1 / 1000⟩ : Vec3 ℝ) - ⟨0, 0, 1⟩).lengthSq [] = .ok true := by
  have hfree : ¬ PossiblyShadowed lampScene ⟨0, 0, 1 / 1000⟩ ⟨0, 0, 1⟩ ⟨0, 0, 1⟩ := by
    rintro ⟨tri, ht, t, p, u, v, ⟨h1, h2, h3, _⟩, hb, hb', _⟩
    simp only [lampScene, List.mem_cons, List.not_mem_nil, or_false] at ht
    have ez : p.z = 1 / 1000 + t := by rw [h1]; simp [Vec3.scale]
    have ex : p.x = 0 := by rw [h1]; simp [Vec3.scale]
    have ey : p.y = 0 := by rw [h1]; simp [Vec3.scale]
    have h0 : (0 : ℝ) < 1 / 10 ^ 5 := by norm_num
    rcases ht with rfl | rfl
    · have : p.z = 0 := by rw [h3]; simp [Vec3.scale, plane]
      linarith
    · have : p.z = 1 := by rw [h3]; simp [Vec3.scale, plane]; ring
      have e1 : distSq p ⟨0, 0, 1 / 1000⟩ = distSq (⟨0, 0, 1 / 1000⟩ : Vec3 ℝ) ⟨0, 0, 1⟩ := by simp only [distSq, ex, ey, this]; ring
      have : (0 : ℝ) < 1 / 10 ^ 6 := by norm_num
      rw [e1] at hb'
      linarith
  rw [distSq_eq]
  obtain ⟨free, e, _, c2⟩ := C03_unobstructed w.env hR.lawful hR.box lampScene w.scene hR.aligned hR.fits hR.built ⟨⟨0, 0, 1 / 1000⟩, ⟨0, 0, 1⟩⟩ (distSq ⟨0, 0, 1 / 1000⟩ ⟨0, 0, 1⟩) []
  cases free with
  | true => exact e
  | false => exact absurd (c2 rfl) hfree

theorem plane_down : (plane 1).shift ⟨0, 0, -2⟩ = plane (-1) := by
  unfold Tri.shift plane
  congr 1 <;> ext <;> norm_num

theorem local_one (w : World) (l : Object ℝ) (hl : w.scene.lights = [l]) (hd : w.scene.distantLights = []) (fuel : Nat) (m : Material ℝ) (ray : TRay) (rng : Rng) (n : Nat) (p N e1 e2 : Vec3 ℝ) (ht : ray.getTriad = (p, N, e1, e2)) :
    w.localIllumination fuel m ray rng n = w.lightLoop m ray n (p + N.scale (1 / 1000)) N e1 e2 l fuel 0 Spectrum.black rng := by
  unfold World.localIllumination World.sampleLightArray
  rw [hl, hd, ht]
  simp only [World.lightsLoop, bind_assoc', Res.bind_ok, spectrum_add_black]
  cases w.lightLoop m ray n (p + N.scale (1 / 1000)) N e1 e2 l fuel 0 Spectrum.black rng <;> rfl

/-- **C108, violation.** A floor and, one unit above it, a luminous triangle; and the same room two units lower.  With the very same random numbers and direct lighting by one sample, the floor is black in the first room and lit in the second: the probability of a shadow ray
towards a triangle is computed from the coordinates of the point instead of the direction of the ray.  (In the first room it is black with any number of samples, whatever the random numbers.) -/
theorem C108_violation_lamp : ∃ (s s' : Scene ℝ), Scene.run realEnv {} lampRoom = .ok s ∧ Scene.run realEnv {} (lampRoom.map (SceneOp.shift ⟨0, 0, -2⟩)) = .ok s' ∧ ∀ (ext : GeoExt) (dt : DirTests), ext.Uniform → (∀ t ray, ext.primIntersect (.triangle t) ray = triangleIntersectInfo t ray) →
    (∀ n fuel rng x, outcome (traceRay ⟨s, realEnv, ext, dt, none, none⟩ ⟨0, n, 70, 1 / 1000, 3 / 10⟩ fuel ⟨rng, defaultRays⟩ downRay) = .ok x → x.1.1 = Spectrum.black) ∧
    ∃ rng' v, outcome (traceRay ⟨s, realEnv, ext, dt, none, none⟩ ⟨0, 1, 70, 1 / 1000, 3 / 10⟩ 3 ⟨straightUp, defaultRays⟩ downRay) = .ok ((Spectrum.black, 0), rng') ∧
      outcome (traceRay ⟨s', realEnv, ext, dt, none, none⟩ ⟨0, 1, 70, 1 / 1000, 3 / 10⟩ 3 ⟨straightUp, defaultRays⟩ (downRay.shift ⟨0, 0, -2⟩)) = .ok ((v, 0), rng') ∧ 0 < v.c0 ∧ 0 < v.c1 ∧ 0 < v.c2 := by
  obtain ⟨s, hrun, hRall⟩ := lampRoom_runs
  refine ⟨s, s.shift ⟨0, 0, -2⟩, hrun, ?_, fun ext dt hX hT => ?_⟩
  · have : Scene.run realEnv {} (lampRoom.map (SceneOp.shift ⟨0, 0, -2⟩)) = (Scene.run realEnv {} lampRoom).bind fun s => .ok (s.shift ⟨0, 0, -2⟩) := run_shift realEnv_uniform _ lampRoom {}
    rw [this, hrun]
    rfl
  have hR := hRall ext dt none none
  set w : World := ⟨s, realEnv, ext, dt, none, none⟩ with hw
  obtain ⟨i, b, hc, hside, hN, hpt, hmat, hnm⟩ := lamp_cast hR
  set it := recordedInteraction (plane 0) downRay.geometry b
  have hin : (it.interpolateNormal ⟨0, 0, 1⟩ ⟨0, 0, 1⟩ ⟨0, 0, 1⟩).shading.normal = ⟨0, 0, 1⟩ ∧ (it.interpolateNormal ⟨0, 0, 1⟩ ⟨0, 0, 1⟩ ⟨0, 0, 1⟩).point = ⟨0, 0, 0⟩ := by
    obtain ⟨_, h1, _, h2⟩ := C21_interpolated_normal_partial it ⟨0, 0, 1⟩
    rw [h1 (Norm_eq_one (by norm_num [Dot])), h2, hpt, hside]
    exact ⟨if_neg (by simp), rfl⟩
  set hit : TRay := { downRay with interaction := it.interpolateNormal ⟨0, 0, 1⟩ ⟨0, 0, 1⟩ ⟨0, 0, 1⟩ } with hhit
  have htri : hit.getTriad = (⟨0, 0, 0⟩, ⟨0, 0, 1⟩, hit.interaction.shading.dpdu, hit.interaction.shading.dpdv) := by
    unfold TRay.getTriad
    rw [show hit.interaction.point = _ from hin.2, show hit.interaction.shading.normal = _ from hin.1]
  have hlen : ∀ n, (⟨0, n, 70, 1 / 1000, 3 / 10⟩ : RayTracer).maxDepth < defaultRays.length := fun n => by simp [defaultRays]
  have hl : w.scene.lights = [lamp] := hR.same.2.1
  have hdl : w.scene.distantLights = [] := hR.same.2.2
  have hpt' : (⟨0, 0, 0⟩ : Vec3 ℝ) + (⟨0, 0, 1⟩ : Vec3 ℝ).scale (1 / 1000) = ⟨0, 0, 1 / 1000⟩ := by ext <;> norm_num [Vec3.scale]
  have hout : ∀ n fuel rng, outcome (traceRay w ⟨0, n, 70, 1 / 1000, 3 / 10⟩ (fuel + 1) ⟨rng, defaultRays⟩ downRay) =
      (w.lightLoop (.plastic (Spectrum.gray (1 / 2)) 0 0) hit n ⟨0, 0, 1 / 1000⟩ ⟨0, 0, 1⟩ hit.interaction.shading.dpdu hit.interaction.shading.dpdv lamp fuel 0 Spectrum.black rng).bind fun x => .ok ((x.1, 0), x.2) := by
    intro n fuel rng
    rw [outcome_direct w ⟨0, n, 70, 1 / 1000, 3 / 10⟩ (Or.inl rfl) fuel rng defaultRays (hlen n) downRay i _ hc rfl (by rw [show ({ downRay with interaction := it } : TRay).interaction.shading.side = .Front from hside]; simp) _ 0 (by rw [show ({ downRay with interaction := it } : TRay).interaction.shading.side = .Front from hside]; exact hmat) _ _ _ hnm,
      local_one w lamp hl hdl _ _ _ _ _ _ _ _ _ htri, hpt']
  obtain ⟨info, hi, hip, hinn, his⟩ := lamp_above
  refine ⟨fun n fuel rng x h => ?_, ?_⟩
  · cases fuel with
    | zero => cases h
    | succ fuel =>
      rw [hout] at h
      obtain ⟨⟨a, r⟩, h1, h2⟩ := Res.bind_eq_ok h
      cases h2
      exact lamp_loop hT _ _ _ _ _ _ _ (by norm_num) (by norm_num) _ _ _ _ _ _ h1
  · have hI : w.intersectLight lamp ⟨⟨0, 0, 1 / 1000⟩, ⟨0, 0, 1⟩⟩ = .ok (some (Spectrum.gray 5, 0)) := by
      unfold World.intersectLight
      rw [show w.ext.primIntersect lamp.primitive ⟨⟨0, 0, 1 / 1000⟩, ⟨0, 0, 1⟩⟩ = some info from (hT _ _).trans hi]
      have hp : lamp.primitive.solidAnglePdf info ⟨⟨0, 0, 1 / 1000⟩, ⟨0, 0, 1⟩⟩ = .ok 0 := (C79_violation_triangle w.ext (plane 1) (fun _ => 0) _).2 info _ (by rw [hinn]; norm_num [Dot])
      simp only [hip, lamp_free hR, his, hp, Res.bind_ok, hR.same.1]
      rfl
    set u : Vec3 ℝ := ⟨0, 0, -2⟩ with hu
    set w' : World := w.shift u with hw'
    have ha : triangleArea (plane (-1)) = 9 / 2 := by
      rw [C18_area_is_half_cross]
      have : geometricNormal (plane (-1)) = ⟨0, 0, 9⟩ := by ext <;> norm_num [geometricNormal, Cross, plane]
      rw [doubleArea, this, Norm, show ((0 : ℝ) ^ 2 + 0 ^ 2 + 9 ^ 2) = 9 ^ 2 by norm_num, Real.sqrt_sq (by norm_num)]
    have hpt2 : (⟨0, 0, 1 / 1000⟩ : Vec3 ℝ) + u = ⟨0, 0, -1999 / 1000⟩ := by ext <;> norm_num [hu]
    have hI' : w'.intersectLight (lamp.shift u) ⟨(⟨0, 0, 1 / 1000⟩ : Vec3 ℝ) + u, ⟨0, 0, 1⟩⟩ = .ok (some (Spectrum.gray 5, 998001 / 1000000 / (1999 / 1000) / (9 / 2))) := by
      unfold World.intersectLight
      have h1 : w'.ext.primIntersect (lamp.shift u).primitive ⟨(⟨0, 0, 1 / 1000⟩ : Vec3 ℝ) + u, ⟨0, 0, 1⟩⟩ = some (info.shift u) := by
        have h2 := hX u lamp.primitive ⟨⟨0, 0, 1 / 1000⟩, ⟨0, 0, 1⟩⟩
        rw [show ext.primIntersect lamp.primitive ⟨⟨0, 0, 1 / 1000⟩, ⟨0, 0, 1⟩⟩ = some info from (hT _ _).trans hi] at h2
        exact h2
      have h3 : w'.scene.unobstructedDistance w'.env ⟨(⟨0, 0, 1 / 1000⟩ : Vec3 ℝ) + u, ⟨0, 0, 1⟩⟩ ((⟨0, 0, 1 / 1000⟩ : Vec3 ℝ) - ⟨0, 0, 1⟩).lengthSq [] = .ok true := by
        have := unobstructedDistance_shift realEnv_uniform u w.scene ⟨⟨0, 0, 1 / 1000⟩, ⟨0, 0, 1⟩⟩ ((⟨0, 0, 1 / 1000⟩ : Vec3 ℝ) - ⟨0, 0, 1⟩).lengthSq []
        rw [show w.scene.unobstructedDistance realEnv _ _ [] = .ok true from lamp_free hR] at this
        exact this
      have hp : (lamp.shift u).primitive.solidAnglePdf (info.shift u) ⟨(⟨0, 0, 1 / 1000⟩ : Vec3 ℝ) + u, ⟨0, 0, 1⟩⟩ = .ok (998001 / 1000000 / (1999 / 1000) / (9 / 2)) := by
        have e : (info.shift u).p = ⟨0, 0, -1⟩ := by
          change info.p + u = _
          rw [hip]
          ext <;> norm_num [hu]
        have e' : (info.shift u).normal = ⟨0, 0, -1⟩ := hinn
        simp only [Object.shift, lamp, Primitive.shift, Primitive.solidAnglePdf, primTriangleSolidAnglePdf, e, e', show (plane 1).shift u = plane (-1) from plane_down, ha, hpt2]
        rw [if_neg (by norm_num [Vec3.dot])]
        norm_num [Vec3.dot, Vec3.lengthSq]
      have hs' : (info.shift u).side = .Back := his
      have hq : ((⟨0, 0, 1 / 1000⟩ : Vec3 ℝ) + u) - (info.shift u).p = (⟨0, 0, 1 / 1000⟩ : Vec3 ℝ) - ⟨0, 0, 1⟩ := by
        change ((⟨0, 0, 1 / 1000⟩ : Vec3 ℝ) + u) - (info.p + u) = _
        rw [add_sub_shift, hip]
      have hm : w'.scene.materials = lampScene.materials := hR.same.1
      simp only [h1, hq, h3, hs', hp, Res.bind_ok, hm]
      rfl
    refine ⟨fun n => straightUp (n + 2), (Spectrum.gray 5 * plasticBsdf (Spectrum.gray (1 / 2)) 0 (1 / Real.pi)).divBy (998001 / 1000000 / (1999 / 1000) / (9 / 2)), ?_, ?_, ?_⟩
    · rw [hout]
      simp only [World.lightLoop, zero_lt_one, if_true, straightUp_draws, Res.bind_ok, hI]
      rw [if_pos (by norm_num)]
      rfl
    · have hc' : w'.cast (downRay.shift u) = .ok (some (i, ({ downRay with interaction := it } : TRay).moved u)) := by
        have := cast_shift (w := w) (v := u) realEnv_uniform (displaced_shift u downRay)
        rw [hc] at this
        exact this
      have hl' : w'.scene.lights = [lamp.shift u] := by
        change w.scene.lights.map _ = _
        rw [hl]
        rfl
      have hdl' : w'.scene.distantLights = [] := by
        change w.scene.distantLights.map _ = _
        rw [hdl]
        rfl
      have hdraw : (lamp.shift u).primitive.sampleDirection w'.ext straightUp ((⟨0, 0, 1 / 1000⟩ : Vec3 ℝ) + u) = .ok (⟨0, 0, 1⟩, fun n => straightUp (n + 2)) := (sampleDirection_shift w.ext lamp.primitive straightUp _).trans (straightUp_draws _)
      have htri' : (hit.moved u).getTriad = ((⟨0, 0, 0⟩ : Vec3 ℝ) + u, ⟨0, 0, 1⟩, hit.interaction.shading.dpdu, hit.interaction.shading.dpdv) := by
        have : (hit.moved u).getTriad = (hit.getTriad.1 + u, hit.getTriad.2.1, hit.getTriad.2.2.1, hit.getTriad.2.2.2) := rfl
        rw [this, htri]
      have hp3 : (⟨0, 0, 0⟩ : Vec3 ℝ) + u + (⟨0, 0, 1⟩ : Vec3 ℝ).scale (1 / 1000) = (⟨0, 0, 1 / 1000⟩ : Vec3 ℝ) + u := by ext <;> norm_num [Vec3.scale, hu]
      have hout' := outcome_direct w' ⟨0, 1, 70, 1 / 1000, 3 / 10⟩ (Or.inl rfl) 2 straightUp defaultRays (hlen 1) (downRay.shift u) i _ hc' rfl (by rw [show (({ downRay with interaction := it } : TRay).moved u).interaction.shading.side = .Front from hside]; simp) (Spectrum.gray (1 / 2)) 0
        (by rw [show (({ downRay with interaction := it } : TRay).moved u).interaction.shading.side = .Front from hside]; exact hmat) _ _ _ hnm
      have hq := local_one w' (lamp.shift u) hl' hdl' 2 (.plastic (Spectrum.gray (1 / 2)) 0 0) (hit.moved u) straightUp 1 _ _ _ _ htri'
      rw [hp3] at hq
      refine hout'.trans ?_
      refine (congrArg (fun q => Res.bind q _) hq).trans ?_
      have hlow : ¬ ((998001 : ℝ) / 1000000 / (1999 / 1000) / (9 / 2) < 1 / 10 ^ 18) := by norm_num
      simp only [World.lightLoop, zero_lt_one, if_true, hdraw, hI', Res.bind_ok, hlow, if_false, zero_add, lt_irrefl]
      simp only [World.lightTerm, Material.evalBsdf, evaluateWard, gt_iff_lt, Res.bind_ok]
      rw [if_neg (by norm_num)]
      simp only [Res.bind_ok]
      congr 3
      ext <;> simp [Spectrum.black, Spectrum.gray, Spectrum.divBy, plasticBsdf, Spectrum.scale, Vec3.dot]
    · have := Real.pi_pos
      refine ⟨?_, ?_, ?_⟩ <;> simp [Spectrum.gray, Spectrum.divBy, plasticBsdf, Spectrum.scale] <;> positivity


/-! ### Cases -/

/-- A grey floor and a mirror under a sun, with the accelerator built. -/
noncomputable def sunnyRoom : List (SceneOp ℝ) :=
  [.pushMaterial (.plastic (Spectrum.gray (1 / 2)) 0 0), .pushMaterial (.mirror (Spectrum.gray (9 / 10))), .pushObject 0 0 (.triangle (plane 0)), .pushObject 1 0 (.triangle (plane (-1))), .addPerezSky (some (⟨0, 0, 1⟩, 5, 1)), .rebuild]

theorem sunnyRoom_runs (env : SceneEnv ℝ) (hB : env.bvh.Lawful) (hM : env.MeshAligned) : ∃ s, Scene.run env {} sunnyRoom = .ok s ∧ s.lights = [] ∧ s.distantLights ≠ [] ∧ s.triangles ≠ [] := by
  obtain ⟨s0, h0, hl, hd, ht⟩ : ∃ s0 : Scene ℝ, Scene.run env {} (sunnyRoom.take 5) = .ok s0 ∧ s0.lights = [] ∧ s0.distantLights.length = 1 ∧ s0.triangles = [plane 0, plane (-1)] := ⟨_, rfl, rfl, rfl, rfl⟩
  obtain ⟨s1, bvh, e, _, _, h3, _, _, h6, h7, _⟩ := rebuild_spec env hB s0 (C10_aligned_and_valid env hB hM _ s0 h0).1
  refine ⟨s1, ?_, by rw [h6, hl], by rw [h7]; exact fun h => (by rw [h] at hd; cases hd), ?_⟩
  · have : Scene.run env {} sunnyRoom = (Scene.run env {} (sunnyRoom.take 5)).bind fun s => (s.rebuildAccelerator env).bind fun s => .ok s := rfl
    rw [this, h0, Res.bind_ok, e]
    rfl
  · intro h
    rw [h, ht] at h3
    cases h3

/-- C108: the room of mirrors and floors, a hundred units away. -/
example (rng : Rng) (fuel : Nat) : ∃ s s' : Scene ℝ, Scene.run realEnv {} sunnyRoom = .ok s ∧ Scene.run realEnv {} (sunnyRoom.map (SceneOp.shift ⟨100, 0, 0⟩)) = .ok s' ∧ s.distantLights ≠ [] ∧
    (∀ ray scratch, s'.castRay realEnv (ray.shift ⟨100, 0, 0⟩) scratch = (s.castRay realEnv ray scratch).bind fun r => .ok (r.map fun x => (x.1, { x.2 with p := x.2.p + ⟨100, 0, 0⟩ }))) ∧
    outcome (traceRay ⟨s', realEnv, plainExt fun _ => none, ⟨fun _ _ => false, fun _ _ => false⟩, none, none⟩ ⟨2, 10, 70, 1 / 1000, 3 / 10⟩ fuel ⟨rng, defaultRays⟩ (downRay.shift ⟨100, 0, 0⟩)) =
      outcome (traceRay ⟨s, realEnv, plainExt fun _ => none, ⟨fun _ _ => false, fun _ _ => false⟩, none, none⟩ ⟨2, 10, 70, 1 / 1000, 3 / 10⟩ fuel ⟨rng, defaultRays⟩ downRay) := by
  obtain ⟨s, h, hl, hd, _⟩ := sunnyRoom_runs realEnv refEnv_lawful (fun _ _ => rfl)
  obtain ⟨s', h', key⟩ := C108_moved_partial realEnv refEnv_lawful (fun _ _ => rfl) realEnv_uniform (plainExt fun _ => none) (plainExt_uniform _) ⟨100, 0, 0⟩ sunnyRoom s h hl
  obtain ⟨s2, h2, hq, _⟩ := (C108_queries_moved realEnv realEnv_uniform ⟨100, 0, 0⟩ sunnyRoom).2 s h
  rw [h'] at h2
  cases h2
  exact ⟨s, s', h, h', hd, hq, key _ _ _ _ _ _ _ _ (by simp [defaultRays])⟩

/-- C108: its picture. -/
example (rng : Nat → Rng) (fuel : Nat) : ∃ (s s' : Scene ℝ) (st st' : RState TState (Spectrum ℝ)), Scene.run realEnv {} sunnyRoom = .ok s ∧ Scene.run realEnv {} (sunnyRoom.map (SceneOp.shift ⟨100, 0, 0⟩)) = .ok s' ∧
    lookDown.Rendered ⟨s, realEnv, plainExt fun _ => none, ⟨fun _ _ => false, fun _ _ => false⟩, none, none⟩ fuel rng st ∧
    ({ lookDown with viewPoint := lookDown.viewPoint + ⟨100, 0, 0⟩ } : SpictOptions).Rendered ⟨s', realEnv, plainExt fun _ => none, ⟨fun _ _ => false, fun _ _ => false⟩, none, none⟩ fuel rng st' ∧
    renderPixels 3 3 st' = renderPixels 3 3 st := by
  obtain ⟨s, h, hl, hd, _⟩ := sunnyRoom_runs realEnv refEnv_lawful (fun _ _ => rfl)
  obtain ⟨s', h', _⟩ := C108_moved_partial realEnv refEnv_lawful (fun _ _ => rfl) realEnv_uniform (plainExt fun _ => none) (plainExt_uniform _) ⟨100, 0, 0⟩ sunnyRoom s h hl
  obtain ⟨st, hr⟩ := rendered_exists lookDown lookDown_sized ⟨s, realEnv, plainExt fun _ => none, ⟨fun _ _ => false, fun _ _ => false⟩, none, none⟩ fuel rng
  obtain ⟨st', hr'⟩ := rendered_exists { lookDown with viewPoint := lookDown.viewPoint + ⟨100, 0, 0⟩ } ⟨lookDown_sized.1, lookDown_sized.2, lookDown_sized.3⟩ ⟨s', realEnv, plainExt fun _ => none, ⟨fun _ _ => false, fun _ _ => false⟩, none, none⟩ fuel rng
  exact ⟨s, s', st, st', h, h', hr, hr', C108_picture_partial realEnv refEnv_lawful (fun _ _ => rfl) realEnv_uniform _ (plainExt_uniform _) _ sunnyRoom s s' h h' hl _ _ _ lookDown lookDown_sized (by norm_num [lookDown]) fuel rng st st' hr hr'⟩

theorem ball_runs (env : SceneEnv ℝ) : ∃ s0 : Scene ℝ, Scene.run env {} [.pushMaterial (.plastic (Spectrum.gray (1 / 2)) 0 0), .pushMaterial (.light (Spectrum.gray 5)), .pushObject 0 0 (.triangle (plane 0)), .pushObject 1 1 (.sphere ⟨0, 0, 2⟩ 1)] = .ok s0 ∧
    s0.lights = [{ front := 1, back := 1, primitive := .sphere ⟨0, 0, 2⟩ 1 }] := ⟨_, rfl, rfl⟩

/-- C108: a floor lit by a luminous ball (with the mesh of the code), somewhere else. -/
example (rng : Rng) (fuel : Nat) : ∃ s s' : Scene ℝ, s.lights ≠ [] ∧
    ((outcome (traceRay ⟨s', ⟨refEnv ℝ, Vec3.normalized, meshSphere⟩, plainExt fun _ => none, ⟨fun _ _ => false, fun _ _ => false⟩, none, none⟩ ⟨0, 10, 70, 1 / 1000, 3 / 10⟩ fuel ⟨rng, defaultRays⟩ (downRay.shift ⟨100, 0, 0⟩))).bind fun x => .ok x.1.1) =
      (outcome (traceRay ⟨s, ⟨refEnv ℝ, Vec3.normalized, meshSphere⟩, plainExt fun _ => none, ⟨fun _ _ => false, fun _ _ => false⟩, none, none⟩ ⟨0, 10, 70, 1 / 1000, 3 / 10⟩ fuel ⟨rng, defaultRays⟩ downRay)).bind fun x => .ok x.1.1 := by
  let env : SceneEnv ℝ := ⟨refEnv ℝ, Vec3.normalized, meshSphere⟩
  have hM : env.MeshAligned := fun c r => by simp [env, meshSphere]
  have hB : env.bvh.Lawful := refEnv_lawful
  let ops : List (SceneOp ℝ) := [.pushMaterial (.plastic (Spectrum.gray (1 / 2)) 0 0), .pushMaterial (.light (Spectrum.gray 5)), .pushObject 0 0 (.triangle (plane 0)), .pushObject 1 1 (.sphere ⟨0, 0, 2⟩ 1)]
  obtain ⟨s0, h0, hl⟩ := ball_runs env
  obtain ⟨s1, bvh, e, _, _, h3, _, _, h6, h7, _⟩ := rebuild_spec env hB s0 (C10_aligned_and_valid env hB hM _ s0 h0).1
  have hrun : Scene.run env {} (ops ++ [.rebuild]) = .ok s1 := by
    rw [run_append, h0, Res.bind_ok]
    simp only [Scene.run, Scene.step, e, Res.bind_ok]
  obtain ⟨s', _, key⟩ := C108_direct_moved_partial env hB hM sphereEnv_uniform (plainExt fun _ => none) (plainExt_uniform _) ⟨100, 0, 0⟩ _ s1 hrun (by
    intro o ho t
    rw [h6, hl, List.mem_singleton] at ho
    subst ho
    simp)
  exact ⟨s1, s', by rw [h6, hl]; simp, key _ _ _ _ _ _ _ _ (by simp [defaultRays]) (Or.inl rfl)⟩

end Rendering
