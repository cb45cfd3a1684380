import Verif.Props.Linearity
import Verif.Props.Radiance

/-!
# C86 and C87 for scenes whose objects have the same material on both sides, such as all scenes read from Radiance files
-/

set_option linter.unusedSectionVars false
namespace Rendering

open Classical

section
variable {K : Type} [Field K]

theorem pushedLights_sides (ops : List (SceneOp K)) (hops : ∀ f b p, SceneOp.pushObject f b p ∈ ops → f = b) (mats : List (Material K)) :
    ∀ x ∈ pushedLights mats ops, x.2.front = x.2.back ∧ ∃ c, (mats ++ pushedMaterials ops)[x.2.front]? = some (.light c) := by
  induction ops generalizing mats with
  | nil => simp [pushedLights]
  | cons op ops ih =>
    have hrest : ∀ f b p, SceneOp.pushObject f b p ∈ ops → f = b := fun f b p h => hops f b p (List.mem_cons_of_mem _ h)
    have grow : ∀ (l : List (Material K)) (i : Nat) (c : Spectrum K), mats[i]? = some (.light c) → (mats ++ l)[i]? = some (.light c) := by
      intro l i c h
      obtain ⟨hi, _⟩ := List.getElem?_eq_some_iff.1 h
      rw [List.getElem?_append_left hi, h]
    intro x hx
    cases op with
    | pushMaterial m =>
      simp only [pushedLights, pushedMaterials] at hx ⊢
      have := ih hrest _ x hx
      simpa [List.append_assoc] using this
    | pushObject f b p =>
      have hfb := hops f b p List.mem_cons_self
      subst hfb
      simp only [pushedLights, pushedMaterials, List.mem_append] at hx ⊢
      rcases hx with hx | hx
      · split_ifs at hx with hl
        · simp only [List.mem_singleton] at hx
          subst hx
          obtain ⟨c, hc⟩ := (or_self_iff.1 hl)
          exact ⟨rfl, c, grow _ _ _ hc⟩
        · simp at hx
      · exact ih hrest _ x hx
    | build => exact ih hrest _ x hx
    | rebuild => exact ih hrest _ x hx
    | addPerezSky sun =>
      cases sun with
      | none => exact ih hrest _ x hx
      | some y =>
        obtain ⟨d, br, a⟩ := y
        simp only [pushedLights, pushedMaterials, List.mem_cons] at hx ⊢
        rcases hx with rfl | hx
        · refine ⟨rfl, ⟨br, br, br⟩, ?_⟩
          simp
        · have := ih hrest _ x hx
          simpa [List.append_assoc] using this

end

theorem itemOps_sides {K : Type} (items : List (RadItem K)) (names : List (List UInt8)) : ∀ f b p, SceneOp.pushObject f b p ∈ itemOps names items → f = b := by
  induction items generalizing names with
  | nil => simp [itemOps]
  | cons item items ih =>
    intro f b p h
    cases item with
    | material name m =>
      simp only [itemOps, List.mem_cons] at h
      rcases h with h | h
      · cases h
      · exact ih _ f b p h
    | object modifier parts =>
      simp only [itemOps, List.mem_append, List.mem_map] at h
      rcases h with ⟨q, _, h⟩ | h
      · injection h with h1 h2 h3
        rw [← h1, ← h2]
      · exact ih _ f b p h

theorem twoSided_of_run (env : SceneEnv ℝ) (hE : env.bvh.Lawful) (hM : env.MeshAligned) (ops : List (SceneOp ℝ)) (hops : ∀ f b p, SceneOp.pushObject f b p ∈ ops → f = b) (s : Scene ℝ)
    (h : Scene.run env {} ops = .ok s) (w : World) (hw : w.scene.materials = s.materials ∧ w.scene.lights = s.lights ∧ w.scene.distantLights = s.distantLights) : w.TwoSidedLights := by
  intro o ho m hm
  obtain ⟨l1, l2, _⟩ := C12_light_registry env hE hM ops s h
  have hmat := C11_materials_are_those_pushed env hE hM ops s h
  rw [hw.2.1, hw.2.2, l1, l2] at ho
  have hx : ∃ x ∈ pushedLights [] ops, x.2 = o := by
    rcases List.mem_append.1 ho with ho | ho <;>
    · obtain ⟨x, hx, rfl⟩ := List.mem_map.1 ho
      exact ⟨x, (List.mem_filter.1 hx).1, rfl⟩
  obtain ⟨x, hx, rfl⟩ := hx
  obtain ⟨e, c, hc⟩ := pushedLights_sides ops hops [] x hx
  rw [List.nil_append] at hc
  rw [hw.1, hmat, ← e, or_self] at hm
  rw [hc] at hm
  exact ⟨c, (Option.some.inj hm).symm⟩

/-- **C86, objects with one material.** After every history of calls that gives each object the same material on both sides, turning the lights and the sky up by `k` multiplies every answer of `trace_ray` by `k`. -/
theorem C86_light_scales_same_sides (env : SceneEnv ℝ) (hE : env.bvh.Lawful) (hM : env.MeshAligned) (ops : List (SceneOp ℝ)) (hops : ∀ f b p, SceneOp.pushObject f b p ∈ ops → f = b) (s : Scene ℝ)
    (h : Scene.run env {} ops = .ok s) (w : World) (hw : w.scene = s) (k : ℝ) (rt : RayTracer) (fuel : Nat) (rng : Rng) (rays : List TRay) (ray : TRay) (hr : rt.maxDepth < rays.length) :
    outcome (traceRay (w.brighten k) rt fuel ⟨rng, rays⟩ ray) = scaledBy k (outcome (traceRay w rt fuel ⟨rng, rays⟩ ray)) :=
  C86_light_scales_partial k w (twoSided_of_run env hE hM ops hops s h w ⟨by rw [hw], by rw [hw], by rw [hw]⟩) rt fuel rng rays ray hr

theorem twoSided_of_radiance (env : RadEnv ℝ) (hE : env.scene.bvh.Lawful) (hM : env.scene.MeshAligned) (src : List UInt8) (s : Scene ℝ) (h : Scene.fromRadianceSource env src = .ok s) (w : World) (hR : w.Renders s) :
    w.TwoSidedLights := by
  obtain ⟨_, items, _, hb⟩ := (C66_reads_what_is_described env src s).1 h
  exact twoSided_of_run env.scene hE hM _ (itemOps_sides items []) s (build_run env.scene items [] {} s hb) w hR.same

/-- **C86, Radiance files.** For every scene read from a Radiance text, without further conditions. -/
theorem C86_light_scales_radiance (env : RadEnv ℝ) (hE : env.scene.bvh.Lawful) (hM : env.scene.MeshAligned) (src : List UInt8) (s : Scene ℝ) (h : Scene.fromRadianceSource env src = .ok s) (w : World) (hR : w.Renders s)
    (k : ℝ) (rt : RayTracer) (fuel : Nat) (rng : Rng) (rays : List TRay) (ray : TRay) (hr : rt.maxDepth < rays.length) :
    outcome (traceRay (w.brighten k) rt fuel ⟨rng, rays⟩ ray) = scaledBy k (outcome (traceRay w rt fuel ⟨rng, rays⟩ ray)) :=
  C86_light_scales_partial k w (twoSided_of_radiance env hE hM src s h w hR) rt fuel rng rays ray hr

/-- **C87, Radiance files.** For every scene read from a Radiance text in which no light emits anything: all rays that return are black. -/
theorem C87_no_light_no_image_radiance (env : RadEnv ℝ) (hE : env.scene.bvh.Lawful) (hM : env.scene.MeshAligned) (src : List UInt8) (s : Scene ℝ) (h : Scene.fromRadianceSource env src = .ok s) (w : World) (hR : w.Renders s)
    (hu : w.Unlit) (rt : RayTracer) (fuel : Nat) (rng : Rng) (rays : List TRay) (ray : TRay) (hr : rt.maxDepth < rays.length)
    (v : Spectrum ℝ) (pdf : ℝ) (ray' : TRay) (st' : TState) (ht : traceRay w rt fuel ⟨rng, rays⟩ ray = .ok ((v, pdf), ray', st')) : v = Spectrum.black :=
  C87_no_light_no_image_partial w hu (twoSided_of_radiance env hE hM src s h w hR) rt fuel rng rays ray hr v pdf ray' st' ht

/-- A history with a grey floor and a sun, built, in which every object has the same material on both sides, and which succeeds. -/
example : ∃ s, Scene.run realEnv {} [.pushMaterial (.plastic (Spectrum.gray (1 / 2)) 0 0), .pushMaterial (.light (Spectrum.gray 5)), .pushObject 0 0 (.triangle (plane 0)), .pushObject 1 1 (.source ⟨0, 0, 1⟩ 1), .build] = .ok s ∧
    s.distantLights.length = 1 := by
  let s0 : Scene ℝ := { triangles := [plane 0], normals := (meshTriangle realEnv (plane 0)).2, front := [0], back := [0], materials := [.plastic (Spectrum.gray (1 / 2)) 0 0, .light (Spectrum.gray 5)],
                        distantLights := [{ front := 1, back := 1, primitive := .source ⟨0, 0, 1⟩ 1 }] }
  obtain ⟨s1, bvh, e, _, _, _, _, _, _, h7, _⟩ := rebuild_spec realEnv refEnv_lawful s0 ⟨rfl, rfl, rfl⟩
  refine ⟨s1, ?_, by rw [h7]; rfl⟩
  have : Scene.run realEnv {} [.pushMaterial (.plastic (Spectrum.gray (1 / 2)) 0 0), .pushMaterial (.light (Spectrum.gray 5)), .pushObject 0 0 (.triangle (plane 0)), .pushObject 1 1 (.source ⟨0, 0, 1⟩ 1), .build] =
      (s0.rebuildAccelerator realEnv).bind fun s => .ok s := rfl
  rw [this, e]
  rfl

end Rendering
