import Verif.Spec.Brighten
import Verif.Props.Tracer
import Verif.Props.Direct

/-!
# C86: light adds up — turning all lights up by a factor multiplies the picture by it
-/

set_option linter.unusedSectionVars false
namespace Rendering

open Classical

theorem Material.brighten_of_dark {m : Material ℝ} (k : ℝ) (h : m.emitsLight = false) : m.brighten k = m := by
  cases m <;> first | rfl | (simp [Material.emitsLight] at h)

theorem Material.brighten_emits (m : Material ℝ) (k : ℝ) : (m.brighten k).emitsLight = m.emitsLight := by cases m <;> rfl
theorem Material.brighten_specular (m : Material ℝ) (k : ℝ) : (m.brighten k).specularOnly = m.specularOnly := by cases m <;> rfl

theorem Spectrum.scale_add (a b : Spectrum ℝ) (k : ℝ) : (a + b).scale k = a.scale k + b.scale k := by ext <;> simp [Spectrum.scale, add_mul]
theorem Spectrum.scale_mul (a b : Spectrum ℝ) (k : ℝ) : (a * b).scale k = a.scale k * b := by ext <;> simp [Spectrum.scale] <;> ring
theorem Spectrum.scale_comm (a : Spectrum ℝ) (j k : ℝ) : (a.scale j).scale k = (a.scale k).scale j := by ext <;> simp [Spectrum.scale] <;> ring
theorem Spectrum.scale_divBy (a : Spectrum ℝ) (j k : ℝ) : (a.divBy j).scale k = (a.scale k).divBy j := by ext <;> simp [Spectrum.scale, Spectrum.divBy] <;> ring
theorem Spectrum.black_scale (k : ℝ) : (Spectrum.black : Spectrum ℝ).scale k = Spectrum.black := by ext <;> simp [Spectrum.scale, Spectrum.black, Spectrum.gray]

/-- The light multiplied by `k`, next to a generator. -/
noncomputable def scaledLight (k : ℝ) (r : Res (Spectrum ℝ × Rng)) : Res (Spectrum ℝ × Rng) := r.bind fun x => .ok (x.1.scale k, x.2)

theorem bind_bind {A B C : Type} (x : Res A) (f : A → Res B) (g : B → Res C) : (x.bind f).bind g = x.bind fun y => (f y).bind g := by cases x <;> rfl

theorem intersectLight_brighten (k : ℝ) (w : World) (light : Object ℝ) (ray : Ray3 ℝ) (hl : ∀ m, w.scene.materials[light.front]? = some m ∨ w.scene.materials[light.back]? = some m → ∃ c, m = .light c) :
    (w.brighten k).intersectLight light ray = (w.intersectLight light ray).bind fun r => .ok (r.map fun cp => (cp.1.scale k, cp.2)) := by
  unfold World.intersectLight
  have hext : (w.brighten k).ext = w.ext := rfl
  rw [hext]
  cases w.ext.primIntersect light.primitive ray with
  | none => rfl
  | some info =>
    simp only
    have hu : (w.brighten k).scene.unobstructedDistance (w.brighten k).env ray (ray.origin - info.p).lengthSq [] = w.scene.unobstructedDistance w.env ray (ray.origin - info.p).lengthSq [] := rfl
    rw [hu, bind_bind]
    refine bind_congr' _ fun free _ => ?_
    have hm : ∀ j : Nat, (w.brighten k).scene.materials[j]? = (w.scene.materials[j]?).map (Material.brighten k) := fun j => by simp [World.brighten, Scene.brighten]
    split_ifs with hf
    · simp only [Res.bind_ok, Option.map_some, Spectrum.black_scale]
    · cases info.side with
      | NonApplicable => simp only [Res.bind_ok, Option.map_some, Spectrum.black_scale]
      | Front =>
        simp only [hm]
        cases hg : w.scene.materials[light.front]? with
        | none => rfl
        | some m =>
          obtain ⟨c, rfl⟩ := hl m (Or.inl hg)
          simp only [Option.map_some, Res.ofOption_some, Res.bind_ok, bind_bind, Material.brighten, Material.colour]
      | Back =>
        simp only [hm]
        cases hg : w.scene.materials[light.back]? with
        | none => rfl
        | some m =>
          obtain ⟨c, rfl⟩ := hl m (Or.inr hg)
          simp only [Option.map_some, Res.ofOption_some, Res.bind_ok, bind_bind, Material.brighten, Material.colour]

theorem lightTerm_brighten (k : ℝ) (w : World) (m : Material ℝ) (ray : TRay) (n : Nat) (normal e1 e2 d : Vec3 ℝ) (c : Spectrum ℝ) (pdf : ℝ) :
    (w.brighten k).lightTerm m ray n normal e1 e2 d (c.scale k) pdf = (w.lightTerm m ray n normal e1 e2 d c pdf).bind fun t => .ok (t.scale k) := by
  unfold World.lightTerm
  simp only [bind_bind, Res.bind_ok]
  refine bind_congr' _ fun b _ => ?_
  rw [Spectrum.scale_divBy, Spectrum.scale_mul, Spectrum.scale_comm]

theorem lightLoop_brighten (k : ℝ) (w : World) (m : Material ℝ) (ray : TRay) (n : Nat) (pt normal e1 e2 : Vec3 ℝ) (light : Object ℝ)
    (hl : ∀ m, w.scene.materials[light.front]? = some m ∨ w.scene.materials[light.back]? = some m → ∃ c, m = .light c) (fuel i : Nat) (acc : Spectrum ℝ) (rng : Rng) :
    (w.brighten k).lightLoop m ray n pt normal e1 e2 light fuel i (acc.scale k) rng = scaledLight k (w.lightLoop m ray n pt normal e1 e2 light fuel i acc rng) := by
  induction fuel generalizing i acc rng with
  | zero => rfl
  | succ fuel ih =>
    unfold World.lightLoop
    split_ifs with hi
    · have hext : (w.brighten k).ext = w.ext := rfl
      rw [hext, scaledLight, bind_bind]
      refine bind_congr' _ fun x _ => ?_
      obtain ⟨d, rng'⟩ := x
      simp only
      rw [intersectLight_brighten k w light _ hl, bind_bind, bind_bind]
      refine bind_congr' _ fun r _ => ?_
      simp only [Res.bind_ok]
      cases r with
      | none => exact ih _ _ _
      | some cp =>
        obtain ⟨c, pdf⟩ := cp
        simp only [Option.map_some]
        split_ifs with hp
        · exact ih _ _ _
        · rw [lightTerm_brighten, bind_bind, bind_bind]
          refine bind_congr' _ fun t _ => ?_
          simp only [Res.bind_ok]
          rw [← Spectrum.scale_add]
          exact ih _ _ _
    · rfl

theorem lightsLoop_brighten (k : ℝ) (w : World) (fuel : Nat) (m : Material ℝ) (ray : TRay) (n : Nat) (pt normal e1 e2 : Vec3 ℝ) (lights : List (Object ℝ))
    (hl : ∀ o ∈ lights, ∀ m, w.scene.materials[o.front]? = some m ∨ w.scene.materials[o.back]? = some m → ∃ c, m = .light c) (acc : Spectrum ℝ) (rng : Rng) :
    (w.brighten k).lightsLoop fuel m ray n pt normal e1 e2 lights (acc.scale k) rng = scaledLight k (w.lightsLoop fuel m ray n pt normal e1 e2 lights acc rng) := by
  induction lights generalizing acc rng with
  | nil => rfl
  | cons l ls ih =>
    unfold World.lightsLoop
    rw [lightLoop_brighten k w m ray n pt normal e1 e2 l (hl l List.mem_cons_self), scaledLight, scaledLight, bind_bind, bind_bind]
    refine bind_congr' _ fun x _ => ?_
    exact ih (fun o ho => hl o (List.mem_cons_of_mem _ ho)) _ _

theorem localIllumination_brighten (k : ℝ) (w : World) (h : w.TwoSidedLights) (fuel : Nat) (m : Material ℝ) (ray : TRay) (rng : Rng) (n : Nat) :
    (w.brighten k).localIllumination fuel m ray rng n = scaledLight k (w.localIllumination fuel m ray rng n) := by
  unfold World.localIllumination World.sampleLightArray
  have e1 : (w.brighten k).scene.lights = w.scene.lights := rfl
  have e2 : (w.brighten k).scene.distantLights = w.scene.distantLights := rfl
  rw [e1, e2]
  simp only
  have hb := fun ls hls rng => lightsLoop_brighten k w fuel m ray n (ray.getTriad.1 + ray.getTriad.2.1.scale (1 / 1000)) ray.getTriad.2.1 ray.getTriad.2.2.1 ray.getTriad.2.2.2 ls hls Spectrum.black rng
  simp only [Spectrum.black_scale] at hb
  rw [hb _ (fun o ho => h o (List.mem_append_left _ ho)), scaledLight, scaledLight, bind_bind, bind_bind]
  refine bind_congr' _ fun x _ => ?_
  simp only [Res.bind_ok]
  rw [hb _ (fun o ho => h o (List.mem_append_right _ ho)), scaledLight, bind_bind, bind_bind]
  refine bind_congr' _ fun y _ => ?_
  simp only [Res.bind_ok, Spectrum.scale_add]

theorem refSpecular_brighten (k : ℝ) {s s' : RefTrace} (hs : ∀ rng ray, s' rng ray = scaledBy k (s rng ray)) (csb : ℝ) (paths : List (TRay × Spectrum ℝ)) (rng : Rng) :
    refSpecular s' csb paths rng = scaledLight k (refSpecular s csb paths rng) := by
  induction paths generalizing rng with
  | nil => simp only [refSpecular, scaledLight, Res.bind_ok, Spectrum.black_scale]
  | cons p ps ih =>
    unfold refSpecular
    simp only
    rw [hs, scaledBy, scaledLight, bind_bind, bind_bind]
    refine bind_congr' _ fun x _ => ?_
    simp only [Res.bind_ok]
    rw [ih, scaledLight, bind_bind, bind_bind]
    refine bind_congr' _ fun y _ => ?_
    simp only [Res.bind_ok, Spectrum.scale_add, Spectrum.scale_mul]

theorem refAmbient_brighten (k : ℝ) {s s' : RefTrace} (hs : ∀ rng ray, s' rng ray = scaledBy k (s rng ray)) (m : Material ℝ) (arriving : TRay) (fuel n : Nat) (rng : Rng) :
    refAmbient s' m arriving fuel n rng = scaledLight k (refAmbient s m arriving fuel n rng) := by
  induction fuel generalizing n rng with
  | zero => rfl
  | succ fuel ih =>
    cases n with
    | zero => simp only [refAmbient, scaledLight, Res.bind_ok, Spectrum.black_scale]
    | succ n =>
      unfold refAmbient
      simp only
      rw [scaledLight, bind_bind]
      refine bind_congr' _ fun x _ => ?_
      obtain ⟨⟨bsdf, pdf⟩, out, r⟩ := x
      simp only
      rw [hs, scaledBy, bind_bind, bind_bind]
      refine bind_congr' _ fun y _ => ?_
      simp only [Res.bind_ok]
      split_ifs with hp
      · rw [ih, scaledLight]
      · rw [ih, scaledLight, bind_bind, bind_bind]
        refine bind_congr' _ fun z _ => ?_
        simp only [Res.bind_ok, Spectrum.scale_add, Spectrum.scale_divBy, Spectrum.scale_mul]
        rw [Spectrum.scale_comm]

theorem materialAt_brighten (k : ℝ) (w : World) (side : SurfaceSide) (i : Nat) : (w.brighten k).materialAt side i = (w.materialAt side i).bind fun m => .ok (m.brighten k) := by
  have hm : ∀ j : Nat, (w.brighten k).scene.materials[j]? = (w.scene.materials[j]?).map (Material.brighten k) := fun j => by simp [World.brighten, Scene.brighten]
  have hf : (w.brighten k).scene.front = w.scene.front := rfl
  have hb : (w.brighten k).scene.back = w.scene.back := rfl
  unfold World.materialAt
  cases side with
  | NonApplicable => rfl
  | Front =>
    simp only [hf, hm]
    cases w.scene.front[i]? with
    | none => rfl
    | some j => simp only [Res.ofOption_some, Res.bind_ok]; cases w.scene.materials[j]? <;> rfl
  | Back =>
    simp only [hb, hm]
    cases w.scene.back[i]? with
    | none => rfl
    | some j => simp only [Res.ofOption_some, Res.bind_ok]; cases w.scene.materials[j]? <;> rfl

theorem refSurface_brighten (k : ℝ) (w : World) (h : w.TwoSidedLights) (rt : RayTracer) (fuel : Nat) {s s' : RefTrace} (hs : ∀ rng ray, s' rng ray = scaledBy k (s rng ray)) (i : Nat) (m : Material ℝ)
    (ray : TRay) (rng : Rng) : refSurface (w.brighten k) rt fuel s' i (m.brighten k) ray rng = scaledBy k (refSurface w rt fuel s i m ray rng) := by
  unfold refSurface
  simp only [Material.brighten_emits, Material.brighten_specular]
  have ht : (w.brighten k).scene.triangles = w.scene.triangles := rfl
  have hn : (w.brighten k).scene.normals = w.scene.normals := rfl
  rw [ht, hn]
  split_ifs with h1 h2 h3
  · rw [scaledBy, bind_bind]
    refine bind_congr' _ fun tri _ => ?_
    cases m <;> simp [Material.emitsLight] at h1
    simp only [Res.bind_ok, Material.brighten, Material.colour]
  · simp only [scaledBy, Res.bind_ok, Spectrum.black_scale]
  · rw [scaledBy, bind_bind]
    refine bind_congr' _ fun x _ => ?_
    obtain ⟨n0, n1, n2⟩ := x
    simp only
    rw [Material.brighten_of_dark k (by simpa using h1), bind_bind]
    refine bind_congr' _ fun ps _ => ?_
    rw [refSpecular_brighten k hs, scaledLight, bind_bind, bind_bind]
    refine bind_congr' _ fun y _ => ?_
    simp only [Res.bind_ok]
  · rw [scaledBy, bind_bind]
    refine bind_congr' _ fun x _ => ?_
    obtain ⟨n0, n1, n2⟩ := x
    simp only
    rw [Material.brighten_of_dark k (by simpa using h1), localIllumination_brighten k w h, scaledLight, bind_bind, bind_bind]
    refine bind_congr' _ fun y _ => ?_
    simp only [Res.bind_ok]
    split_ifs
    · simp only [Res.bind_ok, Spectrum.scale_add, Spectrum.black_scale]
    · rw [refAmbient_brighten k hs, scaledLight, bind_bind, bind_bind]
      refine bind_congr' _ fun z _ => ?_
      simp only [Res.bind_ok, Spectrum.scale_add, Spectrum.scale_divBy]

theorem refTrace_brighten (k : ℝ) (w : World) (h : w.TwoSidedLights) (rt : RayTracer) (fuel : Nat) (rng : Rng) (ray : TRay) :
    refTrace (w.brighten k) rt fuel rng ray = scaledBy k (refTrace w rt fuel rng ray) := by
  induction fuel generalizing rng ray with
  | zero => rfl
  | succ fuel ih =>
    unfold refTrace
    have hc : (w.brighten k).cast ray = w.cast ray := rfl
    rw [hc, scaledBy, bind_bind]
    refine bind_congr' _ fun hit _ => ?_
    cases hit with
    | none =>
      have h1 : (w.brighten k).sky = w.sky.map fun sky d => sky d * k := rfl
      have h2 : (w.brighten k).skyColour = w.skyColour := rfl
      simp only [h1, h2]
      cases w.sky with
      | none => simp only [Option.map_none, Res.bind_ok, Spectrum.black_scale]
      | some sky =>
        simp only [Option.map_some, Res.bind_ok]
        congr 3
        ext <;> simp [Spectrum.scale] <;> ring
    | some p =>
      obtain ⟨i, ray'⟩ := p
      simp only
      split_ifs
      · simp only [Res.bind_ok, Spectrum.black_scale]
      · rw [materialAt_brighten, bind_bind, bind_bind]
        refine bind_congr' _ fun m _ => ?_
        simp only [Res.bind_ok]
        exact refSurface_brighten k w h rt fuel ih i m ray' rng

/-- **C86 (partial).** Turn every light material and the sky up by any factor `k` and trace the same ray with the same random numbers: `trace_ray` returns exactly `k` times the light, in every channel, with the same probability, uses the
same random numbers, and panics or runs forever exactly when it did before. For scenes whose registered lights are lights on both sides. (Missing: a light with another material on its back, see
`C86_violation_dark_side`.) -/
theorem C86_light_scales_partial (k : ℝ) (w : World) (h : w.TwoSidedLights) (rt : RayTracer) (fuel : Nat) (rng : Rng) (rays : List TRay) (ray : TRay) (hr : rt.maxDepth < rays.length) :
    outcome (traceRay (w.brighten k) rt fuel ⟨rng, rays⟩ ray) = scaledBy k (outcome (traceRay w rt fuel ⟨rng, rays⟩ ray)) := by
  rw [C75_is_reference_tracer _ rt fuel rng rays ray hr, C75_is_reference_tracer w rt fuel rng rays ray hr]
  exact refTrace_brighten k w h rt fuel rng ray

/-- A floor under a sun (a light on both sides, as `add_perez_sky` makes it): twice the light, twice the answer. -/
example (rng : Rng) (fuel : Nat) : ∃ w : World, w.TwoSidedLights ∧ w.scene.distantLights ≠ [] ∧
    outcome (traceRay (w.brighten 2) ⟨2, 10, 70, 1 / 1000, 3 / 10⟩ fuel ⟨rng, defaultRays⟩ downRay) = scaledBy 2 (outcome (traceRay w ⟨2, 10, 70, 1 / 1000, 3 / 10⟩ fuel ⟨rng, defaultRays⟩ downRay)) := by
  let s : Scene ℝ := { triangles := [plane 0], normals := [(⟨0, 0, 1⟩, ⟨0, 0, 1⟩, ⟨0, 0, 1⟩)], front := [0], back := [0], materials := [.plastic (Spectrum.gray (1 / 2)) 0 0, .light (Spectrum.gray 5)],
                       distantLights := [{ front := 1, back := 1, primitive := .source ⟨0, 0, 1⟩ 1 }] }
  obtain ⟨w, hR, _⟩ := renders_exists s ⟨rfl, rfl, rfl⟩ (fits_of_small _ (by simp [s])) ⟨fun _ => some ⟨1, 0, 0⟩, fun _ _ => none⟩ ⟨fun _ _ => false, fun _ _ => false⟩ none none
  have h : w.TwoSidedLights := by
    intro o ho m hm
    rw [hR.same.2.1, hR.same.2.2] at ho
    rw [hR.same.1] at hm
    simp only [s, List.nil_append, List.mem_singleton] at ho
    subst ho
    simp only [s, List.getElem?_cons_succ, List.getElem?_cons_zero, Option.some.injEq, or_self] at hm
    exact ⟨_, hm.symm⟩
  refine ⟨w, h, by rw [hR.same.2.2]; simp [s], C86_light_scales_partial 2 w h _ fuel rng _ downRay (by simp [defaultRays])⟩

/-! ### C87: no light, no image -/

theorem brighten_unlit (w : World) (h : w.Unlit) : w.brighten 0 = w := by
  have hm : w.scene.materials.map (Material.brighten 0) = w.scene.materials := by
    conv_rhs => rw [← List.map_id w.scene.materials]
    refine List.map_congr_left fun m hm => ?_
    cases m <;> try rfl
    rw [h.1 _ hm]
    simp [Material.brighten, Spectrum.black_scale]
  have hs : w.sky.map (fun sky d => sky d * (0 : ℝ)) = w.sky := by
    cases hsky : w.sky with
    | none => rfl
    | some sky =>
      simp only [Option.map_some, Option.some.injEq]
      funext d
      rw [h.2 sky hsky d, mul_zero]
  obtain ⟨scene, env, ext, dt, sky, c⟩ := w
  simp only [World.brighten, Scene.brighten] at *
  rw [hm, hs]

/-- **C87 (partial).** In a scene whose lights are all black and whose sky is black or absent, every ray that returns brings back exactly black: no surface creates light, whatever its material and shape, whatever the random
numbers and the settings. For scenes whose registered lights are lights on both sides. (Missing: a light with another material on its back, see `C86_violation_switched_off`.) -/
theorem C87_no_light_no_image_partial (w : World) (hu : w.Unlit) (h2 : w.TwoSidedLights) (rt : RayTracer) (fuel : Nat) (rng : Rng) (rays : List TRay) (ray : TRay) (hr : rt.maxDepth < rays.length)
    (v : Spectrum ℝ) (pdf : ℝ) (ray' : TRay) (st' : TState) (h : traceRay w rt fuel ⟨rng, rays⟩ ray = .ok ((v, pdf), ray', st')) : v = Spectrum.black := by
  have e := C86_light_scales_partial 0 w h2 rt fuel rng rays ray hr
  rw [brighten_unlit w hu, h] at e
  simp only [outcome, scaledBy, Res.bind_ok, Res.ok.injEq, Prod.mk.injEq] at e
  rw [e.1.1]
  ext <;> simp [Spectrum.scale, Spectrum.black, Spectrum.gray]

/-- A floor under a sun that has been switched off: the hypotheses are met by a scene with a light, and the ray meets the floor. -/
theorem unlit_world : ∃ w : World, w.Unlit ∧ w.TwoSidedLights ∧ w.scene.distantLights ≠ [] ∧ ∃ hit, w.cast downRay = .ok (some hit) := by
  let s : Scene ℝ := { triangles := [plane 0], normals := [(⟨0, 0, 1⟩, ⟨0, 0, 1⟩, ⟨0, 0, 1⟩)], front := [0], back := [0], materials := [.plastic (Spectrum.gray (1 / 2)) 0 0, .light Spectrum.black],
                       distantLights := [{ front := 1, back := 1, primitive := .source ⟨0, 0, 1⟩ 1 }] }
  obtain ⟨w, hR, _, _, hs, _⟩ := renders_exists s ⟨rfl, rfl, rfl⟩ (fits_of_small _ (by simp [s])) ⟨fun _ => some ⟨1, 0, 0⟩, fun _ _ => none⟩ ⟨fun _ _ => false, fun _ _ => false⟩ (some fun _ => 0) none
  refine ⟨w, ⟨?_, ?_⟩, ?_, by rw [hR.same.2.2]; simp [s], ?_⟩
  · intro c hc
    rw [hR.same.1] at hc
    simpa [s] using hc
  · intro sky h d
    rw [hs] at h
    rw [← Option.some.inj h]
  · intro o ho m hm
    rw [hR.same.2.1, hR.same.2.2] at ho
    rw [hR.same.1] at hm
    simp only [s, List.nil_append, List.mem_singleton] at ho
    subst ho
    simp only [s, List.getElem?_cons_succ, List.getElem?_cons_zero, Option.some.injEq, or_self] at hm
    exact ⟨_, hm.symm⟩
  · rcases hR.cast_cases downRay with ⟨_, hno⟩ | ⟨i, tri, b, j, hc, _⟩
    · exact absurd ⟨by norm_num, lt_trans (by norm_num) floatMax_gt_one⟩ (hno (plane 0) (by simp [s]) _ (plane_visible 0 (1 / 2) (1 / 2) (-1) (by norm_num) (by norm_num) (by norm_num)))
    · exact ⟨_, hc⟩

/-! ### The back of a light -/

/-- **C86, violation.** A light with another material on its back: a shadow ray that meets the back is given the colour of that material as if it were light, and turning the lights up or down, or off (`k = 0`), changes nothing. -/
theorem C86_violation_dark_side (w : World) (s : Scene ℝ) (hR : w.Renders s) (light : Object ℝ) (m : Material ℝ) (hm : s.materials[light.back]? = some m) (hdark : m.emitsLight = false) (pt d : Vec3 ℝ)
    (info : IntersectionInfo) (hi : w.ext.primIntersect light.primitive ⟨pt, d⟩ = some info) (hside : info.side = .Back) (hfree : ¬ PossiblyShadowed s pt d info.p) (pdf : ℝ)
    (hp : light.primitive.solidAnglePdf info ⟨pt, d⟩ = .ok pdf) (k : ℝ) : (w.brighten k).intersectLight light ⟨pt, d⟩ = .ok (some (m.colour, pdf)) := by
  unfold World.intersectLight
  have h1 : (w.brighten k).ext = w.ext := rfl
  have h2 : (w.brighten k).scene.unobstructedDistance (w.brighten k).env ⟨pt, d⟩ (pt - info.p).lengthSq [] = w.scene.unobstructedDistance w.env ⟨pt, d⟩ (pt - info.p).lengthSq [] := rfl
  have h3 : (w.brighten k).scene.materials[light.back]? = (w.scene.materials[light.back]?).map (Material.brighten k) := by simp [World.brighten, Scene.brighten]
  rw [h1, hi]
  simp only [h2, hside]
  simp only [distSq_eq]
  obtain ⟨free, e, _, c2⟩ := C03_unobstructed w.env hR.lawful hR.box s w.scene hR.aligned hR.fits hR.built ⟨pt, d⟩ (distSq pt info.p) []
  have hf : free = true := by
    cases free with
    | true => rfl
    | false => exact absurd (c2 rfl) hfree
  rw [e, Res.bind_ok, h3, hR.same.1, hm, hf]
  simp only [Bool.not_true, Bool.false_eq_true, if_false, Option.map_some, Material.brighten_of_dark k hdark, Res.ofOption_some, Res.bind_ok, hp]

/-- A luminaire that shines upwards: triangle at height 1, light above, grey plastic below; and a grey floor. -/
noncomputable def uplight : Scene ℝ :=
  { triangles := [plane 0, plane 1], normals := [(⟨0, 0, 1⟩, ⟨0, 0, 1⟩, ⟨0, 0, 1⟩), (⟨0, 0, 1⟩, ⟨0, 0, 1⟩, ⟨0, 0, 1⟩)], front := [0, 1], back := [0, 0],
    materials := [.plastic (Spectrum.gray (1 / 2)) 0 0, .light (Spectrum.gray 5)], lights := [{ front := 1, back := 0, primitive := .triangle (plane 1) }] }

/-- A ray that has just come down onto the floor. -/
noncomputable def landed : TRay := { downRay with interaction := { point := 0, wo := ⟨0, 0, 1⟩, shading := { p := 0, normal := ⟨0, 0, 1⟩, dpdu := ⟨1, 0, 0⟩, dpdv := ⟨0, 1, 0⟩, side := .Front, u := 0, v := 0 } } }

/-- **C86, violation, a scene.** The floor under the uplight receives the same light from the luminaire's plastic underside whether all lights are on, dimmed or switched off, and it is not black. -/
theorem C86_violation_switched_off : ∃ (w : World) (rng rng' : Rng) (v : Spectrum ℝ), w.Renders uplight ∧ v ≠ Spectrum.black ∧
    ∀ k : ℝ, (w.brighten k).localIllumination 2 (.plastic (Spectrum.gray (1 / 2)) 0 0) landed rng 1 = .ok (v, rng') := by
  obtain ⟨w, hR, he, _⟩ := renders_exists uplight ⟨rfl, rfl, rfl⟩ (fits_of_small _ (by simp [uplight])) ⟨fun _ => none, fun _ _ => some ⟨⟨0, 0, 1⟩, ⟨0, 0, 1⟩, ⟨1, 0, 0⟩, ⟨0, 1, 0⟩, .Back, 1 / 3, 1 / 3⟩⟩
    ⟨fun _ _ => false, fun _ _ => false⟩ none none
  let rng : Rng := fun n => if n = 0 then 4 / 9 else 1 / 2
  have hs : Real.sqrt (4 / 9) = 2 / 3 := by rw [show (4 / 9 : ℝ) = (2 / 3) ^ 2 by norm_num]; exact Real.sqrt_sq (by norm_num)
  let pt : Vec3 ℝ := ⟨0, 0, 1 / 1000⟩
  let light : Object ℝ := { front := 1, back := 0, primitive := .triangle (plane 1) }
  have hd : light.primitive.sampleDirection w.ext rng pt = .ok (⟨0, 0, 1⟩, fun n => rng (n + 2)) := by
    have c1 : clampR (4 / 9) (1 / 10 ^ 8) (1 - 1 / 10 ^ 8) = 4 / 9 := by norm_num [clampR]
    have c2 : clampR (1 / 2) (1 / 10 ^ 8) (1 - 1 / 10 ^ 8) = 1 / 2 := by norm_num [clampR]
    have e : (sampleTriangleSurface (plane 1) rng) = (⟨0, 0, 1⟩, fun n => rng (n + 2)) := by
      have hr : rng 0 = 4 / 9 ∧ rng 1 = 1 / 2 := by simp [rng]
      simp only [sampleTriangleSurface, uniformSampleTriangle, Rng.gen2, hr.1, hr.2, c1, c2, hs, plane, Prod.mk.injEq, and_true]
      ext <;> norm_num [Vec3.scale]
    simp only [light, Primitive.sampleDirection, Primitive.sampleSurface, e, Res.bind_ok, pt]
    congr 2
    have : (⟨0, 0, 1⟩ - ⟨0, 0, 1 / 1000⟩ : Vec3 ℝ) = ⟨0, 0, 999 / 1000⟩ := by ext <;> norm_num
    have hl : (⟨0, 0, 999 / 1000⟩ : Vec3 ℝ).length = 999 / 1000 := by
      rw [Vec3.length_eq]
      unfold Norm
      rw [show ((0 : ℝ) ^ 2 + 0 ^ 2 + (999 / 1000) ^ 2) = (999 / 1000) ^ 2 by norm_num]
      exact Real.sqrt_sq (by norm_num)
    rw [this, Vec3.normalized, hl]
    ext <;> norm_num [Vec3.scale]
  have hp : light.primitive.solidAnglePdf ⟨⟨0, 0, 1⟩, ⟨0, 0, 1⟩, ⟨1, 0, 0⟩, ⟨0, 1, 0⟩, .Back, 1 / 3, 1 / 3⟩ ⟨pt, ⟨0, 0, 1⟩⟩ = .ok (998001 / 4500) := by
    have ha : triangleArea (plane 1) = 9 / 2 := by
      rw [C18_area_is_half_cross]
      have : geometricNormal (plane 1) = ⟨0, 0, 9⟩ := by ext <;> norm_num [geometricNormal, Cross, plane]
      rw [doubleArea, this, Norm, show ((0 : ℝ) ^ 2 + 0 ^ 2 + 9 ^ 2) = 9 ^ 2 by norm_num, Real.sqrt_sq (by norm_num)]
    simp only [light, Primitive.solidAnglePdf, primTriangleSolidAnglePdf, pt, ha]
    rw [if_neg (by norm_num [Vec3.dot])]
    norm_num [Vec3.dot, Vec3.lengthSq]
  have hfree : ¬ PossiblyShadowed uplight pt ⟨0, 0, 1⟩ ⟨0, 0, 1⟩ := by
    rintro ⟨tri, ht, t, p, u, v, ⟨h1, h2, h3, _⟩, hb, hb', _⟩
    simp only [uplight, List.mem_cons, List.not_mem_nil, or_false] at ht
    have ez : p.z = 1 / 1000 + t := by rw [h1]; simp [Vec3.scale, pt]
    have ex : p.x = 0 := by rw [h1]; simp [Vec3.scale, pt]
    have ey : p.y = 0 := by rw [h1]; simp [Vec3.scale, pt]
    have h0 : (0 : ℝ) < 1 / 10 ^ 5 := by norm_num
    rcases ht with rfl | rfl
    · have : p.z = 0 := by rw [h3]; simp [Vec3.scale, plane]
      linarith
    · have : p.z = 1 := by rw [h3]; simp [Vec3.scale, plane]; ring
      have e1 : distSq p pt = distSq pt ⟨0, 0, 1⟩ := by simp only [distSq, pt, ex, ey, this]; ring
      have : (0 : ℝ) < 1 / 10 ^ 6 := by norm_num
      rw [e1] at hb'
      linarith
  have hI : ∀ k, (w.brighten k).intersectLight light ⟨pt, ⟨0, 0, 1⟩⟩ = .ok (some (Spectrum.gray (1 / 2), 998001 / 4500)) := fun k =>
    C86_violation_dark_side w uplight hR light (.plastic (Spectrum.gray (1 / 2)) 0 0) rfl rfl pt ⟨0, 0, 1⟩ _ (by rw [he]) rfl hfree _ hp k
  refine ⟨w, rng, fun n => rng (n + 2), (Spectrum.gray (1 / 2) * plasticBsdf (Spectrum.gray (1 / 2)) 0 (1 / Real.pi)).divBy (998001 / 4500), hR, ?_, fun k => ?_⟩
  · intro h
    have := congrArg Spectrum.c0 h
    simp [Spectrum.black, Spectrum.gray, Spectrum.divBy, plasticBsdf, Spectrum.scale, Real.pi_ne_zero] at this
  · have hl : (w.brighten k).scene.lights = [light] := hR.same.2.1
    have hdl : (w.brighten k).scene.distantLights = [] := hR.same.2.2
    have hp' : landed.getTriad.1 + landed.getTriad.2.1.scale (1 / 1000) = pt := by simp only [landed, TRay.getTriad, pt]; ext <;> norm_num [Vec3.scale]
    have hd' : light.primitive.sampleDirection (w.brighten k).ext rng pt = .ok (⟨0, 0, 1⟩, fun n => rng (n + 2)) := hd
    have hlow : ¬ ((998001 : ℝ) / 4500 < 1 / 10 ^ 18) := by norm_num
    unfold World.localIllumination World.sampleLightArray
    rw [hl, hdl]
    simp only [World.lightsLoop, hp', World.lightLoop, zero_lt_one, if_true, hd', hI k, Res.bind_ok, hlow, if_false, zero_add, lt_irrefl]
    simp only [World.lightTerm, Material.evalBsdf, evaluateWard, gt_iff_lt, Res.bind_ok]
    rw [if_neg (by norm_num)]
    simp only [Res.bind_ok, landed, TRay.getTriad]
    congr 2
    ext <;> simp [Spectrum.black, Spectrum.gray, Spectrum.divBy, plasticBsdf, Spectrum.scale, Vec3.dot]

/-- **C87, violation.** With every light switched off and no light from the sky, the floor under the uplight is still lit: the light of the luminaire's plastic underside is not black. -/
theorem C87_violation_uplight : ∃ (w : World) (s : Scene ℝ) (rng rng' : Rng) (v : Spectrum ℝ), w.env.bvh.Lawful ∧ s.triangles ≠ [] ∧ (∃ w' : World, w'.Renders s ∧ w = w'.brighten 0) ∧ w.Unlit ∧
    w.localIllumination 2 (.plastic (Spectrum.gray (1 / 2)) 0 0) landed rng 1 = .ok (v, rng') ∧ v ≠ Spectrum.black := by
  obtain ⟨w, rng, rng', v, hR, hv, h⟩ := C86_violation_switched_off
  refine ⟨w.brighten 0, uplight, rng, rng', v, hR.lawful, by simp [uplight], ⟨w, hR, rfl⟩, ⟨?_, ?_⟩, h 0, hv⟩
  · intro c hc
    have e : (w.brighten 0).scene.materials = [.plastic (Spectrum.gray (1 / 2)) 0 0, .light ((Spectrum.gray 5).scale 0)] := by
      show w.scene.materials.map _ = _
      rw [hR.same.1]; rfl
    rw [e] at hc
    simp only [List.mem_cons, reduceCtorEq, Material.light.injEq, List.not_mem_nil, or_false, false_or] at hc
    rw [hc]
    ext <;> simp [Spectrum.black, Spectrum.gray, Spectrum.scale]
  · intro sky hsky d
    have : (w.sky.map fun sky d => sky d * 0) = some sky := hsky
    obtain ⟨f, _, rfl⟩ := Option.map_eq_some_iff.1 this
    exact mul_zero _

/-! ### The scene itself -/

section
variable {K : Type} [Field K]

theorem Material.brighten_direct (m : Material K) (k : K) : (m.brighten k).emitsDirectLight = m.emitsDirectLight := by cases m <;> rfl

theorem pushObject_brighten (env : SceneEnv K) (k : K) (s : Scene K) (f b : Nat) (p : Primitive K) :
    (s.brighten k).pushObject env f b p = (s.pushObject env f b p).bind fun s => .ok (s.brighten k) := by
  unfold Scene.pushObject
  have hm : ∀ j : Nat, (s.brighten k).materials[j]? = (s.materials[j]?).map (Material.brighten k) := fun j => by simp [Scene.brighten]
  simp only [hm]
  cases s.materials[f]? with
  | none => rfl
  | some mf =>
    cases s.materials[b]? with
    | none => rfl
    | some mb =>
      simp only [Option.map_some, Material.brighten_direct]
      rw [bind_bind]
      refine bind_congr' _ fun x _ => ?_
      simp only [Res.bind_ok]
      split_ifs <;> rfl

theorem pushMaterial_brighten (k : K) (s : Scene K) (m : Material K) : (s.brighten k).pushMaterial (m.brighten k) = ((s.pushMaterial m).1.brighten k, (s.pushMaterial m).2) := by
  simp [Scene.pushMaterial, Scene.brighten]

variable [LinearOrder K] [FloorRing K]

theorem rebuild_brighten (env : SceneEnv K) (k : K) (s : Scene K) : (s.brighten k).rebuildAccelerator env = (s.rebuildAccelerator env).bind fun s => .ok (s.brighten k) := by
  unfold Scene.rebuildAccelerator
  rw [bind_bind]
  rfl

theorem step_brighten (env : SceneEnv K) (k : K) (s : Scene K) (op : SceneOp K) : (s.brighten k).step env (op.brighten k) = (s.step env op).bind fun s => .ok (s.brighten k) := by
  cases op with
  | pushMaterial m => simp only [SceneOp.brighten, Scene.step, pushMaterial_brighten, Res.bind_ok]
  | pushObject f b p => exact pushObject_brighten env k s f b p
  | build =>
    simp only [SceneOp.brighten, Scene.step, Scene.buildAccelerator]
    have : (s.brighten k).accelerator = s.accelerator := rfl
    rw [this]
    split_ifs
    · rfl
    · exact rebuild_brighten env k s
  | rebuild => exact rebuild_brighten env k s
  | addPerezSky sun =>
    cases sun with
    | none => rfl
    | some x =>
      obtain ⟨d, b, a⟩ := x
      simp only [SceneOp.brighten, Scene.step, Scene.addPerezSky]
      have hg : (Material.light (Spectrum.gray (b * k)) : Material K) = (Material.light (Spectrum.gray b)).brighten k := by simp [Material.brighten, Spectrum.gray, Spectrum.scale]
      have hs : ({ s.brighten k with hasSky := true } : Scene K) = ({ s with hasSky := true } : Scene K).brighten k := rfl
      rw [hg, hs, pushMaterial_brighten]
      exact pushObject_brighten env k _ _ _ _

/-- **C86, the scene.** Making the same calls with brighter lights gives the same scene with brighter lights: nothing else (triangles, order, accelerator, registered lights, panics) changes. -/
theorem C86_scene_with_brighter_lights (env : SceneEnv K) (k : K) (ops : List (SceneOp K)) :
    Scene.run env {} (ops.map (SceneOp.brighten k)) = (Scene.run env {} ops).bind fun s => .ok (s.brighten k) := by
  have : ∀ s : Scene K, Scene.run env (s.brighten k) (ops.map (SceneOp.brighten k)) = (Scene.run env s ops).bind fun s => .ok (s.brighten k) := by
    induction ops with
    | nil => intro s; rfl
    | cons op ops ih =>
      intro s
      rw [List.map_cons]
      unfold Scene.run
      rw [step_brighten, bind_bind, bind_bind]
      exact bind_congr' _ fun s' _ => ih s'
  exact this {}

end

end Rendering
