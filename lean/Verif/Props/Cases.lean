import Verif.Props.Termination
import Verif.Props.SunNoise
import Verif.Props.LoadedScenes
import Verif.Props.FalseColourPrograms
import Verif.Props.SafetyScenes
import Verif.Props.Direct

set_option linter.unusedSectionVars false

/-!
# One scene, every theorem about scenes

A grey floor under a sun and a sky (`sunnyFloor`), traced, rendered and measured: the theorems about scenes apply to it. Each example here uses the theorems it names, with all their hypotheses proved.
-/

namespace Rendering
open MeasureTheory

/-- The world of the examples: a grey floor under a sun and a uniform sky. -/
theorem sunny_world : ∃ (s : Scene ℝ) (w : World), Scene.run realEnv {} sunnyFloor = .ok s ∧ w.Renders s ∧ w.ext.PerpSpec ∧ w.LightsMet ∧ w.Physical s ∧ s.triangles = [plane 0] ∧ s.distantLights.length = 1 ∧ s.lights = [] ∧
    s.materials = [.plastic (Spectrum.gray (1 / 2)) 0 0, .light (Spectrum.gray 5)] ∧ ∃ hit, w.cast downRay = .ok (some hit) := by
  let s0 : Scene ℝ := { triangles := [plane 0], normals := (meshTriangle realEnv (plane 0)).2, front := [0], back := [0], materials := [.plastic (Spectrum.gray (1 / 2)) 0 0, .light (Spectrum.gray 5)],
                        distantLights := [{ front := 1, back := 1, primitive := .source ⟨0, 0, 1⟩ 1 }] }
  have hrun : Scene.run realEnv {} sunnyFloor = .ok s0 := rfl
  obtain ⟨ext, hext⟩ := perpSpec_exists
  let ext' : GeoExt := { ext with primIntersect := fun _ ray => some { p := ray.origin + ray.direction, normal := ray.direction.scale (-1), side := .Front, dpdu := 0, dpdv := 0, u := 0, v := 0 } }
  obtain ⟨w, hR, hw, _, hsky, hcol⟩ := renders_exists s0 ⟨rfl, rfl, rfl⟩ (fits_of_small _ (by simp [s0])) ext' ⟨fun _ _ => false, fun _ _ => false⟩ (some fun _ => 1) none
  refine ⟨s0, w, hrun, hR, by rw [hw]; exact hext, ?_, ?_, rfl, rfl, rfl, rfl, ?_⟩
  · intro o _ pt d rng rng' _
    rw [hw]
    simp [ext']
  · refine physical_of_run realEnv refEnv_lawful (fun _ _ => rfl) rfl sunnyFloor (fun op h => (sunnyFloor_good op h).2) s0 hrun w ?_ ?_
    · intro sky h d
      rw [hsky] at h
      cases h
      exact zero_le_one
    · intro c h
      rw [hcol] at h
      cases h
  · rcases hR.cast_cases downRay with ⟨_, hno⟩ | ⟨i, tri, b, j, hc, _⟩
    · exact absurd downRay_inRange (hno _ (by simp [s0]) _ downRay_visible)
    · exact ⟨_, hc⟩

theorem sunny_twoSided : ∀ f b p, SceneOp.pushObject f b p ∈ sunnyFloor → f = b := by
  intro f b p h
  simp only [sunnyFloor, List.mem_cons, List.not_mem_nil, or_false, reduceCtorEq, false_or, SceneOp.pushObject.injEq] at h
  rcases h with ⟨rfl, rfl, _⟩ | ⟨rfl, rfl, _⟩ <;> rfl

/-- C10, C11, C12, C05, C14: what the pushes leave in the scene. -/
example : ∃ s : Scene ℝ, Scene.run realEnv {} sunnyFloor = .ok s ∧ s.Aligned ∧ s.IndicesValid ∧ s.materials = pushedMaterials sunnyFloor ∧ s.rows.Perm (pushedRows realEnv sunnyFloor) ∧ s.countAllLights = (pushedLights [] sunnyFloor).length ∧
    s.accelerator = none ∧ ∃ s', s.rebuildAccelerator realEnv = .ok s' ∧ s'.accelerator ≠ none := by
  obtain ⟨s, _, hrun, _⟩ := sunny_world
  have h1 := C10_aligned_and_valid realEnv refEnv_lawful (fun _ _ => rfl) sunnyFloor s hrun
  have h2 := C14_accelerator_iff_built realEnv refEnv_lawful (fun _ _ => rfl) sunnyFloor s hrun
  refine ⟨s, hrun, h1.1, h1.2, C11_materials_are_those_pushed realEnv refEnv_lawful (fun _ _ => rfl) sunnyFloor s hrun, C05_history_permutes realEnv refEnv_lawful (fun _ _ => rfl) sunnyFloor s hrun,
    (C12_light_registry realEnv refEnv_lawful (fun _ _ => rfl) sunnyFloor s hrun).2.2, ?_, (C14_build_life_cycle realEnv refEnv_lawful (fun _ _ => rfl) sunnyFloor s hrun).2.2⟩
  by_contra hne
  obtain ⟨op, hop, hb⟩ := h2.1 hne
  simp only [sunnyFloor, List.mem_cons, List.not_mem_nil, or_false] at hop
  rcases hop with rfl | rfl | rfl | rfl <;> exact hb trivial

/-- C60, C92, C93, C75, C57: a ray traced in the scene returns, with a colour that is not negative, the reference tracer's. -/
example (rng : Rng) (hr : rng.Valid) : ∃ (w : World) (v : Spectrum ℝ) (pdf : ℝ) (ray' : TRay) (st' : TState), w.scene.distantLights ≠ [] ∧
    traceRay w ⟨0, 10, 100, 1, 0⟩ 104 ⟨rng, defaultRays⟩ downRay = .ok ((v, pdf), ray', st') ∧ 0 ≤ v.c0 ∧ 0 ≤ v.c1 ∧ 0 ≤ v.c2 ∧ st'.rays.length = 15 ∧
    outcome (traceRay w ⟨0, 10, 100, 1, 0⟩ 104 ⟨rng, defaultRays⟩ downRay) = refTrace w ⟨0, 10, 100, 1, 0⟩ 104 rng downRay := by
  obtain ⟨s, w, hrun, hR, hext, hmet, hP, _, hd, _, hmat, _⟩ := sunny_world
  have hS := sound_of_run realEnv refEnv_lawful (fun _ _ => rfl) sunnyFloor (fun op h => (sunnyFloor_good op h).1) s hrun w hR hext
  have hlen : (⟨0, 10, 100, 1, 0⟩ : RayTracer).maxDepth < defaultRays.length := by simp [defaultRays]
  obtain ⟨⟨⟨v, pdf⟩, ray', st'⟩, hx⟩ := C60_ends_partial hS.1 hmet ⟨0, 10, 100, 1, 0⟩ (Or.inr hS.2) (Or.inr (by
    rw [hmat]; intro m hm; simp only [List.mem_cons, List.not_mem_nil, or_false] at hm; rcases hm with rfl | rfl <;> rfl)) (Or.inl (Or.inl rfl)) rng hr defaultRays downRay hlen 104 (by norm_num)
  obtain ⟨n0, n1, n2⟩ := C93_never_negative_partial hS hP ⟨0, 10, 100, 1, 0⟩ 104 rng hr defaultRays downRay hlen (by norm_num [downRay, TRay.default]) v pdf ray' st' hx
  refine ⟨w, v, pdf, ray', st', ?_, hx, n0, n1, n2, ?_,
    C75_is_reference_tracer w _ _ rng defaultRays downRay hlen⟩
  · rw [hR.same.2.2]; intro h0; rw [h0] at hd; cases hd
  · rw [(C75_outer_slots_kept w _ _ ⟨rng, defaultRays⟩ st' downRay ray' _ hlen hx).1]; simp [defaultRays]

/-- C92, C93, C75, C77, C86, C87: the deep tracer with the default settings. -/
example (rng : Rng) (hr : rng.Valid) (fuel : Nat) : ∃ w : World, w.scene.distantLights ≠ [] ∧ traceRay w ⟨2, 10, 70, 1 / 1000, 3 / 10⟩ fuel ⟨rng, defaultRays⟩ downRay ≠ .panic ∧
    outcome (traceRay (w.brighten 2) ⟨2, 10, 70, 1 / 1000, 3 / 10⟩ fuel ⟨rng, defaultRays⟩ downRay) = scaledBy 2 (outcome (traceRay w ⟨2, 10, 70, 1 / 1000, 3 / 10⟩ fuel ⟨rng, defaultRays⟩ downRay)) ∧
    (∀ sky, outcome (traceRay (w.withSky sky none) ⟨2, 10, 70, 1 / 1000, 3 / 10⟩ fuel ⟨rng, defaultRays⟩ downRay) = outcome (traceRay (w.withSky (fun _ => 0) none) ⟨2, 10, 70, 1 / 1000, 3 / 10⟩ fuel ⟨rng, defaultRays⟩ downRay)) ∧
    outcome (traceRayAsserting w ⟨2, 10, 70, 1 / 1000, 3 / 10⟩ 3 fuel ⟨rng, defaultRays⟩ downRay) = outcome (traceRay w ⟨2, 10, 70, 1 / 1000, 3 / 10⟩ fuel ⟨rng, defaultRays⟩ downRay) := by
  obtain ⟨s, w, hrun, hR, hext, hmet, hP, _, hd, _, hmat, hit, hhit⟩ := sunny_world
  have hlen : (⟨2, 10, 70, 1 / 1000, 3 / 10⟩ : RayTracer).maxDepth < defaultRays.length := by simp [defaultRays]
  refine ⟨w, ?_, C92_history_never_panics_partial realEnv refEnv_lawful (fun _ _ => rfl) sunnyFloor (fun op h => (sunnyFloor_good op h).1) s hrun w hR hext _ fuel rng hr defaultRays downRay hlen, ?_, ?_,
    C57_depth_bounded_partial w _ fuel rng defaultRays downRay hlen (Nat.zero_le _)⟩
  · rw [hR.same.2.2]; intro h0; rw [h0] at hd; cases hd
  · refine C86_light_scales_partial 2 w ?_ _ fuel rng defaultRays downRay hlen
    exact twoSided_of_run realEnv refEnv_lawful (fun _ _ => rfl) sunnyFloor sunny_twoSided s hrun w hR.same
  · intro sky
    refine C77_violation_sky_lights_nothing w ?_ _ fuel sky (fun _ => 0) none none rng defaultRays downRay hlen hit hhit
    intro m hm
    obtain ⟨hsm, _⟩ := hR.same
    rw [hsm, hmat] at hm
    simp only [List.mem_cons, List.not_mem_nil, or_false] at hm
    rcases hm with rfl | rfl <;> rfl

/-- C94, C96, C58, C61: daylight coefficients of two sensors in the scene. -/
example (primary : Nat → Rng) (secondary : Nat → Nat → Rng) (hr : ∀ i k, (secondary i k).Valid) : ∃ (w : World) (M : Mat (Spectrum ℝ)), (∃ hit, w.cast downRay = .ok (some hit)) ∧
    calcDc w ⟨145, fun _ => 7, 2, 100, 0, 3 / 10⟩ 4 [⟨⟨0, 0, 1 / 2⟩, ⟨0, 0, 1⟩⟩, ⟨⟨0, 0, 1 / 2⟩, ⟨0, 0, -1⟩⟩] primary secondary = .ok M ∧ M.WF ∧ M.nrows = 2 ∧ M.ncols = 145 ∧
    (∀ i j v, M.get? i j = some v → 0 ≤ v.c0 ∧ 0 ≤ v.c1 ∧ 0 ≤ v.c2) ∧
    ∃ M', calcDc w ⟨145, fun _ => 7, 2, 100, 0, 3 / 10⟩ 4 [⟨⟨0, 0, 1 / 2⟩, ⟨0, 0, -1⟩⟩] (fun _ => primary 1) (fun _ => secondary 1) = .ok M' ∧ M'.nrows = 1 ∧ ∀ j < 145, M'.get? 0 j = M.get? 1 j := by
  obtain ⟨s, w, hrun, hR, hext, hmet, hP, _, _, _, hmat, hhit⟩ := sunny_world
  have hS := sound_of_run realEnv refEnv_lawful (fun _ _ => rfl) sunnyFloor (fun op h => (sunnyFloor_good op h).1) s hrun w hR hext
  let dc : DcFactory := ⟨145, fun _ => 7, 2, 100, 0, 3 / 10⟩
  have hn : ∀ r ∈ ([⟨⟨0, 0, 1 / 2⟩, ⟨0, 0, 1⟩⟩, ⟨⟨0, 0, 1 / 2⟩, ⟨0, 0, -1⟩⟩] : List (Ray3 ℝ)), Norm r.direction = 1 := by
    intro r h
    simp only [List.mem_cons, List.not_mem_nil, or_false] at h
    rcases h with rfl | rfl <;> exact Norm_eq_one (by norm_num [Dot])
  obtain ⟨M, hM, _⟩ := C96_dc_returns_partial (dc := dc) hS (Or.inr (by
    rw [hmat]; intro m hm; simp only [List.mem_cons, List.not_mem_nil, or_false] at hm; rcases hm with rfl | rfl <;> rfl)) (fun _ => by norm_num [dc]) (by norm_num [dc]) 4 (by norm_num [dc]) _ hn primary secondary hr
  obtain ⟨h1, h2, h3, _⟩ := C58_rows w dc 4 _ primary secondary M hM
  refine ⟨w, M, hhit, hM, h1, h2, h3, C94_never_negative_partial (dc := dc) hS hP (fun _ => by norm_num [dc]) (by norm_num [dc]) 4 _ hn primary secondary hr M hM,
    C58_rows_independent w dc 4 _ primary secondary M hM 1 _ rfl⟩

open SfluxmtxExamples in
theorem twoSensors_lines : rawLines twoSensors = [bytes "I I I I I II\n", bytes "II I I I I III\n"] := by decide +kernel

open SfluxmtxExamples in
theorem twoSensors_good : ∀ l ∈ rawLines twoSensors, ∃ t r, ProgramExamples.decode l = some t ∧ SensorLine parseReal Vec3.normalized t r := by
  have hd : ∀ l ∈ rawLines twoSensors, ∃ t, ProgramExamples.decode l = some t := by
    rw [twoSensors_lines]
    intro l hl
    simp only [List.mem_cons, List.not_mem_nil, or_false] at hl
    rcases hl with rfl | rfl
    · exact ⟨"I I I I I II\n".toList, by decide +kernel⟩
    · exact ⟨"II I I I I III\n".toList, by decide +kernel⟩
  have h := (C89_one_ray_per_line_partial parseReal parserReal Vec3.normalized ProgramExamples.decode twoSensors hd _).1 twoSensors_read
  intro l hl
  obtain ⟨i, hi, rfl⟩ := List.getElem_of_mem hl
  obtain ⟨t, h1, h2⟩ := (List.forall₂_iff_get.1 h).2 i hi (by rw [← h.length_eq]; exact hi)
  exact ⟨t, _, h1, h2⟩

open SfluxmtxExamples in
/-- No sensor of `twoSensors` faces nowhere. -/
theorem twoSensors_face : ∀ l ∈ rawLines twoSensors, ∀ t px py pz dx dy dz, ProgramExamples.decode l = some t → Words [px, py, pz, dx, dy, dz] t → ¬ (parseReal dx = some 0 ∧ parseReal dy = some 0 ∧ parseReal dz = some 0) := by
  have key : ∀ (line px py pz dx dy dz : List Char) (rest : List Char), line.reverse.dropWhile isWhite = 'I' :: 'I' :: rest → Words [px, py, pz, dx, dy, dz] line → parseReal dz ≠ some 0 := by
    intro line px py pz dx dy dz rest hl ⟨before, after, _, ha, hw⟩ hz
    have hI : dz = ['I'] := by
      obtain ⟨n, hn, h0⟩ := Option.map_eq_some_iff.1 hz
      have : n = 0 := by exact_mod_cast h0
      subst this
      match dz, hn with
      | [], hn => simp [ProgramExamples.parse] at hn
      | [a], hn =>
        by_cases h : a = 'I'
        · rw [h]
        · simp [ProgramExamples.parse, h] at hn
      | a :: b :: l, hn => simp [ProgramExamples.parse] at hn
    subst hI
    have e : line.reverse = after.reverse ++ ('I' :: ' ' :: (before ++ List.intercalate [' '] [px, py, pz, dx, dy]).reverse) := by
      rw [hw]
      simp [List.intercalate, List.intersperse]
    rw [e, dropWhile_white after.reverse _ (by simpa using ha) (by intro c hc; simp at hc; subst hc; decide)] at hl
    simp at hl
  rw [twoSensors_lines]
  intro l hl t px py pz dx dy dz hd hw ⟨_, _, hz⟩
  simp only [List.mem_cons, List.not_mem_nil, or_false] at hl
  rcases hl with rfl | rfl
  · rw [show ProgramExamples.decode (bytes "I I I I I II\n") = some "I I I I I II\n".toList by decide +kernel] at hd
    cases hd
    exact key _ px py pz dx dy dz _ (by decide +kernel : _ = 'I' :: 'I' :: " I I I I I".toList) hw hz
  · rw [show ProgramExamples.decode (bytes "II I I I I III\n") = some "II I I I I III\n".toList by decide +kernel] at hd
    cases hd
    exact key _ px py pz dx dy dz _ (by decide +kernel : _ = 'I' :: 'I' :: "I I I I I II".toList) hw hz

open SfluxmtxExamples in
/-- C94, C96, C95: the program that writes the coefficients, on the sensors of `twoSensors`. -/
example (rng : Rng) (hr : rng.Valid) : ∃ (w : World) (content : List UInt8) (m : Mat (Spectrum ℝ)), (∃ hit, w.cast downRay = .ok (some hit)) ∧
    sfluxmtx parseReal ProgramExamples.decode fmtReal w ⟨145, fun _ => 7, 2, 100, 0, 3 / 10⟩ 4 twoSensors (fun _ => rng) (fun _ _ => rng) = some (.ok content) ∧ readColourMatrix fmtReal content = .ok (some m) ∧ m.nrows = 2 ∧ m.ncols = 145 := by
  obtain ⟨s, w, hrun, hR, hext, hmet, hP, _, _, _, hmat, hhit⟩ := sunny_world
  have hS := sound_of_run realEnv refEnv_lawful (fun _ _ => rfl) sunnyFloor (fun op h => (sunnyFloor_good op h).1) s hrun w hR hext
  obtain ⟨content, m, h1, h2, h3, h4⟩ := C96_sfluxmtx_succeeds_partial (dc := ⟨145, fun _ => 7, 2, 100, 0, 3 / 10⟩) parseReal ProgramExamples.decode fmtReal parserReal round5Real fmtReal_fixed hS (Or.inr (by
    rw [hmat]; intro m hm; simp only [List.mem_cons, List.not_mem_nil, or_false] at hm; rcases hm with rfl | rfl <;> rfl)) (fun _ => by norm_num) (by norm_num) 4 (by norm_num) twoSensors twoSensors_good twoSensors_face
    (by rw [twoSensors_lines]; norm_num) (by norm_num) (fun _ => rng) (fun _ _ => rng) (fun _ _ => hr)
  refine ⟨w, content, m, hhit, h1, h2, ?_, h4⟩
  rw [h3, twoSensors_lines]; rfl

/-- C91, C93: pictures of the scene. -/
example (rng : Nat → Rng) (hr : ∀ k, (rng k).Valid) (fuel : Nat) : ∃ w : World, (∃ hit, w.cast downRay = .ok (some hit)) ∧ ∃ (s s' : RState TState (Spectrum ℝ)) (content : List UInt8) (im : ImageBuffer), lookDown.Rendered w fuel rng s ∧
    lookDown.Rendered (w.brighten 3) fuel rng s' ∧ spictFile lookDown s = .ok content ∧ lookDown.Picture content im ∧ (∀ p ∈ renderPixels 3 3 s, 0 ≤ p.c0 ∧ 0 ≤ p.c1 ∧ 0 ≤ p.c2) ∧
    renderPixels 3 3 s' = (renderPixels 3 3 s).map (fun c => c.scale 3) ∧
    ∀ x y, traceRay w lookDown.rt fuel (pixelState (pixelTracer w lookDown.rt fuel lookDown.camera) (chunkState rng) lookDown.width (y * lookDown.width + x)) (lookDown.camera.traceableRay (x, y)) ≠ .panic := by
  obtain ⟨sc, w, hrun, hR, hext, hmet, hP, _, _, _, hmat, hhit⟩ := sunny_world
  have hS := sound_of_run realEnv refEnv_lawful (fun _ _ => rfl) sunnyFloor (fun op h => (sunnyFloor_good op h).1) sc hrun w hR hext
  have h2 := twoSided_of_run realEnv refEnv_lawful (fun _ _ => rfl) sunnyFloor sunny_twoSided sc hrun w hR.same
  obtain ⟨s, hs⟩ := rendered_exists lookDown lookDown_sized w fuel rng
  obtain ⟨s', hs'⟩ := rendered_exists lookDown lookDown_sized (w.brighten 3) fuel rng
  obtain ⟨content, im, h3, h4, _⟩ := C91_file_holds_traced_pixels lookDown lookDown_sized w fuel rng s hs
  have hD : lookDown.rt.maxDepth < 15 := by norm_num [lookDown]
  exact ⟨w, hhit, s, s', content, im, hs, hs', h3, h4, C93_no_pixel_negative_partial hS hP lookDown lookDown_sized hD fuel rng hr s hs, C91_picture_scales lookDown lookDown_sized hD 3 w h2 fuel rng s s' hs hs',
    C92_no_pixel_panics_partial hS.1 lookDown (Or.inr hS.2) hD fuel rng hr⟩

/-- C91, C87: the lights switched off. -/
example (rng : Nat → Rng) (fuel : Nat) : ∃ w : World, (∃ hit, w.cast downRay = .ok (some hit)) ∧ ∃ (s : RState TState (Spectrum ℝ)) (content : List UInt8) (im : ImageBuffer), lookDown.Rendered w fuel rng s ∧
    spictFile lookDown s = .ok content ∧ lookDown.Picture content im ∧ (∀ p ∈ im.pixels, p = Spectrum.black) ∧
    ∀ v pdf ray' st', traceRay w lookDown.rt fuel ⟨rng 0, defaultRays⟩ downRay = .ok ((v, pdf), ray', st') → v = Spectrum.black := by
  obtain ⟨w, hu, h2, _, hhit⟩ := unlit_world
  have hD : lookDown.rt.maxDepth < 15 := by norm_num [lookDown]
  obtain ⟨s, hs⟩ := rendered_exists lookDown lookDown_sized w fuel rng
  obtain ⟨content, im, h3, h4, h5⟩ := C91_no_light_black_picture lookDown lookDown_sized hD w hu h2 fuel rng s hs
  exact ⟨w, hhit, s, content, im, hs, h3, h4, h5, C87_no_light_no_image_partial w hu h2 lookDown.rt fuel (rng 0) defaultRays downRay (by simpa [defaultRays] using hD)⟩

/-- C100, C106: the mean of, and the noise in, the light of the sun on a floor. -/
example (rest : Rng) : ∃ (w : World) (s : Scene ℝ) (hit : TRay), w.Renders s ∧ s.triangles ≠ [] ∧
    let seen := MeanN 10 (fun ω => seenLight (traceRay w ⟨0, 10, 70, 1 / 1000, 3 / 10⟩ 12 ⟨Rng.ofPairs ω rest, defaultRays⟩ downRay) Spectrum.c0)
    let here := fun ω => brought (w.localIllumination 11 (.plastic (Spectrum.gray (1 / 2)) 0 0) hit (Rng.ofPairs ω rest) 10) Spectrum.c0
    let c := Real.cos (1 / 100 / 2)
    let pt := hit.interaction.point + hit.interaction.shading.normal.scale (1 / 1000)
    let expected := ENNReal.ofReal (1 / 2 / Real.pi * 5) * projectedSolidAngle {l | SunSurelySeen s pt 1000000 (worldOf ⟨1, 0, 0⟩ ⟨0, 1, 0⟩ hit.interaction.shading.normal l) ∧ c < Dot (worldOf ⟨1, 0, 0⟩ ⟨0, 1, 0⟩ hit.interaction.shading.normal l) (⟨0, 0, 1⟩ : Vec3 ℝ).normalized}
    ENNReal.ofReal (2 * c ^ 2 / (1 + c)) * expected ≤ seen ∧ ENNReal.ofReal (2 * c ^ 2 / (1 + c)) * expected ≤ MeanN 10 here ∧ 1 - 1 / 50000 ≤ 2 * c ^ 2 / (1 + c) ∧
    ProbabilityN 10 (fun ω => here ω + ENNReal.ofReal (1 / 2 / Real.pi * 5 * (2 * Real.pi * (1 - c)) * (1 / 10)) < ENNReal.ofReal (2 * c ^ 2 / (1 + c)) * expected) ≤ ENNReal.ofReal (Real.exp (-2 * (10 : ℕ) * (1 / 10) ^ 2)) := by
  obtain ⟨w, s, sun, i, hit, hR, hext, hne, hflat, hS, hl, hd, hcast, hmat, hN, hframe, hup, -⟩ := sunlit_floor
  refine ⟨w, s, hit, hR, hne, ?_, ?_, ?_, ?_⟩
  · exact (C100_traced hR hext hflat hS hl hd ⟨0, 10, 70, 1 / 1000, 3 / 10⟩ (Or.inl rfl) (by norm_num) 11 (by norm_num) defaultRays downRay rfl i hit hcast _ _ _ (List.mem_cons_self ..) hmat _ _ hframe hup rest Spectrum.c0 (by simp)
      (by norm_num [Spectrum.gray]) (by norm_num [Spectrum.gray])).1
  · exact (C100_sunlight hR hext hS hl hd _ (Spectrum.gray (1 / 2)) 0 (List.mem_cons_self ..) hit _ _ hframe hup 10 (by norm_num) 11 (by norm_num) rest Spectrum.c0 (by simp) (by norm_num [Spectrum.gray]) (by norm_num [Spectrum.gray])).1
  · exact (C100_error (1 / 100) (by norm_num) (by norm_num)).1
  · exact (C106_noise hR hext hS hl hd _ (Spectrum.gray (1 / 2)) 0 (List.mem_cons_self ..) hit _ _ hframe hup 10 (by norm_num) 11 (by norm_num) rest Spectrum.c0 (by simp) (by norm_num [Spectrum.gray]) (by norm_num [Spectrum.gray]) (1 / 10) (by norm_num)).1

/-- C103: what the lamp's text describes is in the scene. -/
example (senv : SimpleEnv ℝ) (parseSpl : List UInt8 → Option (SimpleModel ℝ)) : ∃ s items, loadScene plainRad senv parseSpl "lamp.rad".toList lampText = .ok s ∧ Describes plainRad (tokensOf lampText) items ∧ s.accelerator ≠ none := by
  obtain ⟨s, hs, _⟩ := lamp_loaded senv parseSpl
  obtain ⟨items, h1, h2, _⟩ := C103_loads_what_is_described plainRad refEnv_lawful (fun _ _ => rfl) senv parseSpl _ _ s hs
  exact ⟨s, items, hs, h1, h2⟩

/-- C103: whatever ray is cast at the lamp. -/
example (senv : SimpleEnv ℝ) (parseSpl : List UInt8 → Option (SimpleModel ℝ)) (ray : TRay) (hray : Norm ray.geometry.direction = 1) : ∃ w : World, loadScene plainRad senv parseSpl "lamp.rad".toList lampText = .ok w.scene ∧ ∃ r, w.cast ray = .ok r := by
  obtain ⟨s, hs, _, _, _, hfit⟩ := lamp_loaded senv parseSpl
  let w : World := { scene := s, env := plainRad.scene, ext := ⟨fun _ => none, fun _ _ => none⟩, dt := ⟨fun _ _ => false, fun _ _ => false⟩, sky := none, skyColour := none }
  refine ⟨w, hs, ?_⟩
  rcases C103_rays_meet_the_described plainRad refEnv_lawful refEnv_conservative (fun _ _ => rfl) senv parseSpl _ _ w rfl hs _ lampText_describes hfit ray hray with h | ⟨_, _, _, _, _, _, _, h, _⟩
  · exact ⟨_, h.1⟩
  · exact ⟨_, h⟩

/-- C102: false colours of a picture. -/
example (m : Colourmap) : ∃ (file : List UInt8) (im : ImageBuffer) (lo hi : ℝ) (j : JpegInput), ImageBuffer.fromFile file = .ok (.image im) ∧ sfalsecolor file none none false m = .ok (.jpeg j) ∧ ColoursOf (ScaleColour m.table lo hi) (im.pixels.map Spectrum.luminance) j.data := by
  obtain ⟨file, im, lo, hi, h1, h2, h3, h4, h5, h6, h7⟩ := grey_picture
  obtain ⟨j, k1, _, _, k2⟩ := C102_linear file im h1 h2.ge h3 h4 none none m lo hi h5 h6 h7
  exact ⟨file, im, lo, hi, j, h1, k1, k2⟩

/-- C102, C90: the program that compares pictures, on two equal ones. -/
example (m : Colourmap) : ∃ (file : List UInt8) (im : ImageBuffer), ImageBuffer.fromFile file = .ok (.image im) ∧ 0 < im.width * im.height ∧
    (∃ j c, scompare file file none (some 1) false (some m) = .ok (.jpeg j) ∧ m.table.head? = some c ∧ j.data.length = 3 * im.pixels.length ∧ ∀ i < im.pixels.length, PixelHas j.data i c) ∧
    ∃ j, sfalsecolor file none none true m = .ok (.jpeg j) ∧ j.data.length = 3 * im.pixels.length := by
  obtain ⟨file, im, lo, hi, h1, h2, h3, h4, h5, h6, h7⟩ := grey_picture
  obtain ⟨j, k1, _, _, k2⟩ := C102_always_writes file im h1 h2.ge h3 h4 none none true m (by simp)
  exact ⟨file, im, h1, Nat.mul_pos (Nat.pos_of_ne_zero (by rintro h; rw [h] at h3; exact h3 rfl)) (Nat.pos_of_ne_zero (by rintro h; rw [h] at h4; exact h4 rfl)),
    C102_same_is_first_colour file im h1 h2 h3 h4 none 1 0 false m (Or.inl ⟨rfl, rfl⟩) (by norm_num), j, k1, k2⟩

end Rendering
