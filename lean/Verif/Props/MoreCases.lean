import Verif.Props.Cases
import Verif.Props.Triangle
import Verif.Props.Render
import Verif.Props.Obj
import Verif.Props.Radiance
import Verif.Props.Programs
import Verif.Props.FalseColour
import Verif.Props.Noise
import Verif.Props.Tree
import Verif.Props.Views
import Verif.Props.DaylightScenes
import Verif.Props.Superposition

set_option linter.unusedSectionVars false

/-!
# Cases that meet the hypotheses of theorems

Each example applies the theorems it names, with all their hypotheses proved, to something concrete.
-/

namespace Rendering
open MeasureTheory

/-! ### Triangles -/

/-- C16: the ray that looks down meets the floor at its centre. -/
example : triangleIntersect (plane (0 : ℝ)) ⟨⟨0, 0, 1 / 2⟩, ⟨0, 0, -1⟩⟩ = some ⟨⟨0, 0, 0⟩, 1 / 3, 1 / 3, 1 / 2⟩ := by
  have h := (C16_hit_is_complete (K := ℝ) ⟨⟨0, 0, 1 / 2⟩, ⟨0, 0, -1⟩⟩ (plane 0) (1 / 2) (1 / 3) (1 / 3) (by norm_num) (by norm_num) (by norm_num) (by norm_num)
    (by ext <;> norm_num [plane, Vec3.scale]) (by norm_num [tripleProduct, plane])).1
  rw [h]
  congr 2
  ext <;> norm_num [Vec3.scale]

/-- C17: a triangle whose sides are one thousandth long. -/
example (ray : Ray3 ℝ) (hd : Norm ray.direction = 1) : triangleIntersectInfo ⟨⟨0, 0, 0⟩, ⟨1 / 1000, 0, 0⟩, ⟨0, 1 / 1000, 0⟩⟩ ray = none := by
  refine (C17_violation_small_triangles_invisible _ ?_ ray hd).1
  have : doubleArea ⟨⟨0, 0, 0⟩, ⟨1 / 1000, 0, 0⟩, ⟨0, 1 / 1000, 0⟩⟩ = 1 / 1000000 := by
    simp only [doubleArea, geometricNormal, Norm]
    rw [Real.sqrt_eq_iff_mul_self_eq] <;> norm_num [Cross, Dot]
  rw [this]; norm_num

/-! ### Rendering -/

/-- C39, C42, C41: 3 × 70 pixels, by any two schedules. -/
example (m m' : Nat) (s s' : RState ℚ (Spectrum ℚ)) (hr : (renderLoop tagTracer 3 70).Reach (renderInit (fun k => 1000 * k) 3 70) m s) (hr' : (renderLoop tagTracer 3 70).Reach (renderInit (fun k => 1000 * k) 3 70) m' s') :
    ((∃ w s'', (renderLoop tagTracer 3 70).step s w = some s'') ∨ (renderLoop tagTracer 3 70).Finished s ∧ 99 ≤ lastShown s.log) ∧
    ((renderLoop tagTracer 3 70).Finished s → (renderLoop tagTracer 3 70).Finished s' → renderPixels 3 70 s = renderPixels 3 70 s') := by
  refine ⟨?_, fun hf hf' => C39_schedule_independent tagTracer _ 3 70 (by norm_num) hr hf hr' hf'⟩
  by_cases h : (renderLoop tagTracer 3 70).Finished s
  · exact Or.inr ⟨h, (C41_render_display tagTracer _ 3 70 (by norm_num) hr).2.2 h (by norm_num)⟩
  · exact Or.inl (C42_render_no_deadlock tagTracer _ 3 70 (by norm_num) hr h)

/-! ### Histories of scenes -/

/-- C11, C86: a material pushed between others. -/
example (env : SceneEnv ℝ) (hE : env.bvh.Lawful) (hM : env.MeshAligned) (s' : Scene ℝ)
    (h : (({} : Scene ℝ).pushMaterial (.mirror (Spectrum.gray 1))).1.run env [.pushMaterial (.light (Spectrum.gray 5)), .pushObject 0 0 (.triangle (plane 0)), .build] = .ok s') :
    s'.materials[0]? = some (.mirror (Spectrum.gray 1)) :=
  C11_material_handles_stable env hE hM [] _ {} s' _ rfl h

/-! ### Files -/

/-- C65, C66: the text of a lamp. -/
example (items : List (RadItem ℝ)) (h : Describes plainRad (tokensOf lampText) items) : items = lampItems := C66_describes_unique plainRad _ _ _ h lampText_describes

/-- C90, C102: two equal pictures. -/
example (min max : Option ℝ) (log : Bool) : ∃ (file : List UInt8) (im : ImageBuffer) (content : List UInt8) (d : ImageBuffer), ImageBuffer.fromFile file = .ok (.image im) ∧ 0 < im.width ∧ scompare file file min max log none = .ok (.hdr content) ∧
    ImageBuffer.fromFile content = .ok (.image d) ∧ ∀ r ∈ d.pixels, r = Spectrum.black := by
  let im : ImageBuffer := ⟨1, 2, [Spectrum.gray 1, Spectrum.gray 1]⟩
  have h := C24_hdr_roundtrip im (by norm_num [im]) (by norm_num [im])
  obtain ⟨content, d, h1, h2, _, _, h3⟩ := C90_same_is_black _ _ h rfl (by norm_num [im]) (by norm_num [im]) min max log
  exact ⟨_, _, content, d, h, by norm_num [im], h1, h2, h3⟩

/-- C90: a picture and one that is not a picture. -/
example (file : List UInt8) (im : ImageBuffer) (h : ImageBuffer.fromFile file = .ok (.image im)) (min max : Option ℝ) (log : Bool) (map : Option Colourmap) :
    scompare [] file min max log map = .ok .failed ∧ scompare file [] min max log map = .ok .failed := by
  have h0 : ImageBuffer.fromFile [] = .ok .err := by rfl
  exact ⟨(C90_unreadable [] file min max log map .inferno).1 h0, (C90_unreadable file [] min max log map .inferno).2.1 ⟨im, h⟩ h0⟩

/-- C30: a picture with a pixel of negative luminance. -/
example (m : Colourmap) : (⟨1, 1, [Spectrum.gray (-1)]⟩ : ImageBuffer).saveLogFalsecolour none none m = .panic :=
  C30_violation_log_negative _ (by norm_num [Spectrum.gray, Spectrum.luminance, Spectrum.radiance, Spectrum.channels, Spectrum.radianceCoefficients, Spectrum.whiteEfficacy]) m

/-- C30: the largest of two pixels. -/
example : ∃ hi, logMax ((⟨1, 2, [Spectrum.gray 1, Spectrum.gray 4]⟩ : ImageBuffer).pixels.map (fun p => log10F p.luminance)) none = .fin hi ∧ Real.logb 10 (Spectrum.gray (4 : ℝ)).luminance ≤ hi :=
  C30_log_auto_bounds ⟨1, 2, [Spectrum.gray 1, Spectrum.gray 4]⟩ (Spectrum.gray 4) (by simp) (by norm_num [Spectrum.gray, Spectrum.luminance, Spectrum.radiance, Spectrum.channels, Spectrum.radianceCoefficients, Spectrum.whiteEfficacy])

/-! ### Sensors and pictures -/

theorem sunny_sensors : ∀ r ∈ ([⟨⟨0, 0, 1 / 2⟩, ⟨0, 0, 1⟩⟩, ⟨⟨0, 0, 1 / 2⟩, ⟨0, 0, -1⟩⟩] : List (Ray3 ℝ)), Norm r.direction = 1 := by
  intro r h
  simp only [List.mem_cons, List.not_mem_nil, or_false] at h
  rcases h with rfl | rfl <;> exact Norm_eq_one (by norm_num [Dot])

/-- What is above a floor is open sky. -/
theorem above_floor (s : Scene ℝ) (hs : s.triangles = [plane 0]) : OpenSky s ⟨⟨0, 0, 1 / 2⟩, ⟨0, 0, 1⟩⟩ := by
  intro d _ hup tri htri t p u v hit
  rw [hs, List.mem_singleton] at htri
  subst htri
  exfalso
  have h1 := congrArg Vec3.z hit.1
  have h2 := congrArg Vec3.z hit.2.2.1
  have h3 := hit.2.1
  norm_num [Vec3.scale, plane, Dot] at h1 h2 hup
  nlinarith

/-- C58, C59, C80, C94: two sensors above the floor, one of which looks up. -/
example (primary : Nat → Rng) (hp : ∀ i, (primary i).Valid) (secondary : Nat → Nat → Rng) (hr : ∀ i k, (secondary i k).Valid) : ∃ (w : World) (M : Mat (Spectrum ℝ)), (∃ hit, w.cast downRay = .ok (some hit)) ∧
    calcDc w ⟨145, fun _ => 7, 0, 100, 0, 3 / 10⟩ 4 [⟨⟨0, 0, 1 / 2⟩, ⟨0, 0, 1⟩⟩, ⟨⟨0, 0, 1 / 2⟩, ⟨0, 0, -1⟩⟩] primary secondary = .ok M ∧ M.get? 0 7 = some (Spectrum.gray Real.pi) ∧ ∃ x, 0 ≤ x ∧ x ≤ Real.pi ∧ M.rowTotal 1 = Spectrum.gray x := by
  obtain ⟨s, w, hrun, hR, hext, hmet, hP, htri, _, _, hmat, hhit⟩ := sunny_world
  have hS := sound_of_run realEnv refEnv_lawful (fun _ _ => rfl) sunnyFloor (fun op h => (sunnyFloor_good op h).1) s hrun w hR hext
  let dc : DcFactory := ⟨145, fun _ => 7, 0, 100, 0, 3 / 10⟩
  have hmat' : ∀ m ∈ s.materials, m.specularOnly = false := by
    rw [hmat]; intro m hm; simp only [List.mem_cons, List.not_mem_nil, or_false] at hm; rcases hm with rfl | rfl <;> rfl
  obtain ⟨M, hM, _⟩ := C96_dc_returns_partial (dc := dc) hS (Or.inr hmat') (fun _ => by norm_num [dc]) (by norm_num [dc]) 4 (by norm_num [dc]) _ sunny_sensors primary secondary hr
  obtain ⟨dirs, _, hrow, _⟩ := C59_open_sensor_collects_pi w s hR hext dc (fun _ _ => by norm_num [dc]) (by norm_num [dc]) _ primary secondary hp 3 M hM 0 _ rfl (sunny_sensors _ (by simp)) (above_floor s htri)
  refine ⟨w, M, hhit, hM, ?_, (C80_direct_rows_partial w (by rw [hR.same.1]; exact hmat') dc rfl _ primary secondary 4 M hM 1 _ rfl).1⟩
  rw [hrow 7 (by norm_num [dc])]
  simp [dc]
  ring_nf

theorem sunny_measurable : ∀ j : Nat, Measurable3 {d | (fun _ => 7 : Vec3 ℝ → Nat) d = j} := by
  intro j
  by_cases h : 7 = j
  · rw [show {d | (fun _ => 7 : Vec3 ℝ → Nat) d = j} = Set.univ from Set.eq_univ_of_forall fun _ => h]; exact MeasurableSet.univ
  · rw [show {d | (fun _ => 7 : Vec3 ℝ → Nat) d = j} = ∅ from Set.eq_empty_of_forall_notMem fun _ h' => h h']; exact MeasurableSet.empty

/-- C98: what the sensor that looks down collects on average. -/
example (primary : Nat → Rng) (hp : ∀ i, (primary i).Valid) (secondary : Nat → Nat → Rng) : ∃ (w : World) (s : Scene ℝ) (e1 e2 : Vec3 ℝ), s.triangles = [plane 0] ∧ Frame e1 e2 ⟨0, 0, -1⟩ ∧
    projectedSolidAngle {l | (7 : Nat) = 7 ∧ SurelySeesSky s ⟨0, 0, 1 / 2⟩ (worldOf e1 e2 ⟨0, 0, -1⟩ l)} ≤
      MeanN 100 (fun ω => coefficient (calcDc w ⟨145, fun _ => 7, 0, 100, 0, 3 / 10⟩ 4 [⟨⟨0, 0, 1 / 2⟩, ⟨0, 0, 1⟩⟩, ⟨⟨0, 0, 1 / 2⟩, ⟨0, 0, -1⟩⟩] (Function.update primary 1 (Rng.ofPairs ω (primary 1))) secondary) 1 7 Spectrum.c0) := by
  obtain ⟨s, w, hrun, hR, hext, hmet, hP, htri, _, _, hmat, hhit⟩ := sunny_world
  have hI : s.IndicesValid := (C10_aligned_and_valid realEnv refEnv_lawful (fun _ _ => rfl) sunnyFloor s hrun).2
  have hmat' : ∀ m ∈ s.materials, m.specularOnly = false := by
    rw [hmat]; intro m hm; simp only [List.mem_cons, List.not_mem_nil, or_false] at hm; rcases hm with rfl | rfl <;> rfl
  obtain ⟨e1, e2, he, h⟩ := C98_sky_view hR hI hext hmat' ⟨145, fun _ => 7, 0, 100, 0, 3 / 10⟩ rfl (by norm_num) (fun _ _ => by norm_num) sunny_measurable _ sunny_sensors 1 ⟨⟨0, 0, 1 / 2⟩, ⟨0, 0, -1⟩⟩ rfl primary hp secondary 3
  exact ⟨w, s, e1, e2, htri, he, (h 7 (by norm_num) Spectrum.c0 (by simp)).1⟩

/-- C105: how far from it a run may be. -/
example (primary : Nat → Rng) (hp : ∀ i, (primary i).Valid) (secondary : Nat → Nat → Rng) : ∃ (w : World) (s : Scene ℝ) (e1 e2 : Vec3 ℝ), s.triangles = [plane 0] ∧ Frame e1 e2 ⟨0, 0, -1⟩ ∧
    ProbabilityN 100 (fun ω => projectedSolidAngle {l | (7 : Nat) = 7 ∧ MaySeeSky s ⟨0, 0, 1 / 2⟩ (worldOf e1 e2 ⟨0, 0, -1⟩ l)} + ENNReal.ofReal 1 ≤
      coefficient (calcDc w ⟨145, fun _ => 7, 0, 100, 0, 3 / 10⟩ 4 [⟨⟨0, 0, 1 / 2⟩, ⟨0, 0, 1⟩⟩, ⟨⟨0, 0, 1 / 2⟩, ⟨0, 0, -1⟩⟩] (Function.update primary 1 (Rng.ofPairs ω (primary 1))) secondary) 1 7 Spectrum.c0) ≤
        ENNReal.ofReal (Real.exp (-2 * (100 : ℕ) * 1 ^ 2 / Real.pi ^ 2)) := by
  obtain ⟨s, w, hrun, hR, hext, hmet, hP, htri, _, _, hmat, hhit⟩ := sunny_world
  have hI : s.IndicesValid := (C10_aligned_and_valid realEnv refEnv_lawful (fun _ _ => rfl) sunnyFloor s hrun).2
  have hmat' : ∀ m ∈ s.materials, m.specularOnly = false := by
    rw [hmat]; intro m hm; simp only [List.mem_cons, List.not_mem_nil, or_false] at hm; rcases hm with rfl | rfl <;> rfl
  obtain ⟨e1, e2, he, h⟩ := C105_noise hR hI hext hmat' ⟨145, fun _ => 7, 0, 100, 0, 3 / 10⟩ rfl (by norm_num) (fun _ _ => by norm_num) sunny_measurable _ sunny_sensors 1 ⟨⟨0, 0, 1 / 2⟩, ⟨0, 0, -1⟩⟩ rfl primary hp secondary 3
  exact ⟨w, s, e1, e2, htri, he, (h 7 (by norm_num) Spectrum.c0 (by simp) 1 (by norm_num)).2⟩

/-- C92, C93: the scene, by the theorems about histories. -/
example (rng : Rng) (hr : rng.Valid) (fuel : Nat) : ∃ w : World, (∃ hit, w.cast downRay = .ok (some hit)) ∧ traceRay w ⟨2, 10, 0, 1 / 1000, 3 / 10⟩ fuel ⟨rng, defaultRays⟩ downRay ≠ .panic ∧
    (∀ v pdf ray' st', traceRay w ⟨2, 10, 70, 1 / 1000, 3 / 10⟩ fuel ⟨rng, defaultRays⟩ downRay = .ok ((v, pdf), ray', st') → 0 ≤ v.c0 ∧ 0 ≤ v.c1 ∧ 0 ≤ v.c2) := by
  obtain ⟨s, w, hrun, hR, hext, hmet, hP, htri, _, _, hmat, hhit⟩ := sunny_world
  have hlen : (2 : Nat) < defaultRays.length := by simp [defaultRays]
  refine ⟨w, hhit, ?_, ?_⟩
  · refine C92_history_direct_light_never_panics realEnv refEnv_lawful (fun _ _ => rfl) sunnyFloor (fun op h => ?_) s hrun w hR hext _ (Or.inr rfl) fuel rng hr defaultRays downRay hlen
    have := (sunnyFloor_good op h).1
    revert this
    rcases op with _ | _ | _ | _ | (_ | ⟨_, _, _⟩) <;> simp [SceneOp.Harmless, SceneOp.Solid]
  · intro v pdf ray' st' ht
    refine C93_history_never_negative_partial realEnv refEnv_lawful (fun _ _ => rfl) rfl sunnyFloor sunnyFloor_good s hrun w hR hext hP.sky hP.skyColour _ fuel rng hr defaultRays downRay hlen (by norm_num [downRay, TRay.default]) v pdf ray' st' ht

/-- C86: the scene pushed and then built, and its light made three times as strong. -/
example (rng : Rng) (fuel : Nat) (ext : GeoExt) (dt : DirTests) : ∃ w : World, Scene.run realEnv {} (sunnyFloor ++ [.build]) = .ok w.scene ∧ w.scene.accelerator ≠ none ∧
    outcome (traceRay (w.brighten 3) ⟨2, 10, 70, 1 / 1000, 3 / 10⟩ fuel ⟨rng, defaultRays⟩ downRay) = scaledBy 3 (outcome (traceRay w ⟨2, 10, 70, 1 / 1000, 3 / 10⟩ fuel ⟨rng, defaultRays⟩ downRay)) := by
  obtain ⟨s, _, hrun, _⟩ := sunny_world
  have hacc : s.accelerator = none := by
    by_contra hne
    obtain ⟨op, hop, hb⟩ := (C14_accelerator_iff_built realEnv refEnv_lawful (fun _ _ => rfl) sunnyFloor s hrun).1 hne
    simp only [sunnyFloor, List.mem_cons, List.not_mem_nil, or_false] at hop
    rcases hop with rfl | rfl | rfl | rfl <;> exact hb trivial
  obtain ⟨s', hs', hne⟩ := (C14_build_life_cycle realEnv refEnv_lawful (fun _ _ => rfl) sunnyFloor s hrun).2.1 hacc
  have hrun' : Scene.run realEnv {} (sunnyFloor ++ [.build]) = .ok s' := by
    rw [run_append, hrun, Res.bind_ok]
    simp only [Scene.run, Scene.step, hs', Res.bind_ok]
  let w : World := { scene := s', env := realEnv, ext := ext, dt := dt, sky := none, skyColour := none }
  refine ⟨w, hrun', hne, C86_light_scales_same_sides realEnv refEnv_lawful (fun _ _ => rfl) (sunnyFloor ++ [.build]) ?_ s' hrun' w rfl 3 _ fuel rng defaultRays downRay (by simp [defaultRays])⟩
  intro f b p h
  rw [List.mem_append] at h
  rcases h with h | h
  · exact sunny_twoSided f b p h
  · simp at h

/-- C91: a camera below the floor that looks down sees the sky, whatever the schedule. -/
noncomputable def lookAway : SpictOptions := { lookDown with viewPoint := ⟨0, 0, -1⟩ }

theorem lookAway_sized : lookAway.Sized := ⟨by norm_num [lookAway, lookDown], by norm_num [lookAway, lookDown], by norm_num [lookAway, lookDown]⟩

theorem lookAway_proper : lookAway.camera.view.Proper := ⟨lookDown_proper.1, lookDown_proper.2, lookDown_proper.3, lookDown_proper.4, lookDown_proper.5⟩

example (fuel : Nat) (rng : Nat → Rng) (x y : Nat) (hx : x < 3) (hy : y < 3) : ∃ (w : World) (sc : Scene ℝ) (s : RState TState (Spectrum ℝ)) (content : List UInt8) (im : ImageBuffer) (p : Spectrum ℝ), w.Renders sc ∧ sc.triangles = [plane 0] ∧ lookAway.Rendered w (fuel + 1) rng s ∧
    spictFile lookAway s = .ok content ∧ im.at? x y = some p ∧ StoredColour (Spectrum.gray 1) p ∧ ∀ s', lookAway.Rendered w (fuel + 1) rng s' → spictFile lookAway s' = .ok content := by
  let s0 : Scene ℝ := { triangles := [plane 0], normals := (meshTriangle realEnv (plane 0)).2, front := [0], back := [0], materials := [.plastic (Spectrum.gray (1 / 2)) 0 0] }
  obtain ⟨w, hR, hw, _, hsky, hcol⟩ := renders_exists s0 ⟨rfl, rfl, rfl⟩ (fits_of_small _ (by simp [s0])) ⟨fun _ => none, fun _ _ => none⟩ ⟨fun _ _ => false, fun _ _ => false⟩ (some fun _ => 1) none
  obtain ⟨s, hs⟩ := rendered_exists lookAway lookAway_sized w (fuel + 1) rng
  obtain ⟨content, im, p, h1, _, h2, h3⟩ := C91_sky_in_picture lookAway lookAway_sized w s0 hR fuel rng s hs x y hx hy (by
    intro tri htri t p u v hit
    rw [show s0.triangles = [plane 0] from rfl, List.mem_singleton] at htri
    subst htri
    exfalso
    obtain ⟨k0, -, k, -⟩ := C37_rays_well_formed lookAway.camera.view lookAway_proper 3 3 (x, y)
    have hdir : lookAway.camera.view.viewDirection = ⟨0, 0, -1⟩ := lookDown_direction
    change 0 < Dot (lookAway.camera.genRay (x, y)).1.direction lookAway.camera.view.viewDirection at k
    have k0 : (lookAway.camera.genRay (x, y)).1.origin = ⟨0, 0, -1⟩ := rfl
    rw [hdir] at k
    have e1 := congrArg Vec3.z hit.1
    have e2 := congrArg Vec3.z hit.2.2.1
    have e3 := hit.2.1
    rw [k0] at e1
    norm_num [Vec3.scale, plane, Dot] at e1 e2 k
    nlinarith)
  refine ⟨w, s0, s, content, im, p, hR, rfl, hs, h1, h2, ?_, fun s' hs' => by rw [← C91_schedule_irrelevant lookAway lookAway_sized w (fuel + 1) rng s s' hs hs', h1]⟩
  · rw [hsky, hcol] at h3
    simpa [Spectrum.scale, Spectrum.gray] using h3

open SfluxmtxExamples in
/-- C95: a line with three numbers only. -/
example (fmt : NumFmt ℝ) (w : World) (dc : DcFactory) (fuel : Nat) (primary : Nat → Rng) (secondary : Nat → Nat → Rng) : sfluxmtx parseReal ProgramExamples.decode fmt w dc fuel (bytes "I I I I I II\nII I II\n") primary secondary = none := by
  have hlines : rawLines (bytes "I I I I I II\nII I II\n") = [bytes "I I I I I II\n", bytes "II I II\n"] := by decide +kernel
  have d1 : ProgramExamples.decode (bytes "I I I I I II\n") = some "I I I I I II\n".toList := by decide +kernel
  have d2 : ProgramExamples.decode (bytes "II I II\n") = some "II I II\n".toList := by decide +kernel
  refine C95_bad_line parseReal ProgramExamples.decode fmt w dc parserReal fuel _ ?_ primary secondary ⟨bytes "II I II\n", by rw [hlines]; simp, ?_⟩
  · rw [hlines]
    intro l hl
    simp only [List.mem_cons, List.not_mem_nil, or_false] at hl
    rcases hl with rfl | rfl
    · exact ⟨_, d1⟩
    · exact ⟨_, d2⟩
  · intro t r ht hl
    rw [d2] at ht
    cases ht
    rw [← C89_line_iff parseReal parserReal] at hl
    have s1 : splitSpaces (trimText "II I II\n".toList) = [['I', 'I'], ['I'], ['I', 'I']] := by decide +kernel
    simp only [sensorOfLine, s1, reduceCtorEq] at hl

end Rendering
