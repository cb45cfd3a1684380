import Verif.Props.MoreCases
import Verif.Props.Brightness
import Verif.Props.ExactLight
import Verif.Props.RenderingEquationExample
import Verif.Props.LightSides
import Verif.Props.Direct
import Verif.Props.LoadedScenes
import Verif.Props.Boundaries
import Verif.Props.DcFailures

set_option linter.unusedSectionVars false

/-!
# More cases that meet the hypotheses of theorems

As in `Props/Cases.lean`: each example applies the theorems it names, with all their hypotheses proved, to something concrete.
-/

namespace Rendering
open MeasureTheory

open SfluxmtxExamples in
/-- C92, C94: the theorems on worlds, applied to the grey floor under a sun. -/
example (rng : Rng) (hr : rng.Valid) (fuel : Nat) : ∃ w : World, w.scene.distantLights ≠ [] ∧ traceRay w ⟨2, 10, 70, 1 / 1000, 3 / 10⟩ fuel ⟨rng, defaultRays⟩ downRay ≠ .panic ∧
    traceRay w ⟨2, 10, 0, 1 / 1000, 3 / 10⟩ fuel ⟨rng, defaultRays⟩ downRay ≠ .panic ∧
    calcDc w ⟨145, fun _ => 7, 2, 100, 0, 3 / 10⟩ fuel [⟨⟨0, 0, 1 / 2⟩, ⟨0, 0, 1⟩⟩, ⟨⟨0, 0, 1 / 2⟩, ⟨0, 0, -1⟩⟩] (fun _ => rng) (fun _ _ => rng) ≠ .panic ∧
    sfluxmtx parseReal ProgramExamples.decode fmtReal w ⟨145, fun _ => 7, 2, 100, 0, 3 / 10⟩ fuel twoSensors (fun _ => rng) (fun _ _ => rng) ≠ some .panic := by
  obtain ⟨s, w, hrun, hR, hext, hmet, hP, _, hd, _, hmat, _⟩ := sunny_world
  have hS := sound_of_run realEnv refEnv_lawful (fun _ _ => rfl) sunnyFloor (fun op h => (sunnyFloor_good op h).1) s hrun w hR hext
  have hlen : 2 < defaultRays.length := by simp [defaultRays]
  refine ⟨w, ?_, C92_never_panics_partial hS _ fuel rng hr defaultRays downRay hlen, C92_direct_light_never_panics hS.1 _ (Or.inr rfl) fuel rng hr defaultRays downRay hlen,
    C94_never_panics_partial hS (fun _ => by norm_num) (by norm_num) fuel _ sunny_sensors _ _ (fun _ _ => hr), ?_⟩
  · rw [hR.same.2.2]; intro h0; rw [h0] at hd; cases hd
  · exact C94_sfluxmtx_never_panics_partial _ _ _ w _ hS (fun _ => by norm_num) (by norm_num) parserReal fuel twoSensors (fun l hl => (twoSensors_good l hl).imp fun t ⟨_, h, _⟩ => h) twoSensors_face _ _ (fun _ _ => hr)

/-- C122: the light of a court, with more and more reflections. -/
example : ∃ (w : World) (L : Ray3 ℝ → ENNReal), w.SunlitMatt court ∧ w.SolvesRenderingEquation Spectrum.c0 L ∧
    Filter.Tendsto (fun depth => ∫⁻ r, seenLight (traceRay w ⟨depth, 10, 70, 0, 3 / 10⟩ (depth + 10 + 70 + 3) ⟨r, List.replicate (depth + 1) TRay.default⟩ downRay) Spectrum.c0 ∂randomNumbers) Filter.atTop (nhds (L downRay.geometry)) := by
  obtain ⟨w, hW, _⟩ := court_world
  obtain ⟨L, h1, _, h3⟩ := C122_limit hW Spectrum.c0 (by simp)
  exact ⟨w, L, hW, h1, h3 ⟨3, 10, 70, 0, 3 / 10⟩ downRay (by norm_num) (by norm_num) rfl (Norm_eq_one (by norm_num [Dot, downRay])) (by simp [downRay, TRay.default]) rfl⟩

open ObjExamples in
/-- C68: the second triangle of the square. -/
example : ∃ i ∈ (ObjPolygon.p [0, 1, 2, 3]).corners, ∃ w, raw.vertices[i]? = some ((⟨0, 1, 0⟩ : Vec3 ℚ), w) :=
  C68_corners_come_from_the_face raw (.p [0, 1, 2, 3]) (⟨0, 0, 0⟩, ⟨1, 1, 0⟩, ⟨0, 1, 0⟩) (by decide +kernel) _ (Or.inr (Or.inr rfl))

/-- C52: through a sheet of glass with parallel faces. -/
example : ∃ (inside out : TRay) (w w' : Spectrum ℝ), (dielectricPaths Spectrum.one (3 / 2) ⟨0, 0, 1⟩ 0 { TRay.default with geometry := ⟨0, ⟨0, 0, -1⟩⟩ }).2 = some (inside, w) ∧
    (dielectricPaths Spectrum.one (3 / 2) ⟨0, 0, 1⟩ ⟨0, 0, -1⟩ inside).2 = some (out, w') ∧ out.geometry.direction = ⟨0, 0, -1⟩ := by
  have hn : Norm (⟨0, 0, 1⟩ : Vec3 ℝ) = 1 := Norm_eq_one (by norm_num [Dot])
  have hv : Norm (⟨0, 0, -1⟩ : Vec3 ℝ) = 1 := Norm_eq_one (by norm_num [Dot])
  have h := cosAndN_eq { TRay.default with geometry := ⟨0, ⟨0, 0, -1⟩⟩ } ⟨0, 0, 1⟩ (3 / 2) hn hv
  simp only [Dot] at h
  norm_num [TRay.default, farIndex] at h
  obtain ⟨inside, w, hin, hdown⟩ : ∃ inside w, (dielectricPaths Spectrum.one (3 / 2) ⟨0, 0, 1⟩ 0 { TRay.default with geometry := ⟨0, ⟨0, 0, -1⟩⟩ }).2 = some (inside, w) ∧ Dot inside.geometry.direction ⟨0, 0, 1⟩ < 0 := by
    refine ⟨{ TRay.default with geometry := ⟨(0 : Vec3 ℝ) - (⟨0, 0, 1⟩ : Vec3 ℝ).scale (1 / 10 ^ 5), fresnelTransmissionDir ⟨0, 0, -1⟩ ⟨0, 0, 1⟩ 1 1 (3 / 2) 1⟩, refractionIndex := 3 / 2, colour := TRay.default.colour * Spectrum.one },
      (dielectricReflTrans Spectrum.one 1 1 (3 / 2) (some 1)).2.scale 1, by unfold dielectricPaths; simp only [TRay.default, h], ?_⟩
    norm_num [fresnelTransmissionDir, Dot]
  obtain ⟨_, out, w', h1, h2, _⟩ := C52_slab Spectrum.one (3 / 2) ⟨0, 0, 1⟩ 0 ⟨0, 0, -1⟩ _ inside w hn hv (by norm_num [Dot]) rfl (by norm_num) (by norm_num [abs_of_nonpos]) hin hdown
  exact ⟨inside, out, w, w', hin, h1, h2⟩

/-- The scene of a text in Radiance's language. -/
theorem lamp_scene : ∃ s : Scene ℝ, Scene.fromRadianceSource plainRad lampText = .ok s ∧ s.triangles = [⟨⟨0, 0, 1⟩, ⟨1, 0, 1⟩, ⟨0, 1, 1⟩⟩] ∧ s.Aligned := by
  obtain ⟨s0, hb, ht, ha⟩ : ∃ s0, buildItems plainRad.scene [] lampItems {} = .ok s0 ∧ s0.triangles = [⟨⟨0, 0, 1⟩, ⟨1, 0, 1⟩, ⟨0, 1, 1⟩⟩] ∧ s0.Aligned := by
    simp only [lampItems, buildItems, List.nil_append, List.mem_singleton, if_true]
    exact ⟨_, rfl, rfl, rfl, rfl, rfl⟩
  exact ⟨s0, (C66_reads_what_is_described plainRad lampText _).2 ⟨by decide +kernel, lampItems, lampText_describes, hb⟩, ht, ha⟩

/-- C86: with its lamp made brighter. -/
example (rng : Rng) (fuel : Nat) (k : ℝ) : ∃ (s : Scene ℝ) (w : World), Scene.fromRadianceSource plainRad lampText = .ok s ∧ w.Renders s ∧ s.triangles ≠ [] ∧
    outcome (traceRay (w.brighten k) ⟨2, 10, 70, 1 / 1000, 3 / 10⟩ fuel ⟨rng, defaultRays⟩ downRay) = scaledBy k (outcome (traceRay w ⟨2, 10, 70, 1 / 1000, 3 / 10⟩ fuel ⟨rng, defaultRays⟩ downRay)) := by
  obtain ⟨s, hs, ht, ha⟩ := lamp_scene
  obtain ⟨w, hR, _⟩ := renders_exists s ha (fits_of_small _ (by simp [ht])) ⟨fun _ => none, fun _ _ => none⟩ ⟨fun _ _ => false, fun _ _ => false⟩ none none
  exact ⟨s, w, hs, hR, by simp [ht], C86_light_scales_radiance plainRad refEnv_lawful (fun _ _ => rfl) lampText s hs w hR k _ fuel rng defaultRays downRay (by simp [defaultRays])⟩

/-- A camera above the lamp, looking down. -/
noncomputable def aboveLamp : SpictOptions := { lookDown with viewPoint := ⟨1 / 4, 1 / 4, 2⟩ }

theorem aboveLamp_proper : aboveLamp.camera.view.Proper := ⟨lookDown_proper.1, lookDown_proper.2, lookDown_proper.3, lookDown_proper.4, lookDown_proper.5⟩

theorem aboveLamp_middle : (aboveLamp.camera.genRay (1, 1)).1 = ⟨⟨1 / 4, 1 / 4, 2⟩, ⟨0, 0, -1⟩⟩ := by
  have : (aboveLamp.camera.genRay (1, 1)).1 = ⟨⟨1 / 4, 1 / 4, 2⟩, (lookDown.camera.genRay (1, 1)).1.direction⟩ := rfl
  rw [this, lookDown_middle]
  rfl

theorem one_lt_floatMax : (1 : ℝ) < floatMax ℝ := by
  have h : (1 : ℝ) ≤ 2 ^ 971 := one_le_pow₀ (by norm_num)
  unfold floatMax
  norm_num
  generalize (2 : ℝ) ^ 971 = z at h
  linarith

/-- C103: the lamp of the text is in the picture. -/
example (senv : SimpleEnv ℝ) (parseSpl : List UInt8 → Option (SimpleModel ℝ)) (rng : Nat → Rng) : ∃ w : World, loadScene plainRad senv parseSpl "lamp.rad".toList lampText = .ok w.scene ∧ ∃ (s : RState TState (Spectrum ℝ)) (file : List UInt8) (im : ImageBuffer) (p : Spectrum ℝ),
    aboveLamp.Rendered w 1 rng s ∧ spictFile aboveLamp s = .ok file ∧ aboveLamp.Picture file im ∧ im.at? 1 1 = some p ∧ StoredColour ⟨9, 9, 9⟩ p := by
  obtain ⟨s, hs, ⟨n, hsurf⟩, _, _, hfit⟩ := lamp_loaded senv parseSpl
  let w : World := { scene := s, env := plainRad.scene, ext := ⟨fun _ => none, fun _ _ => none⟩, dt := ⟨fun _ _ => false, fun _ _ => false⟩, sky := none, skyColour := none }
  have hsized : aboveLamp.Sized := ⟨by norm_num [aboveLamp, lookDown], by norm_num [aboveLamp, lookDown], by norm_num [aboveLamp, lookDown]⟩
  obtain ⟨st, hst⟩ := rendered_exists aboveLamp hsized w 1 rng
  obtain ⟨file, im, p, h1, h2, h3, h4⟩ := C103_lights_in_picture plainRad refEnv_lawful refEnv_conservative (fun _ _ => rfl) senv parseSpl _ _ w rfl hs _ lampText_describes hfit aboveLamp hsized aboveLamp_proper 0 rng st hst 1 1
    (by norm_num [aboveLamp, lookDown]) (by norm_num [aboveLamp, lookDown]) ⟨9, 9, 9⟩ (by
      rw [aboveLamp_middle, hsurf]
      refine ⟨_, List.mem_singleton.2 rfl, 1, ⟨1, ⟨1 / 4, 1 / 4, 1⟩, ⟨?_, 1 / 4, 1 / 4, ?_, ?_, ?_, ?_⟩, ?_, ?_, ?_⟩, by norm_num, one_lt_floatMax⟩
      all_goals norm_num [tripleProduct, Vec3.scale, Vec3.ext_iff, distSq]) (by
      intro q hq t p u v _ _
      rw [hsurf] at hq
      rw [List.mem_singleton.1 hq])
  exact ⟨w, hs, st, file, im, p, hst, h1, h2, h3, h4⟩

/-- A lamp that is off. -/
def darkText : List UInt8 := bytes "void light lamp 0 0 3 0 0 0\nlamp polygon p1 0 0 9 0 0 1 1 0 1 0 1 1\n"

/-- What the text describes. -/
noncomputable def darkItems : List (RadItem ℝ) := [.material (bytes "lamp") (.light ⟨0, 0, 0⟩), .object (bytes "lamp") [.triangle ⟨⟨0, 0, 1⟩, ⟨1, 0, 1⟩, ⟨0, 1, 1⟩⟩]]

theorem darkText_describes : Describes plainRad (tokensOf darkText) darkItems := by
  have ht : tokensOf darkText = [bytes "void", bytes "light", bytes "lamp", bytes "0", bytes "0", bytes "3"] ++ [bytes "0", bytes "0", bytes "0"] ++
      ([bytes "lamp", bytes "polygon", bytes "p1", bytes "0", bytes "0", bytes "9"] ++ [bytes "0", bytes "0", bytes "1", bytes "1", bytes "0", bytes "1", bytes "0", bytes "1", bytes "1"] ++ []) := by decide +kernel
  have n0 : plainRad.parseFloat (bytes "0") = some 0 := by
    have : parseUsize (bytes "0") = some 0 := by decide +kernel
    simp [plainRad, this]
  have n1 : plainRad.parseFloat (bytes "1") = some 1 := by
    have : parseUsize (bytes "1") = some 1 := by decide +kernel
    simp [plainRad, this]
  rw [ht]
  refine Describes.cons _ _ _ "light" _ [0, 0, 0] _ _ _ ?_ ?_ ?_ (Describes.cons _ _ _ "polygon" _ [0, 0, 1, 1, 0, 1, 0, 1, 1] _ _ _ ?_ ?_ ?_ Describes.nil)
  · exact ⟨by decide +kernel, fun _ => by decide +kernel⟩
  · simp [n0]
  · rfl
  · exact ⟨by decide +kernel, fun _ => by decide +kernel⟩
  · simp [n0, n1]
  · rfl

/-- C87, C91: a picture of the lamp that is off. -/
example (rng : Nat → Rng) (fuel : Nat) : ∃ (sc : Scene ℝ) (w : World), Scene.fromRadianceSource plainRad darkText = .ok sc ∧ w.Renders sc ∧ sc.triangles ≠ [] ∧
    (∀ v pdf ray' st', traceRay w ⟨2, 10, 70, 1 / 1000, 3 / 10⟩ fuel ⟨rng 0, defaultRays⟩ downRay = .ok ((v, pdf), ray', st') → v = Spectrum.black) ∧
    ∃ (s : RState TState (Spectrum ℝ)) (content : List UInt8) (im : ImageBuffer), aboveLamp.Rendered w fuel rng s ∧ spictFile aboveLamp s = .ok content ∧ aboveLamp.Picture content im ∧ ∀ p ∈ im.pixels, p = Spectrum.black := by
  obtain ⟨sc, hb, ht, ha, hm⟩ : ∃ s0, buildItems plainRad.scene [] darkItems {} = .ok s0 ∧ s0.triangles = [⟨⟨0, 0, 1⟩, ⟨1, 0, 1⟩, ⟨0, 1, 1⟩⟩] ∧ s0.Aligned ∧ s0.materials = [.light ⟨0, 0, 0⟩] := by
    simp only [darkItems, buildItems, List.nil_append, List.mem_singleton, if_true]
    exact ⟨_, rfl, rfl, ⟨rfl, rfl, rfl⟩, rfl⟩
  have hs := (C66_reads_what_is_described plainRad darkText sc).2 ⟨by decide +kernel, darkItems, darkText_describes, hb⟩
  obtain ⟨w, hR, _, _, hsky, _⟩ := renders_exists sc ha (fits_of_small _ (by simp [ht])) ⟨fun _ => none, fun _ _ => none⟩ ⟨fun _ _ => false, fun _ _ => false⟩ none none
  have hu : w.Unlit := by
    refine ⟨fun c hc => ?_, fun sky h => by rw [hsky] at h; cases h⟩
    rw [hR.same.1, hm, List.mem_singleton] at hc
    cases hc
    rfl
  have hsized : aboveLamp.Sized := ⟨by norm_num [aboveLamp, lookDown], by norm_num [aboveLamp, lookDown], by norm_num [aboveLamp, lookDown]⟩
  obtain ⟨st, hst⟩ := rendered_exists aboveLamp hsized w fuel rng
  obtain ⟨content, im, h1, h2, h3⟩ := C91_no_light_black_picture_radiance aboveLamp hsized (by norm_num [aboveLamp, lookDown]) plainRad refEnv_lawful (fun _ _ => rfl) darkText sc hs w hR hu fuel rng st hst
  exact ⟨sc, w, hs, hR, by simp [ht], C87_no_light_no_image_radiance plainRad refEnv_lawful (fun _ _ => rfl) darkText sc hs w hR hu _ fuel (rng 0) defaultRays downRay (by simp [defaultRays]), st, content, im, hst, h1, h2, h3⟩

/-- C09: an awning pushed onto the floor after its accelerator was built is not seen, by any ray, before the accelerator is rebuilt. -/
example (ray : Ray3 ℝ) (D : ℝ) (scratch : List Nat) : ∃ s s' : Scene ℝ, s'.triangles.length = 2 ∧ s'.castRay realEnv ray scratch = s.castRay realEnv ray scratch ∧ s'.unobstructedDistance realEnv ray D scratch = s.unobstructedDistance realEnv ray D scratch := by
  let s0 : Scene ℝ := { triangles := [plane 0], normals := (meshTriangle realEnv (plane 0)).2, front := [0], back := [0], materials := [.plastic (Spectrum.gray (1 / 2)) 0 0] }
  obtain ⟨s1, bvh, hs1, _, hal, hlen, _, hmat, _⟩ := rebuild_spec realEnv refEnv_lawful s0 ⟨rfl, rfl, rfl⟩
  have hmesh : realEnv.MeshAligned := fun _ _ => rfl
  obtain ⟨s', hs'⟩ : ∃ s', s1.pushObject realEnv 0 0 (.triangle (plane 1)) = .ok s' := by
    obtain ⟨k1, k2⟩ := C13_push_object_panics_iff realEnv s1 0 0 (.triangle (plane 1))
    cases h : s1.pushObject realEnv 0 0 (.triangle (plane 1)) with
    | ok s' => exact ⟨s', rfl⟩
    | diverge => exact absurd h k2
    | panic =>
      rw [hmat] at k1
      rcases k1.1 h with h | h | ⟨h, _⟩
      · simp [s0] at h
      · simp [s0] at h
      · exact absurd rfl (h _)
  have hrun : s1.run realEnv [.pushObject 0 0 (.triangle (plane 1))] = .ok s' := by
    change (s1.pushObject realEnv 0 0 (.triangle (plane 1))).bind _ = _
    rw [hs']
    rfl
  refine ⟨s1, s', ?_, C09_queries_are_stale realEnv refEnv_lawful s0 s1 s' ⟨rfl, rfl, rfl⟩ (fits_of_small _ (by simp [s0])) (Or.inr hs1) _ (by simp [SceneOp.NoBuild]) hrun ray D scratch⟩
  rw [(C13_push_object_effect realEnv hmesh s1 s' 0 0 _ hal hs').2.1, List.length_append, hlen]
  rfl

open TreeExamples in
/-- C101: no leaf of the tree over the stack has more than 24 triangles. -/
example : ∃ (r : Bvh ℚ × List (Tri ℚ) × List (Tri ℚ) × List (Tri ℚ) × List (Tri ℚ)) (node : Node ℚ), bvhNew (refEnv ℚ) stack stack stack stack = .ok r ∧ r.1.nodes = (flattenNode node []).1 ∧ node.largestLeaf ≤ 24 := by
  obtain ⟨⟨bvh, t, f, b, n⟩, hr⟩ := C04_build_succeeds (refEnv ℚ) refEnv_lawful stack stack stack stack rfl rfl rfl
  obtain ⟨node, h1, h2⟩ := C101_small_leaves (refEnv ℚ) refEnv_lawful stack (fun h => by simpa [stack] using congrArg List.length h) stack stack stack bvh t f b n hr stack_spread
  exact ⟨_, node, hr, h1, h2⟩

/-- C102: false colours on a logarithmic scale up to one, and the differences between two pictures. -/
example (m : Colourmap) : ∃ (file : List UInt8) (im : ImageBuffer), ImageBuffer.fromFile file = .ok (.image im) ∧ 0 < im.width ∧
    (∃ j, sfalsecolor file none (some 1) true m = .ok (.jpeg j) ∧ ColoursOf (LogScaleColour m.table (1 / 1000) 1) (im.pixels.map Spectrum.luminance) j.data) ∧
    (∃ j, scompare file file none (some 1) false (some m) = .ok (.jpeg j) ∧ ColoursOf (ScaleColour m.table 0 1) (differences im im) j.data) ∧
    ∃ j, scompare file file (some (1 / 10)) (some 1) true (some m) = .ok (.jpeg j) ∧ ColoursOf (LogScaleColour m.table (1 / 10) 1) (differences im im) j.data := by
  obtain ⟨file, im, lo, hi, h1, h2, h3, h4, _⟩ := grey_picture
  obtain ⟨j, k1, _, _, k2⟩ := C102_log_partial file im h1 h2.ge h3 h4 none (some 1) m (1 / 1000) 1 (Or.inl ⟨rfl, rfl⟩) (Or.inl rfl) (by norm_num) (fun h => (by cases h))
  obtain ⟨j', k1', _, _, k2'⟩ := C102_compare_linear file file im im h1 h1 h2 h2 ⟨rfl, rfl⟩ h3 h4 none (some 1) m 0 1 (Or.inl ⟨rfl, rfl⟩) (Or.inl rfl) (by norm_num)
  obtain ⟨j'', k1'', _, _, k2''⟩ := C102_compare_log_partial file file im im h1 h1 h2 h2 ⟨rfl, rfl⟩ h3 h4 (some (1 / 10)) (some 1) m (1 / 10) 1 (Or.inr ⟨_, rfl, Or.inr ⟨by norm_num, rfl⟩⟩) (Or.inl rfl) (by norm_num) (fun h => (by cases h))
  exact ⟨file, im, h1, Nat.pos_of_ne_zero (by rintro h; rw [h] at h3; exact h3 rfl), ⟨j, k1, k2⟩, ⟨j', k1', k2'⟩, j'', k1'', k2''⟩

/-- C73: a clear pane, looked at from above. -/
example (rng : Rng) : ∃ (w : World) (ray' : TRay) (st' : DState), w.Shows (.dielectric Spectrum.one (3 / 2)) [plane 0] ∧
    dcTraceRay w ⟨145, fun _ => 7, 2, 100, 0, 3 / 10⟩ 2 ⟨rng, defaultRays, DcFactory.blank ⟨145, fun _ => 7, 2, 100, 0, 3 / 10⟩⟩ downRay = .ok (ray', st') := by
  obtain ⟨w, hw, _⟩ := shows_exists (.dielectric Spectrum.one (3 / 2)) rfl [plane 0] none
  obtain ⟨ray', st', h, _⟩ := C73_clear_or_opaque_partial w Spectrum.one ⟨Or.inr rfl, Or.inr rfl, Or.inr rfl⟩ (3 / 2) (by norm_num) (plane 0) hw ⟨145, fun _ => 7, 2, 100, 0, 3 / 10⟩ (fun _ _ => by norm_num) downRay
    (Norm_eq_one (by norm_num [Dot, downRay])) (Nat.zero_le _) (by norm_num [downRay, TRay.default]) _ downRay_visible downRay_inRange (by rw [plane_normal]; norm_num [downRay, Dot]) ⟨rng, defaultRays, DcFactory.blank ⟨145, fun _ => 7, 2, 100, 0, 3 / 10⟩⟩ (DcFactory.blank_isRow _) 0
  exact ⟨w, ray', st', hw, h⟩

/-- C94: a glossy floor below a sensor that looks at it. -/
example : ∃ (w : World) (primary : Nat → Rng) (secondary : Nat → Nat → Rng), (∀ i, (primary i).Valid) ∧ (∀ i k, (secondary i k).Valid) ∧ w.Shows (.plastic (Spectrum.gray (1 / 2)) (1 / 2) 1) [plane 0] ∧
    ∀ fuel, calcDc w ⟨145, fun _ => 7, 2, 100, 0, 3 / 10⟩ (fuel + 2) [⟨⟨0, 0, 1 / 2⟩, ⟨0, 0, -1⟩⟩] primary secondary = .panic := by
  obtain ⟨w, hw, he⟩ : ∃ w : World, w.Shows (.plastic (Spectrum.gray (1 / 2)) (1 / 2) 1) [plane 0] ∧ w.ext.perp ⟨0, 0, -1⟩ = some ⟨1, 0, 0⟩ := by
    obtain ⟨w, hw, hs⟩ := shows_exists (.plastic (Spectrum.gray (1 / 2)) (1 / 2) 1) rfl [plane 0] none
    exact ⟨{ w with ext := ⟨fun _ => some ⟨1, 0, 0⟩, fun _ _ => none⟩ }, ⟨hw.lawful, hw.box, hw.normalized, hw.run⟩, rfl⟩
  refine ⟨w, fun _ _ => 0, fun _ _ _ => 1 / 10, fun _ _ => ⟨le_rfl, one_pos⟩, fun _ _ _ => ⟨by norm_num, by norm_num⟩, hw, fun fuel => ?_⟩
  refine C94_violation_glossy w _ _ 1 _ (List.mem_cons_self ..) (plane 0) hw (by norm_num) _ (by norm_num) (by norm_num) _ (Norm_eq_one (by norm_num [Dot, downRay])) _ he (Or.inr ?_) _ downRay_visible downRay_inRange _ rfl _ (by norm_num) (by norm_num) (by norm_num) ?_ [] fuel
  · rw [plane_normal]; ext <;> norm_num [downRay]
  · have h1 : clampRoughness (1 : ℝ) = 1 := by norm_num [clampRoughness]
    have h3 : Real.log (1 / 10) ≤ -1 := by
      rw [one_div, Real.log_inv]
      have h4 : Real.exp 1 ≤ 10 := by linarith [Real.exp_one_lt_d9]
      have : 1 ≤ Real.log 10 := (Real.le_log_iff_exp_le (by norm_num)).2 h4
      linarith
    rw [h1]
    linarith

end Rendering
