import Verif.Props.Programs
import Verif.Props.Render
import Verif.Props.TracerExamples
import Verif.Props.LightSides
import Verif.Props.Camera

/-!
# C91: the picture `spict` writes
-/

set_option linter.unusedSectionVars false
namespace Rendering

open Classical

/-- `s` is a state in which all workers of `render` have finished, after any schedule, for the scene, the options and the seeds given. -/
def SpictOptions.Rendered (o : SpictOptions) (w : World) (fuel : Nat) (rng : Nat → Rng) (s : RState TState (Spectrum ℝ)) : Prop :=
  (∃ m, (renderLoop (pixelTracer w o.rt fuel o.camera) o.width o.height).Reach (renderInit (chunkState rng) o.width o.height) m s) ∧
  (renderLoop (pixelTracer w o.rt fuel o.camera) o.width o.height).Finished s

/-- The options describe a picture that can be rendered: less than 2^31 pixels, and sizes that fit a machine word. -/
structure SpictOptions.Sized (o : SpictOptions) : Prop where
  pixels : o.width * o.height < 2 ^ 31
  width : o.width < 2 ^ 64
  height : o.height < 2 ^ 64

/-- The file holds a picture of the requested size. -/
structure SpictOptions.Picture (o : SpictOptions) (content : List UInt8) (im : ImageBuffer) : Prop where
  read : ImageBuffer.fromFile content = .ok (.image im)
  width : im.width = o.width
  height : im.height = o.height
  pixels : im.pixels.length = o.width * o.height

/-- **C91, the file.** Whatever the schedule of the workers and the random numbers, `spict` ends with a file that reads back as an image of the requested size, and the pixel of column `x` and row `y` is what was traced for the camera's ray through that
pixel, stored in the RGBE format. -/
theorem C91_file_holds_traced_pixels (o : SpictOptions) (ho : o.Sized) (w : World) (fuel : Nat) (rng : Nat → Rng) (s : RState TState (Spectrum ℝ)) (hs : o.Rendered w fuel rng s) :
    ∃ content im, spictFile o s = .ok content ∧ o.Picture content im ∧ ∀ x y, x < o.width → y < o.height →
      im.at? x y = some (throughRgbe (pixelTracer w o.rt fuel o.camera (x, y) (pixelState (pixelTracer w o.rt fuel o.camera) (chunkState rng) o.width (y * o.width + x))).1) := by
  obtain ⟨⟨m, hr⟩, hf⟩ := hs
  have hlen : (renderPixels o.width o.height s).length = o.width * o.height := by simp [renderPixels]
  refine ⟨_, _, by rw [spictFile, ImageBuffer.fromPixels, if_neg (by rw [hlen]; simp), Res.bind_ok], ⟨C24_hdr_roundtrip _ ho.height ho.width, rfl, rfl, by simpa using hlen⟩, ?_⟩
  intro x y hx hy
  have := C39_pixel_value (pixelTracer w o.rt fuel o.camera) (chunkState rng) o.width o.height ho.pixels hr hf x y hx hy
  simp only [ImageBuffer.at?, List.getElem?_map, this, Option.map_some, hx, hy, and_self, if_true]

/-- What a colour becomes when it is stored in the file: black if its largest channel is below 1e-19, else every channel is off by less than one part in 128 of the largest channel. -/
def StoredColour (c p : Spectrum ℝ) : Prop :=
  ∀ m, LargestChannel c m → (m < 1 / 10 ^ 19 → p = Spectrum.black) ∧
    (1 / 10 ^ 19 ≤ m → m < 2 ^ 127 → (p.c0 ≤ c.c0 ∧ c.c0 - p.c0 < m / 128) ∧ (p.c1 ≤ c.c1 ∧ c.c1 - p.c1 < m / 128) ∧ (p.c2 ≤ c.c2 ∧ c.c2 - p.c2 < m / 128))

theorem storedColour_through (c : Spectrum ℝ) : StoredColour c (throughRgbe c) := fun m hm => ⟨C23_dark_is_black c m hm, C23_rgbe_error_bounded c m hm⟩

theorem traceable_unit (o : SpictOptions) (hv : o.camera.view.Proper) (p : Nat × Nat) : Norm (o.camera.traceableRay p).geometry.direction = 1 :=
  (C37_rays_well_formed _ hv o.width o.height p).2.1

/-- **C91, lights.** Every pixel whose camera ray first meets a light shows that light's colour, whatever the schedule, the random numbers and the settings, up to what the file format can store. -/
theorem C91_lights_in_picture (o : SpictOptions) (ho : o.Sized) (hv : o.camera.view.Proper) (w : World) (sc : Scene ℝ) (hR : w.Renders sc) (fuel : Nat) (rng : Nat → Rng) (s : RState TState (Spectrum ℝ))
    (hs : o.Rendered w (fuel + 1) rng s) (x y : Nat) (hx : x < o.width) (hy : y < o.height) (c : Spectrum ℝ)
    (hhit : ∃ tri ∈ sc.triangles, ∃ d2, VisibleHit (o.camera.genRay (x, y)).1 tri d2 ∧ InRange d2)
    (hfirst : ∀ (j : Nat) tri t p u v, sc.triangles[j]? = some tri → TolerantHit (o.camera.genRay (x, y)).1 tri t p u v →
      (∀ tri' ∈ sc.triangles, ∀ d2, VisibleHit (o.camera.genRay (x, y)).1 tri' d2 → 1 / 10 ^ 7 < d2 → distSq p o.viewPoint ≤ d2) →
      sc.facingMaterial j tri (o.camera.genRay (x, y)).1.direction = some (.light c)) :
    ∃ content im p, spictFile o s = .ok content ∧ o.Picture content im ∧ im.at? x y = some p ∧ StoredColour c p := by
  obtain ⟨content, im, h1, h2, h3⟩ := C91_file_holds_traced_pixels o ho w (fuel + 1) rng s hs
  refine ⟨content, im, throughRgbe c, h1, h2, ?_, storedColour_through c⟩
  rw [h3 x y hx hy]
  obtain ⟨pdf, ray', e⟩ := C62_lights_seen_directly w sc hR (o.camera.traceableRay (x, y)) (traceable_unit o hv _) c hhit hfirst o.rt fuel
    (pixelState (pixelTracer w o.rt (fuel + 1) o.camera) (chunkState rng) o.width (y * o.width + x))
  unfold pixelTracer at e ⊢
  rw [e]

/-- **C91, sky.** Every pixel whose camera ray meets nothing shows the sky in that direction (black if there is none, as for scenes loaded from a file). -/
theorem C91_sky_in_picture (o : SpictOptions) (ho : o.Sized) (w : World) (sc : Scene ℝ) (hR : w.Renders sc) (fuel : Nat) (rng : Nat → Rng) (s : RState TState (Spectrum ℝ))
    (hs : o.Rendered w (fuel + 1) rng s) (x y : Nat) (hx : x < o.width) (hy : y < o.height)
    (hno : ∀ tri ∈ sc.triangles, ∀ t p u v, TolerantHit (o.camera.genRay (x, y)).1 tri t p u v → ¬ InRange (distSq p o.viewPoint)) :
    ∃ content im p, spictFile o s = .ok content ∧ o.Picture content im ∧ im.at? x y = some p ∧
      StoredColour (match w.sky with | some sky => (w.skyColour.getD (Spectrum.gray 1)).scale (sky (o.camera.genRay (x, y)).1.direction) | none => Spectrum.black) p := by
  obtain ⟨content, im, h1, h2, h3⟩ := C91_file_holds_traced_pixels o ho w (fuel + 1) rng s hs
  refine ⟨content, im, _, h1, h2, ?_, storedColour_through _⟩
  rw [h3 x y hx hy]
  obtain ⟨pdf, ray', e⟩ := C62_sky_seen_directly w sc hR (o.camera.traceableRay (x, y)) hno o.rt fuel
    (pixelState (pixelTracer w o.rt (fuel + 1) o.camera) (chunkState rng) o.width (y * o.width + x))
  unfold pixelTracer at e ⊢
  rw [e]
  rfl

theorem pixelTracer_keeps (w : World) (rt : RayTracer) (fuel : Nat) (c : Pinhole) (p : Nat × Nat) (st : TState) (h : rt.maxDepth < st.rays.length) : rt.maxDepth < (pixelTracer w rt fuel c p st).2.rays.length := by
  unfold pixelTracer
  split
  · rename_i v _ _ st' e
    rw [(C75_outer_slots_kept w rt fuel st st' _ _ _ h e).1]
    exact h
  · exact h

theorem pixelState_keeps (w : World) (rt : RayTracer) (fuel : Nat) (c : Pinhole) (rng : Nat → Rng) (width : Nat) (h : rt.maxDepth < 15) (i : Nat) :
    rt.maxDepth < (pixelState (pixelTracer w rt fuel c) (chunkState rng) width i).rays.length := by
  induction i with
  | zero => simpa [pixelState, chunkState, defaultRays] using h
  | succ i ih =>
    unfold pixelState
    split_ifs
    · simpa [chunkState, defaultRays] using h
    · exact pixelTracer_keeps w rt fuel c _ _ ih

/-- **C91, darkness.** In a scene without light the whole picture is black. -/
theorem C91_no_light_black_picture (o : SpictOptions) (ho : o.Sized) (hD : o.rt.maxDepth < 15) (w : World) (hu : w.Unlit) (h2 : w.TwoSidedLights) (fuel : Nat) (rng : Nat → Rng) (s : RState TState (Spectrum ℝ))
    (hs : o.Rendered w fuel rng s) : ∃ content im, spictFile o s = .ok content ∧ o.Picture content im ∧ ∀ p ∈ im.pixels, p = Spectrum.black := by
  obtain ⟨content, im, h1, hp, h3⟩ := C91_file_holds_traced_pixels o ho w fuel rng s hs
  refine ⟨content, im, h1, hp, fun p hm => ?_⟩
  obtain ⟨i, hi, rfl⟩ := List.mem_iff_getElem.1 hm
  rw [hp.pixels] at hi
  have hw : 0 < o.width := Nat.pos_of_ne_zero (by rintro h0; rw [h0] at hi; simp at hi)
  have hy : i / o.width < o.height := Nat.div_lt_of_lt_mul hi
  have hx : i % o.width < o.width := Nat.mod_lt _ hw
  have e := h3 _ _ hx hy
  rw [ImageBuffer.at?, hp.width, hp.height, if_pos ⟨hx, hy⟩, Nat.div_add_mod' i o.width, List.getElem?_eq_getElem (by rw [hp.pixels]; exact hi)] at e
  rw [Option.some.inj e]
  have hblack : (pixelTracer w o.rt fuel o.camera (i % o.width, i / o.width) (pixelState (pixelTracer w o.rt fuel o.camera) (chunkState rng) o.width i)).1 = Spectrum.black := by
    have hk := pixelState_keeps w o.rt fuel o.camera rng o.width hD i
    generalize pixelState (pixelTracer w o.rt fuel o.camera) (chunkState rng) o.width i = st at hk
    obtain ⟨rg, rays⟩ := st
    unfold pixelTracer
    split
    · rename_i v pdf ray' st' e
      exact C87_no_light_no_image_partial w hu h2 o.rt fuel rg rays _ hk v pdf ray' st' e
    · rfl
  rw [hblack]
  exact C23_dark_is_black _ 0 ⟨le_rfl, le_rfl, le_rfl, le_rfl, le_rfl, le_rfl, Or.inl rfl⟩ (by norm_num)

/-- **C91, darkness, from the text of a Radiance file.** -/
theorem C91_no_light_black_picture_radiance (o : SpictOptions) (ho : o.Sized) (hD : o.rt.maxDepth < 15) (env : RadEnv ℝ) (hE : env.scene.bvh.Lawful) (hM : env.scene.MeshAligned) (src : List UInt8) (sc : Scene ℝ)
    (h : Scene.fromRadianceSource env src = .ok sc) (w : World) (hR : w.Renders sc) (hu : w.Unlit) (fuel : Nat) (rng : Nat → Rng) (s : RState TState (Spectrum ℝ))
    (hs : o.Rendered w fuel rng s) : ∃ content im, spictFile o s = .ok content ∧ o.Picture content im ∧ ∀ p ∈ im.pixels, p = Spectrum.black :=
  C91_no_light_black_picture o ho hD w hu (twoSided_of_radiance env hE hM src sc h w hR) fuel rng s hs

/-! ### Pictures scale with the light -/

theorem pixelTracer_brighten (k : ℝ) (w : World) (h2 : w.TwoSidedLights) (rt : RayTracer) (fuel : Nat) (c : Pinhole) (p : Nat × Nat) (st st' : TState) (hrng : st.rng = st'.rng) (h : rt.maxDepth < st.rays.length) (h' : rt.maxDepth < st'.rays.length) :
    (pixelTracer (w.brighten k) rt fuel c p st').1 = (pixelTracer w rt fuel c p st).1.scale k ∧ (pixelTracer (w.brighten k) rt fuel c p st').2.rng = (pixelTracer w rt fuel c p st).2.rng := by
  obtain ⟨rng, rays⟩ := st
  obtain ⟨rng', rays'⟩ := st'
  simp only at hrng h h'
  subst hrng
  have e := C86_light_scales_partial k w h2 rt fuel rng rays (c.traceableRay p) h
  rw [C75_scratch_irrelevant _ rt fuel rng rays rays' _ h h'] at e
  unfold pixelTracer
  cases h1 : traceRay w rt fuel ⟨rng, rays⟩ (c.traceableRay p) <;> cases h2 : traceRay (w.brighten k) rt fuel ⟨rng, rays'⟩ (c.traceableRay p) <;>
    rw [h1, h2] at e <;> simp only [outcome, scaledBy, Res.bind_ok, Res.bind_panic, Res.bind_diverge, reduceCtorEq, Res.ok.injEq, Prod.mk.injEq] at e
  · exact ⟨congrArg Prod.fst e.1, e.2⟩
  all_goals exact ⟨by rw [Spectrum.black_scale], rfl⟩

theorem pixelState_brighten (k : ℝ) (w : World) (h2 : w.TwoSidedLights) (rt : RayTracer) (fuel : Nat) (c : Pinhole) (rng : Nat → Rng) (width : Nat) (h : rt.maxDepth < 15) (i : Nat) :
    (pixelState (pixelTracer w rt fuel c) (chunkState rng) width i).rng = (pixelState (pixelTracer (w.brighten k) rt fuel c) (chunkState rng) width i).rng := by
  induction i with
  | zero => rfl
  | succ i ih =>
    unfold pixelState
    split_ifs
    · rfl
    · exact ((pixelTracer_brighten k w h2 rt fuel c _ _ _ ih (pixelState_keeps w rt fuel c rng width h i) (pixelState_keeps (w.brighten k) rt fuel c rng width h i)).2).symm

/-- **C91, brightness.** Turn every light and the sky up by `k` and render again with the same seeds, under any other schedule: every pixel is `k` times what it was. -/
theorem C91_picture_scales (o : SpictOptions) (ho : o.Sized) (hD : o.rt.maxDepth < 15) (k : ℝ) (w : World) (h2 : w.TwoSidedLights) (fuel : Nat) (rng : Nat → Rng) (s s' : RState TState (Spectrum ℝ))
    (hs : o.Rendered w fuel rng s) (hs' : o.Rendered (w.brighten k) fuel rng s') :
    renderPixels o.width o.height s' = (renderPixels o.width o.height s).map fun c => c.scale k := by
  obtain ⟨⟨m, hr⟩, hf⟩ := hs
  obtain ⟨⟨m', hr'⟩, hf'⟩ := hs'
  unfold renderPixels
  rw [List.map_map]
  refine List.map_congr_left fun i hi => ?_
  have hi := List.mem_range.1 hi
  simp only [Function.comp_apply]
  rw [mem_value _ _ _ _ ho.pixels hr hf i hi, mem_value _ _ _ _ ho.pixels hr' hf' i hi]
  exact (pixelTracer_brighten k w h2 o.rt fuel o.camera _ _ _ (pixelState_brighten k w h2 o.rt fuel o.camera rng o.width hD i) (pixelState_keeps w o.rt fuel o.camera rng o.width hD i)
    (pixelState_keeps (w.brighten k) o.rt fuel o.camera rng o.width hD i)).1

/-- **C91, schedules.** Two schedules of the same rendering give the same file. -/
theorem C91_schedule_irrelevant (o : SpictOptions) (ho : o.Sized) (w : World) (fuel : Nat) (rng : Nat → Rng) (s s' : RState TState (Spectrum ℝ)) (hs : o.Rendered w fuel rng s) (hs' : o.Rendered w fuel rng s') :
    spictFile o s = spictFile o s' := by
  obtain ⟨⟨m, hr⟩, hf⟩ := hs
  obtain ⟨⟨m', hr'⟩, hf'⟩ := hs'
  have : renderPixels o.width o.height s = renderPixels o.width o.height s' := by
    unfold renderPixels
    refine List.map_congr_left fun i hi => ?_
    have hi := List.mem_range.1 hi
    rw [mem_value _ _ _ _ ho.pixels hr hf i hi, mem_value _ _ _ _ ho.pixels hr' hf' i hi]
  rw [spictFile, spictFile, this]

/-- Every rendering can finish. -/
theorem rendered_exists (o : SpictOptions) (ho : o.Sized) (w : World) (fuel : Nat) (rng : Nat → Rng) : ∃ s, o.Rendered w fuel rng s := by
  obtain ⟨m, s, hr, hf⟩ := C39_some_schedule_finishes (pixelTracer w o.rt fuel o.camera) (chunkState rng) o.width o.height ho.pixels
  exact ⟨s, ⟨m, hr⟩, hf⟩

/-! ### An example: a picture of a luminous floor -/

/-- Looking down onto the floor of `TracerExamples`, three by three pixels. -/
noncomputable def lookDown : SpictOptions := { rt := ⟨2, 10, 70, 1 / 1000, 3 / 10⟩, width := 3, height := 3, viewPoint := ⟨0, 0, 1 / 2⟩, viewDirection := ⟨0, 0, -2⟩, viewUp := ⟨0, 1, 0⟩, fieldOfView := 60 }

theorem lookDown_sized : lookDown.Sized := ⟨by norm_num [lookDown], by norm_num [lookDown], by norm_num [lookDown]⟩

theorem lookDown_direction : lookDown.camera.view.viewDirection = ⟨0, 0, -1⟩ := by
  show Vec3.normalized (⟨0, 0, -2⟩ : Vec3 ℝ) = _
  have : Norm (⟨0, 0, -2⟩ : Vec3 ℝ) = 2 := by
    rw [show (2 : ℝ) = Real.sqrt (2 ^ 2) from (Real.sqrt_sq (by norm_num)).symm]
    unfold Norm
    congr 1
    norm_num [Dot]
  rw [normalized_eq, this]
  ext <;> norm_num

theorem lookDown_proper : lookDown.camera.view.Proper := by
  refine ⟨?_, ?_, ?_, ?_, ?_⟩
  · rw [lookDown_direction]; exact Norm_eq_one (by norm_num [Dot])
  · exact Norm_eq_one (by norm_num [Dot, lookDown, SpictOptions.camera, Pinhole.new])
  · rw [lookDown_direction]; norm_num [Dot, lookDown, SpictOptions.camera, Pinhole.new]
  · norm_num [lookDown, SpictOptions.camera, Pinhole.new]
  · norm_num [lookDown, SpictOptions.camera, Pinhole.new]

/-- The pixel in the middle looks straight down. -/
theorem lookDown_middle : (lookDown.camera.genRay (1, 1)).1 = downRay.geometry := by
  have h1 := C37_central_symmetry lookDown.camera.view lookDown_proper 3 3 1 1 (by norm_num) (by norm_num)
  obtain ⟨-, h2, h3, -⟩ := C37_rays_well_formed lookDown.camera.view lookDown_proper 3 3 (1, 1)
  simp only [show 3 - 1 - 1 = 1 from rfl] at h1
  change Norm (lookDown.camera.genRay (1, 1)).1.direction = 1 at h2
  change 0 < Dot (lookDown.camera.genRay (1, 1)).1.direction lookDown.camera.view.viewDirection at h3
  change (lookDown.camera.genRay (1, 1)).1.direction + (lookDown.camera.genRay (1, 1)).1.direction = lookDown.camera.view.viewDirection.scale (2 * Dot (lookDown.camera.genRay (1, 1)).1.direction lookDown.camera.view.viewDirection) at h1
  have h0 : (lookDown.camera.genRay (1, 1)).1.origin = ⟨0, 0, 1 / 2⟩ := rfl
  generalize (lookDown.camera.genRay (1, 1)).1 = r at *
  obtain ⟨o, d⟩ := r
  obtain ⟨x, y, z⟩ := d
  simp only at h0 h1 h2 h3
  rw [lookDown_direction] at h1 h3
  have e := Dot_self_of_norm h2
  simp only [Vec3.ext_iff, Vec3.add_x, Vec3.add_y, Vec3.add_z, Vec3.scale_x, Vec3.scale_y, Vec3.scale_z, Dot] at h1 h3 e
  obtain ⟨k1, k2, k3⟩ := h1
  have ex : x = 0 := by linarith
  have ey : y = 0 := by linarith
  subst ex ey
  have ez : z = -1 := by nlinarith
  subst ez
  rw [h0]
  rfl

/-- C91: the middle of the picture of a luminous floor has the floor's colour, for every schedule and all random numbers. -/
example (rng : Nat → Rng) (c : Spectrum ℝ) : ∃ w : World, (∃ s, lookDown.Rendered w 1 rng s) ∧ ∀ s, lookDown.Rendered w 1 rng s →
    ∃ content im p, spictFile lookDown s = .ok content ∧ lookDown.Picture content im ∧ im.at? 1 1 = some p ∧ StoredColour c p := by
  obtain ⟨w, hR, _⟩ := floorOf_renders (.light c) none none
  refine ⟨w, rendered_exists lookDown lookDown_sized w 1 rng, fun s hs => ?_⟩
  refine C91_lights_in_picture lookDown lookDown_sized lookDown_proper w _ hR 0 rng s hs 1 1 (by norm_num [lookDown]) (by norm_num [lookDown]) c ?_ ?_
  · rw [lookDown_middle]
    exact ⟨plane 0, by simp [floorOf], _, downRay_visible, downRay_inRange⟩
  · intro j tri t p u v hj _ _
    cases j with
    | succ j => simp [floorOf] at hj
    | zero =>
      unfold Scene.facingMaterial
      split_ifs <;> simp [floorOf]

end Rendering
