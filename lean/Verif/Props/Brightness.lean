import Verif.Lemmas.Brightness
import Verif.Props.SafetyScenes
import Verif.Props.Cases

/-!
# C112: surfaces do not glow
-/

set_option linter.unusedSectionVars false
namespace Rendering
open Classical

variable {w : World} {s : Scene ℝ} {ch : Spectrum ℝ → ℝ} {ρ : ℝ}

theorem sunlight_nonneg {L : Object ℝ → ℝ} (hL : s.SunsAtMost ch L) : 0 ≤ s.sunlight L :=
  List.sum_nonneg fun x hx => by
    obtain ⟨o, ho, rfl⟩ := List.mem_map.1 hx
    exact mul_nonneg (hL o ho).2.1 (solidAngle_nonneg _)

theorem traced_dim (hch : ch ∈ channelOf) (hS : w.Solid s) (hflat : s.FlatShaded) (hlamps : s.lights = []) {L : Object ℝ → ℝ} (hL : s.SunsAtMost ch L) (hρ : 0 ≤ ρ) (lit : Prop) (hm : ∀ m, s.UsedOnSurface m → m.MattUpTo ch ρ ∨ lit ∧ m.Clear)
    (rt : RayTracer) {U : Nat → ℝ} (hU : ∀ d, 0 ≤ U d) (hmono : ∀ d, U (d + 1) ≤ U d) (hstep : ∀ d ≤ rt.maxDepth, s.sunlight L * (ρ / Real.pi) + ρ * U (d + 1) ≤ U d)
    (hsky : lit → ∀ sky, w.sky = some sky → ∀ v d, ch (w.skyColour.getD (Spectrum.gray 1)) * sky v ≤ U d) (fuel : Nat) (rng : Rng) (hr : rng.Valid) (rays : List TRay) (ray : TRay) (h : rt.maxDepth < rays.length) (hu : Norm ray.geometry.direction = 1)
    (v : Spectrum ℝ) (pdf : ℝ) (ray' : TRay) (st' : TState) (ht : traceRay w rt fuel ⟨rng, rays⟩ ray = .ok ((v, pdf), ray', st')) (hc : lit ∨ pdf ≤ 0 ∨ ∃ hit, w.cast ray = .ok (some hit)) : ch v ≤ U ray.depth := by
  have := traceRay_of_ref rt fuel rng rays ray h (refTrace_dim hch hS hflat hlamps hL hρ lit hm rt hU hmono hstep hsky fuel rng ray hr hu)
  rw [ht] at this
  exact this.2 hc

/-- **C112, matt scenes.** Take a flat-shaded scene lit by suns only, in which every surface is matt and reflects at most `ρ` of the light in a channel. A ray (of depth zero) that meets a surface brings back, in that channel, at most
what the suns could put on a surface facing them all, reflected up to `max_depth + 1` times: `ρ·E/π · (1 + ρ + … + ρ^max_depth)`. This holds for all random numbers, all settings and every sky: not on average but for every ray. -/
theorem C112_matt_surfaces_do_not_glow (hch : ch ∈ channelOf) (hS : w.Solid s) (hflat : s.FlatShaded) (hlamps : s.lights = []) (L : Object ℝ → ℝ) (hL : s.SunsAtMost ch L) (hρ : 0 ≤ ρ) (hm : ∀ m, s.UsedOnSurface m → m.MattUpTo ch ρ)
    (rt : RayTracer) (fuel : Nat) (rng : Rng) (hr : rng.Valid) (rays : List TRay) (ray : TRay) (h : rt.maxDepth < rays.length) (hu : Norm ray.geometry.direction = 1) (hd : ray.depth = 0) (hhit : ∃ hit, w.cast ray = .ok (some hit))
    (v : Spectrum ℝ) (pdf : ℝ) (ray' : TRay) (st' : TState) (ht : traceRay w rt fuel ⟨rng, rays⟩ ray = .ok ((v, pdf), ray', st')) :
    ch v ≤ ρ * s.sunlight L / Real.pi * ∑ i ∈ Finset.range (rt.maxDepth + 1), ρ ^ i := by
  have hE := sunlight_nonneg hL
  have hB : 0 ≤ ρ * s.sunlight L / Real.pi := by have := Real.pi_pos; positivity
  have hsum : ∀ k, 0 ≤ ∑ i ∈ Finset.range k, ρ ^ i := fun k => Finset.sum_nonneg fun i _ => pow_nonneg hρ i
  have key := traced_dim hch hS hflat hlamps hL hρ False (fun m hmu => .inl (hm m hmu)) rt (U := fun d => ρ * s.sunlight L / Real.pi * ∑ i ∈ Finset.range (rt.maxDepth + 1 - d), ρ ^ i)
    (fun d => mul_nonneg hB (hsum _))
    (fun d => mul_le_mul_of_nonneg_left (Finset.sum_le_sum_of_subset_of_nonneg (Finset.range_mono (by omega)) fun i _ _ => pow_nonneg hρ i) hB)
    (fun d hd => by
      rw [show rt.maxDepth + 1 - d = (rt.maxDepth + 1 - (d + 1)) + 1 by omega, Finset.sum_range_succ']
      simp only [pow_succ, ← Finset.sum_mul, pow_zero]
      refine le_of_eq ?_
      ring)
    False.elim fuel rng hr rays ray h hu v pdf ray' st' ht (.inr (.inr hhit))
  rw [hd] at key
  exact key

/-- **C112, matt scenes, whatever the depth.** If the surfaces reflect less than everything, the bound does not depend on the settings at all: `ρ·E / (π·(1 − ρ))`. -/
theorem C112_matt_limit (hch : ch ∈ channelOf) (hS : w.Solid s) (hflat : s.FlatShaded) (hlamps : s.lights = []) (L : Object ℝ → ℝ) (hL : s.SunsAtMost ch L) (hρ : 0 ≤ ρ) (hρ1 : ρ < 1) (hm : ∀ m, s.UsedOnSurface m → m.MattUpTo ch ρ)
    (rt : RayTracer) (fuel : Nat) (rng : Rng) (hr : rng.Valid) (rays : List TRay) (ray : TRay) (h : rt.maxDepth < rays.length) (hu : Norm ray.geometry.direction = 1) (hd : ray.depth = 0) (hhit : ∃ hit, w.cast ray = .ok (some hit))
    (v : Spectrum ℝ) (pdf : ℝ) (ray' : TRay) (st' : TState) (ht : traceRay w rt fuel ⟨rng, rays⟩ ray = .ok ((v, pdf), ray', st')) :
    ch v ≤ ρ * s.sunlight L / (Real.pi * (1 - ρ)) := by
  refine (C112_matt_surfaces_do_not_glow hch hS hflat hlamps L hL hρ hm rt fuel rng hr rays ray h hu hd hhit v pdf ray' st' ht).trans ?_
  have hE := sunlight_nonneg hL
  have hB : 0 ≤ ρ * s.sunlight L / Real.pi := by have := Real.pi_pos; positivity
  have h1 : 0 < 1 - ρ := by linarith
  have : ∑ i ∈ Finset.range (rt.maxDepth + 1), ρ ^ i ≤ 1 / (1 - ρ) := by
    rw [le_div_iff₀ h1]
    have := mul_neg_geom_sum ρ (rt.maxDepth + 1)
    have hp := pow_nonneg hρ (rt.maxDepth + 1)
    linarith [mul_comm (1 - ρ) (∑ i ∈ Finset.range (rt.maxDepth + 1), ρ ^ i)]
  refine (mul_le_mul_of_nonneg_left this hB).trans (le_of_eq ?_)
  rw [div_mul_div_comm, mul_one]

/-- **C112, with mirrors and glass.** If some of the surfaces are mirrors or panes of glass, and the rest is matt, no ray brings back more than the brighter of the brightest point of the sky and `ρ·E / (π·(1 − ρ))`. (Reflected and transmitted parts never add up
to more than there was; dielectrics are left out, since the radiance inside a medium of index `n` is `n²` times that outside.) -/
theorem C112_nothing_outshines_the_sky (hch : ch ∈ channelOf) (hS : w.Solid s) (hflat : s.FlatShaded) (hlamps : s.lights = []) (L : Object ℝ → ℝ) (hL : s.SunsAtMost ch L) (hρ : 0 ≤ ρ) (hρ1 : ρ < 1) (hm : ∀ m, s.UsedOnSurface m → m.MattUpTo ch ρ ∨ m.Clear)
    (S : ℝ) (hsky : ∀ sky, w.sky = some sky → ∀ d, ch (w.skyColour.getD (Spectrum.gray 1)) * sky d ≤ S)
    (rt : RayTracer) (fuel : Nat) (rng : Rng) (hr : rng.Valid) (rays : List TRay) (ray : TRay) (h : rt.maxDepth < rays.length) (hu : Norm ray.geometry.direction = 1)
    (v : Spectrum ℝ) (pdf : ℝ) (ray' : TRay) (st' : TState) (ht : traceRay w rt fuel ⟨rng, rays⟩ ray = .ok ((v, pdf), ray', st')) :
    ch v ≤ max S (ρ * s.sunlight L / (Real.pi * (1 - ρ))) := by
  have hE := sunlight_nonneg hL
  have h1 : 0 < 1 - ρ := by linarith
  have hpi := Real.pi_pos
  have hB : 0 ≤ ρ * s.sunlight L / (Real.pi * (1 - ρ)) := by positivity
  refine traced_dim hch hS hflat hlamps hL hρ True (fun m hmu => (hm m hmu).imp id fun hc => ⟨trivial, hc⟩) rt (U := fun _ => max S (ρ * s.sunlight L / (Real.pi * (1 - ρ)))) (fun d => hB.trans (le_max_right _ _)) (fun d => le_rfl) ?_
    (fun _ sky hs v d => (hsky sky hs v).trans (le_max_left _ _)) fuel rng hr rays ray h hu v pdf ray' st' ht (.inl trivial)
  intro d _
  have hM := le_max_right S (ρ * s.sunlight L / (Real.pi * (1 - ρ)))
  set M := max S (ρ * s.sunlight L / (Real.pi * (1 - ρ)))
  have e : s.sunlight L * (ρ / Real.pi) = ρ * s.sunlight L / (Real.pi * (1 - ρ)) * (1 - ρ) := by field_simp
  have := mul_le_mul_of_nonneg_right hM h1.le
  rw [e]
  linarith

/-- **C112, pictures.** Under the same conditions every pixel of a finished rendering obeys the bound, whatever the schedule of the workers. -/
theorem C112_no_pixel_outshines_the_sky (hch : ch ∈ channelOf) (hS : w.Sound s) (hflat : s.FlatShaded) (hlamps : s.lights = []) (L : Object ℝ → ℝ) (hL : s.SunsAtMost ch L) (hρ : 0 ≤ ρ) (hρ1 : ρ < 1) (hm : ∀ m, s.UsedOnSurface m → m.MattUpTo ch ρ ∨ m.Clear)
    (S : ℝ) (hsky : ∀ sky, w.sky = some sky → ∀ d, ch (w.skyColour.getD (Spectrum.gray 1)) * sky d ≤ S) (o : SpictOptions) (ho : o.Sized) (hv : o.camera.view.Proper) (hD : o.rt.maxDepth < 15) (fuel : Nat) (rng : Nat → Rng) (hr : ∀ k, (rng k).Valid)
    (st : RState TState (Spectrum ℝ)) (hs : o.Rendered w fuel rng st) : ∀ p ∈ renderPixels o.width o.height st, ch p ≤ max S (ρ * s.sunlight L / (Real.pi * (1 - ρ))) := by
  intro p hmem
  have hlen : (renderPixels o.width o.height st).length = o.width * o.height := by simp [renderPixels]
  obtain ⟨i, hi, rfl⟩ := List.mem_iff_getElem.1 hmem
  have hi' := hi
  rw [hlen] at hi'
  have hw : 0 < o.width := Nat.pos_of_ne_zero (by rintro h0; rw [h0] at hi'; simp at hi')
  have hy : i / o.width < o.height := Nat.div_lt_of_lt_mul hi'
  have hx : i % o.width < o.width := Nat.mod_lt _ hw
  obtain ⟨⟨m, hre⟩, hf⟩ := hs
  have e := C39_pixel_value (pixelTracer w o.rt fuel o.camera) (chunkState rng) o.width o.height ho.pixels hre hf _ _ hx hy
  rw [Nat.div_add_mod' i o.width, List.getElem?_eq_getElem hi] at e
  rw [Option.some.inj e]
  have hk := pixelState_keeps w o.rt fuel o.camera rng o.width hD i
  have hva := pixelState_valid hS.toSolid o.rt (.inr hS.matt) fuel o.camera rng hr o.width hD i
  generalize pixelState (pixelTracer w o.rt fuel o.camera) (chunkState rng) o.width i = st' at hk hva
  obtain ⟨rg, rays⟩ := st'
  unfold pixelTracer
  split
  · rename_i v pdf ray' st' e
    exact C112_nothing_outshines_the_sky hch hS.toSolid hflat hlamps L hL hρ hρ1 hm S hsky o.rt fuel rg hva rays _ hk (traceable_unit o hv _) v pdf ray' st' e
  · have hE := sunlight_nonneg hL
    have h1 : 0 < 1 - ρ := by linarith
    have hpi := Real.pi_pos
    rw [ch_black hch]
    exact le_trans (by positivity) (le_max_right _ _)

/-! ### The hypotheses can be met -/

/-- The red channel of a grey floor under a sun of radiance 5 (and a sky): whatever the settings, no ray that meets it brings back more than `10·(1 − cos ½)`. -/
example (rt : RayTracer) (hrt : rt.maxDepth < 15) (fuel : Nat) (rng : Rng) (hr : rng.Valid) : ∃ w : World, w.scene.distantLights ≠ [] ∧ (∃ hit, w.cast downRay = .ok (some hit)) ∧
    ∀ v pdf ray' st', traceRay w rt fuel ⟨rng, defaultRays⟩ downRay = .ok ((v, pdf), ray', st') → v.c0 ≤ 10 * (1 - Real.cos (1 / 2)) := by
  let s0 : Scene ℝ := { triangles := [plane 0], normals := (meshTriangle realEnv (plane 0)).2, front := [0], back := [0], materials := [.plastic (Spectrum.gray (1 / 2)) 0 0, .light (Spectrum.gray 5)],
                        distantLights := [{ front := 1, back := 1, primitive := .source ⟨0, 0, 1⟩ 1 }] }
  have hrun : Scene.run realEnv {} sunnyFloor = .ok s0 := rfl
  obtain ⟨ext, hext⟩ := perpSpec_exists
  obtain ⟨w, hR, rfl, _, _, _⟩ := renders_exists s0 ⟨rfl, rfl, rfl⟩ (fits_of_small _ (by simp [s0])) ext ⟨fun _ _ => false, fun _ _ => false⟩ none none
  have hS := sound_of_run realEnv refEnv_lawful (fun _ _ => rfl) sunnyFloor (fun op h => (sunnyFloor_good op h).1) s0 hrun w hR hext
  have hP : w.Physical s0 := physical_of_run realEnv refEnv_lawful (fun _ _ => rfl) rfl sunnyFloor (fun op h => (sunnyFloor_good op h).2) s0 hrun w (by simp_all) (by simp_all)
  have hhit : ∃ hit, w.cast downRay = .ok (some hit) := by
    rcases hR.cast_cases downRay with ⟨_, hno⟩ | ⟨i, tri, b, j, hc, _⟩
    · exact absurd downRay_inRange (hno _ (by simp [s0]) _ downRay_visible)
    · exact ⟨_, hc⟩
  refine ⟨w, by rw [hR.same.2.2]; exact fun h => (by cases h), hhit, fun v pdf ray' st' ht => ?_⟩
  have hL : s0.SunsAtMost Spectrum.c0 fun _ => 5 := by
    intro o ho
    obtain rfl : o = _ := List.mem_singleton.1 ho
    refine ⟨⟨_, _, rfl⟩, by norm_num, ?_⟩
    rintro k m (rfl | rfl) hm
    all_goals
      obtain rfl : _ = m := Option.some.inj hm
      exact le_rfl
  have := C112_matt_limit (ch := Spectrum.c0) (ρ := 1 / 2) (by simp [channelOf]) hS.toSolid hP.flat rfl (fun _ => 5) hL (by norm_num) (by norm_num) (by
    rintro m ⟨j, k, hjk, hk⟩
    have : k = 0 := by
      rcases j with _ | j
      · rcases hjk with h | h <;> exact (Option.some.inj h).symm
      · rcases hjk with h | h <;> cases h
    subst this
    obtain rfl : _ = m := Option.some.inj hk
    exact ⟨rfl, by norm_num [Spectrum.gray], by norm_num [Spectrum.gray]⟩) rt fuel rng hr defaultRays downRay (by simpa [defaultRays] using hrt) (by apply Norm_eq_one; norm_num [downRay, Dot]) rfl hhit v pdf ray' st' ht
  refine this.trans (le_of_eq ?_)
  simp only [Scene.sunlight, s0, List.map_cons, List.map_nil, List.sum_cons, List.sum_nil, Primitive.solidAngle]
  have := Real.pi_pos.ne'
  field_simp
  ring

/-- A grey floor, and below it a pane that is a mirror on one side and glass on the other, under a sun. -/
noncomputable def sunnyHall : List (SceneOp ℝ) :=
  [.pushMaterial (.plastic (Spectrum.gray (1 / 2)) 0 0), .pushMaterial (.light (Spectrum.gray 5)), .pushMaterial (.mirror (Spectrum.gray (9 / 10))), .pushMaterial (.glass (Spectrum.gray (9 / 10)) (3 / 2)), .pushObject 0 0 (.triangle (plane 0)),
    .pushObject 2 3 (.triangle (plane (-1))), .pushObject 1 1 (.source ⟨0, 0, 1⟩ 1)]

/-- C112 applies to single rays and to pictures of the hall, under a sky of brightness one. -/
example (rt : RayTracer) (hrt : rt.maxDepth < 15) (fuel : Nat) (rng : Nat → Rng) (hr : ∀ k, (rng k).Valid) : ∃ (s : Scene ℝ) (w : World), Scene.run realEnv {} sunnyHall = .ok s ∧ w.Renders s ∧ s.distantLights ≠ [] ∧
    (∀ v pdf ray' st', traceRay w rt fuel ⟨rng 0, defaultRays⟩ downRay = .ok ((v, pdf), ray', st') → v.c1 ≤ max 1 (10 * (1 - Real.cos (1 / 2)))) ∧
    ∃ st, lookDown.Rendered w fuel rng st ∧ ∀ p ∈ renderPixels lookDown.width lookDown.height st, p.c1 ≤ max 1 (10 * (1 - Real.cos (1 / 2))) := by
  let s0 : Scene ℝ := { triangles := [plane 0, plane (-1)], normals := (meshTriangle realEnv (plane 0)).2 ++ (meshTriangle realEnv (plane (-1))).2, front := [0, 2], back := [0, 3],
                        materials := [.plastic (Spectrum.gray (1 / 2)) 0 0, .light (Spectrum.gray 5), .mirror (Spectrum.gray (9 / 10)), .glass (Spectrum.gray (9 / 10)) (3 / 2)],
                        distantLights := [{ front := 1, back := 1, primitive := .source ⟨0, 0, 1⟩ 1 }] }
  have hrun : Scene.run realEnv {} sunnyHall = .ok s0 := rfl
  obtain ⟨ext, hext⟩ := perpSpec_exists
  obtain ⟨w, hR, rfl, _, hsk, hcol⟩ := renders_exists s0 ⟨rfl, rfl, rfl⟩ (fits_of_small _ (by simp [s0])) ext ⟨fun _ _ => false, fun _ _ => false⟩ (some fun _ => 1) none
  have hgood : ∀ op ∈ sunnyHall, op.Harmless ∧ op.Physical := by
    intro op h
    simp only [sunnyHall, List.mem_cons, List.not_mem_nil, or_false] at h
    rcases h with rfl | rfl | rfl | rfl | rfl | rfl | rfl
    all_goals
      simp only [SceneOp.Harmless, SceneOp.Physical, Material.NotGlossy, Material.Physical, Spectrum.Fraction, Spectrum.Nonneg, Spectrum.gray, Primitive.CanBeSampled, Dot]
      norm_num
  have hS := sound_of_run realEnv refEnv_lawful (fun _ _ => rfl) sunnyHall (fun op h => (hgood op h).1) s0 hrun w hR hext
  have hsky : ∀ sky, w.sky = some sky → ∀ d, Spectrum.c1 (w.skyColour.getD (Spectrum.gray 1)) * sky d ≤ 1 := by
    intro sky h d
    rw [hsk] at h
    cases h
    rw [hcol]
    norm_num [Spectrum.gray]
  have hP : w.Physical s0 := physical_of_run realEnv refEnv_lawful (fun _ _ => rfl) rfl sunnyHall (fun op h => (hgood op h).2) s0 hrun w (by
    intro sky h d; rw [hsk] at h; cases h; exact zero_le_one) (by intro c h; rw [hcol] at h; cases h)
  have hL : s0.SunsAtMost Spectrum.c1 fun _ => 5 := by
    intro o ho
    obtain rfl : o = _ := List.mem_singleton.1 ho
    refine ⟨⟨_, _, rfl⟩, by norm_num, ?_⟩
    rintro k m (rfl | rfl) hm
    all_goals
      obtain rfl : _ = m := Option.some.inj hm
      exact le_rfl
  have hm : ∀ m, s0.UsedOnSurface m → m.MattUpTo Spectrum.c1 (1 / 2) ∨ m.Clear := by
    rintro m ⟨j, k, hjk, hk⟩
    have hk3 : k = 0 ∨ k = 2 ∨ k = 3 := by
      rcases j with _ | _ | j
      · rcases hjk with h | h <;> exact .inl (Option.some.inj h).symm
      · rcases hjk with h | h
        · exact .inr (.inl (Option.some.inj h).symm)
        · exact .inr (.inr (Option.some.inj h).symm)
      · rcases hjk with h | h <;> cases h
    rcases hk3 with rfl | rfl | rfl
    · obtain rfl : _ = m := Option.some.inj hk
      exact .inl ⟨rfl, by norm_num [Spectrum.gray], by norm_num [Spectrum.gray]⟩
    · obtain rfl : _ = m := Option.some.inj hk
      exact .inr trivial
    · obtain rfl : _ = m := Option.some.inj hk
      refine .inr ⟨by norm_num, ?_⟩
      simp only [Spectrum.Fraction, Spectrum.Nonneg, Spectrum.gray]
      norm_num
  have hch : (Spectrum.c1 : Spectrum ℝ → ℝ) ∈ channelOf := by simp [channelOf]
  have hval : (1 / 2 : ℝ) * s0.sunlight (fun _ => 5) / (Real.pi * (1 - 1 / 2)) = 10 * (1 - Real.cos (1 / 2)) := by
    simp only [Scene.sunlight, s0, List.map_cons, List.map_nil, List.sum_cons, List.sum_nil, Primitive.solidAngle]
    have := Real.pi_pos.ne'
    field_simp
    ring
  refine ⟨s0, w, hrun, hR, fun h => (by cases h), fun v pdf ray' st' ht => ?_, ?_⟩
  · have := C112_nothing_outshines_the_sky hch hS.toSolid hP.flat rfl (fun _ => 5) hL (by norm_num) (by norm_num) hm 1 hsky rt fuel (rng 0) (hr 0) defaultRays downRay (by simpa [defaultRays] using hrt) (by apply Norm_eq_one; norm_num [downRay, Dot]) v pdf ray' st' ht
    rwa [hval] at this
  · obtain ⟨st, hst⟩ := rendered_exists lookDown lookDown_sized w fuel rng
    have := C112_no_pixel_outshines_the_sky hch hS hP.flat rfl (fun _ => 5) hL (by norm_num) (by norm_num) hm 1 hsky lookDown lookDown_sized lookDown_proper (by norm_num [lookDown]) fuel rng hr st hst
    rw [hval] at this
    exact ⟨st, hst, this⟩

end Rendering
