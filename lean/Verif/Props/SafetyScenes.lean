import Verif.Props.Safety
import Verif.Props.Spict

/-!
# C92, C93 for scenes made by any history of calls, for whole renderings, and examples
-/

set_option linter.unusedSectionVars false
namespace Rendering

open Classical

theorem mem_pushedMaterials (ops : List (SceneOp ℝ)) (m : Material ℝ) (h : m ∈ pushedMaterials ops) :
    .pushMaterial m ∈ ops ∨ ∃ d b a, SceneOp.addPerezSky (some (d, b, a)) ∈ ops ∧ m = .light ⟨b, b, b⟩ := by
  induction ops with
  | nil => simp [pushedMaterials] at h
  | cons op ops ih =>
    have up : m ∈ pushedMaterials ops → SceneOp.pushMaterial m ∈ op :: ops ∨ ∃ d b a, SceneOp.addPerezSky (some (d, b, a)) ∈ op :: ops ∧ m = .light ⟨b, b, b⟩ := by
      intro hm
      rcases ih hm with h | ⟨d, b, a, h, e⟩
      · exact Or.inl (List.mem_cons_of_mem _ h)
      · exact Or.inr ⟨d, b, a, List.mem_cons_of_mem _ h, e⟩
    cases op with
    | pushMaterial m' =>
      rw [pushedMaterials, List.mem_cons] at h
      rcases h with rfl | h
      · exact Or.inl (List.mem_cons_self ..)
      · exact up h
    | addPerezSky sun =>
      rcases sun with _ | ⟨d, b, a⟩
      · exact up h
      · rw [pushedMaterials, List.mem_cons] at h
        rcases h with rfl | h
        · exact Or.inr ⟨d, b, a, List.mem_cons_self .., rfl⟩
        · exact up h
    | _ => exact up h

theorem mem_pushedLights (ops : List (SceneOp ℝ)) (x : Bool × Object ℝ) : ∀ mats, x ∈ pushedLights mats ops →
    .pushObject x.2.front x.2.back x.2.primitive ∈ ops ∨ ∃ d b a, SceneOp.addPerezSky (some (d, b, a)) ∈ ops ∧ x.2.primitive = .source d a := by
  induction ops with
  | nil => intro mats h; simp [pushedLights] at h
  | cons op ops ih =>
    intro mats h
    have up : ∀ mats, x ∈ pushedLights mats ops → SceneOp.pushObject x.2.front x.2.back x.2.primitive ∈ op :: ops ∨ ∃ d b a, SceneOp.addPerezSky (some (d, b, a)) ∈ op :: ops ∧ x.2.primitive = .source d a := by
      intro mats hm
      rcases ih mats hm with h | ⟨d, b, a, h, e⟩
      · exact Or.inl (List.mem_cons_of_mem _ h)
      · exact Or.inr ⟨d, b, a, List.mem_cons_of_mem _ h, e⟩
    cases op with
    | pushMaterial m' => exact up _ h
    | pushObject f b p =>
      rw [pushedLights, List.mem_append] at h
      rcases h with h | h
      · split_ifs at h
        · rw [List.mem_singleton] at h
          subst h
          exact Or.inl (List.mem_cons_self ..)
        · simp at h
      · exact up _ h
    | addPerezSky sun =>
      rcases sun with _ | ⟨d, b, a⟩
      · exact up _ h
      · rw [pushedLights, List.mem_cons] at h
        rcases h with rfl | h
        · exact Or.inr ⟨d, b, a, List.mem_cons_self .., rfl⟩
        · exact up _ h
    | build => exact up _ h
    | rebuild => exact up _ h

/-- Every history of solid calls leads to a solid scene. -/
theorem solid_of_run (env : SceneEnv ℝ) (hE : env.bvh.Lawful) (hM : env.MeshAligned) (ops : List (SceneOp ℝ)) (hops : ∀ op ∈ ops, op.Solid) (s : Scene ℝ) (h : Scene.run env {} ops = .ok s) (w : World) (hR : w.Renders s) (hp : w.ext.PerpSpec) :
    w.Solid s := by
  obtain ⟨l1, l2, _⟩ := C12_light_registry env hE hM ops s h
  refine ⟨hR, (C10_aligned_and_valid env hE hM ops s h).2, hp, ?_⟩
  intro o ho
  rw [l1, l2] at ho
  have hx : ∃ x ∈ pushedLights [] ops, x.2 = o := by
    rcases List.mem_append.1 ho with ho | ho <;>
    · obtain ⟨x, hx, rfl⟩ := List.mem_map.1 ho
      exact ⟨x, (List.mem_filter.1 hx).1, rfl⟩
  obtain ⟨x, hx, rfl⟩ := hx
  rcases mem_pushedLights ops x [] hx with h | ⟨d, b, a, h, e⟩
  · exact hops _ h
  · rw [e]
    exact hops _ h

theorem SceneOp.Harmless.solid {op : SceneOp ℝ} (h : op.Harmless) : op.Solid := by
  unfold SceneOp.Harmless at h
  unfold SceneOp.Solid
  split <;> simp_all

/-- Every history of harmless calls leads to a sound scene. -/
theorem sound_of_run (env : SceneEnv ℝ) (hE : env.bvh.Lawful) (hM : env.MeshAligned) (ops : List (SceneOp ℝ)) (hops : ∀ op ∈ ops, op.Harmless) (s : Scene ℝ) (h : Scene.run env {} ops = .ok s) (w : World) (hR : w.Renders s) (hp : w.ext.PerpSpec) :
    w.Sound s := by
  have hmat := C11_materials_are_those_pushed env hE hM ops s h
  refine ⟨solid_of_run env hE hM ops (fun op hop => (hops op hop).solid) s h w hR hp, ?_⟩
  intro m hm
  rw [hmat] at hm
  rcases mem_pushedMaterials ops m hm with h | ⟨d, b, a, h, rfl⟩
  · exact hops _ h
  · trivial

theorem mem_pushedRows (env : SceneEnv ℝ) (ops : List (SceneOp ℝ)) (r : Tri ℝ × Nat × Nat × Normals ℝ) (h : r ∈ pushedRows env ops) : ∃ f b p, .pushObject f b p ∈ ops ∧ (r.1, r.2.2.2) ∈ env.meshOf p := by
  induction ops with
  | nil => simp [pushedRows] at h
  | cons op ops ih =>
    have up : r ∈ pushedRows env ops → ∃ f b p, SceneOp.pushObject f b p ∈ op :: ops ∧ (r.1, r.2.2.2) ∈ env.meshOf p := by
      intro h
      obtain ⟨f, b, p, h, e⟩ := ih h
      exact ⟨f, b, p, List.mem_cons_of_mem _ h, e⟩
    cases op with
    | pushObject f b p =>
      rw [pushedRows, List.mem_append, List.mem_map] at h
      rcases h with ⟨x, hx, rfl⟩ | h
      · exact ⟨f, b, p, List.mem_cons_self .., hx⟩
      · exact up h
    | _ => exact up h

/-- Every history of physical calls leads to a physical scene. -/
theorem physical_of_run (env : SceneEnv ℝ) (hE : env.bvh.Lawful) (hM : env.MeshAligned) (hN : env.normalized = Vec3.normalized) (ops : List (SceneOp ℝ)) (hops : ∀ op ∈ ops, op.Physical) (s : Scene ℝ) (h : Scene.run env {} ops = .ok s) (w : World)
    (hsky : ∀ sky, w.sky = some sky → ∀ d, 0 ≤ sky d) (hcol : ∀ c, w.skyColour = some c → c.Nonneg) : w.Physical s := by
  have hmat := C11_materials_are_those_pushed env hE hM ops s h
  have ha := (C10_aligned_and_valid env hE hM ops s h).1
  have hrows := C05_history_permutes env hE hM ops s h
  refine ⟨?_, hsky, hcol, ?_⟩
  · intro m hm
    rw [hmat] at hm
    rcases mem_pushedMaterials ops m hm with h | ⟨d, b, a, h, rfl⟩
    · exact hops _ h
    · have := hops _ h
      exact ⟨this, this, this⟩
  · intro j tri hj
    have hjl : j < s.triangles.length := (List.getElem?_eq_some_iff.1 hj).1
    obtain ⟨a1, a2, a3⟩ := ha
    have hrow : (tri, s.front[j]'(by omega), s.back[j]'(by omega), s.normals[j]'(by omega)) ∈ s.rows := by
      rw [← (List.getElem?_eq_some_iff.1 hj).2]
      unfold Scene.rows rows
      rw [List.mem_iff_getElem]
      exact ⟨j, by simp; omega, by simp⟩
    obtain ⟨f, b, p, hp, hmesh⟩ := mem_pushedRows env ops _ (hrows.mem_iff.1 hrow)
    have hph := hops _ hp
    rw [List.getElem?_eq_getElem (by omega)]
    cases p with
    | triangle t =>
      simp only [SceneEnv.meshOf, List.mem_singleton, Prod.mk.injEq] at hmesh
      obtain ⟨rfl, hn⟩ := hmesh
      rw [hn, hN]
      rfl
    | sphere c r => exact hph.elim
    | _ => simp [SceneEnv.meshOf] at hmesh

/-- **C92 (partial), any history.** After every sequence of API calls that succeeds and that pushes no glossy material and no cylinder light, once the scene has been built, tracing a ray does not panic.
(Missing: glossy materials, see `C74_violation_panic`.) -/
theorem C92_history_never_panics_partial (env : SceneEnv ℝ) (hE : env.bvh.Lawful) (hM : env.MeshAligned) (ops : List (SceneOp ℝ)) (hops : ∀ op ∈ ops, op.Harmless) (s : Scene ℝ) (h : Scene.run env {} ops = .ok s) (w : World) (hR : w.Renders s)
    (hp : w.ext.PerpSpec) (rt : RayTracer) (fuel : Nat) (rng : Rng) (hr : rng.Valid) (rays : List TRay) (ray : TRay) (hd : rt.maxDepth < rays.length) : traceRay w rt fuel ⟨rng, rays⟩ ray ≠ .panic :=
  C92_never_panics_partial (sound_of_run env hE hM ops hops s h w hR hp) rt fuel rng hr rays ray hd

/-- **C92, any history, direct light only.** After every sequence of API calls that succeeds and pushes no cylinder, whatever the materials, once the scene has been built, tracing a ray with settings for direct light only does not panic. -/
theorem C92_history_direct_light_never_panics (env : SceneEnv ℝ) (hE : env.bvh.Lawful) (hM : env.MeshAligned) (ops : List (SceneOp ℝ)) (hops : ∀ op ∈ ops, op.Solid) (s : Scene ℝ) (h : Scene.run env {} ops = .ok s) (w : World) (hR : w.Renders s)
    (hp : w.ext.PerpSpec) (rt : RayTracer) (hA : rt.DirectOnly) (fuel : Nat) (rng : Rng) (hr : rng.Valid) (rays : List TRay) (ray : TRay) (hd : rt.maxDepth < rays.length) : traceRay w rt fuel ⟨rng, rays⟩ ray ≠ .panic :=
  C92_direct_light_never_panics (solid_of_run env hE hM ops hops s h w hR hp) rt hA fuel rng hr rays ray hd

/-- **C93 (partial), any history.** After every sequence of API calls that pushes triangles and distant sources of materials that make physical sense, no ray brings back negative light. (Missing: spheres, for which see `C93_violation_tilted_normal`, and glossy materials.) -/
theorem C93_history_never_negative_partial (env : SceneEnv ℝ) (hE : env.bvh.Lawful) (hM : env.MeshAligned) (hN : env.normalized = Vec3.normalized) (ops : List (SceneOp ℝ)) (hops : ∀ op ∈ ops, op.Harmless ∧ op.Physical) (s : Scene ℝ)
    (h : Scene.run env {} ops = .ok s) (w : World) (hR : w.Renders s) (hp : w.ext.PerpSpec) (hsky : ∀ sky, w.sky = some sky → ∀ d, 0 ≤ sky d) (hcol : ∀ c, w.skyColour = some c → c.Nonneg) (rt : RayTracer) (fuel : Nat) (rng : Rng)
    (hr : rng.Valid) (rays : List TRay) (ray : TRay) (hd : rt.maxDepth < rays.length) (hn : 0 < ray.refractionIndex) (v : Spectrum ℝ) (pdf : ℝ) (ray' : TRay) (st' : TState)
    (ht : traceRay w rt fuel ⟨rng, rays⟩ ray = .ok ((v, pdf), ray', st')) : 0 ≤ v.c0 ∧ 0 ≤ v.c1 ∧ 0 ≤ v.c2 :=
  C93_never_negative_partial (sound_of_run env hE hM ops (fun op h => (hops op h).1) s h w hR hp) (physical_of_run env hE hM hN ops (fun op h => (hops op h).2) s h w hsky hcol) rt fuel rng hr rays ray hd hn v pdf ray' st' ht

/-! ### Whole renderings -/

theorem pixelState_valid {w : World} {s : Scene ℝ} (hS : w.Solid s) (rt : RayTracer) (hG : rt.DirectOnly ∨ ∀ m ∈ s.materials, m.NotGlossy) (fuel : Nat) (c : Pinhole) (rng : Nat → Rng) (hr : ∀ k, (rng k).Valid) (width : Nat) (h : rt.maxDepth < 15) (i : Nat) :
    (pixelState (pixelTracer w rt fuel c) (chunkState rng) width i).rng.Valid := by
  induction i with
  | zero => exact hr 0
  | succ i ih =>
    unfold pixelState
    split_ifs
    · exact hr _
    · have hk := pixelState_keeps w rt fuel c rng width h i
      generalize pixelState (pixelTracer w rt fuel c) (chunkState rng) width i = st at ih hk
      obtain ⟨rg, rays⟩ := st
      have := traceRay_of_ref rt fuel rg rays (c.traceableRay (i % width, i / width)) hk (refTrace_good False hS False.elim rt hG fuel rg _ ih False.elim)
      unfold pixelTracer
      split
      · rename_i e
        rw [e] at this
        exact this.1
      · exact ih

/-- **C92 (partial), pictures.** No pixel of a rendering panics, if there are no glossy materials or no ambient samples are taken. -/
theorem C92_no_pixel_panics_partial {w : World} {s : Scene ℝ} (hS : w.Solid s) (o : SpictOptions) (hG : o.rt.DirectOnly ∨ ∀ m ∈ s.materials, m.NotGlossy) (hD : o.rt.maxDepth < 15) (fuel : Nat) (rng : Nat → Rng) (hr : ∀ k, (rng k).Valid) (x y : Nat) :
    traceRay w o.rt fuel (pixelState (pixelTracer w o.rt fuel o.camera) (chunkState rng) o.width (y * o.width + x)) (o.camera.traceableRay (x, y)) ≠ .panic := by
  have hk := pixelState_keeps w o.rt fuel o.camera rng o.width hD (y * o.width + x)
  have hv := pixelState_valid hS o.rt hG fuel o.camera rng hr o.width hD (y * o.width + x)
  rcases hG with hG | hG
  · exact C92_direct_light_never_panics hS o.rt hG fuel _ hv _ _ hk
  · exact C92_never_panics_partial ⟨hS, hG⟩ o.rt fuel _ hv _ _ hk

/-- **C93 (partial), pictures.** In a rendering that has finished, whatever the schedule of its workers, no pixel is negative. -/
theorem C93_no_pixel_negative_partial {w : World} {sc : Scene ℝ} (hS : w.Sound sc) (hP : w.Physical sc) (o : SpictOptions) (ho : o.Sized) (hD : o.rt.maxDepth < 15) (fuel : Nat) (rng : Nat → Rng) (hr : ∀ k, (rng k).Valid)
    (s : RState TState (Spectrum ℝ)) (hs : o.Rendered w fuel rng s) : ∀ p ∈ renderPixels o.width o.height s, 0 ≤ p.c0 ∧ 0 ≤ p.c1 ∧ 0 ≤ p.c2 := by
  intro p hm
  have hlen : (renderPixels o.width o.height s).length = o.width * o.height := by simp [renderPixels]
  obtain ⟨i, hi, rfl⟩ := List.mem_iff_getElem.1 hm
  have hi' := hi
  rw [hlen] at hi'
  have hw : 0 < o.width := Nat.pos_of_ne_zero (by rintro h0; rw [h0] at hi'; simp at hi')
  have hy : i / o.width < o.height := Nat.div_lt_of_lt_mul hi'
  have hx : i % o.width < o.width := Nat.mod_lt _ hw
  obtain ⟨⟨m, hre⟩, hf⟩ := hs
  have e := C39_pixel_value (pixelTracer w o.rt fuel o.camera) (chunkState rng) o.width o.height ho.pixels hre hf _ _ hx hy
  rw [Nat.div_add_mod' i o.width, List.getElem?_eq_getElem hi] at e
  rw [Option.some.inj e]
  have hk := pixelState_keeps w o.rt fuel o.camera rng o.width hD i
  have hv := pixelState_valid hS.toSolid o.rt (.inr hS.matt) fuel o.camera rng hr o.width hD i
  generalize pixelState (pixelTracer w o.rt fuel o.camera) (chunkState rng) o.width i = st at hk hv
  obtain ⟨rg, rays⟩ := st
  unfold pixelTracer
  split
  · rename_i v pdf ray' st' e
    exact C93_never_negative_partial hS hP o.rt fuel rg hv rays _ hk (by norm_num [Pinhole.traceableRay, TRay.default]) v pdf ray' st' e
  · exact ⟨le_rfl, le_rfl, le_rfl⟩

/-! ### The hypotheses can be met -/

/-- A grey floor under a sun. -/
noncomputable def sunnyFloor : List (SceneOp ℝ) := [.pushMaterial (.plastic (Spectrum.gray (1 / 2)) 0 0), .pushMaterial (.light (Spectrum.gray 5)), .pushObject 0 0 (.triangle (plane 0)), .pushObject 1 1 (.source ⟨0, 0, 1⟩ 1)]

theorem sunnyFloor_good : ∀ op ∈ sunnyFloor, op.Harmless ∧ op.Physical := by
  intro op h
  simp only [sunnyFloor, List.mem_cons, List.not_mem_nil, or_false] at h
  rcases h with rfl | rfl | rfl | rfl
  · refine ⟨rfl, ?_⟩
    simp only [SceneOp.Physical, Material.Physical, Spectrum.Nonneg, Spectrum.gray]
    norm_num
  · refine ⟨trivial, ?_⟩
    simp only [SceneOp.Physical, Material.Physical, Spectrum.Nonneg, Spectrum.gray]
    norm_num
  · exact ⟨trivial, trivial⟩
  · refine ⟨?_, trivial⟩
    norm_num [SceneOp.Harmless, Primitive.CanBeSampled, Dot]

/-- C92, C93: a scene that satisfies the hypotheses, with a light, under a sky, in which the ray straight down meets the floor. -/
example : ∃ (s : Scene ℝ) (w : World), Scene.run realEnv {} sunnyFloor = .ok s ∧ w.Renders s ∧ w.Sound s ∧ w.Physical s ∧ w.scene.distantLights.length = 1 ∧ ∃ hit, w.cast downRay = .ok (some hit) := by
  let s0 : Scene ℝ := { triangles := [plane 0], normals := (meshTriangle realEnv (plane 0)).2, front := [0], back := [0], materials := [.plastic (Spectrum.gray (1 / 2)) 0 0, .light (Spectrum.gray 5)],
                        distantLights := [{ front := 1, back := 1, primitive := .source ⟨0, 0, 1⟩ 1 }] }
  have hrun : Scene.run realEnv {} sunnyFloor = .ok s0 := rfl
  obtain ⟨ext, hext⟩ := perpSpec_exists
  obtain ⟨w, hR, rfl, _, hsky, hcol⟩ := renders_exists s0 ⟨rfl, rfl, rfl⟩ (fits_of_small _ (by simp [s0])) ext ⟨fun _ _ => false, fun _ _ => false⟩ (some fun _ => 1) none
  refine ⟨s0, w, hrun, hR, ?_, ?_, by rw [hR.same.2.2]; rfl, ?_⟩
  · exact sound_of_run realEnv refEnv_lawful (fun _ _ => rfl) sunnyFloor (fun op h => (sunnyFloor_good op h).1) s0 hrun w hR hext
  · refine physical_of_run realEnv refEnv_lawful (fun _ _ => rfl) rfl sunnyFloor (fun op h => (sunnyFloor_good op h).2) s0 hrun w ?_ ?_
    · intro sky h d
      rw [hsky] at h
      cases h
      exact zero_le_one
    · intro c h
      rw [hcol] at h
      cases h
  · rcases hR.cast_cases downRay with ⟨_, hno⟩ | ⟨i, tri, b, j, hc, _⟩
    · exact absurd downRay_inRange (by
        have := hno
        exact this _ (by simp [s0]) _ downRay_visible)
    · exact ⟨_, hc⟩

/-! ### Smooth-shaded surfaces can return negative light -/

/-- **C93, the code violates it on spheres.** On a facet of a sphere the shading normal is not perpendicular to the facet. Then, for a matt white surface, some random numbers choose a direction that is below the shading normal (while above the facet), and whatever
positive light arrives from there counts as *negative* light. -/
theorem C93_violation_tilted_normal (self : RefTrace) (light : Spectrum ℝ) (hl : 0 < light.c0 ∧ 0 < light.c1 ∧ 0 < light.c2) (hself : ∀ rng ray, ∃ rng', self rng ray = .ok ((light, 0), rng'))
    (arriving : TRay) (roughness : ℝ) (hn : Norm arriving.interaction.shading.normal = 1) (htilt : Dot arriving.interaction.shading.dpdv arriving.interaction.shading.normal ≠ 0) :
    ∃ rng : Rng, rng.Valid ∧ ∀ fuel, ∃ v rng', refAmbient self (.plastic (Spectrum.gray 1) 0 roughness) arriving (fuel + 2) 1 rng = .ok (v, rng') ∧ v.c0 < 0 ∧ v.c1 < 0 ∧ v.c2 < 0 := by
  set n := arriving.interaction.shading.normal with hndef
  set e := arriving.interaction.shading.dpdv with hedef
  set a := Dot e n with ha
  have ha2 : 0 < a ^ 2 := by positivity
  set x1 : ℝ := 1 / (1 + a ^ 2 / 2) with hx1
  have hx1p : 0 < x1 := by positivity
  have hx1l : x1 < 1 := by rw [hx1, div_lt_one (by positivity)]; linarith
  set x2 : ℝ := if a < 0 then 0 else 1 / 2 with hx2
  have hx2r : 0 ≤ x2 ∧ x2 < 1 := by rw [hx2]; split_ifs <;> norm_num
  set rng : Rng := fun k => if k = 0 then 0 else if k = 1 then x1 else if k = 2 then x2 else 0 with hrng
  refine ⟨rng, ?_, fun fuel => ?_⟩
  · intro k
    simp only [hrng]
    split_ifs
    · norm_num
    · exact ⟨hx1p.le, hx1l⟩
    · exact hx2r
    · norm_num
  set s : ℝ := Real.sqrt x1 * Real.cos (2 * Real.pi * x2) with hs
  set z : ℝ := Real.sqrt (1 - x1) with hz
  have hsin : Real.sin (2 * Real.pi * x2) = 0 := by
    rw [hx2]
    split_ifs
    · simp
    · rw [show 2 * Real.pi * (1 / 2) = Real.pi by ring, Real.sin_pi]
  have hsa : s * a = -(Real.sqrt x1 * |a|) := by
    rw [hs, hx2]
    split_ifs with h
    · rw [abs_of_neg h]; simp
    · rw [abs_of_nonneg (not_lt.1 h), show 2 * Real.pi * (1 / 2) = Real.pi by ring, Real.cos_pi]; ring
  have hs2 : s * s = x1 := by
    have : Real.cos (2 * Real.pi * x2) ^ 2 = 1 := by nlinarith [Real.sin_sq_add_cos_sq (2 * Real.pi * x2)]
    calc s * s = Real.sqrt x1 ^ 2 * Real.cos (2 * Real.pi * x2) ^ 2 := by rw [hs]; ring
      _ = x1 := by rw [this, Real.sq_sqrt hx1p.le, mul_one]
  have hlocal : (sampleCosineHemisphere fun k => rng (k + 1)) = (⟨0, s, z⟩, fun k => rng (k + 3)) := by
    have e1 : rng (0 + 1) = x1 := by simp [hrng]
    have e2 : rng (1 + 1) = x2 := by simp [hrng]
    simp only [sampleCosineHemisphere, uniformSampleHorizontalDisc, Rng.gen2, e1, e2, hsin, one_mul, mul_zero, zero_add]
    rw [← hs, hs2]
    have : clampR x1 0 1 = x1 := by
      unfold clampR
      rw [min_eq_right hx1l.le, max_eq_right hx1p.le]
    rw [this]
  set raw : Vec3 ℝ := localToWorld arriving.interaction.shading.dpdu e n 0 0 s z with hraw
  have hdot : n.dot raw = s * a + z := by
    have h1 : Dot n n = 1 := Dot_self_of_norm hn
    have h2 : n.dot raw = s * Dot e n + z * Dot n n := by
      simp only [hraw, localToWorld, Vec3.dot, Dot, Vec3.zero_x, Vec3.zero_y, Vec3.zero_z]
      ring
    rw [h2, h1, mul_one]
  have hneg : n.dot raw < 0 := by
    rw [hdot, hsa]
    have : z < Real.sqrt x1 * |a| := by
      rw [hz, ← Real.sqrt_sq_eq_abs, ← Real.sqrt_mul hx1p.le]
      refine Real.sqrt_lt_sqrt (by linarith) ?_
      have : x1 * (1 + a ^ 2 / 2) = 1 := by rw [hx1]; field_simp
      nlinarith
    linarith
  have hpos : 0 < Dot raw raw := by
    by_contra h
    have h1 : Dot raw raw = 0 := le_antisymm (not_lt.1 h) (by unfold Dot; nlinarith [sq_nonneg raw.x, sq_nonneg raw.y, sq_nonneg raw.z])
    have hx : raw.x = 0 ∧ raw.y = 0 ∧ raw.z = 0 := by
      unfold Dot at h1
      refine ⟨?_, ?_, ?_⟩ <;> nlinarith [sq_nonneg raw.x, sq_nonneg raw.y, sq_nonneg raw.z]
    rw [Vec3.dot, hx.1, hx.2.1, hx.2.2] at hneg
    simp at hneg
  set d := raw.normalized with hd
  have hlen : 0 < raw.length := by
    unfold Vec3.length
    exact Real.sqrt_pos.2 hpos
  have hcos : n.dot d < 0 := by
    have : n.dot d = n.dot raw * (1 / raw.length) := by
      simp only [hd, Vec3.normalized, Vec3.scale, Vec3.dot]
      ring
    rw [this]
    exact mul_neg_of_neg_of_pos hneg (by positivity)
  obtain ⟨rng', e'⟩ := hself (fun k => rng (k + 3)) { arriving with geometry := ⟨arriving.interaction.point + n.scale (1 / 10 ^ 5), d⟩, depth := arriving.depth + 1, value := arriving.value * ((plasticBsdf (Spectrum.gray 1) 0 ((1 - 0) / Real.pi)).radiance * |n.dot d| / (n.dot d / Real.pi)) }
  refine ⟨((light * plasticBsdf (Spectrum.gray 1) 0 ((1 - 0) / Real.pi)).scale |n.dot d|).divBy (n.dot d / Real.pi) + Spectrum.black, rng', ?_, ?_⟩
  · have hr0 : rng 0 = 0 := by simp [hrng]
    simp only [refAmbient, Material.sampleBsdf, sampleWard, Rng.gen, hr0, lt_irrefl, if_false, hlocal, Res.bind_ok]
    rw [← hraw, ← hd, e']
    simp
    rfl
  · have hp := Real.pi_pos
    have hab : 0 < |n.dot d| := abs_pos.2 hcos.ne
    have hq : n.dot d / Real.pi < 0 := div_neg_of_neg_of_pos hcos hp
    simp only [plasticBsdf, Spectrum.gray, Spectrum.black, Spectrum.scale, Spectrum.divBy, Spectrum.add_c0, Spectrum.add_c1, Spectrum.add_c2, Spectrum.mul_c0, Spectrum.mul_c1, Spectrum.mul_c2, add_zero, zero_add, sub_zero, one_mul]
    exact ⟨div_neg_of_pos_of_neg (by have := hl.1; positivity) hq, div_neg_of_pos_of_neg (by have := hl.2.1; positivity) hq, div_neg_of_pos_of_neg (by have := hl.2.2; positivity) hq⟩

/-- C93: a shading normal tilted against its facet, and an environment that sends light from everywhere. -/
example : ∃ (arriving : TRay) (rng : Rng) (v : Spectrum ℝ) (rng' : Rng), rng.Valid ∧
    refAmbient (fun rng _ => .ok ((Spectrum.gray 1, 0), rng)) (.plastic (Spectrum.gray 1) 0 0) arriving 2 1 rng = .ok (v, rng') ∧ v.c0 < 0 := by
  let arriving : TRay := { landed with interaction := { landed.interaction with shading := { landed.interaction.shading with normal := ⟨0, 3 / 5, 4 / 5⟩ } } }
  obtain ⟨rng, hr, h⟩ := C93_violation_tilted_normal (fun rng _ => .ok ((Spectrum.gray 1, 0), rng)) (Spectrum.gray 1) (by norm_num [Spectrum.gray]) (fun rng _ => ⟨rng, rfl⟩) arriving 0
    (Norm_eq_one (by norm_num [Dot, arriving])) (by norm_num [Dot, arriving, landed])
  obtain ⟨v, rng', e, h0, _⟩ := h 0
  exact ⟨arriving, rng, v, rng', hr, e, h0⟩

end Rendering
