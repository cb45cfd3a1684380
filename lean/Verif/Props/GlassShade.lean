import Verif.Spec.GlassShade
import Verif.Props.Glazed
import Verif.Props.GlazedExample
import Verif.Props.Substances

/-!
# Sunlight and panes of glass
-/

set_option linter.unusedSectionVars false
namespace Rendering

open MeasureTheory Set

variable {w : World} {s : Scene ℝ}

theorem black_mul' (a : Spectrum ℝ) : (Spectrum.black : Spectrum ℝ) * a = Spectrum.black := by ext <;> simp [Spectrum.black, Spectrum.gray]

theorem black_plus_black : (Spectrum.black : Spectrum ℝ) + Spectrum.black = Spectrum.black := by ext <;> simp [Spectrum.black, Spectrum.gray]

/-! ### Random numbers stay valid -/

theorem ite_either {A : Type} {p : Prop} {_ : Decidable p} {P : Prop} {a b x : Res A} (h : (if p then a else b) = x) (h1 : a = x → P) (h2 : b = x → P) : P := by
  by_cases hp : p
  · rw [if_pos hp] at h; exact h1 h
  · rw [if_neg hp] at h; exact h2 h

theorem ite_cases {A : Type} {p : Prop} {_ : Decidable p} {P : Prop} {a b x : Res A} (h : (if p then a else b) = x) (h1 : p → a = x → P) (h2 : ¬ p → b = x → P) : P := by
  by_cases hp : p
  · rw [if_pos hp] at h; exact h1 hp h
  · rw [if_neg hp] at h; exact h2 hp h

theorem wardLoop_valid (normal e1 e2 : Vec3 ℝ) (sp a b : ℝ) (ray : TRay) (fuel : Nat) : ∀ (rng : Rng) x, rng.Valid → wardLoop normal e1 e2 sp a b ray fuel rng = .ok x → x.2.2.Valid ∧ Norm x.2.1.geometry.direction = 1 := by
  induction fuel with
  | zero => intro rng x _ h; cases h
  | succ fuel ih =>
    intro rng x hv h
    unfold wardLoop at h
    simp only [Rng.gen2] at h
    refine ite_either h (fun h => ite_cases h (fun _ h => by cases h) fun hne h => ?_) fun h => ih _ x (hv.rest 2) h
    rw [← Res.ok.inj h]
    refine ⟨hv.rest 2, normalized_unit ?_⟩
    set raw := wardHalf normal e1 e2 (ray.geometry.direction.scale (-1)) a b (rng 0) (rng 1)
    rw [not_or] at hne
    have h0 : 0 ≤ Dot raw raw := by simp only [Dot]; nlinarith [mul_self_nonneg raw.x, mul_self_nonneg raw.y, mul_self_nonneg raw.z]
    refine lt_of_le_of_ne h0 fun e => hne.2 ?_
    simp only [Dot] at e
    ext <;> simp <;> nlinarith [mul_self_nonneg raw.x, mul_self_nonneg raw.y, mul_self_nonneg raw.z]

theorem sampleBsdf_valid (fuel : Nat) (m : Material ℝ) (normal e1 e2 pt : Vec3 ℝ) (hf : Frame e1 e2 normal) (ray : TRay) (rng : Rng) (hv : rng.Valid) (x : (Spectrum ℝ × ℝ) × TRay × Rng) (h : m.sampleBsdf fuel normal e1 e2 pt ray rng = .ok x) :
    x.2.2.Valid ∧ Norm x.2.1.geometry.direction = 1 := by
  have ward : ∀ sp r y, sampleWard fuel normal e1 e2 pt sp r r ray rng = .ok y → y.2.2.Valid ∧ Norm y.2.1.geometry.direction = 1 := by
    intro sp r y hy
    by_cases hs : rng 0 < sp
    · unfold sampleWard at hy
      simp only [Rng.gen, hs, if_true] at hy
      exact wardLoop_valid _ _ _ _ _ _ _ _ _ y (hv.rest 1) hy
    · have hy' := hy
      unfold sampleWard at hy'
      simp only [Rng.gen, hs, if_false, sampleCosineHemisphere, uniformSampleHorizontalDisc, Rng.gen2] at hy'
      refine ⟨by rw [← Res.ok.inj hy']; exact fun n => hv (n + 2 + 1), ?_⟩
      obtain ⟨rng', z, _, _, e⟩ := sampleWard_matt fuel sp r normal e1 e2 pt hf ray rng hv (not_lt.1 hs)
      rw [e] at hy
      rw [← Res.ok.inj hy]
      obtain ⟨g1, _, _⟩ := C55_cosine_hemisphere (fun k => rng (k + 1)) (fun k => hv (k + 1))
      have := Dot_self_of_norm g1
      simp only [Dot] at this
      have h1 := (world_unit hf (x := (sampleCosineHemisphere fun k => rng (k + 1)).1.x) (y := (sampleCosineHemisphere fun k => rng (k + 1)).1.y) (z := (sampleCosineHemisphere fun k => rng (k + 1)).1.z) (by nlinarith)).1
      rw [world_eq] at h1
      exact h1
  cases m with
  | plastic c sp r =>
    obtain ⟨y, h1, h2⟩ := Res.bind_eq_ok h
    cases h2
    exact ward _ _ y h1
  | metal c sp r =>
    obtain ⟨y, h1, h2⟩ := Res.bind_eq_ok h
    cases h2
    exact ward _ _ y h1
  | light c => cases h
  | mirror c => cases h
  | dielectric c n => cases h
  | glass c n => cases h

/-! ### In the shade no light of the suns arrives -/

/-- Shadow rays to a sun behind something bring nothing, whatever the material of the surface, and whatever that something is made of. -/
theorem shade_loop (hR : w.Renders s) (hext : w.ext.PerpSpec) {sun : Object ℝ} {direction : Vec3 ℝ} {angle : ℝ} {L : Spectrum ℝ} {D : ℝ} (hS : w.IsSun s sun direction angle L D) (pt : Vec3 ℝ)
    (hsh : ∀ v, Norm v = 1 → Real.cos (angle / 2) < Dot v direction.normalized → ∃ tri ∈ s.triangles, ∃ d2, VisibleHit ⟨pt, v⟩ tri d2 ∧ Blocking d2 D) (m : Material ℝ) (ray : TRay) (n : Nat) (normal e1 e2 : Vec3 ℝ) (fuel : Nat) :
    ∀ (i : Nat) (acc : Spectrum ℝ) (rng : Rng) x, rng.Valid → w.lightLoop m ray n pt normal e1 e2 sun fuel i acc rng = .ok x → x.1 = acc ∧ x.2.Valid := by
  obtain ⟨f1, f2, hf, hdir⟩ := source_sample w.ext hext direction angle hS.direction_ne
  induction fuel with
  | zero => intro i acc rng x _ h; cases h
  | succ fuel ih =>
    intro i acc rng x hv h
    unfold World.lightLoop at h
    split_ifs at h
    · rw [hS.primitive, hdir, Res.bind_ok] at h
      have hu := towards_unit hf (Real.tan (angle / 2)) (rng 0, rng 1)
      have hcap := towards_in_cap hf (angle / 2) (by linarith [hS.angle_pos]) (by linarith [hS.angle_lt]) (rng 0, rng 1) ⟨hv 0, hv 1⟩
      rcases intersect_sun hR hS pt _ hu hcap with ⟨e, _⟩ | ⟨_, hsee⟩
      · simp only [e, Res.bind_ok] at h
        rw [if_pos (by norm_num)] at h
        exact ih _ acc _ x (hv.rest 2) h
      · obtain ⟨tri, ht, d2, h1, h2⟩ := hsh _ hu hcap
        exact absurd h2 (hsee tri ht d2 h1)
    · cases h; exact ⟨rfl, hv⟩

theorem shade_loops (hR : w.Renders s) (hext : w.ext.PerpSpec) (pt : Vec3 ℝ) (m : Material ℝ) (ray : TRay) (n : Nat) (normal e1 e2 : Vec3 ℝ) (fuel : Nat) (suns : List (Object ℝ))
    (hsuns : ∀ sun ∈ suns, ∃ direction angle L D, w.IsSun s sun direction angle L D ∧ ∀ v, Norm v = 1 → Real.cos (angle / 2) < Dot v direction.normalized → ∃ tri ∈ s.triangles, ∃ d2, VisibleHit ⟨pt, v⟩ tri d2 ∧ Blocking d2 D) :
    ∀ (acc : Spectrum ℝ) (rng : Rng) x, rng.Valid → w.lightsLoop fuel m ray n pt normal e1 e2 suns acc rng = .ok x → x.1 = acc ∧ x.2.Valid := by
  induction suns with
  | nil => intro acc rng x hv h; cases h; exact ⟨rfl, hv⟩
  | cons sun rest ih =>
    intro acc rng x hv h
    unfold World.lightsLoop at h
    obtain ⟨y, h1, h2⟩ := Res.bind_eq_ok h
    obtain ⟨direction, angle, L, D, hS, hsh⟩ := hsuns sun (List.mem_cons_self ..)
    obtain ⟨e, hv'⟩ := shade_loop hR hext hS pt hsh m ray n normal e1 e2 fuel 0 acc rng y hv h1
    have := ih (fun x hx => hsuns x (List.mem_cons_of_mem _ hx)) y.1 y.2 x hv' h2
    rw [e] at this
    exact this

/-- **C124.** A surface in the shade shows no sunlight, whatever throws the shade. -/
theorem C124_shade (hW : w.Sunlit s) (arrived : TRay) (hsh : w.InShade s arrived) (m : Material ℝ) (n fuel : Nat) (rng : Rng) (hv : rng.Valid) (light : Spectrum ℝ) (rng' : Rng)
    (h : w.localIllumination fuel m arrived rng n = .ok (light, rng')) : light = Spectrum.black ∧ rng'.Valid := by
  unfold World.localIllumination at h
  rw [hW.renders.same.2.1, hW.lamps, hW.renders.same.2.2] at h
  simp only [World.sampleLightArray, TRay.getTriad, World.lightsLoop, Res.bind_ok] at h
  obtain ⟨x, h1, h2⟩ := Res.bind_eq_ok h
  cases h2
  have := shade_loops hW.renders hW.perp _ m arrived n _ _ _ fuel s.distantLights (fun sun hs => by
    obtain ⟨d, a, L, D, h1, _⟩ := hW.suns sun hs
    exact ⟨d, a, L, D, h1, hsh sun hs d a L D h1⟩) Spectrum.black rng x hv h1
  exact ⟨by rw [this.1, black_plus_black], this.2⟩

/-! ### A scene in the shade is black -/

/-- Whatever comes back is black. -/
def Dark (t : RefTrace) : Prop := ∀ (rng : Rng) (ray : TRay) x, rng.Valid → Norm ray.geometry.direction = 1 → 0 < ray.refractionIndex → t rng ray = .ok x → x.1.1 = Spectrum.black ∧ x.2.Valid

theorem Dark.specular {t : RefTrace} (ht : Dark t) (csb : ℝ) (paths : List (TRay × Spectrum ℝ)) (hpaths : ∀ p ∈ paths, Norm p.1.geometry.direction = 1 ∧ 0 < p.1.refractionIndex) :
    ∀ (rng : Rng) x, rng.Valid → refSpecular t csb paths rng = .ok x → x.1 = Spectrum.black ∧ x.2.Valid := by
  induction paths with
  | nil => intro rng x hv h; cases h; exact ⟨rfl, hv⟩
  | cons p rest ih =>
    intro rng x hv h
    unfold refSpecular at h
    obtain ⟨y, h1, h2⟩ := Res.bind_eq_ok h
    obtain ⟨hu, hi⟩ := hpaths p (List.mem_cons_self ..)
    obtain ⟨e1, hv1⟩ := ht _ _ y (hv.rest 1) (by split_ifs <;> exact hu) (by split_ifs <;> exact hi) h1
    obtain ⟨z, h3, h4⟩ := Res.bind_eq_ok h2
    obtain ⟨e2, hv2⟩ := ih (fun q hq => hpaths q (List.mem_cons_of_mem _ hq)) _ z hv1 h3
    cases h4
    exact ⟨by rw [e1, e2, black_mul', black_plus_black], hv2⟩

theorem Dark.ambient {t : RefTrace} (ht : Dark t) (m : Material ℝ) (arriving : TRay) (hf : Frame arriving.interaction.shading.dpdu arriving.interaction.shading.dpdv arriving.interaction.shading.normal) (hi : 0 < arriving.refractionIndex) (fuel : Nat) :
    ∀ (n : Nat) (rng : Rng) x, rng.Valid → refAmbient t m arriving fuel n rng = .ok x → x.1 = Spectrum.black ∧ x.2.Valid := by
  induction fuel with
  | zero => intro n rng x _ h; cases n <;> cases h
  | succ fuel ih =>
    intro n rng x hv h
    cases n with
    | zero => cases h; exact ⟨rfl, hv⟩
    | succ n =>
      unfold refAmbient at h
      obtain ⟨y, h1, h2⟩ := Res.bind_eq_ok h
      obtain ⟨hv1, hu1⟩ := sampleBsdf_valid _ _ _ _ _ _ hf _ _ hv y h1
      obtain ⟨z, h3, h4⟩ := Res.bind_eq_ok h2
      obtain ⟨e1, hv2⟩ := ht _ _ z hv1 (by exact hu1) (by exact hi) h3
      obtain ⟨⟨zl, zp⟩, zr⟩ := z
      simp only at h4 e1 hv2
      split_ifs at h4
      · exact ih _ _ x hv2 h4
      · obtain ⟨u, h5, h6⟩ := Res.bind_eq_ok h4
        obtain ⟨e2, hv3⟩ := ih _ _ u hv2 h5
        cases h6
        refine ⟨?_, hv3⟩
        simp only [e1, e2, black_mul', Spectrum.black_scale, black_divBy, black_plus_black]

theorem samples_keep (ray : TRay) (a d : Nat) (l : ℝ) (rng : Rng) (hv : rng.Valid) :
    (ray.getNAmbientSamples a d l rng).2.1.interaction = ray.interaction ∧ (ray.getNAmbientSamples a d l rng).2.1.refractionIndex = ray.refractionIndex ∧ (ray.getNAmbientSamples a d l rng).2.2.Valid := by
  unfold TRay.getNAmbientSamples
  split_ifs
  · exact ⟨rfl, rfl, hv⟩
  · exact ⟨rfl, rfl, hv⟩
  · have h1 : (rng.gen).2.Valid := hv.rest 1
    dsimp only
    split
    · exact ⟨rfl, rfl, h1⟩
    · exact ⟨rfl, rfl, h1⟩

theorem shade_dark (hW : w.Sunlit s) (hno : s.NoLamps)
    (hsh : ∀ (ray : TRay) i arrived m, Norm ray.geometry.direction = 1 → w.cast ray = .ok (some (i, arrived)) → w.materialAt arrived.interaction.shading.side i = .ok m → m.specularOnly = false → w.InShade s arrived) (rt : RayTracer) (fuel : Nat) :
    Dark (refTrace w rt fuel) := by
  obtain ⟨code, -, hall⟩ := disc_flat hW
  induction fuel with
  | zero => intro rng ray x _ _ _ h; cases h
  | succ fuel ih =>
    intro rng ray x hv hu hη h
    unfold refTrace at h
    rcases hall ray hu with ⟨_, hc⟩ | ⟨i, bk, tri, m, it, _, hS, hc, ha⟩
    · simp only [hc, Res.bind_ok, hW.sky] at h
      cases h
      exact ⟨rfl, hv⟩
    simp only [hc, Res.bind_ok] at h
    have hm : w.materialAt it.shading.side i = .ok m := by rw [ha.side]; exact hS.material
    have hside : it.shading.side ≠ .NonApplicable := by rw [ha.side]; unfold sideOf; split <;> simp
    obtain ⟨k, hk, hmem⟩ := hS.listed
    obtain ⟨hl, hPh⟩ := hno k m hk hmem
    simp only [hside, if_false, hm, Res.bind_ok, refSurface, hl, Bool.false_eq_true, hS.normals, Res.ofOption_some, ha.interp] at h
    by_cases h1 : ray.depth > rt.maxDepth
    · rw [if_pos h1] at h; cases h; exact ⟨rfl, hv⟩
    rw [if_neg h1] at h
    by_cases h2 : m.specularOnly = true
    · rw [if_pos h2] at h
      obtain ⟨p, hp, h⟩ := Res.bind_eq_ok h
      obtain ⟨y, hy, h⟩ := Res.bind_eq_ok h
      cases h
      refine ih.specular _ _ ?_ rng y hv hy
      have := offered_unit hS h2 hPh hη ha hu
      unfold offered at this
      simp only [hp] at this
      exact this
    · rw [if_neg h2] at h
      have hk := samples_keep { ray with interaction := it } rt.nAmbientSamples rt.maxDepth rt.limitWeight rng hv
      generalize TRay.getNAmbientSamples { ray with interaction := it } rt.nAmbientSamples rt.maxDepth rt.limitWeight rng = q at hk h
      obtain ⟨n, ray', rng'⟩ := q
      simp only at hk h
      obtain ⟨⟨direct, rng1⟩, hd, h⟩ := Res.bind_eq_ok h
      have hin := hsh ray i _ m hu hc hm (by simpa using h2)
      have hin' : w.InShade s ray' := by
        unfold World.InShade at hin ⊢
        rw [hk.1]
        exact hin
      obtain ⟨e1, hv1⟩ := C124_shade hW ray' hin' m _ _ rng' hk.2.2 direct rng1 hd
      simp only at h
      split_ifs at h
      · cases h
        exact ⟨by rw [e1, black_plus_black], hv1⟩
      · obtain ⟨y, hy, h⟩ := Res.bind_eq_ok h
        have hf : Frame ray'.interaction.shading.dpdu ray'.interaction.shading.dpdv ray'.interaction.shading.normal := by
          rw [hk.1, ha.dpdu, ha.dpdv, ha.normal]; exact hS.frame
        obtain ⟨e2, hv2⟩ := ih.ambient _ _ hf (by rw [hk.2.1]; exact hη) _ _ rng1 y hv1 hy
        cases h
        exact ⟨by simp only [e1, e2, black_divBy, black_plus_black], hv2⟩

/-- **C124.** Where panes of glass (or anything else) are between the suns and all matt and glossy surfaces, no ray brings back any light, whatever the settings and random numbers: nothing finds its way through the glass. -/
theorem C124_all_in_shade (hW : w.Sunlit s) (hno : s.NoLamps)
    (hsh : ∀ (ray : TRay) i arrived m, Norm ray.geometry.direction = 1 → w.cast ray = .ok (some (i, arrived)) → w.materialAt arrived.interaction.shading.side i = .ok m → m.specularOnly = false → w.InShade s arrived) (rt : RayTracer) (fuel : Nat)
    (rng : Rng) (hv : rng.Valid) (rays : List TRay) (hlen : rt.maxDepth < rays.length) (ray : TRay) (hu : Norm ray.geometry.direction = 1) (hindex : 0 < ray.refractionIndex) (light : Spectrum ℝ) (pdf : ℝ) (ray' : TRay) (st' : TState)
    (h : traceRay w rt fuel ⟨rng, rays⟩ ray = .ok ((light, pdf), ray', st')) : light = Spectrum.black := by
  have hc := C75_is_reference_tracer w rt fuel rng rays ray hlen
  rw [h] at hc
  exact (shade_dark hW hno hsh rt fuel rng ray _ hv hu hindex hc.symm).1

/-! ### Shade does not depend on what throws it -/

theorem repainted_intersect (ms : List (Material ℝ)) (o : Object ℝ) (ho : ms[o.front]? = w.scene.materials[o.front]? ∧ ms[o.back]? = w.scene.materials[o.back]?) (g : Ray3 ℝ) : (w.repainted ms).intersectLight o g = w.intersectLight o g := by
  unfold World.intersectLight World.repainted
  simp only [ho.1, ho.2]
  rfl

theorem repainted_loop (ms : List (Material ℝ)) (o : Object ℝ) (ho : ms[o.front]? = w.scene.materials[o.front]? ∧ ms[o.back]? = w.scene.materials[o.back]?) (m : Material ℝ) (ray : TRay) (n : Nat) (pt normal e1 e2 : Vec3 ℝ) (fuel : Nat) :
    ∀ (i : Nat) (acc : Spectrum ℝ) (rng : Rng), (w.repainted ms).lightLoop m ray n pt normal e1 e2 o fuel i acc rng = w.lightLoop m ray n pt normal e1 e2 o fuel i acc rng := by
  induction fuel with
  | zero => intros; rfl
  | succ fuel ih =>
    intro i acc rng
    unfold World.lightLoop
    simp only [repainted_intersect ms o ho, ih]
    rfl

theorem repainted_loops (ms : List (Material ℝ)) (m : Material ℝ) (ray : TRay) (n : Nat) (pt normal e1 e2 : Vec3 ℝ) (fuel : Nat) (os : List (Object ℝ)) (hos : ∀ o ∈ os, ms[o.front]? = w.scene.materials[o.front]? ∧ ms[o.back]? = w.scene.materials[o.back]?) :
    ∀ (acc : Spectrum ℝ) (rng : Rng), (w.repainted ms).lightsLoop fuel m ray n pt normal e1 e2 os acc rng = w.lightsLoop fuel m ray n pt normal e1 e2 os acc rng := by
  induction os with
  | nil => intros; rfl
  | cons o rest ih =>
    intro acc rng
    unfold World.lightsLoop
    simp only [repainted_loop ms o (hos o (List.mem_cons_self ..)), ih fun x hx => hos x (List.mem_cons_of_mem _ hx)]

/-- **C124.** The light of suns and lamps that reaches a surface does not depend on the materials of the other surfaces: glass throws the same shade as a wall. -/
theorem C124_glass_is_a_wall (materials : List (Material ℝ)) (hlights : ∀ o ∈ w.scene.lights ++ w.scene.distantLights, materials[o.front]? = w.scene.materials[o.front]? ∧ materials[o.back]? = w.scene.materials[o.back]?) (m : Material ℝ)
    (arrived : TRay) (n fuel : Nat) (rng : Rng) : (w.repainted materials).localIllumination fuel m arrived rng n = w.localIllumination fuel m arrived rng n := by
  have e1 : (w.repainted materials).scene.lights = w.scene.lights := rfl
  have e2 : (w.repainted materials).scene.distantLights = w.scene.distantLights := rfl
  unfold World.localIllumination World.sampleLightArray
  simp only [e1, e2, repainted_loops materials _ _ _ _ _ _ _ _ w.scene.lights fun o ho => hlights o (List.mem_append_left _ ho), repainted_loops materials _ _ _ _ _ _ _ _ w.scene.distantLights fun o ho => hlights o (List.mem_append_right _ ho)]

/-! ### A floor under a roof of glass -/

/-- The roof. -/
def roof : Tri ℝ := ⟨⟨-5, -5, 1⟩, ⟨10, -5, 1⟩, ⟨-5, 10, 1⟩⟩

theorem roof_normal : (geometricNormal roof).normalized = ⟨0, 0, 1⟩ := by
  have e : geometricNormal roof = ⟨0, 0, 225⟩ := by
    unfold geometricNormal Cross roof
    ext <;> norm_num
  rw [e, normalized_eq]
  have : Norm (⟨0, 0, 225⟩ : Vec3 ℝ) = 225 := by
    unfold Norm
    simp
  rw [this]
  ext <;> norm_num [Vec3.scale]

/-- A matt floor, a pane of glass above it, and the sun above that. -/
noncomputable def greenhouse (colour : Spectrum ℝ) (index : ℝ) : Scene ℝ :=
  { triangles := [plane 0, roof], normals := [(⟨0, 0, 1⟩, ⟨0, 0, 1⟩, ⟨0, 0, 1⟩), (⟨0, 0, 1⟩, ⟨0, 0, 1⟩, ⟨0, 0, 1⟩)], front := [0, 2], back := [0, 2], materials := [.plastic (Spectrum.gray (1 / 2)) 0 0, .light (Spectrum.gray 5), .glass colour index],
    distantLights := [{ front := 1, back := 1, primitive := .source ⟨0, 0, 1⟩ (1 / 100) }] }

/-- A sun that is far away, for the scene `s`. -/
theorem far_sun (s : Scene ℝ) (hs : s.materials[1]? = some (.light (Spectrum.gray 5))) (ext : GeoExt) (env : SceneEnv ℝ) (sc : Scene ℝ) (dt : DirTests) :
    World.IsSun ⟨sc, env, ⟨ext.perp, fun _ r => some ⟨r.origin + r.direction.scale 1000, ⟨0, 0, 1⟩, ⟨1, 0, 0⟩, ⟨0, 1, 0⟩, .Front, 0, 0⟩⟩, dt, none, none⟩ s { front := 1, back := 1, primitive := .source ⟨0, 0, 1⟩ (1 / 100) } ⟨0, 0, 1⟩ (1 / 100) (Spectrum.gray 5) 1000000 := by
  refine ⟨rfl, by simp [Dot], by norm_num, by linarith [Real.two_le_pi], fun pt v hv _ => ⟨_, rfl, ?_, ?_⟩⟩
  · have := Dot_self_of_norm hv
    simp only [Dot] at this
    simp only [distSq, Vec3.add_x, Vec3.add_y, Vec3.add_z, Vec3.scale_x, Vec3.scale_y, Vec3.scale_z]
    linear_combination 1000000 * this
  · simp [lightColour, hs, Material.colour]

theorem greenhouse_world (colour : Spectrum ℝ) (index : ℝ) : ∃ w : World, w.Sunlit (greenhouse colour index) ∧ ∀ pt : Vec3 ℝ, ∀ v : Vec3 ℝ, ∃ info, w.ext.primIntersect (.source ⟨0, 0, 1⟩ (1 / 100)) ⟨pt, v⟩ = some info ∧ info.p = pt + v.scale 1000 := by
  obtain ⟨ext, hext⟩ := perpSpec_exists
  have hal : (greenhouse colour index).Aligned := ⟨rfl, rfl, rfl⟩
  obtain ⟨s1, bvh, e, _⟩ := rebuild_spec realEnv refEnv_lawful (greenhouse colour index) hal
  let dt : DirTests := ⟨fun _ _ => false, fun _ _ => false⟩
  let ext' : GeoExt := ⟨ext.perp, fun _ r => some ⟨r.origin + r.direction.scale 1000, ⟨0, 0, 1⟩, ⟨1, 0, 0⟩, ⟨0, 1, 0⟩, .Front, 0, 0⟩⟩
  let w : World := ⟨s1, realEnv, ext', dt, none, none⟩
  have hR : w.Renders (greenhouse colour index) := ⟨refEnv_lawful, refEnv_conservative, hal, fits_of_small _ (by simp [greenhouse]), Or.inr e⟩
  have hS := far_sun (greenhouse colour index) rfl ext realEnv s1 dt
  refine ⟨w, ⟨hR, ⟨by simp [greenhouse], by simp [greenhouse], by simp [greenhouse], by simp [greenhouse]⟩, hext, realEnv_measurable, ?_, rfl, rfl, ?_⟩, fun pt v => ⟨_, rfl, rfl⟩⟩
  · intro j tri hj
    match j with
    | 0 =>
      simp only [greenhouse, List.getElem?_cons_zero, Option.some.injEq] at hj
      subst hj
      rw [show (geometricNormal (plane 0)).normalized = ⟨0, 0, 1⟩ from plane_normal 0]
      rfl
    | 1 =>
      simp only [greenhouse, List.getElem?_cons_succ, List.getElem?_cons_zero, Option.some.injEq] at hj
      subst hj
      rw [roof_normal]
      rfl
    | j + 2 => simp [greenhouse] at hj
  · intro sun hs
    simp only [greenhouse, List.mem_singleton] at hs
    subst hs
    exact ⟨_, _, _, _, hS, by norm_num [Spectrum.Nonneg, Spectrum.gray]⟩

/-- From anywhere close to the floor, the roof is in front of the sun. -/
theorem roof_hides (pt v : Vec3 ℝ) (hx : -2 ≤ pt.x ∧ pt.x ≤ 3) (hy : -2 ≤ pt.y ∧ pt.y ≤ 3) (hxy : pt.x + pt.y ≤ 2) (hz : |pt.z| ≤ 1 / 1000) (hu : Norm v = 1) (hc : 9 / 10 < v.z) : ∃ d2, VisibleHit ⟨pt, v⟩ roof d2 ∧ Blocking d2 1000000 := by
  have hd := Dot_self_of_norm hu
  simp only [Dot] at hd
  obtain ⟨hz1, hz2⟩ := abs_le.1 hz
  have hv0 : 0 < v.z := by linarith
  have hv1 : v.z ≤ 1 := by nlinarith [mul_self_nonneg v.x, mul_self_nonneg v.y]
  have hvx : |v.x| ≤ 1 / 2 := abs_le_of_sq_le_sq (by nlinarith [mul_self_nonneg v.y]) (by norm_num)
  have hvy : |v.y| ≤ 1 / 2 := abs_le_of_sq_le_sq (by nlinarith [mul_self_nonneg v.x]) (by norm_num)
  set t := (1 - pt.z) / v.z with ht
  have htv : t * v.z = 1 - pt.z := by rw [ht]; field_simp
  have ht0 : 0 < t := div_pos (by linarith) hv0
  have ht1 : 9 / 10 < t := by nlinarith
  have ht2 : t ≤ 2 := by nlinarith
  have hax : |t * v.x| ≤ 1 := by rw [abs_mul, abs_of_pos ht0]; nlinarith [abs_nonneg v.x]
  have hay : |t * v.y| ≤ 1 := by rw [abs_mul, abs_of_pos ht0]; nlinarith [abs_nonneg v.y]
  obtain ⟨hx1, hx2⟩ := abs_le.1 hax
  obtain ⟨hy1, hy2⟩ := abs_le.1 hay
  refine ⟨t ^ 2, ⟨t, pt + v.scale t, ⟨rfl, (pt.x + t * v.x + 5) / 15, (pt.y + t * v.y + 5) / 15, by linarith, by linarith, by linarith, ?_⟩, by linarith, ?_, ?_⟩, ?_⟩
  · ext
    · simp [roof]; ring
    · simp [roof]; ring
    · simp [roof]; linarith
  · have : tripleProduct ⟨pt, v⟩ roof = -225 * v.z := by
      simp only [tripleProduct, roof, Vec3.sub_x, Vec3.sub_y, Vec3.sub_z]; ring
    rw [this, abs_mul, abs_of_pos hv0]
    norm_num
    linarith
  · simp only [distSq, Vec3.add_x, Vec3.add_y, Vec3.add_z, Vec3.scale_x, Vec3.scale_y, Vec3.scale_z]
    linear_combination t ^ 2 * hd
  · refine ⟨by nlinarith, by nlinarith, ?_⟩
    rw [abs_of_pos (by nlinarith)]
    nlinarith

theorem steep_sun {v : Vec3 ℝ} (h : Real.cos (1 / 100 / 2) < v.z) : 9 / 10 < v.z := by
  have := Real.one_sub_sq_div_two_le_cos (x := 1 / 100 / 2)
  linarith [show (9 / 10 : ℝ) ≤ 1 - (1 / 100 / 2) ^ 2 / 2 by norm_num]

/-- Every point of the floor is in the shade of the pane. -/
theorem greenhouse_shade {colour : Spectrum ℝ} {index : ℝ} (hR : w.Renders (greenhouse colour index)) (hsun : ∀ pt v : Vec3 ℝ, ∃ info, w.ext.primIntersect (.source ⟨0, 0, 1⟩ (1 / 100)) ⟨pt, v⟩ = some info ∧ info.p = pt + v.scale 1000) (ray : TRay) (i : Nat)
    (arrived : TRay) (m : Material ℝ) (hunit : Norm ray.geometry.direction = 1) (hc : w.cast ray = .ok (some (i, arrived))) (hm : w.materialAt arrived.interaction.shading.side i = .ok m) (hmatt : m.specularOnly = false) : w.InShade (greenhouse colour index) arrived := by
  rcases hR.cast_cases ray with ⟨hc', _⟩ | ⟨i', tri, b, j, hc', hj, hb, _, _, hfr, hbk, _, _⟩
  · rw [hc] at hc'; cases hc'
  rw [hc] at hc'
  obtain ⟨rfl, rfl⟩ := Prod.mk.inj (Option.some.inj (Res.ok.inj hc'))
  obtain ⟨hframe, _, hside, _, _⟩ := recorded_frame tri ray.geometry b hb
  have hj0 : j = 0 := by
    match j with
    | 0 => rfl
    | 1 =>
      exfalso
      unfold World.materialAt at hm
      cases hs : (recordedInteraction tri ray.geometry b).shading.side with
      | NonApplicable => exact hside hs
      | Front =>
        simp only [hs, hfr, hR.same.1] at hm
        rw [← Res.ok.inj hm] at hmatt
        cases hmatt
      | Back =>
        simp only [hs, hbk, hR.same.1] at hm
        rw [← Res.ok.inj hm] at hmatt
        cases hmatt
    | j + 2 => simp [greenhouse] at hj
  subst hj0
  simp only [greenhouse, List.getElem?_cons_zero, Option.some.injEq] at hj
  subst hj
  have hpt := (recorded_spec (plane 0) ray.geometry b hunit hb).1
  obtain ⟨_, _, hp, hu0, _, hv0, huv⟩ := (baricentric_sound _ _ _ hb).1
  have hnn := Dot_self_of_norm hframe.n3
  simp only [Dot] at hnn
  set N := (recordedInteraction (plane 0) ray.geometry b).shading.normal with hN
  have px : b.p.x = -1 + 3 * b.u := by rw [hp]; simp [plane]; ring
  have py : b.p.y = -1 + 3 * b.v := by rw [hp]; simp [plane]; ring
  have pz : b.p.z = 0 := by rw [hp]; simp [plane]
  have hNx : |N.x| ≤ 1 := abs_le_of_sq_le_sq (by nlinarith [mul_self_nonneg N.y, mul_self_nonneg N.z]) (by norm_num)
  have hNy : |N.y| ≤ 1 := abs_le_of_sq_le_sq (by nlinarith [mul_self_nonneg N.x, mul_self_nonneg N.z]) (by norm_num)
  have hNz : |N.z| ≤ 1 := abs_le_of_sq_le_sq (by nlinarith [mul_self_nonneg N.x, mul_self_nonneg N.y]) (by norm_num)
  obtain ⟨x1, x2⟩ := abs_le.1 hNx
  obtain ⟨y1, y2⟩ := abs_le.1 hNy
  have eps : (1 / 2 ^ 52 : ℝ) ≤ 1 / 1000 := by norm_num
  intro sun hs direction angle L D hS v hv hcap
  simp only [greenhouse, List.mem_singleton] at hs
  subst hs
  have hprim := hS.primitive
  simp only [Primitive.source.injEq] at hprim
  obtain ⟨rfl, rfl⟩ := hprim
  have hup : (⟨0, 0, 1⟩ : Vec3 ℝ).normalized = ⟨0, 0, 1⟩ := by
    rw [normalized_eq, show Norm (⟨0, 0, 1⟩ : Vec3 ℝ) = 1 from Norm_eq_one (by simp [Dot])]
    ext <;> simp
  have hD : D = 1000000 := by
    obtain ⟨info, hi, hd, _⟩ := hS.met 0 v hv hcap
    obtain ⟨info', hi', hp'⟩ := hsun 0 v
    simp only at hi
    rw [hi'] at hi
    cases hi
    rw [← hd, hp']
    have := Dot_self_of_norm hv
    simp only [Dot] at this
    simp only [distSq, Vec3.add_x, Vec3.add_y, Vec3.add_z, Vec3.scale_x, Vec3.scale_y, Vec3.scale_z]
    linear_combination 1000000 * this
  subst hD
  rw [hup] at hcap
  simp only [Dot, mul_zero, zero_add, mul_one] at hcap
  obtain ⟨d2, h1, h2⟩ := roof_hides (b.p + N.scale (1 / 1000)) v (by constructor <;> simp [px] <;> linarith) (by constructor <;> simp [py] <;> linarith) (by simp [px, py]; linarith)
    (by simp only [Vec3.add_z, Vec3.scale_z, pz, zero_add, abs_mul]; norm_num; exact hNz) hv (steep_sun hcap)
  refine ⟨roof, by simp [greenhouse], d2, ?_, h2⟩
  simp only [hpt]
  exact h1

theorem greenhouse_glazed {colour : Spectrum ℝ} (hcol : colour.Fraction) {index : ℝ} (hi : 0 < index) (h : w.Sunlit (greenhouse colour index)) : w.SunlitGlazed (greenhouse colour index) := by
  refine ⟨h, fun k m hk hmem => ?_⟩
  simp only [greenhouse, List.cons_append, List.nil_append, List.mem_cons, List.not_mem_nil, or_false] at hmem
  have : k = 0 ∨ k = 2 := by omega
  rcases this with rfl | rfl
  · simp only [greenhouse, List.getElem?_cons_zero, Option.some.injEq] at hk
    exact Or.inl ⟨Spectrum.gray (1 / 2), 0, by simp [← hk], by norm_num [Spectrum.Nonneg, Spectrum.gray]⟩
  · simp only [greenhouse, List.getElem?_cons_succ, List.getElem?_cons_zero, Option.some.injEq] at hk
    subst hk
    exact Or.inr ⟨rfl, hcol, hi⟩

/-- C124 is false of the program: a floor under a pane of the clearest glass (which lets more than nine tenths of the light through, straight on) and the sun is black, whatever the settings and random numbers. The floor is seen, tracing ends,
and the same glass standing beside the floor instead leaves it sunlit. -/
theorem C124_violation_glass_roof : ∃ (colour : Spectrum ℝ) (index : ℝ), (∀ n v : Vec3 ℝ, |Dot n v| = 1 → ∀ ch ∈ channelOf, 9 / 10 < ch (glassReflTrans colour index n v).2) ∧
    (∃ w : World, w.SunlitGlazed (greenhouse colour index) ∧ (∃ i hit, w.cast downRay = .ok (some (i, hit)) ∧ w.materialAt hit.interaction.shading.side i = .ok (.plastic (Spectrum.gray (1 / 2)) 0 0)) ∧
      (∀ rt fuel rng rays ray light pdf ray' st', Rng.Valid rng → rt.maxDepth < rays.length → Norm ray.geometry.direction = 1 → 0 < ray.refractionIndex → traceRay w rt fuel ⟨rng, rays⟩ ray = .ok ((light, pdf), ray', st') → light = Spectrum.black) ∧
      ∀ rng : Rng, rng.Valid → ∃ x, traceRay w ⟨3, 10, 70, 1 / 1000, 1⟩ 100 ⟨rng, defaultRays⟩ downRay = .ok x) ∧
    ∃ w : World, w.Sunlit (courtOf 2 (.glass colour index)) ∧ ∃ i hit, w.cast downRay = .ok (some (i, hit)) ∧ w.materialAt hit.interaction.shading.side i = .ok (.plastic (Spectrum.gray (1 / 2)) 0 0) ∧
      0 < sunlightAt w (.plastic (Spectrum.gray (1 / 2)) 0 0) hit Spectrum.c0 := by
  refine ⟨⟨1, 1, 1⟩, 152 / 100, ?_, ?_, ?_⟩
  · intro n v hv ch hch
    obtain ⟨_, hT⟩ := pane_at_normal 1 (by norm_num) n v hv ch hch
    rw [hT]
    have hf : faceAtNormal = 169 / 3969 := by unfold faceAtNormal; norm_num
    rw [hf]
    norm_num
  · obtain ⟨w, hS, hsun⟩ := greenhouse_world ⟨1, 1, 1⟩ (152 / 100)
    have hW : w.SunlitGlazed (greenhouse ⟨1, 1, 1⟩ (152 / 100)) := greenhouse_glazed (by refine ⟨⟨?_, ?_, ?_⟩, ?_, ?_, ?_⟩ <;> norm_num) (by norm_num) hS
    have hlen : defaultRays.length = 15 := by simp [defaultRays]
    have hu : Norm downRay.geometry.direction = 1 := Norm_eq_one (by norm_num [Dot, downRay])
    refine ⟨w, hW, ?_, ?_, ?_⟩
    · rcases hS.renders.cast_cases downRay with ⟨_, hno⟩ | ⟨i, tri, b, j, hc, hj, hb, _, _, hfr, hbk, _, _⟩
      · exact absurd downRay_inRange (hno (plane 0) (by simp [greenhouse]) _ downRay_visible)
      refine ⟨i, _, hc, ?_⟩
      obtain ⟨_, _, k5, _, _⟩ := recorded_frame tri downRay.geometry b hb
      have hj0 : j = 0 := by
        match j with
        | 0 => rfl
        | 1 =>
          exfalso
          simp only [greenhouse, List.getElem?_cons_succ, List.getElem?_cons_zero, Option.some.injEq] at hj
          subst hj
          obtain ⟨hp, ht, hp2, _⟩ := (baricentric_sound _ _ _ hb).1
          have e1 := congrArg Vec3.z hp
          have e2 := congrArg Vec3.z hp2
          simp [downRay, Vec3.scale] at e1
          simp [roof, Vec3.scale] at e2
          linarith
        | j + 2 => simp [greenhouse] at hj
      subst hj0
      unfold World.materialAt
      cases hside : (recordedInteraction tri downRay.geometry b).shading.side with
      | NonApplicable => exact absurd hside k5
      | Front => simp only [hfr, hS.renders.same.1]; rfl
      | Back => simp only [hbk, hS.renders.same.1]; rfl
    · intro rt fuel rng rays ray light pdf ray' st' hv hl hu' hi' h
      refine C124_all_in_shade hS (fun k m hk hmem => ?_) (greenhouse_shade hS.renders hsun) rt fuel rng hv rays hl ray hu' hi' light pdf ray' st' h
      rcases hW.surfaces k m hk hmem with ⟨col, r, hm, hcol⟩ | ⟨hs, hp⟩
      · simp only [List.mem_cons, List.not_mem_nil, or_false] at hm
        rcases hm with rfl | rfl <;> exact ⟨rfl, hcol, le_rfl, zero_le_one⟩
      · exact ⟨(by cases m <;> first | rfl | cases hs), hp⟩
    · intro rng hv
      obtain ⟨val, rest, _, hg⟩ := glazed_fresh hW ⟨3, 10, 70, 1 / 1000, 1⟩ (by norm_num) Spectrum.c0 (by simp) 5 downRay.depth downRay.value downRay.refractionIndex (by simp [downRay, TRay.default]) (by simp [downRay, TRay.default])
      obtain ⟨light, hl, _⟩ := (hg downRay (counted_ends hS ⟨3, 10, 70, 1 / 1000, 1⟩ le_rfl 4 downRay rfl) rfl rfl rfl hu).2 100 (by norm_num) rng hv
      have hc := C75_is_reference_tracer w ⟨3, 10, 70, 1 / 1000, 1⟩ 100 rng defaultRays downRay (by rw [hlen]; decide)
      rw [hl] at hc
      obtain ⟨x, hx, _⟩ := Res.bind_eq_ok hc
      exact ⟨x, hx⟩
  · obtain ⟨w, hS, i, hit, hc, _, hmat, hpos⟩ := courtOf_world 2 (by norm_num) (.glass ⟨1, 1, 1⟩ (152 / 100))
    exact ⟨w, hS, i, hit, hc, hmat, hpos⟩

/-- C124: the floor of a house of the clearest glass and of the same house with a roof of brick get the same sunlight. -/
example (index : ℝ) : ∃ w : World, w.Sunlit (greenhouse ⟨1, 1, 1⟩ index) ∧ ∀ (arrived : TRay) (n fuel : Nat) (rng : Rng),
    (w.repainted [.plastic (Spectrum.gray (1 / 2)) 0 0, .light (Spectrum.gray 5), .plastic (Spectrum.gray (1 / 5)) 0 0]).localIllumination fuel (.plastic (Spectrum.gray (1 / 2)) 0 0) arrived rng n =
      w.localIllumination fuel (.plastic (Spectrum.gray (1 / 2)) 0 0) arrived rng n := by
  obtain ⟨w, hS, _⟩ := greenhouse_world ⟨1, 1, 1⟩ index
  refine ⟨w, hS, fun arrived n fuel rng => C124_glass_is_a_wall _ (fun o ho => ?_) _ arrived n fuel rng⟩
  rw [hS.renders.same.2.1, hS.renders.same.2.2] at ho
  simp only [greenhouse, List.nil_append, List.mem_singleton] at ho
  subst ho
  rw [hS.renders.same.1]
  exact ⟨rfl, rfl⟩

end Rendering
