import Verif.Lemmas.Moved
import Verif.Props.Linearity
import Verif.Props.SafetyScenes

/-!
# C108: moving the scene and the viewer together changes nothing
-/

set_option linter.unusedSectionVars false
namespace Rendering

open Classical

/-- A recorded interaction displaced. -/
noncomputable def Interaction.shift (v : Vec3 ℝ) (i : Interaction) : Interaction := ⟨i.point + v, i.wo, i.shading.shift v⟩

/-- A ray displaced, with what is recorded on it. -/
noncomputable def TRay.moved (v : Vec3 ℝ) (r : TRay) : TRay := { r with geometry := r.geometry.shift v, interaction := r.interaction.shift v }

/-- The world with its scene displaced. -/
noncomputable def World.shift (v : Vec3 ℝ) (w : World) : World := { w with scene := w.scene.shift v }

/-- `r'` is `r` displaced, whatever is recorded on it. -/
def Displaced (v : Vec3 ℝ) (r r' : TRay) : Prop := ∃ x, r' = { r.shift v with interaction := x }

theorem displaced_moved (v : Vec3 ℝ) (r : TRay) : Displaced v r (r.moved v) := ⟨_, rfl⟩
theorem displaced_shift (v : Vec3 ℝ) (r : TRay) : Displaced v r (r.shift v) := ⟨_, rfl⟩

variable {w : World} {v : Vec3 ℝ}

theorem recorded_shift (tri : Tri ℝ) (ray : Ray3 ℝ) (b : Bary ℝ) : recordedInteraction (tri.shift v) (ray.shift v) (b.shift v) = (recordedInteraction tri ray b).shift v := by
  have h : (b.shift v).p - (ray.shift v).origin = b.p - ray.origin := add_sub_shift _ _ _
  have hn : ∀ p u u' d, newInfo (tri.shift v) (p + v) u u' d = (newInfo tri p u u' d).shift v := by
    intro p u u' d
    simp only [newInfo, Tri.shift, add_sub_shift, IntersectionInfo.shift]
  simp only [recordedInteraction, h, project_shift]
  rw [show (b.shift v).p = b.p + v from rfl, show (b.shift v).u = b.u from rfl, show (b.shift v).v = b.v from rfl, show (ray.shift v).direction = ray.direction from rfl, hn]
  rfl

theorem cast_shift (hE : w.env.Uniform) {r r' : TRay} (hr : Displaced v r r') : (w.shift v).cast r' = (w.cast r).bind fun h => .ok (h.map fun x => (x.1, x.2.moved v)) := by
  obtain ⟨x, rfl⟩ := hr
  unfold World.cast
  have : (w.shift v).scene.castRay (w.shift v).env ({ r.shift v with interaction := x } : TRay).geometry [] = _ := castRay_shift hE v w.scene r.geometry []
  rw [this, bind_map, bind_assoc']
  refine bind_congr' _ fun h _ => ?_
  cases h with
  | none => rfl
  | some y =>
    obtain ⟨i, b⟩ := y
    simp only [Option.map_some]
    have ht : (w.shift v).scene.triangles[i]? = (w.scene.triangles[i]?).map (Tri.shift v) := by simp [World.shift, Scene.shift]
    rw [ht]
    cases w.scene.triangles[i]? with
    | none => rfl
    | some tri =>
      simp only [Option.map_some, Res.ofOption_some, Res.bind_ok, Res.ok.injEq, Option.some.injEq, Prod.mk.injEq, true_and]
      have := recorded_shift (v := v) tri r.geometry b
      simp only [TRay.shift, TRay.moved, this]

/-- The light is not a triangle. -/
def Object.NotTriangle (o : Object ℝ) : Prop := ∀ t, o.primitive ≠ .triangle t

theorem disc_shift (ext : GeoExt) (rng : Rng) (r : ℝ) (c n : Vec3 ℝ) : uniformSampleDisc ext rng r (c + v) n = (uniformSampleDisc ext rng r c n).bind fun x => .ok (x.1 + v, x.2) := by
  unfold uniformSampleDisc
  simp only
  rw [bind_assoc']
  refine bind_congr' _ fun e _ => ?_
  simp only [Res.bind_ok, Res.ok.injEq, Prod.mk.injEq, and_true]
  ext <;> simp [localToWorld] <;> ring

theorem sampleSurface_shift (ext : GeoExt) (p : Primitive ℝ) (rng : Rng) (pt : Vec3 ℝ) : (p.shift v).sampleSurface ext rng (pt + v) = (p.sampleSurface ext rng pt).bind fun x => .ok (x.1 + v, x.2) := by
  cases p with
  | sphere c r =>
    simp only [Primitive.shift, Primitive.sampleSurface, Res.bind_ok, sampleSphereSurface]
    congr 2
    ext <;> simp <;> ring
  | triangle t =>
    simp only [Primitive.shift, Primitive.sampleSurface, Res.bind_ok, sampleTriangleSurface, uniformSampleTriangle, Tri.shift, add_sub_shift]
    congr 2
    ext <;> simp <;> ring
  | cylinder a b r => rfl
  | source d a =>
    simp only [Primitive.shift, Primitive.sampleSurface]
    rw [← disc_shift]
    congr 1
    ext <;> simp <;> ring

theorem sampleDirection_shift (ext : GeoExt) (p : Primitive ℝ) (rng : Rng) (pt : Vec3 ℝ) : (p.shift v).sampleDirection ext rng (pt + v) = p.sampleDirection ext rng pt := by
  unfold Primitive.sampleDirection
  rw [sampleSurface_shift, bind_map]
  simp only [add_sub_shift]

theorem solidAnglePdf_shift {p : Primitive ℝ} (hp : ∀ t, p ≠ .triangle t) (info : IntersectionInfo) (ray : Ray3 ℝ) : (p.shift v).solidAnglePdf (info.shift v) (ray.shift v) = p.solidAnglePdf info ray := by
  cases p with
  | sphere c r => simp only [Primitive.shift, Primitive.solidAnglePdf, sphereSolidAnglePdf, Ray3.shift, add_sub_shift]
  | triangle t => exact absurd rfl (hp t)
  | cylinder a b r => rfl
  | source d a => rfl

theorem intersectLight_shift (hE : w.env.Uniform) (hX : w.ext.Uniform) {o : Object ℝ} (ho : o.NotTriangle) (ray : Ray3 ℝ) : (w.shift v).intersectLight (o.shift v) (ray.shift v) = w.intersectLight o ray := by
  unfold World.intersectLight
  have h1 : (w.shift v).ext.primIntersect (o.shift v).primitive (ray.shift v) = _ := hX v o.primitive ray
  rw [h1]
  cases w.ext.primIntersect o.primitive ray with
  | none => rfl
  | some info =>
    have h2 : (ray.shift v).origin - (info.shift v).p = ray.origin - info.p := add_sub_shift _ _ _
    have h3 : ∀ d, (w.shift v).scene.unobstructedDistance (w.shift v).env (ray.shift v) d [] = w.scene.unobstructedDistance w.env ray d [] := fun d => unobstructedDistance_shift hE v w.scene ray d []
    simp only [Option.map_some, h2, h3]
    have h4 : (o.shift v).primitive.solidAnglePdf (info.shift v) (ray.shift v) = o.primitive.solidAnglePdf info ray := solidAnglePdf_shift ho info ray
    rw [h4]
    rfl

theorem evalBsdf_moved (dt : DirTests) (m : Material ℝ) (n e1 e2 : Vec3 ℝ) (ray : TRay) (vout : Vec3 ℝ) : m.evalBsdf dt n e1 e2 (ray.moved v) vout = m.evalBsdf dt n e1 e2 ray vout := by cases m <;> rfl

theorem lightLoop_shift (hE : w.env.Uniform) (hX : w.ext.Uniform) {o : Object ℝ} (ho : o.NotTriangle) (m : Material ℝ) (ray : TRay) (n : Nat) (pt normal e1 e2 : Vec3 ℝ) (fuel i : Nat) (acc : Spectrum ℝ) (rng : Rng) :
    (w.shift v).lightLoop m (ray.moved v) n (pt + v) normal e1 e2 (o.shift v) fuel i acc rng = w.lightLoop m ray n pt normal e1 e2 o fuel i acc rng := by
  induction fuel generalizing i acc rng with
  | zero => rfl
  | succ fuel ih =>
    unfold World.lightLoop
    split_ifs with hi
    · have h1 : (o.shift v).primitive.sampleDirection (w.shift v).ext rng (pt + v) = o.primitive.sampleDirection w.ext rng pt := sampleDirection_shift w.ext o.primitive rng pt
      rw [h1]
      refine bind_congr' _ fun x _ => ?_
      obtain ⟨d, rng'⟩ := x
      have h2 : (w.shift v).intersectLight (o.shift v) ⟨pt + v, d⟩ = w.intersectLight o ⟨pt, d⟩ := intersectLight_shift hE hX ho ⟨pt, d⟩
      simp only [h2]
      refine bind_congr' _ fun r _ => ?_
      cases r with
      | none => exact ih _ _ _
      | some cp =>
        obtain ⟨c, pdf⟩ := cp
        simp only
        split_ifs with hp
        · exact ih _ _ _
        · have h3 : (w.shift v).lightTerm m (ray.moved v) n normal e1 e2 d c pdf = w.lightTerm m ray n normal e1 e2 d c pdf := by
            unfold World.lightTerm
            simp only [evalBsdf_moved]
            rfl
          rw [h3]
          refine bind_congr' _ fun t _ => ?_
          exact ih _ _ _
    · rfl

theorem lightsLoop_shift (hE : w.env.Uniform) (hX : w.ext.Uniform) (fuel : Nat) (m : Material ℝ) (ray : TRay) (n : Nat) (pt normal e1 e2 : Vec3 ℝ) (lights : List (Object ℝ)) (hl : ∀ o ∈ lights, o.NotTriangle) (acc : Spectrum ℝ) (rng : Rng) :
    (w.shift v).lightsLoop fuel m (ray.moved v) n (pt + v) normal e1 e2 (lights.map (Object.shift v)) acc rng = w.lightsLoop fuel m ray n pt normal e1 e2 lights acc rng := by
  induction lights generalizing acc rng with
  | nil => rfl
  | cons l ls ih =>
    simp only [List.map_cons, World.lightsLoop]
    rw [lightLoop_shift hE hX (hl l List.mem_cons_self)]
    refine bind_congr' _ fun x _ => ?_
    exact ih (fun o ho => hl o (List.mem_cons_of_mem _ ho)) _ _

theorem localIllumination_shift (hE : w.env.Uniform) (hX : w.ext.Uniform) (hl : ∀ o ∈ w.scene.lights ++ w.scene.distantLights, o.NotTriangle) (fuel : Nat) (m : Material ℝ) (ray : TRay) (rng : Rng) (n : Nat) :
    (w.shift v).localIllumination fuel m (ray.moved v) rng n = w.localIllumination fuel m ray rng n := by
  unfold World.localIllumination World.sampleLightArray
  have h1 : (w.shift v).scene.lights = w.scene.lights.map (Object.shift v) := rfl
  have h2 : (w.shift v).scene.distantLights = w.scene.distantLights.map (Object.shift v) := rfl
  have hp : (ray.moved v).getTriad.1 + (ray.moved v).getTriad.2.1.scale (1 / 1000) = (ray.getTriad.1 + ray.getTriad.2.1.scale (1 / 1000)) + v := by
    simp only [TRay.getTriad, TRay.moved, Interaction.shift, IntersectionInfo.shift]
    ext <;> simp <;> ring
  simp only [h1, h2, hp]
  have hb' : ∀ (ls : List (Object ℝ)), (∀ o ∈ ls, o.NotTriangle) → ∀ rng, (w.shift v).lightsLoop fuel m (ray.moved v) n (ray.getTriad.1 + ray.getTriad.2.1.scale (1 / 1000) + v) (ray.moved v).getTriad.2.1 (ray.moved v).getTriad.2.2.1 (ray.moved v).getTriad.2.2.2
      (ls.map (Object.shift v)) Spectrum.black rng = w.lightsLoop fuel m ray n (ray.getTriad.1 + ray.getTriad.2.1.scale (1 / 1000)) ray.getTriad.2.1 ray.getTriad.2.2.1 ray.getTriad.2.2.2 ls Spectrum.black rng := fun ls hls rng =>
    lightsLoop_shift (v := v) hE hX fuel m ray n (ray.getTriad.1 + ray.getTriad.2.1.scale (1 / 1000)) ray.getTriad.2.1 ray.getTriad.2.2.1 ray.getTriad.2.2.2 ls hls Spectrum.black rng
  rw [hb' _ fun o ho => hl o (List.mem_append_left _ ho)]
  refine bind_congr' _ fun x _ => ?_
  rw [hb' _ fun o ho => hl o (List.mem_append_right _ ho)]

/-- The light and the generator of an answer, without the probability. -/
noncomputable def lightOf (r : Res ((Spectrum ℝ × ℝ) × Rng)) : Res (Spectrum ℝ × Rng) := r.bind fun x => .ok (x.1.1, x.2)

theorem lightOf_bind {A : Type} (r r' : Res ((Spectrum ℝ × ℝ) × Rng)) (h : lightOf r = lightOf r') (f : Spectrum ℝ → Rng → Res A) : (r.bind fun x => f x.1.1 x.2) = r'.bind fun x => f x.1.1 x.2 := by
  have : ∀ q : Res ((Spectrum ℝ × ℝ) × Rng), (q.bind fun x => f x.1.1 x.2) = (lightOf q).bind fun y => f y.1 y.2 := by
    intro q
    cases q <;> rfl
  rw [this, this, h]

theorem refSpecular_shift {self self' : RefTrace} (hs : ∀ rng r r', Displaced v r r' → lightOf (self' rng r') = lightOf (self rng r)) (csb : ℝ) (paths : List (TRay × Spectrum ℝ)) (rng : Rng) :
    refSpecular self' csb (paths.map fun p => (p.1.moved v, p.2)) rng = refSpecular self csb paths rng := by
  induction paths generalizing rng with
  | nil => rfl
  | cons p ps ih =>
    obtain ⟨path, weight⟩ := p
    simp only [List.map_cons, refSpecular]
    have h1 : (if rng 0 < csb then { path.moved v with depth := (path.moved v).depth + 1 } else path.moved v) = (if rng 0 < csb then { path with depth := path.depth + 1 } else path).moved v := by
      split_ifs <;> rfl
    rw [h1]
    have := lightOf_bind _ _ (hs rng.gen.2 _ _ (displaced_moved v (if rng 0 < csb then { path with depth := path.depth + 1 } else path)))
      (fun light rng => (refSpecular self csb ps rng).bind fun y => Res.ok (light * weight + y.1, y.2))
    simp only [ih]
    exact this

theorem sampleWard_shift (fuel : Nat) (n e1 e2 pt : Vec3 ℝ) (s a b : ℝ) (ray : TRay) (rng : Rng) :
    sampleWard fuel n e1 e2 (pt + v) s a b (ray.moved v) rng = (sampleWard fuel n e1 e2 pt s a b ray rng).bind fun x => .ok (x.1, x.2.1.moved v, x.2.2) := by
  have ho : pt + v + n.scale (1 / 10 ^ 5) = pt + n.scale (1 / 10 ^ 5) + v := by ext <;> simp <;> ring
  have hloop : ∀ (q : TRay) (fuel : Nat) (rng : Rng) (a b : ℝ), wardLoop n e1 e2 s a b (q.moved v) fuel rng = (wardLoop n e1 e2 s a b q fuel rng).bind fun x => .ok (x.1, x.2.1.moved v, x.2.2) := by
    intro q fuel
    induction fuel with
    | zero => intros; rfl
    | succ fuel ih =>
      intro rng a b
      unfold wardLoop
      have hd : (q.moved v).geometry.direction = q.geometry.direction := rfl
      simp only [hd]
      split_ifs
      · rfl
      · rfl
      · exact ih _ _ _
  unfold sampleWard
  simp only [ho]
  split_ifs
  · exact hloop { ray with geometry := { ray.geometry with origin := pt + n.scale (1 / 10 ^ 5) } } fuel _ _ _
  · rfl

theorem sampleBsdf_shift (fuel : Nat) (m : Material ℝ) (n e1 e2 pt : Vec3 ℝ) (ray : TRay) (rng : Rng) :
    m.sampleBsdf fuel n e1 e2 (pt + v) (ray.moved v) rng = (m.sampleBsdf fuel n e1 e2 pt ray rng).bind fun x => .ok (x.1, x.2.1.moved v, x.2.2) := by
  cases m with
  | plastic c s r => simp only [Material.sampleBsdf, sampleWard_shift, Res.bind_ok, bind_assoc']
  | metal c s r => simp only [Material.sampleBsdf, sampleWard_shift, Res.bind_ok, bind_assoc']
  | _ => rfl

theorem refAmbient_shift {self self' : RefTrace} (hs : ∀ rng r r', Displaced v r r' → self' rng r' = self rng r) (m : Material ℝ) (arriving : TRay) (fuel n : Nat) (rng : Rng) :
    refAmbient self' m (arriving.moved v) fuel n rng = refAmbient self m arriving fuel n rng := by
  induction fuel generalizing n rng with
  | zero => rfl
  | succ fuel ih =>
    cases n with
    | zero => rfl
    | succ n =>
      unfold refAmbient
      have h1 : (arriving.moved v).interaction.shading.normal = arriving.interaction.shading.normal := rfl
      have h2 : (arriving.moved v).interaction.shading.dpdu = arriving.interaction.shading.dpdu := rfl
      have h3 : (arriving.moved v).interaction.shading.dpdv = arriving.interaction.shading.dpdv := rfl
      have h4 : (arriving.moved v).interaction.point = arriving.interaction.point + v := rfl
      simp only [h1, h2, h3, h4, sampleBsdf_shift, bind_map]
      refine bind_congr' _ fun x _ => ?_
      obtain ⟨⟨bsdf, pdf⟩, out, r⟩ := x
      simp only
      have h5 : (out.moved v).geometry.direction = out.geometry.direction := rfl
      rw [h5]
      refine Eq.trans (congrArg (fun q => Res.bind q _) (hs r { arriving with geometry := out.geometry, depth := arriving.depth + 1, value := arriving.value * (bsdf.radiance * |arriving.interaction.shading.normal.dot out.geometry.direction| / pdf) } _
        ⟨arriving.interaction.shift v, rfl⟩)) ?_
      refine bind_congr' _ fun y _ => ?_
      simp only [ih]

theorem paths_shift (m : Material ℝ) (n pt : Vec3 ℝ) (ray : TRay) :
    m.getPossiblePaths n (pt + v) (ray.moved v) = (m.getPossiblePaths n pt ray).bind fun p => .ok (p.1.map fun x => (x.1.moved v, x.2), p.2.map fun x => (x.1.moved v, x.2)) := by
  have ho : pt + v + n.scale (1 / 10 ^ 5) = pt + n.scale (1 / 10 ^ 5) + v := by ext <;> simp <;> ring
  have ho' : pt + v - n.scale (1 / 10 ^ 5) = pt - n.scale (1 / 10 ^ 5) + v := by ext <;> simp <;> ring
  have hd : (ray.moved v).geometry.direction = ray.geometry.direction := rfl
  cases m with
  | mirror c => simp only [Material.getPossiblePaths, mirrorPaths, mirrorBsdf, ho]; rfl
  | glass c i =>
    simp only [Material.getPossiblePaths, glassPaths, ho, ho', hd]
    split_ifs <;> rfl
  | dielectric c i =>
    have hc : cosAndN (ray.moved v) n i = cosAndN ray n i := rfl
    simp only [Material.getPossiblePaths, dielectricPaths, ho, ho', hd, hc]
    cases (cosAndN ray n i).2.2.2 <;> rfl
  | _ => rfl

theorem toList_shift (p : Paths) : Paths.toList (p.1.map fun x => (x.1.moved v, x.2), p.2.map fun x => (x.1.moved v, x.2)) = p.toList.map fun x => (x.1.moved v, x.2) := by
  obtain ⟨a, b⟩ := p
  cases a <;> cases b <;> rfl

theorem interpolate_shift (i : Interaction) (n0 n1 n2 : Vec3 ℝ) : (i.shift v).interpolateNormal n0 n1 n2 = (i.interpolateNormal n0 n1 n2).shift v := rfl

/-- No triangle of the scene has a light material on either side. -/
def World.NoGlow (w : World) : Prop := ∀ side i m, w.materialAt side i = .ok m → m.emitsLight = false

theorem getNAmbient_moved (r : TRay) (n d : Nat) (l : ℝ) (rng : Rng) : (r.moved v).getNAmbientSamples n d l rng = ((r.getNAmbientSamples n d l rng).1, (r.getNAmbientSamples n d l rng).2.1.moved v, (r.getNAmbientSamples n d l rng).2.2) := by
  unfold TRay.getNAmbientSamples
  have h1 : (r.moved v).depth = r.depth := rfl
  have h2 : (r.moved v).value = r.value := rfl
  simp only [h1, h2]
  split_ifs <;> rfl

theorem refSurface_shift (hE : w.env.Uniform) (hX : w.ext.Uniform) (hl : ∀ o ∈ w.scene.lights ++ w.scene.distantLights, o.NotTriangle) (rt : RayTracer) (fuel : Nat) {self self' : RefTrace}
    (hs : ∀ rng r r', Displaced v r r' → lightOf (self' rng r') = lightOf (self rng r)) (Q : Prop) (hQ : Q → ∀ rng r r', Displaced v r r' → self' rng r' = self rng r) (hA : Q ∨ rt.DirectOnly)
    (i : Nat) (m : Material ℝ) (hm : m.emitsLight = false) (ray : TRay) (rng : Rng) : refSurface (w.shift v) rt fuel self' i m (ray.moved v) rng = refSurface w rt fuel self i m ray rng := by
  unfold refSurface
  have h0 : (ray.moved v).interaction = ray.interaction.shift v := rfl
  have h1 : (ray.moved v).depth = ray.depth := rfl
  have h2 : (w.shift v).scene.normals = w.scene.normals := rfl
  simp only [h0, h1, h2, hm, Bool.false_eq_true, if_false]
  split_ifs with hd hsp
  · rfl
  · refine bind_congr' _ fun x _ => ?_
    obtain ⟨n0, n1, n2⟩ := x
    have h3 : ({ geometry := (ray.moved v).geometry, refractionIndex := (ray.moved v).refractionIndex, interaction := (ray.interaction.shift v).interpolateNormal n0 n1 n2, depth := ray.depth, value := (ray.moved v).value, colour := (ray.moved v).colour } : TRay) = TRay.moved v { ray with interaction := ray.interaction.interpolateNormal n0 n1 n2 } := rfl
    have h4 : (ray.interaction.shift v).shading.normal = ray.interaction.shading.normal := rfl
    have h5 : (ray.interaction.shift v).point = ray.interaction.point + v := rfl
    simp only [h3, h4, h5, paths_shift, bind_map]
    refine bind_congr' _ fun ps _ => ?_
    rw [toList_shift, refSpecular_shift hs]
  · refine bind_congr' _ fun x _ => ?_
    obtain ⟨n0, n1, n2⟩ := x
    have h3 : ({ geometry := (ray.moved v).geometry, refractionIndex := (ray.moved v).refractionIndex, interaction := (ray.interaction.shift v).interpolateNormal n0 n1 n2, depth := ray.depth, value := (ray.moved v).value, colour := (ray.moved v).colour } : TRay) = TRay.moved v { ray with interaction := ray.interaction.interpolateNormal n0 n1 n2 } := rfl
    simp only [h3, getNAmbient_moved]
    generalize hg : ({ ray with interaction := ray.interaction.interpolateNormal n0 n1 n2 } : TRay).getNAmbientSamples rt.nAmbientSamples rt.maxDepth rt.limitWeight rng = g
    obtain ⟨n, ray1, rng1⟩ := g
    have h6 : (ray1.moved v).depth = ray1.depth := rfl
    simp only [localIllumination_shift hE hX hl, h6]
    refine bind_congr' _ fun y _ => ?_
    split_ifs with hn
    · rfl
    · rcases hA with hA | hA
      · rw [refAmbient_shift (hQ hA)]
      · exfalso
        apply hn
        have := congrArg Prod.fst hg
        unfold TRay.getNAmbientSamples at this
        rw [if_pos (show rt.maxDepth = 0 ∨ rt.nAmbientSamples = 0 from hA)] at this
        exact this.symm

theorem materialAt_shift (side : SurfaceSide) (i : Nat) : (w.shift v).materialAt side i = w.materialAt side i := rfl

theorem refTrace_shift (hE : w.env.Uniform) (hX : w.ext.Uniform) (hl : ∀ o ∈ w.scene.lights ++ w.scene.distantLights, o.NotTriangle) (rt : RayTracer) (hA : w.NoGlow ∨ rt.DirectOnly) (fuel : Nat) (rng : Rng) (r r' : TRay) (hr : Displaced v r r') :
    lightOf (refTrace (w.shift v) rt fuel rng r') = lightOf (refTrace w rt fuel rng r) ∧ (w.NoGlow → refTrace (w.shift v) rt fuel rng r' = refTrace w rt fuel rng r) := by
  induction fuel generalizing rng r r' with
  | zero => exact ⟨rfl, fun _ => rfl⟩
  | succ fuel ih =>
    have key : ∀ (i : Nat) (q : TRay) (m : Material ℝ), m.emitsLight = false → refSurface (w.shift v) rt fuel (refTrace (w.shift v) rt fuel) i m (q.moved v) rng = refSurface w rt fuel (refTrace w rt fuel) i m q rng := fun i q m hm =>
      refSurface_shift hE hX hl rt fuel (fun rng r r' h => (ih rng r r' h).1) w.NoGlow (fun h rng r r' hr => (ih rng r r' hr).2 h) hA i m hm q rng
    have hc := cast_shift hE hr
    constructor
    · simp only [refTrace, hc, lightOf, Res.bind_ok, bind_assoc']
      refine bind_congr' _ fun hit _ => ?_
      cases hit with
      | none =>
        obtain ⟨x, rfl⟩ := hr
        rfl
      | some p =>
        obtain ⟨i, q⟩ := p
        have hside : (q.moved v).interaction.shading.side = q.interaction.shading.side := rfl
        simp only [Option.map_some, hside, materialAt_shift]
        split_ifs
        · rfl
        · simp only [bind_assoc']
          refine bind_congr' _ fun m _ => ?_
          cases hm : m.emitsLight with
          | false => rw [key i q m hm]
          | true =>
            unfold refSurface
            have ht : (w.shift v).scene.triangles[i]? = (w.scene.triangles[i]?).map (Tri.shift v) := by simp [World.shift, Scene.shift]
            simp only [hm, if_true, ht]
            cases w.scene.triangles[i]? <;> rfl
    · intro hN
      simp only [refTrace, hc, bind_map]
      refine bind_congr' _ fun hit _ => ?_
      cases hit with
      | none =>
        obtain ⟨x, rfl⟩ := hr
        rfl
      | some p =>
        obtain ⟨i, q⟩ := p
        have hside : (q.moved v).interaction.shading.side = q.interaction.shading.side := rfl
        simp only [Option.map_some, hside, materialAt_shift]
        split_ifs
        · rfl
        · refine bind_congr' _ fun m hm => ?_
          exact key i q m (hN _ _ _ hm)

/-! ### Scenes built through the API -/

theorem isLight_append {K : Type} {mats : List (Material K)} {m : Material K} {i : Nat} (hi : i < mats.length) : IsLight (mats ++ [m]) i ↔ IsLight mats i := by
  unfold IsLight
  rw [List.getElem?_append_left hi]

/-- In a scene without lamps no triangle has a light material. -/
theorem dark_of_run {K : Type} [Field K] [LinearOrder K] [IsStrictOrderedRing K] [FloorRing K] (env : SceneEnv K) (hE : env.bvh.Lawful) (hM : env.MeshAligned) (ops : List (SceneOp K)) (s : Scene K) (h : Scene.run env {} ops = .ok s) (hl : s.lights = []) :
    ∀ j, (j ∈ s.front ∨ j ∈ s.back) → ¬ IsLight s.materials j := by
  refine (run_induction env (fun s => (s.Aligned ∧ s.IndicesValid) ∧ (s.lights = [] → ∀ j, (j ∈ s.front ∨ j ∈ s.back) → ¬ IsLight s.materials j)) ?_ ops {} s ⟨⟨by simp [Scene.Aligned], by simp [Scene.IndicesValid]⟩, by simp⟩ h).2 hl
  rintro s s' op ⟨⟨ha, hi⟩, hd⟩ hs
  refine ⟨step_invariant env hE hM s s' op ha hi hs, ?_⟩
  have rebuild : s.rebuildAccelerator env = .ok s' → s'.lights = [] → ∀ j, (j ∈ s'.front ∨ j ∈ s'.back) → ¬ IsLight s'.materials j := by
    intro h hl j hj
    obtain ⟨s1, bvh, e, h1, h2, h3, h4, h5, h6, h7, _, _⟩ := rebuild_spec env hE s ha
    rw [e] at h; cases h
    obtain ⟨p1, p2, p3, p4⟩ := mem_of_rows ha h2 h4
    rw [h5]
    rw [h6] at hl
    exact hd hl j (hj.imp p2.mem_iff.1 p3.mem_iff.1)
  cases op with
  | pushMaterial m =>
    simp only [Scene.step, Scene.pushMaterial, Res.ok.injEq] at hs
    subst hs
    intro hl j hj
    have hlt : j < s.materials.length := hj.elim (hi.1 j) (hi.2.1 j)
    rw [isLight_append hlt]
    exact hd hl j hj
  | pushObject f b p =>
    obtain ⟨⟨hf, hb⟩, e1, e2, e3, e4, e5, e6, e7, e8, e9⟩ := pushObject_ok env s s' f b p hs
    intro hl j hj
    rw [e1]
    by_cases hlt : IsLight s.materials f ∨ IsLight s.materials b
    · by_cases hsrc : p.id = "source"
      · obtain ⟨q1, q2⟩ := (e8 hlt).1 hsrc
        have hmesh : (env.meshPair p).1.length = 0 := by cases p <;> simp_all [Primitive.id, SceneEnv.meshPair]
        rw [e6, e7, hmesh] at hj
        simp only [List.replicate_zero, List.append_nil] at hj
        exact hd (q1 ▸ hl) j hj
      · have := ((e8 hlt).2 hsrc).1
        rw [hl] at this
        simp at this
    · obtain ⟨q1, q2⟩ := e9 hlt
      push Not at hlt
      rw [e6, e7, List.mem_append, List.mem_append] at hj
      rcases hj with (hj | hj) | (hj | hj)
      · exact hd (q1 ▸ hl) j (Or.inl hj)
      · rw [List.eq_of_mem_replicate hj]; exact hlt.1
      · exact hd (q1 ▸ hl) j (Or.inr hj)
      · rw [List.eq_of_mem_replicate hj]; exact hlt.2
  | build =>
    simp only [Scene.step, Scene.buildAccelerator] at hs
    split at hs
    · simp at hs
    · exact rebuild hs
  | rebuild => exact rebuild hs
  | addPerezSky sun =>
    simp only [Scene.step] at hs
    rw [addPerezSky_eq] at hs
    cases hs
    cases sun with
    | none => exact hd
    | some x =>
      obtain ⟨d, br, a⟩ := x
      intro hl j hj
      have hlt : j < s.materials.length := hj.elim (hi.1 j) (hi.2.1 j)
      simp only
      rw [isLight_append hlt]
      exact hd hl j hj

theorem mem_pushedLights_distant {K : Type} (ops : List (SceneOp K)) : ∀ (mats : List (Material K)) (x : Bool × Object K), x ∈ pushedLights mats ops → x.1 = x.2.primitive.isDistant := by
  induction ops with
  | nil => simp [pushedLights]
  | cons op ops ih =>
    intro mats x hx
    cases op with
    | pushMaterial m => exact ih _ x hx
    | pushObject f b p =>
      rw [pushedLights, List.mem_append] at hx
      rcases hx with hx | hx
      · split_ifs at hx
        · rw [List.mem_singleton.1 hx]
        · simp at hx
      · exact ih _ x hx
    | build => exact ih _ x hx
    | rebuild => exact ih _ x hx
    | addPerezSky sun =>
      cases sun with
      | none => exact ih _ x hx
      | some y =>
        obtain ⟨d, br, a⟩ := y
        rw [pushedLights, List.mem_cons] at hx
        rcases hx with rfl | hx
        · rfl
        · exact ih _ x hx

theorem distant_of_run (env : SceneEnv ℝ) (hE : env.bvh.Lawful) (hM : env.MeshAligned) (ops : List (SceneOp ℝ)) (s : Scene ℝ) (h : Scene.run env {} ops = .ok s) : ∀ o ∈ s.distantLights, o.NotTriangle := by
  obtain ⟨-, l2, -⟩ := C12_light_registry env hE hM ops s h
  intro o ho t ht
  rw [l2] at ho
  obtain ⟨x, hx, rfl⟩ := List.mem_map.1 ho
  obtain ⟨hx, hb⟩ := List.mem_filter.1 hx
  have := mem_pushedLights_distant ops [] x hx
  rw [ht] at this
  simp [Primitive.isDistant] at this
  simp [this] at hb

theorem noGlow_of_run (env : SceneEnv ℝ) (hE : env.bvh.Lawful) (hM : env.MeshAligned) (ops : List (SceneOp ℝ)) (s : Scene ℝ) (h : Scene.run env {} ops = .ok s) (hl : s.lights = []) (w : World) (hw : w.scene = s) : w.NoGlow := by
  intro side i m hm
  have hd := dark_of_run env hE hM ops s h hl
  subst hw
  cases he : m.emitsLight with
  | false => rfl
  | true =>
    exfalso
    have hlight : ∃ c, m = .light c := by cases m <;> simp_all [Material.emitsLight]
    obtain ⟨c, rfl⟩ := hlight
    have key : ∀ l : List Nat, (∀ j ∈ l, ¬ IsLight w.scene.materials j) → ((Res.ofOption l[i]?).bind fun k => Res.ofOption w.scene.materials[k]?) ≠ .ok (.light c) := by
      intro l hno hm
      obtain ⟨j, hj, hm⟩ := Res.bind_eq_ok hm
      cases hi : l[i]? with
      | none => rw [hi] at hj; cases hj
      | some k =>
        rw [hi] at hj
        cases hj
        cases hk : w.scene.materials[j]? with
        | none => rw [hk] at hm; cases hm
        | some m =>
          rw [hk] at hm
          cases hm
          exact hno j (List.mem_of_getElem? hi) ⟨c, hk⟩
    cases side with
    | Front => exact key _ (fun j hj => hd j (Or.inl hj)) hm
    | Back => exact key _ (fun j hj => hd j (Or.inr hj)) hm
    | NonApplicable => cases hm

/-- **C108.** The same history of calls with every object displaced by `v` succeeds exactly when the original does, and the two scenes answer displaced queries alike: a displaced ray meets the same triangle (same index) at the displaced point, and is obstructed exactly when the
original is. -/
theorem C108_queries_moved {K : Type} [Field K] [LinearOrder K] [IsStrictOrderedRing K] [FloorRing K] (env : SceneEnv K) (hE : env.Uniform) (v : Vec3 K) (ops : List (SceneOp K)) :
    (Scene.run env {} (ops.map (SceneOp.shift v)) = .panic ↔ Scene.run env {} ops = .panic) ∧
    ∀ s, Scene.run env {} ops = .ok s → ∃ s', Scene.run env {} (ops.map (SceneOp.shift v)) = .ok s' ∧
      (∀ ray scratch, s'.castRay env (ray.shift v) scratch = (s.castRay env ray scratch).bind fun r => .ok (r.map fun x => (x.1, { x.2 with p := x.2.p + v }))) ∧
      (∀ ray d scratch, s'.unobstructedDistance env (ray.shift v) d scratch = s.unobstructedDistance env ray d scratch) := by
  have hrun : Scene.run env {} (ops.map (SceneOp.shift v)) = (Scene.run env {} ops).bind fun s => .ok (s.shift v) := run_shift hE v ops {}
  refine ⟨?_, fun s h => ⟨s.shift v, ?_, fun ray scratch => castRay_shift hE v s ray scratch, fun ray d scratch => unobstructedDistance_shift hE v s ray d scratch⟩⟩
  · rw [hrun]
    cases Scene.run env {} ops <;> simp [Res.bind]
  · rw [hrun, h]
    rfl

/-- **C108.** A scene of opaque, transparent or mirror-like objects under suns (no lamps), and the same history of calls with every object displaced by `v`: tracing a displaced ray, with the same random numbers and any settings, gives exactly the answer of the original ray in the original scene (or
panics, or never ends, alike).  With lamps this fails: `C108_violation_lamp`. -/
theorem C108_moved_partial (env : SceneEnv ℝ) (hB : env.bvh.Lawful) (hM : env.MeshAligned) (hE : env.Uniform) (ext : GeoExt) (hX : ext.Uniform) (v : Vec3 ℝ) (ops : List (SceneOp ℝ)) (s : Scene ℝ) (h : Scene.run env {} ops = .ok s) (hl : s.lights = []) :
    ∃ s', Scene.run env {} (ops.map (SceneOp.shift v)) = .ok s' ∧ ∀ dt sky col rt fuel rng rays ray, rt.maxDepth < rays.length →
      outcome (traceRay ⟨s', env, ext, dt, sky, col⟩ rt fuel ⟨rng, rays⟩ (ray.shift v)) = outcome (traceRay ⟨s, env, ext, dt, sky, col⟩ rt fuel ⟨rng, rays⟩ ray) := by
  refine ⟨s.shift v, ?_, fun dt sky col rt fuel rng rays ray hr => ?_⟩
  · have hrun : Scene.run env {} (ops.map (SceneOp.shift v)) = (Scene.run env {} ops).bind fun s => .ok (s.shift v) := run_shift hE v ops {}
    rw [hrun, h]
    rfl
  · rw [C75_is_reference_tracer _ rt fuel rng rays _ hr, C75_is_reference_tracer _ rt fuel rng rays _ hr]
    have hN : World.NoGlow ⟨s, env, ext, dt, sky, col⟩ := noGlow_of_run env hB hM ops s h hl _ rfl
    refine (refTrace_shift (w := ⟨s, env, ext, dt, sky, col⟩) hE hX ?_ rt (Or.inl hN) fuel rng ray _ (displaced_shift v ray)).2 hN
    rw [hl]
    exact distant_of_run env hB hM ops s h

/-- **C108.** With lamps that are not triangles (spheres), the light found by direct lighting (no ambient samples or depth zero) is the same for the displaced scene and ray. -/
theorem C108_direct_moved_partial (env : SceneEnv ℝ) (hB : env.bvh.Lawful) (hM : env.MeshAligned) (hE : env.Uniform) (ext : GeoExt) (hX : ext.Uniform) (v : Vec3 ℝ) (ops : List (SceneOp ℝ)) (s : Scene ℝ) (h : Scene.run env {} ops = .ok s)
    (hl : ∀ o ∈ s.lights, ∀ t, o.primitive ≠ .triangle t) :
    ∃ s', Scene.run env {} (ops.map (SceneOp.shift v)) = .ok s' ∧ ∀ dt sky col rt fuel rng rays ray, rt.maxDepth < rays.length → (rt.maxDepth = 0 ∨ rt.nAmbientSamples = 0) →
      ((outcome (traceRay ⟨s', env, ext, dt, sky, col⟩ rt fuel ⟨rng, rays⟩ (ray.shift v))).bind fun x => .ok x.1.1) = (outcome (traceRay ⟨s, env, ext, dt, sky, col⟩ rt fuel ⟨rng, rays⟩ ray)).bind fun x => .ok x.1.1 := by
  refine ⟨s.shift v, ?_, fun dt sky col rt fuel rng rays ray hr hd => ?_⟩
  · have hrun : Scene.run env {} (ops.map (SceneOp.shift v)) = (Scene.run env {} ops).bind fun s => .ok (s.shift v) := run_shift hE v ops {}
    rw [hrun, h]
    rfl
  · rw [C75_is_reference_tracer _ rt fuel rng rays _ hr, C75_is_reference_tracer _ rt fuel rng rays _ hr]
    refine lightOf_bind _ _ (refTrace_shift (w := ⟨s, env, ext, dt, sky, col⟩) hE hX ?_ rt (Or.inr hd) fuel rng ray _ (displaced_shift v ray)).1 fun c _ => .ok c
    intro o ho
    rcases List.mem_append.1 ho with ho | ho
    · exact hl o ho
    · exact distant_of_run env hB hM ops s h o ho

end Rendering
