import Verif.Lemmas.SameSurfaces
import Verif.Props.Numbering

/-!
# C128, C129: daylight coefficients depend on the surfaces alone, and not on where the scene is
-/

set_option linter.unusedSectionVars false
namespace Rendering

/-- **C128.** Two scenes of the same surfaces, however lit: lamps of other colours and brightness, other suns, other skies or none.  The daylight coefficients of any sensors are equal (same settings, same random numbers). -/
theorem C128_coefficients_ignore_lights (env : SceneEnv ℝ) (ops ops' : List (SceneOp ℝ)) (h : SameButLighting [] [] ops ops') (s s' : Scene ℝ) (hs : Scene.run env {} ops = .ok s) (hs' : Scene.run env {} ops' = .ok s') (ext : GeoExt)
    (dt dt' : DirTests) (sky sky' : Option (Vec3 ℝ → ℝ)) (col col' : Option (Spectrum ℝ)) (dc : DcFactory) (fuel : Nat) (sensors : List (Ray3 ℝ)) (primary : Nat → Rng) (secondary : Nat → Nat → Rng) :
    calcDc ⟨s', env, ext, dt', sky', col'⟩ dc fuel sensors primary secondary = calcDc ⟨s, env, ext, dt, sky, col⟩ dc fuel sensors primary secondary := by
  have ha : AlikeSurfaces s s' := run_surfaces env h {} {} s s' rfl rfl ⟨rfl, rfl, rfl, .nil, .nil⟩ hs hs'
  rw [calcDc_surfaces ha env ext dt dt' sky sky' col col']

/-! ## Displacement -/

variable {v : Vec3 ℝ} {w : World}

/-- States that agree but for the scratch rays. -/
def SameState (st st' : DState) : Prop := st'.rng = st.rng ∧ st'.contribution = st.contribution ∧ st'.rays.length = st.rays.length

/-- Outcomes of tracing a ray and its displaced copy. -/
def MovedPair (v : Vec3 ℝ) (P : Prop) (x y : TRay × DState) : Prop := SameState x.2 y.2 ∧ (P → y.1 = x.1.moved v)

/-- Two tracers that agree on displaced rays. -/
def MovedTracers (v : Vec3 ℝ) (self self' : DcFn) : Prop :=
  ∀ st st' r r', SameState st st' → Displaced v r r' → Res.Rel (MovedPair v (r' = r.moved v)) (self st r) (self' st' r')

theorem Res.Rel.imp {A B : Type} {R S : A → B → Prop} {x : Res A} {y : Res B} (h : Res.Rel R x y) (hi : ∀ a b, R a b → S a b) : Res.Rel S x y := by
  cases x <;> cases y <;> first | exact hi _ _ h | trivial | exact h.elim

theorem dcSpecular_moved {self self' : DcFn} (hs : MovedTracers v self self') (csb : ℝ) (paths : List (TRay × Spectrum ℝ)) (st st' : DState) (hst : SameState st st') :
    Res.Rel SameState (dcSpecularLoop self csb paths st) (dcSpecularLoop self' csb (paths.map fun x => (x.1.moved v, x.2)) st') := by
  induction paths generalizing st st' with
  | nil => exact hst
  | cons x rest ih =>
    obtain ⟨r, b⟩ := x
    simp only [List.map_cons]
    unfold dcSpecularLoop
    simp only [hst.1]
    refine Res.Rel.bind (hs _ _ _ _ ⟨rfl, hst.2⟩ ?_) fun a c hac => ih a.2 c.2 hac.1
    split_ifs
    · exact ⟨r.interaction.shift v, rfl⟩
    · exact ⟨r.interaction.shift v, rfl⟩

theorem dcAmbient_moved {self self' : DcFn} (hs : MovedTracers v self self') (m : Material ℝ) (fuel : Nat) (pt normal e1 e2 : Vec3 ℝ) (n : Nat) (ray : TRay) (st st' : DState) (hst : SameState st st') :
    Res.Rel (MovedPair v True) (dcAmbientLoop self m fuel pt normal e1 e2 n ray st) (dcAmbientLoop self' m fuel (pt + v) normal e1 e2 n (ray.moved v) st') := by
  induction n generalizing ray st st' with
  | zero => exact ⟨hst, fun _ => rfl⟩
  | succ n ih =>
    unfold dcAmbientLoop
    rw [hst.1, sampleBsdf_shift, bind_assoc']
    refine Res.Rel.bind (Res.Rel.refl _) ?_
    rintro ⟨⟨bsdf, pdf⟩, out, rng⟩ _ rfl
    simp only [Res.bind_ok]
    refine Res.Rel.bind (hs ⟨rng, st.rays, st.contribution⟩ ⟨rng, st'.rays, st'.contribution⟩ _ _ ⟨rfl, hst.2⟩ ?_) ?_
    · exact ⟨out.interaction.shift v, rfl⟩
    · rintro ⟨r1, s1⟩ ⟨r2, s2⟩ hx
      have hr : r2 = r1.moved v := hx.2 rfl
      subst hr
      exact ih r1 s1 s2 hx.1

theorem dcSurface_moved {self self' : DcFn} (hs : MovedTracers v self self') (dc : DcFactory) (fuel i : Nat) (ray : TRay) (st st' : DState) (hst : SameState st st') :
    Res.Rel (MovedPair v True) (dcSurfaceStep w dc fuel self i ray st) (dcSurfaceStep (w.shift v) dc fuel self' i (ray.moved v) st') := by
  unfold dcSurfaceStep
  have hside : (ray.moved v).interaction.shading.side = ray.interaction.shading.side := rfl
  have hdep : (ray.moved v).depth = ray.depth := rfl
  have hn : (w.shift v).scene.normals = w.scene.normals := rfl
  simp only [hside, hdep, hn, materialAt_shift]
  by_cases h1 : ray.interaction.shading.side = .NonApplicable
  · simp only [h1, if_true]
    exact ⟨hst, fun _ => rfl⟩
  · simp only [h1, if_false]
    refine Res.Rel.bind (Res.Rel.refl _) ?_
    rintro _ m rfl
    by_cases h2 : ray.depth > dc.maxDepth ∨ m.emitsDirectLight = true
    · simp only [h2, if_true]
      exact ⟨hst, fun _ => rfl⟩
    · simp only [h2, if_false]
      have htri : (ray.moved v).getTriad = (ray.getTriad.1 + v, ray.getTriad.2) := rfl
      rw [htri]
      refine Res.Rel.bind (Res.Rel.refl _) ?_
      rintro ⟨n0, n1, n2⟩ _ rfl
      have hint : (⟨(ray.moved v).geometry, (ray.moved v).refractionIndex, (ray.moved v).interaction.interpolateNormal n0 n1 n2, ray.depth, (ray.moved v).value, (ray.moved v).colour⟩ : TRay) =
        TRay.moved v ⟨ray.geometry, ray.refractionIndex, ray.interaction.interpolateNormal n0 n1 n2, ray.depth, ray.value, ray.colour⟩ := rfl
      simp only [hint]
      generalize (⟨ray.geometry, ray.refractionIndex, ray.interaction.interpolateNormal n0 n1 n2, ray.depth, ray.value, ray.colour⟩ : TRay) = q
      by_cases h3 : m.specularOnly = true
      · simp only [h3, if_true]
        rw [paths_shift, bind_assoc']
        refine Res.Rel.bind (Res.Rel.refl _) ?_
        rintro _ paths rfl
        simp only [Res.bind_ok, toList_shift]
        exact Res.Rel.bind (dcSpecular_moved hs _ _ st st' hst) fun a b hab => ⟨hab, fun _ => rfl⟩
      · simp only [h3]
        simp only [Bool.false_eq_true, if_false]
        rw [hst.1, getNAmbient_moved]
        simp only [hst.2.2]
        generalize q.getNAmbientSamples dc.nAmbientSamples dc.maxDepth dc.limitWeight st.rng = x
        obtain ⟨n, q2, rng⟩ := x
        have hd : (q2.moved v).depth = q2.depth := rfl
        have htr : (q2.moved v).getTriad = (q2.getTriad.1 + v, q2.getTriad.2) := rfl
        simp only [hd, htr]
        split_ifs
        · exact dcAmbient_moved hs m fuel _ _ _ _ n q2 _ _ ⟨rfl, hst.2.1, by simp [hst.2.2]⟩
        · trivial

theorem dcTraceRay_moved (hE : w.env.Uniform) (dc : DcFactory) (fuel : Nat) : MovedTracers v (dcTraceRay w dc fuel) (dcTraceRay (w.shift v) dc fuel) := by
  induction fuel with
  | zero => intro st st' r r' _ _; trivial
  | succ fuel ih =>
    intro st st' r r' hst hr
    unfold dcTraceRay
    rw [cast_shift hE hr, bind_assoc']
    refine Res.Rel.bind (Res.Rel.refl _) ?_
    rintro _ hit rfl
    simp only [Res.bind_ok]
    cases hit with
    | none =>
      simp only [Option.map_none]
      unfold dcMissStep
      obtain ⟨x, rfl⟩ := hr
      have hd : ({ r.shift v with interaction := x } : TRay).geometry.direction = r.geometry.direction := rfl
      have hc : ({ r.shift v with interaction := x } : TRay).colour = r.colour := rfl
      simp only [hd, hc, hst.2.1]
      refine Res.Rel.bind (Res.Rel.refl _) ?_
      rintro _ old rfl
      refine Res.Rel.bind (Res.Rel.refl _) ?_
      rintro _ c rfl
      exact ⟨⟨hst.1, rfl, hst.2.2⟩, fun h => h⟩
    | some y =>
      obtain ⟨i, q⟩ := y
      simp only [Option.map_some]
      have hd : (q.moved v).depth = q.depth := rfl
      simp only [hd]
      split_ifs
      · exact ⟨hst, fun _ => rfl⟩
      · exact (dcSurface_moved ih dc fuel i q st st' hst).imp fun a b hab => ⟨hab.1, fun _ => hab.2 trivial⟩

theorem dcSample_moved (hE : w.env.Uniform) (dc : DcFactory) (fuel : Nat) (origin e1 e2 normal d : Vec3 ℝ) (rng : Rng) : dcSample (w.shift v) dc fuel (origin + v) e1 e2 normal d rng = dcSample w dc fuel origin e1 e2 normal d rng := by
  unfold dcSample
  refine Res.Rel.eq (Res.Rel.bind (dcTraceRay_moved hE dc fuel _ _ _ _ ⟨rfl, rfl, rfl⟩ ?_) fun a b hab => hab.1.2.1)
  exact ⟨TRay.default.interaction, rfl⟩

theorem dcRow_moved (hE : w.env.Uniform) (dc : DcFactory) (fuel : Nat) (sensor : Ray3 ℝ) (primary : Rng) (secondary : Nat → Rng) : dcRow (w.shift v) dc fuel (sensor.shift v) primary secondary = dcRow w dc fuel sensor primary secondary := by
  unfold dcRow
  have h1 : (w.shift v).ext = w.ext := rfl
  have h2 : (sensor.shift v).direction = sensor.direction := rfl
  have h3 : (sensor.shift v).origin = sensor.origin + v := rfl
  simp only [h1, h2, h3, dcSample_moved hE]

theorem mapRes_map {A B C : Type} (g : A → B) (f : B → Res C) (l : List A) : mapRes f (l.map g) = mapRes (fun a => f (g a)) l := by
  induction l with
  | nil => rfl
  | cons a l ih => simp only [List.map_cons, mapRes, ih]

theorem calcDc_moved (hE : w.env.Uniform) (dc : DcFactory) (fuel : Nat) (sensors : List (Ray3 ℝ)) (primary : Nat → Rng) (secondary : Nat → Nat → Rng) :
    calcDc (w.shift v) dc fuel (sensors.map (Ray3.shift v)) primary secondary = calcDc w dc fuel sensors primary secondary := by
  unfold calcDc
  have h1 : ((sensors.map (Ray3.shift v)).zipIdx.map Prod.swap) = (sensors.zipIdx.map Prod.swap).map fun x => (x.1, x.2.shift v) := by
    rw [List.zipIdx_map]
    simp [List.map_map, Function.comp_def]
  rw [h1, mapRes_map]
  simp only [List.length_map, dcRow_moved hE]

/-- **C129.** A scene and its sensors displaced together: the same history of calls with every object displaced by `v` succeeds, and the daylight coefficients of the displaced sensors are those of the original ones (same settings, same random numbers); or both end the program, or neither ends. -/
theorem C129_moved (env : SceneEnv ℝ) (hE : env.Uniform) (v : Vec3 ℝ) (ops : List (SceneOp ℝ)) (s : Scene ℝ) (h : Scene.run env {} ops = .ok s) :
    ∃ s', Scene.run env {} (ops.map (SceneOp.shift v)) = .ok s' ∧ ∀ ext dt sky col dc fuel sensors primary secondary,
      calcDc ⟨s', env, ext, dt, sky, col⟩ dc fuel (sensors.map (Ray3.shift v)) primary secondary = calcDc ⟨s, env, ext, dt, sky, col⟩ dc fuel sensors primary secondary := by
  refine ⟨s.shift v, ?_, fun ext dt sky col dc fuel sensors primary secondary => calcDc_moved (w := ⟨s, env, ext, dt, sky, col⟩) hE dc fuel sensors primary secondary⟩
  have hrun : Scene.run env {} (ops.map (SceneOp.shift v)) = (Scene.run env {} ops).bind fun s => .ok (s.shift v) := run_shift hE v ops {}
  rw [hrun, h]
  rfl

/-! ### Cases -/

/-- A grey floor and a lamp under a bright sun. -/
noncomputable def studio : List (SceneOp ℝ) :=
  [.pushMaterial (.plastic (Spectrum.gray (1 / 2)) 0 0), .pushMaterial (.light (Spectrum.gray 100)), .pushObject 0 0 (.triangle (plane 0)), .pushObject 1 0 (.triangle (plane (-1))), .addPerezSky (some (⟨0, 0, 1⟩, 5, 1)), .rebuild]

/-- The same at night, the lamp dimmed; the numbers of the materials are others. -/
noncomputable def studio' : List (SceneOp ℝ) :=
  [.pushMaterial (.light ⟨1, 2, 3⟩), .pushMaterial (.plastic (Spectrum.gray (1 / 2)) 0 0), .addPerezSky none, .pushObject 1 1 (.triangle (plane 0)), .pushObject 0 1 (.triangle (plane (-1))), .rebuild]

theorem studio_same : SameButLighting [] [] studio studio' :=
  .pushLeft _ (.pushLeft _ (.pushRight _ (.pushRight _ (.skyRight _ (.object _ _ _ _ _ _ _ _ _ rfl rfl (Or.inl rfl) rfl rfl (Or.inl rfl) (.object _ _ _ _ _ _ _ _ _ rfl rfl (Or.inr ⟨_, _, rfl, rfl⟩) rfl rfl (Or.inl rfl)
    (.skyLeft _ (.rebuild (.nil _ _)))))))))

theorem builds (env : SceneEnv ℝ) (hB : env.bvh.Lawful) (hM : env.MeshAligned) (ops : List (SceneOp ℝ)) (s0 : Scene ℝ) (h0 : Scene.run env {} ops = .ok s0) : ∃ s, Scene.run env {} (ops ++ [.rebuild]) = .ok s ∧ s.lights = s0.lights ∧ s.distantLights = s0.distantLights := by
  obtain ⟨s1, bvh, e, _, _, h3, _, _, h6, h7, _⟩ := rebuild_spec env hB s0 (C10_aligned_and_valid env hB hM _ s0 h0).1
  refine ⟨s1, ?_, h6, h7⟩
  have happ : ∀ (l : List (SceneOp ℝ)) (s : Scene ℝ), s.run env (l ++ [.rebuild]) = (s.run env l).bind fun s => s.rebuildAccelerator env := by
    intro l
    induction l with
    | nil => intro s; simp only [List.nil_append, Scene.run, Scene.step, Res.bind_ok]; cases s.rebuildAccelerator env <;> rfl
    | cons a l ih => intro s; simp only [List.cons_append, Scene.run, ih, bind_assoc']
  rw [happ, h0, Res.bind_ok, e]

/-- C128 applies: the room lit by a lamp and the sun, and by a dimmed lamp at night, which a picture would tell apart. -/
example (ext : GeoExt) (dt : DirTests) (sky : Option (Vec3 ℝ → ℝ)) (dc : DcFactory) (fuel : Nat) (sensors : List (Ray3 ℝ)) (primary : Nat → Rng) (secondary : Nat → Nat → Rng) :
    ∃ s s' : Scene ℝ, Scene.run realEnv {} studio = .ok s ∧ Scene.run realEnv {} studio' = .ok s' ∧ s.lights.length = 1 ∧ s.distantLights.length = 1 ∧ s'.lights.length = 1 ∧ s'.distantLights.length = 0 ∧
      calcDc ⟨s', realEnv, ext, dt, none, none⟩ dc fuel sensors primary secondary = calcDc ⟨s, realEnv, ext, dt, sky, some Spectrum.one⟩ dc fuel sensors primary secondary := by
  obtain ⟨s, h, hl, hd⟩ := builds realEnv refEnv_lawful (fun _ _ => rfl) (studio.take 5) _ rfl
  obtain ⟨s', h', hl', hd'⟩ := builds realEnv refEnv_lawful (fun _ _ => rfl) (studio'.take 5) _ rfl
  refine ⟨s, s', h, h', ?_, ?_, ?_, ?_, C128_coefficients_ignore_lights realEnv studio studio' studio_same s s' h h' ext dt dt sky none (some Spectrum.one) none dc fuel sensors primary secondary⟩
  · rw [hl]; rfl
  · rw [hd]; rfl
  · rw [hl']; rfl
  · rw [hd']; rfl

/-- C129 applies: the room and its sensors a hundred units away, lamp included. -/
example (dc : DcFactory) (fuel : Nat) (primary : Nat → Rng) (secondary : Nat → Nat → Rng) : ∃ s s' : Scene ℝ, Scene.run realEnv {} studio = .ok s ∧ Scene.run realEnv {} (studio.map (SceneOp.shift ⟨100, 0, 0⟩)) = .ok s' ∧ s.lights.length = 1 ∧
    calcDc ⟨s', realEnv, plainExt fun _ => none, ⟨fun _ _ => false, fun _ _ => false⟩, none, none⟩ dc fuel [⟨⟨100, 0, 2⟩, ⟨0, 0, 1⟩⟩] primary secondary = calcDc ⟨s, realEnv, plainExt fun _ => none, ⟨fun _ _ => false, fun _ _ => false⟩, none, none⟩ dc fuel [⟨⟨0, 0, 2⟩, ⟨0, 0, 1⟩⟩] primary secondary := by
  obtain ⟨s, h, hl, hd⟩ := builds realEnv refEnv_lawful (fun _ _ => rfl) (studio.take 5) _ rfl
  obtain ⟨s', h', key⟩ := C129_moved realEnv realEnv_uniform ⟨100, 0, 0⟩ studio s h
  refine ⟨s, s', h, h', by rw [hl]; rfl, ?_⟩
  rw [← key]
  congr 1
  simp [Ray3.shift]
  ext <;> simp

end Rendering
