import Verif.Lemmas.Superposition
import Verif.Props.Cases
import Verif.Props.MovedScenes

/-!
# C114: the light of two groups of lamps adds up
-/

set_option linter.unusedSectionVars false
namespace Rendering

/-- Lists of calls that differ only in how much lights emit all panic, all run forever or all succeed, on any scene reached so far. -/
theorem scenes_add_up {K : Type} [Field K] [LinearOrder K] [FloorRing K] (env : SceneEnv K) {ops opsa opsb : List (SceneOp K)} (ho : CallsAddUp ops opsa opsb) :
    Res.Rel3 Scene.IsSum (Scene.run env {} ops) (Scene.run env {} opsa) (Scene.run env {} opsb) :=
  run_sum env ho ⟨rfl, rfl, ⟨rfl, rfl⟩, fun i m ma mb h => by simp at h⟩

theorem worlds_add_up (env : SceneEnv ℝ) {ops opsa opsb : List (SceneOp ℝ)} (ho : CallsAddUp ops opsa opsb) {s a b : Scene ℝ} (hs : Scene.run env {} ops = .ok s) (ha : Scene.run env {} opsa = .ok a) (hb : Scene.run env {} opsb = .ok b)
    (ext : GeoExt) (dt : DirTests) {sky skya skyb : Option (Vec3 ℝ → ℝ)} (hsky : SkiesAddUp sky skya skyb) (col : Option (Spectrum ℝ)) :
    World.IsSum ⟨s, env, ext, dt, sky, col⟩ ⟨a, env, ext, dt, skya, col⟩ ⟨b, env, ext, dt, skyb, col⟩ := by
  have h := scenes_add_up env ho
  rw [hs, ha, hb] at h
  cases h with
  | ok h => exact ⟨h, ⟨rfl, rfl⟩, ⟨rfl, rfl⟩, ⟨rfl, rfl⟩, ⟨rfl, rfl⟩, hsky⟩

/-- **C114 (partial).** Build a scene three times, by calls that differ only in how much the lights emit: each light emits in the first what it emits in the second and the third together, and likewise the sky. Then either all three
are refused or none is, and tracing the same ray with the same random numbers brings, in every channel, the sum of the light of the second and the third, with the same probability; uses the same random numbers; and panics or runs
forever all three times or never. For scenes whose registered lights are lights on both sides. (Missing: a light with another material on its back; for those it is false, `C114_violation_dark_side`.) -/
theorem C114_light_adds_up_partial (env : SceneEnv ℝ) (ops opsa opsb : List (SceneOp ℝ)) (ho : CallsAddUp ops opsa opsb) :
    ((∃ s, Scene.run env {} ops = .ok s) ↔ ∃ a, Scene.run env {} opsa = .ok a) ∧ ((∃ s, Scene.run env {} ops = .ok s) ↔ ∃ b, Scene.run env {} opsb = .ok b) ∧
    ∀ s a b, Scene.run env {} ops = .ok s → Scene.run env {} opsa = .ok a → Scene.run env {} opsb = .ok b →
      ∀ (ext : GeoExt) (dt : DirTests) (sky skya skyb : Option (Vec3 ℝ → ℝ)) (_ : SkiesAddUp sky skya skyb) (col : Option (Spectrum ℝ)) (_ : World.TwoSidedLights ⟨s, env, ext, dt, sky, col⟩) (rt : RayTracer) (fuel : Nat) (rng : Rng)
        (rays : List TRay) (ray : TRay) (_ : rt.maxDepth < rays.length),
        LightAddsUp (outcome (traceRay ⟨s, env, ext, dt, sky, col⟩ rt fuel ⟨rng, rays⟩ ray)) (outcome (traceRay ⟨a, env, ext, dt, skya, col⟩ rt fuel ⟨rng, rays⟩ ray)) (outcome (traceRay ⟨b, env, ext, dt, skyb, col⟩ rt fuel ⟨rng, rays⟩ ray)) := by
  refine ⟨?_, ?_, fun s a b hs ha hb ext dt sky skya skyb hsky col h2 rt fuel rng rays ray hr => ?_⟩
  · have h := scenes_add_up env ho
    generalize Scene.run env {} ops = x at h ⊢
    generalize Scene.run env {} opsa = y at h ⊢
    generalize Scene.run env {} opsb = z at h
    cases h <;> simp
  · have h := scenes_add_up env ho
    generalize Scene.run env {} ops = x at h ⊢
    generalize Scene.run env {} opsb = y at h ⊢
    generalize Scene.run env {} opsa = z at h
    cases h <;> simp
  · rw [C75_is_reference_tracer _ rt fuel rng rays ray hr, C75_is_reference_tracer _ rt fuel rng rays ray hr, C75_is_reference_tracer _ rt fuel rng rays ray hr, lightAddsUp_iff]
    exact refTrace_sum (worlds_add_up env ho hs ha hb ext dt hsky col) h2 rt fuel rng ray

/-- **C114.** Switching off some of the lights in one copy of the calls, and all the others in another, is such a division. -/
theorem C114_groups_of_lamps {K : Type} [Field K] (off : Nat → Bool) (ops : List (SceneOp K)) : CallsAddUp ops (switchOff off ops) (switchOff (fun i => !off i) ops) := by
  unfold switchOff
  induction ops generalizing off with
  | nil => exact .nil
  | cons op ops ih =>
    simp only [List.mapIdx_cons]
    refine .cons ?_ (ih fun i => off (i + 1))
    have hz : ∀ c : Spectrum K, c = Spectrum.black + c ∧ c = c + Spectrum.black := fun c => ⟨by ext <;> simp [Spectrum.black, Spectrum.gray], by ext <;> simp [Spectrum.black, Spectrum.gray]⟩
    have hm : ∀ (m : Material K) (_ : ∀ c, m ≠ .light c) (o : Bool), SceneOp.IsSum (.pushMaterial m) (if o then SceneOp.dark (.pushMaterial m) else .pushMaterial m) (if !o then SceneOp.dark (.pushMaterial m) else .pushMaterial m) := by
      intro m hm o
      have : SceneOp.dark (.pushMaterial m) = .pushMaterial m := by
        cases m with
        | light c => exact absurd rfl (hm c)
        | _ => rfl
      rw [this, ite_self, ite_self]
      exact .material (.other m hm)
    suffices key : ∀ o : Bool, SceneOp.IsSum op (if o then op.dark else op) (if !o then op.dark else op) from key (off 0)
    intro o
    cases op with
    | pushMaterial m =>
      cases m with
      | light c =>
        cases o with
        | true => exact .material (by conv => { arg 1; rw [(hz c).1] }; exact .light _ _)
        | false => exact .material (by conv => { arg 1; rw [(hz c).2] }; exact .light _ _)
      | _ => exact hm _ (by simp) o
    | pushObject f b p => cases o <;> exact .object f b p
    | build => cases o <;> exact .build
    | rebuild => cases o <;> exact .rebuild
    | addPerezSky sun =>
      cases sun with
      | none => cases o <;> exact .night
      | some x =>
        obtain ⟨dir, br, angle⟩ := x
        cases o with
        | true => have := SceneOp.IsSum.sun dir 0 br angle; rwa [zero_add] at this
        | false => have := SceneOp.IsSum.sun dir br 0 angle; rwa [add_zero] at this

theorem pixelTracer_sum {w a b : World} (rt : RayTracer) (fuel : Nat) (c : Pinhole) (p : Nat × Nat) (st sta stb : TState) (ha : sta.rng = st.rng) (hb : stb.rng = st.rng)
    (h : LightAddsUp (outcome (traceRay w rt fuel st (c.traceableRay p))) (outcome (traceRay a rt fuel sta (c.traceableRay p))) (outcome (traceRay b rt fuel stb (c.traceableRay p)))) :
    (pixelTracer w rt fuel c p st).1 = (pixelTracer a rt fuel c p sta).1 + (pixelTracer b rt fuel c p stb).1 ∧ (pixelTracer a rt fuel c p sta).2.rng = (pixelTracer w rt fuel c p st).2.rng ∧
    (pixelTracer b rt fuel c p stb).2.rng = (pixelTracer w rt fuel c p st).2.rng := by
  rw [lightAddsUp_iff] at h
  unfold pixelTracer
  have hbb : (Spectrum.black : Spectrum ℝ) = Spectrum.black + Spectrum.black := black_add_black
  generalize traceRay w rt fuel st (c.traceableRay p) = x at h ⊢
  generalize traceRay a rt fuel sta (c.traceableRay p) = y at h ⊢
  generalize traceRay b rt fuel stb (c.traceableRay p) = z at h ⊢
  cases x with
  | ok x =>
    cases y with
    | ok y =>
      cases z with
      | ok z =>
        obtain ⟨⟨v, q⟩, r, t⟩ := x
        obtain ⟨⟨v1, q1⟩, r1, t1⟩ := y
        obtain ⟨⟨v2, q2⟩, r2, t2⟩ := z
        cases h with
        | ok h =>
          obtain ⟨hx, -, h1, h2⟩ := h
          exact ⟨hx, h1.symm, h2.symm⟩
      | panic => cases h
      | diverge => cases h
    | panic => cases h
    | diverge => cases h
  | panic =>
    cases y <;> cases z <;> first | exact ⟨hbb, ha, hb⟩ | cases h
  | diverge =>
    cases y <;> cases z <;> first | exact ⟨hbb, ha, hb⟩ | cases h

/-- **C114 (partial).** And so the pictures that `spict` takes of the three scenes: each pixel of the first is the sum of that pixel in the second and the third, channel by channel, each rendered by any number of threads in any order
with the same random numbers. (Missing as above.) -/
theorem C114_pictures_add_up_partial (env : SceneEnv ℝ) (ops opsa opsb : List (SceneOp ℝ)) (ho : CallsAddUp ops opsa opsb) (s a b : Scene ℝ) (hs : Scene.run env {} ops = .ok s) (ha : Scene.run env {} opsa = .ok a)
    (hb : Scene.run env {} opsb = .ok b) (ext : GeoExt) (dt : DirTests) (sky skya skyb : Option (Vec3 ℝ → ℝ)) (hsky : SkiesAddUp sky skya skyb) (col : Option (Spectrum ℝ)) (h2 : World.TwoSidedLights ⟨s, env, ext, dt, sky, col⟩)
    (o : SpictOptions) (hsz : o.Sized) (hd : o.rt.maxDepth < 15) (fuel : Nat) (rng : Nat → Rng) (st sta stb : RState TState (Spectrum ℝ)) (hr : o.Rendered ⟨s, env, ext, dt, sky, col⟩ fuel rng st)
    (hra : o.Rendered ⟨a, env, ext, dt, skya, col⟩ fuel rng sta) (hrb : o.Rendered ⟨b, env, ext, dt, skyb, col⟩ fuel rng stb) (x y : Nat) (hx : x < o.width) (hy : y < o.height) :
    ∃ u v, (renderPixels o.width o.height sta)[y * o.width + x]? = some u ∧ (renderPixels o.width o.height stb)[y * o.width + x]? = some v ∧ (renderPixels o.width o.height st)[y * o.width + x]? = some (u + v) := by
  have key := (C114_light_adds_up_partial env ops opsa opsb ho).2.2 s a b hs ha hb ext dt sky skya skyb hsky col h2 o.rt fuel
  obtain ⟨⟨m, hm⟩, hf⟩ := hr
  obtain ⟨⟨ma, hma⟩, hfa⟩ := hra
  obtain ⟨⟨mb, hmb⟩, hfb⟩ := hrb
  rw [C39_pixel_value _ _ _ _ hsz.pixels hm hf x y hx hy, C39_pixel_value _ _ _ _ hsz.pixels hma hfa x y hx hy, C39_pixel_value _ _ _ _ hsz.pixels hmb hfb x y hx hy]
  generalize (⟨s, env, ext, dt, sky, col⟩ : World) = w at *
  generalize (⟨a, env, ext, dt, skya, col⟩ : World) = wa at *
  generalize (⟨b, env, ext, dt, skyb, col⟩ : World) = wb at *
  have hk := pixelState_keeps w o.rt fuel o.camera rng o.width hd
  have hka := pixelState_keeps wa o.rt fuel o.camera rng o.width hd
  have hkb := pixelState_keeps wb o.rt fuel o.camera rng o.width hd
  have key' : ∀ p (t ta tb : TState), ta.rng = t.rng → tb.rng = t.rng → o.rt.maxDepth < t.rays.length → o.rt.maxDepth < ta.rays.length → o.rt.maxDepth < tb.rays.length →
      LightAddsUp (outcome (traceRay w o.rt fuel t (o.camera.traceableRay p))) (outcome (traceRay wa o.rt fuel ta (o.camera.traceableRay p))) (outcome (traceRay wb o.rt fuel tb (o.camera.traceableRay p))) := by
    intro p t ta tb h1 h2 l l1 l2
    obtain ⟨r, q⟩ := t
    obtain ⟨ra, qa⟩ := ta
    obtain ⟨rb, qb⟩ := tb
    simp only at h1 h2 l l1 l2
    subst h1 h2
    have := key rb q (o.camera.traceableRay p) l
    rw [C75_is_reference_tracer _ _ _ _ _ _ l, C75_is_reference_tracer _ _ _ _ _ _ l, C75_is_reference_tracer _ _ _ _ _ _ l] at this
    rw [C75_is_reference_tracer _ _ _ _ _ _ l, C75_is_reference_tracer _ _ _ _ _ _ l1, C75_is_reference_tracer _ _ _ _ _ _ l2]
    exact this
  have hrng : ∀ i, (pixelState (pixelTracer wa o.rt fuel o.camera) (chunkState rng) o.width i).rng = (pixelState (pixelTracer w o.rt fuel o.camera) (chunkState rng) o.width i).rng ∧
      (pixelState (pixelTracer wb o.rt fuel o.camera) (chunkState rng) o.width i).rng = (pixelState (pixelTracer w o.rt fuel o.camera) (chunkState rng) o.width i).rng := by
    intro i
    induction i with
    | zero => exact ⟨rfl, rfl⟩
    | succ i ih =>
      unfold pixelState
      split_ifs
      · exact ⟨rfl, rfl⟩
      · exact (pixelTracer_sum o.rt fuel o.camera _ _ _ _ ih.1 ih.2 (key' _ _ _ _ ih.1 ih.2 (hk i) (hka i) (hkb i))).2
  exact ⟨_, _, rfl, rfl, congrArg some (pixelTracer_sum o.rt fuel o.camera _ _ _ _ (hrng _).1 (hrng _).2 (key' _ _ _ _ (hrng _).1 (hrng _).2 (hk _) (hka _) (hkb _))).1⟩

/-- **C114, violation.** The floor under a luminaire with a plastic underside: dim all lights to one half. Two such scenes are a division of the fully lit one, but each of the three brings the floor the same light, which is not black:
the light of the halves does not add up to the light of the whole. -/
theorem C114_violation_dark_side : ∃ (w : World) (rng rng' : Rng) (v : Spectrum ℝ), w.Renders uplight ∧ v ≠ v + v ∧ (∀ m ∈ uplight.materials, Material.IsSum (m.brighten 1) (m.brighten (1 / 2)) (m.brighten (1 / 2))) ∧
    (w.brighten 1).localIllumination 2 (.plastic (Spectrum.gray (1 / 2)) 0 0) landed rng 1 = .ok (v, rng') ∧ (w.brighten (1 / 2)).localIllumination 2 (.plastic (Spectrum.gray (1 / 2)) 0 0) landed rng 1 = .ok (v, rng') := by
  obtain ⟨w, rng, rng', v, hR, hv, h⟩ := C86_violation_switched_off
  refine ⟨w, rng, rng', v, hR, fun hvv => hv ?_, ?_, h 1, h (1 / 2)⟩
  · have e0 := congrArg Spectrum.c0 hvv
    have e1 := congrArg Spectrum.c1 hvv
    have e2 := congrArg Spectrum.c2 hvv
    simp at e0 e1 e2
    ext <;> simp [Spectrum.black, Spectrum.gray, e0, e1, e2]
  · intro m hm
    cases m with
    | light c =>
      have : (Material.light c).brighten (1 : ℝ) = .light (c.scale (1 / 2) + c.scale (1 / 2)) := by
        simp only [Material.brighten, Material.light.injEq]
        ext <;> simp [Spectrum.scale] <;> ring
      rw [this]
      exact .light _ _
    | _ => exact .other _ (by simp [Material.brighten])

/-! ### A room with a lamp and a sun -/

/-- A grey floor, a lamp one unit above the floor, and the sun at the zenith. -/
noncomputable def litRoom : List (SceneOp ℝ) :=
  [.pushMaterial (.plastic (Spectrum.gray (1 / 2)) 0 0), .pushMaterial (.light (Spectrum.gray 5)), .pushObject 0 0 (.triangle (plane 0)), .pushObject 1 1 (.triangle (plane 1)), .addPerezSky (some (⟨0, 0, 1⟩, 7, 1)), .build]

theorem litRoom_runs : ∃ s, Scene.run realEnv {} litRoom = .ok s ∧ s.lights ≠ [] ∧ s.distantLights ≠ [] ∧ ∀ ext dt sky col, World.TwoSidedLights ⟨s, realEnv, ext, dt, sky, col⟩ := by
  obtain ⟨s0, h0, hl, hd, hm, ha⟩ : ∃ s0 : Scene ℝ, Scene.run realEnv {} (litRoom.take 5) = .ok s0 ∧ s0.lights = [{ front := 1, back := 1, primitive := .triangle (plane 1) }] ∧
      s0.distantLights = [{ front := 2, back := 2, primitive := .source ⟨0, 0, 1⟩ 1 }] ∧ s0.materials = [.plastic (Spectrum.gray (1 / 2)) 0 0, .light (Spectrum.gray 5), .light (Spectrum.gray 7)] ∧ s0.accelerator = none := ⟨_, rfl, rfl, rfl, rfl, rfl⟩
  obtain ⟨s1, bvh, e, h1, h2, h3, h4, h5, h6, h7, h8⟩ := rebuild_spec realEnv refEnv_lawful s0 (C10_aligned_and_valid realEnv refEnv_lawful (fun _ _ => rfl) _ s0 h0).1
  refine ⟨s1, ?_, by rw [h6, hl]; simp, by rw [h7, hd]; simp, ?_⟩
  · have : Scene.run realEnv {} litRoom = (Scene.run realEnv {} (litRoom.take 5)).bind fun s => (s.buildAccelerator realEnv).bind fun s => .ok s := rfl
    rw [this, h0, Res.bind_ok, Scene.buildAccelerator, ha]
    simp only [Option.isSome_none, Bool.false_eq_true, if_false]
    rw [e]
    rfl
  · intro ext dt sky col o ho m hm'
    simp only [h6, h7, hl, hd] at ho
    simp only [h5, hm] at hm'
    simp only [List.singleton_append, List.mem_cons, List.not_mem_nil, or_false] at ho
    rcases ho with rfl | rfl
    · simp only [List.getElem?_cons_succ, List.getElem?_cons_zero, Option.some.injEq, or_self] at hm'
      exact ⟨_, hm'.symm⟩
    · simp only [List.getElem?_cons_succ, List.getElem?_cons_zero, Option.some.injEq, or_self] at hm'
      exact ⟨_, hm'.symm⟩

/-- C114 applies: the picture of the room with sun and lamp is the picture by sunlight plus the picture by lamplight. -/
example (ext : GeoExt) (dt : DirTests) (fuel : Nat) (rng : Nat → Rng) (x y : Nat) (hx : x < lookDown.width) (hy : y < lookDown.height) :
    ∃ (s a b : Scene ℝ) (p pa pb : RState TState (Spectrum ℝ)), Scene.run realEnv {} litRoom = .ok s ∧ Scene.run realEnv {} (switchOff (fun i => i == 1) litRoom) = .ok a ∧ Scene.run realEnv {} (switchOff (fun i => !(i == 1)) litRoom) = .ok b ∧
    Material.light Spectrum.black ∈ pushedMaterials (switchOff (fun i => i == 1) litRoom) ∧ s.lights ≠ [] ∧ s.distantLights ≠ [] ∧
    lookDown.Rendered ⟨s, realEnv, ext, dt, none, none⟩ fuel rng p ∧ lookDown.Rendered ⟨a, realEnv, ext, dt, none, none⟩ fuel rng pa ∧ lookDown.Rendered ⟨b, realEnv, ext, dt, none, none⟩ fuel rng pb ∧
    ∃ u v, (renderPixels 3 3 pa)[y * 3 + x]? = some u ∧ (renderPixels 3 3 pb)[y * 3 + x]? = some v ∧ (renderPixels 3 3 p)[y * 3 + x]? = some (u + v) := by
  obtain ⟨s, h, hl, hd, h2⟩ := litRoom_runs
  have hc := C114_groups_of_lamps (fun i => i == 1) litRoom
  have key := C114_light_adds_up_partial realEnv _ _ _ hc
  obtain ⟨a, ha⟩ := key.1.1 ⟨s, h⟩
  obtain ⟨b, hb⟩ := key.2.1.1 ⟨s, h⟩
  obtain ⟨p, hp⟩ := rendered_exists lookDown lookDown_sized ⟨s, realEnv, ext, dt, none, none⟩ fuel rng
  obtain ⟨pa, hpa⟩ := rendered_exists lookDown lookDown_sized ⟨a, realEnv, ext, dt, none, none⟩ fuel rng
  obtain ⟨pb, hpb⟩ := rendered_exists lookDown lookDown_sized ⟨b, realEnv, ext, dt, none, none⟩ fuel rng
  exact ⟨s, a, b, p, pa, pb, h, ha, hb, by simp [litRoom, switchOff, pushedMaterials, SceneOp.dark], hl, hd, hp, hpa, hpb,
    C114_pictures_add_up_partial realEnv _ _ _ hc s a b h ha hb ext dt none none none .none none (h2 _ _ _ _) lookDown lookDown_sized (by simp [lookDown]) fuel rng p pa pb hp hpa hpb x y hx hy⟩

/-- C114 applies, with a sky divided in two. -/
example (ext : GeoExt) (dt : DirTests) (fuel : Nat) (rng : Rng) : ∃ (s a b : Scene ℝ), Scene.run realEnv {} litRoom = .ok s ∧
    LightAddsUp (outcome (traceRay ⟨s, realEnv, ext, dt, some fun d => 1 + |d.z|, none⟩ ⟨2, 10, 70, 1 / 1000, 3 / 10⟩ fuel ⟨rng, defaultRays⟩ downRay))
      (outcome (traceRay ⟨a, realEnv, ext, dt, some fun _ => 1, none⟩ ⟨2, 10, 70, 1 / 1000, 3 / 10⟩ fuel ⟨rng, defaultRays⟩ downRay))
      (outcome (traceRay ⟨b, realEnv, ext, dt, some fun d => |d.z|, none⟩ ⟨2, 10, 70, 1 / 1000, 3 / 10⟩ fuel ⟨rng, defaultRays⟩ downRay)) := by
  obtain ⟨s, h, hl, hd, h2⟩ := litRoom_runs
  have key := C114_light_adds_up_partial realEnv _ _ _ (C114_groups_of_lamps (fun i => i == 1) litRoom)
  obtain ⟨a, ha⟩ := key.1.1 ⟨s, h⟩
  obtain ⟨b, hb⟩ := key.2.1.1 ⟨s, h⟩
  exact ⟨s, a, b, h, key.2.2 s a b h ha hb ext dt _ _ _ (.some (fun _ => 1) (fun d => |d.z|)) none (h2 _ _ _ _) _ fuel rng _ _ (by simp [defaultRays])⟩

end Rendering
