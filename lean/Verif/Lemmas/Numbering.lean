import Verif.Spec.Numbering
import Verif.Model.DcTracer
import Verif.Lemmas.Moved

/-!
# Lemmas for C109
-/

set_option linter.unusedSectionVars false
namespace Rendering

/-- Two outcomes of the same kind, with related values. -/
def Res.Rel {A B : Type} (R : A → B → Prop) : Res A → Res B → Prop
  | .ok a, .ok b => R a b
  | .panic, .panic => True
  | .diverge, .diverge => True
  | _, _ => False

theorem Res.Rel.bind {A B C D : Type} {R : A → B → Prop} {S : C → D → Prop} {x : Res A} {y : Res B} {f : A → Res C} {g : B → Res D} (h : Res.Rel R x y) (hf : ∀ a b, R a b → Res.Rel S (f a) (g b)) :
    Res.Rel S (x.bind f) (y.bind g) := by
  cases x <;> cases y <;> first | exact hf _ _ h | exact h | exact h.elim

theorem Res.Rel.refl {A : Type} (x : Res A) : Res.Rel (fun a b => b = a) x x := by cases x <;> first | rfl | trivial

section
variable {K : Type} [Field K]

/-- The numbers name the same material in both lists. -/
def SameMaterial (ms ms' : List (Material K)) (i j : Nat) : Prop := ∃ m, ms[i]? = some m ∧ ms'[j]? = some m

/-- The objects are the same but for the numbers of their materials. -/
def SameObject (ms ms' : List (Material K)) (o o' : Object K) : Prop := o'.primitive = o.primitive ∧ SameMaterial ms ms' o.front o'.front ∧ SameMaterial ms ms' o.back o'.back

/-- The scenes are the same but for the numbers of materials. -/
structure AlikeScenes (s s' : Scene K) : Prop where
  triangles : s'.triangles = s.triangles
  normals : s'.normals = s.normals
  accelerator : s'.accelerator = s.accelerator
  hasSky : s'.hasSky = s.hasSky
  front : List.Forall₂ (SameMaterial s.materials s'.materials) s.front s'.front
  back : List.Forall₂ (SameMaterial s.materials s'.materials) s.back s'.back
  lights : List.Forall₂ (SameObject s.materials s'.materials) s.lights s'.lights
  distant : List.Forall₂ (SameObject s.materials s'.materials) s.distantLights s'.distantLights

theorem SameMaterial.mono {ms ms' l l' : List (Material K)} {i j : Nat} (h : SameMaterial ms ms' i j) : SameMaterial (ms ++ l) (ms' ++ l') i j := by
  obtain ⟨m, h1, h2⟩ := h
  exact ⟨m, List.getElem?_append_left (List.getElem?_eq_some_iff.mp h1).1 ▸ h1, List.getElem?_append_left (List.getElem?_eq_some_iff.mp h2).1 ▸ h2⟩

theorem SameObject.mono {ms ms' l l' : List (Material K)} {o o' : Object K} (h : SameObject ms ms' o o') : SameObject (ms ++ l) (ms' ++ l') o o' := ⟨h.1, h.2.1.mono, h.2.2.mono⟩

theorem AlikeScenes.more {s s' : Scene K} (h : AlikeScenes s s') (l l' : List (Material K)) :
    AlikeScenes { s with materials := s.materials ++ l } { s' with materials := s'.materials ++ l' } :=
  { triangles := h.triangles
    normals := h.normals
    accelerator := h.accelerator
    hasSky := h.hasSky
    front := h.front.imp fun _ _ x => x.mono
    back := h.back.imp fun _ _ x => x.mono
    lights := h.lights.imp fun _ _ x => x.mono
    distant := h.distant.imp fun _ _ x => x.mono }

theorem gather_rel {A B : Type} {R : A → B → Prop} {l : List A} {l' : List B} (h : List.Forall₂ R l l') (order : List Nat) : Res.Rel (List.Forall₂ R) (gather l order) (gather l' order) := by
  induction order with
  | nil => exact List.Forall₂.nil
  | cons i is ih =>
    refine Res.Rel.bind (R := R) ?_ fun a b hab => Res.Rel.bind ih fun as bs habs => List.Forall₂.cons hab habs
    by_cases hi : i < l.length
    · have hi' : i < l'.length := h.length_eq ▸ hi
      rw [List.getElem?_eq_getElem hi, List.getElem?_eq_getElem hi']
      exact (List.forall₂_iff_get.mp h).2 i hi hi'
    · have hi' : ¬ i < l'.length := h.length_eq ▸ hi
      rw [List.getElem?_eq_none (by omega), List.getElem?_eq_none (by omega)]
      trivial

variable [LinearOrder K] [FloorRing K]

theorem rebuild_alike (env : SceneEnv K) {s s' : Scene K} (h : AlikeScenes s s') :
    Res.Rel (fun t t' => AlikeScenes t t' ∧ t.materials = s.materials ∧ t'.materials = s'.materials) (s.rebuildAccelerator env) (s'.rebuildAccelerator env) := by
  unfold Scene.rebuildAccelerator
  have key : Res.Rel (fun (x : Bvh K × List (Tri K) × List Nat × List Nat × List (Normals K)) (y : Bvh K × List (Tri K) × List Nat × List Nat × List (Normals K)) =>
      y.1 = x.1 ∧ y.2.1 = x.2.1 ∧ List.Forall₂ (SameMaterial s.materials s'.materials) x.2.2.1 y.2.2.1 ∧ List.Forall₂ (SameMaterial s.materials s'.materials) x.2.2.2.1 y.2.2.2.1 ∧ y.2.2.2.2 = x.2.2.2.2)
      (bvhNew env.bvh s.triangles s.front s.back s.normals) (bvhNew env.bvh s'.triangles s'.front s'.back s'.normals) := by
    unfold bvhNew
    rw [h.triangles, h.normals]
    simp only
    by_cases h0 : s.triangles.length = 0
    · rw [if_pos h0, if_pos h0]
      exact ⟨rfl, rfl, h.front, h.back, rfl⟩
    · rw [if_neg h0, if_neg h0]
      refine Res.Rel.bind (Res.Rel.refl _) ?_
      rintro ⟨root, order⟩ _ rfl
      refine Res.Rel.bind (Res.Rel.refl _) ?_
      rintro tris _ rfl
      refine Res.Rel.bind (gather_rel h.back order) fun bk bk' hbk => ?_
      refine Res.Rel.bind (gather_rel h.front order) fun fr fr' hfr => ?_
      refine Res.Rel.bind (Res.Rel.refl _) ?_
      rintro nm _ rfl
      exact ⟨rfl, rfl, hfr, hbk, rfl⟩
  refine Res.Rel.bind key ?_
  rintro ⟨a, t, f, b, n⟩ ⟨a', t', f', b', n'⟩ ⟨h1, h2, h3, h4, h5⟩
  simp only at h1 h2 h3 h4 h5
  subst h1 h2 h5
  refine ⟨?_, rfl, rfl⟩
  exact
    { triangles := rfl
      normals := rfl
      accelerator := rfl
      hasSky := h.hasSky
      front := h3
      back := h4
      lights := h.lights
      distant := h.distant }

theorem pushObject_alike (env : SceneEnv K) {s s' : Scene K} (h : AlikeScenes s s') (f b f' b' : Nat) (p : Primitive K) (hf : SameMaterial s.materials s'.materials f f') (hb : SameMaterial s.materials s'.materials b b') :
    Res.Rel (fun t t' => AlikeScenes t t' ∧ t.materials = s.materials ∧ t'.materials = s'.materials) (s.pushObject env f b p) (s'.pushObject env f' b' p) := by
  obtain ⟨mf, hf1, hf2⟩ := hf
  obtain ⟨mb, hb1, hb2⟩ := hb
  unfold Scene.pushObject
  rw [hf1, hf2, hb1, hb2]
  simp only
  refine Res.Rel.bind (Res.Rel.refl _) ?_
  rintro ⟨ts, ns⟩ _ rfl
  have rep : ∀ {i j : Nat} (n : Nat), SameMaterial s.materials s'.materials i j → List.Forall₂ (SameMaterial s.materials s'.materials) (List.replicate n i) (List.replicate n j) := by
    intro i j n hij
    induction n with
    | zero => exact List.Forall₂.nil
    | succ n ih => exact List.Forall₂.cons hij ih
  have hf : SameMaterial s.materials s'.materials f f' := ⟨mf, hf1, hf2⟩
  have hb : SameMaterial s.materials s'.materials b b' := ⟨mb, hb1, hb2⟩
  have ho : List.Forall₂ (SameObject s.materials s'.materials) [({ front := f, back := b, primitive := p } : Object K)] [{ front := f', back := b', primitive := p }] :=
    List.Forall₂.cons ⟨rfl, hf, hb⟩ List.Forall₂.nil
  by_cases hl : (mf.emitsDirectLight || mb.emitsDirectLight) = true
  · by_cases hs : p.id = "source"
    · simp only [hl, hs, if_true]
      refine ⟨?_, rfl, rfl⟩
      exact
        { triangles := by simp only [h.triangles]
          normals := by simp only [h.normals]
          accelerator := h.accelerator
          hasSky := h.hasSky
          front := List.rel_append h.front (rep _ hf)
          back := List.rel_append h.back (rep _ hb)
          lights := h.lights
          distant := List.rel_append h.distant ho }
    · simp only [hl, hs, if_true, if_false]
      refine ⟨?_, rfl, rfl⟩
      exact
        { triangles := by simp only [h.triangles]
          normals := by simp only [h.normals]
          accelerator := h.accelerator
          hasSky := h.hasSky
          front := List.rel_append h.front (rep _ hf)
          back := List.rel_append h.back (rep _ hb)
          lights := List.rel_append h.lights ho
          distant := h.distant }
  · simp only [hl]
    refine ⟨?_, rfl, rfl⟩
    exact
      { triangles := by simp [h.triangles]
        normals := by simp [h.normals]
        accelerator := h.accelerator
        hasSky := h.hasSky
        front := List.rel_append h.front (rep _ hf)
        back := List.rel_append h.back (rep _ hb)
        lights := h.lights
        distant := h.distant }

theorem run_alike (env : SceneEnv K) {ms ms' : List (Material K)} {ops ops' : List (SceneOp K)} (hn : SameButNumbering ms ms' ops ops') :
    ∀ s s' : Scene K, s.materials = ms → s'.materials = ms' → AlikeScenes s s' → Res.Rel AlikeScenes (s.run env ops) (s'.run env ops') := by
  induction hn with
  | nil ms ms' => exact fun s s' _ _ h => h
  | @pushLeft ms ms' ops ops' m hn ih =>
    intro s s' h1 h2 h
    have := h.more [m] []
    simp only [List.append_nil] at this
    exact ih _ _ (by simp [Scene.pushMaterial, h1]) h2 this
  | @pushRight ms ms' ops ops' m hn ih =>
    intro s s' h1 h2 h
    have := h.more [] [m]
    simp only [List.append_nil] at this
    exact ih _ _ h1 (by simp [Scene.pushMaterial, h2]) this
  | @object ms ms' ops ops' f b f' b' p mf mb e1 e2 e3 e4 hn ih =>
    intro s s' h1 h2 h
    subst h1 h2
    refine Res.Rel.bind (pushObject_alike env h f b f' b' p ⟨mf, e1, e2⟩ ⟨mb, e3, e4⟩) fun t t' ht => ih t t' ht.2.1 ht.2.2 ht.1
  | @build ms ms' ops ops' hn ih =>
    intro s s' h1 h2 h
    subst h1 h2
    refine Res.Rel.bind (R := fun t t' => AlikeScenes t t' ∧ t.materials = s.materials ∧ t'.materials = s'.materials) ?_ fun t t' ht => ih t t' ht.2.1 ht.2.2 ht.1
    show Res.Rel _ (s.buildAccelerator env) (s'.buildAccelerator env)
    unfold Scene.buildAccelerator
    rw [h.accelerator]
    split_ifs
    · trivial
    · exact rebuild_alike env h
  | @rebuild ms ms' ops ops' hn ih =>
    intro s s' h1 h2 h
    subst h1 h2
    exact Res.Rel.bind (rebuild_alike env h) fun t t' ht => ih t t' ht.2.1 ht.2.2 ht.1
  | @sky ms ms' ops ops' sun hn ih =>
    intro s s' h1 h2 h
    subst h1 h2
    have hs : AlikeScenes { s with hasSky := true } { s' with hasSky := true } :=
      { triangles := h.triangles
        normals := h.normals
        accelerator := h.accelerator
        hasSky := rfl
        front := h.front
        back := h.back
        lights := h.lights
        distant := h.distant }
    cases sun with
    | none => exact ih _ _ (by simp [skyMaterials]) (by simp [skyMaterials]) hs
    | some x =>
      obtain ⟨dir, br, ang⟩ := x
      have hs2 := hs.more [.light (Spectrum.gray br)] [.light (Spectrum.gray br)]
      refine Res.Rel.bind (pushObject_alike env hs2 _ _ _ _ (.source dir ang) ⟨.light (Spectrum.gray br), ?_, ?_⟩ ⟨.light (Spectrum.gray br), ?_, ?_⟩) fun t t' ht => ih t t' ht.2.1 ht.2.2 ht.1
      all_goals simp

end

/-! ## Tracing -/

theorem cast_alike {s s' : Scene ℝ} (h : AlikeScenes s s') (env : SceneEnv ℝ) (ext : GeoExt) (dt : DirTests) (sky : Option (Vec3 ℝ → ℝ)) (col : Option (Spectrum ℝ)) :
    World.cast ⟨s', env, ext, dt, sky, col⟩ = World.cast ⟨s, env, ext, dt, sky, col⟩ := by
  funext ray
  unfold World.cast Scene.castRay
  simp only [h.accelerator, h.triangles]

theorem named_alike {ms ms' : List (Material ℝ)} {l l' : List Nat} (h : List.Forall₂ (SameMaterial ms ms') l l') (i : Nat) :
    ((Res.ofOption l'[i]?).bind fun k => Res.ofOption ms'[k]?) = (Res.ofOption l[i]?).bind fun k => Res.ofOption ms[k]? := by
  by_cases hi : i < l.length
  · have hi' : i < l'.length := h.length_eq ▸ hi
    obtain ⟨m, h1, h2⟩ := (List.forall₂_iff_get.mp h).2 i hi hi'
    rw [List.getElem?_eq_getElem hi, List.getElem?_eq_getElem hi']
    simp only [Res.ofOption_some, Res.bind_ok]
    simp only [List.get_eq_getElem] at h1 h2
    rw [h1, h2]
  · have hi' : ¬ i < l'.length := h.length_eq ▸ hi
    rw [List.getElem?_eq_none (by omega), List.getElem?_eq_none (by omega)]
    rfl

theorem materialAt_alike {s s' : Scene ℝ} (h : AlikeScenes s s') (env : SceneEnv ℝ) (ext : GeoExt) (dt : DirTests) (sky : Option (Vec3 ℝ → ℝ)) (col : Option (Spectrum ℝ)) :
    World.materialAt ⟨s', env, ext, dt, sky, col⟩ = World.materialAt ⟨s, env, ext, dt, sky, col⟩ := by
  funext side i
  cases side with
  | Front => exact named_alike h.front i
  | Back => exact named_alike h.back i
  | NonApplicable => rfl

theorem intersectLight_alike {s s' : Scene ℝ} (h : AlikeScenes s s') (env : SceneEnv ℝ) (ext : GeoExt) (dt : DirTests) (sky : Option (Vec3 ℝ → ℝ)) (col : Option (Spectrum ℝ)) {o o' : Object ℝ}
    (ho : SameObject s.materials s'.materials o o') : World.intersectLight ⟨s', env, ext, dt, sky, col⟩ o' = World.intersectLight ⟨s, env, ext, dt, sky, col⟩ o := by
  obtain ⟨hp, ⟨mf, f1, f2⟩, mb, b1, b2⟩ := ho
  funext ray
  unfold World.intersectLight Scene.unobstructedDistance
  simp only [hp, h.accelerator, h.triangles, f1, f2, b1, b2]

theorem lightLoop_alike {s s' : Scene ℝ} (h : AlikeScenes s s') (env : SceneEnv ℝ) (ext : GeoExt) (dt : DirTests) (sky : Option (Vec3 ℝ → ℝ)) (col : Option (Spectrum ℝ)) {o o' : Object ℝ}
    (ho : SameObject s.materials s'.materials o o') (m : Material ℝ) (ray : TRay) (n : Nat) (pt normal e1 e2 : Vec3 ℝ) (fuel i : Nat) (acc : Spectrum ℝ) (rng : Rng) :
    World.lightLoop ⟨s', env, ext, dt, sky, col⟩ m ray n pt normal e1 e2 o' fuel i acc rng = World.lightLoop ⟨s, env, ext, dt, sky, col⟩ m ray n pt normal e1 e2 o fuel i acc rng := by
  induction fuel generalizing i acc rng with
  | zero => rfl
  | succ fuel ih =>
    unfold World.lightLoop
    rw [ho.1]
    simp only [intersectLight_alike h env ext dt sky col ho, ih]
    rfl

theorem lightsLoop_alike {s s' : Scene ℝ} (h : AlikeScenes s s') (env : SceneEnv ℝ) (ext : GeoExt) (dt : DirTests) (sky : Option (Vec3 ℝ → ℝ)) (col : Option (Spectrum ℝ)) {l l' : List (Object ℝ)}
    (hl : List.Forall₂ (SameObject s.materials s'.materials) l l') (m : Material ℝ) (ray : TRay) (n : Nat) (pt normal e1 e2 : Vec3 ℝ) (fuel : Nat) (acc : Spectrum ℝ) (rng : Rng) :
    World.lightsLoop ⟨s', env, ext, dt, sky, col⟩ fuel m ray n pt normal e1 e2 l' acc rng = World.lightsLoop ⟨s, env, ext, dt, sky, col⟩ fuel m ray n pt normal e1 e2 l acc rng := by
  induction hl generalizing acc rng with
  | nil => rfl
  | cons ho _ ih =>
    unfold World.lightsLoop
    rw [lightLoop_alike h env ext dt sky col ho]
    simp only [ih]

theorem localIllumination_alike {s s' : Scene ℝ} (h : AlikeScenes s s') (env : SceneEnv ℝ) (ext : GeoExt) (dt : DirTests) (sky : Option (Vec3 ℝ → ℝ)) (col : Option (Spectrum ℝ)) :
    World.localIllumination ⟨s', env, ext, dt, sky, col⟩ = World.localIllumination ⟨s, env, ext, dt, sky, col⟩ := by
  funext fuel m ray rng n
  unfold World.localIllumination World.sampleLightArray
  simp only [lightsLoop_alike h env ext dt sky col h.lights, lightsLoop_alike h env ext dt sky col h.distant]

theorem traceRay_alike {s s' : Scene ℝ} (h : AlikeScenes s s') (env : SceneEnv ℝ) (ext : GeoExt) (dt : DirTests) (sky : Option (Vec3 ℝ → ℝ)) (col : Option (Spectrum ℝ)) (rt : RayTracer) (fuel : Nat) :
    traceRay ⟨s', env, ext, dt, sky, col⟩ rt fuel = traceRay ⟨s, env, ext, dt, sky, col⟩ rt fuel := by
  induction fuel with
  | zero => rfl
  | succ fuel ih =>
    funext st ray
    unfold traceRay traceStep surfaceStep missStep
    simp only [ih, cast_alike h, materialAt_alike h, localIllumination_alike h, h.triangles, h.normals]

theorem dcTraceRay_alike {s s' : Scene ℝ} (h : AlikeScenes s s') (env : SceneEnv ℝ) (ext : GeoExt) (dt : DirTests) (sky : Option (Vec3 ℝ → ℝ)) (col : Option (Spectrum ℝ)) (dc : DcFactory) (fuel : Nat) :
    dcTraceRay ⟨s', env, ext, dt, sky, col⟩ dc fuel = dcTraceRay ⟨s, env, ext, dt, sky, col⟩ dc fuel := by
  induction fuel with
  | zero => rfl
  | succ fuel ih =>
    funext st ray
    unfold dcTraceRay dcSurfaceStep
    simp only [ih, cast_alike h, materialAt_alike h, h.normals]

theorem calcDc_alike {s s' : Scene ℝ} (h : AlikeScenes s s') (env : SceneEnv ℝ) (ext : GeoExt) (dt : DirTests) (sky : Option (Vec3 ℝ → ℝ)) (col : Option (Spectrum ℝ)) (dc : DcFactory) (fuel : Nat) :
    calcDc ⟨s', env, ext, dt, sky, col⟩ dc fuel = calcDc ⟨s, env, ext, dt, sky, col⟩ dc fuel := by
  funext rays primary secondary
  unfold calcDc dcRow dcSample
  simp only [dcTraceRay_alike h]

end Rendering
