import Verif.Spec.SameSurfaces
import Verif.Lemmas.Numbering
import Verif.Props.Direct

/-!
# Lemmas for C128
-/

set_option linter.unusedSectionVars false
namespace Rendering

section
variable {K : Type} [Field K]

/-- The numbers name the same kind of surface in both lists. -/
def SameKind (ms ms' : List (Material K)) (i j : Nat) : Prop := ∃ m m', ms[i]? = some m ∧ ms'[j]? = some m' ∧ m.SameSurface m'

/-- The scenes have the same surfaces. -/
structure AlikeSurfaces (s s' : Scene K) : Prop where
  triangles : s'.triangles = s.triangles
  normals : s'.normals = s.normals
  accelerator : s'.accelerator = s.accelerator
  front : List.Forall₂ (SameKind s.materials s'.materials) s.front s'.front
  back : List.Forall₂ (SameKind s.materials s'.materials) s.back s'.back

theorem SameKind.mono {ms ms' l l' : List (Material K)} {i j : Nat} (h : SameKind ms ms' i j) : SameKind (ms ++ l) (ms' ++ l') i j := by
  obtain ⟨m, m', h1, h2, h3⟩ := h
  exact ⟨m, m', List.getElem?_append_left (List.getElem?_eq_some_iff.mp h1).1 ▸ h1, List.getElem?_append_left (List.getElem?_eq_some_iff.mp h2).1 ▸ h2, h3⟩

theorem AlikeSurfaces.more {s s' : Scene K} (h : AlikeSurfaces s s') (l l' : List (Material K)) :
    AlikeSurfaces { s with materials := s.materials ++ l } { s' with materials := s'.materials ++ l' } :=
  ⟨h.triangles, h.normals, h.accelerator, h.front.imp fun _ _ x => x.mono, h.back.imp fun _ _ x => x.mono⟩

variable [LinearOrder K] [FloorRing K]

theorem rebuild_surfaces (env : SceneEnv K) {s s' : Scene K} (h : AlikeSurfaces s s') :
    Res.Rel (fun t t' => AlikeSurfaces t t' ∧ t.materials = s.materials ∧ t'.materials = s'.materials) (s.rebuildAccelerator env) (s'.rebuildAccelerator env) := by
  unfold Scene.rebuildAccelerator
  have key : Res.Rel (fun (x : Bvh K × List (Tri K) × List Nat × List Nat × List (Normals K)) (y : Bvh K × List (Tri K) × List Nat × List Nat × List (Normals K)) =>
      y.1 = x.1 ∧ y.2.1 = x.2.1 ∧ List.Forall₂ (SameKind s.materials s'.materials) x.2.2.1 y.2.2.1 ∧ List.Forall₂ (SameKind s.materials s'.materials) x.2.2.2.1 y.2.2.2.1 ∧ y.2.2.2.2 = x.2.2.2.2)
      (bvhNew env.bvh s.triangles s.front s.back s.normals) (bvhNew env.bvh s'.triangles s'.front s'.back s'.normals) := by
    unfold bvhNew
    rw [h.triangles, h.normals]
    simp only
    by_cases h0 : s.triangles.length = 0
    · rw [if_pos h0, if_pos h0]
      exact ⟨rfl, rfl, h.front, h.back, rfl⟩
    · rw [if_neg h0, if_neg h0]
      refine Res.Rel.bind (Res.Rel.refl _) ?_
      rintro ⟨root, order⟩ _ rfl
      refine Res.Rel.bind (Res.Rel.refl _) ?_
      rintro tris _ rfl
      refine Res.Rel.bind (gather_rel h.back order) fun bk bk' hbk => ?_
      refine Res.Rel.bind (gather_rel h.front order) fun fr fr' hfr => ?_
      refine Res.Rel.bind (Res.Rel.refl _) ?_
      rintro nm _ rfl
      exact ⟨rfl, rfl, hfr, hbk, rfl⟩
  refine Res.Rel.bind key ?_
  rintro ⟨a, t, f, b, n⟩ ⟨a', t', f', b', n'⟩ ⟨h1, h2, h3, h4, h5⟩
  simp only at h1 h2 h3 h4 h5
  subst h1 h2 h5
  exact ⟨⟨rfl, rfl, rfl, h3, h4⟩, rfl, rfl⟩

/-- What pushing an object leaves, when it succeeds. -/
theorem pushObject_leaves (env : SceneEnv K) {s t : Scene K} {f b : Nat} {p : Primitive K} (h : s.pushObject env f b p = .ok t) :
    ∃ ts ns, (match p with | .triangle t => (ts, ns) = meshTriangle env t | .sphere c r => (ts, ns) = env.meshSphere c r | _ => (ts, ns) = ([], [])) ∧
      t.materials = s.materials ∧ t.accelerator = s.accelerator ∧ t.triangles = s.triangles ++ ts ∧ t.normals = s.normals ++ ns ∧
      t.front = s.front ++ List.replicate ts.length f ∧ t.back = s.back ++ List.replicate ts.length b := by
  unfold Scene.pushObject at h
  cases hf : s.materials[f]? with
  | none => rw [hf] at h; cases h
  | some mf =>
    cases hb : s.materials[b]? with
    | none => rw [hf, hb] at h; cases h
    | some mb =>
      rw [hf, hb] at h
      simp only at h
      cases p with
      | triangle t0 =>
        refine ⟨(meshTriangle env t0).1, (meshTriangle env t0).2, rfl, ?_⟩
        simp only [Res.bind_ok] at h
        cases h
        split_ifs <;> simp
      | sphere c r =>
        refine ⟨(env.meshSphere c r).1, (env.meshSphere c r).2, rfl, ?_⟩
        simp only [Res.bind_ok] at h
        cases h
        split_ifs <;> simp
      | cylinder a c r =>
        refine ⟨[], [], rfl, ?_⟩
        simp only at h
        split_ifs at h with h1 h2 <;> cases h <;> simp
      | source d a =>
        refine ⟨[], [], rfl, ?_⟩
        simp only at h
        split_ifs at h with h1 h2 <;> cases h <;> simp

theorem pushObject_surfaces (env : SceneEnv K) {s s' t t' : Scene K} (h : AlikeSurfaces s s') (f b f' b' : Nat) (p : Primitive K) (hf : SameKind s.materials s'.materials f f') (hb : SameKind s.materials s'.materials b b')
    (ht : s.pushObject env f b p = .ok t) (ht' : s'.pushObject env f' b' p = .ok t') : AlikeSurfaces t t' ∧ t.materials = s.materials ∧ t'.materials = s'.materials := by
  obtain ⟨ts, ns, e, m, a, u1, u2, u3, u4⟩ := pushObject_leaves env ht
  obtain ⟨ts', ns', e', m', a', u1', u2', u3', u4'⟩ := pushObject_leaves env ht'
  have hm : (ts', ns') = (ts, ns) := by cases p <;> exact e'.trans e.symm
  cases hm
  have rep : ∀ {i j : Nat} (n : Nat), SameKind s.materials s'.materials i j → List.Forall₂ (SameKind s.materials s'.materials) (List.replicate n i) (List.replicate n j) := by
    intro i j n hij
    induction n with
    | zero => exact List.Forall₂.nil
    | succ n ih => exact List.Forall₂.cons hij ih
  refine ⟨⟨by rw [u1, u1', h.triangles], by rw [u2, u2', h.normals], by rw [a, a', h.accelerator], ?_, ?_⟩, m, m'⟩
  · rw [m, m', u3, u3']
    exact List.rel_append h.front (rep _ hf)
  · rw [m, m', u4, u4']
    exact List.rel_append h.back (rep _ hb)

/-- A sun adds no surface. -/
theorem pushSun_leaves (env : SceneEnv K) {s t : Scene K} {f b : Nat} {d : Vec3 K} {a : K} (h : s.pushObject env f b (.source d a) = .ok t) :
    t.materials = s.materials ∧ t.accelerator = s.accelerator ∧ t.triangles = s.triangles ∧ t.normals = s.normals ∧ t.front = s.front ∧ t.back = s.back := by
  obtain ⟨ts, ns, e, m, c, u1, u2, u3, u4⟩ := pushObject_leaves env h
  cases e
  exact ⟨m, c, by simpa using u1, by simpa using u2, by simpa using u3, by simpa using u4⟩

/-- A sky adds a material at most. -/
theorem addSky_leaves (env : SceneEnv K) {s t : Scene K} {sun : Option (Vec3 K × K × K)} (h : s.addPerezSky env sun = .ok t) :
    t.materials = s.materials ++ skyMaterials sun ∧ t.accelerator = s.accelerator ∧ t.triangles = s.triangles ∧ t.normals = s.normals ∧ t.front = s.front ∧ t.back = s.back := by
  unfold Scene.addPerezSky at h
  cases sun with
  | none => cases h; exact ⟨by simp [skyMaterials], rfl, rfl, rfl, rfl, rfl⟩
  | some x =>
    obtain ⟨d, br, a⟩ := x
    exact pushSun_leaves env h

theorem run_surfaces (env : SceneEnv K) {ms ms' : List (Material K)} {ops ops' : List (SceneOp K)} (hn : SameButLighting ms ms' ops ops') :
    ∀ s s' t t' : Scene K, s.materials = ms → s'.materials = ms' → AlikeSurfaces s s' → s.run env ops = .ok t → s'.run env ops' = .ok t' → AlikeSurfaces t t' := by
  induction hn with
  | nil ms ms' => intro s s' t t' _ _ h ht ht'; cases ht; cases ht'; exact h
  | @pushLeft ms ms' ops ops' m hn ih =>
    intro s s' t t' h1 h2 h ht ht'
    have := h.more [m] []
    simp only [List.append_nil] at this
    exact ih _ _ t t' (by simp [Scene.pushMaterial, h1]) h2 this ht ht'
  | @pushRight ms ms' ops ops' m hn ih =>
    intro s s' t t' h1 h2 h ht ht'
    have := h.more [] [m]
    simp only [List.append_nil] at this
    exact ih _ _ t t' h1 (by simp [Scene.pushMaterial, h2]) this ht ht'
  | @object ms ms' ops ops' f b f' b' p mf mf' mb mb' e1 e2 e3 e4 e5 e6 hn ih =>
    intro s s' t t' h1 h2 h ht ht'
    subst h1 h2
    obtain ⟨u, hu, ht⟩ := Res.bind_eq_ok ht
    obtain ⟨u', hu', ht'⟩ := Res.bind_eq_ok ht'
    obtain ⟨g1, g2, g3⟩ := pushObject_surfaces env h f b f' b' p ⟨mf, mf', e1, e2, e3⟩ ⟨mb, mb', e4, e5, e6⟩ hu hu'
    exact ih u u' t t' g2 g3 g1 ht ht'
  | @build ms ms' ops ops' hn ih =>
    intro s s' t t' h1 h2 h ht ht'
    subst h1 h2
    obtain ⟨u, hu, ht⟩ := Res.bind_eq_ok ht
    obtain ⟨u', hu', ht'⟩ := Res.bind_eq_ok ht'
    simp only [Scene.step, Scene.buildAccelerator] at hu hu'
    have hr := rebuild_surfaces env h
    split_ifs at hu
    split_ifs at hu'
    rw [hu, hu'] at hr
    exact ih u u' t t' hr.2.1 hr.2.2 hr.1 ht ht'
  | @rebuild ms ms' ops ops' hn ih =>
    intro s s' t t' h1 h2 h ht ht'
    subst h1 h2
    obtain ⟨u, hu, ht⟩ := Res.bind_eq_ok ht
    obtain ⟨u', hu', ht'⟩ := Res.bind_eq_ok ht'
    simp only [Scene.step] at hu hu'
    have hr := rebuild_surfaces env h
    rw [hu, hu'] at hr
    exact ih u u' t t' hr.2.1 hr.2.2 hr.1 ht ht'
  | @sunLeft ms ms' ops ops' f b d a hn ih =>
    intro s s' t t' h1 h2 h ht ht'
    obtain ⟨u, hu, ht⟩ := Res.bind_eq_ok ht
    obtain ⟨m, c, x1, x2, x3, x4⟩ := pushSun_leaves env hu
    refine ih u s' t t' (m.trans h1) h2 ⟨h.triangles.trans x1.symm, h.normals.trans x2.symm, h.accelerator.trans c.symm, ?_, ?_⟩ ht ht'
    · rw [m, x3]; exact h.front
    · rw [m, x4]; exact h.back
  | @sunRight ms ms' ops ops' f b d a hn ih =>
    intro s s' t t' h1 h2 h ht ht'
    obtain ⟨u, hu, ht'⟩ := Res.bind_eq_ok ht'
    obtain ⟨m, c, x1, x2, x3, x4⟩ := pushSun_leaves env hu
    refine ih s u t t' h1 (m.trans h2) ⟨x1.trans h.triangles, x2.trans h.normals, c.trans h.accelerator, ?_, ?_⟩ ht ht'
    · rw [m, x3]; exact h.front
    · rw [m, x4]; exact h.back
  | @skyLeft ms ms' ops ops' sun hn ih =>
    intro s s' t t' h1 h2 h ht ht'
    obtain ⟨u, hu, ht⟩ := Res.bind_eq_ok ht
    obtain ⟨m, c, x1, x2, x3, x4⟩ := addSky_leaves env hu
    have hmore := h.more (skyMaterials sun) []
    simp only [List.append_nil] at hmore
    refine ih u s' t t' (by rw [m, h1]) h2 ⟨h.triangles.trans x1.symm, h.normals.trans x2.symm, h.accelerator.trans c.symm, ?_, ?_⟩ ht ht'
    · rw [m, x3]; exact hmore.front
    · rw [m, x4]; exact hmore.back
  | @skyRight ms ms' ops ops' sun hn ih =>
    intro s s' t t' h1 h2 h ht ht'
    obtain ⟨u, hu, ht'⟩ := Res.bind_eq_ok ht'
    obtain ⟨m, c, x1, x2, x3, x4⟩ := addSky_leaves env hu
    have hmore := h.more [] (skyMaterials sun)
    simp only [List.append_nil] at hmore
    refine ih s u t t' h1 (by rw [m, h2]) ⟨x1.trans h.triangles, x2.trans h.normals, c.trans h.accelerator, ?_, ?_⟩ ht ht'
    · rw [m, x3]; exact hmore.front
    · rw [m, x4]; exact hmore.back

end

/-! ## Daylight coefficients -/

theorem Res.Rel.eq {A : Type} {x y : Res A} (h : Res.Rel (fun a b => b = a) x y) : y = x := by
  cases x <;> cases y <;> first | rfl | (cases h; rfl) | exact h.elim

theorem named_surfaces {ms ms' : List (Material ℝ)} {l l' : List Nat} (h : List.Forall₂ (SameKind ms ms') l l') (i : Nat) :
    Res.Rel (fun m m' => m.SameSurface m') ((Res.ofOption l[i]?).bind fun k => Res.ofOption ms[k]?) ((Res.ofOption l'[i]?).bind fun k => Res.ofOption ms'[k]?) := by
  by_cases hi : i < l.length
  · have hi' : i < l'.length := h.length_eq ▸ hi
    obtain ⟨m, m', h1, h2, h3⟩ := (List.forall₂_iff_get.mp h).2 i hi hi'
    rw [List.getElem?_eq_getElem hi, List.getElem?_eq_getElem hi']
    simp only [Res.ofOption_some, Res.bind_ok]
    simp only [List.get_eq_getElem] at h1 h2
    rw [h1, h2]
    exact h3
  · have hi' : ¬ i < l'.length := h.length_eq ▸ hi
    rw [List.getElem?_eq_none (by omega), List.getElem?_eq_none (by omega)]
    trivial

variable {s s' : Scene ℝ} (h : AlikeSurfaces s s') (env : SceneEnv ℝ) (ext : GeoExt) (dt dt' : DirTests) (sky sky' : Option (Vec3 ℝ → ℝ)) (col col' : Option (Spectrum ℝ))
include h

theorem cast_surfaces : World.cast ⟨s', env, ext, dt', sky', col'⟩ = World.cast ⟨s, env, ext, dt, sky, col⟩ := by
  funext ray
  unfold World.cast Scene.castRay
  simp only [h.accelerator, h.triangles]

theorem materialAt_surfaces (side : SurfaceSide) (i : Nat) :
    Res.Rel (fun m m' => m.SameSurface m') (World.materialAt ⟨s, env, ext, dt, sky, col⟩ side i) (World.materialAt ⟨s', env, ext, dt', sky', col'⟩ side i) := by
  cases side with
  | Front => exact named_surfaces h.front i
  | Back => exact named_surfaces h.back i
  | NonApplicable => trivial

theorem dcTraceRay_surfaces (dc : DcFactory) (fuel : Nat) : dcTraceRay ⟨s', env, ext, dt', sky', col'⟩ dc fuel = dcTraceRay ⟨s, env, ext, dt, sky, col⟩ dc fuel := by
  induction fuel with
  | zero => rfl
  | succ fuel ih =>
    funext st ray
    unfold dcTraceRay
    rw [cast_surfaces h env ext dt dt' sky sky' col col', ih]
    congr 1
    funext hit
    cases hit with
    | none => rfl
    | some x =>
      obtain ⟨i, ray⟩ := x
      simp only
      congr 1
      unfold dcSurfaceStep
      simp only [h.normals]
      congr 1
      refine Res.Rel.eq (Res.Rel.bind (materialAt_surfaces h env ext dt dt' sky sky' col col' ray.interaction.shading.side i) ?_)
      rintro m m' (rfl | ⟨c, c', rfl, rfl⟩)
      · exact Res.Rel.refl _
      · have e : ∀ c : Spectrum ℝ, (ray.depth > dc.maxDepth ∨ (Material.light c).emitsDirectLight = true) := fun c => Or.inr rfl
        simp only [e, if_true]
        exact Res.Rel.refl _

theorem calcDc_surfaces (dc : DcFactory) (fuel : Nat) : calcDc ⟨s', env, ext, dt', sky', col'⟩ dc fuel = calcDc ⟨s, env, ext, dt, sky, col⟩ dc fuel := by
  funext rays primary secondary
  unfold calcDc dcRow dcSample
  simp only [dcTraceRay_surfaces h env ext dt dt' sky sky' col col']

end Rendering
