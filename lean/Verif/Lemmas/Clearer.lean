import Verif.Spec.Clearer
import Verif.Props.Repaint
import Verif.Props.ExactGlazed

/-!
# The same surfaces with better colours
-/

set_option linter.unusedSectionVars false
namespace Rendering


theorem Material.Clearer.emits {m m' : Material ℝ} (h : m.Clearer m') : m'.emitsDirectLight = m.emitsDirectLight := by
  cases h <;> rfl

/-- Scenes that differ in that the materials of the second have better colours. -/
structure Scene.Clearer (s s' : Scene ℝ) : Prop where
  same : s' = { s with materials := s'.materials }
  paint : List.Forall₂ (Material.Clearer) s.materials s'.materials

theorem clearer_get {ms ms' : List (Material ℝ)} (h : List.Forall₂ (Material.Clearer) ms ms') (k : Nat) :
    (ms[k]? = none ∧ ms'[k]? = none) ∨ ∃ m m', ms[k]? = some m ∧ ms'[k]? = some m' ∧ m.Clearer m' := by
  induction h generalizing k with
  | nil => exact Or.inl ⟨by simp, by simp⟩
  | @cons m m' ms ms' hm _ ih =>
    cases k with
    | zero => exact Or.inr ⟨m, m', by simp, by simp, hm⟩
    | succ k => simpa using ih k

theorem pushObject_clearer (env : SceneEnv ℝ) {s s' t : Scene ℝ} (h : s.Clearer s') (f b : Nat) (p : Primitive ℝ) (ht : s.pushObject env f b p = .ok t) : ∃ t', s'.pushObject env f b p = .ok t' ∧ t.Clearer t' := by
  obtain ⟨hs, hp⟩ := h
  unfold Scene.pushObject at ht ⊢
  rcases clearer_get hp f with ⟨h1, _⟩ | ⟨mf, mf', h1, h1', hmf⟩
  · rw [h1] at ht; cases ht
  rcases clearer_get hp b with ⟨h2, _⟩ | ⟨mb, mb', h2, h2', hmb⟩
  · rw [h1, h2] at ht; cases ht
  rw [h1, h2] at ht
  rw [h1', h2']
  simp only [hmf.emits, hmb.emits] at ht ⊢
  generalize s'.materials = ms at hs hp
  subst hs
  cases p <;> simp only at ht ⊢ <;> split_ifs at ht ⊢ <;> first
    | (cases ht; exact ⟨_, rfl, rfl, hp⟩)
    | cases ht

theorem step_clearer (env : SceneEnv ℝ) {s s' t : Scene ℝ} (h : s.Clearer s') {op op' : SceneOp ℝ} (ho : op.Clearer op') (ht : s.step env op = .ok t) : ∃ t', s'.step env op' = .ok t' ∧ t.Clearer t' := by
  have hreb : ∀ {t}, s.rebuildAccelerator env = .ok t → ∃ t', s'.rebuildAccelerator env = .ok t' ∧ t.Clearer t' := by
    intro t ht
    obtain ⟨hs, hp⟩ := h
    unfold Scene.rebuildAccelerator at ht ⊢
    rw [hs]
    obtain ⟨⟨bvh, tris, front, back, normals⟩, e, ht⟩ := Res.bind_eq_ok ht
    rw [e]
    cases ht
    exact ⟨_, rfl, rfl, hp⟩
  cases ho with
  | material m m' hm =>
    cases ht
    obtain ⟨hs, hp⟩ := h
    refine ⟨_, rfl, ?_, List.rel_append hp (List.Forall₂.cons hm .nil)⟩
    unfold Scene.pushMaterial
    rw [hs]
  | other op hop =>
    cases op with
    | pushMaterial m => exact absurd rfl (hop m)
    | pushObject f b p => exact pushObject_clearer env h f b p ht
    | build =>
      simp only [Scene.step, Scene.buildAccelerator] at ht ⊢
      have : s'.accelerator = s.accelerator := by rw [h.same]
      rw [this]
      split_ifs at ht ⊢
      exact hreb ht
    | rebuild => exact hreb ht
    | addPerezSky sun =>
      simp only [Scene.step, Scene.addPerezSky] at ht ⊢
      cases sun with
      | none =>
        cases ht
        refine ⟨_, rfl, ?_, h.paint⟩
        rw [h.same]
      | some x =>
        obtain ⟨d, br, a⟩ := x
        have hl : s.materials.length = s'.materials.length := h.paint.length_eq
        have h2 : Scene.Clearer { s with hasSky := true, materials := s.materials ++ [.light (Spectrum.gray br)] } { s' with hasSky := true, materials := s'.materials ++ [.light (Spectrum.gray br)] } := by
          refine ⟨?_, List.rel_append h.paint (List.Forall₂.cons (.same _) .nil)⟩
          rw [h.same]
        simp only [Scene.pushMaterial, List.length_append, List.length_cons, List.length_nil, ← hl] at ht ⊢
        exact pushObject_clearer env h2 _ _ _ ht

theorem run_clearer (env : SceneEnv ℝ) {ops ops' : List (SceneOp ℝ)} (ho : List.Forall₂ (SceneOp.Clearer) ops ops') : ∀ {s s' t : Scene ℝ}, s.Clearer s' → s.run env ops = .ok t →
    ∃ t', s'.run env ops' = .ok t' ∧ t.Clearer t' := by
  induction ho with
  | nil => intro s s' t h ht; cases ht; exact ⟨_, rfl, h⟩
  | cons hop _ ih =>
    intro s s' t h ht
    unfold Scene.run at ht ⊢
    obtain ⟨u, e, ht⟩ := Res.bind_eq_ok ht
    obtain ⟨u', e', hu⟩ := step_clearer env h hop e
    rw [e', Res.bind_ok]
    exact ih hu ht

theorem built_clearer (env : SceneEnv ℝ) {s s' b b' : Scene ℝ} (h : s.Clearer s') (hb : s.BuiltFrom env b) (hb' : s'.BuiltFrom env b') : b.Clearer b' := by
  have key : ∀ {x y : Scene ℝ}, x.BuiltFrom env y → x.rebuildAccelerator env = .ok y := by
    intro x y hxy
    rcases hxy with h | h
    · unfold Scene.buildAccelerator at h
      split_ifs at h
      exact h
    · exact h
  obtain ⟨t, e, ht⟩ := step_clearer (op := .rebuild) (op' := .rebuild) env h (.other _ (by simp)) (key hb)
  have : b' = t := by
    have e' := key hb'
    have e2 : s'.rebuildAccelerator env = .ok t := e
    rw [e2] at e'
    exact (Res.ok.inj e').symm
  rw [this]
  exact ht


variable {w : World} {s s' b' : Scene ℝ}

theorem Material.Clearer.light_same {m m' : Material ℝ} (h : m.Clearer m') (hm : m.emitsDirectLight = true) : m' = m := by
  cases h <;> first | rfl | cases hm

theorem lightColour_clearer (h : s.Clearer s') (hs : s.SunsShine) (sun : Object ℝ) (hsun : sun ∈ s.distantLights) (side : SurfaceSide) : lightColour s' sun side = lightColour s sun side := by
  have key : ∀ k, k = sun.front ∨ k = sun.back → s'.materials[k]? = s.materials[k]? := by
    intro k hk
    rcases clearer_get h.paint k with ⟨h1, h2⟩ | ⟨m, m', h1, h2, hm⟩
    · rw [h1, h2]
    · rw [h1, h2, hm.light_same (hs sun hsun k hk m h1)]
  cases side <;> simp only [lightColour]
  · rw [key _ (Or.inl rfl)]
  · rw [key _ (Or.inr rfl)]

theorem World.IsSun.clearer (h : s.Clearer s') (hs : s.SunsShine) {sun : Object ℝ} (hsun : sun ∈ s.distantLights) {d : Vec3 ℝ} {a D : ℝ} {L : Spectrum ℝ} (hS : w.IsSun s sun d a L D) (b' : Scene ℝ) : World.IsSun { w with scene := b' } s' sun d a L D where
  primitive := hS.primitive
  direction_ne := hS.direction_ne
  angle_pos := hS.angle_pos
  angle_lt := hS.angle_lt
  met := by
    intro pt v hv hc
    obtain ⟨info, h1, h2, h3⟩ := hS.met pt v hv hc
    exact ⟨info, h1, h2, by rw [lightColour_clearer h hs sun hsun]; exact h3⟩

/-- The repainted scene is as simple as the original. -/
theorem World.SunlitGlazed.clearer (hW : w.SunlitGlazed s) (hs : s.SunsShine) (h : s.Clearer s') (hb : s'.BuiltFrom w.env b') : World.SunlitGlazed { w with scene := b' } s' where
  renders := by
    refine ⟨hW.renders.lawful, hW.renders.box, ?_, ?_, hb⟩
    · have := hW.renders.aligned
      rw [h.same]; exact this
    · have := hW.renders.fits
      rw [h.same]; exact this
  indices := by
    have hl : s'.materials.length = s.materials.length := h.paint.length_eq.symm
    obtain ⟨h1, h2, h3, h4⟩ := hW.indices
    unfold Scene.IndicesValid
    rw [hl, h.same]
    exact ⟨h1, h2, h3, h4⟩
  perp := hW.perp
  box := hW.box
  flat := by rw [h.same]; exact hW.flat
  sky := hW.sky
  lamps := by rw [h.same]; exact hW.lamps
  suns := by
    intro sun hsun
    have hsun' : sun ∈ s.distantLights := by rw [h.same] at hsun; exact hsun
    obtain ⟨d, a, L, D, h1, h2⟩ := hW.suns sun hsun'
    exact ⟨d, a, L, D, h1.clearer h hs hsun' b', h2⟩
  surfaces := by
    intro k m hk hmem
    have hmem' : k ∈ s.front ++ s.back := by rw [h.same] at hmem; exact hmem
    rcases clearer_get h.paint k with ⟨_, h2⟩ | ⟨m0, m', h1, h2, hm⟩
    · rw [h2] at hk; cases hk
    · rw [h2] at hk
      cases hk
      have hM := hW.surfaces k m0 h1 hmem'
      cases hm with
      | plastic c c' r' hc' => exact Or.inl ⟨c', r', by simp, brighter_nonneg _ _ hc'⟩
      | metal c c' r' hc' => exact Or.inl ⟨c', r', by simp, brighter_nonneg _ _ hc'⟩
      | glass c c' n hc' hf hn => exact Or.inr ⟨rfl, hf, by linarith⟩
      | dielectric c c' n hc' =>
        rcases hM with ⟨_, _, hx, _⟩ | ⟨_, hp⟩
        · simp at hx
        · exact Or.inr ⟨rfl, brighter_nonneg _ _ hc', hp.2⟩
      | mirror c c' hc' => exact Or.inr ⟨rfl, hc'⟩
      | same => exact hM

theorem World.HasSuns.clearer (h : s.Clearer s') (hs : s.SunsShine) {suns : List SunDisc} (hS : w.HasSuns s suns) (b' : Scene ℝ) : World.HasSuns { w with scene := b' } s' suns := by
  unfold World.HasSuns at hS ⊢
  have e : s'.distantLights = s.distantLights := by rw [h.same]
  rw [e]
  have key : ∀ l : List (Object ℝ), (∀ x ∈ l, x ∈ s.distantLights) → ∀ suns, List.Forall₂ (fun source (sun : SunDisc) => w.IsSun s source sun.direction sun.angle sun.radiance sun.distSq ∧ sun.radiance.Nonneg) l suns →
      List.Forall₂ (fun source (sun : SunDisc) => World.IsSun { w with scene := b' } s' source sun.direction sun.angle sun.radiance sun.distSq ∧ sun.radiance.Nonneg) l suns := by
    intro l hl suns hf
    induction hf with
    | nil => exact .nil
    | @cons x sun l suns hx _ ih => exact .cons ⟨hx.1.clearer h hs (hl _ (by simp)) b', hx.2⟩ (ih fun y hy => hl y (by simp [hy]))
  exact key _ (fun _ hx => hx) _ hS

theorem cast_clearer {b : Scene ℝ} (h : b.Clearer b') (hb : w.scene = b) (ray : TRay) : World.cast { w with scene := b' } ray = w.cast ray := by
  unfold World.cast Scene.castRay
  subst hb
  simp only
  rw [h.same]

theorem free_clearer {b : Scene ℝ} (h : b.Clearer b') (env : SceneEnv ℝ) (g : Ray3 ℝ) (D : ℝ) : b'.unobstructedDistance env g D [] = b.unobstructedDistance env g D [] := by
  unfold Scene.unobstructedDistance
  rw [h.same]

theorem materialAt_clearer {b : Scene ℝ} (h : b.Clearer b') (hb : w.scene = b) (side : SurfaceSide) (i : Nat) (m : Material ℝ) (hm : w.materialAt side i = .ok m) :
    ∃ m', World.materialAt { w with scene := b' } side i = .ok m' ∧ m.Clearer m' := by
  subst hb
  have key : ∀ o : Option Nat, ((Res.ofOption o).bind fun k => Res.ofOption w.scene.materials[k]?) = .ok m → ∃ m', ((Res.ofOption o).bind fun k => Res.ofOption b'.materials[k]?) = .ok m' ∧ m.Clearer m' := by
    intro o ho
    obtain ⟨k, e, ho⟩ := Res.bind_eq_ok ho
    rw [e, Res.bind_ok]
    rcases clearer_get h.paint k with ⟨h1, _⟩ | ⟨m0, m', h1, h2, hmm⟩
    · rw [h1] at ho; cases ho
    · rw [h1] at ho
      cases ho
      exact ⟨m', by rw [h2]; rfl, hmm⟩
  have e1 : b'.front = w.scene.front := by rw [h.same]
  have e2 : b'.back = w.scene.back := by rw [h.same]
  cases side with
  | Front => simp only [World.materialAt, e1] at hm ⊢; exact key _ hm
  | Back => simp only [World.materialAt, e2] at hm ⊢; exact key _ hm
  | NonApplicable => cases hm

end Rendering
