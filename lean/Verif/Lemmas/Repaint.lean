import Verif.Spec.Repaint
import Verif.Props.GeometricLight

/-!
# The same surfaces painted anew
-/

set_option linter.unusedSectionVars false
namespace Rendering

variable {R : Spectrum ℝ → Spectrum ℝ → Prop}

theorem Material.Repainted.emits {m m' : Material ℝ} (h : m.Repainted R m') : m'.emitsDirectLight = m.emitsDirectLight := by
  cases h <;> rfl

/-- Scenes that differ in the paint only. -/
structure Scene.Repainted (R : Spectrum ℝ → Spectrum ℝ → Prop) (s s' : Scene ℝ) : Prop where
  same : s' = { s with materials := s'.materials }
  paint : List.Forall₂ (Material.Repainted R) s.materials s'.materials

theorem repainted_get {ms ms' : List (Material ℝ)} (h : List.Forall₂ (Material.Repainted R) ms ms') (k : Nat) :
    (ms[k]? = none ∧ ms'[k]? = none) ∨ ∃ m m', ms[k]? = some m ∧ ms'[k]? = some m' ∧ m.Repainted R m' := by
  induction h generalizing k with
  | nil => exact Or.inl ⟨by simp, by simp⟩
  | @cons m m' ms ms' hm _ ih =>
    cases k with
    | zero => exact Or.inr ⟨m, m', by simp, by simp, hm⟩
    | succ k => simpa using ih k

theorem pushObject_repainted (env : SceneEnv ℝ) {s s' t : Scene ℝ} (h : s.Repainted R s') (f b : Nat) (p : Primitive ℝ) (ht : s.pushObject env f b p = .ok t) : ∃ t', s'.pushObject env f b p = .ok t' ∧ t.Repainted R t' := by
  obtain ⟨hs, hp⟩ := h
  unfold Scene.pushObject at ht ⊢
  rcases repainted_get hp f with ⟨h1, _⟩ | ⟨mf, mf', h1, h1', hmf⟩
  · rw [h1] at ht; cases ht
  rcases repainted_get hp b with ⟨h2, _⟩ | ⟨mb, mb', h2, h2', hmb⟩
  · rw [h1, h2] at ht; cases ht
  rw [h1, h2] at ht
  rw [h1', h2']
  simp only [hmf.emits, hmb.emits] at ht ⊢
  generalize s'.materials = ms at hs hp
  subst hs
  cases p <;> simp only at ht ⊢ <;> split_ifs at ht ⊢ <;> first
    | (cases ht; exact ⟨_, rfl, rfl, hp⟩)
    | cases ht

theorem step_repainted (env : SceneEnv ℝ) {s s' t : Scene ℝ} (h : s.Repainted R s') {op op' : SceneOp ℝ} (ho : op.Repainted R op') (ht : s.step env op = .ok t) : ∃ t', s'.step env op' = .ok t' ∧ t.Repainted R t' := by
  have hreb : ∀ {t}, s.rebuildAccelerator env = .ok t → ∃ t', s'.rebuildAccelerator env = .ok t' ∧ t.Repainted R t' := by
    intro t ht
    obtain ⟨hs, hp⟩ := h
    unfold Scene.rebuildAccelerator at ht ⊢
    rw [hs]
    obtain ⟨⟨bvh, tris, front, back, normals⟩, e, ht⟩ := Res.bind_eq_ok ht
    rw [e]
    cases ht
    exact ⟨_, rfl, rfl, hp⟩
  cases ho with
  | material m m' hm =>
    cases ht
    obtain ⟨hs, hp⟩ := h
    refine ⟨_, rfl, ?_, List.rel_append hp (List.Forall₂.cons hm .nil)⟩
    unfold Scene.pushMaterial
    rw [hs]
  | other op hop =>
    cases op with
    | pushMaterial m => exact absurd rfl (hop m)
    | pushObject f b p => exact pushObject_repainted env h f b p ht
    | build =>
      simp only [Scene.step, Scene.buildAccelerator] at ht ⊢
      have : s'.accelerator = s.accelerator := by rw [h.same]
      rw [this]
      split_ifs at ht ⊢
      exact hreb ht
    | rebuild => exact hreb ht
    | addPerezSky sun =>
      simp only [Scene.step, Scene.addPerezSky] at ht ⊢
      cases sun with
      | none =>
        cases ht
        refine ⟨_, rfl, ?_, h.paint⟩
        rw [h.same]
      | some x =>
        obtain ⟨d, br, a⟩ := x
        have hl : s.materials.length = s'.materials.length := h.paint.length_eq
        have h2 : Scene.Repainted R { s with hasSky := true, materials := s.materials ++ [.light (Spectrum.gray br)] } { s' with hasSky := true, materials := s'.materials ++ [.light (Spectrum.gray br)] } := by
          refine ⟨?_, List.rel_append h.paint (List.Forall₂.cons (.other _ (by intro col r; simp)) .nil)⟩
          rw [h.same]
        simp only [Scene.pushMaterial, List.length_append, List.length_cons, List.length_nil, ← hl] at ht ⊢
        exact pushObject_repainted env h2 _ _ _ ht

theorem run_repainted (env : SceneEnv ℝ) {ops ops' : List (SceneOp ℝ)} (ho : List.Forall₂ (SceneOp.Repainted R) ops ops') : ∀ {s s' t : Scene ℝ}, s.Repainted R s' → s.run env ops = .ok t →
    ∃ t', s'.run env ops' = .ok t' ∧ t.Repainted R t' := by
  induction ho with
  | nil => intro s s' t h ht; cases ht; exact ⟨_, rfl, h⟩
  | cons hop _ ih =>
    intro s s' t h ht
    unfold Scene.run at ht ⊢
    obtain ⟨u, e, ht⟩ := Res.bind_eq_ok ht
    obtain ⟨u', e', hu⟩ := step_repainted env h hop e
    rw [e', Res.bind_ok]
    exact ih hu ht

theorem built_repainted (env : SceneEnv ℝ) {s s' b b' : Scene ℝ} (h : s.Repainted R s') (hb : s.BuiltFrom env b) (hb' : s'.BuiltFrom env b') : b.Repainted R b' := by
  have key : ∀ {x y : Scene ℝ}, x.BuiltFrom env y → x.rebuildAccelerator env = .ok y := by
    intro x y hxy
    rcases hxy with h | h
    · unfold Scene.buildAccelerator at h
      split_ifs at h
      exact h
    · exact h
  obtain ⟨t, e, ht⟩ := step_repainted (op := .rebuild) (op' := .rebuild) env h (.other _ (by simp)) (key hb)
  have : b' = t := by
    have e' := key hb'
    have e2 : s'.rebuildAccelerator env = .ok t := e
    rw [e2] at e'
    exact (Res.ok.inj e').symm
  rw [this]
  exact ht

end Rendering
