import Verif.Props.Bvh
import Verif.Lemmas.Stale

/-!
# C09–C14: the scene as a state machine

Specification vocabulary: `Verif/Spec/Scene.lean` (`Aligned`, `IndicesValid`, `pushedRows`, `pushedLights`, ...).
-/

set_option linter.unusedSectionVars false

open scoped List

namespace Rendering
variable {K : Type} [Field K] [LinearOrder K] [IsStrictOrderedRing K] [FloorRing K]

theorem isLight_iff (mats : List (Material K)) (i : Nat) (m : Material K) (h : mats[i]? = some m) :
    IsLight mats i ↔ m.emitsDirectLight = true := by
  unfold IsLight
  rw [h]
  cases m <;> simp [Material.emitsDirectLight]

theorem meshTriangle_zip (env : SceneEnv K) (t : Tri K) :
    (meshTriangle env t).1.zip (meshTriangle env t).2 = env.meshOf (.triangle t) := rfl

/-- The mesh appended by `push_object`. -/
def SceneEnv.meshPair (env : SceneEnv K) : Primitive K → List (Tri K) × List (Normals K)
  | .triangle t => meshTriangle env t
  | .sphere c r => env.meshSphere c r
  | _ => ([], [])

/-- What a successful `push_object` does. -/
theorem pushObject_ok (env : SceneEnv K) (s s' : Scene K) (f b : Nat) (p : Primitive K) (h : s.pushObject env f b p = .ok s') :
    (f < s.materials.length ∧ b < s.materials.length) ∧
    s'.materials = s.materials ∧ s'.accelerator = s.accelerator ∧ s'.hasSky = s.hasSky ∧
    s'.triangles = s.triangles ++ (env.meshPair p).1 ∧ s'.normals = s.normals ++ (env.meshPair p).2 ∧
    s'.front = s.front ++ List.replicate (env.meshPair p).1.length f ∧
    s'.back = s.back ++ List.replicate (env.meshPair p).1.length b ∧
    (IsLight s.materials f ∨ IsLight s.materials b →
      (p.id = "source" → s'.lights = s.lights ∧ s'.distantLights = s.distantLights ++ [⟨p, f, b⟩]) ∧
      (p.id ≠ "source" → s'.lights = s.lights ++ [⟨p, f, b⟩] ∧ s'.distantLights = s.distantLights)) ∧
    (¬ (IsLight s.materials f ∨ IsLight s.materials b) → s'.lights = s.lights ∧ s'.distantLights = s.distantLights) := by
  unfold Scene.pushObject at h
  cases hf : s.materials[f]? with
  | none => rw [hf] at h; simp at h
  | some mf =>
    rw [hf] at h
    cases hb : s.materials[b]? with
    | none => rw [hb] at h; simp at h
    | some mb =>
      rw [hb] at h
      simp only at h
      have hlf := (List.getElem?_eq_some_iff.1 hf).1
      have hlb := (List.getElem?_eq_some_iff.1 hb).1
      refine ⟨⟨hlf, hlb⟩, ?_⟩
      rw [isLight_iff _ _ _ hf, isLight_iff _ _ _ hb]
      by_cases hl : (mf.emitsDirectLight || mb.emitsDirectLight) = true
      · have hl' : mf.emitsDirectLight = true ∨ mb.emitsDirectLight = true := by simpa using hl
        rw [hl] at h
        by_cases hs : p.id = "source"
        · cases p <;> simp [SceneEnv.meshPair, hs, hl'] at h ⊢ <;> (try subst h) <;> simp_all [Primitive.id]
        · cases p <;> simp [SceneEnv.meshPair, hs, hl'] at h ⊢ <;> (try subst h) <;> simp_all [Primitive.id]
      · have hl' : ¬ (mf.emitsDirectLight = true ∨ mb.emitsDirectLight = true) := by simpa using hl
        have hl2 : (mf.emitsDirectLight || mb.emitsDirectLight) = false := by simpa using hl
        rw [hl2] at h
        cases p <;> simp [SceneEnv.meshPair, hl'] at h ⊢ <;> (try subst h) <;> simp_all

/-- `add_perez_sky` never panics. -/
theorem addPerezSky_eq (env : SceneEnv K) (s : Scene K) (sun : Option (Vec3 K × K × K)) :
    s.addPerezSky env sun = .ok (match sun with
      | none => { s with hasSky := true }
      | some (d, br, a) => { s with
          hasSky := true
          materials := s.materials ++ [.light ⟨br, br, br⟩]
          distantLights := s.distantLights ++ [⟨.source d a, s.materials.length, s.materials.length⟩] }) := by
  cases sun with
  | none => rfl
  | some x =>
    obtain ⟨d, br, a⟩ := x
    simp [Scene.addPerezSky, Scene.pushMaterial, Scene.pushObject, Material.emitsDirectLight, Primitive.id, Spectrum.gray]

/-- One step keeps the arrays aligned and the indices valid. -/
theorem step_invariant (env : SceneEnv K) (hE : env.bvh.Lawful) (hM : env.MeshAligned) (s s' : Scene K) (op : SceneOp K)
    (ha : s.Aligned) (hi : s.IndicesValid) (h : s.step env op = .ok s') : s'.Aligned ∧ s'.IndicesValid := by
  have rebuild : s.rebuildAccelerator env = .ok s' → s'.Aligned ∧ s'.IndicesValid := by
    intro h
    obtain ⟨s1, bvh, e, h1, h2, h3, h4, h5, h6, h7, _, _⟩ := rebuild_spec env hE s ha
    rw [e] at h; cases h
    obtain ⟨p1, p2, p3, p4⟩ := mem_of_rows ha h2 h4
    refine ⟨h2, fun i hi' => ?_, fun i hi' => ?_, fun o ho => ?_, fun o ho => ?_⟩
    · rw [h5]; exact hi.1 i (p2.mem_iff.1 hi')
    · rw [h5]; exact hi.2.1 i (p3.mem_iff.1 hi')
    · rw [h5]; rw [h6] at ho; exact hi.2.2.1 o ho
    · rw [h5]; rw [h7] at ho; exact hi.2.2.2 o ho
  cases op with
  | pushMaterial m =>
    simp only [Scene.step, Scene.pushMaterial, Res.ok.injEq] at h
    subst h
    refine ⟨ha, fun i hi' => ?_, fun i hi' => ?_, fun o ho => ?_, fun o ho => ?_⟩ <;>
      simp only [List.length_append, List.length_singleton]
    · have := hi.1 i hi'; omega
    · have := hi.2.1 i hi'; omega
    · have := hi.2.2.1 o ho; omega
    · have := hi.2.2.2 o ho; omega
  | pushObject f b p =>
    obtain ⟨⟨hf, hb⟩, e1, e2, e3, e4, e5, e6, e7, e8, e9⟩ := pushObject_ok env s s' f b p h
    have hml : (env.meshPair p).2.length = (env.meshPair p).1.length := by
      cases p with
      | sphere c r => exact hM c r
      | _ => rfl
    obtain ⟨a1, a2, a3⟩ := ha
    have hmem : ∀ o, (o ∈ s'.lights ∨ o ∈ s'.distantLights) → o ∈ s.lights ∨ o ∈ s.distantLights ∨ (o.front = f ∧ o.back = b) := by
      intro o ho
      by_cases hl : IsLight s.materials f ∨ IsLight s.materials b
      · by_cases hs : p.id = "source"
        · obtain ⟨q1, q2⟩ := (e8 hl).1 hs
          rw [q1, q2, List.mem_append, List.mem_singleton] at ho
          rcases ho with ho | ho | rfl
          · exact Or.inl ho
          · exact Or.inr (Or.inl ho)
          · exact Or.inr (Or.inr ⟨rfl, rfl⟩)
        · obtain ⟨q1, q2⟩ := (e8 hl).2 hs
          rw [q1, q2, List.mem_append, List.mem_singleton] at ho
          rcases ho with (ho | rfl) | ho
          · exact Or.inl ho
          · exact Or.inr (Or.inr ⟨rfl, rfl⟩)
          · exact Or.inr (Or.inl ho)
      · obtain ⟨q1, q2⟩ := e9 hl
        rw [q1, q2] at ho
        tauto
    have hobj : ∀ o, (o ∈ s'.lights ∨ o ∈ s'.distantLights) → o.front < s'.materials.length ∧ o.back < s'.materials.length := by
      intro o ho
      rw [e1]
      rcases hmem o ho with ho | ho | ⟨rfl, rfl⟩
      · exact hi.2.2.1 o ho
      · exact hi.2.2.2 o ho
      · exact ⟨hf, hb⟩
    refine ⟨⟨?_, ?_, ?_⟩, fun i hi' => ?_, fun i hi' => ?_, fun o ho => hobj o (Or.inl ho), fun o ho => hobj o (Or.inr ho)⟩
    · rw [e4, e5, List.length_append, List.length_append, hml, a1]
    · rw [e4, e6, List.length_append, List.length_append, List.length_replicate, a2]
    · rw [e4, e7, List.length_append, List.length_append, List.length_replicate, a3]
    · rw [e1]
      rw [e6] at hi'
      rcases List.mem_append.1 hi' with hi' | hi'
      · exact hi.1 i hi'
      · rw [List.eq_of_mem_replicate hi']; exact hf
    · rw [e1]
      rw [e7] at hi'
      rcases List.mem_append.1 hi' with hi' | hi'
      · exact hi.2.1 i hi'
      · rw [List.eq_of_mem_replicate hi']; exact hb
  | build =>
    simp only [Scene.step, Scene.buildAccelerator] at h
    split at h
    · simp at h
    · exact rebuild h
  | rebuild => exact rebuild h
  | addPerezSky sun =>
    simp only [Scene.step] at h
    rw [addPerezSky_eq] at h
    cases h
    cases sun with
    | none => exact ⟨ha, hi⟩
    | some x =>
      obtain ⟨d, br, a⟩ := x
      refine ⟨ha, fun i hi' => ?_, fun i hi' => ?_, fun o ho => ?_, fun o ho => ?_⟩ <;>
        simp only [List.length_append, List.length_singleton] at *
      · have := hi.1 i hi'; omega
      · have := hi.2.1 i hi'; omega
      · have := hi.2.2.1 o ho; omega
      · rcases List.mem_append.1 ho with ho | ho
        · have := hi.2.2.2 o ho; omega
        · simp only [List.mem_singleton] at ho
          subst ho; simp

/-- An invariant preserved by every step holds after every history. -/
theorem run_induction (env : SceneEnv K) (P : Scene K → Prop) (hstep : ∀ s s' op, P s → s.step env op = .ok s' → P s')
    (ops : List (SceneOp K)) : ∀ s s', P s → s.run env ops = .ok s' → P s' := by
  induction ops with
  | nil => intro s s' h h'; cases h'; exact h
  | cons op ops ih =>
    intro s s' h h'
    unfold Scene.run at h'
    cases hs : s.step env op with
    | ok s1 => rw [hs] at h'; exact ih s1 s' (hstep s s1 op h hs) h'
    | panic => rw [hs] at h'; simp at h'
    | diverge => rw [hs] at h'; simp at h'

/-- **C10.** After every history of API calls that starts from an empty scene, the four per-triangle arrays have the same length and
every stored material index designates an existing material. -/
theorem C10_aligned_and_valid (env : SceneEnv K) (hE : env.bvh.Lawful) (hM : env.MeshAligned) (ops : List (SceneOp K))
    (s : Scene K) (h : Scene.run env {} ops = .ok s) : s.Aligned ∧ s.IndicesValid := by
  refine run_induction env (fun s => s.Aligned ∧ s.IndicesValid) ?_ ops {} s ?_ h
  · intro s s' op hp hs
    exact step_invariant env hE hM s s' op hp.1 hp.2 hs
  · simp [Scene.Aligned, Scene.IndicesValid]

/-- No history produces anything but an answer or a panic: the operations always terminate. -/
theorem C10_terminates (env : SceneEnv K) (hE : env.bvh.Lawful) (hM : env.MeshAligned) (ops : List (SceneOp K)) :
    Scene.run env {} ops ≠ .diverge := by
  have key : ∀ (ops : List (SceneOp K)) (s : Scene K), s.Aligned → s.IndicesValid → s.run env ops ≠ .diverge := by
    intro ops
    induction ops with
    | nil => intro s _ _ h; cases h
    | cons op ops ih =>
      intro s ha hi h
      unfold Scene.run at h
      cases hs : s.step env op with
      | ok s1 =>
        rw [hs] at h
        obtain ⟨h1, h2⟩ := step_invariant env hE hM s s1 op ha hi hs
        exact ih s1 h1 h2 h
      | panic => rw [hs] at h; cases h
      | diverge =>
        obtain ⟨s2, _, e, _⟩ := rebuild_spec env hE s ha
        cases op with
        | pushMaterial m => simp [Scene.step] at hs
        | build =>
          simp only [Scene.step, Scene.buildAccelerator] at hs
          split at hs
          · cases hs
          · rw [e] at hs; cases hs
        | rebuild => simp only [Scene.step] at hs; rw [e] at hs; cases hs
        | addPerezSky sun => simp only [Scene.step] at hs; rw [addPerezSky_eq] at hs; cases hs
        | pushObject f b p =>
          simp only [Scene.step, Scene.pushObject] at hs
          cases h1 : s.materials[f]? with
          | none => rw [h1] at hs; cases hs
          | some mf =>
            cases h2 : s.materials[b]? with
            | none => rw [h1, h2] at hs; cases hs
            | some mb =>
              rw [h1, h2] at hs
              cases p <;> simp only [Res.bind_ok] at hs <;> (try cases hs) <;> (split at hs <;> cases hs)
  exact key ops {} (by simp [Scene.Aligned]) (by simp [Scene.IndicesValid])

theorem step_materials (env : SceneEnv K) (hE : env.bvh.Lawful) (s s' : Scene K) (op : SceneOp K) (h : s.step env op = .ok s')
    (ha : s.Aligned) : ∃ ms, s'.materials = s.materials ++ ms ∧ ms = pushedMaterials [op] := by
  have rebuild : s.rebuildAccelerator env = .ok s' → s'.materials = s.materials := by
    intro h
    obtain ⟨s1, bvh, e, h1, h2, h3, h4, h5, _⟩ := rebuild_spec env hE s ha
    rw [e] at h; cases h; exact h5
  cases op with
  | pushMaterial m => simp only [Scene.step, Scene.pushMaterial, Res.ok.injEq] at h; subst h; exact ⟨_, rfl, rfl⟩
  | pushObject f b p => exact ⟨[], by rw [(pushObject_ok env s s' f b p h).2.1]; simp, rfl⟩
  | build =>
    simp only [Scene.step, Scene.buildAccelerator] at h
    split at h
    · cases h
    · exact ⟨[], by rw [rebuild h]; simp, rfl⟩
  | rebuild => exact ⟨[], by rw [rebuild h]; simp, rfl⟩
  | addPerezSky sun =>
    simp only [Scene.step] at h
    rw [addPerezSky_eq] at h
    cases h
    cases sun with
    | none => exact ⟨[], by simp, rfl⟩
    | some x => obtain ⟨d, br, a⟩ := x; exact ⟨_, rfl, rfl⟩

theorem pushedMaterials_cons (op : SceneOp K) (ops : List (SceneOp K)) :
    pushedMaterials (op :: ops) = pushedMaterials [op] ++ pushedMaterials ops := by
  cases op with
  | addPerezSky sun => cases sun <;> simp [pushedMaterials]
  | _ => simp [pushedMaterials]

/-- The materials of a scene are exactly those pushed, in order. -/
theorem run_materials (env : SceneEnv K) (hE : env.bvh.Lawful) (hM : env.MeshAligned) (ops : List (SceneOp K)) :
    ∀ s s' : Scene K, s.Aligned → s.IndicesValid → s.run env ops = .ok s' → s'.materials = s.materials ++ pushedMaterials ops := by
  induction ops with
  | nil => intro s s' _ _ h; cases h; simp [pushedMaterials]
  | cons op ops ih =>
    intro s s' ha hi h
    unfold Scene.run at h
    cases hs : s.step env op with
    | panic => rw [hs] at h; cases h
    | diverge => rw [hs] at h; cases h
    | ok s1 =>
      rw [hs] at h
      obtain ⟨h1, h2⟩ := step_invariant env hE hM s s1 op ha hi hs
      obtain ⟨ms, e1, e2⟩ := step_materials env hE s s1 op hs ha
      rw [ih s1 s' h1 h2 h, e1, e2, pushedMaterials_cons op ops, List.append_assoc]

/-- **C11.** The handle returned by `push_material` designates that material after every later history. -/
theorem C11_material_handles_stable (env : SceneEnv K) (hE : env.bvh.Lawful) (hM : env.MeshAligned)
    (before after : List (SceneOp K)) (s s' : Scene K) (m : Material K)
    (h : Scene.run env {} before = .ok s)
    (h' : (s.pushMaterial m).1.run env after = .ok s') :
    s'.materials[(s.pushMaterial m).2]? = some m := by
  obtain ⟨ha, hi⟩ := C10_aligned_and_valid env hE hM before s h
  have hst : s.step env (.pushMaterial m) = .ok (s.pushMaterial m).1 := rfl
  obtain ⟨h1, h2⟩ := step_invariant env hE hM s _ _ ha hi hst
  rw [run_materials env hE hM after _ s' h1 h2 h']
  simp [Scene.pushMaterial]

/-- **C11**, for the whole list: the materials of a scene are those pushed, in order of pushing. -/
theorem C11_materials_are_those_pushed (env : SceneEnv K) (hE : env.bvh.Lawful) (hM : env.MeshAligned)
    (ops : List (SceneOp K)) (s : Scene K) (h : Scene.run env {} ops = .ok s) : s.materials = pushedMaterials ops := by
  have := run_materials env hE hM ops {} s (by simp [Scene.Aligned]) (by simp [Scene.IndicesValid]) h
  simpa using this


/-! ### C12 -/

theorem rebuild_keeps_lights (env : SceneEnv K) (hE : env.bvh.Lawful) (s s' : Scene K) (ha : s.Aligned)
    (h : s.rebuildAccelerator env = .ok s') :
    s'.lights = s.lights ∧ s'.distantLights = s.distantLights ∧ s'.materials = s.materials := by
  obtain ⟨s1, bvh, e, h1, h2, h3, h4, h5, h6, h7, _⟩ := rebuild_spec env hE s ha
  rw [e] at h; cases h; exact ⟨h6, h7, h5⟩

theorem step_lights (env : SceneEnv K) (hE : env.bvh.Lawful) (s s' : Scene K) (op : SceneOp K) (h : s.step env op = .ok s')
    (ha : s.Aligned) (ops : List (SceneOp K)) :
    ∃ l : List (Bool × Object K), pushedLights s.materials (op :: ops) = l ++ pushedLights s'.materials ops ∧
      s'.lights = s.lights ++ (l.filter (fun x => !x.1)).map Prod.snd ∧
      s'.distantLights = s.distantLights ++ (l.filter (fun x => x.1)).map Prod.snd := by
  cases op with
  | pushMaterial m =>
    simp only [Scene.step, Scene.pushMaterial, Res.ok.injEq] at h; subst h
    exact ⟨[], by simp [pushedLights], by simp, by simp⟩
  | pushObject f b p =>
    obtain ⟨_, e1, _, _, _, _, _, _, e8, e9⟩ := pushObject_ok env s s' f b p h
    refine ⟨_, by rw [pushedLights, e1], ?_⟩
    by_cases hl : IsLight s.materials f ∨ IsLight s.materials b
    · rw [if_pos hl]
      cases p with
      | source d a => obtain ⟨q1, q2⟩ := (e8 hl).1 rfl; simp [q1, q2, Primitive.isDistant]
      | sphere _ _ => obtain ⟨q1, q2⟩ := (e8 hl).2 (by simp [Primitive.id]); simp [q1, q2, Primitive.isDistant]
      | triangle _ => obtain ⟨q1, q2⟩ := (e8 hl).2 (by simp [Primitive.id]); simp [q1, q2, Primitive.isDistant]
      | cylinder _ _ _ => obtain ⟨q1, q2⟩ := (e8 hl).2 (by simp [Primitive.id]); simp [q1, q2, Primitive.isDistant]
    · rw [if_neg hl]
      obtain ⟨q1, q2⟩ := e9 hl
      simp [q1, q2]
  | build =>
    simp only [Scene.step, Scene.buildAccelerator] at h
    split at h
    · cases h
    · obtain ⟨q1, q2, q3⟩ := rebuild_keeps_lights env hE s s' ha h
      exact ⟨[], by simp [pushedLights, q3], by simp [q1], by simp [q2]⟩
  | rebuild =>
    obtain ⟨q1, q2, q3⟩ := rebuild_keeps_lights env hE s s' ha h
    exact ⟨[], by simp [pushedLights, q3], by simp [q1], by simp [q2]⟩
  | addPerezSky sun =>
    simp only [Scene.step] at h
    rw [addPerezSky_eq] at h
    cases h
    cases sun with
    | none => exact ⟨[], by simp [pushedLights], by simp, by simp⟩
    | some x =>
      obtain ⟨d, br, a⟩ := x
      exact ⟨[(true, ⟨.source d a, s.materials.length, s.materials.length⟩)], by simp [pushedLights], by simp, by simp⟩

theorem run_lights (env : SceneEnv K) (hE : env.bvh.Lawful) (hM : env.MeshAligned) (ops : List (SceneOp K)) :
    ∀ s s' : Scene K, s.Aligned → s.IndicesValid → s.run env ops = .ok s' →
      s'.lights = s.lights ++ ((pushedLights s.materials ops).filter (fun x => !x.1)).map Prod.snd ∧
      s'.distantLights = s.distantLights ++ ((pushedLights s.materials ops).filter (fun x => x.1)).map Prod.snd := by
  induction ops with
  | nil => intro s s' _ _ h; cases h; simp [pushedLights]
  | cons op ops ih =>
    intro s s' ha hi h
    unfold Scene.run at h
    cases hs : s.step env op with
    | panic => rw [hs] at h; cases h
    | diverge => rw [hs] at h; cases h
    | ok s1 =>
      rw [hs] at h
      obtain ⟨h1, h2⟩ := step_invariant env hE hM s s1 op ha hi hs
      obtain ⟨l, e1, e2, e3⟩ := step_lights env hE s s1 op hs ha ops
      obtain ⟨i1, i2⟩ := ih s1 s' h1 h2 h
      rw [i1, i2, e1, e2, e3]
      simp

/-- **C12.** After every history, the near-light list holds, in order, exactly the pushed objects with a light on one side whose primitive
is not a distant source, the distant-light list those whose primitive is one, and `count_all_lights` counts all of them. -/
theorem C12_light_registry (env : SceneEnv K) (hE : env.bvh.Lawful) (hM : env.MeshAligned) (ops : List (SceneOp K))
    (s : Scene K) (h : Scene.run env {} ops = .ok s) :
    s.lights = ((pushedLights [] ops).filter (fun x => !x.1)).map Prod.snd ∧
    s.distantLights = ((pushedLights [] ops).filter (fun x => x.1)).map Prod.snd ∧
    s.countAllLights = (pushedLights [] ops).length := by
  obtain ⟨h1, h2⟩ := run_lights env hE hM ops {} s (by simp [Scene.Aligned]) (by simp [Scene.IndicesValid]) h
  simp only [List.nil_append] at h1 h2
  refine ⟨h1, h2, ?_⟩
  unfold Scene.countAllLights
  rw [h1, h2, List.length_map, List.length_map]
  generalize pushedLights [] ops = l
  induction l with
  | nil => rfl
  | cons x xs ih =>
    obtain ⟨b, o⟩ := x
    cases b <;> simp <;> omega

/-! ### C13 -/

/-- **C13.** `push_object` panics exactly when a material index is out of range or the primitive has no mesh (it is neither a triangle nor a
sphere) and neither material is a light; otherwise it succeeds. -/
theorem C13_push_object_panics_iff (env : SceneEnv K) (s : Scene K) (f b : Nat) (p : Primitive K) :
    (s.pushObject env f b p = .panic ↔
      s.materials.length ≤ f ∨ s.materials.length ≤ b ∨
        ((∀ t, p ≠ .triangle t) ∧ (∀ c r, p ≠ .sphere c r) ∧ ¬ IsLight s.materials f ∧ ¬ IsLight s.materials b)) ∧
    s.pushObject env f b p ≠ .diverge := by
  unfold Scene.pushObject
  cases hf : s.materials[f]? with
  | none => simp [List.getElem?_eq_none_iff.1 hf]
  | some mf =>
    have hlf := (List.getElem?_eq_some_iff.1 hf).1
    cases hb : s.materials[b]? with
    | none => simp [List.getElem?_eq_none_iff.1 hb]
    | some mb =>
      have hlb := (List.getElem?_eq_some_iff.1 hb).1
      rw [isLight_iff _ _ _ hf, isLight_iff _ _ _ hb]
      have h1 : ¬ s.materials.length ≤ f := by omega
      have h2 : ¬ s.materials.length ≤ b := by omega
      cases p with
      | triangle t => simp [h1, h2]
      | sphere c r => simp [h1, h2]
      | cylinder p0 p1 r =>
        cases hx : mf.emitsDirectLight <;> cases hy : mb.emitsDirectLight <;> simp [h1, h2, hx, hy]
      | source d a =>
        cases hx : mf.emitsDirectLight <;> cases hy : mb.emitsDirectLight <;> simp [h1, h2, hx, hy]

/-- **C13**, the effect: a successful `push_object` appends exactly the primitive's triangles, each with the given material indices and
its own normals, and changes neither the materials nor the accelerator. -/
theorem C13_push_object_effect (env : SceneEnv K) (hM : env.MeshAligned) (s s' : Scene K) (f b : Nat) (p : Primitive K)
    (ha : s.Aligned) (h : s.pushObject env f b p = .ok s') :
    s'.rows = s.rows ++ (env.meshOf p).map (fun x => (x.1, f, b, x.2)) ∧
    s'.triangles = s.triangles ++ (env.meshOf p).map Prod.fst ∧
    s'.materials = s.materials ∧ s'.accelerator = s.accelerator := by
  obtain ⟨_, e1, e2, _, e4, e5, e6, e7, _⟩ := pushObject_ok env s s' f b p h
  have hml : (env.meshPair p).2.length = (env.meshPair p).1.length := by
    cases p with
    | sphere c r => exact hM c r
    | _ => rfl
  have hz : env.meshOf p = (env.meshPair p).1.zip (env.meshPair p).2 := by
    cases p <;> rfl
  obtain ⟨a1, a2, a3⟩ := ha
  refine ⟨?_, ?_, e1, e2⟩
  · unfold Scene.rows rows
    rw [e4, e5, e6, e7, hz]
    rw [List.zip_append (by omega), List.zip_append (by simp; omega), List.zip_append (by simp; omega)]
    congr 1
    generalize env.meshPair p = q at hml
    obtain ⟨t, n⟩ := q
    simp only at hml ⊢
    induction t generalizing n with
    | nil => simp
    | cons x xs ih =>
      cases n with
      | nil => simp at hml
      | cons y ys =>
        simp only [List.length_cons, Nat.succ.injEq] at hml
        simp [List.replicate_succ, ih ys hml]
  · rw [e4, hz, List.map_fst_zip (by omega)]

/-! ### C05 over histories -/

theorem run_rows (env : SceneEnv K) (hE : env.bvh.Lawful) (hM : env.MeshAligned) (ops : List (SceneOp K)) :
    ∀ s s' : Scene K, s.Aligned → s.IndicesValid → s.run env ops = .ok s' → s'.rows.Perm (s.rows ++ pushedRows env ops) := by
  induction ops with
  | nil => intro s s' _ _ h; cases h; simp [pushedRows]
  | cons op ops ih =>
    intro s s' ha hi h
    unfold Scene.run at h
    cases hs : s.step env op with
    | panic => rw [hs] at h; cases h
    | diverge => rw [hs] at h; cases h
    | ok s1 =>
      rw [hs] at h
      obtain ⟨h1, h2⟩ := step_invariant env hE hM s s1 op ha hi hs
      have i1 := ih s1 s' h1 h2 h
      have rb : s.rebuildAccelerator env = .ok s1 → s1.rows.Perm s.rows := by
        intro h
        obtain ⟨s2, bvh, e, _, _, _, h4, _⟩ := rebuild_spec env hE s ha
        rw [e] at h; cases h; exact h4
      cases op with
      | pushMaterial m => simp only [Scene.step, Scene.pushMaterial, Res.ok.injEq] at hs; subst hs; exact i1
      | pushObject f b p =>
        obtain ⟨e1, _⟩ := C13_push_object_effect env hM s s1 f b p ha hs
        rw [e1, List.append_assoc] at i1
        exact i1
      | build =>
        simp only [Scene.step, Scene.buildAccelerator] at hs
        split at hs
        · cases hs
        · exact i1.trans ((rb hs).append_right _)
      | rebuild => exact i1.trans ((rb hs).append_right _)
      | addPerezSky sun =>
        simp only [Scene.step] at hs
        rw [addPerezSky_eq] at hs
        cases hs
        cases sun with
        | none => exact i1
        | some x => obtain ⟨d, br, a⟩ := x; exact i1

/-- **C05 (whole histories).** After any interleaving of pushes, builds and rebuilds, the scene's rows are a permutation of the rows pushed. -/
theorem C05_history_permutes (env : SceneEnv K) (hE : env.bvh.Lawful) (hM : env.MeshAligned) (ops : List (SceneOp K))
    (s : Scene K) (h : Scene.run env {} ops = .ok s) : s.rows.Perm (pushedRows env ops) := by
  have := run_rows env hE hM ops {} s (by simp [Scene.Aligned]) (by simp [Scene.IndicesValid]) h
  simpa [Scene.rows, rows] using this

/-! ### C14 -/

/-- **C14.** `build_accelerator` panics exactly when there is an accelerator already; `rebuild_accelerator` always succeeds; both leave a
scene with an accelerator. For every scene reached by a history. -/
theorem C14_build_life_cycle (env : SceneEnv K) (hE : env.bvh.Lawful) (hM : env.MeshAligned) (ops : List (SceneOp K))
    (s : Scene K) (h : Scene.run env {} ops = .ok s) :
    (s.buildAccelerator env = .panic ↔ s.accelerator ≠ none) ∧
    (s.accelerator = none → ∃ s', s.buildAccelerator env = .ok s' ∧ s'.accelerator ≠ none) ∧
    (∃ s', s.rebuildAccelerator env = .ok s' ∧ s'.accelerator ≠ none) := by
  obtain ⟨ha, _⟩ := C10_aligned_and_valid env hE hM ops s h
  obtain ⟨s', bvh, e, h1, _⟩ := rebuild_spec env hE s ha
  refine ⟨?_, ?_, s', e, by simp [h1]⟩
  · unfold Scene.buildAccelerator
    cases hacc : s.accelerator with
    | none => simp [e]
    | some a => simp
  · intro hn
    refine ⟨s', ?_, by simp [h1]⟩
    unfold Scene.buildAccelerator
    simp [hn, e]

/-- An accelerator exists exactly when the history contains a build or a rebuild. -/
theorem C14_accelerator_iff_built (env : SceneEnv K) (hE : env.bvh.Lawful) (hM : env.MeshAligned) (ops : List (SceneOp K))
    (s : Scene K) (h : Scene.run env {} ops = .ok s) : s.accelerator ≠ none ↔ ∃ op ∈ ops, ¬ op.NoBuild := by
  have key : ∀ (ops : List (SceneOp K)) (s s' : Scene K), s.Aligned → s.IndicesValid → s.run env ops = .ok s' →
      (s'.accelerator ≠ none ↔ s.accelerator ≠ none ∨ ∃ op ∈ ops, ¬ op.NoBuild) := by
    intro ops
    induction ops with
    | nil => intro s s' _ _ h; cases h; simp
    | cons op ops ih =>
      intro s s' ha hi h
      unfold Scene.run at h
      cases hs : s.step env op with
      | panic => rw [hs] at h; cases h
      | diverge => rw [hs] at h; cases h
      | ok s1 =>
        rw [hs] at h
        obtain ⟨h1, h2⟩ := step_invariant env hE hM s s1 op ha hi hs
        have i1 := ih s1 s' h1 h2 h
        have rb : s.rebuildAccelerator env = .ok s1 → s1.accelerator ≠ none := by
          intro h
          obtain ⟨s2, bvh, e, hacc, _⟩ := rebuild_spec env hE s ha
          rw [e] at h; cases h; simp [hacc]
        cases op with
        | pushMaterial m =>
          simp only [Scene.step, Scene.pushMaterial, Res.ok.injEq] at hs; subst hs
          rw [i1]; simp [SceneOp.NoBuild]
        | pushObject f b p =>
          obtain ⟨_, _, e2, _⟩ := pushObject_ok env s s1 f b p hs
          rw [i1, e2]; simp [SceneOp.NoBuild]
        | build =>
          simp only [Scene.step, Scene.buildAccelerator] at hs
          split at hs
          · cases hs
          · rw [i1]; simp [SceneOp.NoBuild, rb hs]
        | rebuild => rw [i1]; simp [SceneOp.NoBuild, rb hs]
        | addPerezSky sun =>
          simp only [Scene.step] at hs
          rw [addPerezSky_eq] at hs
          cases hs
          rw [i1]
          cases sun with
          | none => simp [SceneOp.NoBuild]
          | some x => obtain ⟨d, br, a⟩ := x; simp [SceneOp.NoBuild]
  have := key ops {} s (by simp [Scene.Aligned]) (by simp [Scene.IndicesValid]) h
  simpa using this

/-- **C14.** Queries panic without an accelerator. -/
theorem C14_query_without_accelerator (env : SceneEnv K) (s : Scene K) (ray : Ray3 K) (D : K) (scratch : List Nat)
    (h : s.accelerator = none) :
    s.castRay env ray scratch = .panic ∧ s.unobstructedDistance env ray D scratch = .panic := by
  simp [Scene.castRay, Scene.unobstructedDistance, h]

/-! ### C09 -/

/-- Between builds, the triangles only grow at the end and the accelerator stays. -/
theorem run_noBuild (env : SceneEnv K) (ops : List (SceneOp K)) (hno : ∀ op ∈ ops, op.NoBuild) :
    ∀ s s' : Scene K, s.run env ops = .ok s' → (∃ extra, s'.triangles = s.triangles ++ extra) ∧ s'.accelerator = s.accelerator := by
  induction ops with
  | nil => intro s s' h; cases h; exact ⟨⟨[], by simp⟩, rfl⟩
  | cons op ops ih =>
    intro s s' h
    unfold Scene.run at h
    cases hs : s.step env op with
    | panic => rw [hs] at h; cases h
    | diverge => rw [hs] at h; cases h
    | ok s1 =>
      rw [hs] at h
      obtain ⟨⟨ex, i1⟩, i2⟩ := ih (fun o ho => hno o (List.mem_cons_of_mem _ ho)) s1 s' h
      have h0 := hno op List.mem_cons_self
      cases op with
      | pushMaterial m => simp only [Scene.step, Scene.pushMaterial, Res.ok.injEq] at hs; subst hs; exact ⟨⟨ex, i1⟩, i2⟩
      | pushObject f b p =>
        obtain ⟨_, _, e2, _, e4, _⟩ := pushObject_ok env s s1 f b p hs
        exact ⟨⟨_, by rw [i1, e4, List.append_assoc]⟩, by rw [i2, e2]⟩
      | build => exact absurd h0 (by simp [SceneOp.NoBuild])
      | rebuild => exact absurd h0 (by simp [SceneOp.NoBuild])
      | addPerezSky sun =>
        simp only [Scene.step] at hs
        rw [addPerezSky_eq] at hs
        cases hs
        cases sun with
        | none => exact ⟨⟨ex, i1⟩, i2⟩
        | some x => obtain ⟨d, br, a⟩ := x; exact ⟨⟨ex, i1⟩, i2⟩

/-- What the code does instead of C09: queries are answered as they were at the last (re)build, whatever was pushed since (and in
particular never panic because of it). -/
theorem C09_queries_are_stale (env : SceneEnv K) (hE : env.bvh.Lawful)
    (s₀ s s' : Scene K) (hs : s₀.Aligned) (hfit : FitsAccelerator s₀.triangles) (hb : s₀.BuiltFrom env s)
    (ops : List (SceneOp K)) (hno : ∀ op ∈ ops, op.NoBuild) (h : s.run env ops = .ok s') (ray : Ray3 K) (D : K) (scratch : List Nat) :
    s'.castRay env ray scratch = s.castRay env ray scratch ∧
    s'.unobstructedDistance env ray D scratch = s.unobstructedDistance env ray D scratch := by
  obtain ⟨ha, hr, hp, bvh, hacc, hA⟩ := builtFrom_spec env hE hs hb
  have hlen : s.triangles.length < 2 ^ 30 := by rw [hp.length_eq]; exact hfit.1
  obtain ⟨⟨ex, e1⟩, e2⟩ := run_noBuild env ops hno s s' h
  constructor
  · unfold Scene.castRay
    rw [e2, hacc, e1]
    exact bvhIntersect_append env.bvh bvh s.triangles ex (hA hfit) hlen ray scratch
  · unfold Scene.unobstructedDistance
    rw [e2, hacc, e1]
    exact bvhUnobstructed_append env.bvh bvh s.triangles ex (hA hfit) hlen ray D scratch

/-- **C09 (partial).** Full statement: after *every* history with a build in it, `cast_ray` answers with respect to all triangles pushed. Proved
for the histories whose last (re)build comes after the last push of a triangle: a reported hit is the nearest among all triangles
pushed, and "nothing" means that no pushed triangle is hit. Missing: triangles pushed after the last (re)build, which are ignored
(`C09_violation`). -/
theorem C09_all_pushed_seen_partial (env : SceneEnv K) (hE : env.bvh.Lawful) (hB : env.bvh.BoxTestConservative) (hM : env.MeshAligned)
    (before after : List (SceneOp K)) (op : SceneOp K) (hop : ¬ op.NoBuild) (hno : ∀ op ∈ after, op.NoBuild)
    (hnone : pushedRows env after = []) (s : Scene K)
    (h : Scene.run env {} (before ++ op :: after) = .ok s)
    (hfit : FitsAccelerator ((pushedRows env (before ++ op :: after)).map Prod.fst))
    (ray : Ray3 K) (scratch : List Nat) :
    ∃ r, s.castRay env ray scratch = .ok r ∧
      (r = none → ∀ row ∈ pushedRows env (before ++ op :: after), ∀ d2, VisibleHit ray row.1 d2 → ¬ InRange d2) ∧
      (∀ i info, r = some (i, info) → ∃ row ∈ pushedRows env (before ++ op :: after),
        s.triangles[i]? = some row.1 ∧ TolerantHit ray row.1 info.t info.p info.u info.v ∧ InRange (distSq info.p ray.origin) ∧
        ∀ row' ∈ pushedRows env (before ++ op :: after), ∀ d2, VisibleHit ray row'.1 d2 → 1 / 10 ^ 7 < d2 →
          distSq info.p ray.origin ≤ d2) := by
  have run_append : ∀ (a b : List (SceneOp K)) (s s' : Scene K), s.run env (a ++ b) = .ok s' →
      ∃ t, s.run env a = .ok t ∧ t.run env b = .ok s' := by
    intro a
    induction a with
    | nil => intro b s s' h; exact ⟨s, rfl, h⟩
    | cons x xs ih =>
      intro b s s' h
      simp only [List.cons_append, Scene.run] at h ⊢
      cases hs : s.step env x with
      | panic => rw [hs] at h; cases h
      | diverge => rw [hs] at h; cases h
      | ok s1 => rw [hs] at h; exact ih b s1 s' h
  obtain ⟨s₀, h0, h1⟩ := run_append before (op :: after) {} s h
  obtain ⟨ha0, hi0⟩ := C10_aligned_and_valid env hE hM before s₀ h0
  have hrows0 := C05_history_permutes env hE hM before s₀ h0
  have hpr : pushedRows env (before ++ op :: after) = pushedRows env before := by
    have happ : ∀ a b : List (SceneOp K), pushedRows env (a ++ b) = pushedRows env a ++ pushedRows env b := by
      intro a b
      induction a with
      | nil => rfl
      | cons x xs ih => cases x <;> simp [pushedRows, ih]
    rw [happ, show op :: after = [op] ++ after from rfl, happ, hnone]
    cases op <;> simp_all [SceneOp.NoBuild, pushedRows]
  rw [hpr] at hfit ⊢
  have htri0 : s₀.triangles = s₀.rows.map Prod.fst := by
    unfold Scene.rows rows
    rw [List.map_fst_zip]
    obtain ⟨a1, a2, a3⟩ := ha0
    simp; omega
  have hperm : s₀.triangles.Perm ((pushedRows env before).map Prod.fst) := by rw [htri0]; exact hrows0.map _
  have hfit0 : FitsAccelerator s₀.triangles := by
    refine ⟨by rw [hperm.length_eq]; exact hfit.1, fun l hl hlen => hfit.2 l (hl.trans hperm.subperm) hlen⟩
  unfold Scene.run at h1
  cases hs : s₀.step env op with
  | panic => rw [hs] at h1; cases h1
  | diverge => rw [hs] at h1; cases h1
  | ok s1 =>
    rw [hs] at h1
    have hbuilt : s₀.BuiltFrom env s1 := by
      cases op with
      | build => exact Or.inl hs
      | rebuild => exact Or.inr hs
      | pushMaterial m => exact absurd trivial hop
      | pushObject f b p => exact absurd trivial hop
      | addPerezSky sun => exact absurd trivial hop
    have hstale := (C09_queries_are_stale env hE s₀ s1 s ha0 hfit0 hbuilt after hno h1 ray 0 scratch).1
    obtain ⟨⟨ex, e1⟩, e2⟩ := run_noBuild env after hno s1 s h1
    obtain ⟨r, k1, k2, _⟩ := C02_cast_ray_misses_nothing env hE hB s₀ s1 ha0 hfit0 hbuilt ray scratch
    refine ⟨r, by rw [hstale, k1], ?_, ?_⟩
    · intro hr row hrow d2 hv
      exact k2 hr row.1 (hperm.mem_iff.2 (List.mem_map_of_mem hrow)) d2 hv
    · intro i info hr
      rw [hr] at k1
      obtain ⟨tri, g1, g2, g3, g4, g5⟩ := C01_cast_ray_nearest env hE hB s₀ s1 ha0 hfit0 hbuilt ray scratch i info k1
      obtain ⟨row, hrow, rfl⟩ := List.mem_map.1 (hperm.mem_iff.1 g2)
      refine ⟨row, hrow, ?_, g3, g4, fun row' hrow' d2 hv hd => g5 row'.1 (hperm.mem_iff.2 (List.mem_map_of_mem hrow')) d2 hv hd⟩
      rw [e1, List.getElem?_append_left (List.getElem?_eq_some_iff.1 g1).1, g1]

/-- **C09, violation.** Build an empty scene, then push any triangle: every later `cast_ray` answers "nothing", although the ray may go
through the triangle. -/
theorem C09_violation (env : SceneEnv K) (m : Material K) (t : Tri K) (ray : Ray3 K) (scratch : List Nat) :
    ∃ s, Scene.run env {} [.pushMaterial m, .build, .pushObject 0 0 (.triangle t)] = .ok s ∧
      t ∈ s.triangles ∧ s.castRay env ray scratch = .ok none := by
  refine ⟨_, rfl, ?_, ?_⟩
  · simp
  · cases m <;> rfl

end Rendering
