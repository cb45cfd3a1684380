import Verif.Model.SimpleModel
import Verif.Props.Obj
import Verif.Props.Glass

/-!
# Scenes from SIMPLE models: C69, C81, C82, C83, C84
-/

set_option linter.unusedSectionVars false
namespace Rendering

/-! ### Specification -/

section
variable {K : Type} [Field K] [LinearOrder K]

/-- Everything the model says is in the scene: its surfaces, then its fenestrations. -/
def SimpleModel.elements (m : SimpleModel K) : List (ModelSurface K) := m.surfaces ++ m.fenestrations

/-- The solar material of a solid substance: opaque and diffuse, reflecting what it does not absorb (0.7 absorbed if it does not say), unless it transmits light. -/
inductive SolarMaterial (env : SimpleEnv K) (s : NormalSubstance K) : Material K → Prop
  | opaqueKnown (a : K) : s.frontSolarAbsorbtance = some a → s.solarTransmittance = none → SolarMaterial env s (.plastic ⟨1 - a, 1 - a, 1 - a⟩ 0 0)
  | opaqueUnknown : s.frontSolarAbsorbtance = none → s.solarTransmittance = none → SolarMaterial env s (.plastic ⟨1 - 7 / 10, 1 - 7 / 10, 1 - 7 / 10⟩ 0 0)
  | transparent (v t : K) : s.solarTransmittance = some v → t = transmittanceToTransmissivity env.sqrt v → 0 < t → SolarMaterial env s (.glass ⟨t, t, t⟩ (152 / 100))
  | darkKnown (v a : K) : s.solarTransmittance = some v → ¬ 0 < transmittanceToTransmissivity env.sqrt v → s.frontSolarAbsorbtance = some a → SolarMaterial env s (.plastic ⟨1 - a, 1 - a, 1 - a⟩ 0 0)
  | darkUnknown (v : K) : s.solarTransmittance = some v → ¬ 0 < transmittanceToTransmissivity env.sqrt v → s.frontSolarAbsorbtance = none → SolarMaterial env s (.plastic ⟨1 - 7 / 10, 1 - 7 / 10, 1 - 7 / 10⟩ 0 0)

/-- `e` has a first and a last layer, both solid, with the given materials, and its polygon is made of the given triangles. -/
def Element (env : SimpleEnv K) (e : ModelSurface K) (front back : Material K) (ts : List (Tri K)) : Prop :=
  ∃ a b, e.construction.materials.head? = some (.normal a) ∧ e.construction.materials.getLast? = some (.normal b) ∧ SolarMaterial env a front ∧ SolarMaterial env b back ∧
    env.triangulate e.vertices = some ts

/-- A surface the reader accepts. -/
def Acceptable (env : SimpleEnv K) (e : ModelSurface K) : Prop := ∃ front back ts, Element env e front back ts

/-- The rows of triangles with flat normals between two materials. -/
def flatRows (env : SceneEnv K) (ts : List (Tri K)) (f b : Nat) : List (Tri K × Nat × Nat × Normals K) :=
  ts.map fun t => (t, f, b, env.normalized ((t.b - t.a).cross (t.c - t.a)), env.normalized ((t.b - t.a).cross (t.c - t.a)), env.normalized ((t.b - t.a).cross (t.c - t.a)))

end

/-! ### Lemmas -/

section
variable {K : Type} [Field K] [LinearOrder K] [IsStrictOrderedRing K] [FloorRing K]

theorem substance_normal (env : SimpleEnv K) (s : NormalSubstance K) :
    ∃ m, substanceToMaterial env.sqrt (.normal s) .solar = some m ∧ SolarMaterial env s m := by
  unfold substanceToMaterial
  simp only
  cases ht : s.solarTransmittance with
  | none =>
    simp only [gt_iff_lt, lt_self_iff_false, if_false]
    cases ha : s.frontSolarAbsorbtance with
    | none => exact ⟨_, rfl, .opaqueUnknown ha ht⟩
    | some a => exact ⟨_, rfl, .opaqueKnown a ha ht⟩
  | some v =>
    by_cases h : 0 < transmittanceToTransmissivity env.sqrt v
    · simp only [gt_iff_lt, h, if_true]
      exact ⟨_, rfl, .transparent v _ ht rfl h⟩
    · simp only [gt_iff_lt, h, if_false]
      cases ha : s.frontSolarAbsorbtance with
      | none => exact ⟨_, rfl, .darkUnknown v ht h ha⟩
      | some a => exact ⟨_, rfl, .darkKnown v a ht h ha⟩

/-- The material of a substance is determined. -/
theorem solarMaterial_unique (env : SimpleEnv K) (s : NormalSubstance K) (m m' : Material K) (h : SolarMaterial env s m) (h' : SolarMaterial env s m') : m = m' := by
  cases h <;> cases h' <;> simp_all <;> rename_i h1 h2 h3 h4 h5 <;> exact absurd h5 (not_lt.mpr (by assumption))

theorem substance_iff (env : SimpleEnv K) (s : NormalSubstance K) (m : Material K) : substanceToMaterial env.sqrt (.normal s) .solar = some m ↔ SolarMaterial env s m := by
  obtain ⟨m', h1, h2⟩ := substance_normal env s
  constructor
  · intro h; rw [h] at h1; cases h1; exact h2
  · intro h; rw [h1, solarMaterial_unique env s m m' h h2]

theorem pushTriangles_run (env : SceneEnv K) (f b : Nat) (ts : List (Tri K)) (s : Scene K) :
    pushTriangles env f b ts s = s.run env (ts.map fun t => .pushObject f b (.triangle t)) := by
  induction ts generalizing s with
  | nil => rfl
  | cons t ts ih =>
    simp only [List.map_cons]
    unfold pushTriangles Scene.run
    simp only [Scene.step]
    congr 1
    funext s'
    exact ih s'

theorem pushTriangles_ok (env : SceneEnv K) (hM : env.MeshAligned) (f b : Nat) (ts : List (Tri K)) (s : Scene K) (ha : s.Aligned) (hf : f < s.materials.length) (hb : b < s.materials.length) :
    ∃ s', pushTriangles env f b ts s = .ok s' ∧ s'.Aligned ∧ s'.materials = s.materials ∧ s'.rows = s.rows ++ flatRows env ts f b := by
  obtain ⟨s', h⟩ := run_triangles_ok env f b ts s hf hb
  have hno : ∀ op ∈ (ts.map fun t => (SceneOp.pushObject f b (.triangle t) : SceneOp K)), op.NoBuild := by
    intro op hop
    obtain ⟨t, -, rfl⟩ := List.mem_map.mp hop
    trivial
  obtain ⟨g1, g2, g3⟩ := run_noBuild_rows env hM _ hno s s' ha h
  refine ⟨s', by rw [pushTriangles_run]; exact h, g1, ?_, ?_⟩
  · rw [g3]
    have : ∀ l : List (Tri K), pushedMaterials (l.map fun t => (SceneOp.pushObject f b (.triangle t) : SceneOp K)) = [] := by
      intro l; induction l with
      | nil => rfl
      | cons a l ih => simpa [pushedMaterials] using ih
    rw [this, List.append_nil]
  · rw [g2]
    congr 1
    clear h g2 g3 hno
    induction ts with
    | nil => rfl
    | cons a l ih =>
      simp only [List.map_cons, pushedRows, SceneEnv.meshOf, ih, flatRows]
      rfl

theorem pushMaterial_facts (s : Scene K) (m : Material K) (ha : s.Aligned) :
    (s.pushMaterial m).1.Aligned ∧ (s.pushMaterial m).1.materials = s.materials ++ [m] ∧ (s.pushMaterial m).1.rows = s.rows ∧ (s.pushMaterial m).2 = s.materials.length := by
  refine ⟨ha, rfl, rfl, ?_⟩
  simp [Scene.pushMaterial]

theorem pushSubstance_normal (env : SimpleEnv K) (s : Scene K) (a : NormalSubstance K) (m : Material K) (h : SolarMaterial env a m) :
    ({} : SimpleReader).pushSubstance env s (.normal a) .solar = ((s.pushMaterial m).1, some (s.pushMaterial m).2) := by
  unfold SimpleReader.pushSubstance
  simp only [getModifierIndex, (substance_iff env a m).mpr h]

theorem pushSubstance_gas (env : SimpleEnv K) (s : Scene K) (n : String) :
    ({} : SimpleReader).pushSubstance env s (.gas n) .solar = (s, none) := by
  unfold SimpleReader.pushSubstance
  simp only [getModifierIndex, substanceToMaterial]

theorem pushSurface_ok (env : SimpleEnv K) (hM : env.scene.MeshAligned) (s : Scene K) (ha : s.Aligned) (e : ModelSurface K) (mf mb : Material K) (ts : List (Tri K)) (h : Element env e mf mb ts) :
    ∃ s', ({} : SimpleReader).pushSurface env .solar s e = .ok s' ∧ s'.Aligned ∧ s'.materials = s.materials ++ [mf, mb] ∧
      s'.rows = s.rows ++ flatRows env.scene ts s.materials.length (s.materials.length + 1) := by
  obtain ⟨a, b, h1, h2, h3, h4, h5⟩ := h
  obtain ⟨p1, p2, p3, p4⟩ := pushMaterial_facts s mf ha
  obtain ⟨q1, q2, q3, q4⟩ := pushMaterial_facts (s.pushMaterial mf).1 mb p1
  have hm : ((s.pushMaterial mf).1.pushMaterial mb).1.materials = s.materials ++ [mf, mb] := by rw [q2, p2]; simp
  obtain ⟨s', r1, r2, r3, r4⟩ := pushTriangles_ok env.scene hM s.materials.length (s.materials.length + 1) ts ((s.pushMaterial mf).1.pushMaterial mb).1 q1
    (by rw [hm]; simp) (by rw [hm]; simp)
  refine ⟨s', ?_, r2, by rw [r3, hm], by rw [r4, q3, p3]⟩
  unfold SimpleReader.pushSurface
  rw [← List.head?_eq_getElem?, h1, h2]
  simp only
  rw [pushSubstance_normal env s a mf h3]
  simp only [Res.ofOption_some, Res.bind_ok]
  rw [pushSubstance_normal env (s.pushMaterial mf).1 b mb h4]
  simp only [Res.ofOption_some, Res.bind_ok, h5]
  rw [p4, q4, p2]
  simpa using r1

theorem pushSurface_panic (env : SimpleEnv K) (s : Scene K) (e : ModelSurface K) (h : ¬ Acceptable env e) : ({} : SimpleReader).pushSurface env .solar s e = .panic := by
  unfold SimpleReader.pushSurface
  rw [← List.head?_eq_getElem?]
  cases h1 : e.construction.materials.head? with
  | none => rfl
  | some a =>
    cases h2 : e.construction.materials.getLast? with
    | none => rfl
    | some b =>
      simp only
      cases a with
      | gas n => rw [pushSubstance_gas]; rfl
      | normal a =>
        obtain ⟨mf, f1, f2⟩ := substance_normal env a
        rw [pushSubstance_normal env s a mf f2]
        simp only [Res.ofOption_some, Res.bind_ok]
        cases b with
        | gas n => rw [pushSubstance_gas]; rfl
        | normal b =>
          obtain ⟨mb, b1, b2⟩ := substance_normal env b
          rw [pushSubstance_normal env _ b mb b2]
          simp only [Res.ofOption_some, Res.bind_ok]
          cases ht : env.triangulate e.vertices with
          | none => rfl
          | some ts => exact absurd ⟨mf, mb, ts, a, b, h1, h2, f2, b2, ht⟩ h

/-- What a list of accepted elements adds. -/
inductive Adds (env : SimpleEnv K) : Nat → List (ModelSurface K) → List (Material K) → List (Tri K × Nat × Nat × Normals K) → Prop
  | nil (n : Nat) : Adds env n [] [] []
  | cons (n : Nat) (e : ModelSurface K) (es : List (ModelSurface K)) (mf mb : Material K) (ts : List (Tri K)) (ms : List (Material K)) (rs : List (Tri K × Nat × Nat × Normals K)) :
      Element env e mf mb ts → Adds env (n + 2) es ms rs → Adds env n (e :: es) (mf :: mb :: ms) (flatRows env.scene ts n (n + 1) ++ rs)

theorem pushSurfaces_ok (env : SimpleEnv K) (hM : env.scene.MeshAligned) (es : List (ModelSurface K)) (hes : ∀ e ∈ es, Acceptable env e) (s : Scene K) (ha : s.Aligned) :
    ∃ s' ms rs, ({} : SimpleReader).pushSurfaces env .solar es s = .ok s' ∧ s'.Aligned ∧ Adds env s.materials.length es ms rs ∧ s'.materials = s.materials ++ ms ∧ s'.rows = s.rows ++ rs := by
  induction es generalizing s with
  | nil => exact ⟨s, [], [], rfl, ha, .nil _, by simp, by simp⟩
  | cons e es ih =>
    obtain ⟨mf, mb, ts, he⟩ := hes e (by simp)
    obtain ⟨s1, h1, h2, h3, h4⟩ := pushSurface_ok env hM s ha e mf mb ts he
    obtain ⟨s', ms, rs, g1, g2, g3, g4, g5⟩ := ih (fun x hx => hes x (by simp [hx])) s1 h2
    refine ⟨s', mf :: mb :: ms, flatRows env.scene ts s.materials.length (s.materials.length + 1) ++ rs, ?_, g2, ?_, ?_, ?_⟩
    · unfold SimpleReader.pushSurfaces
      rw [h1, Res.bind_ok, g1]
    · refine .cons _ e es mf mb ts ms rs he ?_
      rw [h3] at g3
      simpa using g3
    · rw [g4, h3]; simp
    · rw [g5, h4, List.append_assoc]

theorem pushSurfaces_panic (env : SimpleEnv K) (hM : env.scene.MeshAligned) (es : List (ModelSurface K)) (hes : ¬ ∀ e ∈ es, Acceptable env e) (s : Scene K) (ha : s.Aligned) :
    ({} : SimpleReader).pushSurfaces env .solar es s = .panic := by
  induction es generalizing s with
  | nil => exact absurd (by simp) hes
  | cons e es ih =>
    unfold SimpleReader.pushSurfaces
    by_cases he : Acceptable env e
    · obtain ⟨mf, mb, ts, he'⟩ := he
      obtain ⟨s1, h1, h2, -⟩ := pushSurface_ok env hM s ha e mf mb ts he'
      rw [h1, Res.bind_ok]
      exact ih (fun h => hes (by intro x hx; rcases List.mem_cons.mp hx with rfl | hx; exacts [⟨mf, mb, ts, he'⟩, h x hx])) s1 h2
    · rw [pushSurface_panic env s e he]; rfl

theorem pushSurfaces_append (r : SimpleReader) (env : SimpleEnv K) (w : Wavelengths) (a b : List (ModelSurface K)) (s : Scene K) :
    r.pushSurfaces env w (a ++ b) s = (r.pushSurfaces env w a s).bind fun s => r.pushSurfaces env w b s := by
  induction a generalizing s with
  | nil => rfl
  | cons e a ih =>
    simp only [List.cons_append, SimpleReader.pushSurfaces]
    cases r.pushSurface env w s e with
    | ok s1 => simp only [Res.bind_ok]; exact ih s1
    | panic => rfl
    | diverge => rfl

theorem solar_eq (env : SimpleEnv K) (model : SimpleModel K) :
    Scene.fromSimpleModel env model .solar = ({} : SimpleReader).pushSurfaces env .solar model.elements {} := by
  unfold Scene.fromSimpleModel SimpleReader.buildScene SimpleModel.elements
  rw [if_neg (by decide), pushSurfaces_append]

theorem Adds.at (env : SimpleEnv K) : ∀ (pre : List (ModelSurface K)) (n : Nat) (e : ModelSurface K) (post : List (ModelSurface K)) (ms : List (Material K)) (rs : List (Tri K × Nat × Nat × Normals K)),
    Adds env n (pre ++ e :: post) ms rs → ∃ mf mb ts before after, Element env e mf mb ts ∧ ms[2 * pre.length]? = some mf ∧ ms[2 * pre.length + 1]? = some mb ∧
      rs = before ++ flatRows env.scene ts (n + 2 * pre.length) (n + 2 * pre.length + 1) ++ after
  | [], n, e, post, ms, rs, h => by
    cases h with
    | cons _ _ _ mf mb ts ms rs he hr => exact ⟨mf, mb, ts, [], rs, he, rfl, rfl, by simp⟩
  | x :: pre, n, e, post, ms, rs, h => by
    cases h with
    | cons _ _ _ mf mb ts ms rs he hr =>
      obtain ⟨mf', mb', ts', before, after, h1, h2, h3, h4⟩ := Adds.at env pre (n + 2) e post ms rs hr
      refine ⟨mf', mb', ts', flatRows env.scene ts n (n + 1) ++ before, after, h1, ?_, ?_, ?_⟩
      · rw [show 2 * (x :: pre).length = 2 * pre.length + 2 by simp; ring]; exact h2
      · rw [show 2 * (x :: pre).length + 1 = (2 * pre.length + 1) + 2 by simp; ring]; exact h3
      · rw [h4, show n + 2 * (x :: pre).length = n + 2 + 2 * pre.length by simp; ring]
        simp [List.append_assoc]

theorem Adds.lengths (env : SimpleEnv K) (n : Nat) (es : List (ModelSurface K)) (ms : List (Material K)) (rs : List (Tri K × Nat × Nat × Normals K)) (h : Adds env n es ms rs) :
    ms.length = 2 * es.length ∧ ∀ r ∈ rs, r.2.1 < n + 2 * es.length ∧ r.2.2.1 < n + 2 * es.length := by
  induction h with
  | nil n => simp
  | cons n e es mf mb ts ms rs he hr ih =>
    refine ⟨by simp [ih.1]; ring, ?_⟩
    intro r hr'
    rcases List.mem_append.mp hr' with h | h
    · obtain ⟨t, -, rfl⟩ := List.mem_map.mp h
      simp only [List.length_cons]
      omega
    · have := ih.2 r h
      simp only [List.length_cons]
      omega

/-! ### Theorems -/

/-- C69. A solar scene is built exactly from the models whose surfaces and fenestrations all have a polygon that can be triangulated and a construction whose first and last layers
exist and are solid; any other model ends the program. -/
theorem C69_accepts (env : SimpleEnv K) (hM : env.scene.MeshAligned) (model : SimpleModel K) :
    ((∀ e ∈ model.elements, Acceptable env e) → ∃ s, Scene.fromSimpleModel env model .solar = .ok s) ∧
    ((¬ ∀ e ∈ model.elements, Acceptable env e) → Scene.fromSimpleModel env model .solar = .panic) := by
  rw [solar_eq]
  refine ⟨fun h => ?_, fun h => pushSurfaces_panic env hM _ h {} (by simp [Scene.Aligned])⟩
  obtain ⟨s', -, -, h, -⟩ := pushSurfaces_ok env hM _ h {} (by simp [Scene.Aligned])
  exact ⟨s', h⟩

/-- C69. In the scene built from a model, every triangle has front and back indices within the list of materials, and every surface and fenestration of the model has its triangles there, with
the material of the first layer of its own construction in front and that of the last layer behind. -/
theorem C69_materials (env : SimpleEnv K) (hM : env.scene.MeshAligned) (model : SimpleModel K) (s : Scene K) (h : Scene.fromSimpleModel env model .solar = .ok s) :
    (∀ r ∈ s.rows, r.2.1 < s.materials.length ∧ r.2.2.1 < s.materials.length) ∧
    ∀ pre e post, model.elements = pre ++ e :: post →
      ∃ mf mb ts f b before after, Element env e mf mb ts ∧ s.materials[f]? = some mf ∧ s.materials[b]? = some mb ∧ s.rows = before ++ flatRows env.scene ts f b ++ after := by
  by_cases hall : ∀ e ∈ model.elements, Acceptable env e
  · rw [solar_eq] at h
    obtain ⟨s', ms, rs, h1, -, h3, h4, h5⟩ := pushSurfaces_ok env hM _ hall {} (by simp [Scene.Aligned])
    rw [h] at h1
    cases h1
    have h4 : s.materials = ms := by simpa using h4
    have h5 : s.rows = rs := by simpa [Scene.rows, rows] using h5
    rw [h4, h5]
    have hl := Adds.lengths env _ _ ms rs h3
    constructor
    · intro r hr
      have := hl.2 r hr
      rw [hl.1]; simpa using this
    · intro pre e post he
      rw [he] at h3
      obtain ⟨mf, mb, ts, before, after, g1, g2, g3, g4⟩ := Adds.at env pre _ e post ms rs h3
      refine ⟨mf, mb, ts, 2 * pre.length, 2 * pre.length + 1, before, after, g1, g2, g3, ?_⟩
      simpa using g4
  · rw [(C69_accepts env hM model).2 hall] at h; cases h

/-- C69. The scene contains nothing else: as many triangles as the polygons are made of, in the order of the model. -/
theorem C69_nothing_else (env : SimpleEnv K) (hM : env.scene.MeshAligned) (model : SimpleModel K) (s : Scene K) (h : Scene.fromSimpleModel env model .solar = .ok s) :
    s.triangles = model.elements.flatMap (fun e => (env.triangulate e.vertices).getD []) ∧ s.lights = [] ∧ s.distantLights = [] ∧ s.accelerator = none := by
  have key : ∀ (es : List (ModelSurface K)) (s0 s1 : Scene K), (∀ m ∈ s0.materials, m.emitsDirectLight = false) → ({} : SimpleReader).pushSurfaces env .solar es s0 = .ok s1 →
      s1.triangles = s0.triangles ++ es.flatMap (fun e => (env.triangulate e.vertices).getD []) ∧ s1.lights = s0.lights ∧ s1.distantLights = s0.distantLights ∧ s1.accelerator = s0.accelerator := by
    have tri : ∀ (ts : List (Tri K)) (f b : Nat) (s0 s1 : Scene K), (∀ m ∈ s0.materials, m.emitsDirectLight = false) → pushTriangles env.scene f b ts s0 = .ok s1 →
        s1.triangles = s0.triangles ++ ts ∧ s1.lights = s0.lights ∧ s1.distantLights = s0.distantLights ∧ s1.accelerator = s0.accelerator ∧ s1.materials = s0.materials := by
      intro ts
      induction ts with
      | nil => intro f b s0 s1 _ h; cases h; simp
      | cons t ts ih =>
        intro f b s0 s1 hd h
        unfold pushTriangles at h
        cases hp : s0.pushObject env.scene f b (.triangle t) with
        | panic => rw [hp] at h; cases h
        | diverge => rw [hp] at h; cases h
        | ok sm =>
          rw [hp, Res.bind_ok] at h
          obtain ⟨h1, h2, h3, -, h5, -, -, -, -, h10⟩ := pushObject_ok env.scene s0 sm f b _ hp
          have hnl : ∀ i, ¬ IsLight s0.materials i := by
            rintro i ⟨c, hm⟩
            have := hd _ (List.mem_of_getElem? hm)
            simp [Material.emitsDirectLight] at this
          obtain ⟨l1, l2⟩ := h10 (by rintro (h | h); exacts [hnl f h, hnl b h])
          obtain ⟨g1, g2, g3, g4, g5⟩ := ih f b sm s1 (by rw [h2]; exact hd) h
          refine ⟨?_, by rw [g2, l1], by rw [g3, l2], by rw [g4, h3], by rw [g5, h2]⟩
          rw [g1, h5]
          simp [SceneEnv.meshPair, meshTriangle]
    intro es
    induction es with
    | nil => intro s0 s1 _ h; cases h; simp
    | cons e es ih =>
      intro s0 s1 hd h
      unfold SimpleReader.pushSurfaces at h
      by_cases he : Acceptable env e
      · obtain ⟨mf, mb, ts, a, b, h1, h2, h3, h4, h5⟩ := he
        have hdm : ∀ (x : NormalSubstance K) m, SolarMaterial env x m → m.emitsDirectLight = false := by
          intro x m hx; cases hx <;> rfl
        have hmats : ∀ m ∈ ((s0.pushMaterial mf).1.pushMaterial mb).1.materials, m.emitsDirectLight = false := by
          intro m hm
          simp only [Scene.pushMaterial, List.mem_append, List.mem_cons, List.not_mem_nil, or_false] at hm
          rcases hm with (hm | rfl) | rfl
          exacts [hd m hm, hdm a _ h3, hdm b _ h4]
        have hsurf : ({} : SimpleReader).pushSurface env .solar s0 e = pushTriangles env.scene (s0.pushMaterial mf).2 ((s0.pushMaterial mf).1.pushMaterial mb).2 ts ((s0.pushMaterial mf).1.pushMaterial mb).1 := by
          unfold SimpleReader.pushSurface
          rw [← List.head?_eq_getElem?, h1, h2]
          simp only
          rw [pushSubstance_normal env s0 a mf h3]
          simp only [Res.ofOption_some, Res.bind_ok]
          rw [pushSubstance_normal env (s0.pushMaterial mf).1 b mb h4]
          simp only [Res.ofOption_some, Res.bind_ok, h5]
        rw [hsurf] at h
        cases hp : pushTriangles env.scene (s0.pushMaterial mf).2 ((s0.pushMaterial mf).1.pushMaterial mb).2 ts ((s0.pushMaterial mf).1.pushMaterial mb).1 with
        | panic => rw [hp] at h; cases h
        | diverge => rw [hp] at h; cases h
        | ok sm =>
          rw [hp, Res.bind_ok] at h
          obtain ⟨g1, g2, g3, g4, g5⟩ := tri ts _ _ _ sm hmats hp
          obtain ⟨k1, k2, k3, k4⟩ := ih sm s1 (by rw [g5]; exact hmats) h
          refine ⟨?_, by rw [k2, g2]; rfl, by rw [k3, g3]; rfl, by rw [k4, g4]; rfl⟩
          rw [k1, g1]
          simp [h5, Scene.pushMaterial]
      · rw [pushSurface_panic env s0 e he] at h; cases h
  rw [solar_eq] at h
  simpa using key model.elements {} s (by simp) h

/-- C81 is false of the program: a substance is added again at every use, so that the scene has two materials for every surface, whatever the substances are. The list of names in which it
would be found is never written. -/
theorem C81_violation (env : SimpleEnv K) (hM : env.scene.MeshAligned) (model : SimpleModel K) (s : Scene K) (h : Scene.fromSimpleModel env model .solar = .ok s) :
    s.materials.length = 2 * model.elements.length := by
  by_cases hall : ∀ e ∈ model.elements, Acceptable env e
  · rw [solar_eq] at h
    obtain ⟨s', ms, rs, h1, -, h3, h4, h5⟩ := pushSurfaces_ok env hM _ hall {} (by simp [Scene.Aligned])
    rw [h] at h1
    cases h1
    have h4 : s.materials = ms := by simpa using h4
    rw [h4, (Adds.lengths env _ _ ms rs h3).1]
  · rw [(C69_accepts env hM model).2 hall] at h; cases h

/-- C81, the part that holds: uses of the same substance have the same material, under whichever index. -/
theorem C81_same_material_partial (env : SimpleEnv K) (hM : env.scene.MeshAligned) (model : SimpleModel K) (s : Scene K) (h : Scene.fromSimpleModel env model .solar = .ok s)
    (pre pre' post post' : List (ModelSurface K)) (e e' : ModelSurface K) (h1 : model.elements = pre ++ e :: post) (h2 : model.elements = pre' ++ e' :: post')
    (hs : e.construction.materials.head? = e'.construction.materials.head?) :
    s.materials[2 * pre.length]? = s.materials[2 * pre'.length]? := by
  by_cases hall : ∀ e ∈ model.elements, Acceptable env e
  · rw [solar_eq] at h
    obtain ⟨s', ms, rs, g1, -, g3, g4, -⟩ := pushSurfaces_ok env hM _ hall {} (by simp [Scene.Aligned])
    rw [h] at g1
    cases g1
    have h4 : s.materials = ms := by simpa using g4
    rw [h4]
    have g3' := g3
    rw [h1] at g3
    rw [h2] at g3'
    obtain ⟨mf, mb, ts, _, _, ⟨a, b, k1, -, k3, -, -⟩, k4, -⟩ := Adds.at env pre _ e post ms rs g3
    obtain ⟨mf', mb', ts', _, _, ⟨a', b', l1, -, l3, -, -⟩, l4, -⟩ := Adds.at env pre' _ e' post' ms rs g3'
    rw [k1, l1] at hs
    cases hs
    rw [k4, l4, solarMaterial_unique env a mf mf' k3 l3]
  · rw [(C69_accepts env hM model).2 hall] at h; cases h

/-- C82 is false of the program: for visible light every model, even the empty one, ends the program. -/
theorem C82_violation (env : SimpleEnv K) (model : SimpleModel K) : Scene.fromSimpleModel env model .visible = .panic := rfl

/-- Nor would dropping the early exit of C82 be enough: the branch for visible light takes the visible reflectance (0.7 if the substance does not say) where the solar one takes the
absorbed fraction, so a substance that lets no light through and reflects the fraction `r` would become a surface that reflects `1 - r`. -/
theorem C82_violation_visible_inverted (env : SimpleEnv K) (s : NormalSubstance K) (r : K)
    (hr : s.frontVisibleReflectance = some r ∨ (s.frontVisibleReflectance = none ∧ r = 7 / 10)) :
    (∀ t, s.visibleTransmissivity = some t → 0 < t → substanceToMaterial env.sqrt (.normal s) .visible = some (.glass ⟨t, t, t⟩ (152 / 100))) ∧
    ((∀ t, s.visibleTransmissivity = some t → t ≤ 0) → substanceToMaterial env.sqrt (.normal s) .visible = some (.plastic ⟨1 - r, 1 - r, 1 - r⟩ 0 0)) := by
  unfold substanceToMaterial
  constructor
  · intro t ht h0
    simp only [ht, gt_iff_lt, h0, if_true]
    rfl
  · intro h
    rcases hr with hr | ⟨hr, rfl⟩ <;> cases ht : s.visibleTransmissivity with
    | none => simp only [hr, ht, gt_iff_lt, lt_self_iff_false, if_false]; rfl
    | some t => simp only [hr, ht, gt_iff_lt, not_lt.mpr (h t ht), if_false]; rfl

/-- C82, the part that holds: acceptable models give solar scenes. -/
theorem C82_solar_partial (env : SimpleEnv K) (hM : env.scene.MeshAligned) (model : SimpleModel K) (h : ∀ e ∈ model.elements, Acceptable env e) :
    ∃ s, Scene.fromSimpleModel env model .solar = .ok s :=
  (C69_accepts env hM model).1 h

end
end Rendering
