import Verif.Spec.Programs
import Verif.Props.Sfluxmtx
import Verif.Props.Spict
import Verif.Props.Radiance

/-!
# C103: `spict` and `sfluxmtx` trace the scene described by the file
-/

set_option linter.unusedSectionVars false
namespace Rendering

open Classical

section
variable {K : Type} [Field K] [LinearOrder K] [IsStrictOrderedRing K] [FloorRing K]

theorem find_idxOf (defs : List (List UInt8 × Material K)) (modifier : List UInt8) (h : modifier ∈ defs.map Prod.fst) :
    ∃ d, defs.find? (fun d => d.1 == modifier) = some d ∧ defs[(defs.map Prod.fst).idxOf modifier]? = some d := by
  induction defs with
  | nil => simp at h
  | cons d defs ih =>
    by_cases hd : d.1 = modifier
    · refine ⟨d, by simp [hd], ?_⟩
      rw [List.map_cons, hd, List.idxOf_cons_self]
      rfl
    · have h' : modifier ∈ defs.map Prod.fst := by
        rw [List.map_cons, List.mem_cons] at h
        exact h.resolve_left (Ne.symm hd)
      obtain ⟨d', h1, h2⟩ := ih h'
      refine ⟨d', by rw [List.find?_cons_of_neg (by simpa using hd)]; exact h1, ?_⟩
      rw [List.map_cons, List.idxOf_cons_ne _ hd]
      simpa using h2

theorem build_parts (env : SceneEnv K) (items : List (RadItem K)) : ∀ (defs : List (List UInt8 × Material K)) (s s' : Scene K), buildItems env (defs.map Prod.fst) items s = .ok s' →
    ∀ M, M = defs.map Prod.snd ++ (items.flatMap RadItem.defines).map Prod.snd →
    (pushedRows env (itemOps (defs.map Prod.fst) items)).map (fun r => (r.1, M[r.2.1]?, M[r.2.2.1]?, r.2.2.2)) = (surfacesOf env (partsOf defs items)).map (fun x => (x.1, some x.2.1, some x.2.1, x.2.2)) ∧
    (pushedLights (defs.map Prod.snd) (itemOps (defs.map Prod.fst) items)).map (fun x => (x.1, x.2.primitive, M[x.2.front]?, M[x.2.back]?)) =
      ((partsOf defs items).filter fun x => x.2.isLamp).map (fun x => (x.1.isDistant, x.1, some x.2, some x.2)) := by
  induction items with
  | nil => intro defs s s' _ M _; simp [itemOps, pushedRows, pushedLights, partsOf, surfacesOf]
  | cons item items ih =>
    intro defs s s' h M hM
    cases item with
    | material name m =>
      simp only [buildItems] at h
      have h' : buildItems env ((defs ++ [(name, m)]).map Prod.fst) items (s.pushMaterial m).1 = .ok s' := by simpa using h
      have := ih (defs ++ [(name, m)]) _ s' h' M (by rw [hM]; simp [RadItem.defines])
      simpa [itemOps, pushedRows, pushedLights, partsOf] using this
    | object modifier parts =>
      simp only [buildItems] at h
      split_ifs at h with hin
      obtain ⟨s1, _, h'⟩ := Res.bind_eq_ok h
      obtain ⟨d, hfind, hget⟩ := find_idxOf defs modifier hin
      obtain ⟨k1, k2⟩ := ih defs s1 s' h' M (by rw [hM]; simp [RadItem.defines])
      set i := (defs.map Prod.fst).idxOf modifier with hi
      have hmat : (defs.map Prod.snd)[i]? = some d.2 := by rw [List.getElem?_map, hget]; rfl
      have hMi : M[i]? = some d.2 := by
        rw [hM, List.getElem?_append_left (List.getElem?_eq_some_iff.1 hmat).1]; exact hmat
      have hlight : IsLight (defs.map Prod.snd) i ↔ d.2.isLamp = true := by
        unfold IsLight
        rw [hmat]
        cases d.2 <;> simp [Material.isLamp]
      simp only [itemOps, partsOf, hfind]
      rw [← hi]
      constructor
      · rw [pushedRows_append, List.map_append, k1, pushedRows_parts]
        simp only [surfacesOf, List.flatMap_append, List.map_append, List.append_cancel_right_eq]
        induction parts with
        | nil => rfl
        | cons p ps ihp =>
          simp only [List.flatMap_cons, List.map_append, List.map_cons, List.map_map]
          congr 1
          · apply List.map_congr_left
            intro x _
            simp [hMi]
          · simp only [List.map_cons, List.flatMap_cons, buildItems] at ihp ⊢
            have := ihp
            simp only [List.map_flatMap, List.map_map] at this ⊢
            simpa [Function.comp_def, hMi, List.flatMap_map] using trivial
      · have key : ∀ (ps : List (Primitive K)) (ops : List (SceneOp K)), pushedLights (defs.map Prod.snd) (ps.map (fun p => .pushObject i i p) ++ ops) =
            (if d.2.isLamp = true then ps.map (fun p => (p.isDistant, (⟨p, i, i⟩ : Object K))) else []) ++ pushedLights (defs.map Prod.snd) ops := by
          intro ps ops
          induction ps with
          | nil => simp
          | cons p ps ihp =>
            simp only [List.map_cons, List.cons_append, pushedLights, ihp, or_self, hlight]
            split_ifs <;> simp
        rw [key, List.map_append, k2, List.filter_append, List.map_append]
        congr 1
        by_cases hl : d.2.isLamp = true
        · rw [if_pos hl, List.filter_eq_self.2 (by simp [hl])]
          simp [Function.comp_def, hMi]
        · rw [if_neg hl, List.filter_eq_nil_iff.2 (by simp [hl])]
          rfl

end

/-- A scene is loaded only from a `.rad` file: it is what building the accelerator of the scene read from the text leaves. -/
theorem loadScene_ok (env : RadEnv ℝ) (senv : SimpleEnv ℝ) (parseSpl : List UInt8 → Option (SimpleModel ℝ)) (name : List Char) (content : List UInt8) (s : Scene ℝ) (h : loadScene env senv parseSpl name content = .ok s) :
    ".rad".toList <:+ name ∧ ∃ s0, Scene.fromRadianceSource env content = .ok s0 ∧ s0.buildAccelerator env.scene = .ok s := by
  by_cases hr : ".rad".toList <:+ name
  · refine ⟨hr, ?_⟩
    unfold loadScene loadRadiance at h
    rw [if_pos hr] at h
    exact Res.bind_eq_ok h
  · exfalso
    by_cases hs : ".spl".toList <:+ name
    · obtain ⟨n, rfl⟩ := hs
      rw [C82_violation_programs] at h
      cases h
    · unfold loadScene at h
      rw [if_neg hr, if_neg hs] at h
      cases h

/-- What the text says and the scene holds, before the accelerator is built. -/
theorem read_parts (env : RadEnv ℝ) (hE : env.scene.bvh.Lawful) (hM : env.scene.MeshAligned) (content : List UInt8) (s : Scene ℝ) (h : Scene.fromRadianceSource env content = .ok s) :
    ∃ items, Describes env (tokensOf content) items ∧ s.Aligned ∧ s.surfaces = (surfacesOf env.scene (partsOf [] items)).map (fun x => (x.1, some x.2.1, some x.2.1, x.2.2)) ∧
      s.lights.map s.resolve = (lampsOf (partsOf [] items)).map (fun x => (x.1, some x.2, some x.2)) ∧ s.distantLights.map s.resolve = (distantLampsOf (partsOf [] items)).map (fun x => (x.1, some x.2, some x.2)) := by
  obtain ⟨-, items, hd, hb⟩ := (reads_iff env content).2 s |>.mp h
  have hrun := build_run env.scene items [] {} s hb
  obtain ⟨ha, h2, h3⟩ := run_noBuild_rows env.scene hM _ (itemOps_noBuild items []) {} s (by simp [Scene.Aligned]) hrun
  obtain ⟨l1, l2⟩ := run_lights env.scene hE hM _ {} s (by simp [Scene.Aligned]) (by simp [Scene.IndicesValid]) hrun
  have hrows : s.rows = pushedRows env.scene (itemOps [] items) := by simpa [Scene.rows, rows] using h2
  have hmats : s.materials = (items.flatMap RadItem.defines).map Prod.snd := by
    rw [h3, pushedMaterials_items]; rfl
  obtain ⟨k1, k2⟩ := build_parts env.scene items [] {} s hb s.materials (by rw [hmats]; rfl)
  simp only [List.map_nil] at k1 k2
  have split : ∀ (L : List (Bool × Object ℝ)) (q : Bool → Bool), ((L.filter fun x => q x.1).map Prod.snd).map s.resolve =
      ((L.map fun x => (x.1, x.2.primitive, s.materials[x.2.front]?, s.materials[x.2.back]?)).filter fun x => q x.1).map Prod.snd := by
    intro L q
    induction L with
    | nil => rfl
    | cons x L ih =>
      simp only [List.filter_cons, List.map_cons]
      split_ifs <;> simp [ih, Scene.resolve]
  have split' : ∀ (P : List (Primitive ℝ × Material ℝ)) (q : Bool → Bool), (((P.filter fun x => x.2.isLamp).map fun x => (x.1.isDistant, x.1, some x.2, some x.2)).filter fun x => q x.1).map Prod.snd =
      (P.filter fun x => x.2.isLamp && q x.1.isDistant).map fun x => (x.1, some x.2, some x.2) := by
    intro P q
    induction P with
    | nil => rfl
    | cons x P ih =>
      simp only [List.filter_cons]
      by_cases a : x.2.isLamp = true <;> by_cases b : q x.1.isDistant = true <;> simp [a, b, ih]
  refine ⟨items, hd, ha, ?_, ?_, ?_⟩
  · unfold Scene.surfaces
    rw [hrows]
    exact k1
  · rw [l1]
    simp only [List.nil_append]
    rw [split _ (fun b => !b), k2, split' _ (fun b => !b)]
    rfl
  · rw [l2]
    simp only [List.nil_append]
    rw [split _ (fun b => b), k2, split' _ (fun b => b)]
    rfl

/-- **C103, the scene.** What `spict` and `sfluxmtx` load from a file holds exactly the surfaces that the text describes, with their materials on both sides, and exactly the lights it describes, once each; and the accelerator is built. -/
theorem C103_loads_what_is_described (env : RadEnv ℝ) (hE : env.scene.bvh.Lawful) (hM : env.scene.MeshAligned) (senv : SimpleEnv ℝ) (parseSpl : List UInt8 → Option (SimpleModel ℝ)) (name : List Char) (content : List UInt8) (s : Scene ℝ)
    (h : loadScene env senv parseSpl name content = .ok s) :
    ∃ items, Describes env (tokensOf content) items ∧ s.accelerator ≠ none ∧
      s.surfaces.Perm ((surfacesOf env.scene (partsOf [] items)).map fun x => (x.1, some x.2.1, some x.2.1, x.2.2)) ∧
      s.lights.map s.resolve = (lampsOf (partsOf [] items)).map (fun x => (x.1, some x.2, some x.2)) ∧
      s.distantLights.map s.resolve = (distantLampsOf (partsOf [] items)).map (fun x => (x.1, some x.2, some x.2)) := by
  obtain ⟨_, s0, h0, hb⟩ := loadScene_ok env senv parseSpl name content s h
  obtain ⟨items, hd, ha, k1, k2, k3⟩ := read_parts env hE hM content s0 h0
  obtain ⟨s1, bvh, e, e1, _, _, e2, e3, e4, e5, _⟩ := rebuild_spec env.scene hE s0 ha
  have he : s = s1 := by
    unfold Scene.buildAccelerator at hb
    split at hb
    · cases hb
    · rw [e] at hb; exact (Res.ok.inj hb).symm
  subst he
  have hres : s.resolve = s0.resolve := by unfold Scene.resolve; rw [e3]
  refine ⟨items, hd, by rw [e1]; simp, ?_, by rw [e4, hres]; exact k2, by rw [e5, hres]; exact k3⟩
  rw [← k1]
  unfold Scene.surfaces
  rw [e3]
  exact e2.map _

/-- The scene that the accelerator was built from, in terms of the text. -/
theorem loaded_renders (env : RadEnv ℝ) (hE : env.scene.bvh.Lawful) (hB : env.scene.bvh.BoxTestConservative) (hM : env.scene.MeshAligned) (senv : SimpleEnv ℝ) (parseSpl : List UInt8 → Option (SimpleModel ℝ)) (name : List Char)
    (content : List UInt8) (w : World) (he : w.env = env.scene) (h : loadScene env senv parseSpl name content = .ok w.scene) (items : List (RadItem ℝ)) (hd : Describes env (tokensOf content) items)
    (hfit : FitsAccelerator ((surfacesOf env.scene (partsOf [] items)).map Prod.fst)) :
    ∃ s0, w.Renders s0 ∧ s0.triangles = (surfacesOf env.scene (partsOf [] items)).map Prod.fst ∧ ∀ (j : Nat) (x : Tri ℝ × Material ℝ × Normals ℝ), (surfacesOf env.scene (partsOf [] items))[j]? = some x →
      ∃ f k, s0.front[j]? = some f ∧ s0.back[j]? = some k ∧ s0.materials[f]? = some x.2.1 ∧ s0.materials[k]? = some x.2.1 := by
  obtain ⟨_, s0, h0, hb⟩ := loadScene_ok env senv parseSpl name content w.scene h
  obtain ⟨items', hd', ha, k1, k2, k3⟩ := read_parts env hE hM content s0 h0
  rw [C66_describes_unique env _ _ _ hd' hd] at k1
  have htri : s0.triangles = (surfacesOf env.scene (partsOf [] items)).map Prod.fst := by
    have := congrArg (List.map Prod.fst) k1
    unfold Scene.surfaces at this
    simp only [List.map_map, Function.comp_def] at this
    rw [← this]
    unfold Scene.rows rows
    obtain ⟨a1, a2, a3⟩ := ha
    have : (fun r : Tri ℝ × Nat × Nat × Normals ℝ => r.1) = Prod.fst := rfl
    rw [this, List.map_fst_zip]
    simp only [List.length_zip]
    omega
  refine ⟨s0, ⟨by rw [he]; exact hE, by rw [he]; exact hB, ha, by rw [htri]; exact hfit, Or.inl (by rw [he]; exact hb)⟩, htri, fun j x hx => ?_⟩
  obtain ⟨a1, a2, a3⟩ := ha
  have hj : s0.triangles[j]? = some x.1 := by rw [htri, List.getElem?_map, hx]; rfl
  have hjl := (List.getElem?_eq_some_iff.1 hj).1
  obtain ⟨f, hf'⟩ : ∃ f, s0.front[j]? = some f := ⟨_, List.getElem?_eq_getElem (by omega)⟩
  obtain ⟨k, hk'⟩ : ∃ k, s0.back[j]? = some k := ⟨_, List.getElem?_eq_getElem (by omega)⟩
  obtain ⟨n, hn'⟩ : ∃ n, s0.normals[j]? = some n := ⟨_, List.getElem?_eq_getElem (by omega)⟩
  have hrow : s0.rows[j]? = some (x.1, f, k, n) := by
    simp [Scene.rows, rows, List.getElem?_zip_eq_some, hj, hf', hk', hn']
  have hsur : s0.surfaces[j]? = some (x.1, s0.materials[f]?, s0.materials[k]?, n) := by
    unfold Scene.surfaces
    rw [List.getElem?_map, hrow]
    rfl
  rw [k1, List.getElem?_map, hx] at hsur
  simp only [Option.map_some, Option.some.injEq, Prod.mk.injEq, true_and] at hsur
  exact ⟨f, k, hf', hk', hsur.1.symm, hsur.2.1.symm⟩

/-- **C103, rays.** In the scene loaded from a file, every ray either meets nothing, and then no surface of the text is visible to it in range; or it meets a triangle of a surface of the text, whose material — the one that the text gives to the
surface, whichever the side — is the one its light is computed with, and no surface of the text is visible to it nearer. -/
theorem C103_rays_meet_the_described (env : RadEnv ℝ) (hE : env.scene.bvh.Lawful) (hB : env.scene.bvh.BoxTestConservative) (hM : env.scene.MeshAligned) (senv : SimpleEnv ℝ) (parseSpl : List UInt8 → Option (SimpleModel ℝ)) (name : List Char)
    (content : List UInt8) (w : World) (he : w.env = env.scene) (h : loadScene env senv parseSpl name content = .ok w.scene) (items : List (RadItem ℝ)) (hd : Describes env (tokensOf content) items)
    (hfit : FitsAccelerator ((surfacesOf env.scene (partsOf [] items)).map Prod.fst)) (ray : TRay) (hray : Norm ray.geometry.direction = 1) :
    (w.cast ray = .ok none ∧ ∀ x ∈ surfacesOf env.scene (partsOf [] items), ∀ d2, VisibleHit ray.geometry x.1 d2 → ¬ InRange d2) ∨
    ∃ (i : Nat) (x : Tri ℝ × Material ℝ × Normals ℝ) (b : Bary ℝ) (t u v : ℝ), x ∈ surfacesOf env.scene (partsOf [] items) ∧ w.cast ray = .ok (some (i, { ray with interaction := recordedInteraction x.1 ray.geometry b })) ∧
      TolerantHit ray.geometry x.1 t b.p u v ∧ InRange (distSq b.p ray.geometry.origin) ∧ w.materialAt (recordedInteraction x.1 ray.geometry b).shading.side i = .ok x.2.1 ∧
      ∀ x' ∈ surfacesOf env.scene (partsOf [] items), ∀ d2, VisibleHit ray.geometry x'.1 d2 → 1 / 10 ^ 7 < d2 → distSq b.p ray.geometry.origin ≤ d2 := by
  obtain ⟨s0, hR, htri, hmat⟩ := loaded_renders env hE hB hM senv parseSpl name content w he h items hd hfit
  have hmem : ∀ x ∈ surfacesOf env.scene (partsOf [] items), x.1 ∈ s0.triangles := fun x hx => by rw [htri]; exact List.mem_map_of_mem hx
  rcases hR.cast_cases ray with ⟨hc, hno⟩ | ⟨i, tri, b, j, hc, hj, hb', hin, ht, hf, hbk, hn, hnear⟩
  · exact Or.inl ⟨hc, fun x hx d2 hv => hno _ (hmem x hx) d2 hv⟩
  · right
    rw [htri, List.getElem?_map, Option.map_eq_some_iff] at hj
    obtain ⟨x, hx, rfl⟩ := hj
    obtain ⟨f, k, hf', hk', hmf, hmb⟩ := hmat j x hx
    refine ⟨i, x, b, _, _, _, List.mem_of_getElem? hx, hc, (baricentric_sound ray.geometry x.1 b hb').1, hin, ?_, fun x' hx' d2 hv hd2 => hnear _ (hmem x' hx') d2 hv hd2⟩
    obtain ⟨_, _, hside, _⟩ := recorded_spec x.1 ray.geometry b hray hb'
    unfold World.materialAt
    rcases hside with ⟨hs, _⟩ | ⟨hs, _⟩
    · rw [hs]
      simp only [hf, hf', hR.same.1, hmf, Res.ofOption_some, Res.bind_ok]
    · rw [hs]
      simp only [hbk, hk', hR.same.1, hmb, Res.ofOption_some, Res.bind_ok]

/-- **C103, from the file to the picture.** A pixel of `spict` whose camera ray goes through a surface of the text, when every surface it can meet first is a light of colour `c`, shows `c`. -/
theorem C103_lights_in_picture (env : RadEnv ℝ) (hE : env.scene.bvh.Lawful) (hB : env.scene.bvh.BoxTestConservative) (hM : env.scene.MeshAligned) (senv : SimpleEnv ℝ) (parseSpl : List UInt8 → Option (SimpleModel ℝ)) (name : List Char)
    (content : List UInt8) (w : World) (he : w.env = env.scene) (h : loadScene env senv parseSpl name content = .ok w.scene) (items : List (RadItem ℝ)) (hd : Describes env (tokensOf content) items)
    (hfit : FitsAccelerator ((surfacesOf env.scene (partsOf [] items)).map Prod.fst)) (o : SpictOptions) (ho : o.Sized) (hv : o.camera.view.Proper) (fuel : Nat) (rng : Nat → Rng) (s : RState TState (Spectrum ℝ))
    (hs : o.Rendered w (fuel + 1) rng s) (x y : Nat) (hx : x < o.width) (hy : y < o.height) (c : Spectrum ℝ)
    (hhit : ∃ q ∈ surfacesOf env.scene (partsOf [] items), ∃ d2, VisibleHit (o.camera.genRay (x, y)).1 q.1 d2 ∧ InRange d2)
    (hfirst : ∀ q ∈ surfacesOf env.scene (partsOf [] items), ∀ t p u v, TolerantHit (o.camera.genRay (x, y)).1 q.1 t p u v →
      (∀ q' ∈ surfacesOf env.scene (partsOf [] items), ∀ d2, VisibleHit (o.camera.genRay (x, y)).1 q'.1 d2 → 1 / 10 ^ 7 < d2 → distSq p o.viewPoint ≤ d2) → q.2.1 = .light c) :
    ∃ file im p, spictFile o s = .ok file ∧ o.Picture file im ∧ im.at? x y = some p ∧ StoredColour c p := by
  obtain ⟨s0, hR, htri, hmat⟩ := loaded_renders env hE hB hM senv parseSpl name content w he h items hd hfit
  refine C91_lights_in_picture o ho hv w s0 hR fuel rng s hs x y hx hy c ?_ ?_
  · obtain ⟨q, hq, d2, h1, h2⟩ := hhit
    exact ⟨q.1, by rw [htri]; exact List.mem_map_of_mem hq, d2, h1, h2⟩
  · intro j tri t p u v hj ht hn
    rw [htri, List.getElem?_map, Option.map_eq_some_iff] at hj
    obtain ⟨q, hq, rfl⟩ := hj
    have hc := hfirst q (List.mem_of_getElem? hq) t p u v ht fun q' hq' d2 hv' hd2 => hn q'.1 (by rw [htri]; exact List.mem_map_of_mem hq') d2 hv' hd2
    obtain ⟨f, k, hf, hk, hmf, hmk⟩ := hmat j q hq
    unfold Scene.facingMaterial
    split_ifs
    · rw [hf, Option.bind_some, hmf, hc]
    · rw [hk, Option.bind_some, hmk, hc]

/-! ### An example -/

/-- An environment in which numbers are written as natural numbers and polygons are triangles. -/
noncomputable def plainRad : RadEnv ℝ where
  scene := realEnv
  parseFloat := fun t => (parseUsize t).map fun n => (n : ℝ)
  parseFloat_empty := by
    have : parseUsize [] = none := by decide
    simp [this]
  toRadians := fun x => x * Real.pi / 180
  triangulate := fun vs => match vs with
    | [a, b, c] => some [⟨a, b, c⟩]
    | _ => none

/-- A lamp. -/
def lampText : List UInt8 := bytes "void light lamp 0 0 3 9 9 9\nlamp polygon p1 0 0 9 0 0 1 1 0 1 0 1 1\n"

/-- What the text describes. -/
noncomputable def lampItems : List (RadItem ℝ) := [.material (bytes "lamp") (.light ⟨9, 9, 9⟩), .object (bytes "lamp") [.triangle ⟨⟨0, 0, 1⟩, ⟨1, 0, 1⟩, ⟨0, 1, 1⟩⟩]]

theorem lampText_describes : Describes plainRad (tokensOf lampText) lampItems := by
  have ht : tokensOf lampText = [bytes "void", bytes "light", bytes "lamp", bytes "0", bytes "0", bytes "3"] ++ [bytes "9", bytes "9", bytes "9"] ++
      ([bytes "lamp", bytes "polygon", bytes "p1", bytes "0", bytes "0", bytes "9"] ++ [bytes "0", bytes "0", bytes "1", bytes "1", bytes "0", bytes "1", bytes "0", bytes "1", bytes "1"] ++ []) := by decide +kernel
  have n0 : plainRad.parseFloat (bytes "0") = some 0 := by
    have : parseUsize (bytes "0") = some 0 := by decide +kernel
    simp [plainRad, this]
  have n1 : plainRad.parseFloat (bytes "1") = some 1 := by
    have : parseUsize (bytes "1") = some 1 := by decide +kernel
    simp [plainRad, this]
  have n9 : plainRad.parseFloat (bytes "9") = some 9 := by
    have : parseUsize (bytes "9") = some 9 := by decide +kernel
    simp [plainRad, this]
  rw [ht]
  refine Describes.cons _ _ _ "light" _ [9, 9, 9] _ _ _ ?_ ?_ ?_ (Describes.cons _ _ _ "polygon" _ [0, 0, 1, 1, 0, 1, 0, 1, 1] _ _ _ ?_ ?_ ?_ Describes.nil)
  · exact ⟨by decide +kernel, fun _ => by decide +kernel⟩
  · simp [n9]
  · rfl
  · exact ⟨by decide +kernel, fun _ => by decide +kernel⟩
  · simp [n0, n1]
  · rfl

/-- C103: the text is loaded; its only surface is the triangle, made of the lamp, which is also the only light. -/
theorem lamp_loaded (senv : SimpleEnv ℝ) (parseSpl : List UInt8 → Option (SimpleModel ℝ)) : ∃ s, loadScene plainRad senv parseSpl "lamp.rad".toList lampText = .ok s ∧
    (∃ n, surfacesOf plainRad.scene (partsOf [] lampItems) = [(⟨⟨0, 0, 1⟩, ⟨1, 0, 1⟩, ⟨0, 1, 1⟩⟩, .light ⟨9, 9, 9⟩, n)]) ∧
    lampsOf (partsOf [] lampItems) = [(.triangle ⟨⟨0, 0, 1⟩, ⟨1, 0, 1⟩, ⟨0, 1, 1⟩⟩, .light ⟨9, 9, 9⟩)] ∧ distantLampsOf (partsOf [] lampItems) = [] ∧
    FitsAccelerator ((surfacesOf plainRad.scene (partsOf [] lampItems)).map Prod.fst) := by
  have hparts : partsOf [] lampItems = [(.triangle ⟨⟨0, 0, 1⟩, ⟨1, 0, 1⟩, ⟨0, 1, 1⟩⟩, .light ⟨9, 9, 9⟩)] := by
    have : ([(bytes "lamp", Material.light (⟨9, 9, 9⟩ : Spectrum ℝ))].find? fun d => d.1 == bytes "lamp") = some (bytes "lamp", .light ⟨9, 9, 9⟩) := by simp
    simp only [lampItems, partsOf, List.nil_append, this, List.map_cons, List.map_nil, List.append_nil]
  obtain ⟨s0, hs0⟩ : ∃ s0, Scene.fromRadianceSource plainRad lampText = .ok s0 := by
    obtain ⟨s0, hb⟩ : ∃ s0, buildItems plainRad.scene [] lampItems {} = .ok s0 := by
      simp only [lampItems, buildItems, List.nil_append, List.mem_singleton, if_true]
      exact ⟨_, rfl⟩
    exact ⟨s0, (C66_reads_what_is_described plainRad lampText _).2 ⟨by decide +kernel, lampItems, lampText_describes, hb⟩⟩
  obtain ⟨s, hs⟩ : ∃ s, s0.buildAccelerator plainRad.scene = .ok s := by
    obtain ⟨-, items, hd, hb⟩ := (reads_iff plainRad lampText).2 s0 |>.mp hs0
    have hrun := build_run plainRad.scene items [] {} s0 hb
    have hacc := C14_accelerator_iff_built plainRad.scene refEnv_lawful (fun _ _ => rfl) _ s0 hrun
    have hn : s0.accelerator = none := by
      by_contra hne
      obtain ⟨op, hop, hb⟩ := hacc.1 hne
      exact hb (itemOps_noBuild items [] op hop)
    obtain ⟨s, hs, _⟩ := (C14_build_life_cycle plainRad.scene refEnv_lawful (fun _ _ => rfl) _ s0 hrun).2.1 hn
    exact ⟨s, hs⟩
  refine ⟨s, ?_, ?_, ?_, ?_, fits_of_small _ ?_⟩
  · unfold loadScene loadRadiance
    rw [if_pos (by decide +kernel), hs0, Res.bind_ok, hs]
  · rw [hparts]; exact ⟨_, rfl⟩
  · rw [hparts]; rfl
  · rw [hparts]; rfl
  · rw [hparts]
    simp [surfacesOf, SceneEnv.meshOf]

end Rendering
