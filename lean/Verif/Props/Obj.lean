import Verif.Model.Obj
import Verif.Props.Radiance
import Verif.Spec.Triangle

/-!
# C68: OBJ faces become the right triangles
-/

set_option linter.unusedSectionVars false
namespace Rendering

/-! ### Specification -/

/-- The position indices of a face. -/
def ObjPolygon.corners : ObjPolygon → List Nat
  | .p l => l
  | .pt l => l.map Prod.fst
  | .pn l => l.map Prod.fst
  | .ptn l => l.map Prod.fst

/-- The triangles of a face with the given corners: a fan around the first corner, in the order of the face; faces with more than four corners have none. -/
def fan {α : Type} : List α → List (α × α × α)
  | [a, b, c] => [(a, b, c)]
  | [a, b, c, d] => [(a, b, c), (a, c, d)]
  | _ => []

/-- The indices of the face refer to existing entries of the file's tables. -/
def ObjRaw.InTables {K : Type} (raw : ObjRaw K) : ObjPolygon → Prop
  | .p l => ∀ i ∈ l, i < raw.vertices.length
  | .pt l => ∀ i ∈ l, i.1 < raw.vertices.length ∧ i.2 < raw.texCoords.length
  | .pn l => ∀ i ∈ l, i.1 < raw.vertices.length ∧ i.2 < raw.normals.length
  | .ptn l => ∀ i ∈ l, i.1 < raw.vertices.length ∧ i.2.1 < raw.texCoords.length ∧ i.2.2 < raw.normals.length

/-- Faces that can be read: those with more than four corners (which are skipped), and those with three or four corners that exist. -/
def ObjRaw.Readable {K : Type} (raw : ObjRaw K) (poly : ObjPolygon) : Prop :=
  4 < poly.corners.length ∨ (3 ≤ poly.corners.length ∧ raw.InTables poly)

/-- The positions of the corners of a face, for faces that are not skipped. -/
def ObjRaw.points {K : Type} (raw : ObjRaw K) (poly : ObjPolygon) : List (Vec3 K) :=
  poly.corners.filterMap fun i => (raw.vertices[i]?).map Prod.fst

/-- The triangles of a face. -/
def ObjRaw.faceTriangles {K : Type} (raw : ObjRaw K) (poly : ObjPolygon) : List (Vec3 K × Vec3 K × Vec3 K) :=
  if poly.corners.length ≤ 4 then fan (raw.points poly) else []

/-! ### Lemmas -/

section
variable {K : Type}

theorem lookupAll_ok {α : Type} (table : List α) (is : List Nat) (h : ∀ i ∈ is, i < table.length) :
    lookupAll table is = .ok (is.filterMap fun i => table[i]?) ∧ (is.filterMap fun i => table[i]?).length = is.length := by
  induction is with
  | nil => exact ⟨rfl, rfl⟩
  | cons i is ih =>
    obtain ⟨h1, h2⟩ := ih (fun j hj => h j (by simp [hj]))
    have hi := h i (by simp)
    unfold lookupAll
    rw [h1, List.getElem?_eq_getElem hi]
    simp [List.filterMap_cons, List.getElem?_eq_getElem hi, h2]

theorem lookupAll_panic {α : Type} (table : List α) (is : List Nat) (h : ¬ ∀ i ∈ is, i < table.length) : lookupAll table is = .panic := by
  induction is with
  | nil => exact absurd (by simp) h
  | cons i is ih =>
    unfold lookupAll
    by_cases hi : i < table.length
    · rw [ih (fun h' => h (by intro j hj; rcases List.mem_cons.mp hj with rfl | hj; exacts [hi, h' j hj]))]
      rw [List.getElem?_eq_getElem hi]; rfl
    · rw [List.getElem?_eq_none (by omega)]; rfl

theorem lookupAll_cases {α : Type} (table : List α) (is : List Nat) :
    (∃ l, lookupAll table is = .ok l ∧ l.length = is.length) ∨ lookupAll table is = .panic := by
  by_cases h : ∀ i ∈ is, i < table.length
  · exact Or.inl ⟨_, (lookupAll_ok table is h).1, (lookupAll_ok table is h).2⟩
  · exact Or.inr (lookupAll_panic table is h)

theorem indices_fst (poly : ObjPolygon) : poly.indices.1 = poly.corners := by cases poly <;> rfl

/-- All lookups of a face succeed exactly when its indices are in the tables. -/
theorem lookups_iff (raw : ObjRaw K) (poly : ObjPolygon) :
    raw.InTables poly ↔ (∀ i ∈ poly.indices.1, i < raw.vertices.length) ∧ (∀ l, poly.indices.2.1 = some l → ∀ i ∈ l, i < raw.texCoords.length) ∧
      (∀ l, poly.indices.2.2 = some l → ∀ i ∈ l, i < raw.normals.length) := by
  cases poly with
  | p l => simp [ObjRaw.InTables, ObjPolygon.indices]
  | pt l =>
    simp only [ObjRaw.InTables, ObjPolygon.indices, Option.some.injEq, forall_eq', List.mem_map, forall_exists_index, and_imp, forall_apply_eq_imp_iff₂, reduceCtorEq, false_implies, implies_true, and_true]
    exact ⟨fun h => ⟨fun a ha => (h a ha).1, fun a ha => (h a ha).2⟩, fun h a ha => ⟨h.1 a ha, h.2 a ha⟩⟩
  | pn l =>
    simp only [ObjRaw.InTables, ObjPolygon.indices, Option.some.injEq, forall_eq', List.mem_map, forall_exists_index, and_imp, forall_apply_eq_imp_iff₂, reduceCtorEq, false_implies, implies_true, true_and]
    exact ⟨fun h => ⟨fun a ha => (h a ha).1, fun a ha => (h a ha).2⟩, fun h a ha => ⟨h.1 a ha, h.2 a ha⟩⟩
  | ptn l =>
    simp only [ObjRaw.InTables, ObjPolygon.indices, Option.some.injEq, forall_eq', List.mem_map, forall_exists_index, and_imp, forall_apply_eq_imp_iff₂]
    exact ⟨fun h => ⟨fun a ha => (h a ha).1, fun a ha => (h a ha).2.1, fun a ha => (h a ha).2.2⟩, fun h a ha => ⟨h.1 a ha, h.2.1 a ha, h.2.2 a ha⟩⟩

theorem indices_length (poly : ObjPolygon) (l : List Nat) (h : poly.indices.2.1 = some l ∨ poly.indices.2.2 = some l) : l.length = poly.corners.length := by
  cases poly <;> simp [ObjPolygon.indices, ObjPolygon.corners] at h ⊢
  · rw [← h]; simp
  · rw [← h]; simp
  · rcases h with h | h <;> rw [← h] <;> simp

theorem lookupOpt_ok {α : Type} (table : List α) (o : Option (List Nat)) (n : Nat) (h : ∀ l, o = some l → l.length = n ∧ ∀ i ∈ l, i < table.length) :
    ∃ r, lookupOpt table o = .ok r ∧ ∀ l, r = some l → l.length = n := by
  cases o with
  | none => exact ⟨none, rfl, by simp⟩
  | some is =>
    obtain ⟨h1, h2⟩ := h is rfl
    obtain ⟨g1, g2⟩ := lookupAll_ok table is h2
    refine ⟨some _, by simp only [lookupOpt]; rw [g1]; rfl, ?_⟩
    intro l hl; cases hl; omega

theorem lookupOpt_panic {α : Type} (table : List α) (l : List Nat) (h : ¬ ∀ i ∈ l, i < table.length) : lookupOpt table (some l) = .panic := by
  simp only [lookupOpt]; rw [lookupAll_panic table l h]; rfl

theorem pick_ok {α : Type} (l : List α) (x y z : Nat) (hx : x < l.length) (hy : y < l.length) (hz : z < l.length) : pick l x y z = .ok (l[x], l[y], l[z]) := by
  unfold pick
  rw [List.getElem?_eq_getElem hx, List.getElem?_eq_getElem hy, List.getElem?_eq_getElem hz]; rfl

theorem pickOpt_ok {α : Type} (o : Option (List α)) (n x y z : Nat) (h : ∀ l, o = some l → l.length = n) (hx : x < n) (hy : y < n) (hz : z < n) :
    ∃ r, pickOpt o x y z = .ok r := by
  cases o with
  | none => exact ⟨_, rfl⟩
  | some l =>
    have := h l rfl
    unfold pickOpt
    simp only
    rw [pick_ok l x y z (by omega) (by omega) (by omega)]
    exact ⟨_, rfl⟩

theorem objHalf_ok (p : List (Vec3 K)) (n t : Option (List (Vec3 K))) (k x y z : Nat) (hp : p.length = k) (hn : ∀ l, n = some l → l.length = k) (ht : ∀ l, t = some l → l.length = k)
    (hx : x < k) (hy : y < k) (hz : z < k) : ∃ r, objHalf p n t x y z = .ok r ∧ ∀ a b c, p[x]? = some a → p[y]? = some b → p[z]? = some c → r.vertices = (a, b, c) := by
  obtain ⟨a, ha⟩ := pickOpt_ok n k x y z hn hx hy hz
  obtain ⟨b, hb⟩ := pickOpt_ok t k x y z ht hx hy hz
  refine ⟨⟨(p[x], p[y], p[z]), a, b⟩, ?_, fun a b c h1 h2 h3 => ?_⟩
  swap
  · rw [List.getElem?_eq_getElem (by omega)] at h1 h2 h3
    cases h1; cases h2; cases h3; rfl
  unfold objHalf
  rw [pick_ok p x y z (by omega) (by omega) (by omega), Res.bind_ok, ha, Res.bind_ok, hb, Res.bind_ok]

theorem points_eq (raw : ObjRaw K) (poly : ObjPolygon) : raw.points poly = (poly.indices.1.filterMap fun i => raw.vertices[i]?).map Prod.fst := by
  rw [indices_fst, List.map_filterMap]; rfl

/-- One face. -/
theorem objFace_spec (raw : ObjRaw K) (poly : ObjPolygon) :
    (raw.Readable poly → ∃ ts, objFace raw poly = .ok ts ∧ ts.map ObjTriangle.vertices = raw.faceTriangles poly) ∧
    (¬ raw.Readable poly → objFace raw poly = .panic) := by
  have hfst := indices_fst poly
  by_cases hlong : 4 < poly.corners.length
  · refine ⟨fun _ => ⟨[], ?_, ?_⟩, fun h => absurd (Or.inl hlong) h⟩
    · unfold objFace
      simp only
      rw [hfst, if_pos hlong]
    · unfold ObjRaw.faceTriangles
      rw [if_neg (by omega)]; rfl
  have hface : objFace raw poly = (lookupAll raw.vertices poly.indices.1).bind fun verts => (lookupOpt raw.texCoords poly.indices.2.1).bind fun t =>
      (lookupOpt raw.normals poly.indices.2.2).bind fun n => (objHalf (verts.map (·.1)) n t 0 1 2).bind fun first =>
      if (verts.map (·.1)).length = 4 then (objHalf (verts.map (·.1)) n t 0 2 3).bind fun second => .ok [first, second] else .ok [first] := by
    unfold objFace
    simp only
    rw [if_neg (by rw [hfst]; exact hlong)]
  by_cases htab : raw.InTables poly
  · obtain ⟨h1, h2, h3⟩ := (lookups_iff raw poly).mp htab
    obtain ⟨g1, g2⟩ := lookupAll_ok raw.vertices poly.indices.1 h1
    obtain ⟨t, g3, g4⟩ := lookupOpt_ok raw.texCoords poly.indices.2.1 poly.corners.length (fun l hl => ⟨indices_length poly l (Or.inl hl), h2 l hl⟩)
    obtain ⟨n, g5, g6⟩ := lookupOpt_ok raw.normals poly.indices.2.2 poly.corners.length (fun l hl => ⟨indices_length poly l (Or.inr hl), h3 l hl⟩)
    have hp : (raw.points poly).length = poly.corners.length := by rw [points_eq, List.length_map, g2, hfst]
    rw [hface, g1, Res.bind_ok, g3, Res.bind_ok, g5, Res.bind_ok, ← points_eq]
    by_cases hshort : 3 ≤ poly.corners.length
    · refine ⟨fun _ => ?_, fun h => absurd (Or.inr ⟨hshort, htab⟩) h⟩
      obtain ⟨first, k1, k2⟩ := objHalf_ok (raw.points poly) n t poly.corners.length 0 1 2 hp g6 g4 (by omega) (by omega) (by omega)
      rw [k1, Res.bind_ok, hp]
      unfold ObjRaw.faceTriangles
      rw [if_pos (by omega : poly.corners.length ≤ 4)]
      by_cases h4 : poly.corners.length = 4
      · rw [if_pos h4]
        obtain ⟨second, m1, m2⟩ := objHalf_ok (raw.points poly) n t poly.corners.length 0 2 3 hp g6 g4 (by omega) (by omega) (by omega)
        refine ⟨_, by rw [m1]; rfl, ?_⟩
        simp only [List.map_cons, List.map_nil]
        clear k1 m1
        generalize raw.points poly = l at hp k2 m2 ⊢
        match l, hp with
        | [a, b, c, d], _ => rw [k2 a b c rfl rfl rfl, m2 a c d rfl rfl rfl]; rfl
        | [], hp => simp at hp; omega
        | [_], hp => simp at hp; omega
        | [_, _], hp => simp at hp; omega
        | [_, _, _], hp => simp at hp; omega
        | _ :: _ :: _ :: _ :: _ :: _, hp => simp at hp; omega
      · rw [if_neg h4]
        refine ⟨_, rfl, ?_⟩
        simp only [List.map_cons, List.map_nil]
        clear k1
        generalize raw.points poly = l at hp k2 ⊢
        match l, hp with
        | [a, b, c], _ => rw [k2 a b c rfl rfl rfl]; rfl
        | [], hp => simp at hp; omega
        | [_], hp => simp at hp; omega
        | [_, _], hp => simp at hp; omega
        | [_, _, _, _], hp => simp at hp; omega
        | _ :: _ :: _ :: _ :: _ :: _, hp => simp at hp; omega
    · refine ⟨fun h => absurd h (by rintro (h | h); exacts [hlong h, hshort h.1]), fun _ => ?_⟩
      have : objHalf (raw.points poly) n t 0 1 2 = .panic := by
        unfold objHalf pick
        rw [List.getElem?_eq_none (i := 2) (by omega)]
        cases (raw.points poly)[0]? <;> cases (raw.points poly)[1]? <;> rfl
      rw [this]; rfl
  · refine ⟨fun h => absurd h (by rintro (h | h); exacts [hlong h, htab h.2]), fun _ => ?_⟩
    rw [hface]
    by_cases h1 : ∀ i ∈ poly.indices.1, i < raw.vertices.length
    swap
    · rw [lookupAll_panic _ _ h1]; rfl
    rw [(lookupAll_ok _ _ h1).1, Res.bind_ok]
    by_cases h2 : ∀ l, poly.indices.2.1 = some l → ∀ i ∈ l, i < raw.texCoords.length
    swap
    · push Not at h2
      obtain ⟨l, hl, i, hi, hlt⟩ := h2
      rw [hl, lookupOpt_panic _ _ (fun h => absurd (h i hi) (by omega))]; rfl
    obtain ⟨t, g3, -⟩ := lookupOpt_ok raw.texCoords poly.indices.2.1 poly.corners.length (fun l hl => ⟨indices_length poly l (Or.inl hl), h2 l hl⟩)
    rw [g3, Res.bind_ok]
    by_cases h3 : ∀ l, poly.indices.2.2 = some l → ∀ i ∈ l, i < raw.normals.length
    · exact absurd ((lookups_iff raw poly).mpr ⟨h1, h2, h3⟩) htab
    · push Not at h3
      obtain ⟨l, hl, i, hi, hlt⟩ := h3
      rw [hl, lookupOpt_panic _ _ (fun h => absurd (h i hi) (by omega))]; rfl

/-- All faces. -/
theorem objProcess_spec (raw : ObjRaw K) (polys : List ObjPolygon) :
    ((∀ poly ∈ polys, raw.Readable poly) → ∃ ts, objProcess raw polys = .ok ts ∧ ts.map ObjTriangle.vertices = polys.flatMap raw.faceTriangles) ∧
    (¬ (∀ poly ∈ polys, raw.Readable poly) → objProcess raw polys = .panic) := by
  induction polys with
  | nil => exact ⟨fun _ => ⟨[], rfl, rfl⟩, fun h => absurd (by simp) h⟩
  | cons poly polys ih =>
    obtain ⟨f1, f2⟩ := objFace_spec raw poly
    obtain ⟨i1, i2⟩ := ih
    constructor
    · intro h
      obtain ⟨ts, h1, h2⟩ := f1 (h poly (by simp))
      obtain ⟨us, h3, h4⟩ := i1 (fun q hq => h q (by simp [hq]))
      refine ⟨ts ++ us, ?_, by rw [List.map_append, h2, h4, List.flatMap_cons]⟩
      unfold objProcess
      rw [h1, Res.bind_ok, h3, Res.bind_ok]
    · intro h
      unfold objProcess
      by_cases hp : raw.Readable poly
      · obtain ⟨ts, h1, -⟩ := f1 hp
        rw [h1, Res.bind_ok, i2 (fun h' => h (by intro q hq; rcases List.mem_cons.mp hq with rfl | hq; exacts [hp, h' q hq]))]
        rfl
      · rw [f2 hp]; rfl

/-- C68. A file is processed exactly when all its faces can be read; the triangles are then those of the faces, in the order of the file: each face of three corners yields the
triangle of its corners, each of four yields two that share the diagonal between its first and third corner, both in the winding order of the face, and longer faces yield none.
Files with a face of fewer than three corners, or with an index outside its table, end the program. -/
theorem C68_faces (raw : ObjRaw K) :
    ((∀ poly ∈ raw.polygons, raw.Readable poly) → ∃ ts, objProcess raw raw.polygons = .ok ts ∧ ts.map ObjTriangle.vertices = raw.polygons.flatMap raw.faceTriangles) ∧
    (¬ (∀ poly ∈ raw.polygons, raw.Readable poly) → objProcess raw raw.polygons = .panic) :=
  objProcess_spec raw raw.polygons

/-- C68. Every corner of every triangle is the position of a corner of its face. -/
theorem C68_corners_come_from_the_face (raw : ObjRaw K) (poly : ObjPolygon) (t : Vec3 K × Vec3 K × Vec3 K) (ht : t ∈ raw.faceTriangles poly) (v : Vec3 K)
    (hv : v = t.1 ∨ v = t.2.1 ∨ v = t.2.2) : ∃ i ∈ poly.corners, ∃ w, raw.vertices[i]? = some (v, w) := by
  have hmem : v ∈ raw.points poly := by
    unfold ObjRaw.faceTriangles at ht
    split_ifs at ht with h
    · unfold fan at ht
      split at ht
      · rename_i a b c e
        rw [e]
        simp only [List.mem_cons, List.not_mem_nil, or_false] at ht
        subst ht
        rcases hv with h | h | h <;> simp [h]
      · rename_i a b c d e
        rw [e]
        simp only [List.mem_cons, List.not_mem_nil, or_false] at ht
        rcases ht with ht | ht <;> subst ht <;> rcases hv with h | h | h <;> simp [h]
      · simp at ht
    · simp at ht
  unfold ObjRaw.points at hmem
  obtain ⟨i, hi, h⟩ := List.mem_filterMap.mp hmem
  refine ⟨i, hi, ?_⟩
  cases hr : raw.vertices[i]? with
  | none => rw [hr] at h; simp at h
  | some p =>
    rw [hr] at h
    simp only [Option.map_some, Option.some.injEq] at h
    exact ⟨p.2, by rw [← h]⟩

end

section
variable {K : Type} [Field K] [LinearOrder K] [IsStrictOrderedRing K] [FloorRing K]

/-- The operations that add the triangles. -/
theorem objPush_run (env : SceneEnv K) (triNew : Vec3 K → Vec3 K → Vec3 K → Option (Tri K)) (f b : Nat) (ts : List (ObjTriangle K)) (s : Scene K) :
    objPush env triNew f b ts s = s.run env ((ts.map ObjTriangle.vertices).filterMap (fun t => triNew t.1 t.2.1 t.2.2) |>.map fun t => .pushObject f b (.triangle t)) := by
  induction ts generalizing s with
  | nil => rfl
  | cons t ts ih =>
    unfold objPush
    cases h : triNew t.vertices.1 t.vertices.2.1 t.vertices.2.2 with
    | none =>
      simp only [List.map_cons, List.filterMap_cons, h]
      exact ih s
    | some tri =>
      simp only [List.map_cons, List.filterMap_cons, h]
      unfold Scene.run
      simp only [Scene.step]
      congr 1
      funext s'
      exact ih s'

/-- Pushing triangles between two existing materials succeeds. -/
theorem run_triangles_ok (env : SceneEnv K) (f b : Nat) (ts : List (Tri K)) (s : Scene K) (hf : f < s.materials.length) (hb : b < s.materials.length) :
    ∃ s', s.run env (ts.map fun t => .pushObject f b (.triangle t)) = .ok s' := by
  induction ts generalizing s with
  | nil => exact ⟨s, rfl⟩
  | cons t ts ih =>
    have h : ∃ s1, s.pushObject env f b (.triangle t) = .ok s1 := by
      unfold Scene.pushObject
      rw [List.getElem?_eq_getElem hf, List.getElem?_eq_getElem hb]
      exact ⟨_, rfl⟩
    obtain ⟨s1, h1⟩ := h
    have hm := (pushObject_ok env s s1 f b _ h1).2.1
    obtain ⟨s', h2⟩ := ih s1 (by rw [hm]; exact hf) (by rw [hm]; exact hb)
    refine ⟨s', ?_⟩
    simp only [List.map_cons]
    unfold Scene.run
    simp only [Scene.step]
    rw [h1]; exact h2

/-- C68. Adding a readable OBJ file between two existing materials succeeds, leaves the materials and every earlier triangle as they were, and appends exactly the non-degenerate triangles of
the faces, in the order of the file, each with the given front and back material and with its own flat normal at the three corners. -/
theorem C68_scene (env : SceneEnv K) (hM : env.MeshAligned) (triNew : Vec3 K → Vec3 K → Vec3 K → Option (Tri K)) (s : Scene K) (ha : s.Aligned) (raw : ObjRaw K) (f b : Nat)
    (hf : f < s.materials.length) (hb : b < s.materials.length) (hr : ∀ poly ∈ raw.polygons, raw.Readable poly) :
    ∃ s', s.addFromObj env triNew raw f b = .ok s' ∧ s'.materials = s.materials ∧
      s'.rows = s.rows ++ ((raw.polygons.flatMap raw.faceTriangles).filterMap fun t => triNew t.1 t.2.1 t.2.2).map fun t =>
        (t, f, b, env.normalized ((t.b - t.a).cross (t.c - t.a)), env.normalized ((t.b - t.a).cross (t.c - t.a)), env.normalized ((t.b - t.a).cross (t.c - t.a))) := by
  obtain ⟨ts, h1, h2⟩ := (C68_faces raw).1 hr
  obtain ⟨s', h3⟩ := run_triangles_ok env f b (((raw.polygons.flatMap raw.faceTriangles).filterMap fun t => triNew t.1 t.2.1 t.2.2)) s hf hb
  have hrun : s.addFromObj env triNew raw f b = .ok s' := by
    unfold Scene.addFromObj
    rw [h1, Res.bind_ok, objPush_run, h2]; exact h3
  have hno : ∀ op ∈ (((raw.polygons.flatMap raw.faceTriangles).filterMap fun t => triNew t.1 t.2.1 t.2.2).map fun t => (SceneOp.pushObject f b (.triangle t) : SceneOp K)), op.NoBuild := by
    intro op hop
    obtain ⟨t, -, rfl⟩ := List.mem_map.mp hop
    trivial
  obtain ⟨-, g2, g3⟩ := run_noBuild_rows env hM _ hno s s' ha h3
  refine ⟨s', hrun, ?_, ?_⟩
  · rw [g3]
    have : ∀ l : List (Tri K), pushedMaterials (l.map fun t => (SceneOp.pushObject f b (.triangle t) : SceneOp K)) = [] := by
      intro l; induction l with
      | nil => rfl
      | cons a l ih => simpa [pushedMaterials] using ih
    rw [this, List.append_nil]
  · rw [g2]
    congr 1
    generalize ((raw.polygons.flatMap raw.faceTriangles).filterMap fun t => triNew t.1 t.2.1 t.2.2) = l
    induction l with
    | nil => rfl
    | cons a l ih => simp [pushedRows, SceneEnv.meshOf, ih]

/-- C68. A file with an unreadable face ends the program; so does one with a triangle to add when a material index is out of range. -/
theorem C68_rejected (env : SceneEnv K) (triNew : Vec3 K → Vec3 K → Vec3 K → Option (Tri K)) (s : Scene K) (raw : ObjRaw K) (f b : Nat) :
    ((¬ ∀ poly ∈ raw.polygons, raw.Readable poly) → s.addFromObj env triNew raw f b = .panic) ∧
    (∀ t ∈ raw.polygons.flatMap raw.faceTriangles, (triNew t.1 t.2.1 t.2.2).isSome → ¬ (f < s.materials.length ∧ b < s.materials.length) → ∀ s', s.addFromObj env triNew raw f b ≠ .ok s') := by
  constructor
  · intro h
    unfold Scene.addFromObj
    rw [(C68_faces raw).2 h]; rfl
  · intro t ht hs hfb s' h
    by_cases hr : ∀ poly ∈ raw.polygons, raw.Readable poly
    · obtain ⟨ts, h1, h2⟩ := (C68_faces raw).1 hr
      unfold Scene.addFromObj at h
      rw [h1, Res.bind_ok, objPush_run, h2] at h
      obtain ⟨tri, htri⟩ := Option.isSome_iff_exists.mp hs
      have hne : (raw.polygons.flatMap raw.faceTriangles).filterMap (fun t => triNew t.1 t.2.1 t.2.2) ≠ [] := by
        apply List.ne_nil_of_mem (a := tri)
        exact List.mem_filterMap.mpr ⟨t, ht, htri⟩
      cases hl : (raw.polygons.flatMap raw.faceTriangles).filterMap (fun t => triNew t.1 t.2.1 t.2.2) with
      | nil => exact hne hl
      | cons a l =>
        rw [hl] at h
        simp only [List.map_cons] at h
        unfold Scene.run at h
        simp only [Scene.step] at h
        cases hp : s.pushObject env f b (.triangle a) with
        | ok s1 => exact hfb (pushObject_ok env s s1 f b _ hp).1
        | panic => rw [hp] at h; cases h
        | diverge => rw [hp] at h; cases h
    · unfold Scene.addFromObj at h
      rw [(C68_faces raw).2 hr] at h; cases h

end

/-! ### Convex quadrilaterals are covered -/

/-- `q` is a weighted mean of the three points. -/
def MeanOfThree (q a b c : Vec3 ℝ) : Prop :=
  ∃ u v w : ℝ, 0 ≤ u ∧ 0 ≤ v ∧ 0 ≤ w ∧ u + v + w = 1 ∧ q = a.scale u + b.scale v + c.scale w

/-- `q` is a weighted mean of the four points. -/
def MeanOfFour (q a b c d : Vec3 ℝ) : Prop :=
  ∃ u v w x : ℝ, 0 ≤ u ∧ 0 ≤ v ∧ 0 ≤ w ∧ 0 ≤ x ∧ u + v + w + x = 1 ∧ q = a.scale u + b.scale v + c.scale w + d.scale x

/-- The diagonals of the face meet: the face is a (possibly flat) convex quadrilateral with its corners in order. -/
def DiagonalsMeet (a b c d : Vec3 ℝ) : Prop :=
  ∃ s t : ℝ, 0 ≤ s ∧ s ≤ 1 ∧ 0 ≤ t ∧ t ≤ 1 ∧ a.scale (1 - s) + c.scale s = b.scale (1 - t) + d.scale t

theorem vec_ext_iff (p q : Vec3 ℝ) : p = q ↔ p.x = q.x ∧ p.y = q.y ∧ p.z = q.z := by
  cases p; cases q; simp

/-- C68. The two triangles of a face of four corners cover exactly the quadrilateral, when its diagonals meet. -/
theorem C68_quads_covered (a b c d : Vec3 ℝ) (h : DiagonalsMeet a b c d) (q : Vec3 ℝ) :
    (∃ t ∈ fan [a, b, c, d], MeanOfThree q t.1 t.2.1 t.2.2) ↔ MeanOfFour q a b c d := by
  have hfan : fan [a, b, c, d] = [(a, b, c), (a, c, d)] := rfl
  rw [hfan]
  simp only [List.mem_cons, List.not_mem_nil, or_false, exists_eq_or_imp, exists_eq_left]
  constructor
  · rintro (⟨u, v, w, hu, hv, hw, hs, rfl⟩ | ⟨u, v, w, hu, hv, hw, hs, rfl⟩)
    · refine ⟨u, v, w, 0, hu, hv, hw, le_refl _, by linarith, ?_⟩
      rw [vec_ext_iff]; simp [Vec3.scale]
    · refine ⟨u, 0, v, w, hu, le_refl _, hv, hw, by linarith, ?_⟩
      rw [vec_ext_iff]; simp [Vec3.scale]
  · rintro ⟨u, v, w, x, hu, hv, hw, hx, hsum, rfl⟩
    obtain ⟨s, t, hs0, hs1, ht0, ht1, hm⟩ := h
    rw [vec_ext_iff] at hm
    simp only [Vec3.add_x, Vec3.add_y, Vec3.add_z, Vec3.scale] at hm
    obtain ⟨m1, m2, m3⟩ := hm
    by_cases hc : x * (1 - t) ≤ v * t
    · left
      rcases eq_or_lt_of_le ht0 with h0 | h0
      · have hx0 : x = 0 := by subst h0; nlinarith
        refine ⟨u, v, w, hu, hv, hw, by linarith, ?_⟩
        subst hx0
        rw [vec_ext_iff]; simp [Vec3.scale]
      · have hk : x / t * t = x := div_mul_cancel₀ x (ne_of_gt h0)
        set k := x / t with hkd
        have hk0 : 0 ≤ k := div_nonneg hx ht0
        have hv' : 0 ≤ v - k * (1 - t) := by
          have : k * (1 - t) * t ≤ v * t := by nlinarith
          have := le_of_mul_le_mul_right this h0
          linarith
        refine ⟨u + k * (1 - s), v - k * (1 - t), w + k * s, by nlinarith, hv', by nlinarith, by nlinarith, ?_⟩
        rw [vec_ext_iff]
        simp only [Vec3.add_x, Vec3.add_y, Vec3.add_z, Vec3.scale]
        refine ⟨?_, ?_, ?_⟩
        · linear_combination (-k) * m1 - d.x * hk
        · linear_combination (-k) * m2 - d.y * hk
        · linear_combination (-k) * m3 - d.z * hk
    · right
      push Not at hc
      have h0 : 0 < 1 - t := by
        rcases eq_or_lt_of_le (sub_nonneg.mpr ht1) with h | h
        · rw [← h] at hc; nlinarith
        · exact h
      have hk : v / (1 - t) * (1 - t) = v := div_mul_cancel₀ v (ne_of_gt h0)
      set k := v / (1 - t) with hkd
      have hk0 : 0 ≤ k := div_nonneg hv h0.le
      have hx' : 0 ≤ x - k * t := by
        have : k * t * (1 - t) ≤ x * (1 - t) := by nlinarith
        have := le_of_mul_le_mul_right this h0
        linarith
      refine ⟨u + k * (1 - s), w + k * s, x - k * t, by nlinarith, by nlinarith, hx', by nlinarith, ?_⟩
      rw [vec_ext_iff]
      simp only [Vec3.add_x, Vec3.add_y, Vec3.add_z, Vec3.scale]
      refine ⟨?_, ?_, ?_⟩
      · linear_combination (-k) * m1 - b.x * hk
      · linear_combination (-k) * m2 - b.y * hk
      · linear_combination (-k) * m3 - b.z * hk

/-! ### Examples -/

namespace ObjExamples
open BvhExamples SceneExamples

/-- The file of the repository's own test (on rounder numbers), with a pentagon added. -/
def raw : ObjRaw ℚ where
  vertices := [(⟨0, 0, 0⟩, 1), (⟨1, 0, 0⟩, 1), (⟨1, 1, 0⟩, 1), (⟨0, 1, 0⟩, 1), (⟨0, 0, 1⟩, 1)]
  normals := [⟨0, 0, 1⟩]
  texCoords := []
  polygons := [.p [0, 1, 2, 3], .pn [(0, 0), (1, 0), (2, 0)], .p [0, 1, 2, 3, 9]]

/-- Every face of it can be read, and there is a scene to add it to. -/
example : (∀ poly ∈ raw.polygons, raw.Readable poly) ∧
    raw.polygons.flatMap raw.faceTriangles = [(⟨0, 0, 0⟩, ⟨1, 0, 0⟩, ⟨1, 1, 0⟩), (⟨0, 0, 0⟩, ⟨1, 1, 0⟩, ⟨0, 1, 0⟩), (⟨0, 0, 0⟩, ⟨1, 0, 0⟩, ⟨1, 1, 0⟩)] := by
  refine ⟨?_, by decide +kernel⟩
  simp [raw, ObjRaw.Readable, ObjPolygon.corners, ObjRaw.InTables]
  omega

example : (({ materials := [.plastic ⟨1, 1, 1⟩ 0 0] } : Scene ℚ).addFromObj (refSceneEnv ℚ) (fun a b c => some ⟨a, b, c⟩) raw 0 0).bind (fun s => .ok (s.triangles.length, s.front, s.back)) =
    .ok (3, [0, 0, 0], [0, 0, 0]) := by
  decide +kernel

/-- A face of two corners ends the program. -/
example : objProcess { raw with polygons := [.p [0, 1]] } [.p [0, 1]] = .panic :=
  (C68_faces { raw with polygons := [.p [0, 1]] }).2 (by simp [ObjRaw.Readable, ObjPolygon.corners])

/-- The unit square is a quadrilateral whose diagonals meet. -/
example : DiagonalsMeet ⟨0, 0, 0⟩ ⟨1, 0, 0⟩ ⟨1, 1, 0⟩ ⟨0, 1, 0⟩ :=
  ⟨1 / 2, 1 / 2, by norm_num, by norm_num, by norm_num, by norm_num, by rw [vec_ext_iff]; norm_num [Vec3.scale]⟩

/-- C68: the file added to a scene of one material. -/
example : ∃ s', ({ materials := [.plastic ⟨1, 1, 1⟩ 0 0] } : Scene ℚ).addFromObj (refSceneEnv ℚ) (fun a b c => some ⟨a, b, c⟩) raw 0 0 = .ok s' ∧ s'.materials = [.plastic ⟨1, 1, 1⟩ 0 0] := by
  obtain ⟨s', h1, h2, _⟩ := C68_scene (refSceneEnv ℚ) refMesh (fun a b c => some ⟨a, b, c⟩) { materials := [.plastic ⟨1, 1, 1⟩ 0 0] } ⟨rfl, rfl, rfl⟩ raw 0 0 (by simp) (by simp) (by
    simp [raw, ObjRaw.Readable, ObjPolygon.corners, ObjRaw.InTables]
    omega)
  exact ⟨s', h1, h2⟩

example := C68_quads_covered ⟨0, 0, 0⟩ ⟨1, 0, 0⟩ ⟨1, 1, 0⟩ ⟨0, 1, 0⟩ ⟨1 / 2, 1 / 2, by norm_num, by norm_num, by norm_num, by norm_num, by rw [vec_ext_iff]; norm_num [Vec3.scale]⟩

end ObjExamples
end Rendering
