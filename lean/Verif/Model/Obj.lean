import Verif.Model.Scene

/-!
# /repo/src/from_obj.rs

`load_obj` (crate `obj-rs`) parses the text into vertex positions, normals, texture coordinates and polygons, and calls `process`; that parse is not modelled.  Coordinates are
`f32` converted to `f64`, which is exact.  `Triangle3D::new` (crate `geometry3d`) is a parameter: it refuses degenerate triangles.
-/

namespace Rendering
variable {K : Type}

/-- `obj::raw::object::Polygon`: position indices, with texture and normal indices or not. -/
inductive ObjPolygon where
  | p (pos : List Nat)
  | pt (posTex : List (Nat × Nat))
  | pn (posNormal : List (Nat × Nat))
  | ptn (posTexNormal : List (Nat × Nat × Nat))
deriving DecidableEq

/-- /repo/src/from_obj.rs:33-37 `ObjTriangle`. -/
structure ObjTriangle (K : Type) where
  vertices : Vec3 K × Vec3 K × Vec3 K
  normals : Option (Vec3 K × Vec3 K × Vec3 K)
  textures : Option (Vec3 K × Vec3 K × Vec3 K)

/-- What `load_obj` hands to `process`: positions (with their weight `w`), normals, texture coordinates and polygons. -/
structure ObjRaw (K : Type) where
  vertices : List (Vec3 K × K)
  normals : List (Vec3 K)
  texCoords : List (Vec3 K)
  polygons : List ObjPolygon

/-- /repo/src/from_obj.rs:49-69: the `match` that separates positions, textures and normals. -/
def ObjPolygon.indices : ObjPolygon → List Nat × Option (List Nat) × Option (List Nat)
  | .p pos => (pos, none, none)
  | .pt l => (l.map (·.1), some (l.map (·.2)), none)
  | .pn l => (l.map (·.1), none, some (l.map (·.2)))
  | .ptn l => (l.map (·.1), some (l.map (·.2.1)), some (l.map (·.2.2)))

/-- `indices.iter().map(|i| table.get(*i).expect(..)).collect()` -/
def lookupAll {α : Type} (table : List α) : List Nat → Res (List α)
  | [] => .ok []
  | i :: is => (Res.ofOption table[i]?).bind fun a => (lookupAll table is).bind fun as => .ok (a :: as)

/-- `table.map(|indices| ...)` on an optional list. -/
def lookupOpt {α : Type} (table : List α) : Option (List Nat) → Res (Option (List α))
  | none => .ok none
  | some is => (lookupAll table is).bind fun as => .ok (some as)

/-- `[l[x], l[y], l[z]]` -/
def pick {α : Type} (l : List α) (x y z : Nat) : Res (α × α × α) :=
  (Res.ofOption l[x]?).bind fun a => (Res.ofOption l[y]?).bind fun b => (Res.ofOption l[z]?).bind fun c => .ok (a, b, c)

/-- `o.as_ref().map(|no| [no[x], no[y], no[z]])` -/
def pickOpt {α : Type} (l : Option (List α)) (x y z : Nat) : Res (Option (α × α × α)) :=
  match l with
  | none => .ok none
  | some l => (pick l x y z).bind fun t => .ok (some t)

/-- /repo/src/from_obj.rs:120-138 and 139-158: one half of a face. -/
def objHalf (p : List (Vec3 K)) (n t : Option (List (Vec3 K))) (x y z : Nat) : Res (ObjTriangle K) :=
  (pick p x y z).bind fun vertices => (pickOpt n x y z).bind fun normals => (pickOpt t x y z).bind fun textures => .ok ⟨vertices, normals, textures⟩

/-- /repo/src/from_obj.rs:48-159: the body of the loop over polygons, returning the triangles it pushes. -/
def objFace (raw : ObjRaw K) (poly : ObjPolygon) : Res (List (ObjTriangle K)) :=
  let (p, t, n) := poly.indices
  if p.length > 4 then .ok []
  else
    (lookupAll raw.vertices p).bind fun verts =>
    let p := verts.map (·.1)
    (lookupOpt raw.texCoords t).bind fun t =>
    (lookupOpt raw.normals n).bind fun n =>
    (objHalf p n t 0 1 2).bind fun first =>
    if p.length = 4 then (objHalf p n t 0 2 3).bind fun second => .ok [first, second]
    else .ok [first]

/-- /repo/src/from_obj.rs:40-162 `ObjTriangle::process`. -/
def objProcess (raw : ObjRaw K) : List ObjPolygon → Res (List (ObjTriangle K))
  | [] => .ok []
  | poly :: polys => (objFace raw poly).bind fun ts => (objProcess raw polys).bind fun rest => .ok (ts ++ rest)

section
variable [Field K]

/-- /repo/src/from_obj.rs:190-203: the loop over triangles. -/
def objPush (env : SceneEnv K) (triNew : Vec3 K → Vec3 K → Vec3 K → Option (Tri K)) (front back : Nat) : List (ObjTriangle K) → Scene K → Res (Scene K)
  | [], s => .ok s
  | t :: ts, s =>
    match triNew t.vertices.1 t.vertices.2.1 t.vertices.2.2 with
    | some tri => (s.pushObject env front back (.triangle tri)).bind fun s => objPush env triNew front back ts s
    | none => objPush env triNew front back ts s

/-- /repo/src/from_obj.rs:180-204 `Scene::add_from_obj_source`, from the parsed file. -/
def Scene.addFromObj (env : SceneEnv K) (triNew : Vec3 K → Vec3 K → Vec3 K → Option (Tri K)) (s : Scene K) (raw : ObjRaw K) (front back : Nat) : Res (Scene K) :=
  (objProcess raw raw.polygons).bind fun triangles => objPush env triNew front back triangles s

end
end Rendering
