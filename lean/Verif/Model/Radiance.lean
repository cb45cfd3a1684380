import Verif.Model.Scene
import Verif.Model.Bytes

/-!
# /repo/src/from_radiance.rs

The source is a byte string, tokens are byte strings (a Rust `String` is valid UTF-8: `from_utf8(..).unwrap()` panics otherwise).  Parsing of floating point
numbers, degrees to radians, and the polygon triangulation of `geometry3d` are parameters.  The error messages are dropped: every panic is `Res.panic`.
The two loops over characters and the loop over objects take fuel; C65 shows that the fuel supplied always suffices.
-/

namespace Rendering
variable {K : Type}

/-- External functions used by the Radiance reader. -/
structure RadEnv (K : Type) where
  scene : SceneEnv K
  /-- `str::parse::<Float>()` -/
  parseFloat : List UInt8 → Option K
  /-- `"".parse::<Float>()` is an error. -/
  parseFloat_empty : parseFloat [] = none
  /-- `Float::to_radians` -/
  toRadians : K → K
  /-- `Loop3D::push` of every vertex, `Loop3D::close`, `Polygon3D::new`, `Triangulation3D::from_polygon` and `get_trilist`; `none` if one of them fails. -/
  triangulate : List (Vec3 K) → Option (List (Tri K))

/-- /repo/src/from_radiance.rs:36-42 `RadianceReader` (with `Default`). -/
structure RadReader where
  index : Nat := 0
  done : Bool := false
  modifiers : List (List UInt8) := []
  line : Nat := 0
deriving DecidableEq

namespace RadReader

/-- /repo/src/from_radiance.rs:51-61 `get_modifier_index`: position of the first modifier with that name. -/
def modifierIndex (r : RadReader) (name : List UInt8) : Res Nat := Res.ofOption (r.modifiers.findIdx? (· == name))

/-- The first lines of the three `consume_` functions: `if source.is_empty() { self.is_done = true }`. -/
def checkEmpty (src : List UInt8) (r : RadReader) : RadReader := if src.isEmpty then { r with done := true } else r

/-- /repo/src/from_radiance.rs:101-119 `consume_char`. -/
def consumeChar (src : List UInt8) (r : RadReader) : Res (Bool × RadReader) :=
  let r := r.checkEmpty src
  if r.done then .ok (false, r)
  else match src[r.index]? with
    | none => .panic
    | some b =>
      let r := if b == 10 then { r with line := r.line + 1 } else r
      let r := { r with index := r.index + 1 }
      let r := if r.index == src.length then { r with done := true } else r
      .ok (true, r)

/-- /repo/src/from_radiance.rs:65-80 `consume_whitespace`. -/
def consumeWhitespace (src : List UInt8) (r : RadReader) : Res (Bool × RadReader) :=
  let r := r.checkEmpty src
  if r.done then .ok (false, r)
  else match src[r.index]? with
    | none => .panic
    | some b => if isAsciiWhitespace b then r.consumeChar src else .ok (false, r)

/-- /repo/src/from_radiance.rs:84-97 `consume_non_white`. -/
def consumeNonWhite (src : List UInt8) (r : RadReader) : Res (Bool × RadReader) :=
  let r := r.checkEmpty src
  if r.done then .ok (false, r)
  else match src[r.index]? with
    | none => .panic
    | some b => if isAsciiWhitespace b then .ok (false, r) else r.consumeChar src

/-- `loop { if !step(source) { break; } }` -/
def consumeLoop (step : RadReader → Res (Bool × RadReader)) : Nat → RadReader → Res RadReader
  | 0, _ => .diverge
  | fuel + 1, r => (step r).bind fun (consumed, r) => if consumed then consumeLoop step fuel r else .ok r

/-- /repo/src/from_radiance.rs:122-128 `reach_next_token`. -/
def reachNextToken (src : List UInt8) (r : RadReader) : Res RadReader := consumeLoop (consumeWhitespace src) (src.length + 1) r

/-- /repo/src/from_radiance.rs:131-149 `consume_token`. -/
def consumeToken (src : List UInt8) (r : RadReader) : Res (List UInt8 × RadReader) :=
  (r.reachNextToken src).bind fun r =>
  let start := r.index
  (consumeLoop (consumeNonWhite src) (src.length + 1) r).bind fun r =>
  if start = r.index then .ok ([], r)
  else
    let token := (src.take r.index).drop start
    if validUtf8 token then .ok (token, r) else .panic

/-- `let t = self.consume_token(source); assert_eq!(t, expected)` -/
def expect (src : List UInt8) (expected : String) (r : RadReader) : Res RadReader :=
  (r.consumeToken src).bind fun (t, r) => if t = bytes expected then .ok r else .panic

/-- `self.consume_token(source).parse::<Float>().unwrap()` -/
def float (env : RadEnv K) (src : List UInt8) (r : RadReader) : Res (K × RadReader) :=
  (r.consumeToken src).bind fun (t, r) => (Res.ofOption (env.parseFloat t)).bind fun x => .ok (x, r)

/-- `self.modifiers.push(name.to_string()); scene.push_material(mat)` -/
def define (r : RadReader) (s : Scene K) (name : List UInt8) (m : Material K) : Res (RadReader × Scene K) :=
  .ok ({ r with modifiers := r.modifiers ++ [name] }, (s.pushMaterial m).1)

/-- /repo/src/from_radiance.rs:190-211 `consume_metal`. -/
def metal (env : RadEnv K) (src : List UInt8) (s : Scene K) (name : List UInt8) (r : RadReader) : Res (RadReader × Scene K) :=
  (r.expect src "0").bind fun r => (r.expect src "0").bind fun r => (r.expect src "5").bind fun r =>
  (r.float env src).bind fun (red, r) => (r.float env src).bind fun (green, r) => (r.float env src).bind fun (blue, r) =>
  (r.float env src).bind fun (specularity, r) => (r.float env src).bind fun (roughness, r) =>
  r.define s name (.metal ⟨red, green, blue⟩ specularity roughness)

/-- /repo/src/from_radiance.rs:214-235 `consume_plastic`. -/
def plastic (env : RadEnv K) (src : List UInt8) (s : Scene K) (name : List UInt8) (r : RadReader) : Res (RadReader × Scene K) :=
  (r.expect src "0").bind fun r => (r.expect src "0").bind fun r => (r.expect src "5").bind fun r =>
  (r.float env src).bind fun (red, r) => (r.float env src).bind fun (green, r) => (r.float env src).bind fun (blue, r) =>
  (r.float env src).bind fun (specularity, r) => (r.float env src).bind fun (roughness, r) =>
  r.define s name (.plastic ⟨red, green, blue⟩ specularity roughness)

/-- /repo/src/from_radiance.rs:238-253 `consume_light`. -/
def light (env : RadEnv K) (src : List UInt8) (s : Scene K) (name : List UInt8) (r : RadReader) : Res (RadReader × Scene K) :=
  (r.expect src "0").bind fun r => (r.expect src "0").bind fun r => (r.expect src "3").bind fun r =>
  (r.float env src).bind fun (red, r) => (r.float env src).bind fun (green, r) => (r.float env src).bind fun (blue, r) =>
  r.define s name (.light ⟨red, green, blue⟩)

/-- /repo/src/from_radiance.rs:256-273 `consume_mirror`. -/
def mirror (env : RadEnv K) (src : List UInt8) (s : Scene K) (name : List UInt8) (r : RadReader) : Res (RadReader × Scene K) :=
  (r.expect src "0").bind fun r => (r.expect src "0").bind fun r => (r.expect src "3").bind fun r =>
  (r.float env src).bind fun (red, r) => (r.float env src).bind fun (green, r) => (r.float env src).bind fun (blue, r) =>
  r.define s name (.mirror ⟨red, green, blue⟩)

/-- /repo/src/from_radiance.rs:276-302 `consume_dielectric`. -/
def dielectric (env : RadEnv K) (src : List UInt8) (s : Scene K) (name : List UInt8) (r : RadReader) : Res (RadReader × Scene K) :=
  (r.expect src "0").bind fun r => (r.expect src "0").bind fun r => (r.expect src "5").bind fun r =>
  (r.float env src).bind fun (red, r) => (r.float env src).bind fun (green, r) => (r.float env src).bind fun (blue, r) =>
  (r.float env src).bind fun (refractionIndex, r) => (r.float env src).bind fun (_hartmans, r) =>
  r.define s name (.dielectric ⟨red, green, blue⟩ refractionIndex)

section
variable [Field K]

/-- /repo/src/from_radiance.rs:305-344 `consume_glass`. -/
def glass (env : RadEnv K) (src : List UInt8) (s : Scene K) (name : List UInt8) (r : RadReader) : Res (RadReader × Scene K) :=
  (r.expect src "0").bind fun r => (r.expect src "0").bind fun r => (r.consumeToken src).bind fun (t, r) =>
  if t = bytes "4" then
    (r.float env src).bind fun (red, r) => (r.float env src).bind fun (green, r) => (r.float env src).bind fun (blue, r) =>
    (r.float env src).bind fun (refractionIndex, r) => r.define s name (.glass ⟨red, green, blue⟩ refractionIndex)
  else if t = bytes "3" then
    (r.float env src).bind fun (red, r) => (r.float env src).bind fun (green, r) => (r.float env src).bind fun (blue, r) =>
    r.define s name (.glass ⟨red, green, blue⟩ (152 / 100))
  else .panic

/-- /repo/src/from_radiance.rs:347-363 `consume_sphere`. -/
def sphere (env : RadEnv K) (src : List UInt8) (s : Scene K) (modifier : List UInt8) (r : RadReader) : Res (RadReader × Scene K) :=
  (r.expect src "0").bind fun r => (r.expect src "0").bind fun r => (r.expect src "4").bind fun r =>
  (r.float env src).bind fun (x, r) => (r.float env src).bind fun (y, r) => (r.float env src).bind fun (z, r) => (r.float env src).bind fun (radius, r) =>
  (r.modifierIndex modifier).bind fun i => (s.pushObject env.scene i i (.sphere ⟨x, y, z⟩ radius)).bind fun s => .ok (r, s)

/-- /repo/src/from_radiance.rs:366-385 `consume_source`. -/
def source (env : RadEnv K) (src : List UInt8) (s : Scene K) (modifier : List UInt8) (r : RadReader) : Res (RadReader × Scene K) :=
  (r.expect src "0").bind fun r => (r.expect src "0").bind fun r => (r.expect src "4").bind fun r =>
  (r.float env src).bind fun (x, r) => (r.float env src).bind fun (y, r) => (r.float env src).bind fun (z, r) => (r.float env src).bind fun (angle, r) =>
  (r.modifierIndex modifier).bind fun i => (s.pushObject env.scene i i (.source ⟨x, y, z⟩ (env.toRadians angle))).bind fun s => .ok (r, s)

/-- /repo/src/from_radiance.rs:400-406 `while vertex_n > 0`, `k` being `vertex_n / 3`; the vertices pushed so far come first. -/
def vertices (env : RadEnv K) (src : List UInt8) : Nat → List (Vec3 K) → RadReader → Res (List (Vec3 K) × RadReader)
  | 0, acc, r => .ok (acc, r)
  | k + 1, acc, r =>
    (r.float env src).bind fun (x, r) => (r.float env src).bind fun (y, r) => (r.float env src).bind fun (z, r) =>
    vertices env src k (acc ++ [⟨x, y, z⟩]) r

/-- /repo/src/from_radiance.rs:415-417 `for tri in triangles`. -/
def pushTriangles (env : SceneEnv K) (front back : Nat) : List (Tri K) → Scene K → Res (Scene K)
  | [], s => .ok s
  | t :: ts, s => (s.pushObject env front back (.triangle t)).bind fun s => pushTriangles env front back ts s

/-- /repo/src/from_radiance.rs:388-418 `consume_polygon`. `Loop3D::push(..).unwrap()` is part of `triangulate`, called after the numbers are read: the order of panics is not observable. -/
def polygon (env : RadEnv K) (src : List UInt8) (s : Scene K) (modifier : List UInt8) (r : RadReader) : Res (RadReader × Scene K) :=
  (r.expect src "0").bind fun r => (r.expect src "0").bind fun r =>
  (r.consumeToken src).bind fun (t, r) => (Res.ofOption (parseUsize t)).bind fun n =>
  if n % 3 ≠ 0 then .panic
  else
    (vertices env src (n / 3) [] r).bind fun (vs, r) =>
    (r.modifierIndex modifier).bind fun i =>
    (Res.ofOption (env.triangulate vs)).bind fun ts =>
    (pushTriangles env.scene i i ts s).bind fun s => .ok (r, s)

/-- /repo/src/from_radiance.rs:166-186: the `match` on the object type. -/
def dispatch (env : RadEnv K) (src : List UInt8) (s : Scene K) (modifier type name : List UInt8) (r : RadReader) : Res (RadReader × Scene K) :=
  if type = bytes "plastic" then r.plastic env src s name
  else if type = bytes "metal" then r.metal env src s name
  else if type = bytes "light" then r.light env src s name
  else if type = bytes "mirror" then r.mirror env src s name
  else if type = bytes "dielectric" then r.dielectric env src s name
  else if type = bytes "glass" then r.glass env src s name
  else if type = bytes "sphere" then r.sphere env src s modifier
  else if type = bytes "source" then r.source env src s modifier
  else if type = bytes "polygon" then r.polygon env src s modifier
  else .panic

/-- /repo/src/from_radiance.rs:152-187 `consume_object`. -/
def consumeObject (env : RadEnv K) (src : List UInt8) (s : Scene K) (r : RadReader) : Res (RadReader × Scene K) :=
  (r.reachNextToken src).bind fun r =>
  if r.done then .ok (r, s)
  else
    (r.consumeToken src).bind fun (modifier, r) =>
    if r.done then .panic
    else (r.consumeToken src).bind fun (type, r) =>
      if r.done then .panic
      else (r.consumeToken src).bind fun (name, r) =>
        if r.done then .panic
        else r.dispatch env src s modifier type name

/-- /repo/src/from_radiance.rs:435-437 `while !scanner.is_done { scanner.consume_object(..) }`. -/
def objects (env : RadEnv K) (src : List UInt8) : Nat → RadReader → Scene K → Res (RadReader × Scene K)
  | 0, _, _ => .diverge
  | fuel + 1, r, s => if r.done then .ok (r, s) else (r.consumeObject env src s).bind fun (r, s) => objects env src fuel r s

end
end RadReader

/-- /repo/src/from_radiance.rs:430-440 `Scene::from_radiance_source`. -/
def Scene.fromRadianceSource [Field K] (env : RadEnv K) (src : List UInt8) : Res (Scene K) :=
  (RadReader.objects env src (src.length + 2) {} {}).bind fun (_, s) => .ok s

end Rendering
