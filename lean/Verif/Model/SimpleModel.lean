import Verif.Model.Scene

/-!
# /repo/src/from_simple_model.rs

The reading of `.spl` files (crate `simple_model`) is not modelled: the model starts from the parsed `SimpleModel`.  A substance is what the reader asks it: its name and the optional solar and
visible properties.  `Triangulation3D::from_polygon(..)` with `get_trilist()` (crate `geometry3d`) is a parameter that may fail; so is the square root.
-/

namespace Rendering
variable {K : Type}

/-- /repo/src/scene.rs:82-85 `Wavelengths`. -/
inductive Wavelengths where
  | solar
  | visible
deriving DecidableEq

/-- `simple_model::substance::Normal`, as far as /repo/src/from_simple_model.rs:161-217 looks at it; `none` where the accessor returns an error. -/
structure NormalSubstance (K : Type) where
  name : String
  frontSolarAbsorbtance : Option K
  solarTransmittance : Option K
  frontVisibleReflectance : Option K
  visibleTransmissivity : Option K

/-- `simple_model::Substance`. -/
inductive Substance (K : Type) where
  | normal (s : NormalSubstance K)
  | gas (name : String)

/-- `Substance::name`. -/
def Substance.name : Substance K → String
  | .normal s => s.name
  | .gas n => n

/-- `simple_model::Construction`: its layers, from the front; each is a `Material`, of which only the substance is used. -/
structure Construction (K : Type) where
  name : String
  materials : List (Substance K)

/-- `simple_model::Surface` and `simple_model::Fenestration`: polygon and construction. -/
structure ModelSurface (K : Type) where
  vertices : List (Vec3 K)
  construction : Construction K

/-- `simple_model::SimpleModel`: the parts the reader visits. -/
structure SimpleModel (K : Type) where
  surfaces : List (ModelSurface K)
  fenestrations : List (ModelSurface K)

/-- External functions. -/
structure SimpleEnv (K : Type) where
  scene : SceneEnv K
  sqrt : K → K
  triangulate : List (Vec3 K) → Option (List (Tri K))

/-- /repo/src/from_simple_model.rs:29-34 `SimpleModelReader`. -/
structure SimpleReader where
  modifiers : List String := []

section
variable [Field K]

/-- /repo/src/from_simple_model.rs:36-38 `transmittance_to_transmissivity`. For a zero transmittance the program gets minus infinity and the model 0; both are not positive, which is
all that is asked of them. -/
def transmittanceToTransmissivity (sqrt : K → K) (tau : K) : K :=
  (sqrt (8402528435 / 10000000000 + 72522239 / 10000000000 * tau ^ 2) - 9166530661 / 10000000000) / (36261119 / 10000000000) / tau

variable [LinearOrder K]

/-- /repo/src/from_simple_model.rs:160-218 `substance_to_material`. The messages on standard error are left out. -/
def substanceToMaterial (sqrt : K → K) (substance : Substance K) (wavelength : Wavelengths) : Option (Material K) :=
  match substance with
  | .normal s =>
    let alpha := match wavelength with
      | .solar => match s.frontSolarAbsorbtance with
        | some v => v
        | none => 7 / 10
      | .visible => match s.frontVisibleReflectance with
        | some v => v
        | none => 7 / 10
    let rho := 1 - alpha
    let tau := match wavelength with
      | .solar => match s.solarTransmittance with
        | some v => transmittanceToTransmissivity sqrt v
        | none => 0
      | .visible => match s.visibleTransmissivity with
        | some v => v
        | none => 0
    if tau > 0 then some (.glass (Spectrum.gray tau) (152 / 100))
    else some (.plastic (Spectrum.gray rho) 0 0)
  | .gas _ => none

/-- /repo/src/from_simple_model.rs:151-158 `get_modifier_index`, called with the list from `i` on. -/
def getModifierIndex (item : String) : List String → Nat → Option Nat
  | [], _ => none
  | v :: vs, i => if v = item then some i else getModifierIndex item vs (i + 1)

/-- /repo/src/from_simple_model.rs:130-149 `push_substance`: the scene and the index. The reader's list is read and never written. -/
def SimpleReader.pushSubstance (reader : SimpleReader) (env : SimpleEnv K) (scene : Scene K) (substance : Substance K) (wavelength : Wavelengths) : Scene K × Option Nat :=
  match getModifierIndex substance.name reader.modifiers 0 with
  | some i => (scene, some i)
  | none =>
    match substanceToMaterial env.sqrt substance wavelength with
    | none => (scene, none)
    | some m =>
      let (scene, i) := scene.pushMaterial m
      (scene, some i)

/-- /repo/src/from_simple_model.rs:82-84 and 121-123: the loop over the triangles of a polygon. -/
def pushTriangles (env : SceneEnv K) (front back : Nat) : List (Tri K) → Scene K → Res (Scene K)
  | [], s => .ok s
  | t :: ts, s => (s.pushObject env front back (.triangle t)).bind fun s => pushTriangles env front back ts s

/-- /repo/src/from_simple_model.rs:50-84 and 89-123: the body of the two loops, which is the same. -/
def SimpleReader.pushSurface (reader : SimpleReader) (env : SimpleEnv K) (wavelength : Wavelengths) (scene : Scene K) (s : ModelSurface K) : Res (Scene K) :=
  match s.construction.materials[0]?, s.construction.materials.getLast? with
  | some frontSubstance, some backSubstance =>
    let (scene, front) := reader.pushSubstance env scene frontSubstance wavelength
    (Res.ofOption front).bind fun front =>
    let (scene, back) := reader.pushSubstance env scene backSubstance wavelength
    (Res.ofOption back).bind fun back =>
    (Res.ofOption (env.triangulate s.vertices)).bind fun triangles =>
    pushTriangles env.scene front back triangles scene
  | _, _ => .panic      -- `assert!(!construction.materials.is_empty())`

/-- The two loops of /repo/src/from_simple_model.rs:49-85 and 88-124. -/
def SimpleReader.pushSurfaces (reader : SimpleReader) (env : SimpleEnv K) (wavelength : Wavelengths) : List (ModelSurface K) → Scene K → Res (Scene K)
  | [], scene => .ok scene
  | s :: ss, scene => (reader.pushSurface env wavelength scene s).bind fun scene => reader.pushSurfaces env wavelength ss scene

/-- /repo/src/from_simple_model.rs:41-128 `build_scene`. -/
def SimpleReader.buildScene (reader : SimpleReader) (env : SimpleEnv K) (model : SimpleModel K) (wavelength : Wavelengths) : Res (Scene K) :=
  if wavelength = .visible then .panic      -- `unimplemented!()`
  else
    (reader.pushSurfaces env wavelength model.surfaces {}).bind fun scene =>
    reader.pushSurfaces env wavelength model.fenestrations scene

/-- /repo/src/scene.rs:91-94 `Scene::from_simple_model`: a fresh reader. -/
def Scene.fromSimpleModel (env : SimpleEnv K) (model : SimpleModel K) (wavelength : Wavelengths) : Res (Scene K) :=
  ({} : SimpleReader).buildScene env model wavelength

end
end Rendering
