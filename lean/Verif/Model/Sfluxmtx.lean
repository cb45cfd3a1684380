import Verif.Model.Programs
import Verif.Model.DcTracer
import Verif.Model.ColourMatrix
import Verif.Model.SimpleModel

/-!
# /repo/bin/sfluxmtx.rs from its input to its output, and how the programs choose a reader for the scene
-/

namespace Rendering

open Classical

/-- /repo/bin/spict.rs:147-161 and /repo/bin/sfluxmtx.rs:70-80: the reader is chosen by the end of the file's name; `parseSpl` is `SimpleModel::from_file` (crate `simple_model`), where `none` is its error, on which `unwrap` panics. -/
noncomputable def loadScene (env : RadEnv ℝ) (senv : SimpleEnv ℝ) (parseSpl : List UInt8 → Option (SimpleModel ℝ)) (name : List Char) (content : List UInt8) : Res (Scene ℝ) :=
  if ".rad".toList <:+ name then loadRadiance env content
  else if ".spl".toList <:+ name then
    (Res.ofOption (parseSpl content)).bind fun model => (Scene.fromSimpleModel senv model .visible).bind fun s => s.buildAccelerator senv.scene
  else .panic

/-- /repo/bin/sfluxmtx.rs:82-181: from the scene, the options and the standard input to the content of the file written; `none` is `exit(1)`. -/
noncomputable def sfluxmtx (parse : List Char → Option ℝ) (decode : List UInt8 → Option (List Char)) (fmt : NumFmt ℝ) (w : World) (dc : DcFactory) (fuel : Nat) (input : List UInt8) (primary : Nat → Rng) (secondary : Nat → Nat → Rng) :
    Option (Res (List UInt8)) :=
  (sensorsOf parse Vec3.normalized decode input).map fun rays => (calcDc w dc fuel rays primary secondary).bind fun m => .ok (saveColourMatrix fmt m)

end Rendering
