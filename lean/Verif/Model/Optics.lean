import Verif.Model.Ray
import Verif.Model.Scene
import Mathlib.Analysis.SpecialFunctions.Pow.Real

/-!
# /repo/src/material/specular.rs, mirror.rs, glass.rs, dielectric.rs

Over ℝ, with Lean's convention that division by zero gives zero (the code would give `inf` or NaN); theorems about quotients assume non-zero denominators.  `debug_assert!`s are
not modelled: they are absent from release builds, and the theorems establish what most of them check.
-/

namespace Rendering

open Classical

/-- /repo/src/material/specular.rs:49-83 `cos_and_n`: `(n1, cos1, n2, cos2)`. -/
noncomputable def cosAndN (ray : TRay) (normal : Vec3 ℝ) (refractionIndex : ℝ) : ℝ × ℝ × ℝ × Option ℝ :=
  let vin := ray.geometry.direction
  let cos1 := |vin.dot normal|
  let n1 := ray.refractionIndex
  let n2 := if |n1 - refractionIndex| < 1 / 10 ^ 7 then 1 else refractionIndex
  let sin1Sq := max 0 (min (floatMax ℝ) (1 - cos1 * cos1))
  let sin2Sq := n1 * n1 * sin1Sq / (n2 * n2)
  if sin2Sq > 1 then (n1, cos1, n2, none)
  else (n1, cos1, n2, some (Real.sqrt (1 - sin2Sq)))

/-- /repo/src/material/specular.rs:91-93 `fresnel_te`. -/
noncomputable def fresnelTe (n1 cos1 n2 cos2 : ℝ) : ℝ := (n1 * cos1 - n2 * cos2) / (n1 * cos1 + n2 * cos2)

/-- /repo/src/material/specular.rs:102-105 `fresnel_tm`. -/
noncomputable def fresnelTm (n1 cos1 n2 cos2 : ℝ) : ℝ := (n1 / cos1 - n2 / cos2) / (n1 / cos1 + n2 / cos2)

/-- /repo/src/material/specular.rs:107-112 `fresnel_reflectance`. -/
noncomputable def fresnelReflectance (n1 cos1 n2 cos2 : ℝ) : ℝ :=
  let parallel := fresnelTm n1 cos1 n2 cos2
  let perpendicular := fresnelTe n1 cos1 n2 cos2
  1 / 2 * (parallel * parallel + perpendicular * perpendicular)

/-- /repo/src/material/specular.rs:114-155 `fresnel_transmission_dir`. -/
noncomputable def fresnelTransmissionDir (vin normal : Vec3 ℝ) (n1 cos1 n2 cos2 : ℝ) : Vec3 ℝ :=
  let nRatio := n1 / n2
  vin.scale nRatio + normal.scale (nRatio * cos1 - cos2)

/-- /repo/src/material/specular.rs:157-166 `mirror_direction`. -/
noncomputable def mirrorDirection (vin normal : Vec3 ℝ) : Vec3 ℝ :=
  let vinNormal := vin.dot normal
  (vin - normal.scale (2 * vinNormal)).normalized

/-- /repo/src/material/specular.rs:168-181 `mirror_bsdf`: the modified ray and the value. -/
noncomputable def mirrorBsdf (pt : Vec3 ℝ) (ray : TRay) (normal : Vec3 ℝ) : TRay × ℝ :=
  let rayDir := ray.geometry.direction
  let cos := |rayDir.dot normal|
  ({ ray with geometry := ⟨pt + normal.scale (1 / 10 ^ 5), mirrorDirection rayDir normal⟩ }, 1 / cos)

/-- `Vector3D::is_parallel` and `Vector3D::is_same_direction` (external; they use tolerances). -/
structure DirTests where
  isParallel : Vec3 ℝ → Vec3 ℝ → Bool
  isSameDirection : Vec3 ℝ → Vec3 ℝ → Bool

/-- /repo/src/material/specular.rs:183-191 `eval_mirror_bsdf`. -/
noncomputable def evalMirrorBsdf (dt : DirTests) (normal vin vout : Vec3 ℝ) : ℝ :=
  if dt.isParallel vout (mirrorDirection vin normal) then 1 / |vin.dot normal| else 0

/-! ### Mirror -/

/-- The two possible paths out of a specular surface, each with its weight. -/
abbrev Paths := Option (TRay × Spectrum ℝ) × Option (TRay × Spectrum ℝ)

/-- /repo/src/material/mirror.rs:38-52 `Mirror::get_possible_paths`. -/
noncomputable def mirrorPaths (_colour : Spectrum ℝ) (normal pt : Vec3 ℝ) (ray : TRay) : Paths :=
  let rv := mirrorBsdf pt ray normal
  let cosTheta := |normal.dot rv.1.geometry.direction|
  (some (rv.1, (Spectrum.one.scale rv.2).scale cosTheta), none)

/-- /repo/src/material/mirror.rs:68-78 `Mirror::eval_bsdf`. -/
noncomputable def mirrorEval (dt : DirTests) (colour : Spectrum ℝ) (normal : Vec3 ℝ) (ray : TRay) (vout : Vec3 ℝ) : Spectrum ℝ :=
  colour.scale (evalMirrorBsdf dt normal ray.geometry.direction vout)

/-! ### Glass -/

/-- /repo/src/material/glass.rs:28 `MIN_COLOUR`. -/
noncomputable def minColour : ℝ := 1 / 10 ^ 15

/-- /repo/src/material/glass.rs:27-39 `any_transmission`: the clipped colour and the answer. -/
noncomputable def anyTransmission (colour : Spectrum ℝ) : Spectrum ℝ × Bool :=
  if colour.maxChannel < minColour then (colour, false)
  else
    let clip := fun v => if v < minColour then minColour else v
    (⟨clip colour.c0, clip colour.c1, clip colour.c2⟩, true)

/-- /repo/src/colour.rs:63-70 `powf`. -/
noncomputable def Spectrum.powf (a : Spectrum ℝ) (n : ℝ) : Spectrum ℝ := ⟨a.c0 ^ n, a.c1 ^ n, a.c2 ^ n⟩

/-- The term `(1. - r).powi(2) / (1. - (d * r).powi(2))` of /repo/src/material/glass.rs:82-83. -/
noncomputable def glassT (d : Spectrum ℝ) (r : ℝ) : Spectrum ℝ :=
  Spectrum.scalarDiv ((1 - r) ^ 2) (Spectrum.scalarSub 1 ((d.scale r).powi 2))

/-- The term `r * (1.0 + (1.0 - 2.0 * r) * d) / (1.0 - r * r * d)` of /repo/src/material/glass.rs:92-94. -/
noncomputable def glassR (d : Spectrum ℝ) (r : ℝ) : Spectrum ℝ :=
  Spectrum.scalarMul r (Spectrum.scalarAdd 1 (Spectrum.scalarMul (1 - 2 * r) d)) / Spectrum.scalarSub 1 (Spectrum.scalarMul (r * r) d)

/-- /repo/src/material/glass.rs:49-101 `Glass::refl_trans`. -/
noncomputable def glassReflTrans (colour : Spectrum ℝ) (refractionIndex : ℝ) (normal direction : Vec3 ℝ) : Spectrum ℝ × Spectrum ℝ :=
  let any := (anyTransmission colour).2
  let pdot := |normal.dot direction|
  let cos2 := Real.sqrt ((1 - 1 / refractionIndex ^ 2) + (pdot / refractionIndex) ^ 2)
  let rindex := refractionIndex
  let r1e := (pdot - rindex * cos2) / (pdot + rindex * cos2)
  let r1e := r1e * r1e
  let r1m := (1 / pdot - rindex / cos2) / (1 / pdot + rindex / cos2)
  let r1m := r1m * r1m
  let d := if any then colour.powf (1 / cos2) else colour
  let tComp := if any then (d.scale (1 / 2)) * (glassT d r1e + glassT d r1m) else Spectrum.black
  let d := d.powi 2
  let reflComp := Spectrum.scalarMul (1 / 2) (glassR d r1e + glassR d r1m)
  (reflComp, tComp)

/-- /repo/src/material/glass.rs:115-159 `Glass::get_possible_paths`. -/
noncomputable def glassPaths (colour : Spectrum ℝ) (refractionIndex : ℝ) (normal pt : Vec3 ℝ) (ray : TRay) : Paths :=
  let mirrorDir := mirrorDirection ray.geometry.direction normal
  let rt := glassReflTrans colour refractionIndex normal ray.geometry.direction
  let ray1 : TRay := { ray with geometry := ⟨pt + normal.scale (1 / 10 ^ 5), mirrorDir⟩ }
  let pair2 :=
    if rt.2.radiance > 0 then some ({ ray with geometry := ⟨pt - normal.scale (1 / 10 ^ 5), ray.geometry.direction⟩ }, rt.2)
    else none
  (some (ray1, rt.1), pair2)

/-- /repo/src/material/glass.rs:206-243 `Glass::eval_bsdf`. -/
noncomputable def glassEval (dt : DirTests) (colour : Spectrum ℝ) (refractionIndex : ℝ) (normal : Vec3 ℝ) (ray : TRay) (vout : Vec3 ℝ) : Spectrum ℝ :=
  let cn := cosAndN ray normal refractionIndex
  let rt := glassReflTrans colour refractionIndex normal ray.geometry.direction
  let vin := ray.geometry.direction
  let mirrorDir := mirrorDirection vin normal
  if dt.isSameDirection vout mirrorDir then rt.1
  else if (anyTransmission colour).2 then Spectrum.black
  else if cn.2.2.2.isSome ∧ dt.isSameDirection vout vin then colour * rt.2
  else Spectrum.one.divBy cn.2.1

/-- /repo/src/material/glass.rs:109-113 `Glass::colour`. -/
noncomputable def glassColour (colour : Spectrum ℝ) : Spectrum ℝ := (anyTransmission colour).1

/-- /repo/src/material/mod.rs:74-83 `colour`, with the `colour` functions of the materials. -/
noncomputable def Material.colour : Material ℝ → Spectrum ℝ
  | .plastic c _ _ => c
  | .metal c _ _ => c
  | .light c => c
  | .mirror c => c
  | .dielectric c _ => c
  | .glass c _ => glassColour c

/-! ### Dielectric -/

/-- /repo/src/material/dielectric.rs:47-98 `Dielectric::refl_trans`. -/
noncomputable def dielectricReflTrans (colour : Spectrum ℝ) (n1 cos1 n2 : ℝ) (cos2 : Option ℝ) : Spectrum ℝ × Spectrum ℝ :=
  match cos2 with
  | some cos2 =>
    let refl := fresnelReflectance n1 cos1 n2 cos2
    let ratio := n2 / n1
    let nRatio2 := ratio * ratio
    let tComp := (1 - refl) * nRatio2
    ((Spectrum.one.scale refl).divBy cos1, (colour.scale tComp).divBy cos2)
  | none => (Spectrum.one.divBy cos1, Spectrum.black)

/-- /repo/src/material/dielectric.rs:110-151 `Dielectric::get_possible_paths`. -/
noncomputable def dielectricPaths (colour : Spectrum ℝ) (refractionIndex : ℝ) (normal pt : Vec3 ℝ) (ray : TRay) : Paths :=
  let cn := cosAndN ray normal refractionIndex
  let n1 := cn.1
  let cos1 := cn.2.1
  let n2 := cn.2.2.1
  let rt := dielectricReflTrans colour n1 cos1 n2 cn.2.2.2
  let rayDir := ray.geometry.direction
  let ray1 : TRay := { ray with geometry := ⟨pt + normal.scale (1 / 10 ^ 5), mirrorDirection rayDir normal⟩ }
  let pair2 :=
    match cn.2.2.2 with
    | some cos2 =>
      let ray2 : TRay := { ray with
        geometry := ⟨pt - normal.scale (1 / 10 ^ 5), fresnelTransmissionDir rayDir normal n1 cos1 n2 cos2⟩
        refractionIndex := n2
        colour := ray.colour * colour }
      some (ray2, rt.2.scale cos2)
    | none => none
  (some (ray1, rt.1.scale cos1), pair2)

/-- /repo/src/material/dielectric.rs:217-257 `Dielectric::eval_bsdf`. -/
noncomputable def dielectricEval (dt : DirTests) (colour : Spectrum ℝ) (refractionIndex : ℝ) (normal : Vec3 ℝ) (ray : TRay) (vout : Vec3 ℝ) : Spectrum ℝ :=
  let cn := cosAndN ray normal refractionIndex
  let rt := dielectricReflTrans colour cn.1 cn.2.1 cn.2.2.1 cn.2.2.2
  let vin := ray.geometry.direction
  if dt.isSameDirection vout (mirrorDirection vin normal) then colour * rt.1
  else
    match cn.2.2.2 with
    | some cos2 =>
      if dt.isSameDirection vout (fresnelTransmissionDir vin normal cn.1 cn.2.1 cn.2.2.1 cos2) then colour * rt.2 else Spectrum.black
    | none => Spectrum.black

end Rendering
