import Verif.Model.Samplers
import Verif.Model.Optics
import Mathlib.Analysis.SpecialFunctions.Exp

/-!
# /repo/src/material/ward.rs, plastic.rs, metal.rs and the dispatch in /repo/src/material/mod.rs

Over ℝ.  Where the code would produce NaN by dividing zero by zero (or infinity times zero) the model says so explicitly, because the code tests for it and panics.
-/

namespace Rendering

open Classical

/-- /repo/src/material/ward.rs:28 `LOW_ROUGHNESS` and the clamping in lines 47-52 and 148-153. -/
noncomputable def clampRoughness (a : ℝ) : ℝ := if a < 1 / 10 ^ 3 then 1 / 10 ^ 3 else a

/-- /repo/src/material/ward.rs:137-172 `evaluate_ward_anisotropic`: the specular and the diffuse part; `i` is the direction of the ray. A zero `h_n` gives NaN in the code, see `wardIsNaN`. -/
noncomputable def evaluateWard (normal e1 e2 : Vec3 ℝ) (specularity alpha beta : ℝ) (i l : Vec3 ℝ) : ℝ × ℝ :=
  if specularity > 1 / 10 ^ 5 then
    let alpha := clampRoughness alpha
    let beta := clampRoughness beta
    let h := l - i
    let iN := i.dot normal
    if iN > 0 then (0, 0)
    else
      let hN := h.dot normal
      let c1 := specularity * h.dot h / (Real.pi * alpha * beta * hN ^ 4)
      let c2 := -((h.dot e1 / alpha) ^ 2 + (h.dot e2 / beta) ^ 2) / hN ^ 2
      (c1 * Real.exp c2, (1 - specularity) / Real.pi)
  else (0, (1 - specularity) / Real.pi)

/-- The specular part computed by `evaluate_ward_anisotropic` is NaN: `h_n = 0` makes it `0/0` (when `h = 0`) or `inf * exp(-inf)`. -/
def wardIsNaN (normal : Vec3 ℝ) (specularity : ℝ) (i l : Vec3 ℝ) : Prop :=
  specularity > 1 / 10 ^ 5 ∧ ¬ i.dot normal > 0 ∧ (l - i).dot normal = 0

/-- /repo/src/material/ward.rs:59-79: one pass of the loop up to the new direction before normalisation (`l + normal * d`). `l` points back along the ray. -/
noncomputable def wardHalf (normal e1 e2 l : Vec3 ℝ) (alpha beta xi1 xi2 : ℝ) : Vec3 ℝ :=
  let d := 2 * Real.pi * xi1
  let cosp := Real.cos d * alpha
  let sinp := Real.sin d * beta
  let d := 1 / Real.sqrt (cosp ^ 2 + sinp ^ 2)
  let cosp := cosp * d
  let sinp := sinp * d
  let d := if xi2 < 1 / 10 ^ 9 then 1 else Real.sqrt (-Real.log xi2 / ((cosp / alpha) ^ 2 + (sinp / beta) ^ 2))
  let h := normal + (e1.scale cosp).scale d + (e2.scale sinp).scale d
  let d := h.dot l * (-2) / (1 + d ^ 2)
  l + normal.scale d

/-- /repo/src/material/ward.rs:58-106: the rejection loop of the specular branch. `fuel` bounds the passes.  Returns specular value, diffuse value, weight.  A vanishing
`l + normal * d`, whose normalisation is NaN, panics like any NaN. -/
noncomputable def wardLoop (normal e1 e2 : Vec3 ℝ) (specularity alpha beta : ℝ) (ray : TRay) : Nat → Rng → Res ((ℝ × ℝ × ℝ) × TRay × Rng)
  | 0, _ => .diverge
  | fuel + 1, rng =>
    let ((xi1, xi2), rng) := rng.gen2
    let l := ray.geometry.direction.scale (-1)
    let raw := wardHalf normal e1 e2 l alpha beta xi1 xi2
    let v := raw.normalized
    let lN := l.dot normal
    let vN := v.dot normal
    if vN > 0 ∨ lN > 0 then
      let sd := evaluateWard normal e1 e2 specularity alpha beta ray.geometry.direction (v.scale (-1))
      if wardIsNaN normal specularity ray.geometry.direction (v.scale (-1)) ∨ raw = 0 then .panic
      else
        let weight := 2 / (1 + vN / lN)
        .ok ((sd.1, sd.2, weight), { ray with geometry := { ray.geometry with direction := v } }, rng)
    else wardLoop normal e1 e2 specularity alpha beta ray fuel rng

/-- /repo/src/material/ward.rs:36-130 `sample_ward_anisotropic`. -/
noncomputable def sampleWard (fuel : Nat) (normal e1 e2 pt : Vec3 ℝ) (specularity alpha beta : ℝ) (ray : TRay) (rng : Rng) : Res ((ℝ × ℝ × ℝ) × TRay × Rng) :=
  let alpha := clampRoughness alpha
  let beta := clampRoughness beta
  let ray := { ray with geometry := { ray.geometry with origin := pt + normal.scale (1 / 10 ^ 5) } }
  let (probSpec, rng) := rng.gen
  if probSpec < specularity then wardLoop normal e1 e2 specularity alpha beta ray fuel rng
  else
    let (localDir, rng) := sampleCosineHemisphere rng
    let diffuse := (1 - specularity) / Real.pi
    let newDir := (localToWorld e1 e2 normal 0 localDir.x localDir.y localDir.z).normalized
    let pdf := normal.dot newDir / Real.pi
    .ok ((0, diffuse, pdf), { ray with geometry := { ray.geometry with direction := newDir } }, rng)

/-- /repo/src/material/plastic.rs:58-73 and metal.rs:59-76: how the two parts are combined. -/
noncomputable def plasticBsdf (colour : Spectrum ℝ) (direct diffuse : ℝ) : Spectrum ℝ := Spectrum.gray direct + colour.scale diffuse

/-- /repo/src/material/metal.rs:72-76. -/
noncomputable def metalBsdf (colour : Spectrum ℝ) (direct diffuse : ℝ) : Spectrum ℝ := colour.scale direct + colour.scale diffuse

/-- /repo/src/material/mod.rs:103-115 `get_possible_paths`. -/
noncomputable def Material.getPossiblePaths (m : Material ℝ) (normal pt : Vec3 ℝ) (ray : TRay) : Res Paths :=
  match m with
  | .mirror c => .ok (mirrorPaths c normal pt ray)
  | .dielectric c n => .ok (dielectricPaths c n normal pt ray)
  | .glass c n => .ok (glassPaths c n normal pt ray)
  | _ => .panic

/-- /repo/src/material/mod.rs:119-136 `sample_bsdf`: value, probability, the modified ray. -/
noncomputable def Material.sampleBsdf (fuel : Nat) (m : Material ℝ) (normal e1 e2 pt : Vec3 ℝ) (ray : TRay) (rng : Rng) : Res ((Spectrum ℝ × ℝ) × TRay × Rng) :=
  match m with
  | .plastic c s r => (sampleWard fuel normal e1 e2 pt s r r ray rng).bind fun ((direct, diffuse, weight), ray, rng) => .ok ((plasticBsdf c direct diffuse, weight), ray, rng)
  | .metal c s r => (sampleWard fuel normal e1 e2 pt s r r ray rng).bind fun ((direct, diffuse, weight), ray, rng) => .ok ((metalBsdf c direct diffuse, weight), ray, rng)
  | _ => .panic

/-- /repo/src/material/mod.rs:139-156 `eval_bsdf`. -/
noncomputable def Material.evalBsdf (dt : DirTests) (m : Material ℝ) (normal e1 e2 : Vec3 ℝ) (ray : TRay) (vout : Vec3 ℝ) : Res (Spectrum ℝ) :=
  match m with
  | .plastic c s r =>
    let sd := evaluateWard normal e1 e2 s r r ray.geometry.direction (vout.scale (-1))
    .ok (plasticBsdf c sd.1 sd.2)
  | .metal c s r =>
    let sd := evaluateWard normal e1 e2 s r r ray.geometry.direction (vout.scale (-1))
    .ok (metalBsdf c sd.1 sd.2)
  | .light _ => .panic
  | .mirror c => .ok (mirrorEval dt c normal ray vout)
  | .dielectric c n => .ok (dielectricEval dt c n normal ray vout)
  | .glass c n => .ok (glassEval dt c n normal ray vout)

end Rendering
