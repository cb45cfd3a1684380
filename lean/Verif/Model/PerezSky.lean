import Verif.Model.Scene
import Mathlib.Analysis.SpecialFunctions.Trigonometric.Inverse
import Mathlib.Analysis.SpecialFunctions.Trigonometric.Bounds

/-!
# /repo/src/scene.rs:104-186: the sun of `add_perez_sky`

The formulas of the crate `solar` are parameters.  Real arithmetic.
-/

namespace Rendering

/-- What the crate `solar` answers for the given place, date and irradiances. -/
structure SolarExt where
  /-- `solar.sun_position(n)` -/
  sunPosition : Option (Vec3 ℝ)
  /-- `PerezSky::precipitable_water_content(dew_point)` -/
  apwc : ℝ
  /-- `air_mass` -/
  airMass : ℝ → ℝ
  /-- `normal_extraterrestrial_radiation(day)` -/
  extraterrestrial : ℝ
  /-- `PerezSky::sky_brightness` -/
  skyBrightness : ℝ → ℝ → ℝ → ℝ
  /-- `PerezSky::sky_clearness` -/
  skyClearness : ℝ → ℝ → ℝ → ℝ
  /-- `PerezSky::clearness_category` -/
  clearnessCategory : ℝ → Nat
  /-- `PerezSky::direct_illuminance_ratio` -/
  directIlluminanceRatio : ℝ → ℝ → ℝ → Nat → ℝ

/-- `f64::clamp` -/
noncomputable def clampReal (x lo hi : ℝ) : ℝ := if x < lo then lo else if x > hi then hi else x

/-- /repo/src/scene.rs:138-154: the zenith angle. -/
noncomputable def sunZenith (cosZenit : ℝ) : ℝ :=
  if cosZenit ≤ 0 then Real.pi / 2
  else if cosZenit ≥ 9986295347545738 / 10000000000000000 then Real.arccos (3 * Real.pi / 180)
  else Real.arccos cosZenit

/-- `(0.533 as Float).to_radians()`, /repo/src/scene.rs:133. -/
noncomputable def sunAngle : ℝ := 533 / 1000 * Real.pi / 180

/-- /repo/src/scene.rs:133-175: the sun's direction, brightness and apparent angle, if it is up. -/
noncomputable def perezSun (ext : SolarExt) (diffuse direct : ℝ) : Option (Vec3 ℝ × ℝ × ℝ) :=
  match ext.sunPosition with
  | none => none
  | some sun =>
    let angle := sunAngle
    let tanHalfAlpha := Real.tan (angle / 2)
    let omega := tanHalfAlpha * tanHalfAlpha * Real.pi
    let zenith := sunZenith sun.z
    let airMass := ext.airMass zenith
    let skyBrightness := clampReal (ext.skyBrightness diffuse airMass ext.extraterrestrial) (1 / 100) (9 * 10 ^ 9)
    let skyClearness := clampReal (ext.skyClearness diffuse direct zenith) (-(9 * 10 ^ 9)) (119 / 10)
    let index := ext.clearnessCategory skyClearness
    let dirIllum := direct * ext.directIlluminanceRatio ext.apwc zenith skyBrightness index
    let sunBrightness := dirIllum / omega / 179
    some (sun, sunBrightness, angle)

/-- /repo/src/scene.rs:104-186 `add_perez_sky` with its computation of the sun. -/
noncomputable def Scene.addPerezSkyFrom (env : SceneEnv ℝ) (s : Scene ℝ) (ext : SolarExt) (diffuse direct : ℝ) : Res (Scene ℝ) :=
  s.addPerezSky env (perezSun ext diffuse direct)

end Rendering
