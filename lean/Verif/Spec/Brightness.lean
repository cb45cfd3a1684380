import Verif.Props.Glass
import Verif.Spec.Safety

/-!
# How bright a scene can be

The vocabulary of C112: what a matt surface and a clear surface are, and how much sunlight there is.
-/

namespace Rendering

/-- A matt surface that reflects at most the fraction `ρ` of the light in the channel `ch`. -/
def Material.MattUpTo (ch : Spectrum ℝ → ℝ) (ρ : ℝ) : Material ℝ → Prop
  | .plastic c specularity _ => specularity = 0 ∧ 0 ≤ ch c ∧ ch c ≤ ρ
  | .metal c specularity _ => specularity = 0 ∧ 0 ≤ ch c ∧ ch c ≤ ρ
  | _ => False

/-- A mirror or a pane of glass. -/
def Material.Clear : Material ℝ → Prop
  | .mirror _ => True
  | .glass c n => 1 ≤ n ∧ c.Fraction
  | _ => False

/-- `m` is the material of the front or of the back of some triangle of the scene. -/
def Scene.UsedOnSurface (s : Scene ℝ) (m : Material ℝ) : Prop := ∃ j k : Nat, (s.front[j]? = some k ∨ s.back[j]? = some k) ∧ s.materials[k]? = some m

/-- The solid angle of a distant source: that of the cone whose opening is the source's angle. -/
noncomputable def Primitive.solidAngle : Primitive ℝ → ℝ
  | .source _ angle => 2 * Real.pi * (1 - Real.cos (angle / 2))
  | _ => 0

/-- Every distant light is a source whose radiance in the channel `ch` is at most `L`. -/
def Scene.SunsAtMost (s : Scene ℝ) (ch : Spectrum ℝ → ℝ) (L : Object ℝ → ℝ) : Prop :=
  ∀ o ∈ s.distantLights, (∃ d angle, o.primitive = .source d angle) ∧ 0 ≤ L o ∧ ∀ (k : Nat) (m : Material ℝ), k = o.front ∨ k = o.back → s.materials[k]? = some m → ch m.colour ≤ L o

/-- The light that arrives on a surface that faces all the suns: the sum of radiance times solid angle. -/
noncomputable def Scene.sunlight (s : Scene ℝ) (L : Object ℝ → ℝ) : ℝ := (s.distantLights.map fun o => L o * o.primitive.solidAngle).sum

/-- Every triangle is shaded with its own normal. -/
def Scene.FlatShaded (s : Scene ℝ) : Prop :=
  ∀ (j : Nat) (tri : Tri ℝ), s.triangles[j]? = some tri → s.normals[j]? = some ((geometricNormal tri).normalized, (geometricNormal tri).normalized, (geometricNormal tri).normalized)

end Rendering
