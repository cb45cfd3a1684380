import Verif.Spec.Obstacles
import Verif.Spec.RenderingEquation

/-!
# Other colours on the same surfaces
-/

namespace Rendering

/-- The material painted anew: a matt material of another colour; materials that are not matt stay. `R` says how the colours are related. -/
inductive Material.Repainted (R : Spectrum ℝ → Spectrum ℝ → Prop) : Material ℝ → Material ℝ → Prop
  | plastic (col col' : Spectrum ℝ) (r : ℝ) : R col col' → Material.Repainted R (.plastic col 0 r) (.plastic col' 0 r)
  | metal (col col' : Spectrum ℝ) (r : ℝ) : R col col' → Material.Repainted R (.metal col 0 r) (.metal col' 0 r)
  | other (m : Material ℝ) : (∀ col r, m ∉ [Material.plastic col 0 r, Material.metal col 0 r]) → Material.Repainted R m m

/-- The same call, except that materials are painted anew. -/
inductive SceneOp.Repainted (R : Spectrum ℝ → Spectrum ℝ → Prop) : SceneOp ℝ → SceneOp ℝ → Prop
  | material (m m' : Material ℝ) : m.Repainted R m' → SceneOp.Repainted R (.pushMaterial m) (.pushMaterial m')
  | other (op : SceneOp ℝ) : (∀ m, op ≠ .pushMaterial m) → SceneOp.Repainted R op op

/-- Colours not negative, and nowhere darker. -/
def Brighter (col col' : Spectrum ℝ) : Prop := col.Nonneg ∧ col.AtMost col'

/-- Colours not negative, and up to `f` times brighter. -/
def UpToTimes (f : ℝ) (col col' : Spectrum ℝ) : Prop := col.Nonneg ∧ col'.Nonneg ∧ col'.AtMost ⟨f * col.c0, f * col.c1, f * col.c2⟩

/-- Colours not negative, and at least `f` times brighter. -/
def AtLeastTimes (f : ℝ) (col col' : Spectrum ℝ) : Prop := col.Nonneg ∧ Spectrum.AtMost ⟨f * col.c0, f * col.c1, f * col.c2⟩ col'

end Rendering
