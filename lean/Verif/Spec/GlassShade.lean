import Verif.Spec.RenderingEquation
import Verif.Spec.Safety

/-!
# Shade
-/

namespace Rendering

/-- Seen from where `arrived` arrived (a millimetre above the surface, where shadow rays start), something of the scene, be it a pane of glass, is in front of every point of every sun. -/
def World.InShade (w : World) (s : Scene ℝ) (arrived : TRay) : Prop :=
  ∀ sun ∈ s.distantLights, ∀ direction angle L D, w.IsSun s sun direction angle L D → ∀ v, Norm v = 1 → Real.cos (angle / 2) < Dot v direction.normalized →
    ∃ tri ∈ s.triangles, ∃ d2, VisibleHit ⟨arrived.interaction.point + arrived.interaction.shading.normal.scale (1 / 1000), v⟩ tri d2 ∧ Blocking d2 D

/-- No surface of the scene is a lamp, and the constants of their materials make physical sense. -/
def Scene.NoLamps (s : Scene ℝ) : Prop := ∀ (k : Nat) m, s.materials[k]? = some m → k ∈ s.front ++ s.back → m.emitsLight = false ∧ m.Physical

/-- The same scene, of other materials. -/
def World.repainted (w : World) (materials : List (Material ℝ)) : World := { w with scene := { w.scene with materials := materials } }

end Rendering
