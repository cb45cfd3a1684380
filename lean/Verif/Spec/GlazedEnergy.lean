import Verif.Spec.Glazed

/-!
# Mirrors, panes and dielectrics that add no light
-/

namespace Rendering

/-- In the channel `ch` a mirror, pane or dielectric adds no light; dielectrics are not denser than `top`.  (The colours of panes are at most 1 already if they are physical; the code never uses the colour of a mirror for its reflections.) -/
def Material.AddsNoLight (ch : Spectrum ℝ → ℝ) (top : ℝ) : Material ℝ → Prop
  | .glass _ n => 1 ≤ n
  | .dielectric c n => ch c ≤ 1 ∧ n ≤ top
  | _ => True

end Rendering
