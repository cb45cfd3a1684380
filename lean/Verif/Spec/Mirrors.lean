import Verif.Spec.GeometricLight
import Verif.Spec.Glazed

/-!
# Light in scenes with mirrors, in geometric terms

Nothing here mentions how the program finds surfaces, shadows or light, or how it follows paths: only the triangles of the scene, the materials of their sides, and the suns.
-/

namespace Rendering

open MeasureTheory Set

/-- A scene lit by suns only in which every surface is matt or a mirror. -/
structure World.SunlitMirrors (w : World) (s : Scene ℝ) : Prop extends w.Sunlit s where
  surfaces : ∀ (k : Nat) m, s.materials[k]? = some m → k ∈ s.front ++ s.back → ∃ col, col.Nonneg ∧ (m = .mirror col ∨ ∃ r, m ∈ [Material.plastic col 0 r, Material.metal col 0 r])

/-- The side of triangle `j` that is seen when looking into direction `d`: its normal, and its material. -/
noncomputable def Scene.surfaceSeen (s : Scene ℝ) (j : Nat) (d : Vec3 ℝ) : Option (Vec3 ℝ × Material ℝ) :=
  s.triangles[j]?.bind fun tri =>
    if Dot (geometricNormal tri) d < 0 then (s.front[j]?.bind fun k => s.materials[k]?).map fun m => ((geometricNormal tri).normalized, m)
    else (s.back[j]?.bind fun k => s.materials[k]?).map fun m => (-(geometricNormal tri).normalized, m)

/-- Direction `d`, mirrored at a plane of unit normal `N`: its part along the normal is turned round. -/
noncomputable def mirrored (d N : Vec3 ℝ) : Vec3 ℝ := d - N.scale (2 * Dot d N)

/-- The light that comes back along a ray when the light in the scene is `L`.  A mirror shows the light from the mirrored direction, all of it, whatever colour the mirror has.  Any other surface sends `colour / π` of what the suns give to it, and of the light that arrives there over the hemisphere, weighted
with its cosine. -/
noncomputable def Scene.mirrorRadiance (s : Scene ℝ) (suns : List SunDisc) (S : Sight) (axes : Axes) (ch : Spectrum ℝ → ℝ) (L : Ray3 ℝ → ENNReal) (view : Ray3 ℝ) : ENNReal :=
  match S.meets view with
  | none => 0
  | some (j, p) =>
    match s.surfaceSeen j view.direction with
    | none => 0
    | some (N, .mirror _) => L ⟨p + N.scale (1 / 10 ^ 5), mirrored view.direction N⟩
    | some (N, m) =>
      ENNReal.ofReal (ch m.colour / Real.pi) *
        ((suns.map fun sun => sun.onto S axes ch (p + N.scale (1 / 1000)) N).sum +
          ∫⁻ q in Ioo (0 : ℝ) 1 ×ˢ Ioo 0 (2 * Real.pi), L ⟨p + N.scale (1 / 10 ^ 5), axes.around N q.1 q.2⟩ * ENNReal.ofReal q.1)

/-- `L` is in balance: along every ray it is the light that comes back. -/
def Scene.MirrorBalance (s : Scene ℝ) (suns : List SunDisc) (S : Sight) (axes : Axes) (ch : Spectrum ℝ → ℝ) (L : Ray3 ℝ → ENNReal) : Prop :=
  ∀ view : Ray3 ℝ, Norm view.direction = 1 → L view = s.mirrorRadiance suns S axes ch L view

/-- The light that has met at most `k` surfaces, mirrors included. -/
noncomputable def Scene.mirrorAfter (s : Scene ℝ) (suns : List SunDisc) (S : Sight) (axes : Axes) (ch : Spectrum ℝ → ℝ) : Nat → Ray3 ℝ → ENNReal
  | 0 => fun _ => 0
  | k + 1 => s.mirrorRadiance suns S axes ch (s.mirrorAfter suns S axes ch k)

end Rendering
