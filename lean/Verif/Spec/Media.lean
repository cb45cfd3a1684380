import Verif.Spec.Panes

/-!
# Light in scenes with mirrors, panes and dielectrics, in geometric terms

Nothing here mentions how the program finds surfaces, shadows or light, how it follows paths or computes refraction.  Light has a ray and the index of refraction of the medium it is in.
-/

namespace Rendering

open MeasureTheory Set

/-- A scene lit by suns only in which every surface is matt, a mirror, a pane of glass (index at least one, no channel brighter than one, not opaque) or bounds a dielectric. -/
structure World.SunlitMedia (w : World) (s : Scene ℝ) : Prop extends w.Sunlit s where
  surfaces : ∀ (k : Nat) m, s.materials[k]? = some m → k ∈ s.front ++ s.back → ∃ col, col.Nonneg ∧
    (m = .mirror col ∨ (∃ r, m ∈ [Material.plastic col 0 r, Material.metal col 0 r]) ∨
     (∃ n, m = .glass col n ∧ 1 ≤ n ∧ col.Fraction ∧ (1 / 10 ^ 15 ≤ col.c0 ∨ 1 / 10 ^ 15 ≤ col.c1 ∨ 1 / 10 ^ 15 ≤ col.c2)) ∨
     ∃ n, m = .dielectric col n ∧ 0 < n)

/-- The index on the other side of the surface of a dielectric of index `n`: the light enters the dielectric, or leaves it into air if it is in it already. -/
noncomputable def beyondSurface (η n : ℝ) : ℝ := if |η - n| < 1 / 10 ^ 7 then 1 else n

/-- The sine of the angle of refraction (Snell's law) when light with cosine `a` passes from index `n1` to index `n2`; if it would be more than one, the light is reflected totally. -/
noncomputable def sineBeyond (n1 n2 a : ℝ) : ℝ := n1 / n2 * Real.sqrt (1 - a ^ 2)

/-- Fresnel's reflectance for unpolarised light: the average over both polarisations; cosines `a` before and `b` beyond. -/
noncomputable def fresnelShare (n1 n2 a b : ℝ) : ℝ := (((n1 * a - n2 * b) / (n1 * a + n2 * b)) ^ 2 + ((n1 * b - n2 * a) / (n1 * b + n2 * a)) ^ 2) / 2

/-- The direction of the refracted ray. -/
noncomputable def bent (n1 n2 : ℝ) (d N : Vec3 ℝ) : Vec3 ℝ := d.scale (n1 / n2) + N.scale (n1 / n2 * |Dot N d| - Real.sqrt (1 - sineBeyond n1 n2 |Dot N d| ^ 2))

/-- The light that comes back along a ray in a medium of index `η` when the light in the scene is `L`.  Mirrors, panes and matt surfaces as in `paneRadiance`.  The surface of a dielectric shows Fresnel's share of the light from the mirrored direction, and the rest, in the colour of the dielectric and
changed by the square of the ratio of the indices as radiance is, of the light from the refracted direction, in the other medium. -/
noncomputable def Scene.mediaRadiance (s : Scene ℝ) (suns : List SunDisc) (S : Sight) (axes : Axes) (ch : Spectrum ℝ → ℝ) (L : Ray3 ℝ → ℝ → ENNReal) (view : Ray3 ℝ) (η : ℝ) : ENNReal :=
  match S.meets view with
  | none => 0
  | some (j, p) =>
    match s.surfaceSeen j view.direction with
    | none => 0
    | some (N, .mirror _) => L ⟨p + N.scale (1 / 10 ^ 5), mirrored view.direction N⟩ η
    | some (N, .glass colour n) =>
      ENNReal.ofReal (thrownBack (ch colour) n |Dot N view.direction|) * L ⟨p + N.scale (1 / 10 ^ 5), mirrored view.direction N⟩ η +
        ENNReal.ofReal (letThrough (ch colour) n |Dot N view.direction|) * L ⟨p - N.scale (1 / 10 ^ 5), view.direction⟩ η
    | some (N, .dielectric colour n) =>
      let n2 := beyondSurface η n
      let a := |Dot N view.direction|
      let x := sineBeyond η n2 a
      let R := fresnelShare η n2 a (Real.sqrt (1 - x ^ 2))
      if 1 ≤ x then L ⟨p + N.scale (1 / 10 ^ 5), mirrored view.direction N⟩ η
      else ENNReal.ofReal R * L ⟨p + N.scale (1 / 10 ^ 5), mirrored view.direction N⟩ η +
        ENNReal.ofReal (ch colour * ((1 - R) * (n2 / η) ^ 2)) * L ⟨p - N.scale (1 / 10 ^ 5), bent η n2 view.direction N⟩ n2
    | some (N, m) =>
      ENNReal.ofReal (ch m.colour / Real.pi) *
        ((suns.map fun sun => sun.onto S axes ch (p + N.scale (1 / 1000)) N).sum +
          ∫⁻ q in Ioo (0 : ℝ) 1 ×ˢ Ioo 0 (2 * Real.pi), L ⟨p + N.scale (1 / 10 ^ 5), axes.around N q.1 q.2⟩ η * ENNReal.ofReal q.1)

/-- `L` is in balance: along every ray, in every medium, it is the light that comes back. -/
def Scene.MediaBalance (s : Scene ℝ) (suns : List SunDisc) (S : Sight) (axes : Axes) (ch : Spectrum ℝ → ℝ) (L : Ray3 ℝ → ℝ → ENNReal) : Prop :=
  ∀ (view : Ray3 ℝ) (η : ℝ), Norm view.direction = 1 → 0 < η → L view η = s.mediaRadiance suns S axes ch L view η

/-- The light that has met at most `k` surfaces, mirrors, panes and surfaces of dielectrics included. -/
noncomputable def Scene.mediaAfter (s : Scene ℝ) (suns : List SunDisc) (S : Sight) (axes : Axes) (ch : Spectrum ℝ → ℝ) : Nat → Ray3 ℝ → ℝ → ENNReal
  | 0 => fun _ _ => 0
  | k + 1 => s.mediaRadiance suns S axes ch (s.mediaAfter suns S axes ch k)

end Rendering
