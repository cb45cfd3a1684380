import Verif.Spec.Mirrors

/-!
# Light in scenes with mirrors and panes of glass, in geometric terms

Nothing here mentions how the program finds surfaces, shadows or light, how it follows paths or computes what glass does.
-/

namespace Rendering

open MeasureTheory Set

/-- A scene lit by suns only in which every surface is matt, a mirror, or a pane of glass that is not denser than nature allows (index at least one, no channel brighter than one) and not opaque. -/
structure World.SunlitPanes (w : World) (s : Scene ℝ) : Prop extends w.Sunlit s where
  surfaces : ∀ (k : Nat) m, s.materials[k]? = some m → k ∈ s.front ++ s.back → ∃ col, col.Nonneg ∧
    (m = .mirror col ∨ (∃ r, m ∈ [Material.plastic col 0 r, Material.metal col 0 r]) ∨
     ∃ n, m = .glass col n ∧ 1 ≤ n ∧ col.Fraction ∧ (1 / 10 ^ 15 ≤ col.c0 ∨ 1 / 10 ^ 15 ≤ col.c1 ∨ 1 / 10 ^ 15 ≤ col.c2))

/-- Of the light that falls on a pane of which each face reflects the share `f`, and whose glass lets the share `δ` pass from face to face: this much leaves on the far side after `k` double reflections inside, … -/
noncomputable def passedOn (f δ : ℝ) (k : Nat) : ℝ := (1 - f) * δ * (f * δ * (f * δ)) ^ k * (1 - f)

/-- … and this much on the near side after `k` double reflections and one more. -/
noncomputable def sentBack (f δ : ℝ) (k : Nat) : ℝ := (1 - f) * δ * (f * δ * (f * δ)) ^ k * f * δ * (1 - f)

/-- Cosine inside glass of index `n` of light that falls on it with cosine `a` (Snell's law). -/
noncomputable def cosineInside (n a : ℝ) : ℝ := Real.sqrt (1 - (1 - a ^ 2) / n ^ 2)

/-- Fresnel's reflectance of a face for light polarised perpendicularly to the plane of incidence; cosine `a` outside and `b` inside. -/
noncomputable def acrossFace (n a b : ℝ) : ℝ := ((a - n * b) / (a + n * b)) ^ 2

/-- … and parallel to it. -/
noncomputable def alongFace (n a b : ℝ) : ℝ := ((n * a - b) / (n * a + b)) ^ 2

/-- The share of light that a pane of index `n`, which lets the share `c` pass at right angles, lets through at cosine `a`: the average over both polarisations of all that leaves on the far side. -/
noncomputable def letThrough (c n a : ℝ) : ℝ := ∑' k : Nat, (passedOn (acrossFace n a (cosineInside n a)) (c ^ (1 / cosineInside n a)) k + passedOn (alongFace n a (cosineInside n a)) (c ^ (1 / cosineInside n a)) k) / 2

/-- The share that it reflects: what the first face reflects, and all that leaves on the near side. -/
noncomputable def thrownBack (c n a : ℝ) : ℝ := (acrossFace n a (cosineInside n a) + alongFace n a (cosineInside n a)) / 2 +
  ∑' k : Nat, (sentBack (acrossFace n a (cosineInside n a)) (c ^ (1 / cosineInside n a)) k + sentBack (alongFace n a (cosineInside n a)) (c ^ (1 / cosineInside n a)) k) / 2

/-- The light that comes back along a ray when the light in the scene is `L`.  A mirror shows the light from the mirrored direction; a pane of glass shows its shares of the light from the mirrored direction and of the light straight behind it.
Any other surface sends `colour / π` of what the suns give to it, and of the light that arrives there over the hemisphere, weighted with its cosine. -/
noncomputable def Scene.paneRadiance (s : Scene ℝ) (suns : List SunDisc) (S : Sight) (axes : Axes) (ch : Spectrum ℝ → ℝ) (L : Ray3 ℝ → ENNReal) (view : Ray3 ℝ) : ENNReal :=
  match S.meets view with
  | none => 0
  | some (j, p) =>
    match s.surfaceSeen j view.direction with
    | none => 0
    | some (N, .mirror _) => L ⟨p + N.scale (1 / 10 ^ 5), mirrored view.direction N⟩
    | some (N, .glass colour n) =>
      ENNReal.ofReal (thrownBack (ch colour) n |Dot N view.direction|) * L ⟨p + N.scale (1 / 10 ^ 5), mirrored view.direction N⟩ +
        ENNReal.ofReal (letThrough (ch colour) n |Dot N view.direction|) * L ⟨p - N.scale (1 / 10 ^ 5), view.direction⟩
    | some (N, m) =>
      ENNReal.ofReal (ch m.colour / Real.pi) *
        ((suns.map fun sun => sun.onto S axes ch (p + N.scale (1 / 1000)) N).sum +
          ∫⁻ q in Ioo (0 : ℝ) 1 ×ˢ Ioo 0 (2 * Real.pi), L ⟨p + N.scale (1 / 10 ^ 5), axes.around N q.1 q.2⟩ * ENNReal.ofReal q.1)

/-- `L` is in balance: along every ray it is the light that comes back. -/
def Scene.PaneBalance (s : Scene ℝ) (suns : List SunDisc) (S : Sight) (axes : Axes) (ch : Spectrum ℝ → ℝ) (L : Ray3 ℝ → ENNReal) : Prop :=
  ∀ view : Ray3 ℝ, Norm view.direction = 1 → L view = s.paneRadiance suns S axes ch L view

/-- The light that has met at most `k` surfaces, mirrors and panes included. -/
noncomputable def Scene.paneAfter (s : Scene ℝ) (suns : List SunDisc) (S : Sight) (axes : Axes) (ch : Spectrum ℝ → ℝ) : Nat → Ray3 ℝ → ENNReal
  | 0 => fun _ => 0
  | k + 1 => s.paneRadiance suns S axes ch (s.paneAfter suns S axes ch k)

end Rendering
