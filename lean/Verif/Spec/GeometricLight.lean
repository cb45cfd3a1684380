import Verif.Lemmas.Turns

/-!
# The rendering equation of a matt scene under suns, in geometric terms

Nothing here mentions how the program finds surfaces, shadows or light: only the triangles of the scene, the materials of their sides, and the suns.
-/

namespace Rendering

open MeasureTheory Set

/-- A sun: the direction in which it stands, its apparent diameter, its radiance, and the squared distance at which it is taken to be. -/
structure SunDisc where
  direction : Vec3 ℝ
  angle : ℝ
  radiance : Spectrum ℝ
  distSq : ℝ

/-- A way of seeing: the triangle that a ray meets first and where, and whether the way from a point into a direction is free up to a squared distance. -/
structure Sight where
  meets : Ray3 ℝ → Option (Nat × Vec3 ℝ)
  free : Vec3 ℝ → Vec3 ℝ → ℝ → Prop

/-- A way of seeing that agrees with the triangles of the scene: what a ray meets is a point of the triangle, nothing is nearer, and nothing is overlooked; the way is free if no triangle blocks it, and not free if one does.
(Up to a tolerance of `2^-52` at the edges of triangles, and within the ranges of `VisibleHit`, `InRange`, `Blocking`.) -/
structure Sight.Faithful (S : Sight) (s : Scene ℝ) : Prop where
  met : ∀ (g : Ray3 ℝ) (j : Nat) (p : Vec3 ℝ), S.meets g = some (j, p) → ∃ tri, s.triangles[j]? = some tri ∧ (∃ t u v, TolerantHit g tri t p u v) ∧ InRange (distSq p g.origin) ∧
    ∀ other ∈ s.triangles, ∀ d2, VisibleHit g other d2 → 1 / 10 ^ 7 < d2 → distSq p g.origin ≤ d2
  missed : ∀ g : Ray3 ℝ, S.meets g = none → ∀ tri ∈ s.triangles, ∀ d2, VisibleHit g tri d2 → ¬ InRange d2
  clear : ∀ p v D, (∀ tri ∈ s.triangles, ∀ t q a b, TolerantHit ⟨p, v⟩ tri t q a b → ¬ Blocking (distSq q p) D) → S.free p v D
  blocked : ∀ p v D, S.free p v D → ∀ tri ∈ s.triangles, ∀ d2, VisibleHit ⟨p, v⟩ tri d2 → ¬ Blocking d2 D

/-- A choice of two axes across each unit vector. -/
structure Axes where
  first : Vec3 ℝ → Vec3 ℝ
  second : Vec3 ℝ → Vec3 ℝ
  frame : ∀ n, Norm n = 1 → Frame (first n) (second n) n

/-- The unit vector at height `z` and azimuth `φ` around `n`. -/
noncomputable def Axes.around (axes : Axes) (n : Vec3 ℝ) (z φ : ℝ) : Vec3 ℝ := worldOf (axes.first n) (axes.second n) n (directionAt z φ)

/-- How bright the disc of a sun is taken to be at the cosine `z` from its centre, `c` being the cosine at its edge; one on average over the disc, and nearly one everywhere (`C130_weight`). -/
noncomputable def discWeight (c z : ℝ) : ℝ := 2 * c ^ 2 / ((1 + c) * z ^ 3)

open Classical in
/-- What a sun gives to a surface of normal `N` at `p`: the integral, over the directions of its disc from which the surface is reached, of radiance times cosine. -/
noncomputable def SunDisc.onto (sun : SunDisc) (S : Sight) (axes : Axes) (ch : Spectrum ℝ → ℝ) (p N : Vec3 ℝ) : ENNReal :=
  ∫⁻ q in Ioo (Real.cos (sun.angle / 2)) 1 ×ˢ Ioo 0 (2 * Real.pi),
    if S.free p (axes.around sun.direction.normalized q.1 q.2) sun.distSq then
      ENNReal.ofReal (ch sun.radiance * discWeight (Real.cos (sun.angle / 2)) q.1 * |Dot N (axes.around sun.direction.normalized q.1 q.2)|)
    else 0

/-- The side of triangle `j` that is seen when looking into direction `d`: its normal, and its colour. -/
noncomputable def Scene.sideSeen (s : Scene ℝ) (j : Nat) (d : Vec3 ℝ) : Option (Vec3 ℝ × Spectrum ℝ) :=
  s.triangles[j]?.bind fun tri =>
    if Dot (geometricNormal tri) d < 0 then (s.front[j]?.bind fun k => s.materials[k]?).map fun m => ((geometricNormal tri).normalized, m.colour)
    else (s.back[j]?.bind fun k => s.materials[k]?).map fun m => (-(geometricNormal tri).normalized, m.colour)

/-- The light that comes back along a ray when the light in the scene is `L`: `colour / π` of what the suns give to the surface the ray meets, and of the light that arrives there over the hemisphere, weighted with its cosine.
Surfaces are taken to be lit one thousandth above them by the suns, and `1e-5` above them by other surfaces. -/
noncomputable def Scene.radiance (s : Scene ℝ) (suns : List SunDisc) (S : Sight) (axes : Axes) (ch : Spectrum ℝ → ℝ) (L : Ray3 ℝ → ENNReal) (view : Ray3 ℝ) : ENNReal :=
  match S.meets view with
  | none => 0
  | some (j, p) =>
    match s.sideSeen j view.direction with
    | none => 0
    | some (N, colour) =>
      ENNReal.ofReal (ch colour / Real.pi) *
        ((suns.map fun sun => sun.onto S axes ch (p + N.scale (1 / 1000)) N).sum +
          ∫⁻ q in Ioo (0 : ℝ) 1 ×ˢ Ioo 0 (2 * Real.pi), L ⟨p + N.scale (1 / 10 ^ 5), axes.around N q.1 q.2⟩ * ENNReal.ofReal q.1)

/-- `L` is in balance: along every ray it is the light that comes back. -/
def Scene.InBalance (s : Scene ℝ) (suns : List SunDisc) (S : Sight) (axes : Axes) (ch : Spectrum ℝ → ℝ) (L : Ray3 ℝ → ENNReal) : Prop :=
  ∀ view : Ray3 ℝ, Norm view.direction = 1 → L view = s.radiance suns S axes ch L view

/-- The light after at most `k` reflections. -/
noncomputable def Scene.lightAfter (s : Scene ℝ) (suns : List SunDisc) (S : Sight) (axes : Axes) (ch : Spectrum ℝ → ℝ) : Nat → Ray3 ℝ → ENNReal
  | 0 => fun _ => 0
  | k + 1 => s.radiance suns S axes ch (s.lightAfter suns S axes ch k)

/-- The distant sources of the scene are these suns. -/
def World.HasSuns (w : World) (s : Scene ℝ) (suns : List SunDisc) : Prop :=
  List.Forall₂ (fun source sun => w.IsSun s source sun.direction sun.angle sun.radiance sun.distSq ∧ sun.radiance.Nonneg) s.distantLights suns

end Rendering
