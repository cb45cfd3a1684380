import Verif.Spec.Tracer
import Verif.Spec.Bvh

/-!
# What direct light is supposed to be

At a point `pt` of a surface, directions are drawn towards a light until `n` of them meet it; the direct light is the mean over those `n` of what each brings: nothing
if something stands between the point and the light, else `colour · |cos| · bsdf / pdf`.
-/

namespace Rendering

/-- The directions drawn towards `light` from `pt` that meet it, and where they meet it; directions that miss the light are passed over. -/
inductive Draws (ext : GeoExt) (light : Object ℝ) (pt : Vec3 ℝ) : Rng → List (Vec3 ℝ × IntersectionInfo) → Rng → Prop
  | done (rng : Rng) : Draws ext light pt rng [] rng
  | miss {rng rng' rng'' : Rng} {d : Vec3 ℝ} {l : List (Vec3 ℝ × IntersectionInfo)} (hd : light.primitive.sampleDirection ext rng pt = .ok (d, rng'))
      (hm : ext.primIntersect light.primitive ⟨pt, d⟩ = none) (hl : l ≠ []) (rest : Draws ext light pt rng' l rng'') : Draws ext light pt rng l rng''
  | meet {rng rng' rng'' : Rng} {d : Vec3 ℝ} {info : IntersectionInfo} {l : List (Vec3 ℝ × IntersectionInfo)} (hd : light.primitive.sampleDirection ext rng pt = .ok (d, rng'))
      (hm : ext.primIntersect light.primitive ⟨pt, d⟩ = some info) (rest : Draws ext light pt rng' l rng'') : Draws ext light pt rng ((d, info) :: l) rng''

/-- A triangle of the scene stands between `pt` and the point `q` in direction `d`. -/
def Shadowed (s : Scene ℝ) (pt d q : Vec3 ℝ) : Prop := ∃ tri ∈ s.triangles, ∃ d2, VisibleHit ⟨pt, d⟩ tri d2 ∧ Blocking d2 (distSq pt q)

/-- The same, up to the 2^-52 tolerance at the edges of triangles. -/
def PossiblyShadowed (s : Scene ℝ) (pt d q : Vec3 ℝ) : Prop :=
  ∃ tri ∈ s.triangles, ∃ t p u v, TolerantHit ⟨pt, d⟩ tri t p u v ∧ Blocking (distSq p pt) (distSq pt q)

/-- The colour of the side of the light on which it is met. -/
noncomputable def lightColour (s : Scene ℝ) (light : Object ℝ) : SurfaceSide → Option (Spectrum ℝ)
  | .Front => (s.materials[light.front]?).map Material.colour
  | .Back => (s.materials[light.back]?).map Material.colour
  | .NonApplicable => none

/-- What one direction that meets the light brings to the surface. -/
inductive Brings (w : World) (s : Scene ℝ) (light : Object ℝ) (pt normal : Vec3 ℝ) (bsdf : Vec3 ℝ → Res (Spectrum ℝ)) : Vec3 ℝ × IntersectionInfo → Spectrum ℝ → Prop
  | shadow (d : Vec3 ℝ) (info : IntersectionInfo) (h : PossiblyShadowed s pt d info.p) : Brings w s light pt normal bsdf (d, info) Spectrum.black
  | grazing (d : Vec3 ℝ) (info : IntersectionInfo) (h : info.side = .NonApplicable ∨ ∃ pdf, light.primitive.solidAnglePdf info ⟨pt, d⟩ = .ok pdf ∧ pdf < 1 / 10 ^ 18) :
      Brings w s light pt normal bsdf (d, info) Spectrum.black
  | lit (d : Vec3 ℝ) (info : IntersectionInfo) (colour f : Spectrum ℝ) (pdf : ℝ) (h : ¬ Shadowed s pt d info.p) (hc : lightColour s light info.side = some colour)
      (hp : light.primitive.solidAnglePdf info ⟨pt, d⟩ = .ok pdf) (hpos : 1 / 10 ^ 18 ≤ pdf) (hf : bsdf d = .ok f) :
      Brings w s light pt normal bsdf (d, info) (((colour.scale |normal.dot d|) * f).divBy pdf)

/-- The sum of a list of spectra. -/
noncomputable def spectrumSum : List (Spectrum ℝ) → Spectrum ℝ
  | [] => Spectrum.black
  | v :: rest => v + spectrumSum rest

/-- The direct light from a list of lights: for each light, the mean of what `n` directions that meet it bring. -/
inductive DirectLight (w : World) (s : Scene ℝ) (n : Nat) (pt normal : Vec3 ℝ) (bsdf : Vec3 ℝ → Res (Spectrum ℝ)) : List (Object ℝ) → Rng → Spectrum ℝ → Rng → Prop
  | none (rng : Rng) : DirectLight w s n pt normal bsdf [] rng Spectrum.black rng
  | light {light : Object ℝ} {others : List (Object ℝ)} {rng rng' rng'' : Rng} {draws : List (Vec3 ℝ × IntersectionInfo)} {values : List (Spectrum ℝ)} {sum : Spectrum ℝ}
      (hd : Draws w.ext light pt rng draws rng') (hn : draws.length = n) (hv : List.Forall₂ (Brings w s light pt normal bsdf) draws values)
      (rest : DirectLight w s n pt normal bsdf others rng' sum rng'') :
      DirectLight w s n pt normal bsdf (light :: others) rng ((spectrumSum values).divBy (n : ℝ) + sum) rng''

end Rendering
