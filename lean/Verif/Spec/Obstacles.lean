import Verif.Spec.Scene
import Verif.Spec.Safety

/-!
# Further objects in a scene
-/

namespace Rendering

/-- A call that pushes an object, neither side of which is a light. -/
def SceneOp.Obstacle {K : Type} (mats : List (Material K)) (op : SceneOp K) : Prop := ∃ f b p, op = .pushObject f b p ∧ ¬ IsLight mats f ∧ ¬ IsLight mats b

/-- In every channel at most as bright. -/
def Spectrum.AtMost (a b : Spectrum ℝ) : Prop := a.c0 ≤ b.c0 ∧ a.c1 ≤ b.c1 ∧ a.c2 ≤ b.c2

/-- No direction in which a light might be sampled from the point, wherever in the stream of random numbers its turn comes, goes through the tolerance band around an edge of one of the triangles. -/
def SamplesClear (ext : GeoExt) (lights : List (Object ℝ)) (tris : List (Tri ℝ)) (pt : Vec3 ℝ) (rng : Rng) : Prop :=
  ∀ light ∈ lights, ∀ (k : Nat) (d : Vec3 ℝ) (r : Rng), light.primitive.sampleDirection ext (fun i => rng (i + k)) pt = .ok (d, r) → ∀ tri ∈ tris, ClearOfEdges ⟨pt, d⟩ tri

end Rendering
