import Verif.Spec.Scene

/-!
# Looking along a segment from both ends
-/

namespace Rendering

variable {K : Type} [Field K]

/-- The ray from a point. -/
def rayFrom (A e : Vec3 K) : Ray3 K := ⟨A, e⟩

/-- The ray back, from the point at distance `L` along the direction. -/
def rayBack (A e : Vec3 K) (L : K) : Ray3 K := ⟨A + e.scale L, e.scale (-1)⟩

end Rendering
