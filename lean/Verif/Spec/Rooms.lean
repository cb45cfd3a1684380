import Verif.Spec.Bvh
import Verif.Spec.Triangle
import Verif.Spec.Scene

/-!
# Rooms
-/

namespace Rendering

/-- The parallelogram at `o` spanned by `e` and `f`, as two triangles. -/
def rect (o e f : Vec3 ℝ) : List (Tri ℝ) := [⟨o, o + e, o + e + f⟩, ⟨o, o + e + f, o + f⟩]

/-- The walls, floor and ceiling of a room with a corner at `o`: `X` long, `Y` wide and `Z` high. -/
def walls (o : Vec3 ℝ) (X Y Z : ℝ) : List (Tri ℝ) :=
  rect o ⟨0, Y, 0⟩ ⟨0, 0, Z⟩ ++ rect (o + ⟨X, 0, 0⟩) ⟨0, Y, 0⟩ ⟨0, 0, Z⟩ ++ rect o ⟨X, 0, 0⟩ ⟨0, 0, Z⟩ ++ rect (o + ⟨0, Y, 0⟩) ⟨X, 0, 0⟩ ⟨0, 0, Z⟩ ++ rect o ⟨X, 0, 0⟩ ⟨0, Y, 0⟩ ++ rect (o + ⟨0, 0, Z⟩) ⟨X, 0, 0⟩ ⟨0, Y, 0⟩

/-- The point is in the room, at least `h` from its walls, floor and ceiling. -/
def InRoom (o : Vec3 ℝ) (X Y Z h : ℝ) (p : Vec3 ℝ) : Prop :=
  (h ≤ p.x - o.x ∧ h ≤ o.x + X - p.x) ∧ (h ≤ p.y - o.y ∧ h ≤ o.y + Y - p.y) ∧ (h ≤ p.z - o.z ∧ h ≤ o.z + Z - p.z)

/-- The scene has the walls, floor and ceiling of a room, of half a metre to fifty metres each way, among its triangles. -/
structure Room (s : Scene ℝ) (o : Vec3 ℝ) (X Y Z : ℝ) : Prop where
  length : 1 / 2 ≤ X ∧ X ≤ 50
  width : 1 / 2 ≤ Y ∧ Y ≤ 50
  height : 1 / 2 ≤ Z ∧ Z ≤ 50
  walls : ∀ tri ∈ walls o X Y Z, tri ∈ s.triangles

end Rendering
