import Verif.Spec.Numbering

/-!
# The same surfaces under other lights
-/

namespace Rendering

variable {K : Type} [Field K]

/-- The same material, or two lights: lamps that differ in colour or brightness. -/
def Material.SameSurface (m m' : Material K) : Prop := m' = m ∨ ∃ c c', m = .light c ∧ m' = .light c'

/-- Two lists of calls that make the same surfaces: the same triangles and spheres of the same materials, in the same order, and the same builds.  Lamps may differ in colour and brightness; suns and skies may differ, come at other moments, or be missing; materials may be
numbered differently.  `ms` and `ms'` are the materials pushed before. -/
inductive SameButLighting : List (Material K) → List (Material K) → List (SceneOp K) → List (SceneOp K) → Prop
  | nil (ms ms' : List (Material K)) : SameButLighting ms ms' [] []
  | pushLeft {ms ms' : List (Material K)} {ops ops' : List (SceneOp K)} (m : Material K) : SameButLighting (ms ++ [m]) ms' ops ops' → SameButLighting ms ms' (.pushMaterial m :: ops) ops'
  | pushRight {ms ms' : List (Material K)} {ops ops' : List (SceneOp K)} (m : Material K) : SameButLighting ms (ms' ++ [m]) ops ops' → SameButLighting ms ms' ops (.pushMaterial m :: ops')
  | object {ms ms' : List (Material K)} {ops ops' : List (SceneOp K)} (f b f' b' : Nat) (p : Primitive K) (front front' back back' : Material K) :
      ms[f]? = some front → ms'[f']? = some front' → front.SameSurface front' → ms[b]? = some back → ms'[b']? = some back' → back.SameSurface back' →
      SameButLighting ms ms' ops ops' → SameButLighting ms ms' (.pushObject f b p :: ops) (.pushObject f' b' p :: ops')
  | build {ms ms' : List (Material K)} {ops ops' : List (SceneOp K)} : SameButLighting ms ms' ops ops' → SameButLighting ms ms' (.build :: ops) (.build :: ops')
  | rebuild {ms ms' : List (Material K)} {ops ops' : List (SceneOp K)} : SameButLighting ms ms' ops ops' → SameButLighting ms ms' (.rebuild :: ops) (.rebuild :: ops')
  | sunLeft {ms ms' : List (Material K)} {ops ops' : List (SceneOp K)} (f b : Nat) (direction : Vec3 K) (angle : K) :
      SameButLighting ms ms' ops ops' → SameButLighting ms ms' (.pushObject f b (.source direction angle) :: ops) ops'
  | sunRight {ms ms' : List (Material K)} {ops ops' : List (SceneOp K)} (f b : Nat) (direction : Vec3 K) (angle : K) :
      SameButLighting ms ms' ops ops' → SameButLighting ms ms' ops (.pushObject f b (.source direction angle) :: ops')
  | skyLeft {ms ms' : List (Material K)} {ops ops' : List (SceneOp K)} (sun : Option (Vec3 K × K × K)) :
      SameButLighting (ms ++ skyMaterials sun) ms' ops ops' → SameButLighting ms ms' (.addPerezSky sun :: ops) ops'
  | skyRight {ms ms' : List (Material K)} {ops ops' : List (SceneOp K)} (sun : Option (Vec3 K × K × K)) :
      SameButLighting ms (ms' ++ skyMaterials sun) ops ops' → SameButLighting ms ms' ops (.addPerezSky sun :: ops')

end Rendering
