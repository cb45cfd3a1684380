import Verif.Model.Scene

/-!
# The same scene with its materials numbered differently
-/

namespace Rendering

variable {K : Type} [Field K]

/-- The material that `add_perez_sky` pushes by itself when the sun is up. -/
def skyMaterials : Option (Vec3 K × K × K) → List (Material K)
  | none => []
  | some (_, brightness, _) => [.light (Spectrum.gray brightness)]

/-- Two lists of calls that differ only in how materials are numbered: the same objects, whose material numbers name equal materials in both, the same builds and skies in the same order; materials may be
pushed at different moments, in another order, twice, or without being used.  `ms` and `ms'` are the materials pushed before. -/
inductive SameButNumbering : List (Material K) → List (Material K) → List (SceneOp K) → List (SceneOp K) → Prop
  | nil (ms ms' : List (Material K)) : SameButNumbering ms ms' [] []
  | pushLeft {ms ms' : List (Material K)} {ops ops' : List (SceneOp K)} (m : Material K) : SameButNumbering (ms ++ [m]) ms' ops ops' → SameButNumbering ms ms' (.pushMaterial m :: ops) ops'
  | pushRight {ms ms' : List (Material K)} {ops ops' : List (SceneOp K)} (m : Material K) : SameButNumbering ms (ms' ++ [m]) ops ops' → SameButNumbering ms ms' ops (.pushMaterial m :: ops')
  | object {ms ms' : List (Material K)} {ops ops' : List (SceneOp K)} (f b f' b' : Nat) (p : Primitive K) (front back : Material K) :
      ms[f]? = some front → ms'[f']? = some front → ms[b]? = some back → ms'[b']? = some back →
      SameButNumbering ms ms' ops ops' → SameButNumbering ms ms' (.pushObject f b p :: ops) (.pushObject f' b' p :: ops')
  | build {ms ms' : List (Material K)} {ops ops' : List (SceneOp K)} : SameButNumbering ms ms' ops ops' → SameButNumbering ms ms' (.build :: ops) (.build :: ops')
  | rebuild {ms ms' : List (Material K)} {ops ops' : List (SceneOp K)} : SameButNumbering ms ms' ops ops' → SameButNumbering ms ms' (.rebuild :: ops) (.rebuild :: ops')
  | sky {ms ms' : List (Material K)} {ops ops' : List (SceneOp K)} (sun : Option (Vec3 K × K × K)) :
      SameButNumbering (ms ++ skyMaterials sun) (ms' ++ skyMaterials sun) ops ops' → SameButNumbering ms ms' (.addPerezSky sun :: ops) (.addPerezSky sun :: ops')

/-- Numbers from `k` on are one higher, after a material was inserted at place `k`. -/
def makeRoom (k i : Nat) : Nat := if i < k then i else i + 1

/-- The same call after a material was inserted at place `k`. -/
def SceneOp.makeRoom (k : Nat) : SceneOp K → SceneOp K
  | .pushObject f b p => .pushObject (Rendering.makeRoom k f) (Rendering.makeRoom k b) p
  | op => op

end Rendering
