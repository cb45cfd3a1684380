import Verif.Model.Tracer

/-!
# The light of two groups of lamps adds up

Three scenes that are equal in everything but how much their lights emit: what a light emits in the first is the sum of what it emits in the other two.  In particular, one group of lamps may be switched off in the second scene and the
other group in the third.
-/

namespace Rendering

section
variable {K : Type} [Field K]

/-- A light that emits as much as two others together; any other material is the same three times. -/
inductive Material.IsSum : Material K → Material K → Material K → Prop
  | light (a b : Spectrum K) : Material.IsSum (.light (a + b)) (.light a) (.light b)
  | other (m : Material K) (h : ∀ c, m ≠ .light c) : Material.IsSum m m m

/-- The same call three times, but for what lights emit and for the brightness of the sun. -/
inductive SceneOp.IsSum : SceneOp K → SceneOp K → SceneOp K → Prop
  | material {m a b : Material K} : Material.IsSum m a b → SceneOp.IsSum (.pushMaterial m) (.pushMaterial a) (.pushMaterial b)
  | object (f b : Nat) (p : Primitive K) : SceneOp.IsSum (.pushObject f b p) (.pushObject f b p) (.pushObject f b p)
  | build : SceneOp.IsSum .build .build .build
  | rebuild : SceneOp.IsSum .rebuild .rebuild .rebuild
  | night : SceneOp.IsSum (.addPerezSky none) (.addPerezSky none) (.addPerezSky none)
  | sun (dir : Vec3 K) (a b angle : K) : SceneOp.IsSum (.addPerezSky (some (dir, a + b, angle))) (.addPerezSky (some (dir, a, angle))) (.addPerezSky (some (dir, b, angle)))

/-- Three lists of such calls, of the same length. -/
inductive CallsAddUp : List (SceneOp K) → List (SceneOp K) → List (SceneOp K) → Prop
  | nil : CallsAddUp [] [] []
  | cons {o a b : SceneOp K} {os as bs : List (SceneOp K)} : SceneOp.IsSum o a b → CallsAddUp os as bs → CallsAddUp (o :: os) (a :: as) (b :: bs)

/-- Three skies: none three times, or in every direction the first is as bright as the others together. -/
inductive SkiesAddUp : Option (Vec3 K → K) → Option (Vec3 K → K) → Option (Vec3 K → K) → Prop
  | none : SkiesAddUp Option.none Option.none Option.none
  | some (f g : Vec3 K → K) : SkiesAddUp (Option.some fun d => f d + g d) (Option.some f) (Option.some g)

/-- The call with its light switched off. -/
def SceneOp.dark : SceneOp K → SceneOp K
  | .pushMaterial (.light _) => .pushMaterial (.light Spectrum.black)
  | .addPerezSky (some (dir, _, angle)) => .addPerezSky (some (dir, 0, angle))
  | op => op

/-- The calls with the lights pushed by the calls number `i` with `off i` switched off. -/
def switchOff (off : Nat → Bool) (ops : List (SceneOp K)) : List (SceneOp K) := ops.mapIdx fun i op => if off i then op.dark else op

end

/-- Answers of a tracer whose light adds up: same probability, same random numbers used, same panics. -/
inductive LightAddsUp : Res ((Spectrum ℝ × ℝ) × Rng) → Res ((Spectrum ℝ × ℝ) × Rng) → Res ((Spectrum ℝ × ℝ) × Rng) → Prop
  | ok (u v : Spectrum ℝ) (pdf : ℝ) (rng : Rng) : LightAddsUp (.ok ((u + v, pdf), rng)) (.ok ((u, pdf), rng)) (.ok ((v, pdf), rng))
  | panic : LightAddsUp .panic .panic .panic
  | diverge : LightAddsUp .diverge .diverge .diverge

end Rendering
