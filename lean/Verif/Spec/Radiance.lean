import Verif.Model.Radiance

/-!
# What a Radiance text means

A text is a sequence of tokens separated by white space.  The tokens form objects `modifier type name 0 0 n a₁ … aₙ`; materials give a name to a surface, the
other objects are made of the first material that was given the name of their modifier.
-/

namespace Rendering
variable {K : Type}

/-- The tokens of a text: the maximal pieces without white space. -/
def tokensOf (src : List UInt8) : List (List UInt8) := (splitOnByte isAsciiWhitespace src).filter (· ≠ [])

/-- An object of a Radiance text. -/
inductive RadItem (K : Type) where
  | material (name : List UInt8) (m : Material K)
  | object (modifier : List UInt8) (parts : List (Primitive K))

/-- Consecutive numbers as points. -/
def pointsOf : List K → Option (List (Vec3 K))
  | [] => some []
  | x :: y :: z :: rest => (pointsOf rest).map (⟨x, y, z⟩ :: ·)
  | _ => none

/-- The object with the given modifier, type, name and numbers. -/
def radItem [Field K] (env : RadEnv K) (modifier : List UInt8) (type : String) (name : List UInt8) (args : List K) : Option (RadItem K) :=
  match type, args with
  | "plastic", [r, g, b, spec, rough] => some (.material name (.plastic ⟨r, g, b⟩ spec rough))
  | "metal", [r, g, b, spec, rough] => some (.material name (.metal ⟨r, g, b⟩ spec rough))
  | "light", [r, g, b] => some (.material name (.light ⟨r, g, b⟩))
  | "mirror", [r, g, b] => some (.material name (.mirror ⟨r, g, b⟩))
  | "dielectric", [r, g, b, n, _hartmann] => some (.material name (.dielectric ⟨r, g, b⟩ n))
  | "glass", [r, g, b] => some (.material name (.glass ⟨r, g, b⟩ (152 / 100)))
  | "glass", [r, g, b, n] => some (.material name (.glass ⟨r, g, b⟩ n))
  | "sphere", [x, y, z, radius] => some (.object modifier [.sphere ⟨x, y, z⟩ radius])
  | "source", [x, y, z, angle] => some (.object modifier [.source ⟨x, y, z⟩ (env.toRadians angle)])
  | "polygon", args => (pointsOf args).bind fun vs => (env.triangulate vs).map fun ts => .object modifier (ts.map .triangle)
  | _, _ => none

/-- The token that announces `n` numbers; only polygons may write it in an unusual way (such as `+9`). -/
def AnnouncesArgs (type : String) (count : List UInt8) (n : Nat) : Prop :=
  parseUsize count = some n ∧ (type ≠ "polygon" → count = decimal n)

/-- The tokens describe the list of objects. -/
inductive Describes [Field K] (env : RadEnv K) : List (List UInt8) → List (RadItem K) → Prop where
  | nil : Describes env [] []
  | cons (modifier name count : List UInt8) (type : String) (args : List (List UInt8)) (numbers : List K) (item : RadItem K)
      (rest : List (List UInt8)) (items : List (RadItem K)) :
      AnnouncesArgs type count args.length → args.map env.parseFloat = numbers.map some → radItem env modifier type name numbers = some item →
      Describes env rest items →
      Describes env ([modifier, bytes type, name, bytes "0", bytes "0", count] ++ args ++ rest) (item :: items)

/-- The names of the materials defined so far, in order. -/
def RadItem.names : RadItem K → List (List UInt8)
  | .material name _ => [name]
  | .object _ _ => []

/-- Adding the parts of an object, one after the other. -/
def pushParts [Field K] (env : SceneEnv K) (i : Nat) : List (Primitive K) → Scene K → Res (Scene K)
  | [], s => .ok s
  | p :: ps, s => (s.pushObject env i i p).bind fun s => pushParts env i ps s

/-- The scene built from a list of objects when materials with the given names are already there. -/
def buildItems [Field K] (env : SceneEnv K) : List (List UInt8) → List (RadItem K) → Scene K → Res (Scene K)
  | _, [], s => .ok s
  | names, .material name m :: items, s => buildItems env (names ++ [name]) items (s.pushMaterial m).1
  | names, .object modifier parts :: items, s =>
    if modifier ∈ names then (pushParts env (names.idxOf modifier) parts s).bind fun s => buildItems env names items s else .panic

/-! ### The same, as a history of calls -/

/-- The material defined by an object, with its name. -/
def RadItem.defines : RadItem K → List (List UInt8 × Material K)
  | .material name m => [(name, m)]
  | .object _ _ => []

/-- The calls that add the objects to a scene, when materials with the given names are already there. -/
def itemOps : List (List UInt8) → List (RadItem K) → List (SceneOp K)
  | _, [] => []
  | names, .material name m :: items => .pushMaterial m :: itemOps (names ++ [name]) items
  | names, .object modifier parts :: items =>
    parts.map (fun p => .pushObject (names.idxOf modifier) (names.idxOf modifier) p) ++ itemOps names items

/-! ### Layouts -/

/-- The text consists of the given tokens, separated (and possibly surrounded) by any amount of white space of any kind. -/
inductive LaidOut : List (List UInt8) → List UInt8 → Prop where
  | nil (w : List UInt8) : (∀ b ∈ w, isAsciiWhitespace b = true) → LaidOut [] w
  | cons (w t rest : List UInt8) (ts : List (List UInt8)) : (∀ b ∈ w, isAsciiWhitespace b = true) → t ≠ [] → (∀ b ∈ t, isAsciiWhitespace b = false) →
      (∀ b, rest.head? = some b → isAsciiWhitespace b = true) → LaidOut ts rest → LaidOut (t :: ts) (w ++ t ++ rest)

end Rendering
