import Verif.Lemmas.Radiance

/-! # The Radiance reader on tokens -/

set_option linter.unusedSectionVars false
namespace Rendering
variable {K : Type}

/-- Both computations panic, or both succeed with related results. -/
def Rel {α β : Type} (R : α → β → Prop) : Res α → Res β → Prop
  | .ok a, .ok b => R a b
  | .panic, .panic => True
  | _, _ => False

theorem Rel.bind {α β γ δ : Type} {R : α → β → Prop} {S : γ → δ → Prop} {x : Res α} {y : Res β} {f : α → Res γ} {g : β → Res δ}
    (h : Rel R x y) (hf : ∀ a b, R a b → Rel S (f a) (g b)) : Rel S (x.bind f) (y.bind g) := by
  cases x <;> cases y <;> simp_all [Rel]

theorem Rel.panic {α β : Type} {R : α → β → Prop} : Rel R (Res.panic : Res α) (Res.panic : Res β) := trivial

/-- The reader is before the given tokens. -/
def At (src : List UInt8) (names : List (List UInt8)) (r : RadReader) (ts : List (List UInt8)) : Prop :=
  ∃ i, i ≤ src.length ∧ r = readerAt src names i ∧ tokensOf (src.drop i) = ts

/-- `consume_token` on tokens. -/
def tToken : List (List UInt8) → Res (List UInt8 × List (List UInt8))
  | [] => .ok ([], [])
  | t :: ts => if validUtf8 t then .ok (t, ts) else .panic

def tExpect (expected : String) (ts : List (List UInt8)) : Res (List (List UInt8)) :=
  (tToken ts).bind fun (t, ts) => if t = bytes expected then .ok ts else .panic

def tFloat (env : RadEnv K) (ts : List (List UInt8)) : Res (K × List (List UInt8)) :=
  (tToken ts).bind fun (t, ts) => (Res.ofOption (env.parseFloat t)).bind fun x => .ok (x, ts)

def tFloats (env : RadEnv K) : Nat → List (List UInt8) → Res (List K × List (List UInt8))
  | 0, ts => .ok ([], ts)
  | n + 1, ts => (tFloat env ts).bind fun (x, ts) => (tFloats env n ts).bind fun (xs, ts) => .ok (x :: xs, ts)

def radTypes : List String := ["plastic", "metal", "light", "mirror", "dielectric", "glass", "sphere", "source", "polygon"]

/-- How many numbers the token announces. -/
def arity (type : String) (count : List UInt8) : Option Nat :=
  if type = "polygon" then (parseUsize count).bind fun n => if n % 3 = 0 then some n else none
  else if type = "plastic" ∨ type = "metal" ∨ type = "dielectric" then if count = bytes "5" then some 5 else none
  else if type = "light" ∨ type = "mirror" then if count = bytes "3" then some 3 else none
  else if type = "glass" then if count = bytes "4" then some 4 else if count = bytes "3" then some 3 else none
  else if type = "sphere" ∨ type = "source" then if count = bytes "4" then some 4 else none
  else none

section
variable [Field K]

/-- The part of an object after its name. -/
def tBody (env : RadEnv K) (modifier : List UInt8) (type : String) (name : List UInt8) (ts : List (List UInt8)) : Res (RadItem K × List (List UInt8)) :=
  (tExpect "0" ts).bind fun ts => (tExpect "0" ts).bind fun ts => (tToken ts).bind fun (count, ts) =>
  (Res.ofOption (arity type count)).bind fun n => (tFloats env n ts).bind fun (numbers, ts) =>
  (Res.ofOption (radItem env modifier type name numbers)).bind fun item => .ok (item, ts)

/-- What an object does to the scene. -/
def tApply (env : SceneEnv K) (names : List (List UInt8)) (s : Scene K) : RadItem K → Res (List (List UInt8) × Scene K)
  | .material name m => .ok (names ++ [name], (s.pushMaterial m).1)
  | .object modifier parts => if modifier ∈ names then (pushParts env (names.idxOf modifier) parts s).bind fun s => .ok (names, s) else .panic

def tDispatch (env : RadEnv K) (names : List (List UInt8)) (s : Scene K) (modifier type name : List UInt8) (ts : List (List UInt8)) :
    Res (List (List UInt8) × List (List UInt8) × Scene K) :=
  match radTypes.find? (fun t => bytes t == type) with
  | none => .panic
  | some type => (tBody env modifier type name ts).bind fun (item, ts) => (tApply env.scene names s item).bind fun (names, s) => .ok (ts, names, s)

def tObject (env : RadEnv K) (names : List (List UInt8)) (s : Scene K) (ts : List (List UInt8)) : Res (List (List UInt8) × List (List UInt8) × Scene K) :=
  (tToken ts).bind fun (modifier, ts) => (tToken ts).bind fun (type, ts) => (tToken ts).bind fun (name, ts) => tDispatch env names s modifier type name ts

end

/-! ### Correspondence -/

theorem rel_token {src : List UInt8} {names : List (List UInt8)} {r : RadReader} {ts : List (List UInt8)} (h : At src names r ts) :
    Rel (fun a b => a.1 = b.1 ∧ At src names a.2 b.2 ∧ (a.2.done = true → b.2 = [])) (r.consumeToken src) (tToken ts) := by
  obtain ⟨i, hi, rfl, rfl⟩ := h
  rcases consumeToken_readerAt src names i hi with ⟨h1, h2⟩ | ⟨t, j, h1, h2, h3, h4, h5⟩
  · rw [h1, h2]
    exact ⟨rfl, ⟨src.length, le_rfl, rfl, by simp [tokensOf_nil]⟩, fun _ => rfl⟩
  · rw [h4, h5]
    by_cases hv : validUtf8 t = true
    · simp only [tToken, hv, if_true]
      refine ⟨rfl, ⟨j, h2, rfl, rfl⟩, fun hd => ?_⟩
      have : j = src.length := by simpa [readerAt] using hd
      simp [this, tokensOf_nil]
    · simp only [tToken, hv, Bool.false_eq_true, if_false]
      exact trivial

theorem rel_expect {src : List UInt8} {names : List (List UInt8)} {r : RadReader} {ts : List (List UInt8)} (e : String) (h : At src names r ts) :
    Rel (At src names) (r.expect src e) (tExpect e ts) := by
  refine (rel_token h).bind ?_
  rintro ⟨t, r⟩ ⟨t', ts⟩ ⟨h1, h2, -⟩
  simp only at h1 h2 ⊢
  subst h1
  split
  · exact h2
  · exact trivial

theorem rel_float {env : RadEnv K} {src : List UInt8} {names : List (List UInt8)} {r : RadReader} {ts : List (List UInt8)} (h : At src names r ts) :
    Rel (fun a b => a.1 = b.1 ∧ At src names a.2 b.2) (r.float env src) (tFloat env ts) := by
  refine (rel_token h).bind ?_
  rintro ⟨t, r⟩ ⟨t', ts⟩ ⟨h1, h2, -⟩
  simp only at h1 h2 ⊢
  subst h1
  cases env.parseFloat t with
  | none => exact trivial
  | some x => exact ⟨rfl, h2⟩

/-- Results of the same shape. -/
def SameOut (src : List UInt8) (a : RadReader × Scene K) (b : List (List UInt8) × List (List UInt8) × Scene K) : Prop :=
  At src b.2.1 a.1 b.1 ∧ a.2 = b.2.2

theorem Res.bind_assoc' {α β γ : Type} (x : Res α) (f : α → Res β) (g : β → Res γ) : (x.bind f).bind g = x.bind fun a => (f a).bind g := by
  cases x <;> rfl

theorem tFloats_succ {α : Type} (env : RadEnv K) (n : Nat) (ts : List (List UInt8)) (f : List K × List (List UInt8) → Res α) :
    (tFloats env (n + 1) ts).bind f = (tFloat env ts).bind fun p => (tFloats env n p.2).bind fun q => f (p.1 :: q.1, q.2) := by
  simp only [tFloats, Res.bind_assoc', Res.bind_ok]

theorem tFloats_zero {α : Type} (env : RadEnv K) (ts : List (List UInt8)) (f : List K × List (List UInt8) → Res α) :
    (tFloats env 0 ts).bind f = f ([], ts) := rfl

theorem At.define {src : List UInt8} {names : List (List UInt8)} {r : RadReader} {ts : List (List UInt8)} (h : At src names r ts) (name : List UInt8) :
    At src (names ++ [name]) { r with modifiers := r.modifiers ++ [name] } ts := by
  obtain ⟨i, hi, rfl, rfl⟩ := h
  exact ⟨i, hi, rfl, rfl⟩

theorem rel_define {src : List UInt8} {names : List (List UInt8)} {r : RadReader} {ts : List (List UInt8)} [Field K] (env : SceneEnv K) (s : Scene K) (name : List UInt8) (m : Material K) (h : At src names r ts) :
    Rel (SameOut src) (r.define s name m) ((tApply env names s (.material name m)).bind fun x => .ok (ts, x.1, x.2)) :=
  ⟨h.define name, rfl⟩

theorem findIdx_idxOf (names : List (List UInt8)) (m : List UInt8) :
    names.findIdx? (· == m) = if m ∈ names then some (names.idxOf m) else none := by
  induction names with
  | nil => simp
  | cons n names ih =>
    rw [List.findIdx?_cons, ih]
    by_cases h : n = m
    · subst h; simp
    · have hb : (n == m) = false := by simpa using h
      have hm : ¬ m = n := fun e => h e.symm
      by_cases hin : m ∈ names <;> simp [hb, hm, hin, List.idxOf_cons]

theorem pushObject_ne_diverge [Field K] (env : SceneEnv K) (s : Scene K) (f b : Nat) (p : Primitive K) : s.pushObject env f b p ≠ .diverge := by
  unfold Scene.pushObject
  cases s.materials[f]? <;> cases s.materials[b]? <;> cases p <;> simp
  all_goals split <;> simp

theorem pushParts_ne_diverge [Field K] (env : SceneEnv K) (i : Nat) (parts : List (Primitive K)) (s : Scene K) : pushParts env i parts s ≠ .diverge := by
  induction parts generalizing s with
  | nil => simp [pushParts]
  | cons p ps ih =>
    unfold pushParts
    cases h : s.pushObject env i i p with
    | ok s => exact ih s
    | panic => simp
    | diverge => exact absurd h (pushObject_ne_diverge env s i i p)

theorem pushParts_triangles [Field K] (env : SceneEnv K) (i : Nat) (ts : List (Tri K)) (s : Scene K) :
    RadReader.pushTriangles env i i ts s = pushParts env i (ts.map .triangle) s := by
  induction ts generalizing s with
  | nil => rfl
  | cons t ts ih =>
    unfold RadReader.pushTriangles pushParts
    simp only [List.map_cons, ih, pushParts]

theorem rel_object {src : List UInt8} {names : List (List UInt8)} {r : RadReader} {ts : List (List UInt8)} [Field K] (env : SceneEnv K) (s : Scene K) (modifier : List UInt8) (parts : List (Primitive K)) (h : At src names r ts) :
    Rel (SameOut src) ((r.modifierIndex modifier).bind fun i => (pushParts env i parts s).bind fun s => .ok (r, s))
      ((tApply env names s (.object modifier parts)).bind fun x => .ok (ts, x.1, x.2)) := by
  have hm : r.modifiers = names := by obtain ⟨i, hi, rfl, rfl⟩ := h; rfl
  unfold RadReader.modifierIndex tApply
  rw [hm, findIdx_idxOf]
  by_cases hin : modifier ∈ names
  · simp only [hin, if_true, Res.ofOption_some, Res.bind_ok]
    cases hp : pushParts env (names.idxOf modifier) parts s with
    | ok s => exact ⟨h, rfl⟩
    | panic => exact trivial
    | diverge => exact absurd hp (pushParts_ne_diverge _ _ _ _)
  · simp only [hin, if_false, Res.ofOption_none, Res.bind_panic]
    exact trivial

/-! ### Object types -/

/-- Unfolds the token side of an object. -/
theorem tBody_bind {α : Type} [Field K] (env : RadEnv K) (modifier : List UInt8) (type : String) (name : List UInt8) (ts : List (List UInt8)) (f : RadItem K × List (List UInt8) → Res α) :
    (tBody env modifier type name ts).bind f =
      (tExpect "0" ts).bind fun ts => (tExpect "0" ts).bind fun ts => (tToken ts).bind fun p =>
        (Res.ofOption (arity type p.1)).bind fun n => (tFloats env n p.2).bind fun q =>
        (Res.ofOption (radItem env modifier type name q.1)).bind fun item => f (item, q.2) := by
  simp only [tBody, Res.bind_assoc', Res.bind_ok]

/-- The token side once the type is known. -/
def tRest [Field K] (env : RadEnv K) (names : List (List UInt8)) (s : Scene K) (modifier : List UInt8) (type : String) (name : List UInt8) (ts : List (List UInt8)) :
    Res (List (List UInt8) × List (List UInt8) × Scene K) :=
  (tBody env modifier type name ts).bind fun x => (tApply env.scene names s x.1).bind fun y => .ok (x.2, y.1, y.2)

variable [Field K] {env : RadEnv K} {src : List UInt8} {names : List (List UInt8)} {r : RadReader} {ts : List (List UInt8)}

theorem rel_plastic (s : Scene K) (modifier name : List UInt8) (h : At src names r ts) :
    Rel (SameOut src) (r.plastic env src s name) (tRest env names s modifier "plastic" name ts) := by
  unfold RadReader.plastic tRest
  rw [tBody_bind]
  refine (rel_expect _ h).bind fun r ts h => ?_
  refine (rel_expect _ h).bind fun r ts h => ?_
  rw [RadReader.expect, Res.bind_assoc']
  refine (rel_token h).bind ?_
  rintro ⟨t, r⟩ ⟨t', ts⟩ ⟨h1, h, -⟩
  simp only at h1 h ⊢
  subst h1
  by_cases ht : t = bytes "5"
  · simp only [ht, if_true, Res.bind_ok, arity, Res.ofOption_some, String.reduceEq, if_false, true_or, tFloats_succ, tFloats_zero]
    refine rel_float h |>.bind ?_
    rintro ⟨a, r⟩ ⟨a', ts⟩ ⟨h1, h⟩; simp only at h1 h; subst h1
    refine rel_float h |>.bind ?_
    rintro ⟨b, r⟩ ⟨b', ts⟩ ⟨h1, h⟩; simp only at h1 h; subst h1
    refine rel_float h |>.bind ?_
    rintro ⟨c, r⟩ ⟨c', ts⟩ ⟨h1, h⟩; simp only at h1 h; subst h1
    refine rel_float h |>.bind ?_
    rintro ⟨d, r⟩ ⟨d', ts⟩ ⟨h1, h⟩; simp only at h1 h; subst h1
    refine rel_float h |>.bind ?_
    rintro ⟨e, r⟩ ⟨e', ts⟩ ⟨h1, h⟩; simp only at h1 h; subst h1
    exact rel_define env.scene s name _ h
  · simp only [ht, if_false, Res.bind_panic, arity, Res.ofOption_none, String.reduceEq, true_or, if_true]
    exact trivial

theorem rel_metal (s : Scene K) (modifier name : List UInt8) (h : At src names r ts) :
    Rel (SameOut src) (r.metal env src s name) (tRest env names s modifier "metal" name ts) := by
  unfold RadReader.metal tRest
  rw [tBody_bind]
  refine (rel_expect _ h).bind fun r ts h => ?_
  refine (rel_expect _ h).bind fun r ts h => ?_
  rw [RadReader.expect, Res.bind_assoc']
  refine (rel_token h).bind ?_
  rintro ⟨t, r⟩ ⟨t', ts⟩ ⟨h1, h, -⟩
  simp only at h1 h ⊢
  subst h1
  by_cases ht : t = bytes "5"
  · simp only [ht, if_true, Res.bind_ok, arity, Res.ofOption_some, String.reduceEq, if_false, true_or, or_true, or_self, tFloats_succ, tFloats_zero]
    refine rel_float h |>.bind ?_
    rintro ⟨a, r⟩ ⟨a', ts⟩ ⟨h1, h⟩; simp only at h1 h; subst h1
    refine rel_float h |>.bind ?_
    rintro ⟨b, r⟩ ⟨b', ts⟩ ⟨h1, h⟩; simp only at h1 h; subst h1
    refine rel_float h |>.bind ?_
    rintro ⟨c, r⟩ ⟨c', ts⟩ ⟨h1, h⟩; simp only at h1 h; subst h1
    refine rel_float h |>.bind ?_
    rintro ⟨d, r⟩ ⟨d', ts⟩ ⟨h1, h⟩; simp only at h1 h; subst h1
    refine rel_float h |>.bind ?_
    rintro ⟨e, r⟩ ⟨e', ts⟩ ⟨h1, h⟩; simp only at h1 h; subst h1
    exact rel_define env.scene s name _ h
  · simp only [ht, if_false, Res.bind_panic, arity, Res.ofOption_none, String.reduceEq, true_or, or_true, or_self, if_true]
    exact trivial

theorem rel_light (s : Scene K) (modifier name : List UInt8) (h : At src names r ts) :
    Rel (SameOut src) (r.light env src s name) (tRest env names s modifier "light" name ts) := by
  unfold RadReader.light tRest
  rw [tBody_bind]
  refine (rel_expect _ h).bind fun r ts h => ?_
  refine (rel_expect _ h).bind fun r ts h => ?_
  rw [RadReader.expect, Res.bind_assoc']
  refine (rel_token h).bind ?_
  rintro ⟨t, r⟩ ⟨t', ts⟩ ⟨h1, h, -⟩
  simp only at h1 h ⊢
  subst h1
  by_cases ht : t = bytes "3"
  · simp only [ht, if_true, Res.bind_ok, arity, Res.ofOption_some, String.reduceEq, if_false, true_or, or_true, or_self, tFloats_succ, tFloats_zero]
    refine rel_float h |>.bind ?_
    rintro ⟨a, r⟩ ⟨a', ts⟩ ⟨h1, h⟩; simp only at h1 h; subst h1
    refine rel_float h |>.bind ?_
    rintro ⟨b, r⟩ ⟨b', ts⟩ ⟨h1, h⟩; simp only at h1 h; subst h1
    refine rel_float h |>.bind ?_
    rintro ⟨c, r⟩ ⟨c', ts⟩ ⟨h1, h⟩; simp only at h1 h; subst h1
    exact rel_define env.scene s name _ h
  · simp only [ht, if_false, Res.bind_panic, arity, Res.ofOption_none, String.reduceEq, true_or, or_true, or_self, if_true]
    exact trivial

theorem rel_mirror (s : Scene K) (modifier name : List UInt8) (h : At src names r ts) :
    Rel (SameOut src) (r.mirror env src s name) (tRest env names s modifier "mirror" name ts) := by
  unfold RadReader.mirror tRest
  rw [tBody_bind]
  refine (rel_expect _ h).bind fun r ts h => ?_
  refine (rel_expect _ h).bind fun r ts h => ?_
  rw [RadReader.expect, Res.bind_assoc']
  refine (rel_token h).bind ?_
  rintro ⟨t, r⟩ ⟨t', ts⟩ ⟨h1, h, -⟩
  simp only at h1 h ⊢
  subst h1
  by_cases ht : t = bytes "3"
  · simp only [ht, if_true, Res.bind_ok, arity, Res.ofOption_some, String.reduceEq, if_false, true_or, or_true, or_self, tFloats_succ, tFloats_zero]
    refine rel_float h |>.bind ?_
    rintro ⟨a, r⟩ ⟨a', ts⟩ ⟨h1, h⟩; simp only at h1 h; subst h1
    refine rel_float h |>.bind ?_
    rintro ⟨b, r⟩ ⟨b', ts⟩ ⟨h1, h⟩; simp only at h1 h; subst h1
    refine rel_float h |>.bind ?_
    rintro ⟨c, r⟩ ⟨c', ts⟩ ⟨h1, h⟩; simp only at h1 h; subst h1
    exact rel_define env.scene s name _ h
  · simp only [ht, if_false, Res.bind_panic, arity, Res.ofOption_none, String.reduceEq, true_or, or_true, or_self, if_true]
    exact trivial

theorem rel_dielectric (s : Scene K) (modifier name : List UInt8) (h : At src names r ts) :
    Rel (SameOut src) (r.dielectric env src s name) (tRest env names s modifier "dielectric" name ts) := by
  unfold RadReader.dielectric tRest
  rw [tBody_bind]
  refine (rel_expect _ h).bind fun r ts h => ?_
  refine (rel_expect _ h).bind fun r ts h => ?_
  rw [RadReader.expect, Res.bind_assoc']
  refine (rel_token h).bind ?_
  rintro ⟨t, r⟩ ⟨t', ts⟩ ⟨h1, h, -⟩
  simp only at h1 h ⊢
  subst h1
  by_cases ht : t = bytes "5"
  · simp only [ht, if_true, Res.bind_ok, arity, Res.ofOption_some, String.reduceEq, if_false, true_or, or_true, or_self, tFloats_succ, tFloats_zero]
    refine rel_float h |>.bind ?_
    rintro ⟨a, r⟩ ⟨a', ts⟩ ⟨h1, h⟩; simp only at h1 h; subst h1
    refine rel_float h |>.bind ?_
    rintro ⟨b, r⟩ ⟨b', ts⟩ ⟨h1, h⟩; simp only at h1 h; subst h1
    refine rel_float h |>.bind ?_
    rintro ⟨c, r⟩ ⟨c', ts⟩ ⟨h1, h⟩; simp only at h1 h; subst h1
    refine rel_float h |>.bind ?_
    rintro ⟨d, r⟩ ⟨d', ts⟩ ⟨h1, h⟩; simp only at h1 h; subst h1
    refine rel_float h |>.bind ?_
    rintro ⟨e, r⟩ ⟨e', ts⟩ ⟨h1, h⟩; simp only at h1 h; subst h1
    exact rel_define env.scene s name _ h
  · simp only [ht, if_false, Res.bind_panic, arity, Res.ofOption_none, String.reduceEq, true_or, or_true, or_self, if_true]
    exact trivial

theorem rel_sphere (s : Scene K) (modifier name : List UInt8) (h : At src names r ts) :
    Rel (SameOut src) (r.sphere env src s modifier) (tRest env names s modifier "sphere" name ts) := by
  unfold RadReader.sphere tRest
  rw [tBody_bind]
  refine (rel_expect _ h).bind fun r ts h => ?_
  refine (rel_expect _ h).bind fun r ts h => ?_
  rw [RadReader.expect, Res.bind_assoc']
  refine (rel_token h).bind ?_
  rintro ⟨t, r⟩ ⟨t', ts⟩ ⟨h1, h, -⟩
  simp only at h1 h ⊢
  subst h1
  by_cases ht : t = bytes "4"
  · simp only [ht, if_true, Res.bind_ok, arity, Res.ofOption_some, String.reduceEq, if_false, true_or, or_true, or_self, tFloats_succ, tFloats_zero]
    refine rel_float h |>.bind ?_
    rintro ⟨a, r⟩ ⟨a', ts⟩ ⟨h1, h⟩; simp only at h1 h; subst h1
    refine rel_float h |>.bind ?_
    rintro ⟨b, r⟩ ⟨b', ts⟩ ⟨h1, h⟩; simp only at h1 h; subst h1
    refine rel_float h |>.bind ?_
    rintro ⟨c, r⟩ ⟨c', ts⟩ ⟨h1, h⟩; simp only at h1 h; subst h1
    refine rel_float h |>.bind ?_
    rintro ⟨d, r⟩ ⟨d', ts⟩ ⟨h1, h⟩; simp only at h1 h; subst h1
    have := rel_object env.scene s modifier [.sphere ⟨a, b, c⟩ d] h
    simpa only [pushParts, Res.bind_assoc', Res.bind_ok, radItem, Res.ofOption_some] using this
  · simp only [ht, if_false, Res.bind_panic, arity, Res.ofOption_none, String.reduceEq, true_or, or_true, or_self, if_true]
    exact trivial

theorem rel_source (s : Scene K) (modifier name : List UInt8) (h : At src names r ts) :
    Rel (SameOut src) (r.source env src s modifier) (tRest env names s modifier "source" name ts) := by
  unfold RadReader.source tRest
  rw [tBody_bind]
  refine (rel_expect _ h).bind fun r ts h => ?_
  refine (rel_expect _ h).bind fun r ts h => ?_
  rw [RadReader.expect, Res.bind_assoc']
  refine (rel_token h).bind ?_
  rintro ⟨t, r⟩ ⟨t', ts⟩ ⟨h1, h, -⟩
  simp only at h1 h ⊢
  subst h1
  by_cases ht : t = bytes "4"
  · simp only [ht, if_true, Res.bind_ok, arity, Res.ofOption_some, String.reduceEq, if_false, true_or, or_true, or_self, tFloats_succ, tFloats_zero]
    refine rel_float h |>.bind ?_
    rintro ⟨a, r⟩ ⟨a', ts⟩ ⟨h1, h⟩; simp only at h1 h; subst h1
    refine rel_float h |>.bind ?_
    rintro ⟨b, r⟩ ⟨b', ts⟩ ⟨h1, h⟩; simp only at h1 h; subst h1
    refine rel_float h |>.bind ?_
    rintro ⟨c, r⟩ ⟨c', ts⟩ ⟨h1, h⟩; simp only at h1 h; subst h1
    refine rel_float h |>.bind ?_
    rintro ⟨d, r⟩ ⟨d', ts⟩ ⟨h1, h⟩; simp only at h1 h; subst h1
    have := rel_object env.scene s modifier [.source ⟨a, b, c⟩ (env.toRadians d)] h
    simpa only [pushParts, Res.bind_assoc', Res.bind_ok, radItem, Res.ofOption_some] using this
  · simp only [ht, if_false, Res.bind_panic, arity, Res.ofOption_none, String.reduceEq, true_or, or_true, or_self, if_true]
    exact trivial

theorem rel_glass (s : Scene K) (modifier name : List UInt8) (h : At src names r ts) :
    Rel (SameOut src) (r.glass env src s name) (tRest env names s modifier "glass" name ts) := by
  unfold RadReader.glass tRest
  rw [tBody_bind]
  refine (rel_expect _ h).bind fun r ts h => ?_
  refine (rel_expect _ h).bind fun r ts h => ?_
  refine (rel_token h).bind ?_
  rintro ⟨t, r⟩ ⟨t', ts⟩ ⟨h1, h, -⟩
  simp only at h1 h ⊢
  subst h1
  by_cases ht : t = bytes "4"
  · simp only [ht, if_true, Res.bind_ok, arity, Res.ofOption_some, String.reduceEq, if_false, or_self, tFloats_succ, tFloats_zero]
    refine rel_float h |>.bind ?_
    rintro ⟨a, r⟩ ⟨a', ts⟩ ⟨h1, h⟩; simp only at h1 h; subst h1
    refine rel_float h |>.bind ?_
    rintro ⟨b, r⟩ ⟨b', ts⟩ ⟨h1, h⟩; simp only at h1 h; subst h1
    refine rel_float h |>.bind ?_
    rintro ⟨c, r⟩ ⟨c', ts⟩ ⟨h1, h⟩; simp only at h1 h; subst h1
    refine rel_float h |>.bind ?_
    rintro ⟨d, r⟩ ⟨d', ts⟩ ⟨h1, h⟩; simp only at h1 h; subst h1
    exact rel_define env.scene s name _ h
  by_cases ht' : t = bytes "3"
  · have h34 : bytes "3" ≠ bytes "4" := by decide
    simp only [ht', h34, if_true, Res.bind_ok, arity, Res.ofOption_some, String.reduceEq, if_false, or_self, tFloats_succ, tFloats_zero]
    refine rel_float h |>.bind ?_
    rintro ⟨a, r⟩ ⟨a', ts⟩ ⟨h1, h⟩; simp only at h1 h; subst h1
    refine rel_float h |>.bind ?_
    rintro ⟨b, r⟩ ⟨b', ts⟩ ⟨h1, h⟩; simp only at h1 h; subst h1
    refine rel_float h |>.bind ?_
    rintro ⟨c, r⟩ ⟨c', ts⟩ ⟨h1, h⟩; simp only at h1 h; subst h1
    exact rel_define env.scene s name _ h
  · simp only [ht, ht', if_false, Res.bind_panic, arity, Res.ofOption_none, String.reduceEq, or_self, if_true]
    exact trivial

/-- The numbers of a polygon are its vertices. -/
theorem rel_vertices (k : Nat) (acc : List (Vec3 K)) (h : At src names r ts) :
    Rel (fun a b => (∃ vs, pointsOf b.1 = some vs ∧ a.1 = acc ++ vs) ∧ At src names a.2 b.2) (RadReader.vertices env src k acc r) (tFloats env (3 * k) ts) := by
  induction k generalizing acc r ts with
  | zero => exact ⟨⟨[], rfl, by simp⟩, h⟩
  | succ k ih =>
    have e : tFloats env (3 * (k + 1)) ts = (tFloats env (3 * k + 3) ts).bind .ok := by
      rw [show 3 * (k + 1) = 3 * k + 3 by ring]
      cases tFloats env (3 * k + 3) ts <;> rfl
    rw [e, RadReader.vertices]
    simp only [tFloats_succ]
    refine rel_float h |>.bind ?_
    rintro ⟨a, r⟩ ⟨a', ts⟩ ⟨h1, h⟩; simp only at h1 h; subst h1
    refine rel_float h |>.bind ?_
    rintro ⟨b, r⟩ ⟨b', ts⟩ ⟨h1, h⟩; simp only at h1 h; subst h1
    refine rel_float h |>.bind ?_
    rintro ⟨c, r⟩ ⟨c', ts⟩ ⟨h1, h⟩; simp only at h1 h; subst h1
    have hb : RadReader.vertices env src k (acc ++ [⟨a, b, c⟩]) r = (RadReader.vertices env src k (acc ++ [⟨a, b, c⟩]) r).bind .ok := by
      cases RadReader.vertices env src k (acc ++ [⟨a, b, c⟩]) r <;> rfl
    simp only
    rw [hb]
    refine (ih (acc ++ [⟨a, b, c⟩]) h).bind ?_
    rintro ⟨vs, r⟩ ⟨xs, ts⟩ ⟨⟨us, h1, h2⟩, h⟩
    exact ⟨⟨⟨a, b, c⟩ :: us, by simp only at h1; simp [pointsOf, h1], by simp only at h2; simp [h2]⟩, h⟩

theorem rel_polygon (s : Scene K) (modifier name : List UInt8) (h : At src names r ts) :
    Rel (SameOut src) (r.polygon env src s modifier) (tRest env names s modifier "polygon" name ts) := by
  unfold RadReader.polygon tRest
  rw [tBody_bind]
  refine (rel_expect _ h).bind fun r ts h => ?_
  refine (rel_expect _ h).bind fun r ts h => ?_
  refine (rel_token h).bind ?_
  rintro ⟨t, r⟩ ⟨t', ts⟩ ⟨h1, h, -⟩
  simp only at h1 h ⊢
  subst h1
  simp only [arity, if_true]
  cases hp : parseUsize t with
  | none => exact trivial
  | some n =>
    simp only [Res.ofOption_some, Res.bind_ok, Option.bind_some]
    by_cases hn : n % 3 = 0
    · simp only [hn, ne_eq, not_true, if_false, if_true, Res.ofOption_some, Res.bind_ok]
      have e : n = 3 * (n / 3) := by omega
      conv => rhs; rw [e]
      refine (rel_vertices (n / 3) [] h).bind ?_
      rintro ⟨vs, r⟩ ⟨xs, ts⟩ ⟨⟨us, h1, h2⟩, h⟩
      simp only [List.nil_append] at h1 h2 h ⊢
      subst h2
      simp only [radItem, h1, Option.bind_some]
      cases ht : env.triangulate vs with
      | none =>
        simp only [Option.map_none, Res.ofOption_none, Res.bind_panic]
        unfold RadReader.modifierIndex
        cases r.modifiers.findIdx? (· == modifier) <;> exact trivial
      | some tris =>
        simp only [Option.map_some, Res.ofOption_some, Res.bind_ok, pushParts_triangles]
        exact rel_object env.scene s modifier _ h
    · simp only [hn, ne_eq, not_false_iff, if_true, if_false]
      exact trivial

theorem tExpect_nil (ts : List (List UInt8)) (h : ts = []) : tExpect "0" ts = .panic := by
  subst h
  have : ([] : List UInt8) ≠ bytes "0" := by decide
  simp [tExpect, tToken, this]

theorem tDispatch_nil (s : Scene K) (modifier type name : List UInt8) : tDispatch env names s modifier type name [] = .panic := by
  unfold tDispatch
  split
  · rfl
  · rw [tBody_bind, tExpect_nil [] rfl]; rfl

theorem rel_dispatch (s : Scene K) (modifier type name : List UInt8) (h : At src names r ts) :
    Rel (SameOut src) (r.dispatch env src s modifier type name) (tDispatch env names s modifier type name ts) := by
  unfold RadReader.dispatch
  by_cases h1 : type = bytes "plastic"
  · rw [if_pos h1]
    have : tDispatch env names s modifier type name ts = tRest env names s modifier "plastic" name ts := by rw [h1]; rfl
    rw [this]; exact rel_plastic s modifier name h
  rw [if_neg h1]
  by_cases h2 : type = bytes "metal"
  · rw [if_pos h2]
    have : tDispatch env names s modifier type name ts = tRest env names s modifier "metal" name ts := by rw [h2]; rfl
    rw [this]; exact rel_metal s modifier name h
  rw [if_neg h2]
  by_cases h3 : type = bytes "light"
  · rw [if_pos h3]
    have : tDispatch env names s modifier type name ts = tRest env names s modifier "light" name ts := by rw [h3]; rfl
    rw [this]; exact rel_light s modifier name h
  rw [if_neg h3]
  by_cases h4 : type = bytes "mirror"
  · rw [if_pos h4]
    have : tDispatch env names s modifier type name ts = tRest env names s modifier "mirror" name ts := by rw [h4]; rfl
    rw [this]; exact rel_mirror s modifier name h
  rw [if_neg h4]
  by_cases h5 : type = bytes "dielectric"
  · rw [if_pos h5]
    have : tDispatch env names s modifier type name ts = tRest env names s modifier "dielectric" name ts := by rw [h5]; rfl
    rw [this]; exact rel_dielectric s modifier name h
  rw [if_neg h5]
  by_cases h6 : type = bytes "glass"
  · rw [if_pos h6]
    have : tDispatch env names s modifier type name ts = tRest env names s modifier "glass" name ts := by rw [h6]; rfl
    rw [this]; exact rel_glass s modifier name h
  rw [if_neg h6]
  by_cases h7 : type = bytes "sphere"
  · rw [if_pos h7]
    have : tDispatch env names s modifier type name ts = tRest env names s modifier "sphere" name ts := by rw [h7]; rfl
    rw [this]; exact rel_sphere s modifier name h
  rw [if_neg h7]
  by_cases h8 : type = bytes "source"
  · rw [if_pos h8]
    have : tDispatch env names s modifier type name ts = tRest env names s modifier "source" name ts := by rw [h8]; rfl
    rw [this]; exact rel_source s modifier name h
  rw [if_neg h8]
  by_cases h9 : type = bytes "polygon"
  · rw [if_pos h9]
    have : tDispatch env names s modifier type name ts = tRest env names s modifier "polygon" name ts := by rw [h9]; rfl
    rw [this]; exact rel_polygon s modifier name h
  rw [if_neg h9]
  have : radTypes.find? (fun t => bytes t == type) = none := by
    rw [List.find?_eq_none]
    intro t ht
    simp only [radTypes, List.mem_cons, List.not_mem_nil, or_false] at ht
    simp only [beq_iff_eq]
    rcases ht with rfl | rfl | rfl | rfl | rfl | rfl | rfl | rfl | rfl <;> exact fun e => by simp_all
  unfold tDispatch
  rw [this]
  exact trivial

theorem reach_at (h : At src names r ts) :
    ∃ r', r.reachNextToken src = .ok r' ∧ At src names r' ts ∧ (r'.done = true ↔ ts = []) := by
  obtain ⟨i, hi, rfl, rfl⟩ := h
  obtain ⟨j, hij, hj, hdrop, hreach⟩ := reachNextToken_readerAt src names i hi
  refine ⟨_, hreach, ⟨j, hj, rfl, by rw [hdrop, tokensOf_dropWhile]⟩, ?_⟩
  rw [← tokensOf_dropWhile, ← hdrop]
  have hdone : (readerAt src names j).done = true ↔ j = src.length := by simp [readerAt]
  rw [hdone]
  constructor
  · rintro rfl; simp [tokensOf_nil]
  · intro ht
    cases hd : src.drop j with
    | nil => exact le_antisymm hj (by simpa using hd)
    | cons b l =>
      exfalso
      have hb : isAsciiWhitespace b = false := by
        have := List.head?_dropWhile_not isAsciiWhitespace (src.drop i)
        rw [← hdrop, hd] at this
        simpa using this
      rw [hd, tokensOf_token (by simp [hb])] at ht
      cases ht

theorem rel_consumeObject (s : Scene K) (h : At src names r ts) :
    Rel (SameOut src) (r.consumeObject env src s) (if ts = [] then .ok (ts, names, s) else tObject env names s ts) := by
  obtain ⟨r1, h1, h2, h3⟩ := reach_at h
  unfold RadReader.consumeObject
  rw [h1, Res.bind_ok]
  by_cases hts : ts = []
  · rw [if_pos (h3.mpr hts), if_pos hts]
    exact ⟨h2, rfl⟩
  rw [if_neg (fun hd => hts (h3.mp hd)), if_neg hts]
  unfold tObject
  refine (rel_token h2).bind ?_
  rintro ⟨m, r2⟩ ⟨m', ts2⟩ ⟨e1, h2, d2⟩
  simp only at e1 h2 d2 ⊢
  subst e1
  by_cases hd : r2.done = true
  · rw [if_pos hd, d2 hd]
    simp only [tToken, Res.bind_ok, tDispatch_nil]
    exact trivial
  rw [if_neg hd]
  refine (rel_token h2).bind ?_
  rintro ⟨t, r3⟩ ⟨t', ts3⟩ ⟨e1, h3, d3⟩
  simp only at e1 h3 d3 ⊢
  subst e1
  by_cases hd : r3.done = true
  · rw [if_pos hd, d3 hd]
    simp only [tToken, Res.bind_ok, tDispatch_nil]
    exact trivial
  rw [if_neg hd]
  refine (rel_token h3).bind ?_
  rintro ⟨n, r4⟩ ⟨n', ts4⟩ ⟨e1, h4, d4⟩
  simp only at e1 h4 d4 ⊢
  subst e1
  by_cases hd : r4.done = true
  · rw [if_pos hd, d4 hd, tDispatch_nil]
    exact trivial
  rw [if_neg hd]
  exact rel_dispatch s m t n h4

end Rendering
