import Verif.Lemmas.Fresh
import Verif.Lemmas.World
import Verif.Spec.Measures

/-!
# Casting a ray depends measurably on the ray
-/

set_option linter.unusedSectionVars false
namespace Rendering

open MeasureTheory Set

variable {X : Type} [MeasurableSpace X]

instance : MeasurableSpace (Vec3 ℝ) := MeasurableSpace.comap (fun v => (v.x, v.y, v.z)) inferInstance

instance : MeasurableSpace (Ray3 ℝ) := MeasurableSpace.comap (fun r => (r.origin, r.direction)) inferInstance

theorem Vec3.measurable_coords : Measurable fun v : Vec3 ℝ => (v.x, v.y, v.z) := comap_measurable _

@[fun_prop] theorem Vec3.measurable_x : Measurable (Vec3.x : Vec3 ℝ → ℝ) := measurable_fst.comp Vec3.measurable_coords

@[fun_prop] theorem Vec3.measurable_y : Measurable (Vec3.y : Vec3 ℝ → ℝ) := (measurable_fst.comp measurable_snd).comp Vec3.measurable_coords

@[fun_prop] theorem Vec3.measurable_z : Measurable (Vec3.z : Vec3 ℝ → ℝ) := (measurable_snd.comp measurable_snd).comp Vec3.measurable_coords

theorem Vec3.measurable_of {f : X → Vec3 ℝ} (hx : Measurable fun a => (f a).x) (hy : Measurable fun a => (f a).y) (hz : Measurable fun a => (f a).z) : Measurable f :=
  measurable_comap_iff.2 (hx.prodMk (hy.prodMk hz))

@[fun_prop] theorem Vec3.measurable_mk {f g h : X → ℝ} (hf : Measurable f) (hg : Measurable g) (hh : Measurable h) : Measurable fun a => (⟨f a, g a, h a⟩ : Vec3 ℝ) := Vec3.measurable_of hf hg hh

theorem Ray3.measurable_pair : Measurable fun r : Ray3 ℝ => (r.origin, r.direction) := comap_measurable _

@[fun_prop] theorem Ray3.measurable_origin : Measurable (Ray3.origin : Ray3 ℝ → Vec3 ℝ) := measurable_fst.comp Ray3.measurable_pair

@[fun_prop] theorem Ray3.measurable_direction : Measurable (Ray3.direction : Ray3 ℝ → Vec3 ℝ) := measurable_snd.comp Ray3.measurable_pair

@[fun_prop] theorem Ray3.measurable_mk {f g : X → Vec3 ℝ} (hf : Measurable f) (hg : Measurable g) : Measurable fun a => (⟨f a, g a⟩ : Ray3 ℝ) := measurable_comap_iff.2 (hf.prodMk hg)

variable {f g : X → Vec3 ℝ} {k : X → ℝ}

@[fun_prop] theorem measurable_vadd (hf : Measurable f) (hg : Measurable g) : Measurable fun a => f a + g a := by
  refine Vec3.measurable_of ?_ ?_ ?_ <;> simp only [Vec3.add_x, Vec3.add_y, Vec3.add_z] <;> fun_prop

@[fun_prop] theorem measurable_vsub (hf : Measurable f) (hg : Measurable g) : Measurable fun a => f a - g a := by
  refine Vec3.measurable_of ?_ ?_ ?_ <;> simp only [Vec3.sub_x, Vec3.sub_y, Vec3.sub_z] <;> fun_prop

@[fun_prop] theorem measurable_vscale (hf : Measurable f) (hk : Measurable k) : Measurable fun a => (f a).scale (k a) := by
  refine Vec3.measurable_of ?_ ?_ ?_ <;> simp only [Vec3.scale_x, Vec3.scale_y, Vec3.scale_z] <;> fun_prop

@[fun_prop] theorem measurable_vdot (hf : Measurable f) (hg : Measurable g) : Measurable fun a => (f a).dot (g a) := by
  unfold Vec3.dot; fun_prop

@[fun_prop] theorem measurable_Dot (hf : Measurable f) (hg : Measurable g) : Measurable fun a => Dot (f a) (g a) := by
  unfold Dot; fun_prop

@[fun_prop] theorem measurable_vcross (hf : Measurable f) (hg : Measurable g) : Measurable fun a => (f a).cross (g a) := by
  unfold Vec3.cross; fun_prop

@[fun_prop] theorem measurable_lengthSq (hf : Measurable f) : Measurable fun a => (f a).lengthSq := by
  unfold Vec3.lengthSq; fun_prop

@[fun_prop] theorem measurable_normalized (hf : Measurable f) : Measurable fun a => (f a).normalized := by
  unfold Vec3.normalized Vec3.length; fun_prop

@[fun_prop] theorem measurable_project {r : X → Ray3 ℝ} (hr : Measurable r) (hk : Measurable k) : Measurable fun a => (r a).project (k a) := by
  unfold Ray3.project; fun_prop

theorem measurableFn3_iff {L : Vec3 ℝ → ENNReal} : MeasurableFn3 L ↔ Measurable L := by
  constructor
  · intro h
    exact Measurable.comp (g := fun p : ℝ × ℝ × ℝ => L ⟨p.1, p.2.1, p.2.2⟩) h Vec3.measurable_coords
  · intro h
    refine h.comp ?_
    fun_prop

theorem measurable3_iff {S : Set (Vec3 ℝ)} : Measurable3 S ↔ MeasurableSet S := by
  constructor
  · intro h
    exact Vec3.measurable_coords h
  · intro h
    have : Measurable fun p : ℝ × ℝ × ℝ => (⟨p.1, p.2.1, p.2.2⟩ : Vec3 ℝ) := by fun_prop
    exact this h

/-! ### One triangle -/

/-- The point where the line of the ray meets the plane of the triangle. -/
noncomputable def planePoint (tri : Tri ℝ) (ray : Ray3 ℝ) : Vec3 ℝ :=
  ray.project (1 / (tri.b - tri.a).dot (ray.direction.cross (tri.c - tri.a)) * (tri.c - tri.a).dot ((ray.origin - tri.a).cross (tri.b - tri.a)))

theorem measurable_planePoint (tri : Tri ℝ) {r : X → Ray3 ℝ} (hr : Measurable r) : Measurable fun a => planePoint tri (r a) := by
  unfold planePoint; fun_prop

/-- The ray meets the triangle. -/
def meets (tri : Tri ℝ) (ray : Ray3 ℝ) : Prop := ∃ b, triangleIntersect tri ray = some b

theorem meets_iff (tri : Tri ℝ) (ray : Ray3 ℝ) : meets tri ray ↔
    ¬ |(tri.b - tri.a).dot (ray.direction.cross (tri.c - tri.a))| < tiny ℝ ∧
    (-floatEps ℝ ≤ 1 / (tri.b - tri.a).dot (ray.direction.cross (tri.c - tri.a)) * (ray.origin - tri.a).dot (ray.direction.cross (tri.c - tri.a)) ∧
      1 / (tri.b - tri.a).dot (ray.direction.cross (tri.c - tri.a)) * (ray.origin - tri.a).dot (ray.direction.cross (tri.c - tri.a)) ≤ 1 + floatEps ℝ) ∧
    ¬ (1 / (tri.b - tri.a).dot (ray.direction.cross (tri.c - tri.a)) * (ray.origin - tri.a).dot (ray.direction.cross (tri.c - tri.a)) +
        1 / (tri.b - tri.a).dot (ray.direction.cross (tri.c - tri.a)) * ray.direction.dot ((ray.origin - tri.a).cross (tri.b - tri.a)) > 1 + floatEps ℝ ∨
      1 / (tri.b - tri.a).dot (ray.direction.cross (tri.c - tri.a)) * ray.direction.dot ((ray.origin - tri.a).cross (tri.b - tri.a)) < -floatEps ℝ) ∧
    1 / (tri.b - tri.a).dot (ray.direction.cross (tri.c - tri.a)) * (tri.c - tri.a).dot ((ray.origin - tri.a).cross (tri.b - tri.a)) > tiny ℝ := by
  unfold meets triangleIntersect baricentricCoordinates
  simp only
  split_ifs with h1 h2 h3 h4 <;> simp_all

theorem measurable_meets (tri : Tri ℝ) {r : X → Ray3 ℝ} (hr : Measurable r) : MeasurableSet {a | meets tri (r a)} := by
  simp only [meets_iff, gt_iff_lt, setOf_and]
  have lt : ∀ {u v : X → ℝ}, Measurable u → Measurable v → MeasurableSet {a | u a < v a} := fun hu hv => measurableSet_lt hu hv
  have le : ∀ {u v : X → ℝ}, Measurable u → Measurable v → MeasurableSet {a | u a ≤ v a} := fun hu hv => measurableSet_le hu hv
  refine MeasurableSet.inter (MeasurableSet.compl (lt (by fun_prop) (by fun_prop))) (MeasurableSet.inter (MeasurableSet.inter (le (by fun_prop) (by fun_prop)) (le (by fun_prop) (by fun_prop)))
    (MeasurableSet.inter (MeasurableSet.compl (MeasurableSet.union (lt (by fun_prop) (by fun_prop)) (lt (by fun_prop) (by fun_prop)))) (lt (by fun_prop) (by fun_prop))))

theorem intersect_point {tri : Tri ℝ} {ray : Ray3 ℝ} {b : Bary ℝ} (h : triangleIntersect tri ray = some b) : b.p = planePoint tri ray := by
  unfold triangleIntersect baricentricCoordinates at h
  simp only at h
  split_ifs at h
  obtain rfl := Option.some.inj h
  rfl

/-! ### The traversal -/

/-- The state of the search for the nearest hit, when the triangle `d` is the nearest so far. -/
noncomputable def stateOf (tris : List (Tri ℝ)) (ray : Ray3 ℝ) : Option Nat → HitState ℝ
  | none => ⟨none, floatMax ℝ⟩
  | some i =>
    match tris[i]? with
    | none => ⟨none, floatMax ℝ⟩
    | some tri =>
      match triangleIntersect tri ray with
      | none => ⟨none, floatMax ℝ⟩
      | some b => ⟨some (i, b), (b.p - ray.origin).lengthSq⟩

open Classical in
theorem measurable_tSquared (tris : List (Tri ℝ)) (d : Option Nat) : Measurable fun ray => (stateOf tris ray d).tSquared := by
  cases d with
  | none => exact measurable_const
  | some i =>
    cases htri : tris[i]? with
    | none => simp only [stateOf, htri]; exact measurable_const
    | some tri =>
      have e : (fun ray => (stateOf tris ray (some i)).tSquared) = fun ray => if meets tri ray then (planePoint tri ray - ray.origin).lengthSq else floatMax ℝ := by
        funext ray
        simp only [stateOf, htri]
        cases h : triangleIntersect tri ray with
        | none =>
          rw [if_neg (by rintro ⟨b, hb⟩; rw [h] at hb; cases hb)]
        | some b =>
          rw [if_pos ⟨b, h⟩, ← intersect_point h]
      rw [e]
      refine Measurable.ite (measurable_meets tri measurable_id) ?_ measurable_const
      have := measurable_planePoint tri (X := Ray3 ℝ) measurable_id
      exact measurable_lengthSq (measurable_vsub this Ray3.measurable_origin)

/-- A state that depends on the ray through a measurable choice of triangle. -/
def Rep (tris : List (Tri ℝ)) (σ : Ray3 ℝ → HitState ℝ) : Prop := ∃ e : Ray3 ℝ → Option Nat, Disc e ∧ ∀ ray, σ ray = stateOf tris ray (e ray)

open Classical in
theorem rep_leaf (prims : List (Tri ℝ)) (tris : List (Tri ℝ)) : ∀ (i : Nat), (∀ (j : Nat) tri, tris[j]? = some tri → prims[i + j]? = some tri) → ∀ σ, Rep prims σ → Rep prims fun ray => intersectLeaf ray tris i (σ ray) := by
  induction tris with
  | nil => intro i _ σ h; exact h
  | cons tri rest ih =>
    intro i hi σ ⟨e, he, hσ⟩
    have hti : prims[i]? = some tri := hi 0 tri rfl
    refine ih (i + 1) (fun j t hj => by rw [add_assoc, add_comm 1 j]; exact hi (j + 1) t hj) _ ?_
    refine ⟨fun ray => if meets tri ray ∧ (planePoint tri ray - ray.origin).lengthSq > 1 / 10 ^ 7 ∧ (planePoint tri ray - ray.origin).lengthSq < (stateOf prims ray (e ray)).tSquared then some i else e ray, ?_, ?_⟩
    · refine Disc.ite ?_ (Disc.const _) he
      have hp : Measurable fun ray : Ray3 ℝ => (planePoint tri ray - ray.origin).lengthSq := measurable_lengthSq (measurable_vsub (measurable_planePoint tri measurable_id) Ray3.measurable_origin)
      refine (measurable_meets tri measurable_id).inter ((measurableSet_lt measurable_const hp).inter ?_)
      exact he.setOf (p := fun d ray => (planePoint tri ray - ray.origin).lengthSq < (stateOf prims ray d).tSquared) fun d => measurableSet_lt hp (measurable_tSquared prims d)
    · intro ray
      simp only [hσ ray]
      cases h : triangleIntersect tri ray with
      | none =>
        have : ¬ meets tri ray := by rintro ⟨b, hb⟩; rw [h] at hb; cases hb
        simp only [this, false_and, if_false]
      | some b =>
        have hm : meets tri ray := ⟨b, h⟩
        simp only [hm, true_and, intersect_point h]
        split_ifs with hc
        · simp only [stateOf, hti, h, intersect_point h]
        · rfl

/-- The result of a traversal, from a choice. -/
noncomputable def resultOf (tris : List (Tri ℝ)) (ray : Ray3 ℝ) : Res (Option Nat) → Res (HitState ℝ ⊕ Empty)
  | .ok d => .ok (.inl (stateOf tris ray d))
  | .panic => .panic
  | .diverge => .diverge

theorem slice_spec {α : Type} {l : List α} {ini fin : Nat} {t : List α} (h : slice? l ini fin = some t) : ∀ (j : Nat) a, t[j]? = some a → l[ini + j]? = some a := by
  unfold slice? at h
  split_ifs at h
  obtain rfl := Option.some.inj h
  intro j a hj
  rw [List.getElem?_drop, List.getElem?_take] at hj
  split_ifs at hj
  exact hj

theorem measurable_neg (a : Axis) : MeasurableSet {ray : Ray3 ℝ | dirIsNeg ray a = true} := by
  unfold dirIsNeg
  simp only [decide_eq_true_eq]
  refine measurableSet_lt ?_ measurable_const
  cases a <;> simp only [Vec3.get] <;> fun_prop

open Classical in
theorem rep_traverse (nodes : List (FlatNode ℝ)) (prims : List (Tri ℝ)) (hit : BBox ℝ → Ray3 ℝ → Bool) (hhit : ∀ b, MeasurableSet {ray | hit b ray = true}) (fuel : Nat) :
    ∀ (cur : Nat) (stack : List Nat) (σ : Ray3 ℝ → HitState ℝ), Rep prims σ →
      ∃ e : Ray3 ℝ → Res (Option Nat), Disc e ∧ ∀ ray, traverseLoop nodes (fun b => hit b ray) (dirIsNeg ray) (intersectAct prims ray) fuel cur stack (σ ray) = resultOf prims ray (e ray) := by
  induction fuel with
  | zero => intro cur stack σ _; exact ⟨fun _ => .diverge, Disc.const _, fun _ => rfl⟩
  | succ fuel ih =>
    intro cur stack σ hσ
    have pop : ∀ τ, Rep prims τ → ∃ e : Ray3 ℝ → Res (Option Nat), Disc e ∧ ∀ ray, (match stack with
        | i :: stack => traverseLoop nodes (fun b => hit b ray) (dirIsNeg ray) (intersectAct prims ray) fuel i stack (τ ray)
        | [] => .ok (.inl (τ ray))) = resultOf prims ray (e ray) := by
      intro τ hτ
      cases stack with
      | nil =>
        obtain ⟨e, he, h⟩ := hτ
        exact ⟨fun ray => .ok (e ray), he.map _, fun ray => by simp only [h ray]; rfl⟩
      | cons i stack => exact ih i stack τ hτ
    cases hn : nodes[cur]? with
    | none => exact ⟨fun _ => .panic, Disc.const _, fun ray => by unfold traverseLoop; simp only [hn]; rfl⟩
    | some node =>
      have inner : ∃ e : Ray3 ℝ → Res (Option Nat), Disc e ∧ ∀ ray, hit node.bounds ray = true →
          traverseLoop nodes (fun b => hit b ray) (dirIsNeg ray) (intersectAct prims ray) (fuel + 1) cur stack (σ ray) = resultOf prims ray (e ray) := by
        by_cases hl : node.isLeaf = true
        · cases hs : slice? prims (asUsize node.next) (asUsize node.next + asUsize node.nPrims) with
          | none =>
            refine ⟨fun _ => .panic, Disc.const _, fun ray hb => ?_⟩
            unfold traverseLoop
            simp only [hn, hb, hl, if_true, intersectAct, hs]
            rfl
          | some tris =>
            obtain ⟨e, he, h⟩ := pop _ (rep_leaf prims tris (asUsize node.next) (slice_spec hs) σ hσ)
            refine ⟨e, he, fun ray hb => ?_⟩
            unfold traverseLoop
            simp only [hn, hb, hl, if_true, intersectAct, hs]
            refine Eq.trans ?_ (h ray)
            cases stack <;> rfl
        · obtain ⟨e1, he1, h1⟩ := ih (asUsize node.next) ((cur + 1) :: stack) σ hσ
          obtain ⟨e2, he2, h2⟩ := ih (cur + 1) (asUsize node.next :: stack) σ hσ
          refine ⟨fun ray => if dirIsNeg ray node.axis = true then e1 ray else e2 ray, Disc.ite (measurable_neg _) he1 he2, fun ray hb => ?_⟩
          unfold traverseLoop
          simp only [hn, hb, hl, if_true]
          by_cases hneg : dirIsNeg ray node.axis = true
          · simp only [hneg, if_true]; exact h1 ray
          · simp only [hneg]; exact h2 ray
      obtain ⟨e1, he1, h1⟩ := inner
      obtain ⟨e2, he2, h2⟩ := pop σ hσ
      refine ⟨fun ray => if hit node.bounds ray = true then e1 ray else e2 ray, Disc.ite (hhit _) he1 he2, fun ray => ?_⟩
      by_cases hb : hit node.bounds ray = true
      · simp only [hb, if_true]; exact h1 ray hb
      · simp only [hb]
        unfold traverseLoop
        simp only [hn, hb]
        refine Eq.trans ?_ (h2 ray)
        cases stack <;> rfl

instance {α : Type} [Countable α] : Countable (Res α) :=
  Function.Injective.countable (f := fun r : Res α => (match r with | .ok a => Sum.inl a | .panic => Sum.inr true | .diverge => Sum.inr false : α ⊕ Bool)) (by
    intro a b h
    cases a <;> cases b <;> simp_all)

instance {S R : Type} [Countable S] [Countable R] : Countable (LeafOut S R) :=
  Function.Injective.countable (f := fun r : LeafOut S R => (match r with | .cont a => Sum.inl a | .ret b => Sum.inr (some b) | .panic => Sum.inr none : S ⊕ Option R)) (by
    intro a b h
    cases a <;> cases b <;> simp_all)

/-- Going on with the next node of the stack. -/
def popStack {S R : Type} (go : Nat → List Nat → S → Res (S ⊕ R)) : List Nat → S → Res (S ⊕ R)
  | i :: stack, τ => go i stack τ
  | [], τ => .ok (.inl τ)

/-- After a leaf. -/
def afterLeaf {S R : Type} (go : Nat → List Nat → S → Res (S ⊕ R)) (stack : List Nat) : LeafOut S R → Res (S ⊕ R)
  | .panic => .panic
  | .ret r => .ok (.inr r)
  | .cont τ => popStack go stack τ

/-- Traversals whose state is one of countably many. -/
theorem disc_traverse {S R : Type} [Countable S] [Countable R] (nodes : List (FlatNode ℝ)) (hit : BBox ℝ → Ray3 ℝ → Bool) (hhit : ∀ b, MeasurableSet {ray | hit b ray = true}) (leaf : Ray3 ℝ → Nat → Nat → S → LeafOut S R)
    (hleaf : ∀ i f σ, Disc fun ray => leaf ray i f σ) (fuel : Nat) :
    ∀ (cur : Nat) (stack : List Nat) (σ : S), Disc fun ray => traverseLoop nodes (fun b => hit b ray) (dirIsNeg ray) (leaf ray) fuel cur stack σ := by
  induction fuel with
  | zero => intro cur stack σ; exact Disc.const _
  | succ fuel ih =>
    intro cur stack σ
    have pop : ∀ τ, Disc fun ray => popStack (traverseLoop nodes (fun b => hit b ray) (dirIsNeg ray) (leaf ray) fuel) stack τ := by
      intro τ
      cases stack with
      | nil => exact Disc.const _
      | cons i stack => exact ih i stack τ
    cases hn : nodes[cur]? with
    | none =>
      have e : (fun ray => traverseLoop nodes (fun b => hit b ray) (dirIsNeg ray) (leaf ray) (fuel + 1) cur stack σ) = fun _ => .panic := by
        funext ray
        unfold traverseLoop
        simp only [hn]
      rw [e]
      exact Disc.const _
    | some node =>
      have e : (fun ray => traverseLoop nodes (fun b => hit b ray) (dirIsNeg ray) (leaf ray) (fuel + 1) cur stack σ) = fun ray =>
          if hit node.bounds ray = true then
            (if node.isLeaf = true then
              afterLeaf (traverseLoop nodes (fun b => hit b ray) (dirIsNeg ray) (leaf ray) fuel) stack (leaf ray (asUsize node.next) (asUsize node.next + asUsize node.nPrims) σ)
            else if dirIsNeg ray node.axis = true then traverseLoop nodes (fun b => hit b ray) (dirIsNeg ray) (leaf ray) fuel (asUsize node.next) ((cur + 1) :: stack) σ
            else traverseLoop nodes (fun b => hit b ray) (dirIsNeg ray) (leaf ray) fuel (cur + 1) (asUsize node.next :: stack) σ)
          else popStack (traverseLoop nodes (fun b => hit b ray) (dirIsNeg ray) (leaf ray) fuel) stack σ := by
        funext ray
        conv_lhs => unfold traverseLoop
        simp only [hn]
        by_cases h1 : hit node.bounds ray = true
        · simp only [h1, if_true]
          by_cases h2 : node.isLeaf = true
          · simp only [h2, if_true]
            cases leaf ray (asUsize node.next) (asUsize node.next + asUsize node.nPrims) σ <;> cases stack <;> rfl
          · simp only [h2]; rfl
        · simp only [h1]
          cases stack <;> rfl
      rw [e]
      refine Disc.ite (hhit _) ?_ (pop σ)
      by_cases hl : node.isLeaf = true
      · simp only [hl, if_true]
        refine Disc.bind (hleaf (asUsize node.next) (asUsize node.next + asUsize node.nPrims) σ) (f := fun o ray => afterLeaf (traverseLoop nodes (fun b => hit b ray) (dirIsNeg ray) (leaf ray) fuel) stack o) fun o => ?_
        cases o with
        | panic => exact Disc.const _
        | ret r => exact Disc.const _
        | cont τ => exact pop τ
      · simp only [hl]
        exact Disc.ite (measurable_neg _) (ih _ _ _) (ih _ _ _)

open Classical in
theorem disc_unobstructedLeaf (D : ℝ) (tris : List (Tri ℝ)) : Disc fun ray => unobstructedLeaf ray D tris := by
  induction tris with
  | nil => exact Disc.const _
  | cons tri rest ih =>
    have e : (fun ray => unobstructedLeaf ray D (tri :: rest)) = fun ray => if meets tri ray ∧ blocks (planePoint tri ray - ray.origin).lengthSq D = true then .ret false else unobstructedLeaf ray D rest := by
      funext ray
      conv_lhs => unfold unobstructedLeaf
      unfold simpleTriangleIntersect
      cases h : triangleIntersect tri ray with
      | none =>
        have : ¬ meets tri ray := by rintro ⟨b, hb⟩; rw [h] at hb; cases hb
        unfold triangleIntersect at h
        simp only [h, this, false_and, if_false]
      | some b =>
        have hm : meets tri ray := ⟨b, h⟩
        have hp := intersect_point h
        unfold triangleIntersect at h
        simp only [h, hm, true_and, hp]
    rw [e]
    refine Disc.ite ?_ (Disc.const _) ih
    have hp : Measurable fun ray : Ray3 ℝ => (planePoint tri ray - ray.origin).lengthSq := measurable_lengthSq (measurable_vsub (measurable_planePoint tri measurable_id) Ray3.measurable_origin)
    refine (measurable_meets tri measurable_id).inter ?_
    simp only [blocks, decide_eq_true_eq]
    exact (measurableSet_lt measurable_const hp).inter ((measurableSet_lt (hp.add_const _) measurable_const).inter (measurableSet_lt measurable_const (_root_.continuous_abs.measurable.comp (measurable_const.sub hp))))

/-- The box test depends measurably on the ray. -/
def BvhEnv.MeasurableBoxTest (env : BvhEnv ℝ) : Prop := ∀ b, MeasurableSet {ray : Ray3 ℝ | env.boxHit b ray = true}

theorem disc_unobstructed (env : BvhEnv ℝ) (hbox : env.MeasurableBoxTest) (nodes : List (FlatNode ℝ)) (prims : List (Tri ℝ)) (D : ℝ) (scratch : List Nat) : Disc fun ray => bvhUnobstructed env nodes prims ray D scratch := by
  unfold bvhUnobstructed
  by_cases hn : nodes.isEmpty = true
  · simp only [hn, if_true]; exact Disc.const _
  · simp only [hn]
    have h := disc_traverse nodes env.boxHit hbox (fun ray => unobstructedAct prims ray D) (fun i f σ => by
      unfold unobstructedAct
      cases slice? prims i f with
      | none => exact Disc.const _
      | some tris => exact disc_unobstructedLeaf D tris) nodes.length 0 (scratch.take 0) ()
    exact h.map (fun r => r.bind fun r => match r with
      | .inl _ => .ok true
      | .inr b => .ok b)

variable {w : World} {s : Scene ℝ}

theorem disc_free (hR : w.Renders s) (hbox : w.env.bvh.MeasurableBoxTest) (D : ℝ) : Disc fun ray => w.scene.unobstructedDistance w.env ray D [] := by
  obtain ⟨ha, hr, hp, bvh, hacc, hA⟩ := builtFrom_spec w.env hR.lawful hR.aligned hR.built
  unfold Scene.unobstructedDistance
  simp only [hacc]
  exact disc_unobstructed w.env.bvh hbox _ _ D []

/-- The index in the answer of `cast_ray`. -/
def hitIndex : Res (Option (Nat × Bary ℝ)) → Option Nat
  | .ok (some (i, _)) => some i
  | _ => none

/-- The index of the nearest hit, from a choice. -/
noncomputable def pickOf (tris : List (Tri ℝ)) (ray : Ray3 ℝ) : Res (Option Nat) → Option Nat
  | .ok d => hitIndex (.ok (stateOf tris ray d).primIndex)
  | _ => none

/-- Which triangle a ray hits depends measurably on the ray. -/
theorem disc_cast (hR : w.Renders s) (hbox : w.env.bvh.MeasurableBoxTest) : ∃ idx : Ray3 ℝ → Option Nat, Disc idx ∧
    ∀ ray : TRay, (idx ray.geometry = none ∧ w.cast ray = .ok none) ∨
      ∃ (i : Nat) (tri : Tri ℝ) (b : Bary ℝ) (j : Nat), idx ray.geometry = some i ∧ w.cast ray = .ok (some (i, { ray with interaction := recordedInteraction tri ray.geometry b })) ∧
        s.triangles[j]? = some tri ∧ triangleIntersect tri ray.geometry = some b ∧ w.scene.triangles[i]? = some tri ∧ w.scene.front[i]? = s.front[j]? ∧ w.scene.back[i]? = s.back[j]? ∧ w.scene.normals[i]? = s.normals[j]? := by
  classical
  obtain ⟨ha, hr, hp, bvh, hacc, hA⟩ := builtFrom_spec w.env hR.lawful hR.aligned hR.built
  refine ⟨fun ray => hitIndex (w.scene.castRay w.env ray []), ?_, ?_⟩
  · unfold Scene.castRay
    simp only [hacc, bvhIntersect]
    by_cases hn : bvh.nodes.isEmpty = true
    · simp only [hn, if_true]; exact Disc.const _
    · simp only [hn, Bool.false_eq_true, if_false]
      obtain ⟨e, he, h⟩ := rep_traverse bvh.nodes w.scene.triangles w.env.bvh.boxHit hbox bvh.nodes.length 0 [] (fun _ => ⟨none, floatMax ℝ⟩) ⟨fun _ => none, Disc.const _, fun _ => rfl⟩
      have e2 : ∀ ray, traverseLoop bvh.nodes (fun b => w.env.bvh.boxHit b ray) (dirIsNeg ray) (intersectAct w.scene.triangles ray) bvh.nodes.length 0 (List.take 0 []) { primIndex := none, tSquared := floatMax ℝ } = resultOf w.scene.triangles ray (e ray) := h
      simp only [e2]
      have key : Disc fun ray => pickOf w.scene.triangles ray (e ray) := by
        refine Disc.bind he (f := fun d ray => pickOf w.scene.triangles ray d) fun d => ?_
        cases d with
        | panic => exact Disc.const _
        | diverge => exact Disc.const _
        | ok d =>
          cases d with
          | none => exact Disc.const _
          | some i =>
            cases htri : w.scene.triangles[i]? with
            | none => simp only [pickOf, stateOf, htri]; exact Disc.const _
            | some tri =>
              have e3 : (fun ray => pickOf w.scene.triangles ray (.ok (some i))) = fun ray => if meets tri ray then some i else none := by
                funext ray
                simp only [pickOf, stateOf, htri]
                cases h : triangleIntersect tri ray with
                | none => rw [if_neg (by rintro ⟨b, hb⟩; rw [h] at hb; cases hb)]; rfl
                | some b => rw [if_pos ⟨b, h⟩]; rfl
              rw [e3]
              exact Disc.ite (measurable_meets tri measurable_id) (Disc.const _) (Disc.const _)
      refine (congrArg Disc (funext fun ray => ?_)).mpr key
      cases e ray <;> rfl
  · intro ray
    rcases hR.cast_cases ray with ⟨hc, _⟩ | ⟨i, tri, b, j, hc, hj, hb, _, ht, hf, hbk, hn, _⟩
    · left
      refine ⟨?_, hc⟩
      unfold World.cast at hc
      rcases hcr : w.scene.castRay w.env ray.geometry [] with r | _ | _
      · rw [hcr, Res.bind_ok] at hc
        cases r with
        | none => simp only [hcr, hitIndex]
        | some x =>
          obtain ⟨i, b⟩ := x
          simp only at hc
          cases hx : w.scene.triangles[i]? with
          | none => rw [hx] at hc; simp [Res.ofOption, Res.bind] at hc
          | some tri => rw [hx] at hc; simp at hc
      · simp only [hcr, hitIndex]
      · simp only [hcr, hitIndex]
    · right
      refine ⟨i, tri, b, j, ?_, hc, hj, hb, ht, hf, hbk, hn⟩
      unfold World.cast at hc
      rcases hcr : w.scene.castRay w.env ray.geometry [] with r | _ | _
      · rw [hcr, Res.bind_ok] at hc
        cases r with
        | none => simp at hc
        | some x =>
          obtain ⟨i', b'⟩ := x
          simp only at hc
          cases hx : w.scene.triangles[i']? with
          | none => rw [hx] at hc; simp [Res.ofOption, Res.bind] at hc
          | some tri =>
            rw [hx] at hc
            simp only [Res.ofOption_some, Res.bind_ok, Res.ok.injEq, Option.some.injEq, Prod.mk.injEq] at hc
            simp only [hcr, hitIndex, hc.1]
      · rw [hcr] at hc; cases hc
      · rw [hcr] at hc; cases hc

end Rendering
