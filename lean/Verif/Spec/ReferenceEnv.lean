import Verif.Spec.Scene
import Mathlib.Data.List.Sort

/-!
# A reference instance of the external functions

Shows that the contracts of `Verif/Spec/Bvh.lean` can be met: an exact slab test, the longest axis, the surface area of a box and
insertion sort.  Theorems quantify over every environment that meets the contracts; this instance is used in examples.
-/

set_option linter.unusedSectionVars false

namespace Rendering
variable {K : Type} [Field K] [LinearOrder K]

/-- Intersect a parameter interval `[lo, hi]` (`hi = none` is unbounded) with one slab. -/
def slabStep (lo hi o d : K) : Option (K × Option K) → Option (K × Option K)
  | none => none
  | some (t0, t1) =>
    if d = 0 then (if lo ≤ o ∧ o ≤ hi then some (t0, t1) else none)
    else
      let a := (lo - o) / d
      let b := (hi - o) / d
      let n := min a b
      let m := max a b
      some (max t0 n, some (match t1 with | none => m | some t1 => min t1 m))

/-- Exact ray/box test for parameters `t ≥ 0`. -/
def slabTest (b : BBox K) (ray : Ray3 K) : Bool :=
  match slabStep b.min.z b.max.z ray.origin.z ray.direction.z
    (slabStep b.min.y b.max.y ray.origin.y ray.direction.y
      (slabStep b.min.x b.max.x ray.origin.x ray.direction.x (some (0, none)))) with
  | none => false
  | some (_, none) => true
  | some (t0, some t1) => decide (t0 ≤ t1)

/-- Longest axis. -/
def longestAxis (b : BBox K) : Axis :=
  let x := b.max.x - b.min.x
  let y := b.max.y - b.min.y
  let z := b.max.z - b.min.z
  if x ≥ y ∧ x ≥ z then .X else if y ≥ z then .Y else .Z

/-- Surface area of a box. -/
def boxArea (b : BBox K) : K :=
  let x := b.max.x - b.min.x
  let y := b.max.y - b.min.y
  let z := b.max.z - b.min.z
  2 * (x * y + x * z + y * z)

/-- Insertion sort by centroid. -/
def sortByCentroid (a : Axis) (l : List (ObjInfo K)) : List (ObjInfo K) :=
  l.insertionSort (fun i j => i.centroid.get a ≤ j.centroid.get a)

/-- The reference environment. -/
def refEnv (K : Type) [Field K] [LinearOrder K] : BvhEnv K where
  boxHit := slabTest
  maxExtent := longestAxis
  surfaceArea := boxArea
  sort := sortByCentroid
  select _ a l := sortByCentroid a l

/-- `t` belongs to a parameter interval. -/
def InSlab (t : K) : Option (K × Option K) → Prop
  | none => False
  | some (t0, none) => t0 ≤ t
  | some (t0, some t1) => t0 ≤ t ∧ t ≤ t1

theorem slabStep_mem [IsStrictOrderedRing K] {lo hi o d t : K} {s : Option (K × Option K)} (h : InSlab t s)
    (hp : lo ≤ o + d * t ∧ o + d * t ≤ hi) : InSlab t (slabStep lo hi o d s) := by
  match s, h with
  | some (t0, t1), h =>
    unfold slabStep
    simp only
    split
    · rename_i hd
      subst hd
      simp only [zero_mul, add_zero] at hp
      rw [if_pos hp]; exact h
    · rename_i hd
      have key : min ((lo - o) / d) ((hi - o) / d) ≤ t ∧ t ≤ max ((lo - o) / d) ((hi - o) / d) := by
        rcases lt_or_gt_of_ne hd with hneg | hpos
        · constructor
          · apply (min_le_right _ _).trans
            rw [div_le_iff_of_neg hneg]; nlinarith
          · apply le_trans _ (le_max_left _ _)
            rw [le_div_iff_of_neg hneg]; nlinarith
        · constructor
          · apply (min_le_left _ _).trans
            rw [div_le_iff₀ hpos]; nlinarith
          · apply le_trans _ (le_max_right _ _)
            rw [le_div_iff₀ hpos]; nlinarith
      cases t1 with
      | none => exact ⟨max_le h key.1, key.2⟩
      | some t1 => exact ⟨max_le h.1 key.1, le_min h.2 key.2⟩

/-- The reference box test meets its contract. -/
theorem refEnv_conservative [IsStrictOrderedRing K] : (refEnv K).BoxTestConservative := by
  intro b ray t ht hc
  have h0 : InSlab t (some ((0 : K), none)) := ht
  obtain ⟨cx, cy, cz⟩ := hc
  have h := slabStep_mem (slabStep_mem (slabStep_mem h0 cx) cy) cz
  change slabTest b ray = true
  unfold slabTest
  match hs : slabStep b.min.z b.max.z ray.origin.z ray.direction.z
    (slabStep b.min.y b.max.y ray.origin.y ray.direction.y
      (slabStep b.min.x b.max.x ray.origin.x ray.direction.x (some (0, none)))), h with
  | some (t0, none), h => rfl
  | some (t0, some t1), h => simpa using h.1.trans h.2

/-- The reference sort, selection and axis choice meet their contracts. -/
theorem refEnv_lawful : (refEnv K).Lawful where
  sort_perm a l := List.perm_insertionSort _ l
  sort_sorted a l := by
    have : Std.Total (fun i j : ObjInfo K => i.centroid.get a ≤ j.centroid.get a) := ⟨fun i j => le_total _ _⟩
    have : IsTrans (ObjInfo K) (fun i j : ObjInfo K => i.centroid.get a ≤ j.centroid.get a) := ⟨fun i j k h h' => le_trans h h'⟩
    exact List.pairwise_insertionSort _ l
  select_perm m a l := List.perm_insertionSort _ l
  maxExtent_max b a := by
    change _ ≤ b.max.get (longestAxis b) - b.min.get (longestAxis b)
    unfold longestAxis
    simp only
    split
    · rename_i h
      cases a
      · exact le_refl _
      · exact h.1
      · exact h.2
    · rename_i h
      split
      · rename_i h2
        cases a
        · simp only [Vec3.get]
          by_contra hlt
          push Not at hlt
          exact h ⟨hlt.le, h2.le.trans hlt.le⟩
        · exact le_refl _
        · exact h2
      · rename_i h2
        push Not at h2
        cases a
        · simp only [Vec3.get]
          by_contra hlt
          push Not at hlt
          exact h ⟨h2.le.trans hlt.le, hlt.le⟩
        · exact h2.le
        · exact le_refl _

/-- A scene environment for examples: the reference box functions, no normalisation, and spheres left empty. -/
def refSceneEnv (K : Type) [Field K] [LinearOrder K] : SceneEnv K where
  bvh := refEnv K
  normalized v := v
  meshSphere _ _ := ([], [])

end Rendering
