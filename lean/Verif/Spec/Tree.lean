import Verif.Spec.Bvh

/-!
# What the surface area heuristic asks of the accelerator

Vocabulary for C101: smallest boxes around sets of points, the twelve slices along an axis, the cost of dividing a group between two
slices, and what it means for a tree to divide its triangles according to that cost.
-/

namespace Rendering

variable {K : Type} [Field K] [LinearOrder K]

/-- `b` is the smallest box that holds all the points. -/
structure BBox.Tight (b : BBox K) (points : List (Vec3 K)) : Prop where
  contains : ∀ p ∈ points, b.Contains p
  smallest : ∀ b' : BBox K, (∀ p ∈ points, b'.Contains p) → ∀ a, b'.min.get a ≤ b.min.get a ∧ b.max.get a ≤ b'.max.get a

/-- `b` is the smallest box that holds all the boxes. -/
structure BBox.Encloses (b : BBox K) (boxes : List (BBox K)) : Prop where
  contains : ∀ x ∈ boxes, ∀ a, b.min.get a ≤ x.min.get a ∧ x.max.get a ≤ b.max.get a
  smallest : ∀ b' : BBox K, (∀ x ∈ boxes, ∀ a, b'.min.get a ≤ x.min.get a ∧ x.max.get a ≤ b'.max.get a) →
    ∀ a, b'.min.get a ≤ b.min.get a ∧ b.max.get a ≤ b'.max.get a

/-- Which of twelve equal slices of `[lo, hi]` the number `x` falls in (`hi` itself belongs to the last one). -/
def InSlice (lo hi x : K) (k : Nat) : Prop :=
  k < 12 ∧ lo + (hi - lo) * k / 12 ≤ x ∧ (x < lo + (hi - lo) * (k + 1) / 12 ∨ k = 11)

/-- `c` is the cost of dividing a group into `l` and `r`: ten for going down a level, plus the number of members of each part times the area
of a box around the part, relative to the area of a box around the whole group.  `part` says which boxes count as boxes around the parts. -/
def SplitCost (area : BBox K → K) (part : BBox K → List (ObjInfo K) → Prop) (l r : List (ObjInfo K)) (c : K) : Prop :=
  ∃ bl br b, part bl l ∧ part br r ∧ b.Encloses ((l ++ r).map (·.bounds)) ∧ area b ≠ 0 ∧
    c = 10 + (l.length * area bl + r.length * area br) / area b

/-- The boxes the program takes around the parts: those of the centres of the triangles. -/
def AroundCentres (b : BBox K) (l : List (ObjInfo K)) : Prop := b.Tight (l.map (·.centroid))

/-- The boxes the heuristic is about: those of the triangles. -/
def AroundTriangles (b : BBox K) (l : List (ObjInfo K)) : Prop := b.Encloses (l.map (·.bounds))

/-- The group can be cut into `l`, the members in slices `0 … k`, and `r`, the members in later ones, along its longest axis `a`. -/
structure Cut (env : BvhEnv K) (group : List (ObjInfo K)) (k : Nat) (l r : List (ObjInfo K)) : Prop where
  perm : (l ++ r).Perm group
  sides : ∃ cb : BBox K, cb.Tight (group.map (·.centroid)) ∧
    (∀ i ∈ l, ∃ j, InSlice (cb.min.get (env.maxExtent cb)) (cb.max.get (env.maxExtent cb)) (i.centroid.get (env.maxExtent cb)) j ∧ j ≤ k) ∧
    (∀ i ∈ r, ∃ j, InSlice (cb.min.get (env.maxExtent cb)) (cb.max.get (env.maxExtent cb)) (i.centroid.get (env.maxExtent cb)) j ∧ k < j)

/-- The centres of the group are all within 1e-8 of one another along every axis. -/
def Clustered (group : List (ObjInfo K)) : Prop := ∀ i ∈ group, ∀ j ∈ group, ∀ a, i.centroid.get a - j.centroid.get a < 1 / 10 ^ 8

/-- The tree divides the group as the surface area heuristic says, with `part` the boxes taken around parts. -/
inductive GoodTree (env : BvhEnv K) (part : BBox K → List (ObjInfo K) → Prop) : Node K → List (ObjInfo K) → Prop
  /-- One triangle, or triangles in the same place, are not divided. -/
  | together (b first group) : group.length = 1 ∨ Clustered group → b.Encloses (group.map (·.bounds)) → GoodTree env part (.leaf b first group.length) group
  /-- Neither are up to twenty four when no cut costs less than looking at them one by one. -/
  | cheaper (b first group) : 4 < group.length → group.length ≤ 24 → b.Encloses (group.map (·.bounds)) →
      (∀ k < 11, ∀ l r c, Cut env group k l r → SplitCost env.surfaceArea part l r c → (group.length : K) ≤ c ∨ floatMax K ≤ c) →
      GoodTree env part (.leaf b first group.length) group
  /-- Four or fewer are halved. -/
  | halves (b axis tl tr) (group l r) : group.length ≤ 4 → (l ++ r).Perm group → l.length = group.length / 2 → b.Encloses (group.map (·.bounds)) →
      GoodTree env part tl l → GoodTree env part tr r → GoodTree env part (.interior b axis tl tr) group
  /-- More are cut where it costs least, if that is less than looking at them one by one or if they are more than twenty four. -/
  | cheapest (b axis tl tr) (group l r k) : 4 < group.length → k < 11 → Cut env group k l r → b.Encloses (group.map (·.bounds)) → l ≠ [] → r ≠ [] →
      (24 < group.length ∨ ∃ c, SplitCost env.surfaceArea part l r c ∧ c < group.length) →
      (∀ c, SplitCost env.surfaceArea part l r c → ∀ k' < 11, ∀ l' r' c', Cut env group k' l' r' → SplitCost env.surfaceArea part l' r' c' → c ≤ c' ∨ floatMax K ≤ c') →
      GoodTree env part tl l → GoodTree env part tr r → GoodTree env part (.interior b axis tl tr) group

/-- The largest number of triangles in a leaf of the tree. -/
def Node.largestLeaf : Node K → Nat
  | .leaf _ _ n => n
  | .interior _ _ l r => max l.largestLeaf r.largestLeaf

end Rendering
