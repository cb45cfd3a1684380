import Verif.Model.Triangle
import Mathlib.Algebra.Order.Floor.Ring

/-!
# /repo/src/bvh.rs — the bounding volume hierarchy

`recursive_build`, `flatten_node`, `new`, `intersect` and `unobstructed_distance`.

External or unspecified behaviour is collected in `BvhEnv`: `BBox3D::intersect`, `BBox3D::max_extent`,
`BBox3D::surface_area` (crate `geometry3d`) and the outcome of the *unstable* sort and selection of the standard
library.  The contracts assumed of them are in `Verif/Spec/Bvh.lean`.
-/

namespace Rendering

/-- Result of code that may panic.  `diverge` is the "still running when the fuel ran out" value used for
loops; theorems show it is never produced (or, for C08, that it is). -/
inductive Res (α : Type) where
  | ok (a : α)
  | panic
  | diverge
deriving DecidableEq, Repr

namespace Res
/-- Sequencing of possibly panicking computations. -/
def bind {α β : Type} (x : Res α) (f : α → Res β) : Res β :=
  match x with
  | .ok a => f a
  | .panic => .panic
  | .diverge => .diverge

/-- `Option::unwrap` / slice indexing: `None` panics. -/
def ofOption {α : Type} : Option α → Res α
  | some a => .ok a
  | none => .panic

@[simp] theorem bind_ok {α β : Type} (a : α) (f : α → Res β) : (Res.ok a).bind f = f a := rfl
@[simp] theorem bind_panic {α β : Type} (f : α → Res β) : (Res.panic : Res α).bind f = .panic := rfl
@[simp] theorem bind_diverge {α β : Type} (f : α → Res β) : (Res.diverge : Res α).bind f = .diverge := rfl
@[simp] theorem ofOption_some {α : Type} (a : α) : ofOption (some a) = .ok a := rfl
@[simp] theorem ofOption_none {α : Type} : ofOption (none : Option α) = .panic := rfl

instance : Monad Res where
  pure := .ok
  bind := bind

@[simp] theorem pure_eq {α : Type} (a : α) : (pure a : Res α) = .ok a := rfl
@[simp] theorem bind_eq {α β : Type} (x : Res α) (f : α → Res β) : (x >>= f) = x.bind f := rfl
end Res

variable {K : Type}

/-- /repo/src/bvh.rs:64-68 `ObjectInfo`. -/
structure ObjInfo (K : Type) where
  index : Nat
  bounds : BBox K
  centroid : Vec3 K
deriving DecidableEq

/-- External functions and the outcomes of unstable sorting/selection. -/
structure BvhEnv (K : Type) where
  /-- `BBox3D::intersect(&ray, &inv_dir)`; `inv_dir` is a function of the ray. -/
  boxHit : BBox K → Ray3 K → Bool
  /-- `BBox3D::max_extent`. -/
  maxExtent : BBox K → Axis
  /-- `BBox3D::surface_area`. -/
  surfaceArea : BBox K → K
  /-- outcome of `sort_unstable_by(cmp_centroids)` along an axis. -/
  sort : Axis → List (ObjInfo K) → List (ObjInfo K)
  /-- outcome of `select_nth_unstable_by(mid, cmp_centroids)` along an axis. -/
  select : Nat → Axis → List (ObjInfo K) → List (ObjInfo K)

section build
variable [Field K] [LinearOrder K] [FloorRing K]

/-- /repo/src/bvh.rs:70-80 `ObjectInfo::new`. -/
def ObjInfo.new (index : Nat) (tri : Tri K) : ObjInfo K :=
  let bounds := worldBounds tri
  { index := index, bounds := bounds, centroid := (bounds.max + bounds.min).scale (1 / 2) }

/-- `Float as usize`: saturating at zero below (and floor is already taken). -/
def floorAsUsize (x : K) : Nat := (Int.floor x).toNat

/-- /repo/src/bvh.rs:40-61 `get_bucket_index`.  (`debug_assert!` is compiled out in release builds.) -/
def getBucketIndex (centroid : Vec3 K) (lenAxis : K) (axis : Axis) (nBuckets : Nat) (minCentroid : Vec3 K) : Nat :=
  let bucketIndex := floorAsUsize ((centroid.get axis - minCentroid.get axis) * (nBuckets : K) / lenAxis)
  if bucketIndex ≥ nBuckets then nBuckets - 1 else bucketIndex

/-- /repo/src/bvh.rs:34-38 `BucketInfo`. -/
structure BucketInfo (K : Type) where
  count : Nat
  bounds : Option (BBox K)

/-- /repo/src/bvh.rs:196 `TOO_FEW_TO_BUCKET`. -/
def tooFewToBucket : Nat := 4
/-- /repo/src/bvh.rs:197 `N_BUCKETS`. -/
def nBuckets : Nat := 12

/-- /repo/src/bvh.rs:245-256: registering one primitive in its bucket. -/
def BucketInfo.register (b : BucketInfo K) (centroid : Vec3 K) : BucketInfo K :=
  { count := b.count + 1
    bounds := match b.bounds with
      | some bb => some (bb.fromUnionPoint centroid)
      | none => some (BBox.fromPoint centroid) }

/-- /repo/src/bvh.rs:225-256: the bucket table after registering every primitive. -/
def fillBuckets (infos : List (ObjInfo K)) (lenAxis : K) (axis : Axis) (minC : Vec3 K) : List (BucketInfo K) :=
  infos.foldl (fun bs info => bs.modify (getBucketIndex info.centroid lenAxis axis nBuckets minC)
      (fun b => b.register info.centroid))
    (List.replicate nBuckets ⟨0, none⟩)

/-- /repo/src/bvh.rs:263-271 and 273-281: merging the bounds/counts of a run of buckets into an initial one;
empty buckets are skipped. -/
def mergeBuckets (init : BBox K × Nat) (bs : List (BucketInfo K)) : BBox K × Nat :=
  bs.foldl (fun acc b => match b.bounds with
    | some bb => (acc.1.fromUnion bb, acc.2 + b.count)
    | none => acc) init

/-- /repo/src/bvh.rs:262-286: cost of splitting after bucket `i`; `none` models NaN (a zero-area `bounds`
divides zero by zero), for which `c < min_cost` is false. The two `unwrap`s panic on an empty first or last bucket. -/
def splitCost (env : BvhEnv K) (bounds : BBox K) (buckets : List (BucketInfo K)) (i : Nat) : Res (Option K) := do
  let b0 ← Res.ofOption buckets[0]?
  let before0 ← Res.ofOption b0.bounds
  let (before, countBefore) := mergeBuckets (before0, b0.count) ((buckets.take (i + 1)).drop 1)
  let bl ← Res.ofOption buckets[nBuckets - 1]?
  let after0 ← Res.ofOption bl.bounds
  let (after, countAfter) := mergeBuckets (after0, bl.count) ((buckets.take (nBuckets - 1)).drop (i + 1))
  if env.surfaceArea bounds = 0 then pure none
  else pure (some (10 + ((countBefore : K) * env.surfaceArea before + (countAfter : K) * env.surfaceArea after)
      / env.surfaceArea bounds))

/-- /repo/src/bvh.rs:259-291: scan over the split positions, keeping `(min_cost, min_cost_bucket)`. -/
def minCostLoop (env : BvhEnv K) (bounds : BBox K) (buckets : List (BucketInfo K)) :
    List Nat → K × Nat → Res (K × Nat)
  | [], acc => .ok acc
  | i :: is, acc => do
    let c ← splitCost env bounds buckets i
    match c with
    | some c => minCostLoop env bounds buckets is (if c < acc.1 then (c, i) else acc)
    | none => minCostLoop env bounds buckets is acc

/-- /repo/src/bvh.rs:299-314: position after the run of primitives whose bucket is not past `minBucket`
(`None` when there is no such primitive at the start). -/
def findMid (infos : List (ObjInfo K)) (lenAxis : K) (axis : Axis) (minC : Vec3 K) (minBucket : Nat) : Option Nat :=
  let k := (infos.takeWhile (fun i => decide (getBucketIndex i.centroid lenAxis axis nBuckets minC ≤ minBucket))).length
  if k = 0 then none else some k

/-- /repo/src/bvh.rs:82-92, 341-347: `Node`, `Interior`, `Leaf`. -/
inductive Node (K : Type) where
  | leaf (bounds : BBox K) (first nPrims : Nat)
  | interior (bounds : BBox K) (axis : Axis) (l r : Node K)

/-- /repo/src/bvh.rs:94-99. -/
def Node.bounds : Node K → BBox K
  | .leaf b _ _ => b
  | .interior b _ _ _ => b

/-- /repo/src/bvh.rs:109-117 `new_interior`. -/
def Node.newInterior (axis : Axis) (c1 c2 : Node K) : Node K :=
  .interior (c1.bounds.fromUnion c2.bounds) axis c1 c2

/-- /repo/src/bvh.rs:143-150: box around all primitives in scope (`primitives_info[start]` exists as
`start < end`). -/
def boundsOf (i0 : ObjInfo K) (rest : List (ObjInfo K)) : BBox K :=
  rest.foldl (fun b i => b.fromUnion i.bounds) i0.bounds

/-- /repo/src/bvh.rs:165-169: box around all centroids in scope. -/
def centroidBoundsOf (i0 : ObjInfo K) (rest : List (ObjInfo K)) : BBox K :=
  rest.foldl (fun b i => b.fromUnionPoint i.centroid) (BBox.fromPoint i0.centroid)

/-- /repo/src/bvh.rs:120-338: what is decided for the primitives in scope before recursing. -/
inductive SplitDecision (K : Type) where
  /-- make a leaf of the slice in its current order -/
  | makeLeaf
  /-- reorder the slice and split it at `mid` along an axis -/
  | split (axis : Axis) (infos : List (ObjInfo K)) (mid : Nat)

/-- /repo/src/bvh.rs:165-331 (everything between the single-primitive case and the recursive calls). -/
def decideSplit (env : BvhEnv K) (i0 : ObjInfo K) (rest : List (ObjInfo K)) : Res (SplitDecision K) :=
  let infos := i0 :: rest
  let n := infos.length
  let bounds := boundsOf i0 rest
  let cb := centroidBoundsOf i0 rest
  let axis := env.maxExtent cb
  let lenAxis := cb.max.get axis - cb.min.get axis
  if lenAxis < 1 / 10 ^ 8 then .ok .makeLeaf
  else if n ≤ tooFewToBucket then
    let mid := n / 2
    .ok (.split axis (env.select mid axis infos) mid)
  else do
    let buckets := fillBuckets infos lenAxis axis cb.min
    let (minCost, minBucket) ← minCostLoop env bounds buckets (List.range (nBuckets - 1)) (floatMax K, 0)
    if n > 24 ∨ minCost < (n : K) then
      let sorted := env.sort axis infos
      let mid ← Res.ofOption (findMid sorted lenAxis axis cb.min minBucket)
      .ok (.split axis sorted mid)
    else .ok .makeLeaf

/-- /repo/src/bvh.rs:120-355 `recursive_build`.  The mutable slice `primitives_info[start..end]` is the list `infos`;
the four `ordered_*` vectors are represented by the list of original row indices appended to them (`offset` is their
current length) — the rows themselves are gathered in `bvhNew`.  `fuel` bounds the recursion depth (theorem C04: the number of primitives suffices).
An empty slice panics (`primitives_info[start]`). -/
def recursiveBuild (env : BvhEnv K) : Nat → List (ObjInfo K) → Nat → Res (Node K × List Nat)
  | 0, _, _ => .diverge
  | _ + 1, [], _ => .panic
  | fuel + 1, i0 :: rest, offset =>
    let leaf : Node K × List Nat :=
      (.leaf (boundsOf i0 rest) offset (rest.length + 1), (i0 :: rest).map (·.index))
    if rest.length + 1 = 1 then .ok leaf
    else
      (decideSplit env i0 rest).bind fun d =>
        match d with
        | .makeLeaf => .ok leaf
        | .split axis infos mid =>
          (recursiveBuild env fuel (infos.take mid) offset).bind fun (c1, o1) =>
          (recursiveBuild env fuel (infos.drop mid) (offset + o1.length)).bind fun (c2, o2) =>
          .ok (Node.newInterior axis c1 c2, o1 ++ o2)

end build

/-! ## Flattening -/

/-- `usize as i16`: wraps modulo 2^16. -/
def asI16 (n : Nat) : Int := Int.bmod n (2 ^ 16)
/-- `usize as i32`: wraps modulo 2^32. -/
def asI32 (n : Nat) : Int := Int.bmod n (2 ^ 32)
/-- `i16/i32 as usize`: sign extension to 64 bits. -/
def asUsize (i : Int) : Nat := (i % 2 ^ 64).toNat

/-- /repo/src/bvh.rs:365-379 `FlatNode`. -/
structure FlatNode (K : Type) where
  bounds : BBox K
  nPrims : Int
  axis : Axis
  next : Int

/-- /repo/src/bvh.rs:381-385. -/
def FlatNode.isLeaf (n : FlatNode K) : Bool := decide (n.nPrims > 0)

/-- /repo/src/bvh.rs:449-480 `flatten_node`: appends to `nodes`, returns the offset of the node. -/
def flattenNode : Node K → List (FlatNode K) → List (FlatNode K) × Nat
  | .leaf b first n, nodes =>
    (nodes ++ [{ bounds := b, nPrims := asI16 n, next := asI32 first, axis := .X }], nodes.length)
  | .interior b ax c1 c2, nodes =>
    let thisOffset := nodes.length
    let nodes := nodes ++ [{ bounds := b, nPrims := 0, next := 0, axis := ax }]
    let nodes := (flattenNode c1 nodes).1
    let (nodes, second) := flattenNode c2 nodes
    (nodes.modify thisOffset (fun nd => { nd with next := asI32 second }), thisOffset)

section traverse

/-- What one iteration of the traversal loop does with a leaf: go on with a new state, return early, or panic
(slice out of range). -/
inductive LeafOut (S R : Type) where
  | cont (s : S)
  | ret (r : R)
  | panic

/-- The traversal loop shared (verbatim duplicated in the source) by `intersect`, /repo/src/bvh.rs:509-617, and
`unobstructed_distance`, 654-740.  `hit` is `node.bounds.intersect(..)`, `neg` the `dir_is_neg` flags, `leaf ini fin`
the body of the leaf case; `stack` is `nodes_to_visit` (top of the stack first) and `cur` is `current_node`.
Each unit of fuel is one iteration of `loop`. -/
def traverseLoop {S R : Type} (nodes : List (FlatNode K)) (hit : BBox K → Bool) (neg : Axis → Bool)
    (leaf : Nat → Nat → S → LeafOut S R) :
    Nat → Nat → List Nat → S → Res (S ⊕ R)
  | 0, _, _, _ => .diverge
  | fuel + 1, cur, stack, s =>
    match nodes[cur]? with
    | none => .panic
    | some node =>
      if hit node.bounds then
        if node.isLeaf then
          let ini := asUsize node.next
          let fin := ini + asUsize node.nPrims
          match leaf ini fin s with
          | .panic => .panic
          | .ret r => .ok (.inr r)
          | .cont s =>
            match stack with
            | i :: stack => traverseLoop nodes hit neg leaf fuel i stack s
            | [] => .ok (.inl s)
        else if neg node.axis then
          traverseLoop nodes hit neg leaf fuel (asUsize node.next) ((cur + 1) :: stack) s
        else
          traverseLoop nodes hit neg leaf fuel (cur + 1) (asUsize node.next :: stack) s
      else
        match stack with
        | i :: stack => traverseLoop nodes hit neg leaf fuel i stack s
        | [] => .ok (.inl s)

/-- `&primitives[ini..fin]`: panics unless `ini ≤ fin ≤ len`. -/
def slice? {α : Type} (l : List α) (ini fin : Nat) : Option (List α) :=
  if ini ≤ fin ∧ fin ≤ l.length then some ((l.take fin).drop ini) else none

variable [Field K] [LinearOrder K]

/-- `dir_is_neg`: /repo/src/bvh.rs:502-507, 646-651: `1/d < 0`.  (For `d = 0` the code gets `±inf`; the sign
of a zero is not modelled and, by C07, irrelevant.) -/
def dirIsNeg (ray : Ray3 K) (a : Axis) : Bool := decide (1 / ray.direction.get a < 0)

/-- State of `intersect`'s loop: `prim_index`, `t_squared` and `ray.interaction.geometry_shading`. -/
structure HitState (K : Type) where
  primIndex : Option (Nat × Bary K)
  tSquared : K

/-- /repo/src/bvh.rs:521-540: all triangles of a leaf; `i` is the index of the first one. -/
def intersectLeaf (ray : Ray3 K) : List (Tri K) → Nat → HitState K → HitState K
  | [], _, s => s
  | tri :: tris, i, s =>
    let s :=
      match triangleIntersect tri ray with
      | some info =>
        let t2 := (info.p - ray.origin).lengthSq
        if t2 > 1 / 10 ^ 7 ∧ t2 < s.tSquared then { primIndex := some (i, info), tSquared := t2 } else s
      | none => s
    intersectLeaf ray tris (i + 1) s

/-- /repo/src/bvh.rs:514-540: the leaf case of `intersect`; the slice `&primitives[ini..fin]` may panic. -/
def intersectAct (primitives : List (Tri K)) (ray : Ray3 K) (ini fin : Nat) (s : HitState K) :
    LeafOut (HitState K) Empty :=
  match slice? primitives ini fin with
  | none => .panic
  | some tris => .cont (intersectLeaf ray tris ini s)

/-- /repo/src/bvh.rs:485-628 `BoundingVolumeTree::intersect`.  `scratch` is the previous content of `nodes_to_visit`,
truncated to length 0 by the code before use (498).  Returns the index and the intersection info stored in
`ray.interaction.geometry_shading`.  The final assignment of `interaction.point`/`wo` (620-626) needs a square root and is in
`Model/TriangleReal.lean`. -/
def bvhIntersect (env : BvhEnv K) (nodes : List (FlatNode K)) (primitives : List (Tri K)) (ray : Ray3 K)
    (scratch : List Nat) : Res (Option (Nat × Bary K)) :=
  if nodes.isEmpty then .ok none
  else
    let stack := scratch.take 0
    (traverseLoop nodes (fun b => env.boxHit b ray) (dirIsNeg ray) (intersectAct primitives ray) nodes.length 0 stack
        { primIndex := none, tSquared := floatMax K }).bind fun r =>
      match r with
      | .inl s => .ok s.primIndex
      | .inr e => nomatch e

/-- /repo/src/bvh.rs:671-676: the blocking condition on a squared distance. -/
def blocks (t2 distanceSquared : K) : Bool :=
  decide (t2 > 1 / 10 ^ 6 ∧ t2 + 1 / 10 ^ 6 < distanceSquared ∧ |distanceSquared - t2| > 1 / 10 ^ 4)

/-- /repo/src/bvh.rs:666-679: does some triangle of a leaf make the function return false? -/
def unobstructedLeaf (ray : Ray3 K) (distanceSquared : K) : List (Tri K) → LeafOut Unit Bool
  | [] => .cont ()
  | tri :: tris =>
    match simpleTriangleIntersect tri ray with
    | some p =>
      if blocks (p - ray.origin).lengthSq distanceSquared then .ret false
      else unobstructedLeaf ray distanceSquared tris
    | none => unobstructedLeaf ray distanceSquared tris

/-- /repo/src/bvh.rs:657-679: the leaf case of `unobstructed_distance`. -/
def unobstructedAct (primitives : List (Tri K)) (ray : Ray3 K) (distanceSquared : K) (ini fin : Nat) (_ : Unit) :
    LeafOut Unit Bool :=
  match slice? primitives ini fin with
  | none => .panic
  | some tris => unobstructedLeaf ray distanceSquared tris

/-- /repo/src/bvh.rs:631-744 `BoundingVolumeTree::unobstructed_distance`. -/
def bvhUnobstructed (env : BvhEnv K) (nodes : List (FlatNode K)) (primitives : List (Tri K)) (ray : Ray3 K)
    (distanceSquared : K) (scratch : List Nat) : Res Bool :=
  if nodes.isEmpty then .ok true
  else
    let stack := scratch.take 0
    (traverseLoop nodes (fun b => env.boxHit b ray) (dirIsNeg ray) (unobstructedAct primitives ray distanceSquared)
        nodes.length 0 stack ()).bind fun r =>
      match r with
      | .inl _ => .ok true
      | .inr b => .ok b

end traverse

section new
variable [Field K] [LinearOrder K] [FloorRing K]

/-- `BoundingVolumeTree`: /repo/src/bvh.rs:387-390. -/
structure Bvh (K : Type) where
  nodes : List (FlatNode K)

/-- Gathering rows by index (`ordered_x.push(x[index])`), panicking on an out-of-range index. -/
def gather {α : Type} (rows : List α) (order : List Nat) : Res (List α) :=
  match order with
  | [] => .ok []
  | i :: is => do
    let r ← Res.ofOption rows[i]?
    let rs ← gather rows is
    .ok (r :: rs)

/-- /repo/src/bvh.rs:393-447 `BoundingVolumeTree::new`: takes the four parallel arrays of the scene, returns the
accelerator and the arrays as reordered. -/
def bvhNew {F B N : Type} (env : BvhEnv K) (triangles : List (Tri K)) (front : List F) (back : List B)
    (normals : List N) : Res (Bvh K × List (Tri K) × List F × List B × List N) :=
  let nObjects := triangles.length
  if nObjects = 0 then .ok (⟨[]⟩, triangles, front, back, normals)
  else do
    let infos := triangles.zipIdx.map (fun p => ObjInfo.new p.2 p.1)
    let (root, order) ← recursiveBuild env nObjects infos 0
    let tris' ← gather triangles order
    let back' ← gather back order
    let front' ← gather front order
    let normals' ← gather normals order
    .ok (⟨(flattenNode root []).1⟩, tris', front', back', normals')

end new

end Rendering
