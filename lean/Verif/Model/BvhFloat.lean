import Verif.Model.Bvh
import Verif.Model.TriangleFloat

/-!
# The accelerator of /repo/src/bvh.rs in double precision

The same functions as in `Model/Bvh.lean`, every operation rounded (`Model/F64.lean`).  What does no arithmetic — the unions of boxes, the tree,
its flattening, the traversal loop, the gathering of rows — is shared with `Model/Bvh.lean`.
-/

namespace Rendering

namespace F64
theorem val_injective : Function.Injective F64.val := fun a b h => by cases a; cases b; cases h; rfl
/-- `f64::min`, `f64::max` and comparisons, for numbers that are not NaN. -/
instance : LinearOrder F64 where
  le_refl a := le_refl a.val
  le_trans a b c := le_trans (a := a.val) (b := b.val) (c := c.val)
  lt_iff_le_not_ge a b := lt_iff_le_not_ge (a := a.val) (b := b.val)
  le_antisymm a b h h' := val_injective (le_antisymm h h')
  le_total a b := le_total a.val b.val
  toDecidableLE := inferInstance
  toDecidableLT := inferInstance
  toDecidableEq := inferInstance
end F64

/-- `Float::MAX`. -/
def floatMax64 : F64 := ⟨(2 ^ 53 - 1) * 2 ^ 971⟩

/-- `Float as usize` after `floor()`: saturating at zero below. -/
def F64.floorAsUsize (x : F64) : Nat := (Int.floor x.val).toNat

/-- /repo/src/bvh.rs:70-80 `ObjectInfo::new`. -/
def ObjInfo.new64 (index : Nat) (tri : Tri F64) : ObjInfo F64 :=
  let bounds := worldBounds tri
  let half := F64.lit (1 / 2)
  { index := index, bounds := bounds,
    centroid := ⟨(bounds.max.x + bounds.min.x) * half, (bounds.max.y + bounds.min.y) * half, (bounds.max.z + bounds.min.z) * half⟩ }

/-- /repo/src/bvh.rs:40-61 `get_bucket_index`. -/
def getBucketIndex64 (centroid : Vec3 F64) (lenAxis : F64) (axis : Axis) (nBuckets : Nat) (minCentroid : Vec3 F64) : Nat :=
  let bucketIndex := ((centroid.get axis - minCentroid.get axis) * (nBuckets : F64) / lenAxis).floorAsUsize
  if bucketIndex ≥ nBuckets then nBuckets - 1 else bucketIndex

/-- /repo/src/bvh.rs:225-256: the bucket table after registering every primitive. -/
def fillBuckets64 (infos : List (ObjInfo F64)) (lenAxis : F64) (axis : Axis) (minC : Vec3 F64) : List (BucketInfo F64) :=
  infos.foldl (fun bs info => bs.modify (getBucketIndex64 info.centroid lenAxis axis nBuckets minC)
      (fun b => b.register info.centroid))
    (List.replicate nBuckets ⟨0, none⟩)

/-- /repo/src/bvh.rs:262-286: cost of splitting after bucket `i`; `none` is NaN (zero divided by zero), as in `splitCost`. -/
def splitCost64 (env : BvhEnv F64) (bounds : BBox F64) (buckets : List (BucketInfo F64)) (i : Nat) : Res (Option F64) := do
  let b0 ← Res.ofOption buckets[0]?
  let before0 ← Res.ofOption b0.bounds
  let (before, countBefore) := mergeBuckets (before0, b0.count) ((buckets.take (i + 1)).drop 1)
  let bl ← Res.ofOption buckets[nBuckets - 1]?
  let after0 ← Res.ofOption bl.bounds
  let (after, countAfter) := mergeBuckets (after0, bl.count) ((buckets.take (nBuckets - 1)).drop (i + 1))
  if (env.surfaceArea bounds).val = 0 then pure none
  else pure (some (F64.lit 10 + ((countBefore : F64) * env.surfaceArea before + (countAfter : F64) * env.surfaceArea after)
      / env.surfaceArea bounds))

/-- /repo/src/bvh.rs:259-291: scan over the split positions, keeping `(min_cost, min_cost_bucket)`. -/
def minCostLoop64 (env : BvhEnv F64) (bounds : BBox F64) (buckets : List (BucketInfo F64)) :
    List Nat → F64 × Nat → Res (F64 × Nat)
  | [], acc => .ok acc
  | i :: is, acc => do
    let c ← splitCost64 env bounds buckets i
    match c with
    | some c => minCostLoop64 env bounds buckets is (if c < acc.1 then (c, i) else acc)
    | none => minCostLoop64 env bounds buckets is acc

/-- /repo/src/bvh.rs:299-314: position after the run of primitives whose bucket is not past `minBucket`. -/
def findMid64 (infos : List (ObjInfo F64)) (lenAxis : F64) (axis : Axis) (minC : Vec3 F64) (minBucket : Nat) : Option Nat :=
  let k := (infos.takeWhile (fun i => decide (getBucketIndex64 i.centroid lenAxis axis nBuckets minC ≤ minBucket))).length
  if k = 0 then none else some k

/-- /repo/src/bvh.rs:165-331: what is decided for the primitives in scope before recursing. -/
def decideSplit64 (env : BvhEnv F64) (i0 : ObjInfo F64) (rest : List (ObjInfo F64)) : Res (SplitDecision F64) :=
  let infos := i0 :: rest
  let n := infos.length
  let bounds := boundsOf i0 rest
  let cb := centroidBoundsOf i0 rest
  let axis := env.maxExtent cb
  let lenAxis := cb.max.get axis - cb.min.get axis
  if lenAxis < F64.lit (1 / 10 ^ 8) then .ok .makeLeaf
  else if n ≤ tooFewToBucket then
    let mid := n / 2
    .ok (.split axis (env.select mid axis infos) mid)
  else do
    let buckets := fillBuckets64 infos lenAxis axis cb.min
    let (minCost, minBucket) ← minCostLoop64 env bounds buckets (List.range (nBuckets - 1)) (floatMax64, 0)
    if n > 24 ∨ minCost < (n : F64) then
      let sorted := env.sort axis infos
      let mid ← Res.ofOption (findMid64 sorted lenAxis axis cb.min minBucket)
      .ok (.split axis sorted mid)
    else .ok .makeLeaf

/-- /repo/src/bvh.rs:120-355 `recursive_build`. -/
def recursiveBuild64 (env : BvhEnv F64) : Nat → List (ObjInfo F64) → Nat → Res (Node F64 × List Nat)
  | 0, _, _ => .diverge
  | _ + 1, [], _ => .panic
  | fuel + 1, i0 :: rest, offset =>
    let leaf : Node F64 × List Nat :=
      (.leaf (boundsOf i0 rest) offset (rest.length + 1), (i0 :: rest).map (·.index))
    if rest.length + 1 = 1 then .ok leaf
    else
      (decideSplit64 env i0 rest).bind fun d =>
        match d with
        | .makeLeaf => .ok leaf
        | .split axis infos mid =>
          (recursiveBuild64 env fuel (infos.take mid) offset).bind fun (c1, o1) =>
          (recursiveBuild64 env fuel (infos.drop mid) (offset + o1.length)).bind fun (c2, o2) =>
          .ok (Node.newInterior axis c1 c2, o1 ++ o2)

/-- /repo/src/bvh.rs:393-447 `BoundingVolumeTree::new`. -/
def bvhNew64 {F B N : Type} (env : BvhEnv F64) (triangles : List (Tri F64)) (front : List F) (back : List B)
    (normals : List N) : Res (Bvh F64 × List (Tri F64) × List F × List B × List N) :=
  let nObjects := triangles.length
  if nObjects = 0 then .ok (⟨[]⟩, triangles, front, back, normals)
  else do
    let infos := triangles.zipIdx.map (fun p => ObjInfo.new64 p.2 p.1)
    let (root, order) ← recursiveBuild64 env nObjects infos 0
    let tris' ← gather triangles order
    let back' ← gather back order
    let front' ← gather front order
    let normals' ← gather normals order
    .ok (⟨(flattenNode root []).1⟩, tris', front', back', normals')

/-! ## Rays -/

/-- `ray.project(t)` (crate `geometry3d`): the origin plus the direction times `t`. -/
def project64 (ray : Ray3 F64) (t : F64) : Vec3 F64 :=
  ⟨ray.origin.x + ray.direction.x * t, ray.origin.y + ray.direction.y * t, ray.origin.z + ray.direction.z * t⟩

/-- `(p - origin).length_squared()` at /repo/src/bvh.rs:526-527 and 669. -/
def distSq64 (p origin : Vec3 F64) : F64 :=
  let d := sub64 p origin
  d.x * d.x + d.y * d.y + d.z * d.z

/-- /repo/src/triangle.rs:276-291 `triangle_intersect`: the point and the coordinates. -/
def triangleIntersect64 (tri : Tri F64) (ray : Ray3 F64) : Option (Bary F64) :=
  (baricentric64 ray tri).map fun (t, u, v) => ⟨project64 ray t, u, v, t⟩

/-- `dir_is_neg`: /repo/src/bvh.rs:502-507, 646-651. -/
def dirIsNeg64 (ray : Ray3 F64) (a : Axis) : Bool := decide ((F64.lit 1 / ray.direction.get a).val < 0)

/-- /repo/src/bvh.rs:521-540: all triangles of a leaf; `i` is the index of the first one. -/
def intersectLeaf64 (ray : Ray3 F64) : List (Tri F64) → Nat → HitState F64 → HitState F64
  | [], _, s => s
  | tri :: tris, i, s =>
    let s :=
      match triangleIntersect64 tri ray with
      | some info =>
        let t2 := distSq64 info.p ray.origin
        if F64.lit (1 / 10 ^ 7) < t2 ∧ t2 < s.tSquared then { primIndex := some (i, info), tSquared := t2 } else s
      | none => s
    intersectLeaf64 ray tris (i + 1) s

/-- /repo/src/bvh.rs:514-540: the leaf case of `intersect`. -/
def intersectAct64 (primitives : List (Tri F64)) (ray : Ray3 F64) (ini fin : Nat) (s : HitState F64) :
    LeafOut (HitState F64) Empty :=
  match slice? primitives ini fin with
  | none => .panic
  | some tris => .cont (intersectLeaf64 ray tris ini s)

/-- /repo/src/bvh.rs:485-628 `BoundingVolumeTree::intersect`. -/
def bvhIntersect64 (env : BvhEnv F64) (nodes : List (FlatNode F64)) (primitives : List (Tri F64)) (ray : Ray3 F64)
    (scratch : List Nat) : Res (Option (Nat × Bary F64)) :=
  if nodes.isEmpty then .ok none
  else
    let stack := scratch.take 0
    (traverseLoop nodes (fun b => env.boxHit b ray) (dirIsNeg64 ray) (intersectAct64 primitives ray) nodes.length 0 stack
        { primIndex := none, tSquared := floatMax64 }).bind fun r =>
      match r with
      | .inl s => .ok s.primIndex
      | .inr e => nomatch e

/-- /repo/src/bvh.rs:671-676: the blocking condition on a squared distance. -/
def blocks64 (t2 distanceSquared : F64) : Bool :=
  decide (F64.lit (1 / 10 ^ 6) < t2 ∧ t2 + F64.lit (1 / 10 ^ 6) < distanceSquared ∧
    (F64.lit (1 / 10 ^ 4)).val < |(distanceSquared - t2).val|)

/-- /repo/src/bvh.rs:667-676: does this triangle make the function return false? -/
def obstructs64 (ray : Ray3 F64) (distanceSquared : F64) (tri : Tri F64) : Bool :=
  match triangleIntersect64 tri ray with
  | some info => blocks64 (distSq64 info.p ray.origin) distanceSquared
  | none => false

/-- /repo/src/bvh.rs:666-679: the loop over the triangles of a leaf, which returns at the first one that obstructs. -/
def unobstructedLeaf64 (ray : Ray3 F64) (distanceSquared : F64) (tris : List (Tri F64)) : LeafOut Unit Bool :=
  if tris.any (obstructs64 ray distanceSquared) then .ret false else .cont ()

/-- /repo/src/bvh.rs:657-679: the leaf case of `unobstructed_distance`. -/
def unobstructedAct64 (primitives : List (Tri F64)) (ray : Ray3 F64) (distanceSquared : F64) (ini fin : Nat) (_ : Unit) :
    LeafOut Unit Bool :=
  match slice? primitives ini fin with
  | none => .panic
  | some tris => unobstructedLeaf64 ray distanceSquared tris

/-- /repo/src/bvh.rs:631-744 `BoundingVolumeTree::unobstructed_distance`. -/
def bvhUnobstructed64 (env : BvhEnv F64) (nodes : List (FlatNode F64)) (primitives : List (Tri F64)) (ray : Ray3 F64)
    (distanceSquared : F64) (scratch : List Nat) : Res Bool :=
  if nodes.isEmpty then .ok true
  else
    let stack := scratch.take 0
    (traverseLoop nodes (fun b => env.boxHit b ray) (dirIsNeg64 ray) (unobstructedAct64 primitives ray distanceSquared)
        nodes.length 0 stack ()).bind fun r =>
      match r with
      | .inl _ => .ok true
      | .inr b => .ok b

end Rendering
