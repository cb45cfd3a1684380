import Verif.Spec.Moved
import Verif.Lemmas.World

/-!
# Lemmas for C108: building the accelerator and casting rays commute with displacement
-/

set_option linter.unusedSectionVars false
namespace Rendering

variable {K : Type} [Field K] [LinearOrder K] [IsStrictOrderedRing K]

theorem add_sub_shift (a b v : Vec3 K) : (a + v) - (b + v) = a - b := by ext <;> simp
theorem get_shift (a v : Vec3 K) (x : Axis) : (a + v).get x = a.get x + v.get x := by cases x <;> rfl

theorem fromPoint_shift (v p : Vec3 K) : BBox.fromPoint (p + v) = (BBox.fromPoint p).shift v := rfl

theorem fromUnionPoint_shift (v p : Vec3 K) (b : BBox K) : (b.shift v).fromUnionPoint (p + v) = (b.fromUnionPoint p).shift v := by
  simp only [BBox.fromUnionPoint, BBox.shift, Vec3.add_x, Vec3.add_y, Vec3.add_z, min_add_add_right, max_add_add_right, BBox.mk.injEq]
  exact ⟨rfl, rfl⟩

theorem fromUnion_shift (v : Vec3 K) (a b : BBox K) : (a.shift v).fromUnion (b.shift v) = (a.fromUnion b).shift v := by
  simp only [BBox.fromUnion, BBox.shift, Vec3.add_x, Vec3.add_y, Vec3.add_z, min_add_add_right, max_add_add_right, BBox.mk.injEq]
  exact ⟨rfl, rfl⟩

theorem worldBounds_shift (v : Vec3 K) (t : Tri K) : worldBounds (t.shift v) = (worldBounds t).shift v := by
  simp only [worldBounds, Tri.shift, fromPoint_shift, fromUnionPoint_shift]

variable [FloorRing K]

theorem objInfo_shift (v : Vec3 K) (i : Nat) (t : Tri K) : ObjInfo.new i (t.shift v) = (ObjInfo.new i t).shift v := by
  simp only [ObjInfo.new, ObjInfo.shift, worldBounds_shift, ObjInfo.mk.injEq, true_and]
  ext <;> simp [BBox.shift] <;> ring

/-- A bucket displaced. -/
def BucketInfo.shift (v : Vec3 K) (b : BucketInfo K) : BucketInfo K := ⟨b.count, b.bounds.map (BBox.shift v)⟩

theorem BucketInfo.shift_bounds (v : Vec3 K) (b : BucketInfo K) : (b.shift v).bounds = b.bounds.map (BBox.shift v) := rfl
theorem BucketInfo.shift_count (v : Vec3 K) (b : BucketInfo K) : (b.shift v).count = b.count := rfl

theorem bucketIndex_shift (v c m : Vec3 K) (len : K) (a : Axis) (n : Nat) : getBucketIndex (c + v) len a n (m + v) = getBucketIndex c len a n m := by
  unfold getBucketIndex
  simp only [get_shift, add_sub_add_right_eq_sub]

theorem register_shift (v c : Vec3 K) (b : BucketInfo K) : (b.shift v).register (c + v) = (b.register c).shift v := by
  unfold BucketInfo.register BucketInfo.shift
  cases b.bounds with
  | none => rfl
  | some bb => simp only [Option.map_some, fromUnionPoint_shift]

theorem modify_map {A B : Type} (f : A → B) (g : A → A) (g' : B → B) (h : ∀ x, g' (f x) = f (g x)) (l : List A) (i : Nat) : (l.map f).modify i g' = (l.modify i g).map f := by
  apply List.ext_getElem?
  intro j
  simp only [List.getElem?_modify, List.getElem?_map]
  split
  · cases l[j]? <;> simp [h]
  · cases l[j]? <;> simp

theorem fillBuckets_shift (v : Vec3 K) (infos : List (ObjInfo K)) (len : K) (a : Axis) (m : Vec3 K) :
    fillBuckets (infos.map (ObjInfo.shift v)) len a (m + v) = (fillBuckets infos len a m).map (BucketInfo.shift v) := by
  unfold fillBuckets
  have h0 : (List.replicate nBuckets (⟨0, none⟩ : BucketInfo K)) = (List.replicate nBuckets (⟨0, none⟩ : BucketInfo K)).map (BucketInfo.shift v) := by
    rw [List.map_replicate]; rfl
  conv_lhs => rw [h0]
  generalize List.replicate nBuckets (⟨0, none⟩ : BucketInfo K) = bs
  induction infos generalizing bs with
  | nil => rfl
  | cons i is ih =>
    simp only [List.map_cons, List.foldl_cons]
    rw [← ih]
    congr 1
    have : (ObjInfo.shift v i).centroid = i.centroid + v := rfl
    rw [this, bucketIndex_shift]
    exact modify_map _ _ _ (fun b => register_shift v i.centroid b) _ _

theorem mergeBuckets_shift (v : Vec3 K) (init : BBox K × Nat) (bs : List (BucketInfo K)) :
    mergeBuckets (init.1.shift v, init.2) (bs.map (BucketInfo.shift v)) = ((mergeBuckets init bs).1.shift v, (mergeBuckets init bs).2) := by
  unfold mergeBuckets
  induction bs generalizing init with
  | nil => rfl
  | cons b bs ih =>
    simp only [List.map_cons, List.foldl_cons, BucketInfo.shift]
    cases b.bounds with
    | none => exact ih init
    | some bb =>
      simp only [Option.map_some, fromUnion_shift]
      exact ih (init.1.fromUnion bb, init.2 + b.count)

variable {env : SceneEnv K}

theorem splitCost_shift (hE : env.Uniform) (v : Vec3 K) (bounds : BBox K) (bs : List (BucketInfo K)) (i : Nat) :
    splitCost env.bvh (bounds.shift v) (bs.map (BucketInfo.shift v)) i = splitCost env.bvh bounds bs i := by
  unfold splitCost
  simp only [Res.bind_eq, Res.pure_eq, List.getElem?_map, ← List.map_take, ← List.map_drop]
  cases bs[0]? with
  | none => rfl
  | some b0 =>
    simp only [Option.map_some, Res.ofOption_some, Res.bind_ok, BucketInfo.shift_bounds, BucketInfo.shift_count]
    cases b0.bounds with
    | none => rfl
    | some bb =>
      simp only [Option.map_some, Res.ofOption_some, Res.bind_ok]
      cases bs[nBuckets - 1]? with
      | none => rfl
      | some bl =>
        simp only [Option.map_some, Res.ofOption_some, Res.bind_ok, BucketInfo.shift_bounds, BucketInfo.shift_count]
        cases bl.bounds with
        | none => rfl
        | some bb' =>
          simp only [Option.map_some, Res.ofOption_some, Res.bind_ok]
          have h := fun l => mergeBuckets_shift v (bb, b0.count) l
          have h' := fun l => mergeBuckets_shift v (bb', bl.count) l
          simp only at h h'
          simp only [h, h', hE.surfaceArea]

theorem minCostLoop_shift (hE : env.Uniform) (v : Vec3 K) (bounds : BBox K) (bs : List (BucketInfo K)) (is : List Nat) (acc : K × Nat) :
    minCostLoop env.bvh (bounds.shift v) (bs.map (BucketInfo.shift v)) is acc = minCostLoop env.bvh bounds bs is acc := by
  induction is generalizing acc with
  | nil => rfl
  | cons i is ih =>
    unfold minCostLoop
    rw [splitCost_shift hE]
    congr 1
    funext c
    cases c with
    | none => exact ih _
    | some c => exact ih _

theorem findMid_shift (v : Vec3 K) (infos : List (ObjInfo K)) (len : K) (a : Axis) (m : Vec3 K) (k : Nat) :
    findMid (infos.map (ObjInfo.shift v)) len a (m + v) k = findMid infos len a m k := by
  unfold findMid
  rw [List.takeWhile_map]
  simp only [List.length_map, Function.comp_def, ObjInfo.shift, bucketIndex_shift]

theorem boundsOf_shift (v : Vec3 K) (i0 : ObjInfo K) (rest : List (ObjInfo K)) : boundsOf (i0.shift v) (rest.map (ObjInfo.shift v)) = (boundsOf i0 rest).shift v := by
  unfold boundsOf
  have : (i0.shift v).bounds = i0.bounds.shift v := rfl
  rw [this]
  generalize i0.bounds = b
  induction rest generalizing b with
  | nil => rfl
  | cons i is ih =>
    simp only [List.map_cons, List.foldl_cons]
    rw [← ih, ← fromUnion_shift]; rfl

theorem centroidBoundsOf_shift (v : Vec3 K) (i0 : ObjInfo K) (rest : List (ObjInfo K)) : centroidBoundsOf (i0.shift v) (rest.map (ObjInfo.shift v)) = (centroidBoundsOf i0 rest).shift v := by
  unfold centroidBoundsOf
  have : BBox.fromPoint (i0.shift v).centroid = (BBox.fromPoint i0.centroid).shift v := rfl
  rw [this]
  generalize BBox.fromPoint i0.centroid = b
  induction rest generalizing b with
  | nil => rfl
  | cons i is ih =>
    simp only [List.map_cons, List.foldl_cons]
    rw [← ih, ← fromUnionPoint_shift]; rfl

/-- A decision displaced. -/
def SplitDecision.shift (v : Vec3 K) : SplitDecision K → SplitDecision K
  | .makeLeaf => .makeLeaf
  | .split a l m => .split a (l.map (ObjInfo.shift v)) m

/-- A tree displaced. -/
def Node.shift (v : Vec3 K) : Node K → Node K
  | .leaf b f n => .leaf (b.shift v) f n
  | .interior b a l r => .interior (b.shift v) a (l.shift v) (r.shift v)

theorem bind_map {A B C : Type} (f : A → B) (x : Res A) (g : B → Res C) : (x.bind fun a => .ok (f a)).bind g = x.bind fun a => g (f a) := by cases x <;> rfl
theorem bind_assoc' {A B C : Type} (x : Res A) (f : A → Res B) (g : B → Res C) : (x.bind f).bind g = x.bind fun y => (f y).bind g := by cases x <;> rfl

theorem decideSplit_shift (hE : env.Uniform) (v : Vec3 K) (i0 : ObjInfo K) (rest : List (ObjInfo K)) :
    decideSplit env.bvh (i0.shift v) (rest.map (ObjInfo.shift v)) = (decideSplit env.bvh i0 rest).bind fun d => .ok (d.shift v) := by
  unfold decideSplit
  simp only [boundsOf_shift, centroidBoundsOf_shift, hE.maxExtent, ← List.map_cons, List.length_map, Res.bind_eq, hE.select, hE.sort]
  have hl : ((centroidBoundsOf i0 rest).shift v).max.get (env.bvh.maxExtent (centroidBoundsOf i0 rest)) - ((centroidBoundsOf i0 rest).shift v).min.get (env.bvh.maxExtent (centroidBoundsOf i0 rest)) =
      (centroidBoundsOf i0 rest).max.get (env.bvh.maxExtent (centroidBoundsOf i0 rest)) - (centroidBoundsOf i0 rest).min.get (env.bvh.maxExtent (centroidBoundsOf i0 rest)) := by
    simp only [BBox.shift, get_shift, add_sub_add_right_eq_sub]
  have hm : ((centroidBoundsOf i0 rest).shift v).min = (centroidBoundsOf i0 rest).min + v := rfl
  rw [hl, hm]
  split_ifs with h1 h2
  · rfl
  · rfl
  · rw [fillBuckets_shift, minCostLoop_shift hE, bind_assoc']
    congr 1
    funext x
    simp only [findMid_shift]
    split_ifs
    · rw [bind_assoc']; rfl
    · rfl

theorem newInterior_shift (v : Vec3 K) (a : Axis) (l r : Node K) : Node.newInterior a (l.shift v) (r.shift v) = (Node.newInterior a l r).shift v := by
  have hb : ∀ n : Node K, (n.shift v).bounds = n.bounds.shift v := fun n => by cases n <;> rfl
  simp only [Node.newInterior, hb, fromUnion_shift, Node.shift]

theorem recursiveBuild_shift (hE : env.Uniform) (v : Vec3 K) (fuel : Nat) (infos : List (ObjInfo K)) (offset : Nat) :
    recursiveBuild env.bvh fuel (infos.map (ObjInfo.shift v)) offset = (recursiveBuild env.bvh fuel infos offset).bind fun x => .ok (x.1.shift v, x.2) := by
  induction fuel generalizing infos offset with
  | zero => rfl
  | succ fuel ih =>
    cases infos with
    | nil => rfl
    | cons i0 rest =>
      have hmap : (List.map (fun x => x.index) (ObjInfo.shift v i0 :: rest.map (ObjInfo.shift v))) = List.map (fun x => x.index) (i0 :: rest) := by
        simp [ObjInfo.shift, Function.comp_def]
      simp only [List.map_cons, recursiveBuild, boundsOf_shift, List.length_map]
      simp only [List.map_cons] at hmap
      rw [hmap]
      split_ifs
      · rfl
      · rw [decideSplit_shift hE, bind_map, bind_assoc']
        congr 1
        funext d
        cases d with
        | makeLeaf => rfl
        | split a l m =>
          simp only [SplitDecision.shift, ← List.map_take, ← List.map_drop, ih, Res.bind_ok, bind_assoc', newInterior_shift]

/-- A stored node displaced. -/
def FlatNode.shift (v : Vec3 K) (n : FlatNode K) : FlatNode K := { n with bounds := n.bounds.shift v }

theorem flattenNode_shift (v : Vec3 K) (n : Node K) (nodes : List (FlatNode K)) :
    flattenNode (n.shift v) (nodes.map (FlatNode.shift v)) = ((flattenNode n nodes).1.map (FlatNode.shift v), (flattenNode n nodes).2) := by
  induction n generalizing nodes with
  | leaf b f k => simp [flattenNode, Node.shift, FlatNode.shift]
  | interior b a l r ihl ihr =>
    have h0 : nodes.map (FlatNode.shift v) ++ [({ bounds := b.shift v, nPrims := 0, next := 0, axis := a } : FlatNode K)] =
        (nodes ++ [({ bounds := b, nPrims := 0, next := 0, axis := a } : FlatNode K)]).map (FlatNode.shift v) := by simp [FlatNode.shift]
    simp only [Node.shift, flattenNode, h0, ihl, ihr, List.length_map]
    refine Prod.ext ?_ rfl
    simp only
    refine modify_map (FlatNode.shift v) _ _ ?_ _ _
    intro x
    simp only [FlatNode.shift]

theorem gather_map {A B : Type} (f : A → B) (rows : List A) (order : List Nat) : gather (rows.map f) order = (gather rows order).bind fun l => .ok (l.map f) := by
  induction order with
  | nil => rfl
  | cons i is ih =>
    unfold gather
    simp only [Res.bind_eq, List.getElem?_map, ih]
    cases rows[i]? with
    | none => rfl
    | some r =>
      simp only [Option.map_some, Res.ofOption_some, Res.bind_ok, bind_map, bind_assoc']
      rfl

theorem bvhNew_shift {F B N : Type} (hE : env.Uniform) (v : Vec3 K) (tris : List (Tri K)) (front : List F) (back : List B) (normals : List N) :
    bvhNew env.bvh (tris.map (Tri.shift v)) front back normals =
      (bvhNew env.bvh tris front back normals).bind fun x => .ok (⟨x.1.nodes.map (FlatNode.shift v)⟩, x.2.1.map (Tri.shift v), x.2.2) := by
  unfold bvhNew
  simp only [List.length_map, Res.bind_eq]
  have hz : ((tris.map (Tri.shift v)).zipIdx.map fun p => ObjInfo.new p.2 p.1) = (tris.zipIdx.map fun p => ObjInfo.new p.2 p.1).map (ObjInfo.shift v) := by
    rw [List.zipIdx_map, List.map_map, List.map_map]
    refine List.map_congr_left fun p _ => ?_
    simp [objInfo_shift]
  split_ifs
  · rfl
  · rw [hz, recursiveBuild_shift hE, bind_map, bind_assoc']
    congr 1
    funext x
    have := flattenNode_shift v x.1 []
    simp only [List.map_nil] at this
    simp only [gather_map (Tri.shift v), Res.bind_ok, bind_assoc', this]

/-! ### Casting rays -/

/-- An intersection displaced. -/
def Bary.shift (v : Vec3 K) (b : Bary K) : Bary K := { b with p := b.p + v }

theorem project_shift (v : Vec3 K) (r : Ray3 K) (t : K) : (r.shift v).project t = r.project t + v := by
  ext <;> simp [Ray3.project, Ray3.shift] <;> ring

theorem bary_shift (v : Vec3 K) (ray : Ray3 K) (t : Tri K) : baricentricCoordinates (ray.shift v) (t.shift v) = (baricentricCoordinates ray t).map (Bary.shift v) := by
  unfold baricentricCoordinates
  simp only [project_shift]
  simp only [Ray3.shift, Tri.shift, add_sub_shift]
  split_ifs <;> rfl

/-- The state of the search displaced. -/
def HitState.shift (v : Vec3 K) (s : HitState K) : HitState K := { s with primIndex := s.primIndex.map fun x => (x.1, x.2.shift v) }

theorem intersectLeaf_shift (v : Vec3 K) (ray : Ray3 K) (tris : List (Tri K)) (i : Nat) (s : HitState K) :
    intersectLeaf (ray.shift v) (tris.map (Tri.shift v)) i (s.shift v) = (intersectLeaf ray tris i s).shift v := by
  induction tris generalizing i s with
  | nil => rfl
  | cons t ts ih =>
    simp only [List.map_cons, intersectLeaf]
    rw [← ih]
    congr 1
    unfold triangleIntersect
    rw [bary_shift]
    cases baricentricCoordinates ray t with
    | none => rfl
    | some b =>
      simp only [Option.map_some]
      have : (b.shift v).p - (ray.shift v).origin = b.p - ray.origin := add_sub_shift _ _ _
      rw [this]
      have h2 : (s.shift v).tSquared = s.tSquared := rfl
      rw [h2]
      split_ifs <;> rfl

theorem unobstructedLeaf_shift (v : Vec3 K) (ray : Ray3 K) (d2 : K) (tris : List (Tri K)) : unobstructedLeaf (ray.shift v) d2 (tris.map (Tri.shift v)) = unobstructedLeaf ray d2 tris := by
  induction tris with
  | nil => rfl
  | cons t ts ih =>
    simp only [List.map_cons, unobstructedLeaf, simpleTriangleIntersect, bary_shift, ih]
    cases baricentricCoordinates ray t with
    | none => rfl
    | some b =>
      simp only [Option.map_some]
      have : (b.shift v).p - (ray.shift v).origin = b.p - ray.origin := add_sub_shift _ _ _
      rw [this]

theorem slice_map {A B : Type} (f : A → B) (l : List A) (i j : Nat) : slice? (l.map f) i j = (slice? l i j).map (List.map f) := by
  unfold slice?
  simp only [List.length_map]
  split_ifs
  · simp [List.map_drop, List.map_take]
  · rfl

theorem traverse_shift {S R : Type} (v : Vec3 K) (nodes : List (FlatNode K)) (hit hit' : BBox K → Bool) (hh : ∀ b, hit' (b.shift v) = hit b) (neg : Axis → Bool) (f : S → S)
    (leaf leaf' : Nat → Nat → S → LeafOut S R)
    (hl : ∀ i j s, leaf' i j (f s) = match leaf i j s with | .cont s => .cont (f s) | .ret r => .ret r | .panic => .panic) (fuel cur : Nat) (stack : List Nat) (s : S) :
    traverseLoop (nodes.map (FlatNode.shift v)) hit' neg leaf' fuel cur stack (f s) =
      (traverseLoop nodes hit neg leaf fuel cur stack s).bind fun x => .ok (match x with | .inl s => .inl (f s) | .inr r => .inr r) := by
  induction fuel generalizing cur stack s with
  | zero => rfl
  | succ fuel ih =>
    simp only [traverseLoop, List.getElem?_map]
    cases nodes[cur]? with
    | none => rfl
    | some n =>
      simp only [Option.map_some]
      have h1 : (n.shift v).bounds = n.bounds.shift v := rfl
      have h2 : (n.shift v).isLeaf = n.isLeaf := rfl
      have h3 : (n.shift v).next = n.next := rfl
      have h4 : (n.shift v).nPrims = n.nPrims := rfl
      have h5 : (n.shift v).axis = n.axis := rfl
      rw [h1, h2, h3, h4, h5, hh, hl]
      split_ifs
      · cases leaf (asUsize n.next) (asUsize n.next + asUsize n.nPrims) s with
        | panic => rfl
        | ret r => rfl
        | cont s =>
          simp only
          cases stack with
          | nil => rfl
          | cons i st => exact ih _ _ _
      · exact ih _ _ _
      · exact ih _ _ _
      · cases stack with
        | nil => rfl
        | cons i st => exact ih _ _ _

theorem bvhIntersect_shift (hE : env.Uniform) (v : Vec3 K) (nodes : List (FlatNode K)) (tris : List (Tri K)) (ray : Ray3 K) (scratch : List Nat) :
    bvhIntersect env.bvh (nodes.map (FlatNode.shift v)) (tris.map (Tri.shift v)) (ray.shift v) scratch =
      (bvhIntersect env.bvh nodes tris ray scratch).bind fun r => .ok (r.map fun x => (x.1, x.2.shift v)) := by
  unfold bvhIntersect
  simp only [List.isEmpty_map, List.length_map]
  have hd : dirIsNeg (ray.shift v) = dirIsNeg ray := rfl
  split_ifs
  · rfl
  · have h0 : ({ primIndex := none, tSquared := floatMax K } : HitState K) = HitState.shift v { primIndex := none, tSquared := floatMax K } := rfl
    rw [hd]
    conv_lhs => rw [h0]
    rw [traverse_shift v nodes (fun b => env.bvh.boxHit b ray) _ (fun b => hE.boxHit v b ray) (dirIsNeg ray) (HitState.shift v) (intersectAct tris ray) _ ?_, bind_map, bind_assoc']
    · congr 1
      funext x
      cases x with
      | inl s => rfl
      | inr e => exact e.elim
    · intro i j s
      unfold intersectAct
      rw [slice_map]
      cases slice? tris i j with
      | none => rfl
      | some ts => simp only [Option.map_some, intersectLeaf_shift]

theorem bvhUnobstructed_shift (hE : env.Uniform) (v : Vec3 K) (nodes : List (FlatNode K)) (tris : List (Tri K)) (ray : Ray3 K) (d2 : K) (scratch : List Nat) :
    bvhUnobstructed env.bvh (nodes.map (FlatNode.shift v)) (tris.map (Tri.shift v)) (ray.shift v) d2 scratch = bvhUnobstructed env.bvh nodes tris ray d2 scratch := by
  unfold bvhUnobstructed
  simp only [List.isEmpty_map, List.length_map]
  have hd : dirIsNeg (ray.shift v) = dirIsNeg ray := rfl
  split_ifs
  · rfl
  · rw [hd]
    rw [traverse_shift v nodes (fun b => env.bvh.boxHit b ray) _ (fun b => hE.boxHit v b ray) (dirIsNeg ray) (id : Unit → Unit) (unobstructedAct tris ray d2) _ ?_, bind_map]
    · congr 1
      funext x
      cases x <;> rfl
    · intro i j s
      unfold unobstructedAct
      rw [slice_map]
      cases slice? tris i j with
      | none => rfl
      | some ts =>
        simp only [Option.map_some, unobstructedLeaf_shift]
        cases unobstructedLeaf ray d2 ts <;> rfl

/-! ### Scenes -/

/-- A light displaced. -/
def Object.shift (v : Vec3 K) (o : Object K) : Object K := { o with primitive := o.primitive.shift v }

/-- A scene displaced. -/
def Scene.shift (v : Vec3 K) (s : Scene K) : Scene K :=
  { s with triangles := s.triangles.map (Tri.shift v), lights := s.lights.map (Object.shift v), distantLights := s.distantLights.map (Object.shift v),
           accelerator := s.accelerator.map fun a => ⟨a.nodes.map (FlatNode.shift v)⟩ }

theorem rebuild_shift (hE : env.Uniform) (v : Vec3 K) (s : Scene K) : (s.shift v).rebuildAccelerator env = (s.rebuildAccelerator env).bind fun s => .ok (s.shift v) := by
  unfold Scene.rebuildAccelerator
  have : bvhNew env.bvh (s.shift v).triangles (s.shift v).front (s.shift v).back (s.shift v).normals = _ := bvhNew_shift hE v s.triangles s.front s.back s.normals
  rw [this, bind_map, bind_assoc']
  rfl

theorem pushObject_shift (hE : env.Uniform) (v : Vec3 K) (s : Scene K) (f b : Nat) (p : Primitive K) :
    (s.shift v).pushObject env f b (p.shift v) = (s.pushObject env f b p).bind fun s => .ok (s.shift v) := by
  unfold Scene.pushObject
  have hm : (s.shift v).materials = s.materials := rfl
  rw [hm]
  cases s.materials[f]? with
  | none => rfl
  | some mf =>
    cases s.materials[b]? with
    | none => rfl
    | some mb =>
      simp only
      cases p with
      | sphere c r =>
        simp only [Primitive.shift, Primitive.id, hE.mesh, Res.bind_ok]
        split_ifs <;> simp_all [Scene.shift, Object.shift, Primitive.shift]
      | triangle t =>
        have hmesh : meshTriangle env (t.shift v) = ((meshTriangle env t).1.map (Tri.shift v), (meshTriangle env t).2) := by
          simp only [meshTriangle, Tri.shift, add_sub_shift, List.map_cons, List.map_nil]
        simp only [Primitive.shift, Primitive.id, hmesh, Res.bind_ok]
        split_ifs <;> simp_all [Scene.shift, Object.shift, Primitive.shift]
      | cylinder a c r =>
        simp only [Primitive.shift, Primitive.id]
        split_ifs <;> simp_all [Scene.shift, Object.shift, Primitive.shift]
      | source d a =>
        simp only [Primitive.shift, Primitive.id]
        split_ifs <;> simp_all [Scene.shift, Object.shift, Primitive.shift]

theorem step_shift (hE : env.Uniform) (v : Vec3 K) (s : Scene K) (op : SceneOp K) : (s.shift v).step env (op.shift v) = (s.step env op).bind fun s => .ok (s.shift v) := by
  cases op with
  | pushMaterial m => rfl
  | pushObject f b p => exact pushObject_shift hE v s f b p
  | build =>
    simp only [SceneOp.shift, Scene.step, Scene.buildAccelerator, rebuild_shift hE]
    have : (s.shift v).accelerator.isSome = s.accelerator.isSome := by simp [Scene.shift]
    rw [this]
    split_ifs <;> rfl
  | rebuild => exact rebuild_shift hE v s
  | addPerezSky sun =>
    cases sun with
    | none => rfl
    | some x =>
      obtain ⟨d, br, a⟩ := x
      exact pushObject_shift hE v (({ s with hasSky := true } : Scene K).pushMaterial (.light (Spectrum.gray br))).1 _ _ (.source d a)

theorem run_shift (hE : env.Uniform) (v : Vec3 K) (ops : List (SceneOp K)) (s : Scene K) : (s.shift v).run env (ops.map (SceneOp.shift v)) = (s.run env ops).bind fun s => .ok (s.shift v) := by
  induction ops generalizing s with
  | nil => rfl
  | cons op ops ih =>
    simp only [List.map_cons, Scene.run, step_shift hE, Res.bind_ok, bind_assoc', ih]

theorem castRay_shift (hE : env.Uniform) (v : Vec3 K) (s : Scene K) (ray : Ray3 K) (scratch : List Nat) :
    (s.shift v).castRay env (ray.shift v) scratch = (s.castRay env ray scratch).bind fun r => .ok (r.map fun x => (x.1, x.2.shift v)) := by
  unfold Scene.castRay
  have : (s.shift v).accelerator = s.accelerator.map fun a => ⟨a.nodes.map (FlatNode.shift v)⟩ := rfl
  rw [this]
  cases s.accelerator with
  | none => rfl
  | some a => exact bvhIntersect_shift hE v a.nodes s.triangles ray scratch

theorem unobstructedDistance_shift (hE : env.Uniform) (v : Vec3 K) (s : Scene K) (ray : Ray3 K) (d2 : K) (scratch : List Nat) :
    (s.shift v).unobstructedDistance env (ray.shift v) d2 scratch = s.unobstructedDistance env ray d2 scratch := by
  unfold Scene.unobstructedDistance
  have : (s.shift v).accelerator = s.accelerator.map fun a => ⟨a.nodes.map (FlatNode.shift v)⟩ := rfl
  rw [this]
  cases s.accelerator with
  | none => rfl
  | some a => exact bvhUnobstructed_shift hE v a.nodes s.triangles ray d2 scratch

end Rendering
