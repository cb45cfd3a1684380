import Verif.Lemmas.BvhFlatten

set_option linter.unusedSectionVars false

open scoped List

namespace Rendering
variable {K : Type} [Field K] [LinearOrder K] [IsStrictOrderedRing K] [FloorRing K]

theorem lengthSq_eq_distSq (p o : Vec3 K) : (p - o).lengthSq = distSq p o := by
  simp only [Vec3.lengthSq, Vec3.dot, distSq, Vec3.sub_x, Vec3.sub_y, Vec3.sub_z]; ring

/-- Invariant of the search state. -/
def StateOk (P : List (Tri K)) (ray : Ray3 K) (s : HitState K) : Prop :=
  match s.primIndex with
  | none => s.tSquared = floatMax K
  | some (i, info) => ∃ tri, P[i]? = some tri ∧ triangleIntersect tri ray = some info ∧
      s.tSquared = distSq info.p ray.origin ∧ InRange s.tSquared

theorem StateOk.le {P : List (Tri K)} {ray : Ray3 K} {s : HitState K} (h : StateOk P ray s) :
    s.tSquared ≤ floatMax K := by
  unfold StateOk at h
  cases hp : s.primIndex with
  | none => rw [hp] at h; exact le_of_eq h
  | some x =>
    rw [hp] at h
    obtain ⟨_, _, _, _, h⟩ := h
    exact h.2.le

theorem intersectLeaf_spec (P : List (Tri K)) (ray : Ray3 K) (tris : List (Tri K)) (i : Nat) (s : HitState K)
    (hseg : ∀ k tri, tris[k]? = some tri → P[i + k]? = some tri) (hs : StateOk P ray s) :
    StateOk P ray (intersectLeaf ray tris i s) ∧ (intersectLeaf ray tris i s).tSquared ≤ s.tSquared ∧
    ∀ tri ∈ tris, ∀ info, triangleIntersect tri ray = some info → 1 / 10 ^ 7 < distSq info.p ray.origin →
      (intersectLeaf ray tris i s).tSquared ≤ distSq info.p ray.origin := by
  induction tris generalizing i s with
  | nil => exact ⟨hs, le_refl _, by simp⟩
  | cons tri tris ih =>
    have hseg' : ∀ k t, tris[k]? = some t → P[i + 1 + k]? = some t := by
      intro k t hk
      have := hseg (k + 1) t (by simpa using hk)
      rwa [show i + 1 + k = i + (k + 1) by omega]
    have h0 : P[i]? = some tri := hseg 0 tri (by simp)
    unfold intersectLeaf
    cases hti : triangleIntersect tri ray with
    | none =>
      simp only
      obtain ⟨g1, g2, g3⟩ := ih (i + 1) s hseg' hs
      refine ⟨g1, g2, fun t ht info hi => ?_⟩
      rcases List.mem_cons.1 ht with rfl | ht
      · rw [hti] at hi; exact absurd hi (by simp)
      · exact g3 t ht info hi
    | some info =>
      simp only
      split
      · rename_i hcond
        rw [lengthSq_eq_distSq] at hcond ⊢
        have hs' : StateOk P ray { primIndex := some (i, info), tSquared := distSq info.p ray.origin } :=
          ⟨tri, h0, hti, rfl, hcond.1, lt_of_lt_of_le hcond.2 hs.le⟩
        obtain ⟨g1, g2, g3⟩ := ih (i + 1) _ hseg' hs'
        refine ⟨g1, g2.trans hcond.2.le, fun t ht info' hi hr => ?_⟩
        rcases List.mem_cons.1 ht with rfl | ht
        · rw [hti] at hi; cases hi; exact g2
        · exact g3 t ht info' hi hr
      · rename_i hcond
        rw [lengthSq_eq_distSq] at hcond
        obtain ⟨g1, g2, g3⟩ := ih (i + 1) s hseg' hs
        refine ⟨g1, g2, fun t ht info' hi hr => ?_⟩
        rcases List.mem_cons.1 ht with rfl | ht
        · rw [hti] at hi; cases hi
          have : s.tSquared ≤ distSq info.p ray.origin := by
            by_contra hlt
            exact hcond ⟨hr, not_le.1 hlt⟩
          exact g2.trans this
        · exact g3 t ht info' hi hr

theorem unobstructedLeaf_spec (ray : Ray3 K) (D : K) (tris : List (Tri K)) :
    (unobstructedLeaf ray D tris = .cont () ∧ ∀ tri ∈ tris, ∀ info, triangleIntersect tri ray = some info →
      blocks (distSq info.p ray.origin) D = false) ∨
    (unobstructedLeaf ray D tris = .ret false ∧ ∃ tri ∈ tris, ∃ info, triangleIntersect tri ray = some info ∧
      blocks (distSq info.p ray.origin) D = true) := by
  induction tris with
  | nil => left; exact ⟨rfl, by simp⟩
  | cons tri tris ih =>
    unfold unobstructedLeaf
    unfold simpleTriangleIntersect
    cases hti : baricentricCoordinates ray tri with
    | none =>
      simp only
      rcases ih with ⟨h1, h2⟩ | ⟨h1, t, ht, h2⟩
      · left
        refine ⟨h1, fun t ht info hi => ?_⟩
        rcases List.mem_cons.1 ht with rfl | ht
        · rw [triangleIntersect, hti] at hi; exact absurd hi (by simp)
        · exact h2 t ht info hi
      · right; exact ⟨h1, t, by simp [ht], h2⟩
    | some info =>
      simp only [lengthSq_eq_distSq]
      by_cases hb : blocks (distSq info.p ray.origin) D = true
      · right
        rw [if_pos hb]
        exact ⟨rfl, tri, by simp, info, hti, hb⟩
      · rw [if_neg hb]
        rcases ih with ⟨h1, h2⟩ | ⟨h1, t, ht, h2⟩
        · left
          refine ⟨h1, fun t ht info' hi => ?_⟩
          rcases List.mem_cons.1 ht with rfl | ht
          · rw [triangleIntersect, hti] at hi; cases hi; simpa using hb
          · exact h2 t ht info' hi
        · right; exact ⟨h1, t, by simp [ht], h2⟩

/-- The primitives at positions `off ..< off + n`. -/
def seg (P : List (Tri K)) (off n : Nat) : List (Tri K) := (P.drop off).take n

omit [Field K] [LinearOrder K] [IsStrictOrderedRing K] [FloorRing K] in
theorem seg_getElem? (P : List (Tri K)) (off n k : Nat) (tri : Tri K) (h : (seg P off n)[k]? = some tri) :
    P[off + k]? = some tri := by
  unfold seg at h
  rw [List.getElem?_take] at h
  split at h
  · rwa [List.getElem?_drop] at h
  · simp at h

omit [Field K] [LinearOrder K] [IsStrictOrderedRing K] [FloorRing K] in
theorem slice?_seg (P : List (Tri K)) (off n : Nat) (h : off + n ≤ P.length) :
    slice? P off (off + n) = some (seg P off n) := by
  unfold slice? seg
  rw [if_pos ⟨by omega, h⟩, List.drop_take]
  congr 2; omega

omit [Field K] [LinearOrder K] [IsStrictOrderedRing K] [FloorRing K] in
theorem seg_append (P : List (Tri K)) (off n m : Nat) : seg P off (n + m) = seg P off n ++ seg P (off + n) m := by
  unfold seg
  rw [List.take_add, List.drop_drop]

theorem treeVisit_intersect (P : List (Tri K)) (ray : Ray3 K) (hit : BBox K → Bool) (neg : Axis → Bool)
    (G : Tri K → Prop) (hG : ∀ tri, G tri → ∀ b, (worldBounds tri).Sub b → hit b = true)
    (nd : Node K) (off : Nat) (bs : List (BBox K)) (hc : nd.Covers off bs)
    (hlen : off + bs.length ≤ P.length) (hbs : (seg P off bs.length).map worldBounds = bs) (s : HitState K)
    (hs : StateOk P ray s) :
    ∃ s', treeVisit hit neg (intersectAct P ray) nd s = .cont s' ∧ StateOk P ray s' ∧ s'.tSquared ≤ s.tSquared ∧
      ∀ tri ∈ seg P off bs.length, G tri → ∀ info, triangleIntersect tri ray = some info →
        1 / 10 ^ 7 < distSq info.p ray.origin → s'.tSquared ≤ distSq info.p ray.origin := by
  induction nd generalizing off bs s with
  | leaf b first n =>
    obtain ⟨rfl, rfl, h0, hsub⟩ := hc
    unfold treeVisit
    by_cases hb : hit b = true
    · rw [if_pos hb]
      unfold intersectAct
      rw [slice?_seg P first _ hlen]
      obtain ⟨g1, g2, g3⟩ := intersectLeaf_spec P ray (seg P first bs.length) first s
        (fun k tri h => seg_getElem? P first _ k tri h) hs
      exact ⟨_, rfl, g1, g2, fun tri ht _ info hi hr => g3 tri ht info hi hr⟩
    · rw [if_neg hb]
      refine ⟨s, rfl, hs, le_refl _, fun tri ht hg => ?_⟩
      exact absurd (hG tri hg b (hsub _ (by rw [← hbs]; exact List.mem_map_of_mem ht))) hb
  | interior b ax l r ihl ihr =>
    obtain ⟨bs1, bs2, rfl, c1, c2, s1, s2⟩ := hc
    simp only [List.length_append] at hlen hbs ⊢
    rw [seg_append] at hbs ⊢
    rw [List.map_append] at hbs
    obtain ⟨e1, e2⟩ := List.append_inj hbs (by simp [seg]; omega)
    unfold treeVisit
    by_cases hb : hit b = true
    · rw [if_pos hb]
      by_cases hn : neg ax = true
      · rw [if_pos hn]
        obtain ⟨s', h1, h2, h3, h4⟩ := ihr (off + bs1.length) bs2 c2 (by omega) e2 s hs
        obtain ⟨s'', g1, g2, g3, g4⟩ := ihl off bs1 c1 (by omega) e1 s' h2
        rw [h1]
        refine ⟨s'', g1, g2, g3.trans h3, fun tri ht hg info hi hr => ?_⟩
        rcases List.mem_append.1 ht with ht | ht
        · exact g4 tri ht hg info hi hr
        · exact g3.trans (h4 tri ht hg info hi hr)
      · rw [if_neg hn]
        obtain ⟨s', h1, h2, h3, h4⟩ := ihl off bs1 c1 (by omega) e1 s hs
        obtain ⟨s'', g1, g2, g3, g4⟩ := ihr (off + bs1.length) bs2 c2 (by omega) e2 s' h2
        rw [h1]
        refine ⟨s'', g1, g2, g3.trans h3, fun tri ht hg info hi hr => ?_⟩
        rcases List.mem_append.1 ht with ht | ht
        · exact g3.trans (h4 tri ht hg info hi hr)
        · exact g4 tri ht hg info hi hr
    · rw [if_neg hb]
      refine ⟨s, rfl, hs, le_refl _, fun tri ht hg => ?_⟩
      exfalso
      apply hb
      rcases List.mem_append.1 ht with ht | ht
      · exact hG tri hg b ((c1.sub _ (by rw [← e1]; exact List.mem_map_of_mem ht)).trans s1)
      · exact hG tri hg b ((c2.sub _ (by rw [← e2]; exact List.mem_map_of_mem ht)).trans s2)

theorem treeVisit_unobstructed (P : List (Tri K)) (ray : Ray3 K) (D : K) (hit : BBox K → Bool) (neg : Axis → Bool)
    (G : Tri K → Prop) (hG : ∀ tri, G tri → ∀ b, (worldBounds tri).Sub b → hit b = true)
    (nd : Node K) (off : Nat) (bs : List (BBox K)) (hc : nd.Covers off bs)
    (hlen : off + bs.length ≤ P.length) (hbs : (seg P off bs.length).map worldBounds = bs) :
    (treeVisit hit neg (unobstructedAct P ray D) nd () = .cont () ∧
      ∀ tri ∈ seg P off bs.length, G tri → ∀ info, triangleIntersect tri ray = some info →
        blocks (distSq info.p ray.origin) D = false) ∨
    (treeVisit hit neg (unobstructedAct P ray D) nd () = .ret false ∧
      ∃ tri ∈ seg P off bs.length, ∃ info, triangleIntersect tri ray = some info ∧
        blocks (distSq info.p ray.origin) D = true) := by
  induction nd generalizing off bs with
  | leaf b first n =>
    obtain ⟨rfl, rfl, h0, hsub⟩ := hc
    unfold treeVisit
    by_cases hb : hit b = true
    · rw [if_pos hb]
      unfold unobstructedAct
      rw [slice?_seg P first _ hlen]
      rcases unobstructedLeaf_spec ray D (seg P first bs.length) with ⟨h1, h2⟩ | h
      · left; exact ⟨h1, fun tri ht _ => h2 tri ht⟩
      · right; exact h
    · rw [if_neg hb]
      left
      refine ⟨rfl, fun tri ht hg => ?_⟩
      exact absurd (hG tri hg b (hsub _ (by rw [← hbs]; exact List.mem_map_of_mem ht))) hb
  | interior b ax l r ihl ihr =>
    obtain ⟨bs1, bs2, rfl, c1, c2, s1, s2⟩ := hc
    simp only [List.length_append] at hlen hbs ⊢
    rw [seg_append] at hbs ⊢
    rw [List.map_append] at hbs
    obtain ⟨e1, e2⟩ := List.append_inj hbs (by simp [seg]; omega)
    have hl := ihl off bs1 c1 (by omega) e1
    have hr := ihr (off + bs1.length) bs2 c2 (by omega) e2
    unfold treeVisit
    by_cases hb : hit b = true
    · rw [if_pos hb]
      by_cases hn : neg ax = true
      · rw [if_pos hn]
        rcases hr with ⟨h1, h2⟩ | ⟨h1, t, ht, h2⟩
        · rw [h1]
          rcases hl with ⟨g1, g2⟩ | ⟨g1, t, ht, g2⟩
          · left
            refine ⟨g1, fun tri ht => ?_⟩
            rcases List.mem_append.1 ht with ht | ht
            · exact g2 tri ht
            · exact h2 tri ht
          · right; exact ⟨g1, t, List.mem_append_left _ ht, g2⟩
        · right; rw [h1]; exact ⟨rfl, t, List.mem_append_right _ ht, h2⟩
      · rw [if_neg hn]
        rcases hl with ⟨g1, g2⟩ | ⟨g1, t, ht, g2⟩
        · rw [g1]
          rcases hr with ⟨h1, h2⟩ | ⟨h1, t, ht, h2⟩
          · left
            refine ⟨h1, fun tri ht => ?_⟩
            rcases List.mem_append.1 ht with ht | ht
            · exact g2 tri ht
            · exact h2 tri ht
          · right; exact ⟨h1, t, List.mem_append_right _ ht, h2⟩
        · right; rw [g1]; exact ⟨rfl, t, List.mem_append_left _ ht, g2⟩
    · rw [if_neg hb]
      left
      refine ⟨rfl, fun tri ht hg => ?_⟩
      exfalso
      apply hb
      rcases List.mem_append.1 ht with ht | ht
      · exact hG tri hg b ((c1.sub _ (by rw [← e1]; exact List.mem_map_of_mem ht)).trans s1)
      · exact hG tri hg b ((c2.sub _ (by rw [← e2]; exact List.mem_map_of_mem ht)).trans s2)

/-! ### Building from a scene -/

/-- What building guarantees about an accelerator and the reordered triangles. -/
structure AccelFor (bvh : Bvh K) (P : List (Tri K)) : Prop where
  empty_or : (P = [] ∧ bvh.nodes = []) ∨
    ∃ root : Node K, bvh.nodes = (flattenNode root []).1 ∧ root.Covers 0 (P.map worldBounds) ∧
      root.size + 1 ≤ 2 * P.length ∧ root.Fits

theorem gather_eq {α : Type} (l : List α) (order : List Nat) (h : ∀ i ∈ order, i < l.length) :
    gather l order = .ok (order.filterMap (fun i => l[i]?)) := by
  induction order with
  | nil => rfl
  | cons i is ih =>
    have hi : i < l.length := h i (by simp)
    unfold gather
    rw [ih (fun j hj => h j (by simp [hj]))]
    simp [List.getElem?_eq_getElem hi]

theorem gather_length {α : Type} (l : List α) (order : List Nat) (h : ∀ i ∈ order, i < l.length) :
    (order.filterMap (fun i => l[i]?)).length = order.length := by
  induction order with
  | nil => rfl
  | cons i is ih =>
    have hi : i < l.length := h i (by simp)
    rw [List.filterMap_cons]
    simp [List.getElem?_eq_getElem hi, ih (fun j hj => h j (by simp [hj]))]

theorem gather_zip {α β : Type} (l : List α) (l' : List β) (order : List Nat) (h : ∀ i ∈ order, i < l.length)
    (h' : ∀ i ∈ order, i < l'.length) :
    (order.filterMap (fun i => l[i]?)).zip (order.filterMap (fun i => l'[i]?)) =
      order.filterMap (fun i => (l.zip l')[i]?) := by
  induction order with
  | nil => rfl
  | cons i is ih =>
    have hi : i < l.length := h i (by simp)
    have hi' : i < l'.length := h' i (by simp)
    rw [List.filterMap_cons, List.filterMap_cons, List.filterMap_cons]
    simp [hi, hi',
      ih (fun j hj => h j (by simp [hj])) (fun j hj => h' j (by simp [hj]))]

theorem filterMap_range_getElem? {α : Type} (l : List α) : (List.range l.length).filterMap (fun i => l[i]?) = l := by
  apply List.ext_getElem?
  intro k
  induction l using List.reverseRecOn generalizing k with
  | nil => simp
  | append_singleton xs x ih =>
    have : (List.range xs.length).filterMap (fun i => (xs ++ [x])[i]?) = (List.range xs.length).filterMap (fun i => xs[i]?) := by
      apply List.filterMap_congr
      intro i hi
      rw [List.mem_range] at hi
      rw [List.getElem?_append_left hi]
    have e : (List.range xs.length).filterMap (fun i => xs[i]?) = xs := List.ext_getElem? ih
    rw [List.length_append, List.length_singleton, List.range_succ, List.filterMap_append, this, e]
    simp

theorem objInfo_centroid (k : Nat) (t : Tri K) (a : Axis) : (ObjInfo.new k t).centroid.get a = boxCentre t a := by
  cases a <;>
  · simp only [ObjInfo.new, worldBounds, BBox.fromPoint, BBox.fromUnionPoint, boxCentre, Vec3.get, Vec3.scale_x, Vec3.scale_y,
      Vec3.scale_z, Vec3.add_x, Vec3.add_y, Vec3.add_z]
    ring

theorem smallClusters_of (tris : List (Tri K)) (h : NoHugeCluster tris) :
    SmallClusters (tris.zipIdx.map (fun p => ObjInfo.new p.2 p.1)) := by
  intro l hl hlen
  -- read back the triangles of `l`
  have hex : ∃ ps : List (Tri K × Nat), l = ps.map (fun p => ObjInfo.new p.2 p.1) ∧ ps.Subperm tris.zipIdx := by
    obtain ⟨l', hp, hs⟩ := hl
    obtain ⟨ps', hps', rfl⟩ := List.sublist_map_iff.1 hs
    have hc : Relation.Comp (· = List.map (fun p : Tri K × Nat => ObjInfo.new p.2 p.1) ·) (· ~ ·) l ps' := by
      rw [List.eq_map_comp_perm]; exact hp.symm
    obtain ⟨ps, hl, hps⟩ := hc
    exact ⟨ps, hl, hps.subperm.trans hps'.subperm⟩
  obtain ⟨ps, rfl, hps⟩ := hex
  have hsub : (ps.map Prod.fst).Subperm tris := by
    obtain ⟨q, hq, hqs⟩ := hps
    have h2 := hqs.map Prod.fst
    rw [List.zipIdx_map_fst] at h2
    exact ⟨_, hq.map _, h2⟩
  obtain ⟨s, hs, t, ht, a, hst⟩ := h _ hsub (by simpa using hlen)
  obtain ⟨ps1, h1, rfl⟩ := List.mem_map.1 hs
  obtain ⟨ps2, h2, rfl⟩ := List.mem_map.1 ht
  exact ⟨_, List.mem_map_of_mem h1, _, List.mem_map_of_mem h2, a, by rw [objInfo_centroid, objInfo_centroid]; exact hst⟩

/-- Everything `BoundingVolumeTree::new` guarantees. -/
theorem bvhNew_spec {F B N : Type} (env : BvhEnv K) (hE : env.Lawful) (tris : List (Tri K)) (front : List F)
    (back : List B) (normals : List N) (hf : front.length = tris.length) (hb : back.length = tris.length)
    (hn : normals.length = tris.length) :
    ∃ bvh tris' front' back' normals', bvhNew env tris front back normals = .ok (bvh, tris', front', back', normals') ∧
      tris'.length = tris.length ∧ front'.length = tris.length ∧ back'.length = tris.length ∧
      normals'.length = tris.length ∧
      (rows tris' front' back' normals').Perm (rows tris front back normals) ∧
      (FitsAccelerator tris → AccelFor bvh tris') := by
  unfold bvhNew
  simp only
  by_cases h0 : tris.length = 0
  · rw [if_pos h0]
    exact ⟨_, _, _, _, _, rfl, rfl, hf, hb, hn, List.Perm.refl _,
      fun _ => ⟨Or.inl ⟨List.eq_nil_of_length_eq_zero h0, rfl⟩⟩⟩
  · rw [if_neg h0]
    set infos := tris.zipIdx.map (fun p => ObjInfo.new p.2 p.1) with hinfos
    have hil : infos.length = tris.length := by simp [hinfos]
    obtain ⟨root, sl, e, hp, hc, hz, hll⟩ := recursiveBuild_spec env hE tris.length infos 0
      (by intro h; rw [h] at hil; simp at hil; omega) (le_of_eq hil)
    rw [e]
    simp only [Res.bind_eq, Res.bind_ok]
    -- properties of the order
    have hmem : ∀ i ∈ sl, tris[i.index]? = some (tris[i.index]?.getD ⟨i.centroid, i.centroid, i.centroid⟩) ∧
        i.index < tris.length ∧ ∃ t, tris[i.index]? = some t ∧ i.bounds = worldBounds t := by
      intro i hi
      have := hp.mem_iff.1 hi
      rw [hinfos] at this
      obtain ⟨⟨t, k⟩, hk, rfl⟩ := List.mem_map.1 this
      have hk' := List.mem_zipIdx_iff_getElem?.1 hk
      simp only at hk'
      refine ⟨?_, ?_, t, hk', rfl⟩
      · change tris[k]? = some (tris[k]?.getD _)
        rw [hk']; rfl
      · exact (List.getElem?_eq_some_iff.1 hk').1
    have hord : (sl.map (·.index)).Perm (List.range tris.length) := by
      refine (hp.map _).trans ?_
      rw [hinfos, List.map_map]
      have : ((fun x : ObjInfo K => x.index) ∘ fun p : Tri K × Nat => ObjInfo.new p.2 p.1) = Prod.snd := by
        funext p; rfl
      rw [this, List.zipIdx_map_snd, List.range_eq_range']
    have hlt : ∀ i ∈ sl.map (·.index), i < tris.length := by
      intro i hi
      exact List.mem_range.1 (hord.mem_iff.1 hi)
    have hlen : (sl.map (·.index)).length = tris.length := by rw [hord.length_eq]; simp
    rw [gather_eq tris _ hlt, gather_eq back _ (by rw [hb]; exact hlt), gather_eq front _ (by rw [hf]; exact hlt),
      gather_eq normals _ (by rw [hn]; exact hlt)]
    simp only [Res.bind_ok]
    refine ⟨_, _, _, _, _, rfl, ?_, ?_, ?_, ?_, ?_, ?_⟩
    · rw [gather_length _ _ hlt, hlen]
    · rw [gather_length _ _ (by rw [hf]; exact hlt), hlen]
    · rw [gather_length _ _ (by rw [hb]; exact hlt), hlen]
    · rw [gather_length _ _ (by rw [hn]; exact hlt), hlen]
    · unfold rows
      rw [gather_zip back normals _ (by rw [hb]; exact hlt) (by rw [hn]; exact hlt),
        gather_zip front _ _ (by rw [hf]; exact hlt) (by simp [hb, hn]; simpa using hlt),
        gather_zip tris _ _ hlt (by simp [hb, hn, hf]; simpa using hlt)]
      refine (hord.filterMap _).trans ?_
      have hl : (tris.zip (front.zip (back.zip normals))).length = tris.length := by simp [hf, hb, hn]
      rw [← hl, filterMap_range_getElem?]
    · intro hfit
      have hbs : sl.map (·.bounds) = ((sl.map (·.index)).filterMap (fun i => tris[i]?)).map worldBounds := by
        clear hlen hlt hord e hp hc
        induction sl with
        | nil => rfl
        | cons x xs ih =>
          obtain ⟨-, -, t, ht, hbt⟩ := hmem x (by simp)
          simp only [List.map_cons]
          rw [List.filterMap_cons, ht]
          simp only [List.map_cons]
          rw [hbt, ih (fun i hi => hmem i (by simp [hi]))]
      rw [hbs] at hc
      refine ⟨Or.inr ⟨root, rfl, hc, ?_, ?_⟩⟩
      · rw [gather_length _ _ hlt, hlen]; rw [hil] at hz; exact hz
      · apply Node.fits_of hc (hll (smallClusters_of tris hfit.2))
        rw [List.length_map, gather_length _ _ hlt, hlen]
        have := hfit.1; omega

/-! ### Answers -/

theorem intersect_spec (env : BvhEnv K) (bvh : Bvh K) (P : List (Tri K)) (hA : AccelFor bvh P) (hP : P.length < 2 ^ 30)
    (ray : Ray3 K) (scratch : List Nat) (G : Tri K → Prop)
    (hG : ∀ tri, G tri → ∀ b, (worldBounds tri).Sub b → env.boxHit b ray = true) :
    ∃ r, bvhIntersect env bvh.nodes P ray scratch = .ok r ∧
      (∀ i info, r = some (i, info) → ∃ tri, P[i]? = some tri ∧ triangleIntersect tri ray = some info ∧
        InRange (distSq info.p ray.origin) ∧
        ∀ tri' ∈ P, G tri' → ∀ info', triangleIntersect tri' ray = some info' →
          1 / 10 ^ 7 < distSq info'.p ray.origin → distSq info.p ray.origin ≤ distSq info'.p ray.origin) ∧
      (r = none → ∀ tri ∈ P, G tri → ∀ info, triangleIntersect tri ray = some info →
          ¬ InRange (distSq info.p ray.origin)) := by
  rcases hA.empty_or with ⟨rfl, hn⟩ | ⟨root, hn, hc, hz, hfit⟩
  · refine ⟨none, ?_, by simp, by simp⟩
    simp [bvhIntersect, hn]
  · have hne : bvh.nodes.isEmpty = false := by
      have := (layout_flattenNode root).2
      rw [hn]
      cases hfl : (flattenNode root []).1 with
      | nil => rw [hfl] at this; cases root <;> (simp [Node.size] at this; try omega)
      | cons => rfl
    unfold bvhIntersect
    rw [hne]
    simp only [Bool.false_eq_true, if_false, List.take_zero]
    rw [hn]
    have htr := traverse_root root (fun b => env.boxHit b ray) (dirIsNeg ray) (intersectAct P ray) hfit (by omega)
      { primIndex := none, tSquared := floatMax K }
    rw [htr]
    obtain ⟨s', h1, h2, h3, h4⟩ := treeVisit_intersect P ray (fun b => env.boxHit b ray) (dirIsNeg ray) G hG root 0
      (P.map worldBounds) hc (by simp) (by simp [seg]) { primIndex := none, tSquared := floatMax K } rfl
    rw [h1]
    simp only [Res.bind_ok]
    have hseg : seg P 0 (P.map worldBounds).length = P := by simp [seg]
    rw [hseg] at h4
    refine ⟨s'.primIndex, rfl, ?_, ?_⟩
    · intro i info hr
      unfold StateOk at h2
      rw [hr] at h2
      obtain ⟨tri, g1, g2, g3, g4⟩ := h2
      refine ⟨tri, g1, g2, by rw [← g3]; exact g4, fun t ht hg info' hi hr' => ?_⟩
      rw [← g3]
      exact h4 t ht hg info' hi hr'
    · intro hr tri ht hg info hi hin
      unfold StateOk at h2
      rw [hr] at h2
      have := h4 tri ht hg info hi hin.1
      simp only at h2
      rw [h2] at this
      exact absurd hin.2 (not_lt.2 this)

theorem unobstructed_spec (env : BvhEnv K) (bvh : Bvh K) (P : List (Tri K)) (hA : AccelFor bvh P) (hP : P.length < 2 ^ 30)
    (ray : Ray3 K) (D : K) (scratch : List Nat) (G : Tri K → Prop)
    (hG : ∀ tri, G tri → ∀ b, (worldBounds tri).Sub b → env.boxHit b ray = true) :
    ∃ r, bvhUnobstructed env bvh.nodes P ray D scratch = .ok r ∧
      (r = false → ∃ tri ∈ P, ∃ info, triangleIntersect tri ray = some info ∧
        blocks (distSq info.p ray.origin) D = true) ∧
      (r = true → ∀ tri ∈ P, G tri → ∀ info, triangleIntersect tri ray = some info →
        blocks (distSq info.p ray.origin) D = false) := by
  rcases hA.empty_or with ⟨rfl, hn⟩ | ⟨root, hn, hc, hz, hfit⟩
  · refine ⟨true, ?_, by simp, by simp⟩
    simp [bvhUnobstructed, hn]
  · have hne : bvh.nodes.isEmpty = false := by
      have := (layout_flattenNode root).2
      rw [hn]
      cases hfl : (flattenNode root []).1 with
      | nil => rw [hfl] at this; cases root <;> (simp [Node.size] at this; try omega)
      | cons => rfl
    unfold bvhUnobstructed
    rw [hne]
    simp only [Bool.false_eq_true, if_false, List.take_zero]
    rw [hn]
    have htr := traverse_root root (fun b => env.boxHit b ray) (dirIsNeg ray) (unobstructedAct P ray D) hfit (by omega) ()
    rw [htr]
    have hseg : seg P 0 (P.map worldBounds).length = P := by simp [seg]
    rcases treeVisit_unobstructed P ray D (fun b => env.boxHit b ray) (dirIsNeg ray) G hG root 0
      (P.map worldBounds) hc (by simp) (by simp [seg]) with ⟨h1, h2⟩ | ⟨h1, h2⟩
    · rw [h1]
      rw [hseg] at h2
      exact ⟨true, rfl, by simp, fun _ => h2⟩
    · rw [h1]
      rw [hseg] at h2
      exact ⟨false, rfl, fun _ => h2, by simp⟩

end Rendering
