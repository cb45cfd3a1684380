import Verif.Lemmas.BvhSplit
import Verif.Props.BvhExamples

/-!
# C101 — the accelerator divides triangles by the surface area heuristic

The tree behind `BoundingVolumeTree::new`: nothing of its shape shows in the answers of the queries (C01–C07), but the time they take depends on it.
-/

set_option linter.unusedSectionVars false

namespace Rendering
variable {K : Type} [Field K] [LinearOrder K] [IsStrictOrderedRing K] [FloorRing K]

/-- What the builder knows of the triangles: their places in the list, their boxes and the centres of these. -/
def groupOf (tris : List (Tri K)) : List (ObjInfo K) := tris.zipIdx.map fun p => ⟨p.2, worldBounds p.1, ⟨boxCentre p.1 .X, boxCentre p.1 .Y, boxCentre p.1 .Z⟩⟩

theorem groupOf_eq (tris : List (Tri K)) : tris.zipIdx.map (fun p => ObjInfo.new p.2 p.1) = groupOf tris := by
  unfold groupOf
  apply List.map_congr_left
  rintro ⟨t, k⟩ _
  have hx := objInfo_centroid k t .X
  have hy := objInfo_centroid k t .Y
  have hz := objInfo_centroid k t .Z
  simp only [← hx, ← hy, ← hz]
  rfl

/-- **C101, partial.** Every group of triangles in the tree is halved if it has four or fewer, cut where it costs least among the eleven places between twelve equal slices of its longest
axis if it has more, and left alone only if no cut costs less than looking at its triangles one by one, or if they are all in the same place — with the costs computed from the boxes of
the centres of the triangles of each part, where the heuristic asks for the boxes of the triangles. -/
theorem C101_tree_partial {F B N : Type} (env : BvhEnv K) (hE : env.Lawful) (tris : List (Tri K)) (hne : tris ≠ []) (front : List F) (back : List B) (normals : List N)
    (bvh : Bvh K) (t : List (Tri K)) (f : List F) (b : List B) (n : List N) (h : bvhNew env tris front back normals = .ok (bvh, t, f, b, n)) :
    ∃ node : Node K, bvh.nodes = (flattenNode node []).1 ∧ GoodTree env AroundCentres node (groupOf tris) := by
  unfold bvhNew at h
  simp only at h
  rw [if_neg (by simpa using hne), groupOf_eq] at h
  cases hr : recursiveBuild env tris.length (groupOf tris) 0 with
  | panic => simp [hr] at h
  | diverge => simp [hr] at h
  | ok x =>
    obtain ⟨root, order⟩ := x
    refine ⟨root, ?_, (recursiveBuild_good env hE _ _ _ _ _ hr).1⟩
    rw [hr] at h
    simp only [Res.bind_eq, Res.bind_ok] at h
    cases h1 : gather tris order <;> simp only [h1, Res.bind_ok, Res.bind_panic, Res.bind_diverge, reduceCtorEq] at h
    cases h2 : gather back order <;> simp only [h2, Res.bind_ok, Res.bind_panic, Res.bind_diverge, reduceCtorEq] at h
    cases h3 : gather front order <;> simp only [h3, Res.bind_ok, Res.bind_panic, Res.bind_diverge, reduceCtorEq] at h
    cases h4 : gather normals order <;> simp only [h4, Res.bind_ok, Res.bind_panic, Res.bind_diverge, reduceCtorEq] at h
    cases h
    rfl

theorem good_leaves (env : BvhEnv K) (part : BBox K → List (ObjInfo K) → Prop) (node : Node K) (group : List (ObjInfo K)) (h : GoodTree env part node group)
    (hc : ∀ l : List (ObjInfo K), l.Subperm group → 25 ≤ l.length → ¬ Clustered l) : node.largestLeaf ≤ 24 := by
  induction h with
  | together b first group h _ =>
    by_contra hlt
    simp only [Node.largestLeaf, not_le] at hlt
    rcases h with h | h
    · omega
    · exact hc group (List.Subperm.refl _) (by omega) h
  | cheaper b first group _ h _ _ => exact h
  | halves b axis tl tr group l r _ hp _ _ _ _ ihl ihr =>
    refine max_le (ihl fun m hm => hc m (hm.trans ?_)) (ihr fun m hm => hc m (hm.trans ?_))
    · exact (List.sublist_append_left l r).subperm.trans hp.subperm
    · exact (List.sublist_append_right l r).subperm.trans hp.subperm
  | cheapest b axis tl tr group l r k _ _ hcut _ _ _ _ _ _ _ ihl ihr =>
    refine max_le (ihl fun m hm => hc m (hm.trans ?_)) (ihr fun m hm => hc m (hm.trans ?_))
    · exact (List.sublist_append_left l r).subperm.trans hcut.perm.subperm
    · exact (List.sublist_append_right l r).subperm.trans hcut.perm.subperm

/-- **C101, leaves.** Unless twenty five triangles are in the same place, no leaf holds more than twenty four. -/
theorem C101_small_leaves {F B N : Type} (env : BvhEnv K) (hE : env.Lawful) (tris : List (Tri K)) (hne : tris ≠ []) (front : List F) (back : List B) (normals : List N)
    (bvh : Bvh K) (t : List (Tri K)) (f : List F) (b : List B) (n : List N) (h : bvhNew env tris front back normals = .ok (bvh, t, f, b, n))
    (hspread : ∀ l : List (Tri K), l.Subperm tris → 25 ≤ l.length → ∃ s ∈ l, ∃ t ∈ l, ∃ a, 1 / 10 ^ 8 ≤ boxCentre s a - boxCentre t a) :
    ∃ node : Node K, bvh.nodes = (flattenNode node []).1 ∧ node.largestLeaf ≤ 24 := by
  obtain ⟨node, h1, h2⟩ := C101_tree_partial env hE tris hne front back normals bvh t f b n h
  refine ⟨node, h1, good_leaves env _ node _ h2 ?_⟩
  intro l hl hlen hcl
  rw [← groupOf_eq] at hl
  have hex : ∃ ps : List (Tri K × Nat), l = ps.map (fun p => ObjInfo.new p.2 p.1) ∧ ps.Subperm tris.zipIdx := by
    obtain ⟨l', hp, hs⟩ := hl
    obtain ⟨ps', hps', rfl⟩ := List.sublist_map_iff.1 hs
    have hc : Relation.Comp (· = List.map (fun p : Tri K × Nat => ObjInfo.new p.2 p.1) ·) List.Perm l ps' := by
      rw [List.eq_map_comp_perm]
      exact hp.symm
    obtain ⟨ps, hl, hps⟩ := hc
    exact ⟨ps, hl, hps.subperm.trans hps'.subperm⟩
  obtain ⟨ps, rfl, hps⟩ := hex
  have hsub : (ps.map Prod.fst).Subperm tris := by
    obtain ⟨q, hq, hqs⟩ := hps
    have h2 := hqs.map Prod.fst
    rw [List.zipIdx_map_fst] at h2
    exact ⟨_, hq.map _, h2⟩
  obtain ⟨s, hs, t, ht, a, hst⟩ := hspread _ hsub (by simpa using hlen)
  obtain ⟨ps1, g1, rfl⟩ := List.mem_map.1 hs
  obtain ⟨ps2, g2, rfl⟩ := List.mem_map.1 ht
  have := hcl _ (List.mem_map_of_mem g1) _ (List.mem_map_of_mem g2) a
  rw [objInfo_centroid, objInfo_centroid] at this
  linarith

namespace TreeExamples
open BvhExamples

/-- Twelve large triangles, one hundredth apart. -/
def pile : List (Tri ℚ) := (List.range 12).map fun i : ℕ => triAt ((i : ℚ) / 100)

/-- The accelerator for the pile. -/
def pileNodes : Res (List (FlatNode ℚ)) := (bvhNew (refEnv ℚ) pile pile pile pile).bind fun x => .ok x.1.nodes

/-- The tree over the pile has more than one node. -/
theorem pile_cut : (pileNodes.bind fun nodes => .ok (decide (1 < nodes.length))) = .ok true := by decide +kernel

theorem pile_member {i : ObjInfo ℚ} (hi : i ∈ groupOf pile) : ∃ z : ℚ, 0 ≤ z ∧ z ≤ 11 / 100 ∧ i.bounds = worldBounds (triAt z) := by
  obtain ⟨⟨t, k⟩, hp, rfl⟩ := List.mem_map.1 hi
  have ht : t ∈ pile := by
    have := List.mem_zipIdx hp
    obtain ⟨_, h, h'⟩ := this
    rw [h']
    exact List.getElem_mem _
  obtain ⟨j, hj, rfl⟩ := List.mem_map.1 ht
  have hj : j < 12 := by simpa using hj
  refine ⟨j / 100, by positivity, ?_, rfl⟩
  have : (j : ℚ) ≤ 11 := by exact_mod_cast (by omega : j ≤ 11)
  linarith

/-- **C101, violated.** Twelve large triangles one hundredth apart are cut although, with boxes around the triangles, every cut costs far more than looking at the twelve. -/
theorem C101_violation_boxes (bvh : Bvh ℚ) (t f b n : List (Tri ℚ)) (h : bvhNew (refEnv ℚ) pile pile pile pile = .ok (bvh, t, f, b, n)) (node : Node ℚ)
    (hn : bvh.nodes = (flattenNode node []).1) : ¬ GoodTree (refEnv ℚ) AroundTriangles node (groupOf pile) := by
  have hlen : (groupOf pile).length = 12 := by simp [groupOf, pile]
  have hmany : 1 < bvh.nodes.length := by
    have := pile_cut
    unfold pileNodes at this
    rw [h] at this
    simpa using this
  intro hg
  cases hg with
  | together b first _ _ _ =>
    rw [hn] at hmany
    simp [flattenNode] at hmany
  | cheaper b first _ _ _ _ _ =>
    rw [hn] at hmany
    simp [flattenNode] at hmany
  | halves b axis tl tr _ l r h4 => omega
  | cheapest b axis tl tr _ l r k _ _ hcut _ hl hr hwhy _ _ _ =>
    rcases hwhy with h24 | ⟨c, ⟨bl, br, b', h1, h2, h3, hne, rfl⟩, hlt⟩
    · omega
    · have hmem : ∀ i ∈ l ++ r, ∃ z : ℚ, 0 ≤ z ∧ z ≤ 11 / 100 ∧ i.bounds = worldBounds (triAt z) := fun i hi => pile_member (hcut.perm.mem_iff.1 hi)
      have big : ∀ (m : List (ObjInfo ℚ)) (bx : BBox ℚ), m ≠ [] → (∀ i ∈ m, i ∈ l ++ r) → AroundTriangles bx m → 2 ≤ boxArea bx := by
        intro m bx hm hsub hb
        obtain ⟨i, hi⟩ := List.exists_mem_of_ne_nil m hm
        obtain ⟨z, _, _, hz⟩ := hmem i (hsub i hi)
        have hx := hb.contains i.bounds (List.mem_map_of_mem hi) .X
        have hy := hb.contains i.bounds (List.mem_map_of_mem hi) .Y
        have hz' := hb.contains i.bounds (List.mem_map_of_mem hi) .Z
        rw [hz] at hx hy hz'
        simp [worldBounds, BBox.fromPoint, BBox.fromUnionPoint, triAt, Vec3.get] at hx hy hz'
        unfold boxArea
        simp only
        have e1 : 1 ≤ bx.max.x - bx.min.x := by linarith
        have e2 : 1 ≤ bx.max.y - bx.min.y := by linarith
        have e3 : 0 ≤ bx.max.z - bx.min.z := by linarith
        nlinarith [mul_nonneg (sub_nonneg.2 e1) (sub_nonneg.2 e2), mul_nonneg (sub_nonneg.2 e1) e3, mul_nonneg (sub_nonneg.2 e2) e3]
      have hall : 0 < boxArea b' ∧ boxArea b' ≤ 3 := by
        have hsm := h3.smallest ⟨⟨0, 0, 0⟩, ⟨1, 1, 11 / 100⟩⟩ (by
          intro x hx a
          obtain ⟨i, hi, rfl⟩ := List.mem_map.1 hx
          obtain ⟨z, h0, h1, hz⟩ := hmem i hi
          rw [hz]
          cases a <;> simp [worldBounds, BBox.fromPoint, BBox.fromUnionPoint, triAt, Vec3.get, h0]
          linarith)
        have hx := hsm .X
        have hy := hsm .Y
        have hz := hsm .Z
        simp only [Vec3.get] at hx hy hz
        have := big (l ++ r) b' (by simp [hl]) (fun _ h => h) h3
        have hne : l ++ r ≠ [] := by simp [hl]
        obtain ⟨i, hi⟩ := List.exists_mem_of_ne_nil _ hne
        obtain ⟨z, _, _, hz'⟩ := hmem i hi
        have gx := h3.contains i.bounds (List.mem_map_of_mem hi) .X
        have gy := h3.contains i.bounds (List.mem_map_of_mem hi) .Y
        have gz := h3.contains i.bounds (List.mem_map_of_mem hi) .Z
        rw [hz'] at gx gy gz
        simp [worldBounds, BBox.fromPoint, BBox.fromUnionPoint, triAt, Vec3.get] at gx gy gz
        refine ⟨by linarith, ?_⟩
        unfold boxArea
        simp only
        have e1 : b'.max.x - b'.min.x = 1 := by linarith
        have e2 : b'.max.y - b'.min.y = 1 := by linarith
        rw [e1, e2]
        linarith
      have g1 := big l bl hl (by intro i hi; simp [hi]) h1
      have g2 := big r br hr (by intro i hi; simp [hi]) h2
      have hsum : (l.length : ℚ) + r.length = 12 := by
        have := hcut.perm.length_eq
        rw [List.length_append, hlen] at this
        exact_mod_cast this
      have hc : (8 : ℚ) ≤ (l.length * boxArea bl + r.length * boxArea br) / boxArea b' := by
        rw [le_div_iff₀ hall.1]
        have p1 : (0 : ℚ) ≤ l.length := Nat.cast_nonneg _
        have p2 : (0 : ℚ) ≤ r.length := Nat.cast_nonneg _
        nlinarith
      rw [hlen] at hlt
      have hlt' : 10 + (l.length * boxArea bl + r.length * boxArea br) / boxArea b' < 12 := by exact_mod_cast hlt
      linarith

/-- The pile does have an accelerator, with a tree of the kind `C101_tree_partial` describes. -/
example : ∃ (r : Bvh ℚ × List (Tri ℚ) × List (Tri ℚ) × List (Tri ℚ) × List (Tri ℚ)) (node : Node ℚ), bvhNew (refEnv ℚ) pile pile pile pile = .ok r ∧
    r.1.nodes = (flattenNode node []).1 ∧ GoodTree (refEnv ℚ) AroundCentres node (groupOf pile) ∧ ¬ GoodTree (refEnv ℚ) AroundTriangles node (groupOf pile) := by
  obtain ⟨⟨bvh, t, f, b, n⟩, hr⟩ := C04_build_succeeds (refEnv ℚ) refEnv_lawful pile pile pile pile rfl rfl rfl
  obtain ⟨node, h1, h2⟩ := C101_tree_partial (refEnv ℚ) refEnv_lawful pile (fun h => by simpa [pile] using congrArg List.length h) pile pile pile bvh t f b n hr
  exact ⟨_, node, hr, h1, h2, C101_violation_boxes bvh t f b n hr node h1⟩

/-- Thirty triangles, one above the other. -/
def stack : List (Tri ℚ) := (List.range 30).map fun i : ℕ => triAt (30 - (i : ℚ))

/-- They meet the hypothesis of `C101_small_leaves`. -/
theorem stack_spread : ∀ l : List (Tri ℚ), l.Subperm stack → 25 ≤ l.length → ∃ s ∈ l, ∃ t ∈ l, ∃ a, 1 / 10 ^ 8 ≤ boxCentre s a - boxCentre t a := by
  intro l hl hlen
  have hnd : stack.Nodup := by
    apply List.Nodup.map _ List.nodup_range
    intro i j h
    have := congrArg (fun t : Tri ℚ => t.a.z) h
    simp only [triAt] at this
    have : (i : ℚ) = j := by linarith
    exact_mod_cast this
  have hl' : l.Nodup := by
    obtain ⟨m, hm, hs⟩ := hl
    exact hm.nodup_iff.1 (hs.nodup hnd)
  match l, hlen, hl', hl with
  | s :: t :: rest, _, hn, hl =>
    have hst : s ≠ t := by
      intro h
      simp [h] at hn
    obtain ⟨i, _, rfl⟩ := List.mem_map.1 (hl.subset (List.mem_cons_self ..))
    obtain ⟨j, _, rfl⟩ := List.mem_map.1 (hl.subset (List.mem_cons_of_mem _ (List.mem_cons_self ..)))
    have hc : ∀ z : ℚ, boxCentre (triAt z) .Z = z := by
      intro z
      simp [boxCentre, triAt, Vec3.get]
    rcases lt_trichotomy i j with h | h | h
    · refine ⟨triAt (30 - (i : ℚ)), by simp, triAt (30 - (j : ℚ)), by simp, .Z, ?_⟩
      rw [hc, hc]
      have : (i : ℚ) + 1 ≤ j := by exact_mod_cast h
      norm_num
      linarith
    · exact absurd (by rw [h]) hst
    · refine ⟨triAt (30 - (j : ℚ)), by simp, triAt (30 - (i : ℚ)), by simp, .Z, ?_⟩
      rw [hc, hc]
      have : (j : ℚ) + 1 ≤ i := by exact_mod_cast h
      norm_num
      linarith

end TreeExamples

end Rendering
