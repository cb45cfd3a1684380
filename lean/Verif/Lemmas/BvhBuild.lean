import Verif.Lemmas.BBox
import Mathlib.Data.List.Perm.Subperm
import Mathlib.Algebra.Order.Floor.Semiring

set_option linter.unusedSectionVars false

namespace Rendering
variable {K : Type} [Field K] [LinearOrder K] [IsStrictOrderedRing K] [FloorRing K]

/-! ### Buckets -/

theorem getBucketIndex_lt (c : Vec3 K) (len : K) (a : Axis) (m : Vec3 K) :
    getBucketIndex c len a nBuckets m < nBuckets := by
  unfold getBucketIndex nBuckets
  simp only
  split <;> omega

theorem getBucketIndex_min {c m : Vec3 K} {len : K} {a : Axis} (h : c.get a = m.get a) :
    getBucketIndex c len a nBuckets m = 0 := by
  unfold getBucketIndex nBuckets floorAsUsize
  simp [h]

theorem getBucketIndex_max {c m : Vec3 K} {len : K} {a : Axis} (hl : 0 < len) (h : c.get a - m.get a = len) :
    getBucketIndex c len a nBuckets m = nBuckets - 1 := by
  unfold getBucketIndex nBuckets floorAsUsize
  rw [h]
  have : len * ((12 : ℕ) : K) / len = ((12 : ℕ) : K) := by field_simp
  rw [this]
  simp

theorem floorAsUsize_mono {x y : K} (h : x ≤ y) : floorAsUsize x ≤ floorAsUsize y :=
  Int.toNat_le_toNat (Int.floor_le_floor h)

theorem getBucketIndex_mono {c d m : Vec3 K} {len : K} {a : Axis} (hl : 0 < len) (h : c.get a ≤ d.get a) :
    getBucketIndex c len a nBuckets m ≤ getBucketIndex d len a nBuckets m := by
  have hx : (c.get a - m.get a) * ((nBuckets : ℕ) : K) / len ≤ (d.get a - m.get a) * ((nBuckets : ℕ) : K) / len := by
    apply div_le_div_of_nonneg_right _ hl.le
    apply mul_le_mul_of_nonneg_right _ (Nat.cast_nonneg _)
    linarith
  have := floorAsUsize_mono hx
  unfold getBucketIndex
  simp only
  split <;> split <;> omega

theorem fillBuckets_fold (infos : List (ObjInfo K)) (len : K) (a : Axis) (m : Vec3 K) (bs : List (BucketInfo K))
    (k : Nat) (hk : k < bs.length) :
    let r := infos.foldl (fun bs info => bs.modify (getBucketIndex info.centroid len a nBuckets m)
      (fun b => b.register info.centroid)) bs
    r.length = bs.length ∧
    (((∃ b, bs[k]? = some b ∧ b.bounds.isSome) ∨ ∃ i ∈ infos, getBucketIndex i.centroid len a nBuckets m = k) →
      ∃ b, r[k]? = some b ∧ b.bounds.isSome) := by
  induction infos generalizing bs with
  | nil => simp
  | cons x xs ih =>
    simp only [List.foldl_cons]
    have hlen : (bs.modify (getBucketIndex x.centroid len a nBuckets m) (fun b => b.register x.centroid)).length
        = bs.length := by simp
    obtain ⟨h1, h2⟩ := ih (bs.modify (getBucketIndex x.centroid len a nBuckets m)
      (fun b => b.register x.centroid)) (by rw [hlen]; exact hk)
    refine ⟨by rw [h1, hlen], fun h => h2 ?_⟩
    have hreg : ∀ b : BucketInfo K, (b.register x.centroid).bounds.isSome := by
      intro b; unfold BucketInfo.register; cases b.bounds <;> rfl
    by_cases hxk : getBucketIndex x.centroid len a nBuckets m = k
    · left
      refine ⟨(bs[k]).register x.centroid, ?_, hreg _⟩
      rw [List.getElem?_modify, hxk]
      simp [List.getElem?_eq_getElem hk]
    · rcases h with ⟨b, hb, hs⟩ | ⟨i, hi, hik⟩
      · left
        refine ⟨b, ?_, hs⟩
        rw [List.getElem?_modify, hb]
        simp [hxk]
      · right
        rcases List.mem_cons.1 hi with rfl | hi
        · exact absurd hik hxk
        · exact ⟨i, hi, hik⟩

theorem fillBuckets_some {infos : List (ObjInfo K)} {len : K} {a : Axis} {m : Vec3 K} {k : Nat} (hk : k < nBuckets)
    (h : ∃ i ∈ infos, getBucketIndex i.centroid len a nBuckets m = k) :
    ∃ b bb, (fillBuckets infos len a m)[k]? = some b ∧ b.bounds = some bb := by
  obtain ⟨b, hb, hs⟩ := (fillBuckets_fold infos len a m (List.replicate nBuckets ⟨0, none⟩) k (by simpa using hk)).2
    (Or.inr h)
  obtain ⟨bb, hbb⟩ := Option.isSome_iff_exists.1 hs
  exact ⟨b, bb, hb, hbb⟩

theorem splitCost_ok (env : BvhEnv K) (bounds : BBox K) (buckets : List (BucketInfo K)) (i : Nat)
    (h0 : ∃ b bb, buckets[0]? = some b ∧ b.bounds = some bb)
    (hl : ∃ b bb, buckets[nBuckets - 1]? = some b ∧ b.bounds = some bb) :
    ∃ c, splitCost env bounds buckets i = .ok c := by
  obtain ⟨b, bb, h1, h2⟩ := h0
  obtain ⟨c, cc, h3, h4⟩ := hl
  unfold splitCost
  simp only [h1, h2, h3, h4, Res.bind_eq, Res.ofOption_some, Res.bind_ok, Res.pure_eq]
  split <;> exact ⟨_, rfl⟩

theorem minCostLoop_ok (env : BvhEnv K) (bounds : BBox K) (buckets : List (BucketInfo K))
    (h0 : ∃ b bb, buckets[0]? = some b ∧ b.bounds = some bb)
    (hl : ∃ b bb, buckets[nBuckets - 1]? = some b ∧ b.bounds = some bb) (m : Nat) (is : List Nat)
    (his : ∀ i ∈ is, i ≤ m) (acc : K × Nat) (hacc : acc.2 ≤ m) :
    ∃ r, minCostLoop env bounds buckets is acc = .ok r ∧ r.2 ≤ m := by
  induction is generalizing acc with
  | nil => exact ⟨acc, rfl, hacc⟩
  | cons i is ih =>
    obtain ⟨c, hc⟩ := splitCost_ok env bounds buckets i h0 hl
    unfold minCostLoop
    simp only [hc, Res.bind_eq, Res.bind_ok]
    cases c with
    | none => exact ih (fun j hj => his j (by simp [hj])) _ hacc
    | some c =>
      apply ih (fun j hj => his j (by simp [hj]))
      split
      · exact his i (by simp)
      · exact hacc

theorem length_takeWhile_lt {α : Type} (p : α → Bool) (l : List α) (h : ∃ x ∈ l, p x = false) :
    (l.takeWhile p).length < l.length := by
  induction l with
  | nil => simp at h
  | cons x xs ih =>
    rw [List.takeWhile_cons]
    split
    · rename_i hx
      simp only [List.length_cons, Nat.add_lt_add_iff_right]
      apply ih
      obtain ⟨y, hy, hp⟩ := h
      rcases List.mem_cons.1 hy with rfl | hy
      · simp [hx] at hp
      · exact ⟨y, hy, hp⟩
    · simp

theorem length_takeWhile_pos {α : Type} (p : α → Bool) (x : α) (xs : List α) (h : p x = true) :
    0 < ((x :: xs).takeWhile p).length := by
  rw [List.takeWhile_cons, h]; simp

/-- What the splitting decision guarantees. -/
theorem decideSplit_spec (env : BvhEnv K) (hE : env.Lawful) (i0 : ObjInfo K) (rest : List (ObjInfo K))
    (hrest : rest ≠ []) :
    (decideSplit env i0 rest = .ok .makeLeaf ∧
      ((i0 :: rest).length ≤ 24 ∨
        (centroidBoundsOf i0 rest).max.get (env.maxExtent (centroidBoundsOf i0 rest)) -
          (centroidBoundsOf i0 rest).min.get (env.maxExtent (centroidBoundsOf i0 rest)) < 1 / 10 ^ 8)) ∨
    ∃ axis infos mid, decideSplit env i0 rest = .ok (.split axis infos mid) ∧ infos.Perm (i0 :: rest) ∧
      0 < mid ∧ mid < infos.length := by
  unfold decideSplit
  simp only
  set cb := centroidBoundsOf i0 rest with hcb
  set axis := env.maxExtent cb with haxis
  set len := cb.max.get axis - cb.min.get axis with hlen
  have hlen2 : 2 ≤ (i0 :: rest).length := by
    cases rest with
    | nil => exact absurd rfl hrest
    | cons x xs => simp
  by_cases h1 : len < 1 / 10 ^ 8
  · left; rw [if_pos h1]; exact ⟨rfl, Or.inr h1⟩
  rw [if_neg h1]
  have hpos : 0 < len := lt_of_lt_of_le (by positivity) (not_lt.1 h1)
  by_cases h2 : (i0 :: rest).length ≤ tooFewToBucket
  · right
    rw [if_pos h2]
    refine ⟨_, _, _, rfl, hE.select_perm _ _ _, by omega, ?_⟩
    rw [(hE.select_perm _ _ _).length_eq]; omega
  rw [if_neg h2]
  obtain ⟨⟨imin, himin, hmin⟩, imax, himax, hmax⟩ := centroidBounds_attained i0 rest axis
  have hb0 := fillBuckets_some (infos := i0 :: rest) (len := len) (a := axis) (m := cb.min) (k := 0)
    (by simp [nBuckets]) ⟨imin, himin, getBucketIndex_min hmin⟩
  have hbmax : getBucketIndex imax.centroid len axis nBuckets cb.min = nBuckets - 1 :=
    getBucketIndex_max hpos (by rw [hmax])
  have hbl := fillBuckets_some (infos := i0 :: rest) (len := len) (a := axis) (m := cb.min) (k := nBuckets - 1)
    (by simp [nBuckets]) ⟨imax, himax, hbmax⟩
  obtain ⟨r, hr, hr2⟩ := minCostLoop_ok env (boundsOf i0 rest) _ hb0 hbl (nBuckets - 2)
    (List.range (nBuckets - 1)) (by intro i hi; simp [nBuckets] at hi ⊢; omega) (floatMax K, 0) (by simp)
  rw [hr]
  simp only [Res.bind_eq, Res.bind_ok]
  split
  · right
    have hperm := hE.sort_perm axis (i0 :: rest)
    have hsorted := hE.sort_sorted axis (i0 :: rest)
    set s := env.sort axis (i0 :: rest) with hs
    have hlt : (s.takeWhile (fun i => decide (getBucketIndex i.centroid len axis nBuckets cb.min ≤ r.2))).length
        < s.length := by
      apply length_takeWhile_lt
      refine ⟨imax, hperm.mem_iff.2 himax, ?_⟩
      rw [hbmax]
      have h12 : nBuckets = 12 := rfl
      rw [h12] at hr2 ⊢
      apply decide_eq_false
      omega
    have hgt : 0 < (s.takeWhile (fun i => decide (getBucketIndex i.centroid len axis nBuckets cb.min ≤ r.2))).length := by
      match hsl : s, hsorted with
      | [], _ => rw [hsl] at hperm; have := hperm.length_eq; simp at this
      | x :: xs, hsorted =>
        apply length_takeWhile_pos
        have hx1 : x.centroid.get axis ≤ imin.centroid.get axis := by
          have hm : imin ∈ x :: xs := by rw [← hsl]; exact hperm.mem_iff.2 himin
          rcases List.mem_cons.1 hm with h | h
          · rw [h]
          · exact List.rel_of_pairwise_cons hsorted h
        have hx2 : cb.min.get axis ≤ x.centroid.get axis := by
          have hm : x ∈ i0 :: rest := hperm.mem_iff.1 (by rw [hsl]; simp)
          exact ((centroidBounds_contains i0 rest x hm).get axis).1
        have : x.centroid.get axis = cb.min.get axis := le_antisymm (by rw [← hmin]; exact hx1) hx2
        rw [getBucketIndex_min this]; simp
    refine ⟨axis, s, _, ?_, hperm, hgt, hlt⟩
    unfold findMid
    simp only
    rw [if_neg (by omega)]
    rfl
  · left
    rename_i hn
    refine ⟨rfl, Or.inl ?_⟩
    push Not at hn
    exact hn.1

/-! ### The tree -/

/-- Number of nodes. -/
def Node.size : Node K → Nat
  | .leaf _ _ _ => 1
  | .interior _ _ l r => 1 + l.size + r.size

/-- Every leaf holds fewer than `m` primitives. -/
def Node.LeafLt (m : Nat) : Node K → Prop
  | .leaf _ _ n => n < m
  | .interior _ _ l r => l.LeafLt m ∧ r.LeafLt m

/-- The node covers the primitives at positions `off, off+1, …`, whose boxes are `bs`. -/
def Node.Covers : Node K → Nat → List (BBox K) → Prop
  | .leaf b first n, off, bs => first = off ∧ n = bs.length ∧ 0 < n ∧ ∀ x ∈ bs, x.Sub b
  | .interior b _ l r, off, bs => ∃ bs1 bs2, bs = bs1 ++ bs2 ∧ l.Covers off bs1 ∧ r.Covers (off + bs1.length) bs2 ∧
      l.bounds.Sub b ∧ r.bounds.Sub b

omit [Field K] [IsStrictOrderedRing K] [FloorRing K] in
theorem Node.Covers.sub {nd : Node K} {off : Nat} {bs : List (BBox K)} (h : nd.Covers off bs) :
    ∀ x ∈ bs, x.Sub nd.bounds := by
  induction nd generalizing off bs with
  | leaf b first n => exact h.2.2.2
  | interior b ax l r ihl ihr =>
    obtain ⟨bs1, bs2, rfl, h1, h2, s1, s2⟩ := h
    intro x hx
    rcases List.mem_append.1 hx with hx | hx
    · exact (ihl h1 x hx).trans s1
    · exact (ihr h2 x hx).trans s2

/-- Hypothesis that clusters are small, on centroids. -/
def SmallClusters (infos : List (ObjInfo K)) : Prop :=
  ∀ l : List (ObjInfo K), l.Subperm infos → 2 ^ 15 ≤ l.length →
    ∃ s ∈ l, ∃ t ∈ l, ∃ a, 1 / 10 ^ 8 ≤ s.centroid.get a - t.centroid.get a

theorem SmallClusters.mono {l l' : List (ObjInfo K)} (h : SmallClusters l) (hs : l'.Subperm l) : SmallClusters l' :=
  fun k hk hl => h k (hk.trans hs) hl

theorem recursiveBuild_spec (env : BvhEnv K) (hE : env.Lawful) (fuel : Nat) (infos : List (ObjInfo K)) (off : Nat)
    (hne : infos ≠ []) (hfuel : infos.length ≤ fuel) :
    ∃ (node : Node K) (sl : List (ObjInfo K)), recursiveBuild env fuel infos off = .ok (node, sl.map (·.index)) ∧ sl.Perm infos ∧
      node.Covers off (sl.map (·.bounds)) ∧ node.size + 1 ≤ 2 * infos.length ∧
      (SmallClusters infos → node.LeafLt (2 ^ 15)) := by
  induction fuel generalizing infos off with
  | zero =>
    cases infos with
    | nil => exact absurd rfl hne
    | cons x xs => simp at hfuel
  | succ fuel ih =>
    cases infos with
    | nil => exact absurd rfl hne
    | cons i0 rest =>
      have hleafcov : (Node.leaf (boundsOf i0 rest) off (rest.length + 1)).Covers off
          ((i0 :: rest).map (·.bounds)) := by
        refine ⟨rfl, by simp, by simp, ?_⟩
        intro x hx
        obtain ⟨i, hi, rfl⟩ := List.mem_map.1 hx
        exact boundsOf_sub i0 rest i hi
      unfold recursiveBuild
      simp only
      by_cases h1 : rest.length + 1 = 1
      · rw [if_pos h1]
        refine ⟨_, i0 :: rest, rfl, List.Perm.refl _, hleafcov, ?_, fun _ => ?_⟩
        · simp [Node.size]
        · simp only [Node.LeafLt]; omega
      · rw [if_neg h1]
        have hrest : rest ≠ [] := by rintro rfl; simp at h1
        rcases decideSplit_spec env hE i0 rest hrest with ⟨hd, hsmall⟩ | ⟨axis, is, mid, hd, hperm, hm0, hm1⟩
        · rw [hd]
          refine ⟨_, i0 :: rest, rfl, List.Perm.refl _, hleafcov, ?_, fun hS => ?_⟩
          · simp [Node.size]
          · simp only [Node.LeafLt]
            by_contra hlt
            rcases hsmall with hsmall | hsmall
            · simp at hsmall; omega
            · obtain ⟨s, hs, t, ht, a, hst⟩ := hS (i0 :: rest) (List.Subperm.refl _) (by simp; omega)
              have e1 := (centroidBounds_contains i0 rest s hs).get a
              have e2 := (centroidBounds_contains i0 rest t ht).get a
              have e3 := hE.maxExtent_max (centroidBoundsOf i0 rest) a
              linarith
        · rw [hd]
          simp only [Res.bind_ok]
          have hlen := hperm.length_eq
          have ht : (is.take mid).length = mid := by simp; omega
          have hdr : (is.drop mid).length = is.length - mid := by simp
          obtain ⟨n1, s1, e1, p1, c1, z1, l1⟩ := ih (is.take mid) off
            (by intro h; rw [h] at ht; simp at ht; omega) (by rw [ht]; omega)
          obtain ⟨n2, s2, e2, p2, c2, z2, l2⟩ := ih (is.drop mid) (off + (s1.map (·.index)).length)
            (by intro h; rw [h] at hdr; simp at hdr; omega) (by rw [hdr]; omega)
          rw [e1]
          simp only [Res.bind_ok]
          rw [e2]
          simp only [Res.bind_ok]
          have hsub1 : (is.take mid).Subperm (i0 :: rest) := (List.take_sublist mid is).subperm.trans hperm.subperm
          have hsub2 : (is.drop mid).Subperm (i0 :: rest) := (List.drop_sublist mid is).subperm.trans hperm.subperm
          refine ⟨Node.newInterior axis n1 n2, s1 ++ s2, by rw [List.map_append], ?_, ?_, ?_, ?_⟩
          · refine (p1.append p2).trans ?_
            rw [List.take_append_drop]; exact hperm
          · refine ⟨s1.map (·.bounds), s2.map (·.bounds), by rw [List.map_append], c1, ?_,
              BBox.sub_union_left _ _, BBox.sub_union_right _ _⟩
            simpa using c2
          · simp only [Node.newInterior, Node.size]
            rw [ht] at z1; rw [hdr] at z2; rw [← hlen]; omega
          · intro hS
            exact ⟨l1 (hS.mono hsub1), l2 (hS.mono hsub2)⟩

end Rendering
