import Verif.Lemmas.BvhQuery
import Verif.Lemmas.RgbeFloat
import Verif.Spec.BvhFloat

/-!
# Lemmas for C132: the accelerator in double precision
-/

set_option linter.unusedSectionVars false
open scoped List

namespace Rendering

/-- Accepted squared distances. -/
def InRange64 (d2 : F64) : Prop := F64.lit (1 / 10 ^ 7) < d2 ∧ d2 < floatMax64

theorem getBucketIndex64_lt (c : Vec3 F64) (len : F64) (a : Axis) (m : Vec3 F64) :
    getBucketIndex64 c len a nBuckets m < nBuckets := by
  unfold getBucketIndex64 nBuckets
  simp only
  split <;> omega

theorem getBucketIndex64_min {c m : Vec3 F64} {len : F64} {a : Axis} (h : c.get a = m.get a) :
    getBucketIndex64 c len a nBuckets m = 0 := by
  have h0 : (c.get a - m.get a) * ((nBuckets : ℕ) : F64) / len = ⟨0⟩ := by
    rw [h]
    have e1 : m.get a - m.get a = (⟨0⟩ : F64) := by
      show (⟨round64 ((m.get a).val - (m.get a).val)⟩ : F64) = ⟨0⟩
      rw [sub_self]; rfl
    rw [e1]
    have e2 : (⟨0⟩ : F64) * ((nBuckets : ℕ) : F64) = ⟨0⟩ := by
      show (⟨round64 (0 * _)⟩ : F64) = ⟨0⟩
      rw [zero_mul]; rfl
    rw [e2]
    show (⟨round64 (0 / len.val)⟩ : F64) = ⟨0⟩
    rw [zero_div]; rfl
  unfold getBucketIndex64
  rw [h0]
  simp [F64.floorAsUsize, nBuckets]

theorem round64_rel (q : ℚ) (h : 0 ≤ q) : q * (1 - 1 / 2 ^ 53) ≤ round64 q := by
  have := (abs_le.mp (round64_error q)).1
  rw [abs_of_nonneg h] at this
  linarith

theorem getBucketIndex64_max {c m : Vec3 F64} {len : F64} {a : Axis} (hl : 0 < len.val) (h : c.get a - m.get a = len) :
    getBucketIndex64 c len a nBuckets m = nBuckets - 1 := by
  have hn : ((nBuckets : ℕ) : F64) = ⟨12⟩ := by decide +kernel
  have hge : (11 : ℚ) ≤ ((c.get a - m.get a) * ((nBuckets : ℕ) : F64) / len).val := by
    rw [h, hn]
    show (11 : ℚ) ≤ round64 (round64 (len.val * 12) / len.val)
    have h1 := round64_rel (len.val * 12) (by positivity)
    have h2 : 12 * (1 - 1 / 2 ^ 53) ≤ round64 (len.val * 12) / len.val := by
      rw [le_div_iff₀ hl]; linarith
    have h3 := round64_rel (round64 (len.val * 12) / len.val) (le_trans (by norm_num) h2)
    refine le_trans ?_ h3
    have : (12 * (1 - 1 / 2 ^ 53) : ℚ) * (1 - 1 / 2 ^ 53) ≤ round64 (len.val * 12) / len.val * (1 - 1 / 2 ^ 53) :=
      mul_le_mul_of_nonneg_right h2 (by norm_num)
    refine le_trans (by norm_num) this
  have hf : 11 ≤ ((c.get a - m.get a) * ((nBuckets : ℕ) : F64) / len).floorAsUsize := by
    unfold F64.floorAsUsize
    have : (11 : ℤ) ≤ ⌊((c.get a - m.get a) * ((nBuckets : ℕ) : F64) / len).val⌋ := Int.le_floor.mpr (by exact_mod_cast hge)
    omega
  unfold getBucketIndex64
  simp only
  split
  · rfl
  · simp only [nBuckets] at *; omega

theorem fillBuckets64_fold (infos : List (ObjInfo F64)) (len : F64) (a : Axis) (m : Vec3 F64) (bs : List (BucketInfo F64))
    (k : Nat) (hk : k < bs.length) :
    let r := infos.foldl (fun bs info => bs.modify (getBucketIndex64 info.centroid len a nBuckets m)
      (fun b => b.register info.centroid)) bs
    r.length = bs.length ∧
    (((∃ b, bs[k]? = some b ∧ b.bounds.isSome) ∨ ∃ i ∈ infos, getBucketIndex64 i.centroid len a nBuckets m = k) →
      ∃ b, r[k]? = some b ∧ b.bounds.isSome) := by
  induction infos generalizing bs with
  | nil => simp
  | cons x xs ih =>
    simp only [List.foldl_cons]
    have hlen : (bs.modify (getBucketIndex64 x.centroid len a nBuckets m) (fun b => b.register x.centroid)).length
        = bs.length := by simp
    obtain ⟨h1, h2⟩ := ih (bs.modify (getBucketIndex64 x.centroid len a nBuckets m)
      (fun b => b.register x.centroid)) (by rw [hlen]; exact hk)
    refine ⟨by rw [h1, hlen], fun h => h2 ?_⟩
    have hreg : ∀ b : BucketInfo F64, (b.register x.centroid).bounds.isSome := by
      intro b; unfold BucketInfo.register; cases b.bounds <;> rfl
    by_cases hxk : getBucketIndex64 x.centroid len a nBuckets m = k
    · left
      refine ⟨(bs[k]).register x.centroid, ?_, hreg _⟩
      rw [List.getElem?_modify, hxk]
      simp [List.getElem?_eq_getElem hk]
    · rcases h with ⟨b, hb, hs⟩ | ⟨i, hi, hik⟩
      · left
        refine ⟨b, ?_, hs⟩
        rw [List.getElem?_modify, hb]
        simp [hxk]
      · right
        rcases List.mem_cons.1 hi with rfl | hi
        · exact absurd hik hxk
        · exact ⟨i, hi, hik⟩

theorem fillBuckets64_some {infos : List (ObjInfo F64)} {len : F64} {a : Axis} {m : Vec3 F64} {k : Nat} (hk : k < nBuckets)
    (h : ∃ i ∈ infos, getBucketIndex64 i.centroid len a nBuckets m = k) :
    ∃ b bb, (fillBuckets64 infos len a m)[k]? = some b ∧ b.bounds = some bb := by
  obtain ⟨b, hb, hs⟩ := (fillBuckets64_fold infos len a m (List.replicate nBuckets ⟨0, none⟩) k (by simpa using hk)).2
    (Or.inr h)
  obtain ⟨bb, hbb⟩ := Option.isSome_iff_exists.1 hs
  exact ⟨b, bb, hb, hbb⟩

theorem splitCost64_ok (env : BvhEnv F64) (bounds : BBox F64) (buckets : List (BucketInfo F64)) (i : Nat)
    (h0 : ∃ b bb, buckets[0]? = some b ∧ b.bounds = some bb)
    (hl : ∃ b bb, buckets[nBuckets - 1]? = some b ∧ b.bounds = some bb) :
    ∃ c, splitCost64 env bounds buckets i = .ok c := by
  obtain ⟨b, bb, h1, h2⟩ := h0
  obtain ⟨c, cc, h3, h4⟩ := hl
  unfold splitCost64
  simp only [h1, h2, h3, h4, Res.bind_eq, Res.ofOption_some, Res.bind_ok, Res.pure_eq]
  split <;> exact ⟨_, rfl⟩

theorem minCostLoop64_ok (env : BvhEnv F64) (bounds : BBox F64) (buckets : List (BucketInfo F64))
    (h0 : ∃ b bb, buckets[0]? = some b ∧ b.bounds = some bb)
    (hl : ∃ b bb, buckets[nBuckets - 1]? = some b ∧ b.bounds = some bb) (m : Nat) (is : List Nat)
    (his : ∀ i ∈ is, i ≤ m) (acc : F64 × Nat) (hacc : acc.2 ≤ m) :
    ∃ r, minCostLoop64 env bounds buckets is acc = .ok r ∧ r.2 ≤ m := by
  induction is generalizing acc with
  | nil => exact ⟨acc, rfl, hacc⟩
  | cons i is ih =>
    obtain ⟨c, hc⟩ := splitCost64_ok env bounds buckets i h0 hl
    unfold minCostLoop64
    simp only [hc, Res.bind_eq, Res.bind_ok]
    cases c with
    | none => exact ih (fun j hj => his j (by simp [hj])) _ hacc
    | some c =>
      apply ih (fun j hj => his j (by simp [hj]))
      split
      · exact his i (by simp)
      · exact hacc

/-- What the splitting decision guarantees. -/
theorem decideSplit64_spec (env : BvhEnv F64) (hE : env.Lawful64) (i0 : ObjInfo F64) (rest : List (ObjInfo F64))
    (hrest : rest ≠ []) :
    (decideSplit64 env i0 rest = .ok .makeLeaf ∧
      ((i0 :: rest).length ≤ 24 ∨
        (centroidBoundsOf i0 rest).max.get (env.maxExtent (centroidBoundsOf i0 rest)) -
          (centroidBoundsOf i0 rest).min.get (env.maxExtent (centroidBoundsOf i0 rest)) < F64.lit (1 / 10 ^ 8))) ∨
    ∃ axis infos mid, decideSplit64 env i0 rest = .ok (.split axis infos mid) ∧ infos.Perm (i0 :: rest) ∧
      0 < mid ∧ mid < infos.length := by
  unfold decideSplit64
  simp only
  set cb := centroidBoundsOf i0 rest with hcb
  set axis := env.maxExtent cb with haxis
  set len := cb.max.get axis - cb.min.get axis with hlen
  have hlen2 : 2 ≤ (i0 :: rest).length := by
    cases rest with
    | nil => exact absurd rfl hrest
    | cons x xs => simp
  by_cases h1 : len < F64.lit (1 / 10 ^ 8)
  · left; rw [if_pos h1]; exact ⟨rfl, Or.inr h1⟩
  rw [if_neg h1]
  have hpos : 0 < len.val := lt_of_lt_of_le (by decide +kernel) (show (F64.lit (1 / 10 ^ 8)).val ≤ len.val from not_lt.1 h1)
  by_cases h2 : (i0 :: rest).length ≤ tooFewToBucket
  · right
    rw [if_pos h2]
    refine ⟨_, _, _, rfl, hE.select_perm _ _ _, by omega, ?_⟩
    rw [(hE.select_perm _ _ _).length_eq]; omega
  rw [if_neg h2]
  obtain ⟨⟨imin, himin, hmin⟩, imax, himax, hmax⟩ := centroidBounds_attained i0 rest axis
  have hb0 := fillBuckets64_some (infos := i0 :: rest) (len := len) (a := axis) (m := cb.min) (k := 0)
    (by simp [nBuckets]) ⟨imin, himin, getBucketIndex64_min hmin⟩
  have hbmax : getBucketIndex64 imax.centroid len axis nBuckets cb.min = nBuckets - 1 :=
    getBucketIndex64_max hpos (by rw [hmax])
  have hbl := fillBuckets64_some (infos := i0 :: rest) (len := len) (a := axis) (m := cb.min) (k := nBuckets - 1)
    (by simp [nBuckets]) ⟨imax, himax, hbmax⟩
  obtain ⟨r, hr, hr2⟩ := minCostLoop64_ok env (boundsOf i0 rest) _ hb0 hbl (nBuckets - 2)
    (List.range (nBuckets - 1)) (by intro i hi; simp [nBuckets] at hi ⊢; omega) (floatMax64, 0) (by simp)
  rw [hr]
  simp only [Res.bind_eq, Res.bind_ok]
  split
  · right
    have hperm := hE.sort_perm axis (i0 :: rest)
    have hsorted := hE.sort_sorted axis (i0 :: rest)
    set s := env.sort axis (i0 :: rest) with hs
    have hlt : (s.takeWhile (fun i => decide (getBucketIndex64 i.centroid len axis nBuckets cb.min ≤ r.2))).length
        < s.length := by
      apply length_takeWhile_lt
      refine ⟨imax, hperm.mem_iff.2 himax, ?_⟩
      rw [hbmax]
      have h12 : nBuckets = 12 := rfl
      rw [h12] at hr2 ⊢
      apply decide_eq_false
      omega
    have hgt : 0 < (s.takeWhile (fun i => decide (getBucketIndex64 i.centroid len axis nBuckets cb.min ≤ r.2))).length := by
      match hsl : s, hsorted with
      | [], _ => rw [hsl] at hperm; have := hperm.length_eq; simp at this
      | x :: xs, hsorted =>
        apply length_takeWhile_pos
        have hx1 : x.centroid.get axis ≤ imin.centroid.get axis := by
          have hm : imin ∈ x :: xs := by rw [← hsl]; exact hperm.mem_iff.2 himin
          rcases List.mem_cons.1 hm with h | h
          · rw [h]
          · exact List.rel_of_pairwise_cons hsorted h
        have hx2 : cb.min.get axis ≤ x.centroid.get axis := by
          have hm : x ∈ i0 :: rest := hperm.mem_iff.1 (by rw [hsl]; simp)
          exact ((centroidBounds_contains i0 rest x hm).get axis).1
        have : x.centroid.get axis = cb.min.get axis := le_antisymm (by rw [← hmin]; exact hx1) hx2
        rw [getBucketIndex64_min this]; simp
    refine ⟨axis, s, _, ?_, hperm, hgt, hlt⟩
    unfold findMid64
    simp only
    rw [if_neg (by omega)]
    rfl
  · left
    rename_i hn
    refine ⟨rfl, Or.inl ?_⟩
    push Not at hn
    exact hn.1

/-- Hypothesis that clusters are small, on centroids. -/
def SmallClusters64 (infos : List (ObjInfo F64)) : Prop :=
  ∀ l : List (ObjInfo F64), l.Subperm infos → 2 ^ 15 ≤ l.length →
    ∃ s ∈ l, ∃ t ∈ l, ∃ a, (11 / 10 ^ 9 : ℚ) ≤ (s.centroid.get a).val - (t.centroid.get a).val

theorem SmallClusters64.mono {l l' : List (ObjInfo F64)} (h : SmallClusters64 l) (hs : l'.Subperm l) : SmallClusters64 l' :=
  fun k hk hl => h k (hk.trans hs) hl

theorem recursiveBuild64_spec (env : BvhEnv F64) (hE : env.Lawful64) (fuel : Nat) (infos : List (ObjInfo F64)) (off : Nat)
    (hne : infos ≠ []) (hfuel : infos.length ≤ fuel) :
    ∃ (node : Node F64) (sl : List (ObjInfo F64)), recursiveBuild64 env fuel infos off = .ok (node, sl.map (·.index)) ∧ sl.Perm infos ∧
      node.Covers off (sl.map (·.bounds)) ∧ node.size + 1 ≤ 2 * infos.length ∧
      (SmallClusters64 infos → node.LeafLt (2 ^ 15)) := by
  induction fuel generalizing infos off with
  | zero =>
    cases infos with
    | nil => exact absurd rfl hne
    | cons x xs => simp at hfuel
  | succ fuel ih =>
    cases infos with
    | nil => exact absurd rfl hne
    | cons i0 rest =>
      have hleafcov : (Node.leaf (boundsOf i0 rest) off (rest.length + 1)).Covers off
          ((i0 :: rest).map (·.bounds)) := by
        refine ⟨rfl, by simp, by simp, ?_⟩
        intro x hx
        obtain ⟨i, hi, rfl⟩ := List.mem_map.1 hx
        exact boundsOf_sub i0 rest i hi
      unfold recursiveBuild64
      simp only
      by_cases h1 : rest.length + 1 = 1
      · rw [if_pos h1]
        refine ⟨_, i0 :: rest, rfl, List.Perm.refl _, hleafcov, ?_, fun _ => ?_⟩
        · simp [Node.size]
        · simp only [Node.LeafLt]; omega
      · rw [if_neg h1]
        have hrest : rest ≠ [] := by rintro rfl; simp at h1
        rcases decideSplit64_spec env hE i0 rest hrest with ⟨hd, hsmall⟩ | ⟨axis, is, mid, hd, hperm, hm0, hm1⟩
        · rw [hd]
          refine ⟨_, i0 :: rest, rfl, List.Perm.refl _, hleafcov, ?_, fun hS => ?_⟩
          · simp [Node.size]
          · simp only [Node.LeafLt]
            by_contra hlt
            rcases hsmall with hsmall | hsmall
            · simp at hsmall; omega
            · obtain ⟨s, hs, t, ht, a, hst⟩ := hS (i0 :: rest) (List.Subperm.refl _) (by simp; omega)
              have e1 := (centroidBounds_contains i0 rest s hs).get a
              have e2 := (centroidBounds_contains i0 rest t ht).get a
              have e3 := hE.maxExtent_max (centroidBoundsOf i0 rest) a
              have e4 : (11 / 10 ^ 9 : ℚ) ≤ ((centroidBoundsOf i0 rest).max.get a).val - ((centroidBoundsOf i0 rest).min.get a).val :=
                le_trans hst (sub_le_sub e1.2 e2.1)
              have e5 := round64_rel _ (le_trans (by norm_num) e4)
              have e6 : (F64.lit (1 / 10 ^ 8)).val ≤ 11 / 10 ^ 9 * (1 - 1 / 2 ^ 53) := by decide +kernel
              have e7 : (11 / 10 ^ 9 * (1 - 1 / 2 ^ 53) : ℚ) ≤ (((centroidBoundsOf i0 rest).max.get a).val - ((centroidBoundsOf i0 rest).min.get a).val) * (1 - 1 / 2 ^ 53) :=
                mul_le_mul_of_nonneg_right e4 (by norm_num)
              have e8 : F64.lit (1 / 10 ^ 8) ≤ (centroidBoundsOf i0 rest).max.get a - (centroidBoundsOf i0 rest).min.get a := le_trans e6 (le_trans e7 e5)
              exact absurd hsmall (not_lt.2 (le_trans e8 e3))
        · rw [hd]
          simp only [Res.bind_ok]
          have hlen := hperm.length_eq
          have ht : (is.take mid).length = mid := by simp; omega
          have hdr : (is.drop mid).length = is.length - mid := by simp
          obtain ⟨n1, s1, e1, p1, c1, z1, l1⟩ := ih (is.take mid) off
            (by intro h; rw [h] at ht; simp at ht; omega) (by rw [ht]; omega)
          obtain ⟨n2, s2, e2, p2, c2, z2, l2⟩ := ih (is.drop mid) (off + (s1.map (·.index)).length)
            (by intro h; rw [h] at hdr; simp at hdr; omega) (by rw [hdr]; omega)
          rw [e1]
          simp only [Res.bind_ok]
          rw [e2]
          simp only [Res.bind_ok]
          have hsub1 : (is.take mid).Subperm (i0 :: rest) := (List.take_sublist mid is).subperm.trans hperm.subperm
          have hsub2 : (is.drop mid).Subperm (i0 :: rest) := (List.drop_sublist mid is).subperm.trans hperm.subperm
          refine ⟨Node.newInterior axis n1 n2, s1 ++ s2, by rw [List.map_append], ?_, ?_, ?_, ?_⟩
          · refine (p1.append p2).trans ?_
            rw [List.take_append_drop]; exact hperm
          · refine ⟨s1.map (·.bounds), s2.map (·.bounds), by rw [List.map_append], c1, ?_,
              BBox.sub_union_left _ _, BBox.sub_union_right _ _⟩
            simpa using c2
          · simp only [Node.newInterior, Node.size]
            rw [ht] at z1; rw [hdr] at z2; rw [← hlen]; omega
          · intro hS
            exact ⟨l1 (hS.mono hsub1), l2 (hS.mono hsub2)⟩

/-- Invariant of the search state. -/
def StateOk64 (P : List (Tri F64)) (ray : Ray3 F64) (s : HitState F64) : Prop :=
  match s.primIndex with
  | none => s.tSquared = floatMax64
  | some (i, info) => ∃ tri, P[i]? = some tri ∧ triangleIntersect64 tri ray = some info ∧
      s.tSquared = distSq64 info.p ray.origin ∧ InRange64 s.tSquared

theorem StateOk64.le {P : List (Tri F64)} {ray : Ray3 F64} {s : HitState F64} (h : StateOk64 P ray s) :
    s.tSquared ≤ floatMax64 := by
  unfold StateOk64 at h
  cases hp : s.primIndex with
  | none => rw [hp] at h; exact le_of_eq h
  | some x =>
    rw [hp] at h
    obtain ⟨_, _, _, _, h⟩ := h
    exact h.2.le

theorem intersectLeaf64_spec (P : List (Tri F64)) (ray : Ray3 F64) (tris : List (Tri F64)) (i : Nat) (s : HitState F64)
    (hseg : ∀ k tri, tris[k]? = some tri → P[i + k]? = some tri) (hs : StateOk64 P ray s) :
    StateOk64 P ray (intersectLeaf64 ray tris i s) ∧ (intersectLeaf64 ray tris i s).tSquared ≤ s.tSquared ∧
    ∀ tri ∈ tris, ∀ info, triangleIntersect64 tri ray = some info → F64.lit (1 / 10 ^ 7) < distSq64 info.p ray.origin →
      (intersectLeaf64 ray tris i s).tSquared ≤ distSq64 info.p ray.origin := by
  induction tris generalizing i s with
  | nil => exact ⟨hs, le_refl _, by simp⟩
  | cons tri tris ih =>
    have hseg' : ∀ k t, tris[k]? = some t → P[i + 1 + k]? = some t := by
      intro k t hk
      have := hseg (k + 1) t (by simpa using hk)
      rwa [show i + 1 + k = i + (k + 1) by omega]
    have h0 : P[i]? = some tri := hseg 0 tri (by simp)
    unfold intersectLeaf64
    cases hti : triangleIntersect64 tri ray with
    | none =>
      simp only
      obtain ⟨g1, g2, g3⟩ := ih (i + 1) s hseg' hs
      refine ⟨g1, g2, fun t ht info hi => ?_⟩
      rcases List.mem_cons.1 ht with rfl | ht
      · rw [hti] at hi; exact absurd hi (by simp)
      · exact g3 t ht info hi
    | some info =>
      simp only
      split
      · rename_i hcond
        have hs' : StateOk64 P ray { primIndex := some (i, info), tSquared := distSq64 info.p ray.origin } :=
          ⟨tri, h0, hti, rfl, hcond.1, lt_of_lt_of_le hcond.2 hs.le⟩
        obtain ⟨g1, g2, g3⟩ := ih (i + 1) _ hseg' hs'
        refine ⟨g1, g2.trans hcond.2.le, fun t ht info' hi hr => ?_⟩
        rcases List.mem_cons.1 ht with rfl | ht
        · rw [hti] at hi; cases hi; exact g2
        · exact g3 t ht info' hi hr
      · rename_i hcond
        obtain ⟨g1, g2, g3⟩ := ih (i + 1) s hseg' hs
        refine ⟨g1, g2, fun t ht info' hi hr => ?_⟩
        rcases List.mem_cons.1 ht with rfl | ht
        · rw [hti] at hi; cases hi
          have : s.tSquared ≤ distSq64 info.p ray.origin := by
            by_contra hlt
            exact hcond ⟨hr, not_le.1 hlt⟩
          exact g2.trans this
        · exact g3 t ht info' hi hr

theorem obstructs64_iff (ray : Ray3 F64) (D : F64) (tri : Tri F64) : obstructs64 ray D tri = true ↔
    ∃ info, triangleIntersect64 tri ray = some info ∧ blocks64 (distSq64 info.p ray.origin) D = true := by
  unfold obstructs64
  cases h : triangleIntersect64 tri ray with
  | none => exact ⟨fun h => absurd h Bool.false_ne_true, fun ⟨i, hi, _⟩ => absurd hi (by simp)⟩
  | some info =>
    constructor
    · intro hb; exact ⟨info, rfl, hb⟩
    · rintro ⟨i, hi, hb⟩; cases hi; exact hb

theorem unobstructedLeaf64_spec (ray : Ray3 F64) (D : F64) (tris : List (Tri F64)) :
    (unobstructedLeaf64 ray D tris = .cont () ∧ ∀ tri ∈ tris, obstructs64 ray D tri = false) ∨
    (unobstructedLeaf64 ray D tris = .ret false ∧ ∃ tri ∈ tris, obstructs64 ray D tri = true) := by
  unfold unobstructedLeaf64
  cases h : tris.any (obstructs64 ray D) with
  | true =>
    right
    obtain ⟨t, ht, hb⟩ := List.any_eq_true.1 h
    exact ⟨rfl, t, ht, hb⟩
  | false => exact Or.inl ⟨rfl, fun t ht => by simpa using List.any_eq_false.1 h t ht⟩

theorem treeVisit_intersect64 (P : List (Tri F64)) (ray : Ray3 F64) (hit : BBox F64 → Bool) (neg : Axis → Bool)
    (G : Tri F64 → Prop) (hG : ∀ tri, G tri → ∀ b, (worldBounds tri).Sub b → hit b = true)
    (nd : Node F64) (off : Nat) (bs : List (BBox F64)) (hc : nd.Covers off bs)
    (hlen : off + bs.length ≤ P.length) (hbs : (seg P off bs.length).map worldBounds = bs) (s : HitState F64)
    (hs : StateOk64 P ray s) :
    ∃ s', treeVisit hit neg (intersectAct64 P ray) nd s = .cont s' ∧ StateOk64 P ray s' ∧ s'.tSquared ≤ s.tSquared ∧
      ∀ tri ∈ seg P off bs.length, G tri → ∀ info, triangleIntersect64 tri ray = some info →
        F64.lit (1 / 10 ^ 7) < distSq64 info.p ray.origin → s'.tSquared ≤ distSq64 info.p ray.origin := by
  induction nd generalizing off bs s with
  | leaf b first n =>
    obtain ⟨rfl, rfl, h0, hsub⟩ := hc
    unfold treeVisit
    by_cases hb : hit b = true
    · rw [if_pos hb]
      unfold intersectAct64
      rw [slice?_seg P first _ hlen]
      obtain ⟨g1, g2, g3⟩ := intersectLeaf64_spec P ray (seg P first bs.length) first s
        (fun k tri h => seg_getElem? P first _ k tri h) hs
      exact ⟨_, rfl, g1, g2, fun tri ht _ info hi hr => g3 tri ht info hi hr⟩
    · rw [if_neg hb]
      refine ⟨s, rfl, hs, le_refl _, fun tri ht hg => ?_⟩
      exact absurd (hG tri hg b (hsub _ (by rw [← hbs]; exact List.mem_map_of_mem ht))) hb
  | interior b ax l r ihl ihr =>
    obtain ⟨bs1, bs2, rfl, c1, c2, s1, s2⟩ := hc
    simp only [List.length_append] at hlen hbs ⊢
    rw [seg_append] at hbs ⊢
    rw [List.map_append] at hbs
    obtain ⟨e1, e2⟩ := List.append_inj hbs (by simp [seg]; omega)
    unfold treeVisit
    by_cases hb : hit b = true
    · rw [if_pos hb]
      by_cases hn : neg ax = true
      · rw [if_pos hn]
        obtain ⟨s', h1, h2, h3, h4⟩ := ihr (off + bs1.length) bs2 c2 (by omega) e2 s hs
        obtain ⟨s'', g1, g2, g3, g4⟩ := ihl off bs1 c1 (by omega) e1 s' h2
        rw [h1]
        refine ⟨s'', g1, g2, g3.trans h3, fun tri ht hg info hi hr => ?_⟩
        rcases List.mem_append.1 ht with ht | ht
        · exact g4 tri ht hg info hi hr
        · exact g3.trans (h4 tri ht hg info hi hr)
      · rw [if_neg hn]
        obtain ⟨s', h1, h2, h3, h4⟩ := ihl off bs1 c1 (by omega) e1 s hs
        obtain ⟨s'', g1, g2, g3, g4⟩ := ihr (off + bs1.length) bs2 c2 (by omega) e2 s' h2
        rw [h1]
        refine ⟨s'', g1, g2, g3.trans h3, fun tri ht hg info hi hr => ?_⟩
        rcases List.mem_append.1 ht with ht | ht
        · exact g3.trans (h4 tri ht hg info hi hr)
        · exact g4 tri ht hg info hi hr
    · rw [if_neg hb]
      refine ⟨s, rfl, hs, le_refl _, fun tri ht hg => ?_⟩
      exfalso
      apply hb
      rcases List.mem_append.1 ht with ht | ht
      · exact hG tri hg b ((c1.sub _ (by rw [← e1]; exact List.mem_map_of_mem ht)).trans s1)
      · exact hG tri hg b ((c2.sub _ (by rw [← e2]; exact List.mem_map_of_mem ht)).trans s2)

theorem treeVisit_unobstructed64 (P : List (Tri F64)) (ray : Ray3 F64) (D : F64) (hit : BBox F64 → Bool) (neg : Axis → Bool)
    (G : Tri F64 → Prop) (hG : ∀ tri, G tri → ∀ b, (worldBounds tri).Sub b → hit b = true)
    (nd : Node F64) (off : Nat) (bs : List (BBox F64)) (hc : nd.Covers off bs)
    (hlen : off + bs.length ≤ P.length) (hbs : (seg P off bs.length).map worldBounds = bs) :
    (treeVisit hit neg (unobstructedAct64 P ray D) nd () = .cont () ∧
      ∀ tri ∈ seg P off bs.length, G tri → obstructs64 ray D tri = false) ∨
    (treeVisit hit neg (unobstructedAct64 P ray D) nd () = .ret false ∧
      ∃ tri ∈ seg P off bs.length, obstructs64 ray D tri = true) := by
  induction nd generalizing off bs with
  | leaf b first n =>
    obtain ⟨rfl, rfl, h0, hsub⟩ := hc
    unfold treeVisit
    by_cases hb : hit b = true
    · rw [if_pos hb]
      unfold unobstructedAct64
      rw [slice?_seg P first _ hlen]
      rcases unobstructedLeaf64_spec ray D (seg P first bs.length) with ⟨h1, h2⟩ | h
      · left; exact ⟨h1, fun tri ht _ => h2 tri ht⟩
      · right; exact h
    · rw [if_neg hb]
      left
      refine ⟨rfl, fun tri ht hg => ?_⟩
      exact absurd (hG tri hg b (hsub _ (by rw [← hbs]; exact List.mem_map_of_mem ht))) hb
  | interior b ax l r ihl ihr =>
    obtain ⟨bs1, bs2, rfl, c1, c2, s1, s2⟩ := hc
    simp only [List.length_append] at hlen hbs ⊢
    rw [seg_append] at hbs ⊢
    rw [List.map_append] at hbs
    obtain ⟨e1, e2⟩ := List.append_inj hbs (by simp [seg]; omega)
    have hl := ihl off bs1 c1 (by omega) e1
    have hr := ihr (off + bs1.length) bs2 c2 (by omega) e2
    unfold treeVisit
    by_cases hb : hit b = true
    · rw [if_pos hb]
      by_cases hn : neg ax = true
      · rw [if_pos hn]
        rcases hr with ⟨h1, h2⟩ | ⟨h1, t, ht, h2⟩
        · rw [h1]
          rcases hl with ⟨g1, g2⟩ | ⟨g1, t, ht, g2⟩
          · left
            refine ⟨g1, fun tri ht => ?_⟩
            rcases List.mem_append.1 ht with ht | ht
            · exact g2 tri ht
            · exact h2 tri ht
          · right; exact ⟨g1, t, List.mem_append_left _ ht, g2⟩
        · right; rw [h1]; exact ⟨rfl, t, List.mem_append_right _ ht, h2⟩
      · rw [if_neg hn]
        rcases hl with ⟨g1, g2⟩ | ⟨g1, t, ht, g2⟩
        · rw [g1]
          rcases hr with ⟨h1, h2⟩ | ⟨h1, t, ht, h2⟩
          · left
            refine ⟨h1, fun tri ht => ?_⟩
            rcases List.mem_append.1 ht with ht | ht
            · exact g2 tri ht
            · exact h2 tri ht
          · right; exact ⟨h1, t, List.mem_append_right _ ht, h2⟩
        · right; rw [g1]; exact ⟨rfl, t, List.mem_append_left _ ht, g2⟩
    · rw [if_neg hb]
      left
      refine ⟨rfl, fun tri ht hg => ?_⟩
      exfalso
      apply hb
      rcases List.mem_append.1 ht with ht | ht
      · exact hG tri hg b ((c1.sub _ (by rw [← e1]; exact List.mem_map_of_mem ht)).trans s1)
      · exact hG tri hg b ((c2.sub _ (by rw [← e2]; exact List.mem_map_of_mem ht)).trans s2)

theorem objInfo_centroid64 (k : Nat) (t : Tri F64) (a : Axis) : (ObjInfo.new64 k t).centroid.get a = boxCentre64 t a := by
  cases a <;> simp only [ObjInfo.new64, worldBounds, BBox.fromPoint, BBox.fromUnionPoint, boxCentre64, Vec3.get]

theorem smallClusters_of64 (tris : List (Tri F64)) (hfit : FitsAccelerator64 tris) :
    SmallClusters64 (tris.zipIdx.map (fun p => ObjInfo.new64 p.2 p.1)) := by
  intro l hl hlen
  -- read back the triangles of `l`
  have hex : ∃ ps : List (Tri F64 × Nat), l = ps.map (fun p => ObjInfo.new64 p.2 p.1) ∧ ps.Subperm tris.zipIdx := by
    obtain ⟨l', hp, hs⟩ := hl
    obtain ⟨ps', hps', rfl⟩ := List.sublist_map_iff.1 hs
    have hc : Relation.Comp (· = List.map (fun p : Tri F64 × Nat => ObjInfo.new64 p.2 p.1) ·) (· ~ ·) l ps' := by
      rw [List.eq_map_comp_perm]; exact hp.symm
    obtain ⟨ps, hl, hps⟩ := hc
    exact ⟨ps, hl, hps.subperm.trans hps'.subperm⟩
  obtain ⟨ps, rfl, hps⟩ := hex
  have hsub : (ps.map Prod.fst).Subperm tris := by
    obtain ⟨q, hq, hqs⟩ := hps
    have h2 := hqs.map Prod.fst
    rw [List.zipIdx_map_fst] at h2
    exact ⟨_, hq.map _, h2⟩
  obtain ⟨s, hs, t, ht, a, hst⟩ := hfit.2 _ hsub (by simpa using hlen)
  obtain ⟨ps1, h1, rfl⟩ := List.mem_map.1 hs
  obtain ⟨ps2, h2, rfl⟩ := List.mem_map.1 ht
  exact ⟨_, List.mem_map_of_mem h1, _, List.mem_map_of_mem h2, a, by rw [objInfo_centroid64, objInfo_centroid64]; exact hst⟩

/-- Everything `BoundingVolumeTree::new` guarantees. -/
theorem bvhNew64_spec {F B N : Type} (env : BvhEnv F64) (hE : env.Lawful64) (tris : List (Tri F64)) (front : List F)
    (back : List B) (normals : List N) (hf : front.length = tris.length) (hb : back.length = tris.length)
    (hn : normals.length = tris.length) :
    ∃ bvh tris' front' back' normals', bvhNew64 env tris front back normals = .ok (bvh, tris', front', back', normals') ∧
      tris'.length = tris.length ∧ front'.length = tris.length ∧ back'.length = tris.length ∧
      normals'.length = tris.length ∧
      (rows tris' front' back' normals').Perm (rows tris front back normals) ∧
      (FitsAccelerator64 tris → AccelFor bvh tris') := by
  unfold bvhNew64
  simp only
  by_cases h0 : tris.length = 0
  · rw [if_pos h0]
    exact ⟨_, _, _, _, _, rfl, rfl, hf, hb, hn, List.Perm.refl _,
      fun _ => ⟨Or.inl ⟨List.eq_nil_of_length_eq_zero h0, rfl⟩⟩⟩
  · rw [if_neg h0]
    set infos := tris.zipIdx.map (fun p => ObjInfo.new64 p.2 p.1) with hinfos
    have hil : infos.length = tris.length := by simp [hinfos]
    obtain ⟨root, sl, e, hp, hc, hz, hll⟩ := recursiveBuild64_spec env hE tris.length infos 0
      (by intro h; rw [h] at hil; simp at hil; omega) (le_of_eq hil)
    rw [e]
    simp only [Res.bind_eq, Res.bind_ok]
    -- properties of the order
    have hmem : ∀ i ∈ sl, tris[i.index]? = some (tris[i.index]?.getD ⟨i.centroid, i.centroid, i.centroid⟩) ∧
        i.index < tris.length ∧ ∃ t, tris[i.index]? = some t ∧ i.bounds = worldBounds t := by
      intro i hi
      have := hp.mem_iff.1 hi
      rw [hinfos] at this
      obtain ⟨⟨t, k⟩, hk, rfl⟩ := List.mem_map.1 this
      have hk' := List.mem_zipIdx_iff_getElem?.1 hk
      simp only at hk'
      refine ⟨?_, ?_, t, hk', rfl⟩
      · change tris[k]? = some (tris[k]?.getD _)
        rw [hk']; rfl
      · exact (List.getElem?_eq_some_iff.1 hk').1
    have hord : (sl.map (·.index)).Perm (List.range tris.length) := by
      refine (hp.map _).trans ?_
      rw [hinfos, List.map_map]
      have : ((fun x : ObjInfo F64 => x.index) ∘ fun p : Tri F64 × Nat => ObjInfo.new64 p.2 p.1) = Prod.snd := by
        funext p; rfl
      rw [this, List.zipIdx_map_snd, List.range_eq_range']
    have hlt : ∀ i ∈ sl.map (·.index), i < tris.length := by
      intro i hi
      exact List.mem_range.1 (hord.mem_iff.1 hi)
    have hlen : (sl.map (·.index)).length = tris.length := by rw [hord.length_eq]; simp
    rw [gather_eq tris _ hlt, gather_eq back _ (by rw [hb]; exact hlt), gather_eq front _ (by rw [hf]; exact hlt),
      gather_eq normals _ (by rw [hn]; exact hlt)]
    simp only [Res.bind_ok]
    refine ⟨_, _, _, _, _, rfl, ?_, ?_, ?_, ?_, ?_, ?_⟩
    · rw [gather_length _ _ hlt, hlen]
    · rw [gather_length _ _ (by rw [hf]; exact hlt), hlen]
    · rw [gather_length _ _ (by rw [hb]; exact hlt), hlen]
    · rw [gather_length _ _ (by rw [hn]; exact hlt), hlen]
    · unfold rows
      rw [gather_zip back normals _ (by rw [hb]; exact hlt) (by rw [hn]; exact hlt),
        gather_zip front _ _ (by rw [hf]; exact hlt) (by simp [hb, hn]; simpa using hlt),
        gather_zip tris _ _ hlt (by simp [hb, hn, hf]; simpa using hlt)]
      refine (hord.filterMap _).trans ?_
      have hl : (tris.zip (front.zip (back.zip normals))).length = tris.length := by simp [hf, hb, hn]
      rw [← hl, filterMap_range_getElem?]
    · intro hfit
      have hbs : sl.map (·.bounds) = ((sl.map (·.index)).filterMap (fun i => tris[i]?)).map worldBounds := by
        clear hlen hlt hord e hp hc
        induction sl with
        | nil => rfl
        | cons x xs ih =>
          obtain ⟨-, -, t, ht, hbt⟩ := hmem x (by simp)
          simp only [List.map_cons]
          rw [List.filterMap_cons, ht]
          simp only [List.map_cons]
          rw [hbt, ih (fun i hi => hmem i (by simp [hi]))]
      rw [hbs] at hc
      refine ⟨Or.inr ⟨root, rfl, hc, ?_, ?_⟩⟩
      · rw [gather_length _ _ hlt, hlen]; rw [hil] at hz; exact hz
      · apply Node.fits_of hc (hll (smallClusters_of64 tris hfit))
        rw [List.length_map, gather_length _ _ hlt, hlen]
        have := hfit.1; omega

/-! ### Answers -/

theorem intersect_spec64 (env : BvhEnv F64) (bvh : Bvh F64) (P : List (Tri F64)) (hA : AccelFor bvh P) (hP : P.length < 2 ^ 30)
    (ray : Ray3 F64) (scratch : List Nat) (G : Tri F64 → Prop)
    (hG : ∀ tri, G tri → ∀ b, (worldBounds tri).Sub b → env.boxHit b ray = true) :
    ∃ r, bvhIntersect64 env bvh.nodes P ray scratch = .ok r ∧
      (∀ i info, r = some (i, info) → ∃ tri, P[i]? = some tri ∧ triangleIntersect64 tri ray = some info ∧
        InRange64 (distSq64 info.p ray.origin) ∧
        ∀ tri' ∈ P, G tri' → ∀ info', triangleIntersect64 tri' ray = some info' →
          F64.lit (1 / 10 ^ 7) < distSq64 info'.p ray.origin → distSq64 info.p ray.origin ≤ distSq64 info'.p ray.origin) ∧
      (r = none → ∀ tri ∈ P, G tri → ∀ info, triangleIntersect64 tri ray = some info →
          ¬ InRange64 (distSq64 info.p ray.origin)) := by
  rcases hA.empty_or with ⟨rfl, hn⟩ | ⟨root, hn, hc, hz, hfit⟩
  · refine ⟨none, ?_, by simp, by simp⟩
    simp [bvhIntersect64, hn]
  · have hne : bvh.nodes.isEmpty = false := by
      have := (layout_flattenNode root).2
      rw [hn]
      cases hfl : (flattenNode root []).1 with
      | nil => rw [hfl] at this; cases root <;> (simp [Node.size] at this; try omega)
      | cons => rfl
    unfold bvhIntersect64
    rw [hne]
    simp only [Bool.false_eq_true, if_false, List.take_zero]
    rw [hn]
    have htr := traverse_root root (fun b => env.boxHit b ray) (dirIsNeg64 ray) (intersectAct64 P ray) hfit (by omega)
      { primIndex := none, tSquared := floatMax64 }
    rw [htr]
    obtain ⟨s', h1, h2, h3, h4⟩ := treeVisit_intersect64 P ray (fun b => env.boxHit b ray) (dirIsNeg64 ray) G hG root 0
      (P.map worldBounds) hc (by simp) (by simp [seg]) { primIndex := none, tSquared := floatMax64 } rfl
    rw [h1]
    simp only [Res.bind_ok]
    have hseg : seg P 0 (P.map worldBounds).length = P := by simp [seg]
    rw [hseg] at h4
    refine ⟨s'.primIndex, rfl, ?_, ?_⟩
    · intro i info hr
      unfold StateOk64 at h2
      rw [hr] at h2
      obtain ⟨tri, g1, g2, g3, g4⟩ := h2
      refine ⟨tri, g1, g2, by rw [← g3]; exact g4, fun t ht hg info' hi hr' => ?_⟩
      rw [← g3]
      exact h4 t ht hg info' hi hr'
    · intro hr tri ht hg info hi hin
      unfold StateOk64 at h2
      rw [hr] at h2
      have := h4 tri ht hg info hi hin.1
      simp only at h2
      rw [h2] at this
      exact absurd hin.2 (not_lt.2 this)

theorem unobstructed_spec64 (env : BvhEnv F64) (bvh : Bvh F64) (P : List (Tri F64)) (hA : AccelFor bvh P) (hP : P.length < 2 ^ 30)
    (ray : Ray3 F64) (D : F64) (scratch : List Nat) (G : Tri F64 → Prop)
    (hG : ∀ tri, G tri → ∀ b, (worldBounds tri).Sub b → env.boxHit b ray = true) :
    ∃ r, bvhUnobstructed64 env bvh.nodes P ray D scratch = .ok r ∧
      (r = false → ∃ tri ∈ P, obstructs64 ray D tri = true) ∧
      (r = true → ∀ tri ∈ P, G tri → obstructs64 ray D tri = false) := by
  rcases hA.empty_or with ⟨rfl, hn⟩ | ⟨root, hn, hc, hz, hfit⟩
  · refine ⟨true, ?_, by simp, by simp⟩
    simp [bvhUnobstructed64, hn]
  · have hne : bvh.nodes.isEmpty = false := by
      have := (layout_flattenNode root).2
      rw [hn]
      cases hfl : (flattenNode root []).1 with
      | nil => rw [hfl] at this; cases root <;> (simp [Node.size] at this; try omega)
      | cons => rfl
    unfold bvhUnobstructed64
    rw [hne]
    simp only [Bool.false_eq_true, if_false, List.take_zero]
    rw [hn]
    have htr := traverse_root root (fun b => env.boxHit b ray) (dirIsNeg64 ray) (unobstructedAct64 P ray D) hfit (by omega) ()
    rw [htr]
    have hseg : seg P 0 (P.map worldBounds).length = P := by simp [seg]
    rcases treeVisit_unobstructed64 P ray D (fun b => env.boxHit b ray) (dirIsNeg64 ray) G hG root 0
      (P.map worldBounds) hc (by simp) (by simp [seg]) with ⟨h1, h2⟩ | ⟨h1, h2⟩
    · rw [h1]
      rw [hseg] at h2
      exact ⟨true, rfl, by simp, fun _ => h2⟩
    · rw [h1]
      rw [hseg] at h2
      exact ⟨false, rfl, fun _ => h2, by simp⟩

end Rendering
