import Verif.Spec.Tree
import Verif.Lemmas.BvhBuild
import Mathlib.Tactic.Linarith
import Mathlib.Tactic.FieldSimp
import Mathlib.Tactic.Ring

set_option linter.unusedSectionVars false

namespace Rendering
variable {K : Type} [Field K] [LinearOrder K] [IsStrictOrderedRing K] [FloorRing K]

/-! ### Smallest boxes -/

theorem BBox.contains_iff {b : BBox K} {p : Vec3 K} : b.Contains p ↔ ∀ a, b.min.get a ≤ p.get a ∧ p.get a ≤ b.max.get a :=
  ⟨fun h a => h.get a, fun h => ⟨h .X, h .Y, h .Z⟩⟩

theorem BBox.ext_get {b b' : BBox K} (h : ∀ a, b.min.get a = b'.min.get a ∧ b.max.get a = b'.max.get a) : b = b' := by
  obtain ⟨⟨a1, a2, a3⟩, ⟨a4, a5, a6⟩⟩ := b
  obtain ⟨⟨b1, b2, b3⟩, ⟨b4, b5, b6⟩⟩ := b'
  have hx := h .X
  have hy := h .Y
  have hz := h .Z
  simp only [Vec3.get] at hx hy hz
  simp [hx, hy, hz]

theorem BBox.Tight.unique {b b' : BBox K} {l l' : List (Vec3 K)} (h : b.Tight l) (h' : b'.Tight l') (hl : ∀ p, p ∈ l ↔ p ∈ l') : b = b' := by
  apply BBox.ext_get
  intro a
  have h1 := h.smallest b' (fun p hp => h'.contains p ((hl p).1 hp)) a
  have h2 := h'.smallest b (fun p hp => h.contains p ((hl p).2 hp)) a
  exact ⟨le_antisymm h2.1 h1.1, le_antisymm h1.2 h2.2⟩

theorem BBox.Tight.congr {b : BBox K} {l l' : List (Vec3 K)} (h : b.Tight l) (hl : ∀ p, p ∈ l ↔ p ∈ l') : b.Tight l' :=
  ⟨fun p hp => h.contains p ((hl p).2 hp), fun b' hb' => h.smallest b' (fun p hp => hb' p ((hl p).1 hp))⟩

theorem BBox.Encloses.unique {b b' : BBox K} {l l' : List (BBox K)} (h : b.Encloses l) (h' : b'.Encloses l') (hl : ∀ p, p ∈ l ↔ p ∈ l') : b = b' := by
  apply BBox.ext_get
  intro a
  have h1 := h.smallest b' (fun p hp => h'.contains p ((hl p).1 hp)) a
  have h2 := h'.smallest b (fun p hp => h.contains p ((hl p).2 hp)) a
  exact ⟨le_antisymm h2.1 h1.1, le_antisymm h1.2 h2.2⟩

theorem BBox.Encloses.congr {b : BBox K} {l l' : List (BBox K)} (h : b.Encloses l) (hl : ∀ p, p ∈ l ↔ p ∈ l') : b.Encloses l' :=
  ⟨fun p hp => h.contains p ((hl p).2 hp), fun b' hb' => h.smallest b' (fun p hp => hb' p ((hl p).1 hp))⟩

theorem get_union_min (b c : BBox K) (a : Axis) : (b.fromUnion c).min.get a = min (b.min.get a) (c.min.get a) := by cases a <;> rfl
theorem get_union_max (b c : BBox K) (a : Axis) : (b.fromUnion c).max.get a = max (b.max.get a) (c.max.get a) := by cases a <;> rfl

theorem tight_point (p : Vec3 K) : (BBox.fromPoint p).Tight [p] := by
  constructor
  · intro q hq
    rw [List.mem_singleton.1 hq]
    exact BBox.fromPoint_contains p
  · intro b' hb' a
    have := (hb' p (by simp)).get a
    have e1 : (BBox.fromPoint p).min.get a = p.get a := by cases a <;> rfl
    have e2 : (BBox.fromPoint p).max.get a = p.get a := by cases a <;> rfl
    rw [e1, e2]
    exact this

theorem BBox.Tight.unionPoint {b : BBox K} {l : List (Vec3 K)} (h : b.Tight l) (p : Vec3 K) : (b.fromUnionPoint p).Tight (l ++ [p]) := by
  constructor
  · intro q hq
    rcases List.mem_append.1 hq with hq | hq
    · exact (BBox.sub_unionPoint b p).contains (h.contains q hq)
    · rw [List.mem_singleton.1 hq]
      exact BBox.unionPoint_contains b p
  · intro b' hb' a
    have h1 := h.smallest b' (fun q hq => hb' q (by simp [hq])) a
    have h2 := (hb' p (by simp)).get a
    rw [Vec3.get_fromUnionPoint_min, Vec3.get_fromUnionPoint_max]
    exact ⟨le_min h1.1 h2.1, max_le h1.2 h2.2⟩

theorem BBox.Tight.union {b c : BBox K} {l m : List (Vec3 K)} (h : b.Tight l) (h' : c.Tight m) : (b.fromUnion c).Tight (l ++ m) := by
  constructor
  · intro q hq
    rcases List.mem_append.1 hq with hq | hq
    · exact (BBox.sub_union_left b c).contains (h.contains q hq)
    · exact (BBox.sub_union_right b c).contains (h'.contains q hq)
  · intro b' hb' a
    have h1 := h.smallest b' (fun q hq => hb' q (by simp [hq])) a
    have h2 := h'.smallest b' (fun q hq => hb' q (by simp [hq])) a
    rw [get_union_min, get_union_max]
    exact ⟨le_min h1.1 h2.1, max_le h1.2 h2.2⟩

theorem encloses_one (b : BBox K) : b.Encloses [b] :=
  ⟨fun x hx a => by rw [List.mem_singleton.1 hx]; exact ⟨le_refl _, le_refl _⟩, fun b' hb' a => hb' b (by simp) a⟩

theorem BBox.Encloses.union {b c : BBox K} {l m : List (BBox K)} (h : b.Encloses l) (h' : c.Encloses m) : (b.fromUnion c).Encloses (l ++ m) := by
  constructor
  · intro q hq a
    rw [get_union_min, get_union_max]
    rcases List.mem_append.1 hq with hq | hq
    · have := h.contains q hq a
      exact ⟨(min_le_left _ _).trans this.1, this.2.trans (le_max_left _ _)⟩
    · have := h'.contains q hq a
      exact ⟨(min_le_right _ _).trans this.1, this.2.trans (le_max_right _ _)⟩
  · intro b' hb' a
    have h1 := h.smallest b' (fun q hq => hb' q (by simp [hq])) a
    have h2 := h'.smallest b' (fun q hq => hb' q (by simp [hq])) a
    rw [get_union_min, get_union_max]
    exact ⟨le_min h1.1 h2.1, max_le h1.2 h2.2⟩

theorem boundsOf_encloses (i0 : ObjInfo K) (rest : List (ObjInfo K)) : (boundsOf i0 rest).Encloses ((i0 :: rest).map (·.bounds)) := by
  have key : ∀ (l : List (ObjInfo K)) (b : BBox K) (m : List (BBox K)), b.Encloses m →
      (l.foldl (fun b i => b.fromUnion i.bounds) b).Encloses (m ++ l.map (·.bounds)) := by
    intro l
    induction l with
    | nil => intro b m h; simpa using h
    | cons x xs ih =>
      intro b m h
      have := ih (b.fromUnion x.bounds) (m ++ [x.bounds]) (h.union (encloses_one _))
      simpa using this
  have := key rest i0.bounds [i0.bounds] (encloses_one _)
  simpa [boundsOf] using this

theorem centroidBounds_tight (i0 : ObjInfo K) (rest : List (ObjInfo K)) : (centroidBoundsOf i0 rest).Tight ((i0 :: rest).map (·.centroid)) := by
  have key : ∀ (l : List (ObjInfo K)) (b : BBox K) (m : List (Vec3 K)), b.Tight m →
      (l.foldl (fun b i => b.fromUnionPoint i.centroid) b).Tight (m ++ l.map (·.centroid)) := by
    intro l
    induction l with
    | nil => intro b m h; simpa using h
    | cons x xs ih =>
      intro b m h
      have := ih (b.fromUnionPoint x.centroid) (m ++ [x.centroid]) (h.unionPoint _)
      simpa using this
  have := key rest (BBox.fromPoint i0.centroid) [i0.centroid] (tight_point _)
  simpa [centroidBoundsOf] using this

/-! ### Slices and buckets -/

theorem slice_iff {c m : Vec3 K} {a : Axis} {hi : K} (hpos : 0 < hi - m.get a) (h0 : m.get a ≤ c.get a) (h1 : c.get a ≤ hi) (k : Nat) :
    InSlice (m.get a) hi (c.get a) k ↔ getBucketIndex c (hi - m.get a) a nBuckets m = k := by
  unfold getBucketIndex InSlice floorAsUsize nBuckets
  simp only
  set len := hi - m.get a with hlen
  set y := (c.get a - m.get a) * ((12 : ℕ) : K) / len with hy
  have hy0 : 0 ≤ y := by
    rw [hy]
    apply div_nonneg _ hpos.le
    exact mul_nonneg (by linarith) (by positivity)
  have hy12 : y ≤ 12 := by
    rw [hy, div_le_iff₀ hpos]
    push_cast
    nlinarith
  have hlow : ∀ j : K, m.get a + len * j / 12 ≤ c.get a ↔ j ≤ y := by
    intro j
    rw [hy, le_div_iff₀ hpos]
    push_cast
    constructor <;> intro h <;> nlinarith
  have hle : ∀ j : Nat, m.get a + len * j / 12 ≤ c.get a ↔ j ≤ ⌊y⌋₊ := by
    intro j
    rw [hlow, Nat.le_floor_iff hy0]
  have hlt : ∀ j : Nat, c.get a < m.get a + len * (j + 1) / 12 ↔ ⌊y⌋₊ < j + 1 := by
    intro j
    rw [← not_le, ← not_le, not_iff_not]
    have := hle (j + 1)
    push_cast at this
    exact this
  rw [hle, hlt]
  have h12 : ⌊y⌋₊ ≤ 12 := by
    apply Nat.floor_le_of_le
    simpa using hy12
  have hn : ⌊y⌋.toNat = ⌊y⌋₊ := Int.floor_toNat y
  generalize ⌊y⌋₊ = z at *
  by_cases hge : ⌊y⌋.toNat ≥ 12
  · rw [if_pos hge]
    omega
  · rw [if_neg hge]
    omega

/-- A bucket holds the number of the points and the smallest box around them. -/
def BucketOf (b : BucketInfo K) (points : List (Vec3 K)) : Prop :=
  b.count = points.length ∧ ((b.bounds = none ∧ points = []) ∨ ∃ bb, b.bounds = some bb ∧ bb.Tight points ∧ points ≠ [])

theorem BucketOf.register {b : BucketInfo K} {points : List (Vec3 K)} (h : BucketOf b points) (c : Vec3 K) : BucketOf (b.register c) (points ++ [c]) := by
  obtain ⟨hc, ⟨hb, rfl⟩ | ⟨bb, hb, ht, hne⟩⟩ := h
  · refine ⟨by simp [BucketInfo.register, hc], Or.inr ⟨BBox.fromPoint c, by simp [BucketInfo.register, hb], ?_, by simp⟩⟩
    simpa using tight_point c
  · exact ⟨by simp [BucketInfo.register, hc], Or.inr ⟨bb.fromUnionPoint c, by simp [BucketInfo.register, hb], ht.unionPoint c, by simp⟩⟩

/-- The centres in bucket `k`. -/
def inBucket (f : ObjInfo K → Nat) (infos : List (ObjInfo K)) (k : Nat) : List (Vec3 K) := (infos.filter (fun i => f i = k)).map (·.centroid)

theorem fillBuckets_content (infos : List (ObjInfo K)) (len : K) (a : Axis) (m : Vec3 K) :
    (fillBuckets infos len a m).length = nBuckets ∧ ∀ (k : Nat) (b : BucketInfo K), (fillBuckets infos len a m)[k]? = some b →
      BucketOf b (inBucket (fun i => getBucketIndex i.centroid len a nBuckets m) infos k) := by
  have key : ∀ (l : List (ObjInfo K)) (bs : List (BucketInfo K)) (P : Nat → List (Vec3 K)), (∀ (k : Nat) (b : BucketInfo K), bs[k]? = some b → BucketOf b (P k)) →
      (l.foldl (fun bs info => bs.modify (getBucketIndex info.centroid len a nBuckets m) (fun b => b.register info.centroid)) bs).length = bs.length ∧
      ∀ (k : Nat) (b : BucketInfo K), (l.foldl (fun bs info => bs.modify (getBucketIndex info.centroid len a nBuckets m) (fun b => b.register info.centroid)) bs)[k]? = some b →
        BucketOf b (P k ++ inBucket (fun i => getBucketIndex i.centroid len a nBuckets m) l k) := by
    intro l
    induction l with
    | nil => intro bs P h; simpa [inBucket] using h
    | cons x xs ih =>
      intro bs P h
      simp only [List.foldl_cons]
      obtain ⟨h1, h2⟩ := ih (bs.modify (getBucketIndex x.centroid len a nBuckets m) (fun b => b.register x.centroid))
        (fun k => P k ++ (if getBucketIndex x.centroid len a nBuckets m = k then [x.centroid] else [])) (by
          intro k b hb
          rw [List.getElem?_modify] at hb
          cases hk : bs[k]? with
          | none => simp [hk] at hb
          | some b0 =>
            rw [hk] at hb
            by_cases hx : getBucketIndex x.centroid len a nBuckets m = k
            · rw [if_pos hx]
              simp only [hx, if_true, Option.map_eq_map, Option.map_some, Option.some.injEq] at hb
              rw [← hb]
              exact (h k b0 hk).register _
            · rw [if_neg hx]
              simp only [hx, if_false, Option.map_eq_map, Option.map_some, Option.some.injEq] at hb
              rw [← hb, List.append_nil]
              exact h k b0 hk)
      refine ⟨by rw [h1]; simp, ?_⟩
      intro k b hb
      have := h2 k b hb
      rw [List.append_assoc] at this
      convert this using 2
      unfold inBucket
      by_cases hx : getBucketIndex x.centroid len a nBuckets m = k
      · simp [hx]
      · simp [hx]
  obtain ⟨h1, h2⟩ := key infos (List.replicate nBuckets ⟨0, none⟩) (fun _ => []) (by
    intro k b hb
    rw [List.getElem?_replicate] at hb
    split at hb
    · simp only [Option.some.injEq] at hb
      rw [← hb]
      exact ⟨rfl, Or.inl ⟨rfl, rfl⟩⟩
    · simp at hb)
  exact ⟨by unfold fillBuckets; rw [h1]; simp, fun k b hb => by simpa using h2 k b hb⟩

theorem merge_content (g : Nat → List (Vec3 K)) (bs : List (BucketInfo K)) (off : Nat) (init : BBox K × Nat) (points : List (Vec3 K))
    (hbs : ∀ (j : Nat) (b : BucketInfo K), bs[j]? = some b → BucketOf b (g (off + j))) (h1 : init.1.Tight points) (h2 : init.2 = points.length) :
    (mergeBuckets init bs).1.Tight (points ++ (List.range' off bs.length).flatMap g) ∧
    (mergeBuckets init bs).2 = (points ++ (List.range' off bs.length).flatMap g).length := by
  induction bs generalizing off init points with
  | nil => simpa [mergeBuckets] using ⟨h1, h2⟩
  | cons b bs ih =>
    have hb := hbs 0 b (by simp)
    have hrest : ∀ (j : Nat) (b : BucketInfo K), bs[j]? = some b → BucketOf b (g (off + 1 + j)) := by
      intro j c hc
      have := hbs (j + 1) c (by simpa using hc)
      rwa [show off + 1 + j = off + (j + 1) by omega]
    have hstep : mergeBuckets init (b :: bs) = mergeBuckets (match b.bounds with
        | some bb => (init.1.fromUnion bb, init.2 + b.count)
        | none => init) bs := rfl
    have hpts : points ++ (List.range' off (b :: bs).length).flatMap g = (points ++ g off) ++ (List.range' (off + 1) bs.length).flatMap g := by
      simp [List.range'_succ]
    rw [hstep, hpts]
    apply ih (off + 1) _ _ hrest
    · obtain ⟨hc, ⟨hn, he⟩ | ⟨bb, hs, ht, hne⟩⟩ := hb
      · rw [hn]
        simp only [Nat.add_zero] at he
        rw [he]
        simpa using h1
      · rw [hs]
        exact h1.union ht
    · obtain ⟨hc, ⟨hn, he⟩ | ⟨bb, hs, ht, hne⟩⟩ := hb
      · rw [hn]
        simp only [Nat.add_zero] at he
        rw [he]
        simpa using h2
      · rw [hs]
        simp only [Nat.add_zero] at hc
        simp [h2, hc]

theorem range_buckets (f : ObjInfo K → Nat) (infos : List (ObjInfo K)) (off n : Nat) :
    (∀ p, p ∈ (List.range' off n).flatMap (inBucket f infos) ↔ ∃ i ∈ infos, i.centroid = p ∧ off ≤ f i ∧ f i < off + n) ∧
    ((List.range' off n).flatMap (inBucket f infos)).length = infos.countP (fun i => off ≤ f i ∧ f i < off + n) := by
  constructor
  · intro p
    simp only [List.mem_flatMap, List.mem_range'_1, inBucket, List.mem_map, List.mem_filter, decide_eq_true_eq]
    constructor
    · rintro ⟨k, hk, i, ⟨hi, rfl⟩, rfl⟩
      exact ⟨i, hi, rfl, hk⟩
    · rintro ⟨i, hi, rfl, hk⟩
      exact ⟨f i, hk, i, ⟨hi, rfl⟩, rfl⟩
  · induction n generalizing off with
    | zero =>
      simp only [List.range'_zero, List.flatMap_nil, List.length_nil]
      symm
      rw [List.countP_eq_zero]
      intro i _
      simp only [decide_eq_true_eq]
      omega
    | succ n ih =>
      simp only [List.range'_succ, List.flatMap_cons, List.length_append]
      rw [ih (off + 1)]
      unfold inBucket
      rw [List.length_map, ← List.countP_eq_length_filter]
      clear ih
      induction infos with
      | nil => rfl
      | cons x xs ihx =>
        simp only [List.countP_cons, decide_eq_true_eq]
        rw [← ihx]
        split_ifs <;> omega

/-- The cost of cutting after bucket `i`, from the counts and smallest boxes of what is before and after. -/
theorem splitCost_eq (env : BvhEnv K) (bounds : BBox K) (infos : List (ObjInfo K)) (len : K) (a : Axis) (m : Vec3 K) (i : Nat) (hi : i < 11)
    (h0 : ∃ x ∈ infos, getBucketIndex x.centroid len a nBuckets m = 0) (hl : ∃ x ∈ infos, getBucketIndex x.centroid len a nBuckets m = nBuckets - 1) :
    ∃ before after, AroundCentres before (infos.filter (fun x => getBucketIndex x.centroid len a nBuckets m ≤ i)) ∧
      AroundCentres after (infos.filter (fun x => i < getBucketIndex x.centroid len a nBuckets m)) ∧
      splitCost env bounds (fillBuckets infos len a m) i = .ok (if env.surfaceArea bounds = 0 then none else
        some (10 + (((infos.filter (fun x => getBucketIndex x.centroid len a nBuckets m ≤ i)).length : K) * env.surfaceArea before +
          ((infos.filter (fun x => i < getBucketIndex x.centroid len a nBuckets m)).length : K) * env.surfaceArea after) / env.surfaceArea bounds)) := by
  set f : ObjInfo K → Nat := fun x => getBucketIndex x.centroid len a nBuckets m with hf
  have hflt : ∀ x, f x < 12 := fun x => getBucketIndex_lt _ _ _ _
  obtain ⟨hlen, hcont⟩ := fillBuckets_content infos len a m
  set bs := fillBuckets infos len a m with hbs
  have h12 : nBuckets = 12 := rfl
  rw [h12] at hlen
  have hb0 : bs[0]? = some (bs[0]'(by omega)) := List.getElem?_eq_getElem (by omega)
  have hb11 : bs[11]? = some (bs[11]'(by omega)) := List.getElem?_eq_getElem (by omega)
  have c0 := hcont 0 _ hb0
  have c11 := hcont 11 _ hb11
  have hne0 : inBucket f infos 0 ≠ [] := by
    obtain ⟨x, hx, hfx⟩ := h0
    intro h
    have : x.centroid ∈ inBucket f infos 0 := List.mem_map.2 ⟨x, List.mem_filter.2 ⟨hx, by simpa using hfx⟩, rfl⟩
    rw [h] at this
    simp at this
  have hne11 : inBucket f infos 11 ≠ [] := by
    obtain ⟨x, hx, hfx⟩ := hl
    intro h
    have hfx : f x = 11 := hfx
    have : x.centroid ∈ inBucket f infos 11 := List.mem_map.2 ⟨x, List.mem_filter.2 ⟨hx, by simpa using hfx⟩, rfl⟩
    rw [h] at this
    simp at this
  obtain ⟨n0, ⟨_, he⟩ | ⟨bb0, e0, t0, _⟩⟩ := c0
  · exact absurd he hne0
  obtain ⟨n11, ⟨_, he⟩ | ⟨bb11, e11, t11, _⟩⟩ := c11
  · exact absurd he hne11
  have mb := merge_content (inBucket f infos) ((bs.take (i + 1)).drop 1) 1 (bb0, bs[0].count) _ (by
    intro j b hb
    rw [List.getElem?_drop, List.getElem?_take] at hb
    split at hb
    · exact hcont _ _ hb
    · simp at hb) t0 n0
  have ma := merge_content (inBucket f infos) ((bs.take 11).drop (i + 1)) (i + 1) (bb11, bs[11].count) _ (by
    intro j b hb
    rw [List.getElem?_drop, List.getElem?_take] at hb
    split at hb
    · exact hcont _ _ hb
    · simp at hb) t11 n11
  have lb : ((bs.take (i + 1)).drop 1).length = i := by simp; omega
  have la : ((bs.take 11).drop (i + 1)).length = 10 - i := by simp; omega
  rw [lb] at mb
  rw [la] at ma
  obtain ⟨rb1, rb2⟩ := range_buckets f infos 1 i
  obtain ⟨ra1, ra2⟩ := range_buckets f infos (i + 1) (10 - i)
  have len0 : (inBucket f infos 0).length = infos.countP (fun x => f x = 0) := by
    unfold inBucket
    rw [List.length_map, ← List.countP_eq_length_filter]
  have len11 : (inBucket f infos 11).length = infos.countP (fun x => f x = 11) := by
    unfold inBucket
    rw [List.length_map, ← List.countP_eq_length_filter]
  have tb := mb.1.congr (l' := (infos.filter (fun x => f x ≤ i)).map (·.centroid)) (by
    intro p
    rw [List.mem_append, rb1]
    simp only [inBucket, List.mem_map, List.mem_filter, decide_eq_true_eq]
    constructor
    · rintro (⟨x, ⟨hx, h⟩, rfl⟩ | ⟨x, hx, rfl, h⟩)
      · have h : f x = 0 := h
        exact ⟨x, ⟨hx, by omega⟩, rfl⟩
      · exact ⟨x, ⟨hx, by omega⟩, rfl⟩
    · rintro ⟨x, ⟨hx, h⟩, rfl⟩
      by_cases h' : f x = 0
      · exact Or.inl ⟨x, ⟨hx, h'⟩, rfl⟩
      · exact Or.inr ⟨x, hx, rfl, by omega⟩)
  have ta := ma.1.congr (l' := (infos.filter (fun x => i < f x)).map (·.centroid)) (by
    intro p
    rw [List.mem_append, ra1]
    simp only [inBucket, List.mem_map, List.mem_filter, decide_eq_true_eq]
    constructor
    · rintro (⟨x, ⟨hx, h⟩, rfl⟩ | ⟨x, hx, rfl, h⟩)
      · have h : f x = 11 := h
        exact ⟨x, ⟨hx, by omega⟩, rfl⟩
      · exact ⟨x, ⟨hx, by omega⟩, rfl⟩
    · rintro ⟨x, ⟨hx, h⟩, rfl⟩
      by_cases h' : f x = 11
      · exact Or.inl ⟨x, ⟨hx, h'⟩, rfl⟩
      · have := hflt x
        exact Or.inr ⟨x, hx, rfl, by omega⟩)
  have nb : (mergeBuckets (bb0, bs[0].count) ((bs.take (i + 1)).drop 1)).2 = (infos.filter (fun x => f x ≤ i)).length := by
    rw [mb.2, List.length_append, rb2, len0, ← List.countP_eq_length_filter]
    clear * -
    induction infos with
    | nil => rfl
    | cons x xs ih =>
      simp only [List.countP_cons, decide_eq_true_eq]
      rw [← ih]
      split_ifs <;> omega
  have na : (mergeBuckets (bb11, bs[11].count) ((bs.take 11).drop (i + 1))).2 = (infos.filter (fun x => i < f x)).length := by
    rw [ma.2, List.length_append, ra2, len11, ← List.countP_eq_length_filter]
    clear * - hi hflt
    induction infos with
    | nil => rfl
    | cons x xs ih =>
      have := hflt x
      simp only [List.countP_cons, decide_eq_true_eq]
      rw [← ih]
      split_ifs <;> omega
  refine ⟨_, _, tb, ta, ?_⟩
  unfold splitCost
  simp only [h12, hb0, hb11, e0, e11, Res.bind_eq, Res.ofOption_some, Res.bind_ok, Res.pure_eq, show 12 - 1 = 11 from rfl, nb, na]
  split <;> rfl

/-! ### The cheapest cut -/

theorem minCostLoop_min (env : BvhEnv K) (bounds : BBox K) (buckets : List (BucketInfo K)) (cost : Nat → K) (is : List Nat)
    (hcost : ∀ i ∈ is, splitCost env bounds buckets i = .ok (some (cost i))) (acc : K × Nat) :
    ∃ r, minCostLoop env bounds buckets is acc = .ok r ∧ (∀ i ∈ is, r.1 ≤ cost i) ∧ r.1 ≤ acc.1 ∧
      (r = acc ∨ (r.2 ∈ is ∧ r.1 = cost r.2)) := by
  induction is generalizing acc with
  | nil => exact ⟨acc, rfl, by simp, le_refl _, Or.inl rfl⟩
  | cons i is ih =>
    unfold minCostLoop
    simp only [hcost i (by simp), Res.bind_eq, Res.bind_ok]
    obtain ⟨r, hr, h1, h2, h3⟩ := ih (fun j hj => hcost j (by simp [hj])) (if cost i < acc.1 then (cost i, i) else acc)
    refine ⟨r, hr, ?_, ?_, ?_⟩
    · intro j hj
      rcases List.mem_cons.1 hj with rfl | hj
      · refine h2.trans ?_
        split
        · exact le_refl _
        · rename_i h
          exact not_lt.1 h
      · exact h1 j hj
    · refine h2.trans ?_
      split
      · rename_i h
        exact h.le
      · exact le_refl _
    · rcases h3 with h3 | ⟨h3, h4⟩
      · split at h3
        · right
          rw [h3]
          exact ⟨by simp, rfl⟩
        · exact Or.inl h3
      · exact Or.inr ⟨by simp [h3], h4⟩

theorem minCostLoop_none (env : BvhEnv K) (bounds : BBox K) (buckets : List (BucketInfo K)) (is : List Nat)
    (hcost : ∀ i ∈ is, splitCost env bounds buckets i = .ok none) (acc : K × Nat) :
    minCostLoop env bounds buckets is acc = .ok acc := by
  induction is with
  | nil => rfl
  | cons i is ih =>
    unfold minCostLoop
    simp only [hcost i (by simp), Res.bind_eq, Res.bind_ok]
    exact ih (fun j hj => hcost j (by simp [hj]))

section cuts
variable (env : BvhEnv K) (i0 : ObjInfo K) (rest : List (ObjInfo K))

/-- The axis along which the group is cut. -/
private abbrev cutAxis : Axis := env.maxExtent (centroidBoundsOf i0 rest)
/-- The extent of the centres along it. -/
private abbrev cutLen : K := (centroidBoundsOf i0 rest).max.get (cutAxis env i0 rest) - (centroidBoundsOf i0 rest).min.get (cutAxis env i0 rest)
/-- The bucket of a member of the group. -/
private abbrev bucketOf (i : ObjInfo K) : Nat := getBucketIndex i.centroid (cutLen env i0 rest) (cutAxis env i0 rest) nBuckets (centroidBoundsOf i0 rest).min

theorem slice_bucket (hpos : 0 < cutLen env i0 rest) {i : ObjInfo K} (hi : i ∈ i0 :: rest) (j : Nat) :
    InSlice ((centroidBoundsOf i0 rest).min.get (cutAxis env i0 rest)) ((centroidBoundsOf i0 rest).max.get (cutAxis env i0 rest)) (i.centroid.get (cutAxis env i0 rest)) j ↔
      bucketOf env i0 rest i = j := by
  have h := (centroidBounds_contains i0 rest i hi).get (cutAxis env i0 rest)
  exact slice_iff hpos h.1 h.2 j

/-- Cuts are the divisions of the group by buckets. -/
theorem cut_iff (hpos : 0 < cutLen env i0 rest) (k : Nat) (l r : List (ObjInfo K)) :
    Cut env (i0 :: rest) k l r ↔ (l ++ r).Perm (i0 :: rest) ∧ (∀ i ∈ l, bucketOf env i0 rest i ≤ k) ∧ (∀ i ∈ r, k < bucketOf env i0 rest i) := by
  constructor
  · rintro ⟨hp, cb, ht, hl, hr⟩
    have hcb : cb = centroidBoundsOf i0 rest := ht.unique (centroidBounds_tight i0 rest) (fun _ => Iff.rfl)
    subst hcb
    refine ⟨hp, fun i hi => ?_, fun i hi => ?_⟩
    · obtain ⟨j, hj, hk⟩ := hl i hi
      rw [slice_bucket env i0 rest hpos (hp.mem_iff.1 (by simp [hi]))] at hj
      omega
    · obtain ⟨j, hj, hk⟩ := hr i hi
      rw [slice_bucket env i0 rest hpos (hp.mem_iff.1 (by simp [hi]))] at hj
      omega
  · rintro ⟨hp, hl, hr⟩
    refine ⟨hp, centroidBoundsOf i0 rest, centroidBounds_tight i0 rest, fun i hi => ?_, fun i hi => ?_⟩
    · exact ⟨_, (slice_bucket env i0 rest hpos (hp.mem_iff.1 (by simp [hi])) _).2 rfl, hl i hi⟩
    · exact ⟨_, (slice_bucket env i0 rest hpos (hp.mem_iff.1 (by simp [hi])) _).2 rfl, hr i hi⟩

theorem Cut.filters (hpos : 0 < cutLen env i0 rest) {k : Nat} {l r : List (ObjInfo K)} (h : Cut env (i0 :: rest) k l r) :
    l.Perm ((i0 :: rest).filter (fun x => bucketOf env i0 rest x ≤ k)) ∧ r.Perm ((i0 :: rest).filter (fun x => k < bucketOf env i0 rest x)) := by
  obtain ⟨hp, hl, hr⟩ := (cut_iff env i0 rest hpos k l r).1 h
  constructor
  · have := hp.filter (fun x => bucketOf env i0 rest x ≤ k)
    rw [List.filter_append] at this
    have e1 : l.filter (fun x => bucketOf env i0 rest x ≤ k) = l := List.filter_eq_self.2 (fun i hi => by simpa using hl i hi)
    have e2 : r.filter (fun x => bucketOf env i0 rest x ≤ k) = [] := List.filter_eq_nil_iff.2 (fun i hi => by simpa using hr i hi)
    rw [e1, e2, List.append_nil] at this
    exact this
  · have := hp.filter (fun x => k < bucketOf env i0 rest x)
    rw [List.filter_append] at this
    have e1 : l.filter (fun x => k < bucketOf env i0 rest x) = [] := List.filter_eq_nil_iff.2 (fun i hi => by simpa using hl i hi)
    have e2 : r.filter (fun x => k < bucketOf env i0 rest x) = r := List.filter_eq_self.2 (fun i hi => by simpa using hr i hi)
    rw [e1, e2, List.nil_append] at this
    exact this

theorem first_last (hpos : 0 < cutLen env i0 rest) :
    (∃ x ∈ i0 :: rest, bucketOf env i0 rest x = 0) ∧ (∃ x ∈ i0 :: rest, bucketOf env i0 rest x = nBuckets - 1) := by
  obtain ⟨⟨imin, himin, hmin⟩, imax, himax, hmax⟩ := centroidBounds_attained i0 rest (cutAxis env i0 rest)
  exact ⟨⟨imin, himin, getBucketIndex_min hmin⟩, ⟨imax, himax, getBucketIndex_max hpos (by rw [hmax])⟩⟩

/-- The number the program computes for bucket `k` is the cost of the cut. -/
theorem cost_of_cut (hpos : 0 < cutLen env i0 rest) {k : Nat} (hk : k < 11) {l r : List (ObjInfo K)} (h : Cut env (i0 :: rest) k l r) :
    (env.surfaceArea (boundsOf i0 rest) = 0 ∧ splitCost env (boundsOf i0 rest) (fillBuckets (i0 :: rest) (cutLen env i0 rest) (cutAxis env i0 rest) (centroidBoundsOf i0 rest).min) k = .ok none ∧
      ∀ c, ¬ SplitCost env.surfaceArea AroundCentres l r c) ∨
    (env.surfaceArea (boundsOf i0 rest) ≠ 0 ∧ ∃ c, splitCost env (boundsOf i0 rest) (fillBuckets (i0 :: rest) (cutLen env i0 rest) (cutAxis env i0 rest) (centroidBoundsOf i0 rest).min) k = .ok (some c) ∧
      ∀ c', SplitCost env.surfaceArea AroundCentres l r c' ↔ c' = c) := by
  obtain ⟨h0, h11⟩ := first_last env i0 rest hpos
  obtain ⟨before, after, tb, ta, hc⟩ := splitCost_eq env (boundsOf i0 rest) (i0 :: rest) _ _ _ k hk h0 h11
  obtain ⟨pl, pr⟩ := h.filters env i0 rest hpos
  have hbounds : ∀ b : BBox K, b.Encloses ((l ++ r).map (·.bounds)) → b = boundsOf i0 rest := by
    intro b hb
    exact hb.unique (boundsOf_encloses i0 rest) (fun p => (h.perm.map _).mem_iff)
  by_cases hA : env.surfaceArea (boundsOf i0 rest) = 0
  · left
    refine ⟨hA, by rw [hc, if_pos hA], ?_⟩
    rintro c ⟨bl, br, b, _, _, hb, hne, _⟩
    rw [hbounds b hb] at hne
    exact hne hA
  · right
    refine ⟨hA, _, by rw [hc, if_neg hA], ?_⟩
    intro c'
    constructor
    · rintro ⟨bl, br, b, hl, hr, hb, hne, rfl⟩
      rw [hbounds b hb]
      have e1 : bl = before := BBox.Tight.unique hl tb (fun p => (pl.map _).mem_iff)
      have e2 : br = after := BBox.Tight.unique hr ta (fun p => (pr.map _).mem_iff)
      rw [e1, e2, pl.length_eq, pr.length_eq]
    · rintro rfl
      refine ⟨before, after, boundsOf i0 rest, BBox.Tight.congr tb (fun p => (pl.map _).mem_iff.symm), BBox.Tight.congr ta (fun p => (pr.map _).mem_iff.symm),
        (boundsOf_encloses i0 rest).congr (fun p => (h.perm.map _).mem_iff.symm), hA, ?_⟩
      rw [pl.length_eq, pr.length_eq]

theorem sorted_takeWhile {α : Type} (f : α → Nat) (k : Nat) (l : List α) (hs : l.Pairwise (fun x y => f x ≤ f y)) :
    (∀ x ∈ l.take (l.takeWhile (fun x => decide (f x ≤ k))).length, f x ≤ k) ∧ (∀ x ∈ l.drop (l.takeWhile (fun x => decide (f x ≤ k))).length, k < f x) := by
  induction l with
  | nil => simp
  | cons x xs ih =>
    rw [List.takeWhile_cons]
    have hx : ∀ y ∈ xs, f x ≤ f y := fun y hy => List.rel_of_pairwise_cons hs hy
    obtain ⟨h1, h2⟩ := ih (List.Pairwise.of_cons hs)
    by_cases h : f x ≤ k
    · simp only [h, decide_true, if_true, List.length_cons, List.take_succ_cons, List.drop_succ_cons]
      refine ⟨?_, h2⟩
      intro y hy
      rcases List.mem_cons.1 hy with rfl | hy
      · exact h
      · exact h1 y hy
    · simp only [h, decide_false, Bool.false_eq_true, if_false, List.length_nil, List.take_zero, List.drop_zero]
      refine ⟨by simp, ?_⟩
      intro y hy
      rcases List.mem_cons.1 hy with rfl | hy
      · omega
      · have := hx y hy
        omega

/-- What is decided for a group, in terms of cuts and costs. -/
theorem decideSplit_cheapest (hE : env.Lawful) (hrest : rest ≠ []) :
    (decideSplit env i0 rest = .ok .makeLeaf ∧ (Clustered (i0 :: rest) ∨ (4 < (i0 :: rest).length ∧ (i0 :: rest).length ≤ 24 ∧
      ∀ k < 11, ∀ l r c, Cut env (i0 :: rest) k l r → SplitCost env.surfaceArea AroundCentres l r c → ((i0 :: rest).length : K) ≤ c ∨ floatMax K ≤ c))) ∨
    ∃ axis infos mid, decideSplit env i0 rest = .ok (.split axis infos mid) ∧ infos.Perm (i0 :: rest) ∧ 0 < mid ∧ mid < infos.length ∧
      (((i0 :: rest).length ≤ 4 ∧ mid = (i0 :: rest).length / 2) ∨ (4 < (i0 :: rest).length ∧ ∃ k < 11, Cut env (i0 :: rest) k (infos.take mid) (infos.drop mid) ∧
        (24 < (i0 :: rest).length ∨ ∃ c, SplitCost env.surfaceArea AroundCentres (infos.take mid) (infos.drop mid) c ∧ c < (i0 :: rest).length) ∧
        (∀ c, SplitCost env.surfaceArea AroundCentres (infos.take mid) (infos.drop mid) c → ∀ k' < 11, ∀ l' r' c', Cut env (i0 :: rest) k' l' r' →
          SplitCost env.surfaceArea AroundCentres l' r' c' → c ≤ c' ∨ floatMax K ≤ c'))) := by
  have hmaxE := hE.maxExtent_max (centroidBoundsOf i0 rest)
  have hlen2 : 2 ≤ (i0 :: rest).length := by
    cases rest with
    | nil => exact absurd rfl hrest
    | cons x xs => simp
  have hdef : decideSplit env i0 rest = if cutLen env i0 rest < 1 / 10 ^ 8 then .ok .makeLeaf
      else if (i0 :: rest).length ≤ tooFewToBucket then
        .ok (.split (cutAxis env i0 rest) (env.select ((i0 :: rest).length / 2) (cutAxis env i0 rest) (i0 :: rest)) ((i0 :: rest).length / 2))
      else (minCostLoop env (boundsOf i0 rest) (fillBuckets (i0 :: rest) (cutLen env i0 rest) (cutAxis env i0 rest) (centroidBoundsOf i0 rest).min)
          (List.range (nBuckets - 1)) (floatMax K, 0)).bind fun x =>
        if (i0 :: rest).length > 24 ∨ x.1 < ((i0 :: rest).length : K) then
          (Res.ofOption (findMid (env.sort (cutAxis env i0 rest) (i0 :: rest)) (cutLen env i0 rest) (cutAxis env i0 rest) (centroidBoundsOf i0 rest).min x.2)).bind fun mid =>
            .ok (.split (cutAxis env i0 rest) (env.sort (cutAxis env i0 rest) (i0 :: rest)) mid)
        else .ok .makeLeaf := rfl
  by_cases h1 : cutLen env i0 rest < 1 / 10 ^ 8
  · left
    refine ⟨by rw [hdef, if_pos h1], Or.inl ?_⟩
    intro i hi j hj a
    have e1 := (centroidBounds_contains i0 rest i hi).get a
    have e2 := (centroidBounds_contains i0 rest j hj).get a
    have e3 := hmaxE a
    have e4 : cutLen env i0 rest = (centroidBoundsOf i0 rest).max.get (env.maxExtent (centroidBoundsOf i0 rest)) - (centroidBoundsOf i0 rest).min.get (env.maxExtent (centroidBoundsOf i0 rest)) := rfl
    linarith
  have hpos : 0 < cutLen env i0 rest := lt_of_lt_of_le (by positivity) (not_lt.1 h1)
  by_cases h2 : (i0 :: rest).length ≤ tooFewToBucket
  · right
    have h2' : (i0 :: rest).length ≤ 4 := h2
    refine ⟨_, _, _, by rw [hdef, if_neg h1, if_pos h2], hE.select_perm _ _ _, by omega, ?_, Or.inl ⟨h2', rfl⟩⟩
    rw [(hE.select_perm _ _ _).length_eq]
    omega
  have h4 : 4 < (i0 :: rest).length := by
    have : ¬ (i0 :: rest).length ≤ 4 := h2
    omega
  have hcutf : ∀ k, Cut env (i0 :: rest) k ((i0 :: rest).filter (fun x => bucketOf env i0 rest x ≤ k)) ((i0 :: rest).filter (fun x => k < bucketOf env i0 rest x)) := by
    intro k
    rw [cut_iff env i0 rest hpos]
    refine ⟨?_, fun i hi => ?_, fun i hi => ?_⟩
    · have := List.filter_append_perm (fun x => decide (bucketOf env i0 rest x ≤ k)) (i0 :: rest)
      refine List.Perm.trans (List.Perm.of_eq ?_) this
      congr 1
      apply List.filter_congr
      intro x _
      rw [← decide_not, decide_eq_decide, not_le]
    · simpa using (List.mem_filter.1 hi).2
    · simpa using (List.mem_filter.1 hi).2
  -- the outcome of the scan
  have hscan : ∃ r : K × Nat, minCostLoop env (boundsOf i0 rest) (fillBuckets (i0 :: rest) (cutLen env i0 rest) (cutAxis env i0 rest) (centroidBoundsOf i0 rest).min)
        (List.range (nBuckets - 1)) (floatMax K, 0) = .ok r ∧ r.2 < 11 ∧ r.1 ≤ floatMax K ∧
      (∀ k < 11, ∀ l' r' c', Cut env (i0 :: rest) k l' r' → SplitCost env.surfaceArea AroundCentres l' r' c' → r.1 ≤ c') ∧
      (r.1 = floatMax K ∨ ∀ l' r', Cut env (i0 :: rest) r.2 l' r' → ∀ c', SplitCost env.surfaceArea AroundCentres l' r' c' ↔ c' = r.1) := by
    by_cases hA : env.surfaceArea (boundsOf i0 rest) = 0
    · refine ⟨(floatMax K, 0), minCostLoop_none _ _ _ _ ?_ _, by omega, le_refl _, ?_, Or.inl rfl⟩
      · intro k hk
        have hk : k < 11 := by simpa [nBuckets] using hk
        rcases cost_of_cut env i0 rest hpos hk (hcutf k) with ⟨_, h, _⟩ | ⟨h, _⟩
        · exact h
        · exact absurd hA h
      · intro k hk l' r' c' hc hs
        rcases cost_of_cut env i0 rest hpos hk hc with ⟨_, _, h⟩ | ⟨h, _⟩
        · exact absurd hs (h c')
        · exact absurd hA h
    · have hall : ∀ k, ∃ c, k < 11 → splitCost env (boundsOf i0 rest) (fillBuckets (i0 :: rest) (cutLen env i0 rest) (cutAxis env i0 rest) (centroidBoundsOf i0 rest).min) k = .ok (some c) := by
        intro k
        by_cases hk : k < 11
        · rcases cost_of_cut env i0 rest hpos hk (hcutf k) with ⟨h, _⟩ | ⟨_, c, h, _⟩
          · exact absurd h hA
          · exact ⟨c, fun _ => h⟩
        · exact ⟨0, fun h => absurd h hk⟩
      choose cost hcost using hall
      have hcut : ∀ k < 11, ∀ l' r', Cut env (i0 :: rest) k l' r' → ∀ c', SplitCost env.surfaceArea AroundCentres l' r' c' ↔ c' = cost k := by
        intro k hk l' r' hc c'
        rcases cost_of_cut env i0 rest hpos hk hc with ⟨h, _⟩ | ⟨_, c, h, h'⟩
        · exact absurd h hA
        · rw [hcost k hk] at h
          cases h
          exact h' c'
      obtain ⟨r, hr, g1, g2, g3⟩ := minCostLoop_min env (boundsOf i0 rest) (fillBuckets (i0 :: rest) (cutLen env i0 rest) (cutAxis env i0 rest) (centroidBoundsOf i0 rest).min)
        cost (List.range (nBuckets - 1)) (fun i hi => hcost i (by simpa [nBuckets] using hi)) (floatMax K, 0)
      have hr2 : r.2 < 11 := by
        rcases g3 with h | ⟨h, _⟩
        · rw [h]
          exact Nat.zero_lt_succ _
        · simpa [nBuckets] using h
      refine ⟨r, hr, hr2, g2, ?_, ?_⟩
      · intro k hk l' r' c' hc hs
        rw [(hcut k hk l' r' hc c').1 hs]
        exact g1 k (by simpa [nBuckets] using hk)
      · rcases g3 with h | ⟨_, h⟩
        · exact Or.inl (by rw [h])
        · right
          intro l' r' hc c'
          rw [h]
          exact hcut r.2 hr2 l' r' hc c'
  obtain ⟨r, hr, hr2, hrmax, hrle, hrcost⟩ := hscan
  by_cases hdec : (i0 :: rest).length > 24 ∨ r.1 < ((i0 :: rest).length : K)
  · right
    have hperm := hE.sort_perm (cutAxis env i0 rest) (i0 :: rest)
    have hsorted := hE.sort_sorted (cutAxis env i0 rest) (i0 :: rest)
    set s := env.sort (cutAxis env i0 rest) (i0 :: rest) with hs
    have hsb : s.Pairwise (fun x y => bucketOf env i0 rest x ≤ bucketOf env i0 rest y) := hsorted.imp (fun h => getBucketIndex_mono hpos h)
    obtain ⟨hL, hR⟩ := sorted_takeWhile (bucketOf env i0 rest) r.2 s hsb
    set mid := (s.takeWhile (fun x => decide (bucketOf env i0 rest x ≤ r.2))).length with hmid
    have hcut : Cut env (i0 :: rest) r.2 (s.take mid) (s.drop mid) := by
      rw [cut_iff env i0 rest hpos]
      exact ⟨by rw [List.take_append_drop]; exact hperm, hL, hR⟩
    obtain ⟨⟨x0, hx0, hb0⟩, x1, hx1, hb1⟩ := first_last env i0 rest hpos
    have hb1 : bucketOf env i0 rest x1 = 11 := hb1
    have hm0 : 0 < mid := by
      by_contra h
      have hz : mid = 0 := by omega
      have hmem : x0 ∈ s.drop mid := by
        rw [hz, List.drop_zero]
        exact hperm.mem_iff.2 hx0
      have := hR x0 hmem
      omega
    have hm1 : mid < s.length := by
      by_contra h
      have hmem : x1 ∈ s.take mid := by
        rw [List.take_of_length_le (by omega)]
        exact hperm.mem_iff.2 hx1
      have := hL x1 hmem
      omega
    refine ⟨cutAxis env i0 rest, s, mid, ?_, hperm, hm0, hm1, Or.inr ⟨h4, r.2, hr2, hcut, ?_, ?_⟩⟩
    · rw [hdef, if_neg h1, if_neg h2, hr, Res.bind_ok, if_pos hdec]
      have : findMid s (cutLen env i0 rest) (cutAxis env i0 rest) (centroidBoundsOf i0 rest).min r.2 = some mid := by
        unfold findMid
        simp only
        rw [← hmid, if_neg (by omega)]
      rw [this]
      rfl
    · by_cases h24 : (i0 :: rest).length > 24
      · exact Or.inl h24
      · right
        have hlt : r.1 < ((i0 :: rest).length : K) := hdec.resolve_left h24
        rcases hrcost with h | h
        · exfalso
          have h24' : (((i0 :: rest).length : Nat) : K) ≤ 24 := by
            have : (i0 :: rest).length ≤ 24 := by omega
            exact_mod_cast this
          have : (24 : K) ≤ floatMax K := by
            unfold floatMax
            have h1 : (1 : K) ≤ 2 ^ 971 := one_le_pow₀ (by norm_num)
            have h2 : (24 : K) ≤ 2 ^ 53 - 1 := by norm_num
            exact h2.trans (le_mul_of_one_le_right (by linarith) h1)
          linarith
        · exact ⟨r.1, (h _ _ hcut _).2 rfl, hlt⟩
    · intro c hc k' hk' l' r' c' hcut' hc'
      rcases hrcost with h | h
      · right
        rw [← h]
        exact hrle k' hk' l' r' c' hcut' hc'
      · left
        rw [(h _ _ hcut c).1 hc]
        exact hrle k' hk' l' r' c' hcut' hc'
  · left
    refine ⟨by rw [hdef, if_neg h1, if_neg h2, hr, Res.bind_ok, if_neg hdec], Or.inr ⟨h4, ?_, ?_⟩⟩
    · push Not at hdec
      exact hdec.1
    · intro k hk l r' c hcut hc
      left
      push Not at hdec
      exact hdec.2.trans (hrle k hk l r' c hcut hc)

/-- The tree that is built divides the group by the costs the program computes. -/
theorem recursiveBuild_good (hE : env.Lawful) (fuel : Nat) (infos : List (ObjInfo K)) (off : Nat) (node : Node K) (order : List Nat)
    (h : recursiveBuild env fuel infos off = .ok (node, order)) : GoodTree env AroundCentres node infos ∧ node.bounds.Encloses (infos.map (·.bounds)) := by
  induction fuel generalizing infos off node order with
  | zero => simp [recursiveBuild] at h
  | succ fuel ih =>
    cases infos with
    | nil => simp [recursiveBuild] at h
    | cons i0 rest =>
      have hb := boundsOf_encloses i0 rest
      unfold recursiveBuild at h
      simp only at h
      by_cases h1 : rest.length + 1 = 1
      · rw [if_pos h1] at h
        cases h
        exact ⟨GoodTree.together _ _ _ (Or.inl (by simpa using h1)) hb, hb⟩
      · rw [if_neg h1] at h
        have hrest : rest ≠ [] := by rintro rfl; simp at h1
        rcases decideSplit_cheapest env i0 rest hE hrest with ⟨hd, hwhy⟩ | ⟨axis, is, mid, hd, hperm, hm0, hm1, hwhy⟩
        · rw [hd] at h
          cases h
          rcases hwhy with hwhy | ⟨g1, g2, g3⟩
          · exact ⟨GoodTree.together _ _ _ (Or.inr hwhy) hb, hb⟩
          · exact ⟨GoodTree.cheaper _ _ _ g1 g2 hb g3, hb⟩
        · rw [hd] at h
          simp only [Res.bind_ok] at h
          cases e1 : recursiveBuild env fuel (is.take mid) off with
          | panic => simp [e1] at h
          | diverge => simp [e1] at h
          | ok x1 =>
            obtain ⟨n1, o1⟩ := x1
            rw [e1] at h
            simp only [Res.bind_ok] at h
            cases e2 : recursiveBuild env fuel (is.drop mid) (off + o1.length) with
            | panic => simp [e2] at h
            | diverge => simp [e2] at h
            | ok x2 =>
              obtain ⟨n2, o2⟩ := x2
              rw [e2] at h
              cases h
              obtain ⟨t1, b1⟩ := ih _ _ _ _ e1
              obtain ⟨t2, b2⟩ := ih _ _ _ _ e2
              have hcov : (n1.bounds.fromUnion n2.bounds).Encloses ((i0 :: rest).map (·.bounds)) := by
                refine (b1.union b2).congr (fun p => ?_)
                rw [← List.map_append, List.take_append_drop]
                exact (hperm.map _).mem_iff
              have hlen := hperm.length_eq
              refine ⟨?_, hcov⟩
              rcases hwhy with ⟨g1, g2⟩ | ⟨g1, k, hk, hcut, g2, g3⟩
              · refine GoodTree.halves _ _ _ _ _ (is.take mid) (is.drop mid) g1 (by rw [List.take_append_drop]; exact hperm) ?_ hcov t1 t2
                rw [List.length_take]
                omega
              · refine GoodTree.cheapest _ _ _ _ _ (is.take mid) (is.drop mid) k g1 hk hcut hcov ?_ ?_ g2 g3 t1 t2
                · intro h
                  have := congrArg List.length h
                  rw [List.length_take, List.length_nil] at this
                  omega
                · intro h
                  have := congrArg List.length h
                  rw [List.length_drop, List.length_nil] at this
                  omega

end cuts

end Rendering
