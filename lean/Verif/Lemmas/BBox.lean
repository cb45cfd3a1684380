import Verif.Spec.Bvh

set_option linter.unusedSectionVars false

namespace Rendering
variable {K : Type} [LinearOrder K]

/-- Box inclusion. -/
def BBox.Sub (a b : BBox K) : Prop :=
  (b.min.x ≤ a.min.x ∧ a.max.x ≤ b.max.x) ∧ (b.min.y ≤ a.min.y ∧ a.max.y ≤ b.max.y) ∧
  (b.min.z ≤ a.min.z ∧ a.max.z ≤ b.max.z)

theorem BBox.Sub.refl (a : BBox K) : a.Sub a := by simp [BBox.Sub]

theorem BBox.Sub.trans {a b c : BBox K} (h : a.Sub b) (h' : b.Sub c) : a.Sub c := by
  obtain ⟨⟨h1, h2⟩, ⟨h3, h4⟩, h5, h6⟩ := h
  obtain ⟨⟨g1, g2⟩, ⟨g3, g4⟩, g5, g6⟩ := h'
  exact ⟨⟨g1.trans h1, h2.trans g2⟩, ⟨g3.trans h3, h4.trans g4⟩, g5.trans h5, h6.trans g6⟩

theorem BBox.Sub.contains {a b : BBox K} (h : a.Sub b) {p : Vec3 K} (hp : a.Contains p) : b.Contains p := by
  obtain ⟨⟨h1, h2⟩, ⟨h3, h4⟩, h5, h6⟩ := h
  obtain ⟨⟨g1, g2⟩, ⟨g3, g4⟩, g5, g6⟩ := hp
  exact ⟨⟨h1.trans g1, g2.trans h2⟩, ⟨h3.trans g3, g4.trans h4⟩, h5.trans g5, g6.trans h6⟩

theorem BBox.sub_union_left (a b : BBox K) : a.Sub (a.fromUnion b) := by
  simp [BBox.Sub, BBox.fromUnion]

theorem BBox.sub_union_right (a b : BBox K) : b.Sub (a.fromUnion b) := by
  simp [BBox.Sub, BBox.fromUnion]

theorem BBox.sub_unionPoint (a : BBox K) (p : Vec3 K) : a.Sub (a.fromUnionPoint p) := by
  simp [BBox.Sub, BBox.fromUnionPoint]

theorem BBox.unionPoint_contains (a : BBox K) (p : Vec3 K) : (a.fromUnionPoint p).Contains p := by
  simp [BBox.Contains, BBox.fromUnionPoint]

theorem BBox.fromPoint_contains (p : Vec3 K) : (BBox.fromPoint p).Contains p := by
  simp [BBox.Contains, BBox.fromPoint]

theorem worldBounds_a (t : Tri K) : (worldBounds t).Contains t.a :=
  (BBox.sub_unionPoint _ _).contains ((BBox.sub_unionPoint _ _).contains (BBox.fromPoint_contains _))
theorem worldBounds_b (t : Tri K) : (worldBounds t).Contains t.b :=
  (BBox.sub_unionPoint _ _).contains (BBox.unionPoint_contains _ _)
theorem worldBounds_c (t : Tri K) : (worldBounds t).Contains t.c := BBox.unionPoint_contains _ _

/-- Interval form of convexity. -/
theorem convex_mem [Field K] [IsStrictOrderedRing K] {lo hi a b c u v : K} (ha : lo ≤ a ∧ a ≤ hi) (hb : lo ≤ b ∧ b ≤ hi)
    (hc : lo ≤ c ∧ c ≤ hi) (hu : 0 ≤ u) (hv : 0 ≤ v) (huv : u + v ≤ 1) :
    lo ≤ a * (1 - u - v) + b * u + c * v ∧ a * (1 - u - v) + b * u + c * v ≤ hi := by
  have hw : 0 ≤ 1 - u - v := by linarith
  constructor
  · nlinarith [mul_le_mul_of_nonneg_right ha.1 hw, mul_le_mul_of_nonneg_right hb.1 hu, mul_le_mul_of_nonneg_right hc.1 hv]
  · nlinarith [mul_le_mul_of_nonneg_right ha.2 hw, mul_le_mul_of_nonneg_right hb.2 hu, mul_le_mul_of_nonneg_right hc.2 hv]

theorem BBox.contains_convex [Field K] [IsStrictOrderedRing K] {bx : BBox K} {a b c : Vec3 K} {u v : K} (ha : bx.Contains a)
    (hb : bx.Contains b) (hc : bx.Contains c) (hu : 0 ≤ u) (hv : 0 ≤ v) (huv : u + v ≤ 1) :
    bx.Contains (a.scale (1 - u - v) + b.scale u + c.scale v) :=
  ⟨convex_mem ha.1 hb.1 hc.1 hu hv huv, convex_mem ha.2.1 hb.2.1 hc.2.1 hu hv huv,
   convex_mem ha.2.2 hb.2.2 hc.2.2 hu hv huv⟩

theorem worldBounds_contains_point [Field K] [IsStrictOrderedRing K] (t : Tri K) {u v : K} (hu : 0 ≤ u) (hv : 0 ≤ v)
    (huv : u + v ≤ 1) :
    (worldBounds t).Contains (t.a.scale (1 - u - v) + t.b.scale u + t.c.scale v) :=
  BBox.contains_convex (worldBounds_a t) (worldBounds_b t) (worldBounds_c t) hu hv huv

/-- Folding unions gives a box including the start and every element. -/
theorem foldl_union_sub (l : List (ObjInfo K)) (b : BBox K) :
    b.Sub (l.foldl (fun b i => b.fromUnion i.bounds) b) ∧
    ∀ i ∈ l, i.bounds.Sub (l.foldl (fun b i => b.fromUnion i.bounds) b) := by
  induction l generalizing b with
  | nil => exact ⟨BBox.Sub.refl _, by simp⟩
  | cons x xs ih =>
    simp only [List.foldl_cons]
    obtain ⟨h1, h2⟩ := ih (b.fromUnion x.bounds)
    refine ⟨(BBox.sub_union_left _ _).trans h1, fun i hi => ?_⟩
    rcases List.mem_cons.1 hi with rfl | hi
    · exact (BBox.sub_union_right _ _).trans h1
    · exact h2 i hi

theorem boundsOf_sub (i0 : ObjInfo K) (rest : List (ObjInfo K)) :
    ∀ i ∈ i0 :: rest, i.bounds.Sub (boundsOf i0 rest) := by
  intro i hi
  rcases List.mem_cons.1 hi with rfl | hi
  · exact (foldl_union_sub rest _).1
  · exact (foldl_union_sub rest _).2 i hi

/-- Folding point unions contains all points. -/
theorem foldl_unionPoint_contains (l : List (ObjInfo K)) (b : BBox K) :
    b.Sub (l.foldl (fun b i => b.fromUnionPoint i.centroid) b) ∧
    ∀ i ∈ l, (l.foldl (fun b i => b.fromUnionPoint i.centroid) b).Contains i.centroid := by
  induction l generalizing b with
  | nil => exact ⟨BBox.Sub.refl _, by simp⟩
  | cons x xs ih =>
    simp only [List.foldl_cons]
    obtain ⟨h1, h2⟩ := ih (b.fromUnionPoint x.centroid)
    refine ⟨(BBox.sub_unionPoint _ _).trans h1, fun i hi => ?_⟩
    rcases List.mem_cons.1 hi with rfl | hi
    · exact h1.contains (BBox.unionPoint_contains _ _)
    · exact h2 i hi

theorem centroidBounds_contains (i0 : ObjInfo K) (rest : List (ObjInfo K)) :
    ∀ i ∈ i0 :: rest, (centroidBoundsOf i0 rest).Contains i.centroid := by
  intro i hi
  rcases List.mem_cons.1 hi with rfl | hi
  · exact (foldl_unionPoint_contains rest _).1.contains (BBox.fromPoint_contains _)
  · exact (foldl_unionPoint_contains rest _).2 i hi

theorem Vec3.get_fromUnionPoint_min (b : BBox K) (p : Vec3 K) (a : Axis) :
    (b.fromUnionPoint p).min.get a = min (b.min.get a) (p.get a) := by
  cases a <;> rfl
theorem Vec3.get_fromUnionPoint_max (b : BBox K) (p : Vec3 K) (a : Axis) :
    (b.fromUnionPoint p).max.get a = max (b.max.get a) (p.get a) := by
  cases a <;> rfl

/-- The minimum of the centroid box along an axis is attained by a centroid, and so is the maximum. -/
theorem foldl_unionPoint_attained (l : List (ObjInfo K)) (b : BBox K) (a : Axis) :
    ((l.foldl (fun b i => b.fromUnionPoint i.centroid) b).min.get a = b.min.get a ∨
      ∃ i ∈ l, i.centroid.get a = (l.foldl (fun b i => b.fromUnionPoint i.centroid) b).min.get a) ∧
    ((l.foldl (fun b i => b.fromUnionPoint i.centroid) b).max.get a = b.max.get a ∨
      ∃ i ∈ l, i.centroid.get a = (l.foldl (fun b i => b.fromUnionPoint i.centroid) b).max.get a) := by
  induction l generalizing b with
  | nil => exact ⟨Or.inl rfl, Or.inl rfl⟩
  | cons x xs ih =>
    simp only [List.foldl_cons]
    obtain ⟨h1, h2⟩ := ih (b.fromUnionPoint x.centroid)
    constructor
    · rcases h1 with h1 | ⟨i, hi, h1⟩
      · rw [Vec3.get_fromUnionPoint_min] at h1
        rcases min_choice (b.min.get a) (x.centroid.get a) with h | h
        · left; rw [h1, h]
        · right; exact ⟨x, by simp, by rw [h1, h]⟩
      · right; exact ⟨i, by simp [hi], h1⟩
    · rcases h2 with h2 | ⟨i, hi, h2⟩
      · rw [Vec3.get_fromUnionPoint_max] at h2
        rcases max_choice (b.max.get a) (x.centroid.get a) with h | h
        · left; rw [h2, h]
        · right; exact ⟨x, by simp, by rw [h2, h]⟩
      · right; exact ⟨i, by simp [hi], h2⟩

theorem centroidBounds_attained (i0 : ObjInfo K) (rest : List (ObjInfo K)) (a : Axis) :
    (∃ i ∈ i0 :: rest, i.centroid.get a = (centroidBoundsOf i0 rest).min.get a) ∧
    (∃ i ∈ i0 :: rest, i.centroid.get a = (centroidBoundsOf i0 rest).max.get a) := by
  have h := foldl_unionPoint_attained rest (BBox.fromPoint i0.centroid) a
  constructor
  · rcases h.1 with h | ⟨i, hi, h⟩
    · exact ⟨i0, by simp, by unfold centroidBoundsOf; rw [h]; cases a <;> rfl⟩
    · exact ⟨i, by simp [hi], h⟩
  · rcases h.2 with h | ⟨i, hi, h⟩
    · exact ⟨i0, by simp, by unfold centroidBoundsOf; rw [h]; cases a <;> rfl⟩
    · exact ⟨i, by simp [hi], h⟩

theorem BBox.Contains.get {b : BBox K} {p : Vec3 K} (h : b.Contains p) (a : Axis) :
    b.min.get a ≤ p.get a ∧ p.get a ≤ b.max.get a := by
  cases a
  · exact h.1
  · exact h.2.1
  · exact h.2.2

end Rendering
