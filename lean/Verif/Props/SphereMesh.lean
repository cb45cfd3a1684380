import Verif.Model.SphereMesh
import Verif.Props.Triangle
import Verif.Spec.Scene

/-!
# C20: `mesh_sphere`
-/

namespace Rendering

/-- Invariant of one mesh triangle: its vertices are on the sphere, pairwise less than 90° apart as seen from the centre, and it is wound
outwards (its right-hand normal has a positive component along each radius). -/
structure GoodTri (c : Vec3 ℝ) (r : ℝ) (t : Tri ℝ) : Prop where
  ha : (t.a - c).lengthSq = r ^ 2
  hb : (t.b - c).lengthSq = r ^ 2
  hc : (t.c - c).lengthSq = r ^ 2
  hab : 0 < (t.a - c).dot (t.b - c)
  hac : 0 < (t.a - c).dot (t.c - c)
  hbc : 0 < (t.b - c).dot (t.c - c)
  det : 0 < (t.a - c).dot ((t.b - c).cross (t.c - c))

theorem lengthSq_add (p q : Vec3 ℝ) : (p + q).lengthSq = p.lengthSq + 2 * p.dot q + q.lengthSq := by
  simp [Vec3.lengthSq, Vec3.dot]; ring

/-- The projected midpoint is a positive multiple of `p + q`, on the sphere. -/
theorem midOnSphere_spec (c : Vec3 ℝ) (r : ℝ) (hr : 0 < r) (a b : Vec3 ℝ) (ha : (a - c).lengthSq = r ^ 2) (hb : (b - c).lengthSq = r ^ 2)
    (hab : 0 < (a - c).dot (b - c)) :
    ∃ k, 0 < k ∧ midOnSphere c r a b - c = ((a - c) + (b - c)).scale k ∧ (midOnSphere c r a b - c).lengthSq = r ^ 2 := by
  have hm : (a + b).scale (1 / 2) - c = ((a - c) + (b - c)).scale (1 / 2) := by
    ext <;> simp <;> ring
  have hpos : 0 < ((a - c) + (b - c)).lengthSq := by
    rw [lengthSq_add, ha, hb]; positivity
  have hpos2 : 0 < ((a + b).scale (1 / 2) - c).lengthSq := by
    rw [hm]
    have : (((a - c) + (b - c)).scale (1 / 2)).lengthSq = (1 / 4) * ((a - c) + (b - c)).lengthSq := by
      simp only [Vec3.lengthSq, Vec3.dot, Vec3.scale_x, Vec3.scale_y, Vec3.scale_z]; ring
    rw [this]; positivity
  have hl := Vec3.length_pos hpos2
  refine ⟨1 / 2 * (1 / ((a + b).scale (1 / 2) - c).length) * r, by positivity, ?_, ?_⟩
  · unfold midOnSphere
    simp only [Vec3.normalized]
    rw [show ((a + b).scale (1 / 2) - c).scale (1 / ((a + b).scale (1 / 2) - c).length) =
      (((a - c) + (b - c)).scale (1 / 2)).scale (1 / ((a + b).scale (1 / 2) - c).length) by rw [← hm]]
    ext <;> simp <;> ring
  · have hu := Vec3.normalized_lengthSq hpos2
    unfold midOnSphere
    simp only
    have : (c + (((a + b).scale (1 / 2) - c).normalized).scale r - c).lengthSq = r ^ 2 * (((a + b).scale (1 / 2) - c).normalized).lengthSq := by
      simp only [Vec3.lengthSq, Vec3.dot, Vec3.scale_x, Vec3.scale_y, Vec3.scale_z, Vec3.sub_x, Vec3.sub_y, Vec3.sub_z, Vec3.add_x, Vec3.add_y, Vec3.add_z]; ring
    rw [this, hu, mul_one]

theorem refine_good (c : Vec3 ℝ) (r : ℝ) (hr : 0 < r) (t : Tri ℝ) (h : GoodTri c r t) :
    ∀ t' ∈ refine c r [t], GoodTri c r t' := by
  obtain ⟨k1, hk1, e1, s1⟩ := midOnSphere_spec c r hr t.a t.b h.ha h.hb h.hab
  obtain ⟨k2, hk2, e2, s2⟩ := midOnSphere_spec c r hr t.a t.c h.ha h.hc h.hac
  obtain ⟨k3, hk3, e3, s3⟩ := midOnSphere_spec c r hr t.b t.c h.hb h.hc h.hbc
  obtain ⟨ha, hb, hc, hab, hac, hbc, det⟩ := h
  set A := t.a - c
  set B := t.b - c
  set C := t.c - c
  have hr2 : 0 < r ^ 2 := by positivity
  have hA : A.dot A = r ^ 2 := ha
  have hB : B.dot B = r ^ 2 := hb
  have hC : C.dot C = r ^ 2 := hc
  have expand1 : ∀ (P Q R S : Vec3 ℝ) (k l : ℝ), ((P + Q).scale k).dot ((R + S).scale l) = k * l * (P.dot R + P.dot S + Q.dot R + Q.dot S) := by
    intros; simp [Vec3.dot]; ring
  have expand2 : ∀ (P Q R : Vec3 ℝ) (k : ℝ), P.dot ((Q + R).scale k) = k * (P.dot Q + P.dot R) := by
    intros; simp [Vec3.dot]; ring
  have expand3 : ∀ (P Q R : Vec3 ℝ) (k : ℝ), ((Q + R).scale k).dot P = k * (Q.dot P + R.dot P) := by
    intros; simp [Vec3.dot]; ring
  have cAB : B.dot A = A.dot B := Vec3.dot_comm' _ _
  have cAC : C.dot A = A.dot C := Vec3.dot_comm' _ _
  have cBC : C.dot B = B.dot C := Vec3.dot_comm' _ _
  intro t' ht'
  simp only [refine, List.map_cons, List.map_nil, List.flatMap_cons, List.flatMap_nil, List.append_nil, List.cons_append, List.nil_append,
    List.mem_cons, List.not_mem_nil, or_false] at ht'
  rcases ht' with rfl | rfl | rfl | rfl
  · refine ⟨ha, s1, s2, ?_, ?_, ?_, ?_⟩
    · rw [e1, expand2, hA]; positivity
    · rw [e2, expand2, hA]; positivity
    · rw [e1, e2, expand1, hA, cAB]; positivity
    · rw [e1, e2]
      have : A.dot (((A + B).scale k1).cross ((A + C).scale k2)) = k1 * k2 * A.dot (B.cross C) := by
        simp [Vec3.dot, Vec3.cross]; ring
      change 0 < A.dot _
      rw [this]; positivity
  · refine ⟨s1, hb, s3, ?_, ?_, ?_, ?_⟩
    · rw [e1, expand3, hB]; positivity
    · rw [e1, e3, expand1, hB]; positivity
    · rw [e3, expand2, hB]; positivity
    · simp only
      rw [e1, e3]
      have : ((A + B).scale k1).dot (B.cross ((B + C).scale k3)) = k1 * k3 * A.dot (B.cross C) := by
        simp [Vec3.dot, Vec3.cross]; ring
      change 0 < _
      rw [this]; positivity
  · refine ⟨s3, hc, s2, ?_, ?_, ?_, ?_⟩
    · rw [e3, expand3, hC]; positivity
    · rw [e3, e2, expand1, cAB, cAC, hC]; positivity
    · rw [e2, expand2, cAC, hC]; positivity
    · simp only
      rw [e3, e2]
      have : ((B + C).scale k3).dot (C.cross ((A + C).scale k2)) = k3 * k2 * A.dot (B.cross C) := by
        simp [Vec3.dot, Vec3.cross]; ring
      change 0 < _
      rw [this]; positivity
  · refine ⟨s1, s3, s2, ?_, ?_, ?_, ?_⟩
    · rw [e1, e3, expand1, hB]; positivity
    · rw [e1, e2, expand1, hA, cAB]; positivity
    · rw [e3, e2, expand1, cAB, cAC, hC]; positivity
    · simp only
      rw [e1, e2, e3]
      have : ((A + B).scale k1).dot (((B + C).scale k3).cross ((A + C).scale k2)) = 2 * k1 * k3 * k2 * A.dot (B.cross C) := by
        simp [Vec3.dot, Vec3.cross]; ring
      rw [this]; positivity

theorem refine_mem (c : Vec3 ℝ) (r : ℝ) (ts : List (Tri ℝ)) (t' : Tri ℝ) (h : t' ∈ refine c r ts) :
    ∃ t ∈ ts, t' ∈ refine c r [t] := by
  simp only [refine, List.mem_append, List.mem_map, List.mem_flatMap] at h
  rcases h with ⟨t, ht, rfl⟩ | ⟨t, ht, hm⟩
  · exact ⟨t, ht, by simp [refine]⟩
  · exact ⟨t, ht, by simp only [refine, List.mem_append, List.flatMap_cons, List.flatMap_nil, List.append_nil]; right; exact hm⟩

theorem refine_length (c : Vec3 ℝ) (r : ℝ) (ts : List (Tri ℝ)) : (refine c r ts).length = 4 * ts.length := by
  simp [refine, List.length_flatMap]; omega

theorem iterate_good (c : Vec3 ℝ) (r : ℝ) (hr : 0 < r) (n : Nat) (ts : List (Tri ℝ)) (h : ∀ t ∈ ts, GoodTri c r t) :
    (∀ t ∈ (refine c r)^[n] ts, GoodTri c r t) ∧ ((refine c r)^[n] ts).length = 4 ^ n * ts.length := by
  induction n generalizing ts with
  | zero => simpa using h
  | succ n ih =>
    simp only [Function.iterate_succ, Function.comp]
    obtain ⟨i1, i2⟩ := ih (refine c r ts) (by
      intro t' ht'
      obtain ⟨t, ht, hm⟩ := refine_mem c r ts t' ht'
      exact refine_good c r hr t (h t ht) t' hm)
    refine ⟨i1, ?_⟩
    rw [i2, refine_length]; ring

/-! ### The twenty base triangles -/

/-- A ring vertex relative to the centre, with the angle as `k` fifths of π. -/
noncomputable def ringRel (R h : ℝ) (k : ℤ) : Vec3 ℝ := ⟨R * Real.sin (k * (Real.pi / 5)), R * Real.cos (k * (Real.pi / 5)), h⟩

theorem ringRel_dot (R h h' : ℝ) (j k : ℤ) :
    (ringRel R h j).dot (ringRel R h' k) = R ^ 2 * Real.cos ((j - k : ℤ) * (Real.pi / 5)) + h * h' := by
  have : ((j - k : ℤ) : ℝ) * (Real.pi / 5) = j * (Real.pi / 5) - k * (Real.pi / 5) := by push_cast; ring
  rw [this, Real.cos_sub]
  simp only [Vec3.dot, ringRel]; ring

theorem ringRel_det (R h1 h2 h3 : ℝ) (i j k : ℤ) :
    (ringRel R h1 i).dot ((ringRel R h2 j).cross (ringRel R h3 k)) =
      R ^ 2 * (h3 * Real.sin ((i - j : ℤ) * (Real.pi / 5)) + h1 * Real.sin ((j - k : ℤ) * (Real.pi / 5)) +
        h2 * Real.sin ((k - i : ℤ) * (Real.pi / 5))) := by
  have e : ∀ p q : ℤ, ((p - q : ℤ) : ℝ) * (Real.pi / 5) = p * (Real.pi / 5) - q * (Real.pi / 5) := by intros; push_cast; ring
  rw [e, e, e, Real.sin_sub, Real.sin_sub, Real.sin_sub]
  simp only [Vec3.dot, Vec3.cross, ringRel]; ring

theorem ringRel_pole_dot (R h z : ℝ) (j : ℤ) : (ringRel R h j).dot ⟨0, 0, z⟩ = h * z := by
  simp [Vec3.dot, ringRel]

theorem ringRel_pole_det (R h1 h2 z : ℝ) (i j : ℤ) :
    (ringRel R h1 i).dot ((ringRel R h2 j).cross ⟨0, 0, z⟩) = R ^ 2 * z * Real.sin ((i - j : ℤ) * (Real.pi / 5)) := by
  have e : ∀ p q : ℤ, ((p - q : ℤ) : ℝ) * (Real.pi / 5) = p * (Real.pi / 5) - q * (Real.pi / 5) := by intros; push_cast; ring
  rw [e, Real.sin_sub]
  simp only [Vec3.dot, Vec3.cross, ringRel]; ring

/-- cos 36° and cos 72° as numbers are only needed through these bounds. -/
theorem cos36 : 1 / 2 < Real.cos (Real.pi / 5) := by
  rw [← Real.cos_pi_div_three]
  apply Real.cos_lt_cos_of_nonneg_of_le_pi_div_two <;> linarith [Real.pi_pos]
theorem cos72 : 0 < Real.cos (2 * (Real.pi / 5)) := Real.cos_pos_of_mem_Ioo ⟨by linarith [Real.pi_pos], by linarith [Real.pi_pos]⟩
theorem sin36 : 0 < Real.sin (Real.pi / 5) := Real.sin_pos_of_pos_of_lt_pi (by linarith [Real.pi_pos]) (by linarith [Real.pi_pos])
theorem sin72 : 0 < Real.sin (2 * (Real.pi / 5)) := Real.sin_pos_of_pos_of_lt_pi (by linarith [Real.pi_pos]) (by linarith [Real.pi_pos])

theorem sinP (k : ℤ) : Real.sin (((k + 10 : ℤ) : ℝ) * (Real.pi / 5)) = Real.sin ((k : ℝ) * (Real.pi / 5)) := by
  rw [show ((k + 10 : ℤ) : ℝ) * (Real.pi / 5) = k * (Real.pi / 5) + 2 * Real.pi by push_cast; ring, Real.sin_add_two_pi]
theorem cosP (k : ℤ) : Real.cos (((k + 10 : ℤ) : ℝ) * (Real.pi / 5)) = Real.cos ((k : ℝ) * (Real.pi / 5)) := by
  rw [show ((k + 10 : ℤ) : ℝ) * (Real.pi / 5) = k * (Real.pi / 5) + 2 * Real.pi by push_cast; ring, Real.cos_add_two_pi]

/-- Triangles with the pole: two neighbouring vertices of a ring at the pole's side. -/
theorem good_pole (r : ℝ) (hr : 0 < r) (z h : ℝ) (hz : z = r ∧ h = r / 2 ∨ z = -r ∧ h = -(r / 2)) (R : ℝ) (hR : R ^ 2 = 3 / 4 * r ^ 2) (i j : ℤ)
    (hcos : 0 < Real.cos ((i - j : ℤ) * (Real.pi / 5))) (hsin : 0 < z * Real.sin ((i - j : ℤ) * (Real.pi / 5))) (c : Vec3 ℝ) :
    GoodTri c r ⟨ringRel R h i + c, ringRel R h j + c, ⟨0, 0, z⟩ + c⟩ := by
  have e : ∀ v : Vec3 ℝ, v + c - c = v := by intro v; ext <;> simp
  have hz2 : z ^ 2 = r ^ 2 ∧ h ^ 2 = r ^ 2 / 4 ∧ 0 < h * z := by
    rcases hz with ⟨rfl, rfl⟩ | ⟨rfl, rfl⟩
    · refine ⟨rfl, by ring, by positivity⟩
    · refine ⟨by ring, by ring, ?_⟩
      have : -(r / 2) * -r = r ^ 2 / 2 := by ring
      rw [this]; positivity
  have hself : ∀ k, (ringRel R h k).lengthSq = r ^ 2 := by
    intro k
    rw [Vec3.lengthSq, ringRel_dot, sub_self]
    simp only [Int.cast_zero, zero_mul, Real.cos_zero]
    rw [hR]; nlinarith [hz2.2.1]
  refine ⟨?_, ?_, ?_, ?_, ?_, ?_, ?_⟩ <;> simp only [e]
  · exact hself i
  · exact hself j
  · rw [Vec3.lengthSq_eq]; simp [hz2.1]
  · rw [ringRel_dot, hR]
    have : 0 < 3 / 4 * r ^ 2 * Real.cos ((i - j : ℤ) * (Real.pi / 5)) := by positivity
    nlinarith [sq_nonneg h]
  · rw [ringRel_pole_dot]; exact hz2.2.2
  · rw [ringRel_pole_dot]; exact hz2.2.2
  · rw [ringRel_pole_det, hR, mul_assoc]; positivity

/-- Triangles of the middle band: two vertices of one ring and one of the other. -/
theorem good_band (r : ℝ) (hr : 0 < r) (h : ℝ) (hh : h = r / 2 ∨ h = -(r / 2)) (R : ℝ) (hR : R ^ 2 = 3 / 4 * r ^ 2) (i j k : ℤ)
    (hcos : 0 < Real.cos ((i - j : ℤ) * (Real.pi / 5))) (hcos2 : 1 / 2 < Real.cos ((i - k : ℤ) * (Real.pi / 5)))
    (hcos3 : 1 / 2 < Real.cos ((j - k : ℤ) * (Real.pi / 5)))
    (hsin : 0 < -h * Real.sin ((i - j : ℤ) * (Real.pi / 5)) + h * Real.sin ((j - k : ℤ) * (Real.pi / 5)) +
        h * Real.sin ((k - i : ℤ) * (Real.pi / 5))) (c : Vec3 ℝ) :
    GoodTri c r ⟨ringRel R h i + c, ringRel R h j + c, ringRel R (-h) k + c⟩ := by
  have e : ∀ v : Vec3 ℝ, v + c - c = v := by intro v; ext <;> simp
  have h2 : h ^ 2 = r ^ 2 / 4 := by rcases hh with rfl | rfl <;> ring
  have hself : ∀ h : ℝ, h ^ 2 = r ^ 2 / 4 → ∀ k, (ringRel R h k).lengthSq = r ^ 2 := by
    intro h h2 k
    rw [Vec3.lengthSq, ringRel_dot, sub_self]
    simp only [Int.cast_zero, zero_mul, Real.cos_zero]
    rw [hR]; nlinarith
  have hr2 : 0 < r ^ 2 := by positivity
  refine ⟨?_, ?_, ?_, ?_, ?_, ?_, ?_⟩ <;> simp only [e]
  · exact hself h h2 i
  · exact hself h h2 j
  · exact hself (-h) (by rw [neg_sq, h2]) k
  · rw [ringRel_dot, hR]
    have : 0 < 3 / 4 * r ^ 2 * Real.cos ((i - j : ℤ) * (Real.pi / 5)) := by positivity
    nlinarith [sq_nonneg h]
  · rw [ringRel_dot, hR]
    have : h * -h = -(r ^ 2 / 4) := by nlinarith
    rw [this]; nlinarith
  · rw [ringRel_dot, hR]
    have : h * -h = -(r ^ 2 / 4) := by nlinarith
    rw [this]; nlinarith
  · rw [ringRel_det, hR]; positivity

theorem ringPoint_eq (r h : ℝ) (c : Vec3 ℝ) (deg : ℝ) (k : ℤ) (hk : deg = 36 * k) :
    ringPoint r h c deg = ringRel r h k + c := by
  unfold ringPoint ringRel toRadians
  rw [hk, show 36 * (k : ℝ) * (Real.pi / 180) = k * (Real.pi / 5) by ring]

theorem base_good (r : ℝ) (hr : 0 < r) (c : Vec3 ℝ) : ∀ t ∈ baseTriangles r c, GoodTri c r t := by
  have h60 : toRadians 60 = Real.pi / 3 := by unfold toRadians; ring
  have hR : (r * Real.sin (Real.pi / 3)) ^ 2 = 3 / 4 * r ^ 2 := by
    rw [mul_pow, Real.sin_sq, Real.cos_pi_div_three]; ring
  have hh : r * Real.cos (Real.pi / 3) = r / 2 := by rw [Real.cos_pi_div_three]; ring
  unfold baseTriangles
  simp only [h60, hh]
  generalize r * Real.sin (Real.pi / 3) = R at hR
  rw [ringPoint_eq R (r / 2) c 36 1 (by norm_num), ringPoint_eq R (r / 2) c (3 * 36) 3 (by norm_num), ringPoint_eq R (r / 2) c (5 * 36) 5 (by norm_num),
    ringPoint_eq R (r / 2) c (7 * 36) 7 (by norm_num), ringPoint_eq R (r / 2) c (9 * 36) 9 (by norm_num),
    ringPoint_eq R (-(r / 2)) c 0 0 (by norm_num), ringPoint_eq R (-(r / 2)) c 72 2 (by norm_num), ringPoint_eq R (-(r / 2)) c (2 * 72) 4 (by norm_num),
    ringPoint_eq R (-(r / 2)) c (3 * 72) 6 (by norm_num), ringPoint_eq R (-(r / 2)) c (4 * 72) 8 (by norm_num)]
  -- values of the trigonometric functions at the differences that occur
  have c1 := cos36
  have c2 := cos72
  have s1 := sin36
  have s2 := sin72
  have S : ∀ k : ℤ, Real.sin (((-k : ℤ) : ℝ) * (Real.pi / 5)) = -Real.sin ((k : ℝ) * (Real.pi / 5)) := by
    intro k; push_cast; rw [neg_mul, Real.sin_neg]
  have C : ∀ k : ℤ, Real.cos (((-k : ℤ) : ℝ) * (Real.pi / 5)) = Real.cos ((k : ℝ) * (Real.pi / 5)) := by
    intro k; push_cast; rw [neg_mul, Real.cos_neg]
  have S1 : Real.sin (((1 : ℤ) : ℝ) * (Real.pi / 5)) = Real.sin (Real.pi / 5) := by norm_num
  have S2 : Real.sin (((2 : ℤ) : ℝ) * (Real.pi / 5)) = Real.sin (2 * (Real.pi / 5)) := by norm_num
  have C1 : Real.cos (((1 : ℤ) : ℝ) * (Real.pi / 5)) = Real.cos (Real.pi / 5) := by norm_num
  have C2 : Real.cos (((2 : ℤ) : ℝ) * (Real.pi / 5)) = Real.cos (2 * (Real.pi / 5)) := by norm_num
  have Sm1 : Real.sin (((-1 : ℤ) : ℝ) * (Real.pi / 5)) = -Real.sin (Real.pi / 5) := by rw [S, S1]
  have Sm2 : Real.sin (((-2 : ℤ) : ℝ) * (Real.pi / 5)) = -Real.sin (2 * (Real.pi / 5)) := by rw [S, S2]
  have Cm1 : Real.cos (((-1 : ℤ) : ℝ) * (Real.pi / 5)) = Real.cos (Real.pi / 5) := by rw [C, C1]
  have Cm2 : Real.cos (((-2 : ℤ) : ℝ) * (Real.pi / 5)) = Real.cos (2 * (Real.pi / 5)) := by rw [C, C2]
  have S9 : Real.sin (((9 : ℤ) : ℝ) * (Real.pi / 5)) = -Real.sin (Real.pi / 5) := by rw [show (9 : ℤ) = -1 + 10 by norm_num, sinP, Sm1]
  have S8 : Real.sin (((8 : ℤ) : ℝ) * (Real.pi / 5)) = -Real.sin (2 * (Real.pi / 5)) := by rw [show (8 : ℤ) = -2 + 10 by norm_num, sinP, Sm2]
  have C9 : Real.cos (((9 : ℤ) : ℝ) * (Real.pi / 5)) = Real.cos (Real.pi / 5) := by rw [show (9 : ℤ) = -1 + 10 by norm_num, cosP, Cm1]
  have C8 : Real.cos (((8 : ℤ) : ℝ) * (Real.pi / 5)) = Real.cos (2 * (Real.pi / 5)) := by rw [show (8 : ℤ) = -2 + 10 by norm_num, cosP, Cm2]
  have Sm9 : Real.sin (((-9 : ℤ) : ℝ) * (Real.pi / 5)) = Real.sin (Real.pi / 5) := by rw [S, S9, neg_neg]
  have Sm8 : Real.sin (((-8 : ℤ) : ℝ) * (Real.pi / 5)) = Real.sin (2 * (Real.pi / 5)) := by rw [S, S8, neg_neg]
  have Cm9 : Real.cos (((-9 : ℤ) : ℝ) * (Real.pi / 5)) = Real.cos (Real.pi / 5) := by rw [C, C9]
  have Cm8 : Real.cos (((-8 : ℤ) : ℝ) * (Real.pi / 5)) = Real.cos (2 * (Real.pi / 5)) := by rw [C, C8]
  have hx := mul_pos hr s1
  have hy := mul_pos hr s2
  intro t ht
  simp only [List.mem_cons, List.not_mem_nil, or_false] at ht
  have topHyp : r = r ∧ r / 2 = r / 2 ∨ r = -r ∧ r / 2 = -(r / 2) := Or.inl ⟨rfl, rfl⟩
  have botHyp : -r = r ∧ -(r / 2) = r / 2 ∨ -r = -r ∧ -(r / 2) = -(r / 2) := Or.inr ⟨rfl, rfl⟩
  have bandTop : ∀ i j k : ℤ, _ → _ → _ → _ → GoodTri c r ⟨ringRel R (r / 2) i + c, ringRel R (r / 2) j + c, ringRel R (-(r / 2)) k + c⟩ :=
    fun i j k h1 h2 h3 h4 => good_band r hr (r / 2) (Or.inl rfl) R hR i j k h1 h2 h3 h4 c
  have bandBot : ∀ i j k : ℤ, _ → _ → _ → _ → GoodTri c r ⟨ringRel R (-(r / 2)) i + c, ringRel R (-(r / 2)) j + c, ringRel R (r / 2) k + c⟩ :=
    fun i j k h1 h2 h3 h4 => by
      have := good_band r hr (-(r / 2)) (Or.inr rfl) R hR i j k h1 h2 h3 h4 c
      rwa [neg_neg] at this
  rcases ht with rfl | rfl | rfl | rfl | rfl | rfl | rfl | rfl | rfl | rfl | rfl | rfl | rfl | rfl | rfl | rfl | rfl | rfl | rfl | rfl
  · exact good_pole r hr r (r / 2) topHyp R hR 1 9 (by rw [show ((1:ℤ) - 9) = -8 by norm_num, Cm8]; exact c2) (by rw [show ((1:ℤ) - 9) = -8 by norm_num, Sm8]; linarith) c
  · exact good_pole r hr r (r / 2) topHyp R hR 9 7 (by rw [show ((9:ℤ) - 7) = 2 by norm_num, C2]; exact c2) (by rw [show ((9:ℤ) - 7) = 2 by norm_num, S2]; linarith) c
  · exact good_pole r hr r (r / 2) topHyp R hR 7 5 (by rw [show ((7:ℤ) - 5) = 2 by norm_num, C2]; exact c2) (by rw [show ((7:ℤ) - 5) = 2 by norm_num, S2]; linarith) c
  · exact good_pole r hr r (r / 2) topHyp R hR 5 3 (by rw [show ((5:ℤ) - 3) = 2 by norm_num, C2]; exact c2) (by rw [show ((5:ℤ) - 3) = 2 by norm_num, S2]; linarith) c
  · exact good_pole r hr r (r / 2) topHyp R hR 3 1 (by rw [show ((3:ℤ) - 1) = 2 by norm_num, C2]; exact c2) (by rw [show ((3:ℤ) - 1) = 2 by norm_num, S2]; linarith) c
  · exact good_pole r hr (-r) (-(r / 2)) botHyp R hR 0 2 (by rw [show ((0:ℤ) - 2) = -2 by norm_num, Cm2]; exact c2) (by rw [show ((0:ℤ) - 2) = -2 by norm_num, Sm2]; linarith) c
  · exact good_pole r hr (-r) (-(r / 2)) botHyp R hR 2 4 (by rw [show ((2:ℤ) - 4) = -2 by norm_num, Cm2]; exact c2) (by rw [show ((2:ℤ) - 4) = -2 by norm_num, Sm2]; linarith) c
  · exact good_pole r hr (-r) (-(r / 2)) botHyp R hR 4 6 (by rw [show ((4:ℤ) - 6) = -2 by norm_num, Cm2]; exact c2) (by rw [show ((4:ℤ) - 6) = -2 by norm_num, Sm2]; linarith) c
  · exact good_pole r hr (-r) (-(r / 2)) botHyp R hR 6 8 (by rw [show ((6:ℤ) - 8) = -2 by norm_num, Cm2]; exact c2) (by rw [show ((6:ℤ) - 8) = -2 by norm_num, Sm2]; linarith) c
  · exact good_pole r hr (-r) (-(r / 2)) botHyp R hR 8 0 (by rw [show ((8:ℤ) - 0) = 8 by norm_num, C8]; exact c2) (by rw [show ((8:ℤ) - 0) = 8 by norm_num, S8]; linarith) c
  · exact bandTop 9 1 0 (by rw [show ((9:ℤ) - 1) = 8 by norm_num, C8]; exact c2) (by rw [show ((9:ℤ) - 0) = 9 by norm_num, C9]; exact c1) (by rw [show ((1:ℤ) - 0) = 1 by norm_num, C1]; exact c1)
      (by rw [show ((9:ℤ) - 1) = 8 by norm_num, show ((1:ℤ) - 0) = 1 by norm_num, show ((0:ℤ) - 9) = -9 by norm_num, S8, S1, Sm9]; linarith)
  · exact bandTop 1 3 2 (by rw [show ((1:ℤ) - 3) = -2 by norm_num, Cm2]; exact c2) (by rw [show ((1:ℤ) - 2) = -1 by norm_num, Cm1]; exact c1) (by rw [show ((3:ℤ) - 2) = 1 by norm_num, C1]; exact c1)
      (by rw [show ((1:ℤ) - 3) = -2 by norm_num, show ((3:ℤ) - 2) = 1 by norm_num, show ((2:ℤ) - 1) = 1 by norm_num, Sm2, S1]; linarith)
  · exact bandTop 3 5 4 (by rw [show ((3:ℤ) - 5) = -2 by norm_num, Cm2]; exact c2) (by rw [show ((3:ℤ) - 4) = -1 by norm_num, Cm1]; exact c1) (by rw [show ((5:ℤ) - 4) = 1 by norm_num, C1]; exact c1)
      (by rw [show ((3:ℤ) - 5) = -2 by norm_num, show ((5:ℤ) - 4) = 1 by norm_num, show ((4:ℤ) - 3) = 1 by norm_num, Sm2, S1]; linarith)
  · exact bandTop 5 7 6 (by rw [show ((5:ℤ) - 7) = -2 by norm_num, Cm2]; exact c2) (by rw [show ((5:ℤ) - 6) = -1 by norm_num, Cm1]; exact c1) (by rw [show ((7:ℤ) - 6) = 1 by norm_num, C1]; exact c1)
      (by rw [show ((5:ℤ) - 7) = -2 by norm_num, show ((7:ℤ) - 6) = 1 by norm_num, show ((6:ℤ) - 5) = 1 by norm_num, Sm2, S1]; linarith)
  · exact bandTop 7 9 8 (by rw [show ((7:ℤ) - 9) = -2 by norm_num, Cm2]; exact c2) (by rw [show ((7:ℤ) - 8) = -1 by norm_num, Cm1]; exact c1) (by rw [show ((9:ℤ) - 8) = 1 by norm_num, C1]; exact c1)
      (by rw [show ((7:ℤ) - 9) = -2 by norm_num, show ((9:ℤ) - 8) = 1 by norm_num, show ((8:ℤ) - 7) = 1 by norm_num, Sm2, S1]; linarith)
  · exact bandBot 2 0 1 (by rw [show ((2:ℤ) - 0) = 2 by norm_num, C2]; exact c2) (by rw [show ((2:ℤ) - 1) = 1 by norm_num, C1]; exact c1) (by rw [show ((0:ℤ) - 1) = -1 by norm_num, Cm1]; exact c1)
      (by rw [show ((2:ℤ) - 0) = 2 by norm_num, show ((0:ℤ) - 1) = -1 by norm_num, show ((1:ℤ) - 2) = -1 by norm_num, S2, Sm1]; linarith)
  · exact bandBot 4 2 3 (by rw [show ((4:ℤ) - 2) = 2 by norm_num, C2]; exact c2) (by rw [show ((4:ℤ) - 3) = 1 by norm_num, C1]; exact c1) (by rw [show ((2:ℤ) - 3) = -1 by norm_num, Cm1]; exact c1)
      (by rw [show ((4:ℤ) - 2) = 2 by norm_num, show ((2:ℤ) - 3) = -1 by norm_num, show ((3:ℤ) - 4) = -1 by norm_num, S2, Sm1]; linarith)
  · exact bandBot 6 4 5 (by rw [show ((6:ℤ) - 4) = 2 by norm_num, C2]; exact c2) (by rw [show ((6:ℤ) - 5) = 1 by norm_num, C1]; exact c1) (by rw [show ((4:ℤ) - 5) = -1 by norm_num, Cm1]; exact c1)
      (by rw [show ((6:ℤ) - 4) = 2 by norm_num, show ((4:ℤ) - 5) = -1 by norm_num, show ((5:ℤ) - 6) = -1 by norm_num, S2, Sm1]; linarith)
  · exact bandBot 8 6 7 (by rw [show ((8:ℤ) - 6) = 2 by norm_num, C2]; exact c2) (by rw [show ((8:ℤ) - 7) = 1 by norm_num, C1]; exact c1) (by rw [show ((6:ℤ) - 7) = -1 by norm_num, Cm1]; exact c1)
      (by rw [show ((8:ℤ) - 6) = 2 by norm_num, show ((6:ℤ) - 7) = -1 by norm_num, show ((7:ℤ) - 8) = -1 by norm_num, S2, Sm1]; linarith)
  · exact bandBot 0 8 9 (by rw [show ((0:ℤ) - 8) = -8 by norm_num, Cm8]; exact c2) (by rw [show ((0:ℤ) - 9) = -9 by norm_num, Cm9]; exact c1) (by rw [show ((8:ℤ) - 9) = -1 by norm_num, Cm1]; exact c1)
      (by rw [show ((0:ℤ) - 8) = -8 by norm_num, show ((8:ℤ) - 9) = -1 by norm_num, show ((9:ℤ) - 0) = 9 by norm_num, Sm8, Sm1, S9]; linarith)


/-! ### C20 -/

theorem det_is_normal (c : Vec3 ℝ) (t : Tri ℝ) (p : Vec3 ℝ) (hp : p = t.a ∨ p = t.b ∨ p = t.c) :
    Dot (geometricNormal t) (p - c) = (t.a - c).dot ((t.b - c).cross (t.c - c)) := by
  rcases hp with rfl | rfl | rfl <;> simp [Dot, geometricNormal, Cross, Vec3.dot, Vec3.cross] <;> ring

theorem base_length (r : ℝ) (c : Vec3 ℝ) : (baseTriangles r c).length = 20 := rfl

theorem mesh_good (c : Vec3 ℝ) (r : ℝ) (hr : 0 < r) : ∀ t ∈ (meshSphere c r).1, GoodTri c r t :=
  (iterate_good c r hr nRefinements (baseTriangles r c) (base_good r hr c)).1

theorem Norm_of_lengthSq {v : Vec3 ℝ} {r : ℝ} (hr : 0 < r) (h : v.lengthSq = r ^ 2) : Norm v = r := by
  unfold Norm
  have : v.x ^ 2 + v.y ^ 2 + v.z ^ 2 = r ^ 2 := by rw [← h, Vec3.lengthSq_eq]
  rw [this, Real.sqrt_sq hr.le]

/-- **C20.** For every centre and positive radius the mesh has exactly 20·4⁵ triangles and as many normal triples. -/
theorem C20_mesh_count (c : Vec3 ℝ) (r : ℝ) :
    (meshSphere c r).1.length = 20480 ∧ (meshSphere c r).2.length = 20480 := by
  have : ((refine c r)^[nRefinements] (baseTriangles r c)).length = 20480 := by
    have : ∀ n ts, ((refine c r)^[n] ts).length = 4 ^ n * ts.length := by
      intro n
      induction n with
      | zero => simp
      | succ n ih => intro ts; simp only [Function.iterate_succ, Function.comp]; rw [ih, refine_length]; ring
    rw [this, base_length]; rfl
  exact ⟨this, by simp only [meshSphere, List.length_map]; exact this⟩

/-- **C20.** Every vertex of the mesh lies on the sphere. -/
theorem C20_vertices_on_sphere (c : Vec3 ℝ) (r : ℝ) (hr : 0 < r) :
    ∀ t ∈ (meshSphere c r).1, Norm (t.a - c) = r ∧ Norm (t.b - c) = r ∧ Norm (t.c - c) = r := by
  intro t ht
  have h := mesh_good c r hr t ht
  exact ⟨Norm_of_lengthSq hr h.ha, Norm_of_lengthSq hr h.hb, Norm_of_lengthSq hr h.hc⟩

/-- **C20.** Every triangle of the mesh is non-degenerate and wound outwards: its right-hand normal makes an angle of less than 90° with the
radius through each of its vertices. -/
theorem C20_wound_outwards (c : Vec3 ℝ) (r : ℝ) (hr : 0 < r) :
    ∀ t ∈ (meshSphere c r).1, 0 < doubleArea t ∧
      ∀ p, p = t.a ∨ p = t.b ∨ p = t.c → 0 < Dot (geometricNormal t) (p - c) := by
  intro t ht
  have h := mesh_good c r hr t ht
  have hd : ∀ p, p = t.a ∨ p = t.b ∨ p = t.c → 0 < Dot (geometricNormal t) (p - c) := by
    intro p hp; rw [det_is_normal c t p hp]; exact h.det
  refine ⟨?_, hd⟩
  unfold doubleArea Norm
  apply Real.sqrt_pos.2
  by_contra hneg
  have h0 : geometricNormal t = ⟨0, 0, 0⟩ := by
    have := hneg
    ext <;> nlinarith [sq_nonneg (geometricNormal t).x, sq_nonneg (geometricNormal t).y, sq_nonneg (geometricNormal t).z]
  have := hd t.a (Or.inl rfl)
  rw [h0] at this
  simp [Dot] at this

/-- **C20.** The normal triple stored beside each triangle is, vertex by vertex, the outward radius divided by the sphere's radius, and is
a unit vector. -/
theorem C20_normals_radial (c : Vec3 ℝ) (r : ℝ) (hr : 0 < r) (i : Nat) (hi : i < (meshSphere c r).1.length) :
    ∃ n0 n1 n2, (meshSphere c r).2[i]? = some (n0, n1, n2) ∧
      n0.scale r = (meshSphere c r).1[i].a - c ∧ n1.scale r = (meshSphere c r).1[i].b - c ∧ n2.scale r = (meshSphere c r).1[i].c - c ∧
      Norm n0 = 1 ∧ Norm n1 = 1 ∧ Norm n2 = 1 := by
  have h := mesh_good c r hr _ (List.getElem_mem hi)
  have key : ∀ v : Vec3 ℝ, v.lengthSq = r ^ 2 → v.normalized.scale r = v ∧ Norm v.normalized = 1 := by
    intro v hv
    have hl : v.length = r := by
      unfold Vec3.length; rw [hv, Real.sqrt_sq hr.le]
    have hp : 0 < v.lengthSq := by rw [hv]; positivity
    refine ⟨?_, Norm_of_lengthSq one_pos (by rw [Vec3.normalized_lengthSq hp]; norm_num)⟩
    unfold Vec3.normalized
    rw [hl]
    ext <;> simp <;> field_simp
  refine ⟨_, _, _, ?_, (key _ h.ha).1, (key _ h.hb).1, (key _ h.hc).1, (key _ h.ha).2, (key _ h.hb).2, (key _ h.hc).2⟩
  have : (meshSphere c r).2 = (meshSphere c r).1.map (fun t => ((t.a - c).normalized, (t.b - c).normalized, (t.c - c).normalized)) := rfl
  rw [this, List.getElem?_map, List.getElem?_eq_getElem hi]
  rfl

/-- **C20.** So a scene whose sphere mesher is this one has as many normals as triangles, which is what the scene theorems (C10–C14) ask of
the environment. -/
theorem C20_scene_env (env : SceneEnv ℝ) (h : env.meshSphere = meshSphere) : env.MeshAligned := by
  intro c r
  rw [h, (C20_mesh_count c r).1, (C20_mesh_count c r).2]

/-- The hypotheses of C20 are met, and the mesh has a first triangle. -/
example : (0 : ℝ) < 3 ∧ 0 < (meshSphere ⟨1, 2, 3⟩ 3).1.length := ⟨by norm_num, by rw [(C20_mesh_count _ _).1]; norm_num⟩

example := C20_vertices_on_sphere ⟨1, 2, 3⟩ 3 (by norm_num)

example := C20_wound_outwards ⟨1, 2, 3⟩ 3 (by norm_num)

example := C20_normals_radial ⟨1, 2, 3⟩ 3 (by norm_num) 7 (by rw [(C20_mesh_count _ _).1]; norm_num)

end Rendering
