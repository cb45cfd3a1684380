import Verif.Lemmas.TriangleFloat
import Verif.Props.Triangle

/-!
# C111: hits and walls in double precision
-/

set_option linter.unusedSectionVars false
namespace Rendering

/-- How far rounding can move a hit, in barycentric coordinates: for coordinates up to `M` and determinant `a`. -/
noncomputable def shake (M a : ℝ) : ℝ := M ^ 2 / (2 ^ 40 * |a|)

/-- The ray's line meets the triangle's plane at parameter `t`, at the point with barycentric coordinates `u`, `v`. -/
def Meets (ray : Ray3 ℝ) (tri : Tri ℝ) (t u v : ℝ) : Prop :=
  ray.origin + ray.direction.scale t = tri.a.scale (1 - u - v) + tri.b.scale u + tri.c.scale v

theorem Meets.iff {ray : Ray3 ℝ} {tri : Tri ℝ} {t u v : ℝ} : Meets ray tri t u v ↔
    (ray.origin.x + ray.direction.x * t = tri.a.x * (1 - u - v) + tri.b.x * u + tri.c.x * v ∧
     ray.origin.y + ray.direction.y * t = tri.a.y * (1 - u - v) + tri.b.y * u + tri.c.y * v ∧
     ray.origin.z + ray.direction.z * t = tri.a.z * (1 - u - v) + tri.b.z * u + tri.c.z * v) := by
  unfold Meets
  constructor
  · intro h
    exact ⟨congrArg Vec3.x h, congrArg Vec3.y h, congrArg Vec3.z h⟩
  · rintro ⟨h1, h2, h3⟩
    exact Vec3.ext h1 h2 h3

/-- The numbers the test divides, for a ray meeting the plane. -/
theorem cramer {ray : Ray3 ℝ} {tri : Tri ℝ} {t u v : ℝ} (h : Meets ray tri t u v) :
    (ray.origin - tri.a).dot (ray.direction.cross (tri.c - tri.a)) = tripleProduct ray tri * u ∧
    ray.direction.dot ((ray.origin - tri.a).cross (tri.b - tri.a)) = tripleProduct ray tri * v ∧
    (tri.c - tri.a).dot ((ray.origin - tri.a).cross (tri.b - tri.a)) = tripleProduct ray tri * t := by
  obtain ⟨hx, hy, hz⟩ := Meets.iff.mp h
  have ex : ray.origin.x = tri.a.x * (1 - u - v) + tri.b.x * u + tri.c.x * v - ray.direction.x * t := by linarith
  have ey : ray.origin.y = tri.a.y * (1 - u - v) + tri.b.y * u + tri.c.y * v - ray.direction.y * t := by linarith
  have ez : ray.origin.z = tri.a.z * (1 - u - v) + tri.b.z * u + tri.c.z * v - ray.direction.z * t := by linarith
  simp only [Vec3.dot, Vec3.cross, tripleProduct, Vec3.sub_x, Vec3.sub_y, Vec3.sub_z, ex, ey, ez]
  refine ⟨?_, ?_, ?_⟩ <;> ring

/-- Unless the ray is parallel to the plane it meets it. -/
theorem meets_exists (ray : Ray3 ℝ) (tri : Tri ℝ) (ha : tripleProduct ray tri ≠ 0) : ∃ t u v, Meets ray tri t u v := by
  refine ⟨(tri.c - tri.a).dot ((ray.origin - tri.a).cross (tri.b - tri.a)) / tripleProduct ray tri,
    (ray.origin - tri.a).dot (ray.direction.cross (tri.c - tri.a)) / tripleProduct ray tri,
    ray.direction.dot ((ray.origin - tri.a).cross (tri.b - tri.a)) / tripleProduct ray tri, ?_⟩
  rw [Meets.iff]
  refine ⟨?_, ?_, ?_⟩ <;> field_simp <;> simp only [Vec3.dot, Vec3.cross, tripleProduct, Vec3.sub_x, Vec3.sub_y, Vec3.sub_z] <;> ring

/-- The error of a barycentric coordinate. -/
theorem coordinate_error {M a u x : ℝ} (ha0 : 0 < |a|) (haM : |a| ≤ 24 * M ^ 2) (hu : |u| ≤ 3)
    (h : |x - u| ≤ 3 * (14 * (24 * M ^ 2) / 2 ^ 53 + |u| * (14 * (24 * M ^ 2) / 2 ^ 53)) / |a| + 4 / 2 ^ 53 * |u|) : |x - u| ≤ shake M a * (3 / 4) := by
  refine le_trans h ?_
  unfold shake
  set g : ℝ := M ^ 2 / |a| with hg
  have hg1 : 1 ≤ 24 * g := by
    rw [hg, ← mul_div_assoc, le_div_iff₀ ha0]
    linarith
  have e1 : 3 * (14 * (24 * M ^ 2) / 2 ^ 53 + |u| * (14 * (24 * M ^ 2) / 2 ^ 53)) / |a| = 1008 * (1 + |u|) * g / 2 ^ 53 := by rw [hg]; ring
  have e2 : M ^ 2 / (2 ^ 40 * |a|) * (3 / 4) = 6144 * g / 2 ^ 53 := by rw [hg]; field_simp; norm_num; ring
  rw [e1, e2]
  have hp : |u| * g ≤ 3 * g := mul_le_mul_of_nonneg_right hu (by positivity)
  have hk : 1008 * (1 + |u|) * g ≤ 4032 * g := by linarith
  norm_num
  linarith

theorem parameter_error {M a t x : ℝ} (hM : 0 < M) (ha0 : 0 < |a|) (haM : |a| ≤ 24 * M ^ 2)
    (h : |x - t| ≤ 3 * (16 * (48 * M ^ 3) / 2 ^ 53 + |t| * (14 * (24 * M ^ 2) / 2 ^ 53)) / |a| + 4 / 2 ^ 53 * |t|) : |x - t| ≤ (M + |t|) * shake M a := by
  refine le_trans h ?_
  unfold shake
  set g : ℝ := M ^ 2 / |a| with hg
  have hg1 : 1 ≤ 24 * g := by
    rw [hg, ← mul_div_assoc, le_div_iff₀ ha0]
    linarith
  have hg0 : 0 < g := by positivity
  have e1 : 3 * (16 * (48 * M ^ 3) / 2 ^ 53 + |t| * (14 * (24 * M ^ 2) / 2 ^ 53)) / |a| = 2304 * (M * g) / 2 ^ 53 + 1008 * (|t| * g) / 2 ^ 53 := by rw [hg]; ring
  have e2 : (M + |t|) * (M ^ 2 / (2 ^ 40 * |a|)) = 8192 * (M * g) / 2 ^ 53 + 8192 * (|t| * g) / 2 ^ 53 := by rw [hg]; field_simp; norm_num
  rw [e1, e2]
  have ht : |t| ≤ 24 * (|t| * g) := by nlinarith [abs_nonneg t]
  have hMg : 0 < M * g := by positivity
  have htg : 0 ≤ |t| * g := by positivity
  norm_num
  linarith

theorem tiny64_in : (99 / 10 ^ 7 : ℚ) ≤ (F64.lit (1 / 10 ^ 5)).val ∧ (F64.lit (1 / 10 ^ 5)).val ≤ 1 / 10 ^ 5 * (1 + 1 / 10 ^ 9) := by decide +kernel
theorem one_eps64 : (F64.lit 1 + eps64).val = 1 + 1 / 2 ^ 52 := by decide +kernel

/-- The errors of the three numbers, for coordinates up to 5000. -/
theorem test_numbers (ray : Ray3 F64) (tri : Tri F64) (M : ℝ) (hM : 0 < M) (ho : ray.reals.origin.Within M) (hd : ray.reals.direction.Within 1)
    (hta : tri.reals.a.Within M) (htb : tri.reals.b.Within M) (htc : tri.reals.c.Within M) (t u v : ℝ) (hmeet : Meets ray.reals tri.reals t u v)
    (hE : 14 * (24 * M ^ 2) / 2 ^ 53 ≤ |tripleProduct ray.reals tri.reals| / 2) (ha0 : 0 < |tripleProduct ray.reals tri.reals|) :
    let A := dot64 (sub64 tri.b tri.a) (cross64 ray.direction (sub64 tri.c tri.a))
    let f := F64.lit 1 / A
    let s := sub64 ray.origin tri.a
    let q := cross64 s (sub64 tri.b tri.a)
    let a := tripleProduct ray.reals tri.reals
    let E := 14 * (24 * M ^ 2) / 2 ^ 53
    |a| ≤ 24 * M ^ 2 ∧
    |((f * dot64 s (cross64 ray.direction (sub64 tri.c tri.a))).val : ℝ) - u| ≤ 3 * (E + |u| * E) / |a| + 4 / 2 ^ 53 * |u| ∧
    |((f * dot64 ray.direction q).val : ℝ) - v| ≤ 3 * (E + |v| * E) / |a| + 4 / 2 ^ 53 * |v| ∧
    |((f * dot64 (sub64 tri.c tri.a) q).val : ℝ) - t| ≤ (M + |t|) * shake M a := by
  intro A f s q a E
  obtain ⟨n1, n2, n3, n4⟩ := test_errors ray tri M ho hd hta htb htc
  obtain ⟨c1, c2, c3⟩ := cramer hmeet
  rw [det_eq] at n1
  rw [c1] at n2
  rw [c2] at n3
  rw [c3] at n4
  have haM : |a| ≤ 24 * M ^ 2 := n1.1
  refine ⟨haM, quotient64 n1.2 n2.2 hE ha0, quotient64 n1.2 n3.2 hE ha0, ?_⟩
  exact parameter_error hM ha0 haM (quotient64 n1.2 n4.2 hE ha0)

theorem small_error {M : ℝ} (hM : 0 < M) (hM' : M ≤ 5000) : 14 * (24 * M ^ 2) / 2 ^ 53 ≤ 1 / 10 ^ 6 := by
  have : M ^ 2 ≤ 5000 ^ 2 := by gcongr
  norm_num at this ⊢
  linarith

theorem det_error {ray : Ray3 F64} {tri : Tri F64} {M : ℝ} (ho : ray.reals.origin.Within M) (hd : ray.reals.direction.Within 1)
    (hta : tri.reals.a.Within M) (htb : tri.reals.b.Within M) (htc : tri.reals.c.Within M) :
    |((dot64 (sub64 tri.b tri.a) (cross64 ray.direction (sub64 tri.c tri.a))).val : ℝ) - tripleProduct ray.reals tri.reals| ≤ 14 * (24 * M ^ 2) / 2 ^ 53 := by
  obtain ⟨n1, -, -, -⟩ := test_errors ray tri M ho hd hta htb htc
  rw [det_eq] at n1
  exact n1.2

/-- **Nothing is missed by much.** In double precision, with coordinates up to `M` (at most 5000) and a direction with components up to one: a ray that meets a triangle inside it by a margin (of `shake`, in barycentric
coordinates), not too near its origin and not parallel to it, is reported to hit it, and the reported coordinates are the true ones up to that margin. -/
theorem C111_hits_are_found (ray : Ray3 F64) (tri : Tri F64) (M : ℝ) (hM : 0 < M) (hM' : M ≤ 5000) (ho : ray.reals.origin.Within M) (hd : ray.reals.direction.Within 1)
    (hta : tri.reals.a.Within M) (htb : tri.reals.b.Within M) (htc : tri.reals.c.Within M) (t u v : ℝ) (hmeet : Meets ray.reals tri.reals t u v)
    (hdet : 2 / 10 ^ 5 ≤ |tripleProduct ray.reals tri.reals|)
    (hu : shake M (tripleProduct ray.reals tri.reals) ≤ u) (hv : shake M (tripleProduct ray.reals tri.reals) ≤ v)
    (huv : u + v ≤ 1 - 2 * shake M (tripleProduct ray.reals tri.reals))
    (ht : 1 / 10 ^ 5 * (1 + 1 / 10 ^ 9) + (M + t) * shake M (tripleProduct ray.reals tri.reals) < t) :
    ∃ t' u' v' : F64, baricentric64 ray tri = some (t', u', v') ∧ |(u'.val : ℝ) - u| ≤ shake M (tripleProduct ray.reals tri.reals) ∧
      |(v'.val : ℝ) - v| ≤ shake M (tripleProduct ray.reals tri.reals) ∧ |(t'.val : ℝ) - t| ≤ (M + t) * shake M (tripleProduct ray.reals tri.reals) := by
  set a := tripleProduct ray.reals tri.reals with ha
  have ha0 : 0 < |a| := lt_of_lt_of_le (by norm_num) hdet
  have hsmall := small_error hM hM'
  have hE : 14 * (24 * M ^ 2) / 2 ^ 53 ≤ |a| / 2 := le_trans hsmall (by norm_num at hdet ⊢; linarith)
  obtain ⟨haM, r1, r2, r3⟩ := test_numbers ray tri M hM ho hd hta htb htc t u v hmeet hE ha0
  have hdete := det_error ho hd hta htb htc
  set A := dot64 (sub64 tri.b tri.a) (cross64 ray.direction (sub64 tri.c tri.a)) with hA
  have hs0 : 0 < shake M a := by unfold shake; positivity
  set sh := shake M a with hsh
  have hu3 : |u| ≤ 3 := by rw [abs_of_nonneg (by linarith)]; linarith
  have hv3 : |v| ≤ 3 := by rw [abs_of_nonneg (by linarith)]; linarith
  have ru := coordinate_error ha0 haM hu3 r1
  have rv := coordinate_error ha0 haM hv3 r2
  rw [← hsh] at ru rv
  set U := F64.lit 1 / A * dot64 (sub64 ray.origin tri.a) (cross64 ray.direction (sub64 tri.c tri.a)) with hU
  set V := F64.lit 1 / A * dot64 ray.direction (cross64 (sub64 ray.origin tri.a) (sub64 tri.b tri.a)) with hV
  set T := F64.lit 1 / A * dot64 (sub64 tri.c tri.a) (cross64 (sub64 ray.origin tri.a) (sub64 tri.b tri.a)) with hT
  have ht0 : 0 ≤ t := by
    by_contra hneg
    push Not at hneg
    have h1 : (M + t) * sh < t := by linarith [show (0 : ℝ) < 1 / 10 ^ 5 * (1 + 1 / 10 ^ 9) by norm_num]
    have h2 : 0 ≤ sh * M := by positivity
    have hsh1 : sh ≤ 1 := by linarith
    nlinarith
  rw [abs_of_nonneg ht0] at r3
  rw [abs_le] at ru rv r3
  -- the four tests
  have g1 : ¬ |A.val| < (F64.lit (1 / 10 ^ 5)).val := by
    intro h
    have h' : |(A.val : ℝ)| < ((F64.lit (1 / 10 ^ 5)).val : ℝ) := by exact_mod_cast h
    have h2 : ((F64.lit (1 / 10 ^ 5)).val : ℝ) ≤ ((1 / 10 ^ 5 * (1 + 1 / 10 ^ 9) : ℚ) : ℝ) := by exact_mod_cast tiny64_in.2
    have h3 := abs_sub_abs_le_abs_sub a A.val
    rw [abs_sub_comm] at h3
    have h4 := le_trans hdete hsmall
    push_cast at h2
    norm_num at h2 hdet h4
    linarith
  have g2 : -eps64.val ≤ U.val ∧ U ≤ F64.lit 1 + eps64 := by
    constructor
    · have : (0 : ℝ) ≤ U.val := by linarith [ru.1]
      have : (0 : ℚ) ≤ U.val := by exact_mod_cast this
      refine le_trans ?_ this
      decide +kernel
    · show U.val ≤ (F64.lit 1 + eps64).val
      rw [one_eps64]
      have : (U.val : ℝ) ≤ 1 := by linarith [ru.2]
      have : U.val ≤ (1 : ℚ) := by exact_mod_cast this
      refine le_trans this (by norm_num)
  have g3 : ¬ (F64.lit 1 + eps64 < U + V ∨ V.val < -eps64.val) := by
    rintro (h | h)
    · have h' : (F64.lit 1 + eps64).val < round64 (U.val + V.val) := h
      rw [one_eps64] at h'
      have hle : (U.val : ℝ) + V.val ≤ 1 := by linarith [ru.2, rv.2]
      have hge : (0 : ℝ) ≤ (U.val : ℝ) + V.val := by linarith [ru.1, rv.1]
      have hle' : U.val + V.val ≤ (1 : ℚ) := by exact_mod_cast hle
      have hge' : (0 : ℚ) ≤ U.val + V.val := by exact_mod_cast hge
      have he := (abs_le.mp (round64_error (U.val + V.val))).2
      rw [abs_of_nonneg hge'] at he
      norm_num at h' he
      linarith
    · have : (0 : ℝ) ≤ V.val := by linarith [rv.1]
      have h0 : (0 : ℚ) ≤ V.val := by exact_mod_cast this
      have : -eps64.val ≤ (0 : ℚ) := by decide +kernel
      linarith
  have g4 : F64.lit (1 / 10 ^ 5) < T := by
    show (F64.lit (1 / 10 ^ 5)).val < T.val
    have h1 : (((1 / 10 ^ 5 * (1 + 1 / 10 ^ 9) : ℚ)) : ℝ) < T.val := by
      push_cast
      have := r3.1
      linarith
    have h1' : (1 / 10 ^ 5 * (1 + 1 / 10 ^ 9) : ℚ) < T.val := by exact_mod_cast h1
    exact lt_of_le_of_lt tiny64_in.2 h1'
  refine ⟨T, U, V, ?_, abs_le.mpr ⟨by linarith [ru.1], by linarith [ru.2]⟩, abs_le.mpr ⟨by linarith [rv.1], by linarith [rv.2]⟩, abs_le.mpr r3⟩
  unfold baricentric64
  simp only [← hA, ← hU, ← hV, ← hT]
  rw [if_neg g1, if_neg (not_not.mpr g2), if_neg g3, if_pos g4]

/-- **Nothing is hit from afar.** A reported hit is near a true one: the ray's line does meet the triangle's plane, at coordinates that differ from the reported ones by at most `shake`; so the point is in the triangle up to that margin. -/
theorem C111_hits_are_near (ray : Ray3 F64) (tri : Tri F64) (M : ℝ) (hM : 0 < M) (hM' : M ≤ 5000) (ho : ray.reals.origin.Within M) (hd : ray.reals.direction.Within 1)
    (hta : tri.reals.a.Within M) (htb : tri.reals.b.Within M) (htc : tri.reals.c.Within M) (t' u' v' : F64) (hhit : baricentric64 ray tri = some (t', u', v')) :
    8 / 10 ^ 6 ≤ |tripleProduct ray.reals tri.reals| ∧ ∃ t u v : ℝ, Meets ray.reals tri.reals t u v ∧
      |(u'.val : ℝ) - u| ≤ shake M (tripleProduct ray.reals tri.reals) ∧ |(v'.val : ℝ) - v| ≤ shake M (tripleProduct ray.reals tri.reals) ∧
      |(t'.val : ℝ) - t| ≤ (M + |t|) * shake M (tripleProduct ray.reals tri.reals) ∧
      -(1 / 2 ^ 52) - shake M (tripleProduct ray.reals tri.reals) ≤ u ∧ -(1 / 2 ^ 52) - shake M (tripleProduct ray.reals tri.reals) ≤ v ∧
      u + v ≤ 1 + 1 / 2 ^ 51 + 2 * shake M (tripleProduct ray.reals tri.reals) ∧ (99 / 10 ^ 7 : ℝ) ≤ t'.val := by
  set a := tripleProduct ray.reals tri.reals with ha
  have hsmall := small_error hM hM'
  have hdete := det_error ho hd hta htb htc
  set A := dot64 (sub64 tri.b tri.a) (cross64 ray.direction (sub64 tri.c tri.a)) with hA
  set U := F64.lit 1 / A * dot64 (sub64 ray.origin tri.a) (cross64 ray.direction (sub64 tri.c tri.a)) with hU
  set V := F64.lit 1 / A * dot64 ray.direction (cross64 (sub64 ray.origin tri.a) (sub64 tri.b tri.a)) with hV
  set T := F64.lit 1 / A * dot64 (sub64 tri.c tri.a) (cross64 (sub64 ray.origin tri.a) (sub64 tri.b tri.a)) with hT
  unfold baricentric64 at hhit
  simp only [← hA, ← hU, ← hV, ← hT] at hhit
  by_cases g1 : |A.val| < (F64.lit (1 / 10 ^ 5)).val
  · rw [if_pos g1] at hhit; cases hhit
  rw [if_neg g1] at hhit
  by_cases g2 : -eps64.val ≤ U.val ∧ U ≤ F64.lit 1 + eps64
  swap
  · rw [if_pos g2] at hhit; cases hhit
  rw [if_neg (not_not.mpr g2)] at hhit
  by_cases g3 : F64.lit 1 + eps64 < U + V ∨ V.val < -eps64.val
  · rw [if_pos g3] at hhit; cases hhit
  rw [if_neg g3] at hhit
  by_cases g4 : F64.lit (1 / 10 ^ 5) < T
  swap
  · rw [if_neg g4] at hhit; cases hhit
  rw [if_pos g4] at hhit
  have hhit' := Option.some.inj hhit
  obtain rfl : T = t' := congrArg Prod.fst hhit'
  obtain rfl : U = u' := congrArg (fun p => p.2.1) hhit'
  obtain rfl : V = v' := congrArg (fun p => p.2.2) hhit'
  -- the determinant
  have hA' : (99 / 10 ^ 7 : ℝ) ≤ |(A.val : ℝ)| := by
    have h1 : (99 / 10 ^ 7 : ℚ) ≤ |A.val| := le_trans tiny64_in.1 (not_lt.mp g1)
    have h2 : (((99 / 10 ^ 7 : ℚ)) : ℝ) ≤ |(A.val : ℝ)| := by exact_mod_cast h1
    refine le_trans (le_of_eq ?_) h2
    push_cast
    rfl
  have hdet : 8 / 10 ^ 6 ≤ |a| := by
    have h3 := abs_sub_abs_le_abs_sub (A.val : ℝ) a
    have h4 := le_trans hdete hsmall
    norm_num at hA' h4 ⊢
    linarith
  have ha0 : 0 < |a| := lt_of_lt_of_le (by norm_num) hdet
  have hE : 14 * (24 * M ^ 2) / 2 ^ 53 ≤ |a| / 2 := le_trans hsmall (by norm_num at hdet ⊢; linarith)
  obtain ⟨t, u, v, hmeet⟩ := meets_exists ray.reals tri.reals (abs_pos.mp ha0)
  obtain ⟨haM, r1, r2, r3⟩ := test_numbers ray tri M hM ho hd hta htb htc t u v hmeet hE ha0
  have hs0 : 0 < shake M a := by unfold shake; positivity
  -- the coordinates are bounded
  have hE8 : 14 * (24 * M ^ 2) / 2 ^ 53 / |a| ≤ 1 / 8 := by
    rw [div_le_iff₀ ha0]
    norm_num at hdet hsmall ⊢
    linarith
  have hbound : ∀ x w : ℝ, |x| ≤ 101 / 100 → |x - w| ≤ 3 * (14 * (24 * M ^ 2) / 2 ^ 53 + |w| * (14 * (24 * M ^ 2) / 2 ^ 53)) / |a| + 4 / 2 ^ 53 * |w| → |w| ≤ 3 := by
    intro x w hx hw
    have e : 3 * (14 * (24 * M ^ 2) / 2 ^ 53 + |w| * (14 * (24 * M ^ 2) / 2 ^ 53)) / |a| = 3 * (1 + |w|) * (14 * (24 * M ^ 2) / 2 ^ 53 / |a|) := by ring
    rw [e] at hw
    have hw0 := abs_nonneg w
    have h1 : 3 * (1 + |w|) * (14 * (24 * M ^ 2) / 2 ^ 53 / |a|) ≤ 3 * (1 + |w|) * (1 / 8) := mul_le_mul_of_nonneg_left hE8 (by positivity)
    have h2 := abs_sub_abs_le_abs_sub w x
    rw [abs_sub_comm] at h2
    norm_num at hw h1
    linarith
  have u0 : -(1 / 2 ^ 52 : ℝ) ≤ U.val := by
    have h1 : -(1 / 2 ^ 52 : ℚ) ≤ U.val := g2.1
    have : ((-(1 / 2 ^ 52 : ℚ) : ℚ) : ℝ) ≤ U.val := by exact_mod_cast h1
    push_cast at this
    exact this
  have u1 : (U.val : ℝ) ≤ 1 + 1 / 2 ^ 52 := by
    have h1 : U.val ≤ (F64.lit 1 + eps64).val := g2.2
    rw [one_eps64] at h1
    have : (U.val : ℝ) ≤ ((1 + 1 / 2 ^ 52 : ℚ) : ℝ) := by exact_mod_cast h1
    push_cast at this
    exact this
  push Not at g3
  have v0 : -(1 / 2 ^ 52 : ℝ) ≤ V.val := by
    have h1 : -(1 / 2 ^ 52 : ℚ) ≤ V.val := g3.2
    have : ((-(1 / 2 ^ 52 : ℚ) : ℚ) : ℝ) ≤ V.val := by exact_mod_cast h1
    push_cast at this
    exact this
  have uv : (U.val : ℝ) + V.val ≤ 1 + 1 / 2 ^ 51 := by
    have h1 : ¬ (F64.lit 1 + eps64).val < round64 (U.val + V.val) := g3.1
    rw [one_eps64, not_lt] at h1
    by_cases hneg : U.val + V.val ≤ 1
    · have : (U.val : ℝ) + V.val ≤ 1 := by exact_mod_cast hneg
      refine le_trans this (by norm_num)
    · push Not at hneg
      have he := (abs_le.mp (round64_error (U.val + V.val))).1
      rw [abs_of_pos (by linarith)] at he
      have : U.val + V.val ≤ 1 + 1 / 2 ^ 51 := by
        norm_num at h1 he ⊢
        linarith
      have : ((U.val + V.val : ℚ) : ℝ) ≤ ((1 + 1 / 2 ^ 51 : ℚ) : ℝ) := by exact_mod_cast this
      push_cast at this
      exact this
  have hu3 : |u| ≤ 3 := hbound _ u (by rw [abs_le]; constructor <;> norm_num at u0 u1 ⊢ <;> linarith) r1
  have hv3 : |v| ≤ 3 := hbound _ v (by rw [abs_le]; constructor <;> norm_num at u0 v0 uv ⊢ <;> linarith) r2
  have ru := coordinate_error ha0 haM hu3 r1
  have rv := coordinate_error ha0 haM hv3 r2
  have ru' : |(U.val : ℝ) - u| ≤ shake M a := by linarith
  have rv' : |(V.val : ℝ) - v| ≤ shake M a := by linarith
  refine ⟨hdet, t, u, v, hmeet, ru', rv', r3, ?_, ?_, ?_, ?_⟩
  · rw [abs_le] at ru'; linarith [ru'.2]
  · rw [abs_le] at rv'; linarith [rv'.2]
  · rw [abs_le] at ru' rv'; linarith [ru'.1, rv'.1]
  · have h1 : (99 / 10 ^ 7 : ℚ) ≤ T.val := le_trans tiny64_in.1 (le_of_lt g4)
    have h2 : (((99 / 10 ^ 7 : ℚ)) : ℝ) ≤ (T.val : ℝ) := by exact_mod_cast h1
    refine le_trans (le_of_eq ?_) h2
    push_cast
    rfl

/-! ## A floor that leaks -/

/-- A floor of 0.8 m by 2.5 m, corner at the origin, divided along its diagonal as any quadrilateral is. -/
def floorHalf1 : Tri F64 := ⟨⟨⟨0⟩, ⟨0⟩, ⟨0⟩⟩, ⟨F64.lit (8 / 10), ⟨0⟩, ⟨0⟩⟩, ⟨F64.lit (8 / 10), F64.lit (25 / 10), ⟨0⟩⟩⟩
def floorHalf2 : Tri F64 := ⟨⟨⟨0⟩, ⟨0⟩, ⟨0⟩⟩, ⟨F64.lit (8 / 10), F64.lit (25 / 10), ⟨0⟩⟩, ⟨⟨0⟩, F64.lit (25 / 10), ⟨0⟩⟩⟩

/-- A ray from (0.7, 0.6, 2.1) down to the middle part of the floor. -/
def leakingRay : Ray3 F64 :=
  ⟨⟨F64.lit (7 / 10), F64.lit (6 / 10), F64.lit (21 / 10)⟩,
   ⟨F64.lit (-61205133010347336 / 10 ^ 18), F64.lit (4731181265017225 / 10 ^ 16), F64.lit (-8788703943521399 / 10 ^ 16)⟩⟩

/-- The rational coordinates. -/
def Vec3.rats (v : Vec3 F64) : Vec3 ℚ := ⟨v.x.val, v.y.val, v.z.val⟩
def Ray3.rats (r : Ray3 F64) : Ray3 ℚ := ⟨r.origin.rats, r.direction.rats⟩
def Tri.rats (t : Tri F64) : Tri ℚ := ⟨t.a.rats, t.b.rats, t.c.rats⟩

/-- **Walls leak.** "A ray that goes through the middle of a wall hits one of the triangles it is made of" is true in exact arithmetic (C16) and false in double precision: this ray, of unit length up to rounding, reaches the
floor 2.39 m away, at least 20 cm inside its border, and hits neither half. -/
theorem C111_violation_leak : baricentric64 leakingRay floorHalf1 = none ∧ baricentric64 leakingRay floorHalf2 = none ∧
    (triangleIntersect floorHalf1.rats leakingRay.rats).isSome ∧
    |leakingRay.direction.rats.lengthSq - 1| < 1 / 10 ^ 15 ∧
    (let p := leakingRay.rats.origin + leakingRay.rats.direction.scale (-leakingRay.rats.origin.z / leakingRay.rats.direction.z)
     p.z = 0 ∧ 2 / 10 < p.x ∧ p.x < 6 / 10 ∧ 2 / 10 < p.y ∧ p.y < 23 / 10) := by decide +kernel

/-! ## The hypotheses can be met -/

def plainTri : Tri F64 := ⟨⟨⟨0⟩, ⟨0⟩, ⟨0⟩⟩, ⟨⟨1⟩, ⟨0⟩, ⟨0⟩⟩, ⟨⟨0⟩, ⟨1⟩, ⟨0⟩⟩⟩
def plainRay : Ray3 F64 := ⟨⟨⟨1 / 4⟩, ⟨1 / 4⟩, ⟨1⟩⟩, ⟨⟨0⟩, ⟨0⟩, ⟨-1⟩⟩⟩

theorem plain_det : tripleProduct plainRay.reals plainTri.reals = 1 := by
  norm_num [tripleProduct, plainRay, plainTri, Ray3.reals, Tri.reals, Vec3.reals]

example : ∃ t' u' v' : F64, baricentric64 plainRay plainTri = some (t', u', v') ∧ |(u'.val : ℝ) - 1 / 4| ≤ shake 1 1 ∧ |(v'.val : ℝ) - 1 / 4| ≤ shake 1 1 ∧ |(t'.val : ℝ) - 1| ≤ (1 + 1) * shake 1 1 := by
  have h := C111_hits_are_found plainRay plainTri 1 (by norm_num) (by norm_num)
    (by norm_num [Vec3.Within, plainRay, Ray3.reals, Vec3.reals]) (by norm_num [Vec3.Within, plainRay, Ray3.reals, Vec3.reals])
    (by norm_num [Vec3.Within, plainTri, Tri.reals, Vec3.reals]) (by norm_num [Vec3.Within, plainTri, Tri.reals, Vec3.reals]) (by norm_num [Vec3.Within, plainTri, Tri.reals, Vec3.reals])
    1 (1 / 4) (1 / 4) (Meets.iff.mpr (by norm_num [plainRay, plainTri, Ray3.reals, Tri.reals, Vec3.reals]))
  rw [plain_det] at h
  exact h (by norm_num) (by norm_num [shake]) (by norm_num [shake]) (by norm_num [shake]) (by norm_num [shake])

example := C111_hits_are_near plainRay plainTri 1 (by norm_num) (by norm_num)
    (by norm_num [Vec3.Within, plainRay, Ray3.reals, Vec3.reals]) (by norm_num [Vec3.Within, plainRay, Ray3.reals, Vec3.reals])
    (by norm_num [Vec3.Within, plainTri, Tri.reals, Vec3.reals]) (by norm_num [Vec3.Within, plainTri, Tri.reals, Vec3.reals]) (by norm_num [Vec3.Within, plainTri, Tri.reals, Vec3.reals])
    ⟨1⟩ ⟨1 / 4⟩ ⟨1 / 4⟩ (by decide +kernel)

end Rendering
