import Verif.Model.TriangleFloat
import Verif.Lemmas.Doubles
import Verif.Lemmas.Triangle

/-!
# Rounding errors of the ray/triangle test
-/

set_option linter.unusedSectionVars false
namespace Rendering

/-- `x` approximates `y`, which is at most `B`, with an error of `k` units of rounding of `B`. -/
def Near (x : F64) (y B k : ℝ) : Prop := |y| ≤ B ∧ |(x.val : ℝ) - y| ≤ k * B / 2 ^ 53

theorem Near.exact {x : F64} {B : ℝ} (h : |(x.val : ℝ)| ≤ B) : Near x x.val B 0 := ⟨h, by simp⟩

theorem Near.nonneg {x : F64} {y B k : ℝ} (h : Near x y B k) : 0 ≤ B := le_trans (abs_nonneg _) h.1

theorem Near.mono {x : F64} {y B k k' : ℝ} (h : Near x y B k) (hk : k ≤ k') : Near x y B k' := by
  refine ⟨h.1, le_trans h.2 ?_⟩
  have := h.nonneg
  gcongr

theorem Near.congr {x : F64} {y B B' k k' : ℝ} (h : Near x y B k) (hB : B = B') (hk : k = k') : Near x y B' k' := by rw [← hB, ← hk]; exact h

/-- Rounding a result adds two units. -/
theorem near_round {q : ℚ} {y B k : ℝ} (hy : |y| ≤ B) (hq : |(q : ℝ) - y| ≤ (k + 1 / 2) * B / 2 ^ 53) (hk0 : 0 ≤ k) (hk : k ≤ 1000) : Near ⟨round64 q⟩ y B (k + 2) := by
  refine ⟨hy, ?_⟩
  have hB : 0 ≤ B := le_trans (abs_nonneg _) hy
  have he : |((round64 q : ℚ) : ℝ) - (q : ℝ)| ≤ |(q : ℝ)| / 2 ^ 53 := by exact_mod_cast round64_error q
  have hqb : |(q : ℝ)| ≤ 1001 / 1000 * B := by
    have h1 : |(q : ℝ)| ≤ |(q : ℝ) - y| + |y| := by
      have := abs_add_le ((q : ℝ) - y) y
      simpa using this
    have h2 : (k + 1 / 2) * B / 2 ^ 53 ≤ 1 / 1000 * B := by
      have : (k + 1 / 2) * B ≤ 2000 * B := mul_le_mul_of_nonneg_right (by linarith) hB
      norm_num
      linarith
    linarith
  have htri : |((round64 q : ℚ) : ℝ) - y| ≤ |((round64 q : ℚ) : ℝ) - (q : ℝ)| + |(q : ℝ) - y| := abs_sub_le _ _ _
  have : |(q : ℝ)| / 2 ^ 53 ≤ 1001 / 1000 * B / 2 ^ 53 := by gcongr
  show |((round64 q : ℚ) : ℝ) - y| ≤ (k + 2) * B / 2 ^ 53
  have h3 : (k + 2) * B / 2 ^ 53 = (k + 1 / 2) * B / 2 ^ 53 + 3 / 2 * B / 2 ^ 53 := by ring
  have h4 : 1001 / 1000 * B / 2 ^ 53 ≤ 3 / 2 * B / 2 ^ 53 := by norm_num; linarith
  linarith

theorem Near.sub {x x' : F64} {y y' B B' k : ℝ} (h : Near x y B k) (h' : Near x' y' B' k) (hk0 : 0 ≤ k) (hk : k ≤ 1000) : Near (x - x') (y - y') (B + B') (k + 2) := by
  refine near_round (q := x.val - x'.val) ?_ ?_ hk0 hk
  · exact le_trans (abs_sub y y') (by linarith [h.1, h'.1])
  · have e : (((x.val - x'.val : ℚ)) : ℝ) - (y - y') = ((x.val : ℝ) - y) - ((x'.val : ℝ) - y') := by push_cast; ring
    rw [e]
    refine le_trans (abs_sub _ _) (le_trans (add_le_add h.2 h'.2) ?_)
    have hB := h.nonneg
    have hB' := h'.nonneg
    have : k * B / 2 ^ 53 + k * B' / 2 ^ 53 = k * (B + B') / 2 ^ 53 := by ring
    rw [this]
    have : k ≤ k + 1 / 2 := by linarith
    gcongr

theorem Near.add {x x' : F64} {y y' B B' k : ℝ} (h : Near x y B k) (h' : Near x' y' B' k) (hk0 : 0 ≤ k) (hk : k ≤ 1000) : Near (x + x') (y + y') (B + B') (k + 2) := by
  refine near_round (q := x.val + x'.val) ?_ ?_ hk0 hk
  · exact le_trans (abs_add_le y y') (by linarith [h.1, h'.1])
  · have e : (((x.val + x'.val : ℚ)) : ℝ) - (y + y') = ((x.val : ℝ) - y) + ((x'.val : ℝ) - y') := by push_cast; ring
    rw [e]
    refine le_trans (abs_add_le _ _) (le_trans (add_le_add h.2 h'.2) ?_)
    have hB := h.nonneg
    have hB' := h'.nonneg
    have : k * B / 2 ^ 53 + k * B' / 2 ^ 53 = k * (B + B') / 2 ^ 53 := by ring
    rw [this]
    have : k ≤ k + 1 / 2 := by linarith
    gcongr

theorem Near.mul {x x' : F64} {y y' B B' k k' : ℝ} (h : Near x y B k) (h' : Near x' y' B' k') (hk0 : 0 ≤ k) (hk0' : 0 ≤ k') (hk : k + k' ≤ 1000) :
    Near (x * x') (y * y') (B * B') (k + k' + 2) := by
  have hB := h.nonneg
  have hB' := h'.nonneg
  refine near_round (q := x.val * x'.val) ?_ ?_ (by linarith) hk
  · rw [abs_mul]; exact mul_le_mul h.1 h'.1 (abs_nonneg _) hB
  · have e : (((x.val * x'.val : ℚ)) : ℝ) - y * y' = ((x.val : ℝ) - y) * y' + y * ((x'.val : ℝ) - y') + ((x.val : ℝ) - y) * ((x'.val : ℝ) - y') := by push_cast; ring
    rw [e]
    have a1 : |((x.val : ℝ) - y) * y'| ≤ k * B / 2 ^ 53 * B' := by
      rw [abs_mul]; exact mul_le_mul h.2 h'.1 (abs_nonneg _) (by positivity)
    have a2 : |y * ((x'.val : ℝ) - y')| ≤ B * (k' * B' / 2 ^ 53) := by
      rw [abs_mul]; exact mul_le_mul h.1 h'.2 (abs_nonneg _) hB
    have a3 : |((x.val : ℝ) - y) * ((x'.val : ℝ) - y')| ≤ (k * B / 2 ^ 53) * (k' * B' / 2 ^ 53) := by
      rw [abs_mul]; exact mul_le_mul h.2 h'.2 (abs_nonneg _) (by positivity)
    have hsum := le_trans (abs_add_le (((x.val : ℝ) - y) * y' + y * ((x'.val : ℝ) - y')) (((x.val : ℝ) - y) * ((x'.val : ℝ) - y')))
      (add_le_add (abs_add_le _ _) le_rfl)
    refine le_trans hsum ?_
    have hkk : k * k' ≤ 1000000 := by nlinarith
    have hBB : 0 ≤ B * B' := mul_nonneg hB hB'
    have a3' : (k * B / 2 ^ 53) * (k' * B' / 2 ^ 53) ≤ 1 / 2 * (B * B') / 2 ^ 53 := by
      have : (k * B / 2 ^ 53) * (k' * B' / 2 ^ 53) = (k * k') * (B * B') / 2 ^ 53 / 2 ^ 53 := by ring
      rw [this]
      have : (k * k') * (B * B') ≤ 1000000 * (B * B') := mul_le_mul_of_nonneg_right hkk hBB
      norm_num
      linarith
    have : (k + k' + 1 / 2) * (B * B') / 2 ^ 53 = k * B / 2 ^ 53 * B' + B * (k' * B' / 2 ^ 53) + 1 / 2 * (B * B') / 2 ^ 53 := by ring
    linarith

/-- The quotient `(1/a)·N`, every operation rounded. -/
theorem quotient64 {ã Ñ : F64} {a u E E' : ℝ} (ha : |(ã.val : ℝ) - a| ≤ E) (hN : |(Ñ.val : ℝ) - a * u| ≤ E') (hE : E ≤ |a| / 2) (ha0 : 0 < |a|) :
    |(((F64.lit 1 / ã) * Ñ).val : ℝ) - u| ≤ 3 * (E' + |u| * E) / |a| + 4 / 2 ^ 53 * |u| := by
  have hã : |a| / 2 ≤ |(ã.val : ℝ)| := by
    have := abs_sub_abs_le_abs_sub a ã.val
    rw [abs_sub_comm] at this
    linarith
  have hã0 : (ã.val : ℝ) ≠ 0 := by intro h; rw [h, abs_zero] at hã; linarith
  obtain ⟨θ1, h1, e1⟩ := round64_factor (1 / ã.val)
  obtain ⟨θ2, h2, e2⟩ := round64_factor (round64 (1 / ã.val) * Ñ.val)
  have hval : (((F64.lit 1 / ã) * Ñ).val : ℝ) = (Ñ.val : ℝ) / ã.val * ((1 + θ1) * (1 + θ2)) := by
    show ((round64 (round64 ((F64.lit 1).val / ã.val) * Ñ.val) : ℚ) : ℝ) = _
    have : (F64.lit 1).val = 1 := round64_one
    rw [this, e2]
    push_cast at e1 ⊢
    rw [e1]
    field_simp
  rw [hval]
  set w : ℝ := (Ñ.val : ℝ) / ã.val with hw
  have hE0 : 0 ≤ E := le_trans (abs_nonneg _) ha
  have hE0' : 0 ≤ E' := le_trans (abs_nonneg _) hN
  have hwu : |w - u| ≤ 2 * (E' + |u| * E) / |a| := by
    have e : w - u = (((Ñ.val : ℝ) - a * u) - u * ((ã.val : ℝ) - a)) / ã.val := by rw [hw]; field_simp; ring
    rw [e, abs_div]
    have hnum : |((Ñ.val : ℝ) - a * u) - u * ((ã.val : ℝ) - a)| ≤ E' + |u| * E := by
      refine le_trans (abs_sub _ _) (add_le_add hN ?_)
      rw [abs_mul]
      exact mul_le_mul_of_nonneg_left ha (abs_nonneg _)
    calc _ ≤ (E' + |u| * E) / (|a| / 2) := div_le_div₀ (by positivity) hnum (by linarith) hã
      _ = _ := by field_simp
  have hθ : |(1 + θ1) * (1 + θ2) - 1| ≤ 3 / 2 ^ 53 := by
    have e : (1 + θ1) * (1 + θ2) - 1 = θ1 + θ2 + θ1 * θ2 := by ring
    rw [e]
    have h12 : |θ1 * θ2| ≤ 1 / 2 ^ 53 * 1 := by
      rw [abs_mul]
      exact mul_le_mul h1 (le_trans h2 (by norm_num)) (abs_nonneg _) (by norm_num)
    have := abs_add_le (θ1 + θ2) (θ1 * θ2)
    have := abs_add_le θ1 θ2
    have : (3 : ℝ) / 2 ^ 53 = 1 / 2 ^ 53 + 1 / 2 ^ 53 + 1 / 2 ^ 53 * 1 := by ring
    linarith
  have e : w * ((1 + θ1) * (1 + θ2)) - u = (w - u) + w * ((1 + θ1) * (1 + θ2) - 1) := by ring
  rw [e]
  have hwabs : |w| ≤ |u| + 2 * (E' + |u| * E) / |a| := by
    have := abs_sub_abs_le_abs_sub w u
    linarith
  have hprod : |w * ((1 + θ1) * (1 + θ2) - 1)| ≤ (|u| + 2 * (E' + |u| * E) / |a|) * (3 / 2 ^ 53) := by
    rw [abs_mul]
    exact mul_le_mul hwabs hθ (abs_nonneg _) (by positivity)
  refine le_trans (abs_add_le _ _) ?_
  set g : ℝ := (E' + |u| * E) / |a| with hg
  have hg0 : 0 ≤ g := by positivity
  have r1 : 2 * (E' + |u| * E) / |a| = 2 * g := by rw [hg]; ring
  have r2 : 3 * (E' + |u| * E) / |a| = 3 * g := by rw [hg]; ring
  rw [r1] at hwu hprod
  rw [r2]
  have hu0 := abs_nonneg u
  norm_num at hprod ⊢
  linarith

/-- The real coordinates. -/
def Vec3.reals (v : Vec3 F64) : Vec3 ℝ := ⟨v.x.val, v.y.val, v.z.val⟩
def Ray3.reals (r : Ray3 F64) : Ray3 ℝ := ⟨r.origin.reals, r.direction.reals⟩
def Tri.reals (t : Tri F64) : Tri ℝ := ⟨t.a.reals, t.b.reals, t.c.reals⟩

/-- Every coordinate is at most `M` in size. -/
def Vec3.Within (v : Vec3 ℝ) (M : ℝ) : Prop := |v.x| ≤ M ∧ |v.y| ≤ M ∧ |v.z| ≤ M

/-- Approximation of vectors. -/
def NearV (x : Vec3 F64) (y : Vec3 ℝ) (B k : ℝ) : Prop := Near x.x y.x B k ∧ Near x.y y.y B k ∧ Near x.z y.z B k

theorem NearV.exact {x : Vec3 F64} {B : ℝ} (h : x.reals.Within B) : NearV x x.reals B 0 := ⟨Near.exact h.1, Near.exact h.2.1, Near.exact h.2.2⟩

theorem NearV.sub {x x' : Vec3 F64} {y y' : Vec3 ℝ} {B B' k : ℝ} (h : NearV x y B k) (h' : NearV x' y' B' k) (hk0 : 0 ≤ k) (hk : k ≤ 1000) :
    NearV (sub64 x x') (y - y') (B + B') (k + 2) := ⟨h.1.sub h'.1 hk0 hk, h.2.1.sub h'.2.1 hk0 hk, h.2.2.sub h'.2.2 hk0 hk⟩

theorem NearV.cross {x x' : Vec3 F64} {y y' : Vec3 ℝ} {B B' k k' : ℝ} (h : NearV x y B k) (h' : NearV x' y' B' k') (hk0 : 0 ≤ k) (hk0' : 0 ≤ k') (hk : k + k' ≤ 900) :
    NearV (cross64 x x') (y.cross y') (B * B' + B * B') (k + k' + 4) := by
  obtain ⟨hx, hy, hz⟩ := h
  obtain ⟨hx', hy', hz'⟩ := h'
  have e : k + k' + 4 = k + k' + 2 + 2 := by ring
  rw [e]
  refine ⟨?_, ?_, ?_⟩
  · exact (hy.mul hz' hk0 hk0' (by linarith)).sub (hz.mul hy' hk0 hk0' (by linarith)) (by linarith) (by linarith)
  · exact (hz.mul hx' hk0 hk0' (by linarith)).sub (hx.mul hz' hk0 hk0' (by linarith)) (by linarith) (by linarith)
  · exact (hx.mul hy' hk0 hk0' (by linarith)).sub (hy.mul hx' hk0 hk0' (by linarith)) (by linarith) (by linarith)

theorem NearV.dot {x x' : Vec3 F64} {y y' : Vec3 ℝ} {B B' k k' : ℝ} (h : NearV x y B k) (h' : NearV x' y' B' k') (hk0 : 0 ≤ k) (hk0' : 0 ≤ k') (hk : k + k' ≤ 900) :
    Near (dot64 x x') (y.dot y') (B * B' + B * B' + B * B') (k + k' + 6) := by
  obtain ⟨hx, hy, hz⟩ := h
  obtain ⟨hx', hy', hz'⟩ := h'
  have e : k + k' + 6 = k + k' + 2 + 2 + 2 := by ring
  rw [e]
  have a := (hx.mul hx' hk0 hk0' (by linarith)).add (hy.mul hy' hk0 hk0' (by linarith)) (by linarith) (by linarith)
  exact a.add ((hz.mul hz' hk0 hk0' (by linarith)).mono (by linarith)) (by linarith) (by linarith)

/-- The four quantities the test computes, with their errors. -/
theorem test_errors (ray : Ray3 F64) (tri : Tri F64) (M : ℝ) (ho : ray.reals.origin.Within M) (hd : ray.reals.direction.Within 1)
    (hta : tri.reals.a.Within M) (htb : tri.reals.b.Within M) (htc : tri.reals.c.Within M) :
    let e1 := sub64 tri.b tri.a
    let e2 := sub64 tri.c tri.a
    let h := cross64 ray.direction e2
    let s := sub64 ray.origin tri.a
    let q := cross64 s e1
    let E1 := tri.reals.b - tri.reals.a
    let E2 := tri.reals.c - tri.reals.a
    let H := ray.reals.direction.cross E2
    let S := ray.reals.origin - tri.reals.a
    let Q := S.cross E1
    Near (dot64 e1 h) (E1.dot H) (24 * M ^ 2) 14 ∧ Near (dot64 s h) (S.dot H) (24 * M ^ 2) 14 ∧
    Near (dot64 ray.direction q) (ray.reals.direction.dot Q) (24 * M ^ 2) 14 ∧ Near (dot64 e2 q) (E2.dot Q) (48 * M ^ 3) 16 := by
  intro e1 e2 h s q E1 E2 H S Q
  have n1 : NearV e1 E1 (M + M) (0 + 2) := (NearV.exact htb).sub (NearV.exact hta) (by norm_num) (by norm_num)
  have n2 : NearV e2 E2 (M + M) (0 + 2) := (NearV.exact htc).sub (NearV.exact hta) (by norm_num) (by norm_num)
  have ns : NearV s S (M + M) (0 + 2) := (NearV.exact ho).sub (NearV.exact hta) (by norm_num) (by norm_num)
  have nh := (NearV.exact hd).cross n2 (by norm_num) (by norm_num) (by norm_num)
  have nq := ns.cross n1 (by norm_num) (by norm_num) (by norm_num)
  have d1 := n1.dot nh (by norm_num) (by norm_num) (by norm_num)
  have d2 := ns.dot nh (by norm_num) (by norm_num) (by norm_num)
  have d3 := (NearV.exact hd).dot nq (by norm_num) (by norm_num) (by norm_num)
  have d4 := n2.dot nq (by norm_num) (by norm_num) (by norm_num)
  refine ⟨?_, ?_, ?_, ?_⟩
  · exact d1.congr (by ring) (by norm_num)
  · exact d2.congr (by ring) (by norm_num)
  · exact d3.congr (by ring) (by norm_num)
  · exact d4.congr (by ring) (by norm_num)

end Rendering
