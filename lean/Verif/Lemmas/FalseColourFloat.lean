import Verif.Model.FalseColourFloat
import Verif.Lemmas.Doubles

/-!
# Rounding errors of false colours
-/

set_option linter.unusedSectionVars false
namespace Rendering

theorem r64 (q : ℚ) : |((round64 q : ℚ) : ℝ) - (q : ℝ)| ≤ |(q : ℝ)| / 2 ^ 53 := by exact_mod_cast round64_error q

theorem add64_error (a b : F64) : |((a + b).val : ℝ) - (a.val + b.val)| ≤ |(a.val : ℝ) + b.val| / 2 ^ 53 := by
  have := r64 (a.val + b.val)
  push_cast at this
  exact this
theorem sub64_error (a b : F64) : |((a - b).val : ℝ) - (a.val - b.val)| ≤ |(a.val : ℝ) - b.val| / 2 ^ 53 := by
  have := r64 (a.val - b.val)
  push_cast at this
  exact this
theorem mul64_error (a b : F64) : |((a * b).val : ℝ) - (a.val * b.val)| ≤ |(a.val : ℝ) * b.val| / 2 ^ 53 := by
  have := r64 (a.val * b.val)
  push_cast at this
  exact this
theorem div64_error (a b : F64) : |((a / b).val : ℝ) - (a.val / b.val)| ≤ |(a.val : ℝ) / b.val| / 2 ^ 53 := by
  have := r64 (a.val / b.val)
  push_cast at this
  exact this

theorem nat64 (n : Nat) (h : n ≤ 256) : (((n : F64)).val : ℝ) = n := by
  have key : ∀ k : Fin 257, round64 (k.val : ℚ) = (k.val : ℚ) := by decide +kernel
  have := key ⟨n, by omega⟩
  have e : ((n : F64)).val = (n : ℚ) := this
  rw [e]
  simp

/-- The width of a bin. -/
theorem delta64 (lo hi : F64) (n : Nat) (h1 : 1 ≤ n) (h2 : n ≤ 256) (D : ℝ) (hD : D = hi.val - lo.val) (hpos : 0 < D) :
    |(((hi - lo) / (n : F64)).val : ℝ) - D / n| ≤ D / n / 2 ^ 51 := by
  have hn : (1 : ℝ) ≤ n := by exact_mod_cast h1
  have hn0 : (0 : ℝ) < n := by linarith
  have a := sub64_error hi lo
  have b := div64_error (hi - lo) (n : F64)
  rw [nat64 n h2] at b
  rw [← hD, abs_of_pos hpos] at a
  set d : ℝ := (((hi - lo)).val : ℝ) with hd
  obtain ⟨a1, a2⟩ := abs_le.1 a
  have hd0 : 0 < d := by linarith
  rw [abs_of_pos (div_pos hd0 hn0)] at b
  have e1 : |d / n - D / n| ≤ D / n / 2 ^ 53 := by
    rw [← sub_div, abs_div, abs_of_pos hn0, div_right_comm]
    gcongr
  have e2 : d / n ≤ D / n * 2 := by
    rw [div_mul_eq_mul_div]
    gcongr
    linarith
  have e3 : 0 < D / n := div_pos hpos hn0
  obtain ⟨b1, b2⟩ := abs_le.1 b
  obtain ⟨c1, c2⟩ := abs_le.1 e1
  rw [abs_le]
  constructor <;> linarith

/-- The start of a bin. -/
theorem start64 (lo : F64) (w : F64) (k : Nat) (hk : k ≤ 256) (D δ : ℝ) (hpos : 0 < D) (hδ : 0 < δ) (hw : |(w.val : ℝ) - δ| ≤ δ / 2 ^ 51) (hkD : k * δ ≤ D) (hlo : |(lo.val : ℝ)| ≤ 2 ^ 20 * D) :
    |((lo + (k : F64) * w).val : ℝ) - (lo.val + k * δ)| ≤ D / 2 ^ 32 := by
  have a := mul64_error (k : F64) w
  rw [nat64 k hk] at a
  have b := add64_error lo ((k : F64) * w)
  have hk0 : (0 : ℝ) ≤ k := Nat.cast_nonneg k
  obtain ⟨w1, w2⟩ := abs_le.1 hw
  have hw0 : 0 ≤ (w.val : ℝ) := by linarith
  have hkd : 0 ≤ k * δ := mul_nonneg hk0 hδ.le
  have e1 : |k * (w.val : ℝ) - k * δ| ≤ D / 2 ^ 51 := by
    rw [← mul_sub, abs_mul, abs_of_nonneg hk0]
    calc k * |(w.val : ℝ) - δ| ≤ k * (δ / 2 ^ 51) := by gcongr
      _ = k * δ / 2 ^ 51 := by ring
      _ ≤ _ := by gcongr
  obtain ⟨c1, c2⟩ := abs_le.1 e1
  rw [abs_of_nonneg (mul_nonneg hk0 hw0)] at a
  obtain ⟨a1, a2⟩ := abs_le.1 a
  set m : ℝ := (((k : F64) * w).val : ℝ) with hm
  have e2 : |(lo.val : ℝ) + m| ≤ (2 ^ 20 + 2) * D := by
    obtain ⟨l1, l2⟩ := abs_le.1 hlo
    rw [abs_le]
    constructor <;> linarith
  obtain ⟨b1, b2⟩ := abs_le.1 b
  rw [abs_le]
  constructor <;> linarith

/-- The end of a bin. -/
theorem end64 (lo : F64) (w : F64) (k : Nat) (hk : k ≤ 256) (D δ : ℝ) (hpos : 0 < D) (hδ : 0 < δ) (hδD : δ ≤ D) (hw : |(w.val : ℝ) - δ| ≤ δ / 2 ^ 51) (hkD : k * δ ≤ D) (hlo : |(lo.val : ℝ)| ≤ 2 ^ 20 * D) :
    |((lo + (k : F64) * w + w).val : ℝ) - (lo.val + (k + 1) * δ)| ≤ D / 2 ^ 31 := by
  have a := start64 lo w k hk D δ hpos hδ hw hkD hlo
  have b := add64_error (lo + (k : F64) * w) w
  set s : ℝ := ((lo + (k : F64) * w).val : ℝ) with hs
  obtain ⟨a1, a2⟩ := abs_le.1 a
  obtain ⟨b1, b2⟩ := abs_le.1 b
  obtain ⟨w1, w2⟩ := abs_le.1 hw
  have hk0 : (0 : ℝ) ≤ k := Nat.cast_nonneg k
  have hkd : 0 ≤ k * δ := mul_nonneg hk0 hδ.le
  have e2 : |s + (w.val : ℝ)| ≤ (2 ^ 20 + 4) * D := by
    obtain ⟨l1, l2⟩ := abs_le.1 hlo
    rw [abs_le]
    constructor <;> linarith
  rw [abs_le]
  constructor <;> linarith

/-- The place in a bin. -/
theorem lam64 (x s w : F64) (δ : ℝ) (hδ : 0 < δ) (hw : |(w.val : ℝ) - δ| ≤ δ / 2 ^ 51) (hx : |(x.val : ℝ) - s.val| ≤ 2 * δ) :
    |(((x - s) / w).val : ℝ) - (x.val - s.val) / δ| ≤ 1 / 2 ^ 46 := by
  have a := sub64_error x s
  have b := div64_error (x - s) w
  obtain ⟨w1, w2⟩ := abs_le.1 hw
  have hw0 : δ / 2 ≤ (w.val : ℝ) := by linarith
  have hwp : 0 < (w.val : ℝ) := by linarith
  set y : ℝ := ((x - s).val : ℝ) with hy
  set z : ℝ := (x.val : ℝ) - s.val with hz
  have hy2 : |y - z| ≤ 2 * δ / 2 ^ 53 := a.trans (by gcongr)
  have hyb : |y| ≤ 3 * δ := by
    have := abs_sub_abs_le_abs_sub y z
    linarith
  have hq : |y / w.val| ≤ 6 := by
    rw [abs_div, abs_of_pos hwp, div_le_iff₀ hwp]
    linarith
  have e : |y / w.val - z / δ| ≤ 1 / 2 ^ 47 := by
    have : y / w.val - z / δ = ((y - z) * δ + z * (δ - w.val)) / (w.val * δ) := by
      field_simp
      ring
    rw [this, abs_div, abs_of_pos (mul_pos hwp hδ), div_le_iff₀ (mul_pos hwp hδ)]
    have t1 : |(y - z) * δ| ≤ 2 * δ / 2 ^ 53 * δ := by
      rw [abs_mul, abs_of_pos hδ]; gcongr
    have t2 : |z * (δ - w.val)| ≤ 2 * δ * (δ / 2 ^ 51) := by
      rw [abs_mul]
      rw [abs_sub_comm] at hw
      gcongr
    have t3 := abs_add_le ((y - z) * δ) (z * (δ - w.val))
    have t4 : δ / 2 * δ ≤ w.val * δ := by gcongr
    have t5 : 0 < δ * δ := mul_pos hδ hδ
    nlinarith
  have b' : |(((x - s) / w).val : ℝ) - y / w.val| ≤ 6 / 2 ^ 53 := b.trans (by gcongr)
  have := abs_sub_le (((x - s) / w).val : ℝ) (y / w.val) (z / δ)
  linarith

/-- A mixture of two channels. -/
theorem lerp64 (p q l : F64) (p0 q0 : ℝ) (hp : |(p.val : ℝ) - p0| ≤ 1 / 2 ^ 53) (hq : |(q.val : ℝ) - q0| ≤ 1 / 2 ^ 53) (p1 : 0 ≤ p0 ∧ p0 ≤ 1) (q1 : 0 ≤ q0 ∧ q0 ≤ 1) (hl : |(l.val : ℝ)| ≤ 2) :
    |((lerp p q l).val : ℝ) - (p0 + (q0 - p0) * l.val)| ≤ 1 / 2 ^ 48 := by
  have a := sub64_error q p
  have b := mul64_error (q - p) l
  have c := add64_error p ((q - p) * l)
  obtain ⟨hp1, hp2⟩ := abs_le.1 hp
  obtain ⟨hq1, hq2⟩ := abs_le.1 hq
  have a' : |(q.val : ℝ) - p.val| ≤ 2 := by
    rw [abs_le]; constructor <;> linarith
  set d : ℝ := ((q - p).val : ℝ) with hd
  have a2 : |d - (q.val - p.val)| ≤ 2 / 2 ^ 53 := a.trans (by gcongr)
  have hdq : |d - (q0 - p0)| ≤ 4 / 2 ^ 53 := by
    obtain ⟨u1, u2⟩ := abs_le.1 a2
    rw [abs_le]; constructor <;> linarith
  have hdb : |d| ≤ 2 := by
    obtain ⟨u1, u2⟩ := abs_le.1 hdq
    rw [abs_le]; constructor <;> linarith
  have e1 : |d * l.val| ≤ 4 := by
    rw [abs_mul]
    calc |d| * |(l.val : ℝ)| ≤ 2 * 2 := by gcongr
      _ = 4 := by norm_num
  set m : ℝ := (((q - p) * l).val : ℝ) with hm
  have b2 : |m - d * l.val| ≤ 4 / 2 ^ 53 := b.trans (by gcongr)
  have e2 : |d * l.val - (q0 - p0) * l.val| ≤ 8 / 2 ^ 53 := by
    rw [← sub_mul, abs_mul]
    calc |d - (q0 - p0)| * |(l.val : ℝ)| ≤ 4 / 2 ^ 53 * 2 := by gcongr
      _ = 8 / 2 ^ 53 := by norm_num
  obtain ⟨b3, b4⟩ := abs_le.1 b2
  obtain ⟨e3, e4⟩ := abs_le.1 e1
  obtain ⟨e5, e6⟩ := abs_le.1 e2
  have e7 : |(p.val : ℝ) + m| ≤ 6 := by
    rw [abs_le]; constructor <;> linarith
  have c2 : |((p + (q - p) * l).val : ℝ) - (p.val + m)| ≤ 6 / 2 ^ 53 := c.trans (by gcongr)
  obtain ⟨c3, c4⟩ := abs_le.1 c2
  show |((p + (q - p) * l).val : ℝ) - (p0 + (q0 - p0) * l.val)| ≤ 1 / 2 ^ 48
  rw [abs_le]; constructor <;> linarith

/-- What the loop over the bins does. -/
theorem mapLoop64 (x lo w : F64) (l : List (Rgb F64)) (i : Nat) (hi : 1 ≤ i) :
    (∃ k p q, l[k]? = some p ∧ l[k + 1]? = some q ∧ x ≤ lo + ((i - 1 + k : Nat) : F64) * w + w ∧ (k = 0 ∨ ¬ x ≤ lo + ((i - 1 + (k - 1) : Nat) : F64) * w + w) ∧
      mapLoop x lo w i l = .ok ⟨lerp p.r q.r ((x - (lo + ((i - 1 + k : Nat) : F64) * w)) / w), lerp p.g q.g ((x - (lo + ((i - 1 + k : Nat) : F64) * w)) / w), lerp p.b q.b ((x - (lo + ((i - 1 + k : Nat) : F64) * w)) / w)⟩) ∨
    (mapLoop x lo w i l = .panic ∧ ∀ k, k + 1 < l.length → ¬ x ≤ lo + ((i - 1 + k : Nat) : F64) * w + w) := by
  induction l generalizing i with
  | nil => right; exact ⟨by unfold mapLoop; rfl, by simp⟩
  | cons p l ih =>
    cases l with
    | nil => right; exact ⟨by unfold mapLoop; rfl, by simp⟩
    | cons q rest =>
      by_cases hx : x ≤ lo + ((i - 1 : Nat) : F64) * w + w
      · left
        refine ⟨0, p, q, rfl, rfl, hx, Or.inl rfl, ?_⟩
        conv_lhs => unfold mapLoop
        simp only [hx, if_true]
        rfl
      · have e : mapLoop x lo w i (p :: q :: rest) = mapLoop x lo w (i + 1) (q :: rest) := by
          conv_lhs => unfold mapLoop
          simp only [hx, if_false]
        rw [e]
        rcases ih (i + 1) (by omega) with ⟨k, a, b, h1, h2, h3, h4, h5⟩ | ⟨h1, h2⟩
        · left
          have ek : i + 1 - 1 + k = i - 1 + (k + 1) := by omega
          rw [ek] at h3 h5
          refine ⟨k + 1, a, b, by simpa using h1, by simpa using h2, h3, Or.inr ?_, h5⟩
          rcases h4 with rfl | h4
          · simpa using hx
          · by_cases hk : k = 0
            · subst hk; simpa using hx
            · rwa [show i + 1 - 1 + (k - 1) = i - 1 + (k + 1 - 1) by omega] at h4
        · right
          refine ⟨h1, fun k hk => ?_⟩
          cases k with
          | zero => simpa using hx
          | succ k =>
            have := h2 k (by simpa using hk)
            rwa [show i + 1 - 1 + k = i - 1 + (k + 1) by omega] at this

end Rendering
