import Verif.Lemmas.FalseColour64
import Verif.Props.RgbeFloat

/-!
# C136: false colours in double precision
-/

set_option linter.unusedSectionVars false
namespace Rendering

/-- The exact radiance of a pixel. -/
theorem radiance_reals (p : Spectrum F64) : p.reals.radiance = 265 / 1000 * (p.c0.val : ℝ) + 67 / 100 * p.c1.val + 65 / 1000 * p.c2.val := by
  simp [Spectrum.radiance, Spectrum.channels, Spectrum.radianceCoefficients, Spectrum.reals]
  ring

/-- The exact luminance of a pixel. -/
theorem luminance_reals (p : Spectrum F64) : p.reals.luminance = 179 * (265 / 1000 * (p.c0.val : ℝ) + 67 / 100 * p.c1.val + 65 / 1000 * p.c2.val) := by
  simp [Spectrum.luminance, Spectrum.radiance, Spectrum.channels, Spectrum.radianceCoefficients, Spectrum.whiteEfficacy, Spectrum.reals]
  ring

theorem lit64 (q : ℚ) : |((F64.lit q).val : ℝ) - q| ≤ |(q : ℝ)| / 2 ^ 53 := r64 q

theorem term64 (a : F64) (ha : 0 ≤ a.val) (k : ℚ) (hk : 0 ≤ k) : |((a * F64.lit k).val : ℝ) - a.val * k| ≤ a.val * k * (1 / 2 ^ 51) := by
  have h1 := lit64 k
  have h2 := mul64_error a (F64.lit k)
  have ha' : (0 : ℝ) ≤ a.val := by exact_mod_cast ha
  have hk' : (0 : ℝ) ≤ k := by exact_mod_cast hk
  rw [abs_of_nonneg hk'] at h1
  obtain ⟨a1, a2⟩ := abs_le.1 h1
  set l : ℝ := ((F64.lit k).val : ℝ) with hl
  have hl0 : 0 ≤ l := by linarith
  rw [abs_of_nonneg (mul_nonneg ha' hl0)] at h2
  obtain ⟨b1, b2⟩ := abs_le.1 h2
  have c1 : (a.val : ℝ) * l ≤ a.val * (k + k / 2 ^ 53) := by gcongr; linarith
  have c2 : (a.val : ℝ) * (k - k / 2 ^ 53) ≤ a.val * l := by gcongr; linarith
  have hak : 0 ≤ (a.val : ℝ) * k := mul_nonneg ha' hk'
  rw [abs_le]
  constructor <;> linarith

/-- **C136.** The radiance computed for a pixel whose channels are not negative is right but for a relative error of 2⁻⁵⁰. -/
theorem C136_radiance (p : Spectrum F64) (h0 : 0 ≤ p.c0.val) (h1 : 0 ≤ p.c1.val) (h2 : 0 ≤ p.c2.val) : |((radiance64 p).val : ℝ) - p.reals.radiance| ≤ p.reals.radiance / 2 ^ 50 := by
  rw [radiance_reals]
  have a := term64 p.c0 h0 (265 / 1000) (by norm_num)
  have b := term64 p.c1 h1 (67 / 100) (by norm_num)
  have c := term64 p.c2 h2 (65 / 1000) (by norm_num)
  have g0 : (0 : ℝ) ≤ p.c0.val := by exact_mod_cast h0
  have g1 : (0 : ℝ) ≤ p.c1.val := by exact_mod_cast h1
  have g2 : (0 : ℝ) ≤ p.c2.val := by exact_mod_cast h2
  push_cast at a b c
  set x := p.c0 * F64.lit (265 / 1000) with hx
  set y := p.c1 * F64.lit (67 / 100) with hy
  set z := p.c2 * F64.lit (65 / 1000) with hz
  have s1 := add64_error ⟨0⟩ x
  have s2 := add64_error (⟨0⟩ + x) y
  have s3 := add64_error (⟨0⟩ + x + y) z
  obtain ⟨a1, a2⟩ := abs_le.1 a
  obtain ⟨b1, b2⟩ := abs_le.1 b
  obtain ⟨c1, c2⟩ := abs_le.1 c
  have x0 : (0 : ℝ) ≤ x.val := by linarith
  have y0 : (0 : ℝ) ≤ y.val := by linarith
  have z0 : (0 : ℝ) ≤ z.val := by linarith
  have e0 : (((⟨0⟩ : F64).val : ℚ) : ℝ) = 0 := by norm_num
  rw [e0, zero_add, abs_of_nonneg x0] at s1
  obtain ⟨s11, s12⟩ := abs_le.1 s1
  have u0 : (0 : ℝ) ≤ ((⟨0⟩ + x : F64).val : ℝ) := by linarith
  rw [abs_of_nonneg (add_nonneg u0 y0)] at s2
  obtain ⟨s21, s22⟩ := abs_le.1 s2
  have v0 : (0 : ℝ) ≤ ((⟨0⟩ + x + y : F64).val : ℝ) := by linarith
  rw [abs_of_nonneg (add_nonneg v0 z0)] at s3
  obtain ⟨s31, s32⟩ := abs_le.1 s3
  have hr : ((radiance64 p).val : ℝ) = ((⟨0⟩ + x + y + z : F64).val : ℝ) := rfl
  set r : ℝ := ((⟨0⟩ + x + y + z : F64).val : ℝ) with hrd
  set R : ℝ := 265 / 1000 * (p.c0.val : ℝ) + 67 / 100 * p.c1.val + 65 / 1000 * p.c2.val with hR
  have R0 : 0 ≤ R := by positivity
  rw [hr]
  show |r - R| ≤ R / 2 ^ 50
  rw [abs_le]; constructor <;> linarith

/-- **C136.** The luminance computed for a pixel whose channels are not negative is right but for a relative error of 2⁻⁴⁸. -/
theorem C136_luminance (p : Spectrum F64) (h0 : 0 ≤ p.c0.val) (h1 : 0 ≤ p.c1.val) (h2 : 0 ≤ p.c2.val) : |((luminance64 p).val : ℝ) - p.reals.luminance| ≤ p.reals.luminance / 2 ^ 48 := by
  have h := C136_radiance p h0 h1 h2
  have e : p.reals.luminance = 179 * p.reals.radiance := by rw [luminance_reals, radiance_reals]
  have s4 := mul64_error (radiance64 p) (F64.lit 179)
  have hl : ((F64.lit 179).val : ℝ) = 179 := by
    have : (F64.lit 179).val = 179 := by decide +kernel
    rw [this]; norm_num
  have g0 : (0 : ℝ) ≤ p.c0.val := by exact_mod_cast h0
  have g1 : (0 : ℝ) ≤ p.c1.val := by exact_mod_cast h1
  have g2 : (0 : ℝ) ≤ p.c2.val := by exact_mod_cast h2
  have R0 : 0 ≤ p.reals.radiance := by rw [radiance_reals]; positivity
  obtain ⟨r2, r3⟩ := abs_le.1 h
  have r0 : (0 : ℝ) ≤ (radiance64 p).val := by linarith
  rw [hl, abs_of_nonneg (mul_nonneg r0 (by norm_num))] at s4
  obtain ⟨s41, s42⟩ := abs_le.1 s4
  have hL : ((luminance64 p).val : ℝ) = ((radiance64 p * F64.lit 179).val : ℝ) := rfl
  rw [hL, e, abs_le]
  constructor <;> linarith

theorem scale_unique {m : Colourmap} {lo hi x : ℝ} (hlt : lo < hi) {c d : Rgb ℝ} (hc : ScaleColour m.table lo hi x c) (hd : ScaleColour m.table lo hi x d) : c = d := by
  obtain ⟨a, b, e⟩ := C135_close m hlt hc hd
  rw [sub_self, abs_zero, zero_div, mul_zero] at a b e
  have f : ∀ u v : ℝ, |u - v| ≤ 0 → u = v := fun u v h => by
    have := abs_eq_zero.1 (le_antisymm h (abs_nonneg _))
    linarith
  cases c; cases d
  simp only [Rgb.mk.injEq]
  exact ⟨f _ _ a, f _ _ b, f _ _ e⟩

theorem scale_affine {table : List (Rgb ℝ)} {lo hi hi' x : ℝ} (hlt : lo < hi) (hlt' : lo < hi') {c : Rgb ℝ} (h : ScaleColour table lo hi x c) : ScaleColour table lo hi' (lo + (x - lo) * ((hi' - lo) / (hi - lo))) c := by
  have hd : 0 < hi - lo := by linarith
  have hd' : 0 < hi' - lo := by linarith
  have hr : 0 < (hi' - lo) / (hi - lo) := div_pos hd' hd
  rcases h with ⟨h, hc⟩ | ⟨h, hc⟩ | ⟨i, a, b, t, ha, hb, h0, h1, h, hc⟩
  · exact Or.inl ⟨by nlinarith, hc⟩
  · refine Or.inr (Or.inl ⟨?_, hc⟩)
    have e : (hi - lo) * ((hi' - lo) / (hi - lo)) = hi' - lo := by field_simp
    have : (hi - lo) * ((hi' - lo) / (hi - lo)) ≤ (x - lo) * ((hi' - lo) / (hi - lo)) := by gcongr
    linarith
  · refine Or.inr (Or.inr ⟨i, a, b, t, ha, hb, h0, h1, ?_, hc⟩)
    rw [h]
    field_simp
    ring

/-- Small relative errors of the value and of the upper end change the colour little. -/
theorem colour_shift {m : Colourmap} {lo hi hi' x x' : ℝ} (h0 : 0 ≤ lo) (hlt : lo < hi) (hlen : lo ≤ 1000 * (hi - lo)) (hx0 : 0 ≤ x) (hx : |x' - x| ≤ x / 2 ^ 48) (hh : |hi' - hi| ≤ hi / 2 ^ 48) {c : Rgb ℝ} (hc : ScaleColour m.table lo hi' x' c) :
    lo < hi' ∧ ∃ c', ScaleColour m.table lo hi x c' ∧ ChannelsWithin (1 / 2 ^ 22) c c' := by
  obtain ⟨a1, a2⟩ := abs_le.1 hx
  obtain ⟨b1, b2⟩ := abs_le.1 hh
  have hlt' : lo < hi' := by linarith
  refine ⟨hlt', ?_⟩
  have hl2 : 2 ≤ m.table.length := by rw [(C30_tables m).1]; norm_num
  rcases lt_or_ge (2 * hi) x with hbig | hsmall
  · refine ⟨c, Or.inr (Or.inl ⟨by linarith, ?_⟩), ?_⟩
    · obtain ⟨d, hd⟩ : ∃ d, m.table.getLast? = some d := ⟨_, by rw [List.getLast?_eq_getElem?, List.getElem?_eq_getElem (by omega)]⟩
      rw [hd, scale_unique hlt' hc (Or.inr (Or.inl ⟨by linarith, hd⟩))]
    · refine ⟨?_, ?_, ?_⟩ <;> rw [sub_self, abs_zero] <;> norm_num
  · obtain ⟨c', hc'⟩ := mapLinear_total x lo hi m.table hl2
    have hs := mapLinear_scale hl2 hlt hc'
    refine ⟨c', hs, ?_⟩
    set D := hi - lo with hD
    set r := (hi - lo) / (hi' - lo) with hr
    have hd' : 0 < hi' - lo := by linarith
    have hDpos : 0 < D := by linarith
    have r1 : |r - 1| ≤ 2002 / 2 ^ 48 := by
      have : r - 1 = (hi - hi') / (hi' - lo) := by rw [hr]; field_simp; ring
      rw [this, abs_div, abs_of_pos hd', div_le_iff₀ hd', abs_le]
      constructor <;> linarith
    have x1 : |x' - lo| ≤ 2003 * D := by rw [abs_le]; constructor <;> linarith
    have hc2 := scale_affine hlt' hlt hc
    have close := C135_close m hlt hc2 hs
    have dist : |lo + (x' - lo) * r - x| ≤ D / 2 ^ 25 := by
      have e : lo + (x' - lo) * r - x = (x' - lo) * (r - 1) + (x' - x) := by ring
      rw [e]
      have t1 : |(x' - lo) * (r - 1)| ≤ 2003 * D * (2002 / 2 ^ 48) := by rw [abs_mul]; gcongr
      have t2 := abs_add_le ((x' - lo) * (r - 1)) (x' - x)
      linarith
    have d2 : 6 * (|lo + (x' - lo) * r - x| / D) ≤ 1 / 2 ^ 22 := by
      have : |lo + (x' - lo) * r - x| / D ≤ 1 / 2 ^ 25 := by
        rw [div_le_iff₀ hDpos]; linarith
      linarith
    obtain ⟨k1, k2, k3⟩ := close
    exact ⟨k1.trans d2, k2.trans d2, k3.trans d2⟩

theorem max64_spec (l : List F64) (a : F64) : a.val ≤ (l.foldl (fun m v => if m < v then v else m) a).val ∧ (∀ v ∈ l, v.val ≤ (l.foldl (fun m v => if m < v then v else m) a).val) ∧
    (l.foldl (fun m v => if m < v then v else m) a = a ∨ l.foldl (fun m v => if m < v then v else m) a ∈ l) := by
  induction l generalizing a with
  | nil => simp
  | cons v l ih =>
    rw [List.foldl_cons]
    by_cases h : a < v
    · simp only [h, if_true]
      obtain ⟨p, q, r⟩ := ih v
      have h' : a.val < v.val := h
      refine ⟨h'.le.trans p, ?_, ?_⟩
      · intro w hw
        rcases List.mem_cons.1 hw with rfl | hw
        · exact p
        · exact q w hw
      · rcases r with r | r
        · right; rw [r]; exact List.mem_cons_self ..
        · right; exact List.mem_cons_of_mem _ r
    · simp only [h, if_false]
      obtain ⟨p, q, r⟩ := ih a
      have h' : v.val ≤ a.val := not_lt.1 h
      refine ⟨p, ?_, ?_⟩
      · intro w hw
        rcases List.mem_cons.1 hw with rfl | hw
        · exact h'.trans p
        · exact q w hw
      · rcases r with r | r
        · left; exact r
        · right; exact List.mem_cons_of_mem _ r

theorem isDouble_of_pos {q : ℚ} (h : 0 < round64 q) : IsDouble (round64 q) := by
  refine isDouble_round_pos ?_
  by_contra hq
  push Not at hq
  have := (abs_le.1 (round64_error q)).2
  rw [abs_of_nonpos hq] at this
  linarith

theorem luminance64_double (p : Spectrum F64) (h : 0 < (luminance64 p).val) : IsDouble (luminance64 p).val := isDouble_of_pos h

theorem isDouble_zero : IsDouble 0 := ⟨0, 0, by norm_num, by simp⟩

theorem linearMax64_double (pixels : List (Spectrum F64)) (max : Option F64) (hmax : ∀ v, max = some v → IsDouble v.val) : IsDouble (linearMax64 (pixels.map luminance64) max).val := by
  cases max with
  | some v => exact hmax v rfl
  | none =>
    unfold linearMax64
    simp only
    split_ifs with h
    · have : (F64.lit 2 * ⟨0⟩ : F64).val = 0 := by decide +kernel
      rw [this]
      exact isDouble_zero
    · push Not at h
      obtain ⟨-, -, e | e⟩ := max64_spec (pixels.map luminance64) ⟨0⟩
      · rw [e] at h; exact absurd h (lt_irrefl _)
      · obtain ⟨p, -, hp⟩ := List.mem_map.1 e
        rw [← hp] at h ⊢
        exact luminance64_double p h

theorem encode64_ok {d : List UInt8} {width height n : Nat} (hd : d.length = 3 * n) (hc : width * height ≤ n) (hw : width % 65536 ≠ 0) (hh : height % 65536 ≠ 0) :
    JpegInput.encode { data := d, width := asU16 width, height := asU16 height } = .ok { data := d, width := asU16 width, height := asU16 height } := by
  unfold JpegInput.encode asU16
  have : width % 65536 * (height % 65536) ≤ width * height := Nat.mul_le_mul (Nat.mod_le _ _) (Nat.mod_le _ _)
  simp only
  rw [if_neg]
  push Not
  exact ⟨hw, hh, by omega⟩

/-- **C136.** In double precision the picture is written whatever its pixels, if no positive lower limit is asked for: the upper end of the scale, computed from 255 equal steps, may fall short of the limit, but no double lies in between. -/
theorem C136_written (width height : Nat) (pixels : List (Spectrum F64)) (hc : width * height ≤ pixels.length) (hw : width % 65536 ≠ 0) (hh : height % 65536 ≠ 0) (min max : Option F64) (hmin : ∀ v, min = some v → v.val ≤ 0)
    (hmax : ∀ v, max = some v → IsDouble v.val) (m : Colourmap) : ∃ j, saveFalsecolour64 width height pixels min max m = .ok j := by
  have hlo : linearMin64 min = ⟨0⟩ := by
    cases min with
    | none => rfl
    | some v =>
      unfold linearMin64
      simp only
      split_ifs with h
      · rfl
      · have := le_antisymm (hmin v rfl) (not_lt.1 h)
        cases v
        simp only at this
        rw [this]
  obtain ⟨d, hd⟩ := pushColours64_ok (fun x => mapLinearColour x (linearMin64 min) (linearMax64 (pixels.map luminance64) max) m.table64) (pixels.map luminance64) (by
    intro x hx
    obtain ⟨p, -, rfl⟩ := List.mem_map.1 hx
    rw [hlo]
    exact map64_zero_ok m _ _ (linearMax64_double pixels max hmax) (luminance64_double p))
  unfold saveFalsecolour64
  simp only
  rw [hd, Res.bind_ok, encode64_ok (by simpa using (pushColours64_spec _ _ d hd).1) hc hw hh]
  exact ⟨_, rfl⟩

theorem linearMin64_end {min : Option F64} {lo : ℝ} (h : LowerEnd 0 (min.map fun v => (v.val : ℝ)) lo) : ((linearMin64 min).val : ℝ) = lo ∧ 0 ≤ lo := by
  rcases h with ⟨h1, rfl⟩ | ⟨v, h1, h2⟩
  · rw [Option.map_eq_none_iff] at h1
    rw [h1]
    simp [linearMin64]
  · rw [Option.map_eq_some_iff] at h1
    obtain ⟨u, rfl, rfl⟩ := h1
    unfold linearMin64
    simp only
    rcases h2 with ⟨h2, rfl⟩ | ⟨h2, rfl⟩
    · have : u.val < 0 := by exact_mod_cast h2
      simp [this]
    · have : ¬ u.val < 0 := not_lt.2 (by exact_mod_cast h2)
      simp only [this, if_false]
      exact ⟨trivial, h2⟩

theorem luminance_nonneg (p : Spectrum F64) (h : NotNegative p) : 0 ≤ p.reals.luminance := by
  rw [luminance_reals]
  obtain ⟨h0, h1, h2⟩ := h
  have g0 : (0 : ℝ) ≤ p.c0.val := by exact_mod_cast h0
  have g1 : (0 : ℝ) ≤ p.c1.val := by exact_mod_cast h1
  have g2 : (0 : ℝ) ≤ p.c2.val := by exact_mod_cast h2
  positivity

theorem linearMax64_end {pixels : List (Spectrum F64)} (hp : ∀ p ∈ pixels, NotNegative p) {max : Option F64} {hi : ℝ} (hpos : 0 < hi) (h : UpperEnd (pixels.map fun p => p.reals.luminance) (max.map fun v => (v.val : ℝ)) hi) :
    |((linearMax64 (pixels.map luminance64) max).val : ℝ) - hi| ≤ hi / 2 ^ 48 := by
  rcases h with h | ⟨h, hm, hge⟩
  · rw [Option.map_eq_some_iff] at h
    obtain ⟨u, rfl, rfl⟩ := h
    show |(u.val : ℝ) - u.val| ≤ _
    rw [sub_self, abs_zero]
    positivity
  · rw [Option.map_eq_none_iff] at h
    subst h
    obtain ⟨p, hpm, hpe⟩ := List.mem_map.1 hm
    obtain ⟨-, hall, hor⟩ := max64_spec (pixels.map luminance64) ⟨0⟩
    have k := hall _ (List.mem_map_of_mem hpm)
    have acc := C136_luminance p (hp p hpm).1 (hp p hpm).2.1 (hp p hpm).2.2
    rw [hpe] at acc
    have a1 := (abs_le.1 acc).1
    have k' : ((luminance64 p).val : ℝ) ≤ ((List.foldl (fun m v => if m < v then v else m) (⟨0⟩ : F64) (pixels.map luminance64)).val : ℝ) := by exact_mod_cast k
    have hmp : ¬ (List.foldl (fun m v => if m < v then v else m) (⟨0⟩ : F64) (pixels.map luminance64)).val ≤ 0 := by
      intro hle
      have : ((List.foldl (fun m v => if m < v then v else m) (⟨0⟩ : F64) (pixels.map luminance64)).val : ℝ) ≤ 0 := by exact_mod_cast hle
      linarith
    unfold linearMax64
    simp only [hmp, if_false]
    rcases hor with e | e
    · rw [e] at hmp; exact absurd le_rfl hmp
    · obtain ⟨q, hq, hqe⟩ := List.mem_map.1 e
      have acc2 := (abs_le.1 (C136_luminance q (hp q hq).1 (hp q hq).2.1 (hp q hq).2.2)).2
      rw [hqe] at acc2
      have := hge _ (List.mem_map_of_mem (f := fun p : Spectrum F64 => p.reals.luminance) hq)
      rw [abs_le]
      constructor <;> linarith

/-- **C136.** What is written in double precision is what exact arithmetic would write, but for a millionth in each channel: each pixel has the colour of its exact luminance on the scale between the exact limits (those asked for, or zero and the brightest pixel),
if the lower end of the scale is not more than 1000 times its length. -/
theorem C136_colours (width height : Nat) (pixels : List (Spectrum F64)) (hp : ∀ p ∈ pixels, NotNegative p) (min max : Option F64) (m : Colourmap) (lo hi : ℝ) (hlo : LowerEnd 0 (min.map fun v => (v.val : ℝ)) lo)
    (hhi : UpperEnd (pixels.map fun p => p.reals.luminance) (max.map fun v => (v.val : ℝ)) hi) (hlt : lo < hi) (hlen : lo ≤ 1000 * (hi - lo)) (j : JpegInput) (h : saveFalsecolour64 width height pixels min max m = .ok j) :
    j.width = width % 65536 ∧ j.height = height % 65536 ∧ ColoursOf (NearlyScaleColour m.table lo hi) (pixels.map fun p => p.reals.luminance) j.data := by
  obtain ⟨el, h0⟩ := linearMin64_end hlo
  have eh := linearMax64_end hp (h0.trans_lt hlt) hhi
  unfold saveFalsecolour64 at h
  simp only at h
  obtain ⟨d, hd, hj⟩ : ∃ d, pushColours64 (fun x => mapLinearColour x (linearMin64 min) (linearMax64 (pixels.map luminance64) max) m.table64) (pixels.map luminance64) = .ok d ∧ JpegInput.encode { data := d, width := asU16 width, height := asU16 height } = .ok j := by
    cases hd : pushColours64 (fun x => mapLinearColour x (linearMin64 min) (linearMax64 (pixels.map luminance64) max) m.table64) (pixels.map luminance64) with
    | panic => simp [hd] at h
    | diverge => simp [hd] at h
    | ok d =>
      rw [hd, Res.bind_ok] at h
      exact ⟨d, rfl, h⟩
  have hj := encode_eq hj
  subst hj
  obtain ⟨l1, l2⟩ := pushColours64_spec _ _ d hd
  refine ⟨rfl, rfl, by simpa using l1, ?_⟩
  intro i v hv
  rw [List.getElem?_map, Option.map_eq_some_iff] at hv
  obtain ⟨p, hpi, rfl⟩ := hv
  have hpm := List.mem_of_getElem? hpi
  obtain ⟨c, hc, b1, b2, b3⟩ := l2 i (luminance64 p) (by rw [List.getElem?_map, hpi]; rfl)
  set lo64 := linearMin64 min with hlo64
  set hi64 := linearMax64 (pixels.map luminance64) max with hhi64
  obtain ⟨e1, e2⟩ := abs_le.1 eh
  have hlt64 : (lo64.val : ℝ) < hi64.val := by rw [el]; linarith
  obtain ⟨c', hs, hn⟩ := map64_near m lo64 hi64 (luminance64 p) (by exact_mod_cast hlt64) (by rw [el, abs_of_nonneg h0]; linarith) c hc
  rw [el] at hs
  obtain ⟨-, c0, hs0, hn0⟩ := colour_shift h0 hlt hlen (luminance_nonneg p (hp p hpm)) (C136_luminance p (hp p hpm).1 (hp p hpm).2.1 (hp p hpm).2.2) eh hs
  obtain ⟨r1, r2, r3⟩ := scaleColour_range hs
  obtain ⟨cr, cr1, cr2⟩ := byte64_spec c.r c'.r hn.1 r1
  obtain ⟨cg, cg1, cg2⟩ := byte64_spec c.g c'.g hn.2.1 r2
  obtain ⟨cb, cb1, cb2⟩ := byte64_spec c.b c'.b hn.2.2 r3
  have fin : (1 : ℝ) / 2 ^ 21 + 1 / 2 ^ 50 + 1 / 2 ^ 22 ≤ 1 / 1000000 := by norm_num
  refine ⟨⟨cr, cg, cb⟩, ⟨c0, hs0, ?_, ?_, ?_⟩, _, _, _, b1, b2, b3, cr2, cg2, cb2⟩
  · exact (abs_sub_le _ _ _).trans ((add_le_add cr1 hn0.1).trans fin)
  · exact (abs_sub_le _ _ _).trans ((add_le_add cg1 hn0.2.1).trans fin)
  · exact (abs_sub_le _ _ _).trans ((add_le_add cb1 hn0.2.2).trans fin)

/-- **C136 (partial: not for luminances just below the upper limit).** With a positive lower limit the picture is written if no pixel's luminance is just below the upper limit, within a millionth of the length of the scale. -/
theorem C136_written_limits_partial (width height : Nat) (pixels : List (Spectrum F64)) (hc : width * height ≤ pixels.length) (hw : width % 65536 ≠ 0) (hh : height % 65536 ≠ 0) (hp : ∀ p ∈ pixels, NotNegative p) (lo hi : F64) (h0 : 0 ≤ lo.val) (hlt : lo.val < hi.val)
    (hlen : (lo.val : ℝ) ≤ 1000 * (hi.val - lo.val)) (m : Colourmap)
    (hx : ∀ p ∈ pixels, p.reals.luminance ≤ hi.val - (hi.val - lo.val) / 1000000 ∨ hi.val + (hi.val - lo.val) / 1000000 ≤ p.reals.luminance) :
    ∃ j, saveFalsecolour64 width height pixels (some lo) (some hi) m = .ok j := by
  have hlo : linearMin64 (some lo) = lo := by
    unfold linearMin64
    simp only [not_lt.2 h0, if_false]
  have hhi : linearMax64 (pixels.map luminance64) (some hi) = hi := rfl
  have h0' : (0 : ℝ) ≤ lo.val := by exact_mod_cast h0
  have hlt' : (lo.val : ℝ) < hi.val := by exact_mod_cast hlt
  obtain ⟨d, hd⟩ := pushColours64_ok (fun x => mapLinearColour x (linearMin64 (some lo)) (linearMax64 (pixels.map luminance64) (some hi)) m.table64) (pixels.map luminance64) (by
    intro x hxm
    obtain ⟨p, hpm, rfl⟩ := List.mem_map.1 hxm
    rw [hlo, hhi]
    obtain ⟨a1, a2⟩ := abs_le.1 (C136_luminance p (hp p hpm).1 (hp p hpm).2.1 (hp p hpm).2.2)
    refine map64_ok m lo hi _ hlt (by rw [abs_of_nonneg h0']; linarith) ?_
    rcases hx p hpm with h | h
    · left
      linarith
    · right
      have : (hi.val : ℝ) ≤ (luminance64 p).val := by linarith
      exact_mod_cast this)
  unfold saveFalsecolour64
  simp only
  rw [hd, Res.bind_ok, encode64_ok (by simpa using (pushColours64_spec _ _ d hd).1) hc hw hh]
  exact ⟨_, rfl⟩

/-- Whether a result is a panic. -/
def Res.panics {α : Type} : Res α → Bool
  | .panic => true
  | _ => false

theorem Res.panics_iff {α : Type} (r : Res α) : r.panics = true ↔ r = .panic := by
  cases r <;> simp [Res.panics]

/-- A grey pixel. -/
def grey64 (v : ℚ) : Spectrum F64 := ⟨⟨v⟩, ⟨v⟩, ⟨v⟩⟩

/-- **C136, violation.** With a lower limit of 0.1 cd/m² and no upper limit, a picture of two grey pixels of almost the same luminance cannot be written: the program panics (`unreachable!()`). -/
theorem C136_violation (m : Colourmap) : saveFalsecolour64 2 1 [grey64 (788938334925293 / 288230376151711744), grey64 (6311506679402343 / 2305843009213693952)] (some (F64.lit (1 / 10))) none m = .panic := by
  rw [← Res.panics_iff]
  cases m <;> decide +kernel

/-! ### Concrete cases of the theorems above -/

/-- C136: a picture of three pixels, with no limits, is written, with the colours of its luminances on the scale from 0 to 179. -/
example : ∃ j, saveFalsecolour64 3 1 [grey64 1, grey64 (1 / 3), grey64 0] none none .viridis = .ok j ∧ ColoursOf (NearlyScaleColour Colourmap.viridis.table 0 179) ([grey64 1, grey64 (1 / 3), grey64 0].map fun p => p.reals.luminance) j.data := by
  obtain ⟨j, hj⟩ := C136_written 3 1 [grey64 1, grey64 (1 / 3), grey64 0] (by simp) (by norm_num) (by norm_num) none none (by simp) (by simp) .viridis
  refine ⟨j, hj, (C136_colours 3 1 _ ?_ none none .viridis 0 179 (Or.inl ⟨rfl, rfl⟩) (Or.inr ⟨rfl, ?_, ?_⟩) (by norm_num) (by norm_num) j hj).2.2⟩
  · intro p hp
    simp only [List.mem_cons, List.not_mem_nil, or_false] at hp
    rcases hp with rfl | rfl | rfl <;> simp [NotNegative, grey64]
  · refine List.mem_map.2 ⟨grey64 1, by simp, ?_⟩
    rw [luminance_reals]
    norm_num [grey64]
  · intro v hv
    simp only [List.map_cons, List.map_nil, List.mem_cons, List.not_mem_nil, or_false, luminance_reals] at hv
    rcases hv with rfl | rfl | rfl <;> norm_num [grey64]

/-- C136: with limits. -/
example := C136_written_limits_partial 1 1 [grey64 1] (by simp) (by norm_num) (by norm_num) (by
  intro p hp
  simp only [List.mem_cons, List.not_mem_nil, or_false] at hp
  subst hp
  simp [NotNegative, grey64]) ⟨1⟩ ⟨2⟩ (by norm_num) (by norm_num) (by norm_num) .magma (by
  intro p hp
  simp only [List.mem_cons, List.not_mem_nil, or_false] at hp
  subst hp
  right
  rw [luminance_reals]
  norm_num [grey64])

example := C136_radiance (grey64 (1 / 3)) (by norm_num [grey64]) (by norm_num [grey64]) (by norm_num [grey64])
example := C136_luminance (grey64 (1 / 3)) (by norm_num [grey64]) (by norm_num [grey64]) (by norm_num [grey64])

end Rendering
