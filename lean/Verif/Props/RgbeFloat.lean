import Verif.Lemmas.Resave
import Verif.Props.Rgbe

/-!
# C110: the RGBE format in double precision
-/

namespace Rendering

/-- The real values of a triple of doubles. -/
def Spectrum.reals (p : Spectrum F64) : Spectrum ℝ := ⟨p.c0.val, p.c1.val, p.c2.val⟩

/-- The pixel `p` written to an RGBE file and read back, every operation rounded. -/
def throughRgbe64 (lib : Libm) (p : Spectrum F64) : Spectrum F64 := rgbeToColour64 (colourToRgbe64 lib p.c0 p.c1 p.c2)

theorem threshold_small : (F64.lit (1 / 10 ^ 19)).val ≤ 1 / 10 ^ 18 := by decide +kernel
theorem threshold_value : |(F64.lit (1 / 10 ^ 19)).val - 1 / 10 ^ 19| ≤ 1 / 10 ^ 35 := by decide +kernel

/-- The largest of three channels, as the code finds it. -/
def largest64 (red green blue : F64) : F64 :=
  let v := if red < green then green else red
  if v < blue then blue else v

theorem largest64_spec (r g b : F64) : r.val ≤ (largest64 r g b).val ∧ g.val ≤ (largest64 r g b).val ∧ b.val ≤ (largest64 r g b).val ∧
    (largest64 r g b = r ∨ largest64 r g b = g ∨ largest64 r g b = b) := by
  unfold largest64
  have lt : ∀ x y : F64, (x < y) = (x.val < y.val) := fun _ _ => rfl
  simp only [lt]
  by_cases h1 : r.val < g.val
  · simp only [h1, if_true]
    by_cases h2 : g.val < b.val
    · simp only [h2, if_true]; exact ⟨by linarith, h2.le, le_rfl, by simp⟩
    · simp only [h2, if_false]; exact ⟨h1.le, le_rfl, by linarith, by simp⟩
  · simp only [h1, if_false]
    by_cases h2 : r.val < b.val
    · simp only [h2, if_true]; exact ⟨h2.le, by linarith, le_rfl, by simp⟩
    · simp only [h2, if_false]; exact ⟨le_rfl, by linarith, by linarith, by simp⟩

/-- With a mathematics library accurate to 0.55 units in the last place, every pixel between 1e-18 and 2^126 comes back within one step of the format (1/128 of its largest channel), and no channel comes back brighter, up to one part in a thousand million. -/
theorem C110_rgbe_error (lib : Libm) (hlib : lib.Accurate) (p : Spectrum F64) (m : ℝ) (hm : LargestChannel p.reals m) (hlo : 1 / 10 ^ 18 ≤ m) (hhi : m ≤ 2 ^ 126) :
    let d := (throughRgbe64 lib p).reals
    (d.c0 ≤ p.reals.c0 * (1 + 1 / 10 ^ 9) ∧ p.reals.c0 - d.c0 ≤ m / 128 * (1 + 1 / 10 ^ 9)) ∧
    (d.c1 ≤ p.reals.c1 * (1 + 1 / 10 ^ 9) ∧ p.reals.c1 - d.c1 ≤ m / 128 * (1 + 1 / 10 ^ 9)) ∧
    (d.c2 ≤ p.reals.c2 * (1 + 1 / 10 ^ 9) ∧ p.reals.c2 - d.c2 ≤ m / 128 * (1 + 1 / 10 ^ 9)) := by
  obtain ⟨r, g, b⟩ := p
  obtain ⟨n0, n1, n2, l0, l1, l2, hor⟩ := hm
  simp only [Spectrum.reals] at *
  obtain ⟨k0, k1, k2, kor⟩ := largest64_spec r g b
  set v := largest64 r g b with hv
  have hvm : (v.val : ℝ) = m := by
    have k0' : (r.val : ℝ) ≤ v.val := by exact_mod_cast k0
    have k1' : (g.val : ℝ) ≤ v.val := by exact_mod_cast k1
    have k2' : (b.val : ℝ) ≤ v.val := by exact_mod_cast k2
    have hle : (v.val : ℝ) ≤ m := by rcases kor with h | h | h <;> rw [h] <;> assumption
    refine le_antisymm hle ?_
    rcases hor with h | h | h <;> rw [h] <;> assumption
  have hbig : ¬ v < F64.lit (1 / 10 ^ 19) := by
    intro h
    have h' : v.val < (F64.lit (1 / 10 ^ 19)).val := h
    have h'' := lt_of_lt_of_le h' threshold_small
    have : (v.val : ℝ) < ((1 / 10 ^ 18 : ℚ) : ℝ) := by exact_mod_cast h''
    rw [hvm] at this
    push_cast at this
    norm_num at this hlo
    linarith
  have hcode : throughRgbe64 lib ⟨r, g, b⟩ =
      ⟨rgbeChannel64 (r * ((rustyFrexp64 lib v).1 * (F64.lit 256 / v))).floor.asU8 (i32AsU8 ((rustyFrexp64 lib v).2 + 128)),
       rgbeChannel64 (g * ((rustyFrexp64 lib v).1 * (F64.lit 256 / v))).floor.asU8 (i32AsU8 ((rustyFrexp64 lib v).2 + 128)),
       rgbeChannel64 (b * ((rustyFrexp64 lib v).1 * (F64.lit 256 / v))).floor.asU8 (i32AsU8 ((rustyFrexp64 lib v).2 + 128))⟩ := by
    have : colourToRgbe64 lib r g b = if v < F64.lit (1 / 10 ^ 19) then (0, 0, 0, 0) else
        ((r * ((rustyFrexp64 lib v).1 * (F64.lit 256 / v))).floor.asU8, (g * ((rustyFrexp64 lib v).1 * (F64.lit 256 / v))).floor.asU8,
          (b * ((rustyFrexp64 lib v).1 * (F64.lit 256 / v))).floor.asU8, i32AsU8 ((rustyFrexp64 lib v).2 + 128)) := rfl
    unfold throughRgbe64
    rw [this, if_neg hbig]
    rfl
  rw [hcode]
  rw [← hvm] at hlo hhi ⊢
  exact ⟨channel64 hlib v r hlo hhi (by exact_mod_cast n0) k0, channel64 hlib v g hlo hhi (by exact_mod_cast n1) k1, channel64 hlib v b hlo hhi (by exact_mod_cast n2) k2⟩

/-- Pixels whose largest channel is below the threshold decode to black, whatever the library. -/
theorem C110_dark_is_black (lib : Libm) (p : Spectrum F64) (m : ℝ) (hm : LargestChannel p.reals m) (hlo : m < 1 / 10 ^ 19 - 1 / 10 ^ 35) :
    (throughRgbe64 lib p).reals = Spectrum.black := by
  obtain ⟨r, g, b⟩ := p
  obtain ⟨n0, n1, n2, l0, l1, l2, hor⟩ := hm
  simp only [Spectrum.reals] at *
  obtain ⟨k0, k1, k2, kor⟩ := largest64_spec r g b
  set v := largest64 r g b with hv
  have hle : (v.val : ℝ) ≤ m := by rcases kor with h | h | h <;> rw [h] <;> assumption
  have hsmall : v < F64.lit (1 / 10 ^ 19) := by
    show v.val < (F64.lit (1 / 10 ^ 19)).val
    have h := (abs_le.mp threshold_value).1
    have : (((1 : ℚ) / 10 ^ 19 - 1 / 10 ^ 35 : ℚ) : ℝ) ≤ ((F64.lit (1 / 10 ^ 19)).val : ℝ) := by exact_mod_cast (by linarith)
    have : (v.val : ℝ) < ((F64.lit (1 / 10 ^ 19)).val : ℝ) := by
      refine lt_of_lt_of_le (lt_of_le_of_lt hle hlo) (le_trans (le_of_eq ?_) this)
      push_cast
      ring
    exact_mod_cast this
  have : colourToRgbe64 lib r g b = if v < F64.lit (1 / 10 ^ 19) then (0, 0, 0, 0) else
      ((r * ((rustyFrexp64 lib v).1 * (F64.lit 256 / v))).floor.asU8, (g * ((rustyFrexp64 lib v).1 * (F64.lit 256 / v))).floor.asU8,
        (b * ((rustyFrexp64 lib v).1 * (F64.lit 256 / v))).floor.asU8, i32AsU8 ((rustyFrexp64 lib v).2 + 128)) := rfl
  unfold throughRgbe64
  rw [this, if_pos hsmall]
  simp [rgbeToColour64, rgbeChannel64, Spectrum.black, Spectrum.gray]

/-- The radiance 5 is representable in the format (160/256 times 2^3), and is what reading such a pixel gives. -/
theorem five_decodes : rgbeToColour64 (160, 160, 160, 131) = ⟨⟨5⟩, ⟨5⟩, ⟨5⟩⟩ := by decide +kernel

theorem frexp_five (lib : Libm) (hlib : lib.Accurate) : rustyFrexp64 lib ⟨5⟩ = (⟨5 / 8 - 1 / 2 ^ 53⟩, 3) := by
  have hl : lib.log2 ⟨5⟩ = ⟨(five : ℚ) * 2 ^ (-51 : ℤ)⟩ := by
    have := log2_five hlib
    cases h : lib.log2 ⟨5⟩
    rw [h] at this
    simp only at this
    rw [this]
  have hs : ((⟨(five : ℚ) * 2 ^ (-51 : ℤ)⟩ : F64) - F64.floor ⟨(five : ℚ) * 2 ^ (-51 : ℤ)⟩ - F64.lit 1) = ⟨(five : ℚ) / 2 ^ 51 - 3⟩ := by decide +kernel
  have hf : ⌊(F64.floor ⟨(five : ℚ) * 2 ^ (-51 : ℤ)⟩ + F64.lit 1).val⌋ = 3 := by decide +kernel
  have he : lib.exp2 ⟨(five : ℚ) / 2 ^ 51 - 3⟩ = ⟨5 / 8 - 1 / 2 ^ 53⟩ := by
    have := exp2_five hlib
    cases h : lib.exp2 ⟨(five : ℚ) / 2 ^ 51 - 3⟩
    rw [h] at this
    simp only at this
    rw [this]
  unfold rustyFrexp64
  simp only
  rw [hl, hs, hf, he]

/-- The full statement of C25 (re-saving a decoded pixel changes nothing) is false in double precision, far from the darkness threshold: with any accurate library, the pixel read from the bytes (160, 160, 160, 131), of radiance 5, is written back as (159, 159, 159, 131). -/
theorem C25_violation_doubles (lib : Libm) (hlib : lib.Accurate) :
    rgbeToColour64 (160, 160, 160, 131) = ⟨⟨5⟩, ⟨5⟩, ⟨5⟩⟩ ∧ colourToRgbe64 lib ⟨5⟩ ⟨5⟩ ⟨5⟩ = (159, 159, 159, 131) := by
  refine ⟨five_decodes, ?_⟩
  have h : colourToRgbe64 lib ⟨5⟩ ⟨5⟩ ⟨5⟩ = (fun q : F64 × ℤ => (((⟨5⟩ : F64) * (q.1 * (F64.lit 256 / ⟨5⟩))).floor.asU8, ((⟨5⟩ : F64) * (q.1 * (F64.lit 256 / ⟨5⟩))).floor.asU8,
      ((⟨5⟩ : F64) * (q.1 * (F64.lit 256 / ⟨5⟩))).floor.asU8, i32AsU8 (q.2 + 128))) (rustyFrexp64 lib ⟨5⟩) := by
    have hc : ¬ ((⟨5⟩ : F64) < ⟨5⟩) := by decide +kernel
    have hc' : ¬ ((⟨5⟩ : F64) < F64.lit (1 / 10 ^ 19)) := by decide +kernel
    unfold colourToRgbe64
    simp only [hc, hc', if_false]
  rw [h, frexp_five lib hlib]
  decide +kernel

/-- So an image with such a pixel is not what it was after being loaded and saved again. -/
theorem C25_violation_doubles_image (lib : Libm) (hlib : lib.Accurate) : throughRgbe64 lib ⟨⟨5⟩, ⟨5⟩, ⟨5⟩⟩ ≠ ⟨⟨5⟩, ⟨5⟩, ⟨5⟩⟩ := by
  unfold throughRgbe64
  rw [(C25_violation_doubles lib hlib).2]
  decide +kernel

/-! ## The hypotheses can be met -/

example : ∃ lib : Libm, (throughRgbe64 lib ⟨⟨5⟩, ⟨5⟩, ⟨5⟩⟩).reals.c0 < 5 := by
  obtain ⟨lib, hlib⟩ := accurate_exists
  refine ⟨lib, ?_⟩
  unfold throughRgbe64
  rw [(C25_violation_doubles lib hlib).2]
  have : rgbeToColour64 (159, 159, 159, 131) = ⟨⟨159 / 32⟩, ⟨159 / 32⟩, ⟨159 / 32⟩⟩ := by decide +kernel
  rw [this]
  norm_num [Spectrum.reals]

example := fun lib hlib => C110_rgbe_error lib hlib ⟨⟨807⟩, ⟨249⟩, ⟨73⟩⟩ 807 (by refine ⟨?_, ?_⟩ <;> norm_num [Spectrum.reals]) (by norm_num) (by norm_num)
example := fun lib => C110_dark_is_black lib ⟨⟨0⟩, ⟨1 / 2 ^ 70⟩, ⟨0⟩⟩ (1 / 2 ^ 70) (by refine ⟨?_, ?_⟩ <;> norm_num [Spectrum.reals]) (by norm_num)
example := fun lib hlib => C25_violation_doubles_image lib hlib

end Rendering
