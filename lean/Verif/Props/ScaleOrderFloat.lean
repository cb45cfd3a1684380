import Verif.Props.ProgramsFloat
import Verif.Props.ScaleOrder

/-!
# C140: the false colours that `sfalsecolor` and `scompare -m` write in double precision can be read back
-/

set_option linter.unusedSectionVars false
namespace Rendering

theorem byte_near_roughly {x y : ℝ} (h1 : y ≤ 1) (hxy : |x - y| ≤ 2 / 1000000) {b : UInt8} (h : ByteOf x b) : 256 * y - 1001 / 1000 ≤ b.toNat ∧ (b.toNat : ℝ) ≤ 256 * y + 501 / 1000 := by
  obtain ⟨k, hk, hb⟩ := h
  obtain ⟨a, c⟩ := abs_le.1 hk
  obtain ⟨d, e⟩ := abs_le.1 hxy
  have hb' : (b.toNat : ℝ) = min 255 (k : ℝ) := by
    have : ((b.toNat : ℤ) : ℝ) = ((min 255 k : ℤ) : ℝ) := by rw [hb]
    push_cast at this
    exact this
  rw [hb']
  constructor
  · exact le_min (by linarith) (by linarith)
  · exact (min_le_right _ _).trans (by linarith)

/-- The brightness of a pixel whose bytes are those of nearly a colour. -/
theorem pixel_near_roughly {data : List UInt8} {i : Nat} {c c' : Rgb ℝ} (hr : (0 ≤ c'.r ∧ c'.r ≤ 1) ∧ (0 ≤ c'.g ∧ c'.g ≤ 1) ∧ (0 ≤ c'.b ∧ c'.b ≤ 1)) (hn : ChannelsWithin (2 / 1000000) c c') (h : PixelHas data i c) :
    ∃ v, PixelBrightness data i v ∧ 256 * brightness c' - 1001 / 1000 ≤ v ∧ v ≤ 256 * brightness c' + 501 / 1000 := by
  obtain ⟨r, g, b, h1, h2, h3, b1, b2, b3⟩ := h
  obtain ⟨n1, n2, n3⟩ := hn
  refine ⟨_, ⟨r, g, b, h1, h2, h3, rfl⟩, ?_, ?_⟩ <;>
  · have := byte_near_roughly hr.1.2 n1 b1
    have := byte_near_roughly hr.2.1.2 n2 b2
    have := byte_near_roughly hr.2.2.2 n3 b3
    unfold brightness
    linarith

theorem NearlyScaleColour.roughly {table : List (Rgb ℝ)} {lo hi x : ℝ} {c : Rgb ℝ} (h : NearlyScaleColour table lo hi x c) : RoughlyScaleColour table lo hi x c := by
  obtain ⟨c', h1, h2, h3, h4⟩ := h
  exact ⟨c', h1, h2.trans (by norm_num), h3.trans (by norm_num), h4.trans (by norm_num)⟩

/-- Order and readability of data that hold roughly the colours of values on a scale. -/
theorem scale_data_roughly (m : Colourmap) (hm : m ≠ .radiance) {lo hi : ℝ} (hlt : lo < hi) {data : List UInt8} {i k : Nat} {x y : ℝ} {cx cy : Rgb ℝ} (hx : RoughlyScaleColour m.table lo hi x cx) (hy : RoughlyScaleColour m.table lo hi y cy)
    (hi' : PixelHas data i cx) (hk : PixelHas data k cy) (hxy : x ≤ y) :
    (∃ v w, PixelBrightness data i v ∧ PixelBrightness data k w ∧ v ≤ w + 151 / 100) ∧ (SamePixel data i k → lo ≤ x → y ≤ hi → y - x ≤ (hi - lo) / 40) := by
  obtain ⟨dx, hx, nx⟩ := hx
  obtain ⟨dy, hy, ny⟩ := hy
  obtain ⟨v, pv, v1, v2⟩ := pixel_near_roughly (scaleColour_range hx) nx hi'
  obtain ⟨w, pw, w1, w2⟩ := pixel_near_roughly (scaleColour_range hy) ny hk
  have hb := (C135_brighter m hm hlt hxy hx hy).1
  refine ⟨⟨v, w, pv, pw, by linarith⟩, fun hs h1 h2 => ?_⟩
  have e := same_brightness hs pv pw
  obtain ⟨h, -⟩ := scale_rise (table_len m) _ _ _ _ _ (brightness_steps m hm) hlt hxy hx hy
  rw [← brightness_mixture, ← brightness_mixture, max_eq_right h1, max_eq_right (h1.trans hxy), min_eq_right h2, min_eq_right (hxy.trans h2)] at h
  have hd : 0 < hi - lo := by linarith
  have h3 : (y - x) / (hi - lo) ≤ 1 / 40 := by
    push_cast at h
    linarith
  rw [div_le_iff₀ hd] at h3
  linarith

/-- **C140, `sfalsecolor`.** In a picture written in double precision with one of the four scales a pixel of larger (exact) luminance is not darker (but for the rounding: 1.51 of 255 levels), and two pixels whose bytes are the same, with luminances on the scale, have luminances
that differ by at most a fortieth of the scale. -/
theorem C140_sfalsecolor (file : List UInt8) (im : ImageBuffer) (h : ImageBuffer.fromFile file = .ok (.image im)) (min max : Option F64) (m : Colourmap) (hm : m ≠ .radiance) (lo hi : ℝ) (hlo : LowerEnd 0 (min.map fun v => (v.val : ℝ)) lo)
    (hhi : UpperEnd (im.pixels.map Spectrum.luminance) (max.map fun v => (v.val : ℝ)) hi) (hlt : lo < hi) (hlen : lo ≤ 1000 * (hi - lo)) (j : JpegInput) (hj : sfalsecolor64 file min max m = .ok (.jpeg j)) :
    ∀ (i k : Nat) (p q : Spectrum ℝ), im.pixels[i]? = some p → im.pixels[k]? = some q → p.luminance ≤ q.luminance →
      (∃ v w, PixelBrightness j.data i v ∧ PixelBrightness j.data k w ∧ v ≤ w + 151 / 100) ∧ (SamePixel j.data i k → lo ≤ p.luminance → q.luminance ≤ hi → q.luminance - p.luminance ≤ (hi - lo) / 40) := by
  obtain ⟨-, -, -, hcol⟩ := C137_colours file im h min max m lo hi hlo hhi hlt hlen j hj
  intro i k p q hp hq hpq
  obtain ⟨c, c1, c2⟩ := hcol i p.luminance (by simp [hp])
  obtain ⟨d, d1, d2⟩ := hcol k q.luminance (by simp [hq])
  exact scale_data_roughly m hm hlt c1.roughly d1.roughly c2 d2 hpq

/-- **C140, `scompare -m`.** In the picture of a comparison a pixel where the luminances differ more is not darker, and two pixels whose bytes are the same show differences, if on the scale, that are themselves no further apart than a fortieth of the scale. -/
theorem C140_scompare (fileA fileB : List UInt8) (a b : ImageBuffer) (ha : ImageBuffer.fromFile fileA = .ok (.image a)) (hb : ImageBuffer.fromFile fileB = .ok (.image b)) (min max : Option F64) (m : Colourmap) (hm : m ≠ .radiance) (lo hi : ℝ)
    (hlo : LowerEnd 0 (min.map fun v => (v.val : ℝ)) lo) (hhi : UpperEnd (differences b a) (max.map fun v => (v.val : ℝ)) hi) (hlt : lo < hi) (hlen : lo ≤ 500 * (hi - lo))
    (hla : ∀ p ∈ a.pixels, p.luminance ≤ 500 * (hi - lo)) (hlb : ∀ p ∈ b.pixels, p.luminance ≤ 500 * (hi - lo)) (j : JpegInput) (hj : scompare64 fileA fileB min max m = .ok (.jpeg j)) :
    ∀ (i k : Nat) (x y : ℝ), (differences b a)[i]? = some x → (differences b a)[k]? = some y → x ≤ y →
      (∃ v w, PixelBrightness j.data i v ∧ PixelBrightness j.data k w ∧ v ≤ w + 151 / 100) ∧ (SamePixel j.data i k → lo ≤ x → y ≤ hi → y - x ≤ (hi - lo) / 40) := by
  obtain ⟨-, -, -, hcol⟩ := C137_compare_partial fileA fileB a b ha hb min max m lo hi hlo hhi hlt hlen hla hlb j hj
  intro i k x y hx hy hxy
  obtain ⟨c, c1, c2⟩ := hcol i x hx
  obtain ⟨d, d1, d2⟩ := hcol k y hy
  exact scale_data_roughly m hm hlt c1 d1 c2 d2 hxy

/-- **C140, ends.** With every scale, also that of Radiance, the pixels at or below the lower end have nearly the first published colour, those at or above the upper end the last. -/
theorem C140_ends (file : List UInt8) (im : ImageBuffer) (h : ImageBuffer.fromFile file = .ok (.image im)) (min max : Option F64) (m : Colourmap) (lo hi : ℝ) (hlo : LowerEnd 0 (min.map fun v => (v.val : ℝ)) lo)
    (hhi : UpperEnd (im.pixels.map Spectrum.luminance) (max.map fun v => (v.val : ℝ)) hi) (hlt : lo < hi) (hlen : lo ≤ 1000 * (hi - lo)) (j : JpegInput) (hj : sfalsecolor64 file min max m = .ok (.jpeg j)) :
    ∀ (i : Nat) (p : Spectrum ℝ), im.pixels[i]? = some p → ∃ c c', PixelHas j.data i c ∧ ChannelsWithin (1 / 1000000) c c' ∧ (p.luminance ≤ lo → Nearly c' (scaleStart m)) ∧ (hi ≤ p.luminance → Nearly c' (scaleEnd m)) := by
  obtain ⟨-, -, -, hcol⟩ := C137_colours file im h min max m lo hi hlo hhi hlt hlen j hj
  intro i p hp
  obtain ⟨c, ⟨c', c1, c2⟩, c3⟩ := hcol i p.luminance (by simp [hp])
  exact ⟨c, c', c3, c2, C135_ends m hlt c1⟩

/-- C140: the picture of the two pixels exists; the second pixel, of luminance 179, is not brighter than the first but for 1.51 levels. -/
example : ∃ (im : ImageBuffer) (j : JpegInput), ImageBuffer.fromFile (twoPixelFile 0 1 9) = .ok (.image im) ∧ sfalsecolor64 (twoPixelFile 0 1 9) none none .magma = .ok (.jpeg j) ∧ ∃ v w, PixelBrightness j.data 1 v ∧ PixelBrightness j.data 0 w ∧ v ≤ w + 151 / 100 := by
  obtain ⟨a, h, c, w, t, l⟩ := twoPixelFile_image
  obtain ⟨j, hj⟩ := C137_writes (twoPixelFile 0 1 9) a h (le_of_eq c.symm) (by rw [w]; norm_num) (by rw [t]; norm_num) none none (by simp) (by simp) .magma
  have e0 : (a.pixels.map Spectrum.luminance)[0]? = some (179 * (67 / 100 + 9 * (65 / 1000))) := by rw [l]; rfl
  have e1 : (a.pixels.map Spectrum.luminance)[1]? = some 179 := by rw [l]; rfl
  simp only [List.getElem?_map, Option.map_eq_some_iff] at e0 e1
  obtain ⟨p, hp, p1⟩ := e0
  obtain ⟨q, hq, q1⟩ := e1
  refine ⟨a, j, h, hj, (C140_sfalsecolor _ a h none none .magma nofun 0 _ (Or.inl ⟨rfl, rfl⟩) (Or.inr ⟨rfl, by rw [l]; exact List.mem_cons_self .., by
    intro v hv
    rw [l] at hv
    simp only [List.mem_cons, List.not_mem_nil, or_false] at hv
    rcases hv with rfl | rfl <;> norm_num⟩) (by norm_num) (by norm_num) j hj 1 0 q p hq hp (by rw [p1, q1]; norm_num)).1⟩

end Rendering
