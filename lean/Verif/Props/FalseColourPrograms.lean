import Verif.Props.Programs

/-!
# C102: `sfalsecolor` and `scompare -m`, from the files read to the picture written
-/

set_option linter.unusedSectionVars false
namespace Rendering

open Classical

theorem readFrom_nonneg (fuel : Nat) (content : List UInt8) (im : ImageBuffer) (h : ImageBuffer.readFrom fuel content = .ok (.image im)) : ∀ p ∈ im.pixels, 0 ≤ p.c0 ∧ 0 ≤ p.c1 ∧ 0 ≤ p.c2 := by
  induction fuel generalizing content with
  | zero => simp [ImageBuffer.readFrom] at h
  | succ n ih =>
    unfold ImageBuffer.readFrom at h
    split at h
    · cases h
    · simp only at h
      rename_i nl _
      cases hl : ImageBuffer.headerLine (content.take nl) with
      | panic => rw [hl] at h; cases h
      | diverge => rw [hl] at h; cases h
      | ok line =>
        rw [hl] at h
        cases line with
        | next => exact ih _ h
        | err => cases h
        | size height width =>
          simp only [Res.bind_ok] at h
          cases h
          intro p hp
          simp only [List.mem_map] at hp
          obtain ⟨⟨r, g, b, e⟩, _, rfl⟩ := hp
          simp only [rgbeToColour]
          split
          · simp [Spectrum.black, Spectrum.gray]
          · simp only [rustyLdexp, one_mul]
            refine ⟨?_, ?_, ?_⟩ <;> positivity

/-- Images that were read have no negative luminances. -/
theorem fromFile_luminance (file : List UInt8) (im : ImageBuffer) (h : ImageBuffer.fromFile file = .ok (.image im)) : ∀ p ∈ im.pixels, 0 ≤ p.luminance := by
  intro p hp
  obtain ⟨h0, h1, h2⟩ := readFrom_nonneg _ _ im h p hp
  simp only [Spectrum.luminance, Spectrum.radiance, Spectrum.channels, Spectrum.radianceCoefficients, Spectrum.whiteEfficacy]
  simp
  positivity

theorem scaleColour_range {m : Colourmap} {lo hi x : ℝ} {c : Rgb ℝ} (h : ScaleColour m.table lo hi x c) : (0 ≤ c.r ∧ c.r ≤ 1) ∧ (0 ≤ c.g ∧ c.g ≤ 1) ∧ (0 ≤ c.b ∧ c.b ≤ 1) := by
  have hT := (C30_tables m).2
  rcases h with ⟨_, h⟩ | ⟨_, h⟩ | ⟨i, a, b, t, ha, hb, t0, t1, _, rfl⟩
  · exact hT c (List.mem_of_mem_head? h)
  · exact hT c (List.mem_of_getLast? h)
  · obtain ⟨a1, a2, a3⟩ := hT a (List.mem_of_getElem? ha)
    obtain ⟨b1, b2, b3⟩ := hT b (List.mem_of_getElem? hb)
    have key : ∀ x y : ℝ, 0 ≤ x ∧ x ≤ 1 → 0 ≤ y ∧ y ≤ 1 → 0 ≤ (1 - t) * x + t * y ∧ (1 - t) * x + t * y ≤ 1 := by
      intro x y hx hy
      constructor
      · exact add_nonneg (mul_nonneg (by linarith) hx.1) (mul_nonneg t0 hy.1)
      · nlinarith [mul_le_mul_of_nonneg_left hx.2 (by linarith : 0 ≤ 1 - t), mul_le_mul_of_nonneg_left hy.2 t0]
    exact ⟨key _ _ a1 b1, key _ _ a2 b2, key _ _ a3 b3⟩

theorem byteOf_channel {x : ℝ} (h0 : 0 ≤ x) (h1 : x ≤ 1) : ByteOf x (realAsU8 (roundAway (x * 256))) := by
  obtain ⟨a, _, c⟩ := byte_of_channel h0 h1
  exact ⟨roundAway (x * 256), by rw [mul_comm 256 x]; exact c, a⟩

theorem pixelHas_of {data : List UInt8} {i : Nat} {c : Rgb ℝ} (hr : (0 ≤ c.r ∧ c.r ≤ 1) ∧ (0 ≤ c.g ∧ c.g ≤ 1) ∧ (0 ≤ c.b ∧ c.b ≤ 1))
    (h : data[3 * i]? = some (realAsU8 (roundAway (c.r * 256))) ∧ data[3 * i + 1]? = some (realAsU8 (roundAway (c.g * 256))) ∧ data[3 * i + 2]? = some (realAsU8 (roundAway (c.b * 256)))) : PixelHas data i c :=
  ⟨_, _, _, h.1, h.2.1, h.2.2, byteOf_channel hr.1.1 hr.1.2, byteOf_channel hr.2.1.1 hr.2.1.2, byteOf_channel hr.2.2.1 hr.2.2.2⟩

/-- The colour of a luminance on a logarithmic scale: black pixels get the first colour. -/
def LogScaleColour (table : List (Rgb ℝ)) (lo hi v : ℝ) (c : Rgb ℝ) : Prop :=
  v = 0 ∧ table.head? = some c ∨ 0 < v ∧ ScaleColour table (Real.logb 10 lo) (Real.logb 10 hi) (Real.logb 10 v) c

theorem falseColours_linear (im : ImageBuffer) (hc : im.width * im.height ≤ im.pixels.length) (hw : im.width % 65536 ≠ 0) (hh : im.height % 65536 ≠ 0) (min max : Option ℝ) (m : Colourmap) (lo hi : ℝ) (hlo : LowerEnd 0 min lo) (hhi : UpperEnd (im.pixels.map Spectrum.luminance) max hi) (hlt : lo < hi) :
    ∃ j, falseColours im min max false m = .ok (.jpeg j) ∧ j.width = im.width % 65536 ∧ j.height = im.height % 65536 ∧ ColoursOf (ScaleColour m.table lo hi) (im.pixels.map Spectrum.luminance) j.data := by
  obtain ⟨j, hj⟩ := C30_linear_succeeds_partial im hc hw hh min max m
  obtain ⟨k1, k2, k3, _⟩ := C30_linear_bytes im min max m j hj
  refine ⟨j, by simp [falseColours, hj], k2, k3, by simpa using k1, fun i v hv => ?_⟩
  rw [List.getElem?_map, Option.map_eq_some_iff] at hv
  obtain ⟨p, hp, rfl⟩ := hv
  obtain ⟨c, hc, hb⟩ := C30_linear_colours im min max m j hj lo hi hlo hhi hlt i p hp
  exact ⟨c, hc, pixelHas_of (scaleColour_range hc) hb⟩

theorem falseColours_log (im : ImageBuffer) (hc : im.width * im.height ≤ im.pixels.length) (hw : im.width % 65536 ≠ 0) (hh : im.height % 65536 ≠ 0) (hn : ∀ p ∈ im.pixels, 0 ≤ p.luminance) (min max : Option ℝ) (m : Colourmap) (lo hi : ℝ) (hlo : LowerEnd (1 / 1000) min lo) (hhi : UpperEnd (im.pixels.map Spectrum.luminance) max hi)
    (hlt : lo < hi) (hauto : max = none → 1 / 1000 < Real.logb 10 hi) :
    ∃ j, falseColours im min max true m = .ok (.jpeg j) ∧ j.width = im.width % 65536 ∧ j.height = im.height % 65536 ∧ ColoursOf (LogScaleColour m.table lo hi) (im.pixels.map Spectrum.luminance) j.data := by
  have h0 : 0 < lo := by
    rcases hlo with ⟨_, rfl⟩ | ⟨v, _, ⟨_, rfl⟩ | ⟨h1, rfl⟩⟩ <;> [norm_num; norm_num; exact lt_of_lt_of_le (by norm_num) h1]
  obtain ⟨j, hj⟩ := C30_log_succeeds_partial im hc hw hh min max m hn (by
    rintro v rfl
    rcases hhi with hhi | ⟨hhi, _⟩
    · rw [Option.some.inj hhi]; linarith
    · cases hhi)
  obtain ⟨k1, k2, k3, _⟩ := C30_log_bytes im min max m j hj
  refine ⟨j, by simp [falseColours, hj], k2, k3, by simpa using k1, fun i v hv => ?_⟩
  rw [List.getElem?_map, Option.map_eq_some_iff] at hv
  obtain ⟨p, hp, rfl⟩ := hv
  obtain ⟨c, hc, hb⟩ := C30_log_colours_partial im min max m j hj lo hi hlo hhi hlt hauto i p hp
  refine ⟨c, hc, pixelHas_of ?_ hb⟩
  rcases hc with ⟨_, hc⟩ | ⟨_, hc⟩
  · exact (C30_tables m).2 c (List.mem_of_mem_head? hc)
  · exact scaleColour_range hc

/-! ### `sfalsecolor` -/

/-- **C102, linear scale.** For every complete image that can be read, with no side a multiple of 65536, `sfalsecolor` writes a picture of the same size (sizes modulo 65536), whose pixels have the colours of the luminances of the image, on the scale of the chosen map from the
minimum to the maximum asked for (by default from zero to the brightest pixel). -/
theorem C102_linear (file : List UInt8) (im : ImageBuffer) (h : ImageBuffer.fromFile file = .ok (.image im)) (hc : im.width * im.height ≤ im.pixels.length) (hw : im.width % 65536 ≠ 0) (hh : im.height % 65536 ≠ 0) (min max : Option ℝ) (m : Colourmap) (lo hi : ℝ) (hlo : LowerEnd 0 min lo)
    (hhi : UpperEnd (im.pixels.map Spectrum.luminance) max hi) (hlt : lo < hi) :
    ∃ j, sfalsecolor file min max false m = .ok (.jpeg j) ∧ j.width = im.width % 65536 ∧ j.height = im.height % 65536 ∧ ColoursOf (ScaleColour m.table lo hi) (im.pixels.map Spectrum.luminance) j.data := by
  simp only [sfalsecolor, h, Res.bind_ok]
  exact falseColours_linear im hc hw hh min max m lo hi hlo hhi hlt

/-- **C102, logarithmic scale (partial).** With `--log`, the scale is logarithmic, from the minimum asked for (at least 0.001) to the maximum asked for. Missing: with no maximum asked for, images no brighter than `10 ^ 0.001`, for which the scale does
not end at the brightest pixel (`C30_violation_log_auto`). -/
theorem C102_log_partial (file : List UInt8) (im : ImageBuffer) (h : ImageBuffer.fromFile file = .ok (.image im)) (hc : im.width * im.height ≤ im.pixels.length) (hw : im.width % 65536 ≠ 0) (hh : im.height % 65536 ≠ 0) (min max : Option ℝ) (m : Colourmap) (lo hi : ℝ) (hlo : LowerEnd (1 / 1000) min lo)
    (hhi : UpperEnd (im.pixels.map Spectrum.luminance) max hi) (hlt : lo < hi) (hauto : max = none → 1 / 1000 < Real.logb 10 hi) :
    ∃ j, sfalsecolor file min max true m = .ok (.jpeg j) ∧ j.width = im.width % 65536 ∧ j.height = im.height % 65536 ∧ ColoursOf (LogScaleColour m.table lo hi) (im.pixels.map Spectrum.luminance) j.data := by
  simp only [sfalsecolor, h, Res.bind_ok]
  exact falseColours_log im hc hw hh (fromFile_luminance file im h) min max m lo hi hlo hhi hlt hauto

/-- **C102, every option.** Whatever the options (minima above maxima, negative limits on the linear scale, all pixels black …), a picture is written for every complete image that can be read, with no side a multiple of 65536; on the logarithmic scale, provided the maximum asked for is not
negative. -/
theorem C102_always_writes (file : List UInt8) (im : ImageBuffer) (h : ImageBuffer.fromFile file = .ok (.image im)) (hc : im.width * im.height ≤ im.pixels.length) (hw : im.width % 65536 ≠ 0) (hh : im.height % 65536 ≠ 0) (min max : Option ℝ) (log : Bool) (m : Colourmap) (hmax : log = true → ∀ v, max = some v → 0 ≤ v) :
    ∃ j, sfalsecolor file min max log m = .ok (.jpeg j) ∧ j.width = im.width % 65536 ∧ j.height = im.height % 65536 ∧ j.data.length = 3 * im.pixels.length := by
  simp only [sfalsecolor, h, Res.bind_ok]
  cases log with
  | false =>
    obtain ⟨j, hj⟩ := C30_linear_succeeds_partial im hc hw hh min max m
    obtain ⟨k1, k2, k3, _⟩ := C30_linear_bytes im min max m j hj
    exact ⟨j, by simp [falseColours, hj], k2, k3, k1⟩
  | true =>
    obtain ⟨j, hj⟩ := C30_log_succeeds_partial im hc hw hh min max m (fromFile_luminance file im h) (hmax rfl)
    obtain ⟨k1, k2, k3, _⟩ := C30_log_bytes im min max m j hj
    exact ⟨j, by simp [falseColours, hj], k2, k3, k1⟩

/-- **C102, violation.** A file cut short is read without complaint, and then `sfalsecolor` panics while encoding the picture, having already created the file. -/
theorem C102_violation_truncated (file : List UInt8) (im : ImageBuffer) (h : ImageBuffer.fromFile file = .ok (.image im)) (hw : im.width < 65536) (hh : im.height < 65536) (hc : im.pixels.length < im.width * im.height)
    (min max : Option ℝ) (log : Bool) (m : Colourmap) (hmax : log = true → ∀ v, max = some v → 0 ≤ v) : sfalsecolor file min max log m = .panic := by
  obtain ⟨k1, k2⟩ := C30_violation_truncated im hw hh hc min max m
  simp only [sfalsecolor, h, Res.bind_ok]
  cases log with
  | false => simp [falseColours, k1]
  | true => simp [falseColours, k2 (fromFile_luminance file im h) (hmax rfl)]

/-- Such files exist: the header alone, of any size (less than 65536). -/
example (h w : Nat) (hh : 0 < h ∧ h < 65536) (hw : 0 < w ∧ w < 65536) (log : Bool) (m : Colourmap) : sfalsecolor (hdrSize h w ++ [10]) none none log m = .panic :=
  C102_violation_truncated _ _ (C26_violation h w (by omega) (by omega)).1 hw.2 hh.2 (by simpa using Nat.mul_pos hw.1 hh.1) none none log m (by simp)

/-! ### `scompare -m` -/

/-- The luminances of the differences of two images: those of grey pixels whose radiance is the distance between the radiances of the two pixels. -/
noncomputable def differences (a b : ImageBuffer) : List ℝ := List.zipWith (fun p q => 179 * |p.radiance - q.radiance|) a.pixels b.pixels

theorem luminance_gray (v : ℝ) : (Spectrum.gray v).luminance = 179 * v := by
  norm_num [Spectrum.luminance, Spectrum.radiance, Spectrum.channels, Spectrum.gray, Spectrum.radianceCoefficients, Spectrum.whiteEfficacy]
  ring

theorem diff_luminances (a b d : ImageBuffer) (ca : a.Consistent) (cb : b.Consistent) (h : a.diff b = .ok (some d)) : d.pixels.map Spectrum.luminance = differences a b := by
  obtain ⟨k1, k2, k3, k4⟩ := C28_pixelwise a b d ca cb h
  have hs := ((C28_succeeds_iff a b ca cb).1).1 ⟨d, h⟩
  have hla : d.pixels.length = a.pixels.length := by rw [k1, ca, k2, k3]
  have hlb : d.pixels.length = b.pixels.length := by rw [k1, cb, k2, k3, hs.1, hs.2]
  apply List.ext_getElem
  · simp [differences, ← hla, ← hlb]
  · intro i h1 h2
    have hi : i < d.pixels.length := by simpa using h1
    obtain ⟨p, q, hp, hq, e, _⟩ := k4 i hi
    have hp' := (List.getElem?_eq_some_iff.1 hp).2
    have hq' := (List.getElem?_eq_some_iff.1 hq).2
    simp only [List.getElem_map, differences, List.getElem_zipWith]
    rw [e, hp', hq', luminance_gray]

theorem differences_nonneg (a b : ImageBuffer) : ∀ v ∈ differences a b, 0 ≤ v := by
  intro v hv
  obtain ⟨i, hi, rfl⟩ := List.mem_iff_getElem.1 hv
  simp only [differences, List.getElem_zipWith]
  positivity

/-- **C102, comparing on a linear scale.** For two images of the same size, `scompare -m` writes a picture of their size whose pixels have the colours of the differences. -/
theorem C102_compare_linear (fileA fileB : List UInt8) (a b : ImageBuffer) (ha : ImageBuffer.fromFile fileA = .ok (.image a)) (hb : ImageBuffer.fromFile fileB = .ok (.image b)) (ca : a.Consistent) (cb : b.Consistent)
    (hs : a.width = b.width ∧ a.height = b.height) (hw : a.width % 65536 ≠ 0) (hh : a.height % 65536 ≠ 0) (min max : Option ℝ) (m : Colourmap) (lo hi : ℝ) (hlo : LowerEnd 0 min lo) (hhi : UpperEnd (differences a b) max hi) (hlt : lo < hi) :
    ∃ j, scompare fileA fileB min max false (some m) = .ok (.jpeg j) ∧ j.width = a.width % 65536 ∧ j.height = a.height % 65536 ∧ ColoursOf (ScaleColour m.table lo hi) (differences a b) j.data := by
  obtain ⟨d, hd⟩ := ((C28_succeeds_iff a b ca cb).1).2 hs
  obtain ⟨k1, k2, k3, _⟩ := C28_pixelwise a b d ca cb hd
  simp only [scompare, ha, hb, Res.bind_ok]
  rw [C28_symmetric, hd]
  rw [← diff_luminances a b d ca cb hd] at hhi ⊢
  obtain ⟨j, h1, h2, h3, h4⟩ := falseColours_linear d k1.ge (by rw [k2]; exact hw) (by rw [k3]; exact hh) min max m lo hi hlo hhi hlt
  exact ⟨j, h1, by rw [h2, k2], by rw [h3, k3], h4⟩

/-- **C102, comparing on a logarithmic scale (partial).** Missing: with no maximum asked for, differences no greater than `10 ^ 0.001`. -/
theorem C102_compare_log_partial (fileA fileB : List UInt8) (a b : ImageBuffer) (ha : ImageBuffer.fromFile fileA = .ok (.image a)) (hb : ImageBuffer.fromFile fileB = .ok (.image b)) (ca : a.Consistent) (cb : b.Consistent)
    (hs : a.width = b.width ∧ a.height = b.height) (hw : a.width % 65536 ≠ 0) (hh : a.height % 65536 ≠ 0) (min max : Option ℝ) (m : Colourmap) (lo hi : ℝ) (hlo : LowerEnd (1 / 1000) min lo) (hhi : UpperEnd (differences a b) max hi) (hlt : lo < hi)
    (hauto : max = none → 1 / 1000 < Real.logb 10 hi) :
    ∃ j, scompare fileA fileB min max true (some m) = .ok (.jpeg j) ∧ j.width = a.width % 65536 ∧ j.height = a.height % 65536 ∧ ColoursOf (LogScaleColour m.table lo hi) (differences a b) j.data := by
  obtain ⟨d, hd⟩ := ((C28_succeeds_iff a b ca cb).1).2 hs
  obtain ⟨k1, k2, k3, _⟩ := C28_pixelwise a b d ca cb hd
  have hn : ∀ p ∈ d.pixels, 0 ≤ p.luminance := fun p hp => differences_nonneg a b _ (by rw [← diff_luminances a b d ca cb hd]; exact List.mem_map_of_mem hp)
  simp only [scompare, ha, hb, Res.bind_ok]
  rw [C28_symmetric, hd]
  rw [← diff_luminances a b d ca cb hd] at hhi ⊢
  obtain ⟨j, h1, h2, h3, h4⟩ := falseColours_log d k1.ge (by rw [k2]; exact hw) (by rw [k3]; exact hh) hn min max m lo hi hlo hhi hlt hauto
  exact ⟨j, h1, by rw [h2, k2], by rw [h3, k3], h4⟩

/-- **C102, identical images.** All differences vanish, and whatever the options every pixel gets the first colour of the map, if the maximum asked for is positive and above the minimum. -/
theorem C102_same_is_first_colour (file : List UInt8) (a : ImageBuffer) (ha : ImageBuffer.fromFile file = .ok (.image a)) (ca : a.Consistent) (hw : a.width % 65536 ≠ 0) (hh : a.height % 65536 ≠ 0) (min : Option ℝ) (hi lo : ℝ) (log : Bool) (m : Colourmap)
    (hlo : LowerEnd (if log then 1 / 1000 else 0) min lo) (hlt : lo < hi) :
    ∃ j c, scompare file file min (some hi) log (some m) = .ok (.jpeg j) ∧ m.table.head? = some c ∧ j.data.length = 3 * a.pixels.length ∧ ∀ i < a.pixels.length, PixelHas j.data i c := by
  have hd : ∀ v ∈ differences a a, v = 0 := by
    intro v hv
    obtain ⟨i, hi, rfl⟩ := List.mem_iff_getElem.1 hv
    simp [differences]
  have hlen : (differences a a).length = a.pixels.length := by simp [differences]
  have hget : ∀ i, i < a.pixels.length → (differences a a)[i]? = some 0 := by
    intro i h
    have h' : i < (differences a a).length := by rw [hlen]; exact h
    rw [List.getElem?_eq_getElem h', hd _ (List.getElem_mem h')]
  obtain ⟨c, hc⟩ : ∃ c, m.table.head? = some c := by
    cases h : m.table with
    | nil => have := (C30_tables m).1; rw [h] at this; simp at this
    | cons c l => exact ⟨c, rfl⟩
  cases log with
  | false =>
    have h0 : 0 ≤ lo := by
      rcases hlo with ⟨_, rfl⟩ | ⟨v, _, ⟨_, rfl⟩ | ⟨h1, rfl⟩⟩
      · simp
      · simp
      · simpa using h1
    obtain ⟨j, h1, _, _, h4, h5⟩ := C102_compare_linear file file a a ha ha ca ca ⟨rfl, rfl⟩ hw hh min (some hi) m lo hi (by simpa using hlo) (Or.inl rfl) hlt
    refine ⟨j, c, h1, hc, by rw [h4, hlen], fun i hi' => ?_⟩
    obtain ⟨c', hc', hp⟩ := h5 i 0 (hget i hi')
    have : c' = c := by
      rcases hc' with ⟨_, h⟩ | ⟨h, _⟩ | ⟨k, x, y, t, hx, hy, t0, t1, e, rfl⟩
      · rw [hc] at h; exact (Option.some.inj h).symm
      · exact absurd h (not_le.2 (lt_of_le_of_lt h0 hlt))
      · have hw : 0 < (hi - lo) / ((m.table.length : ℝ) - 1) := by
          rw [(C30_tables m).1]; exact div_pos (by linarith) (by norm_num)
        have hkt : ((k : ℝ) + t) = 0 := by
          have hk : (0 : ℝ) ≤ k + t := by positivity
          by_contra hne
          have := mul_pos (lt_of_le_of_ne hk (Ne.symm hne)) hw
          linarith
        have hk0 : (k : ℝ) = 0 := by have : (0 : ℝ) ≤ k := by positivity
                                     linarith
        have ht : t = 0 := by linarith
        have hk0' : k = 0 := by exact_mod_cast hk0
        subst hk0' ht
        rw [List.head?_eq_getElem?] at hc
        rw [hc] at hx
        cases hx
        simp
    rw [← this]; exact hp
  | true =>
    obtain ⟨j, h1, _, _, h4, h5⟩ := C102_compare_log_partial file file a a ha ha ca ca ⟨rfl, rfl⟩ hw hh min (some hi) m lo hi (by simpa using hlo) (Or.inl rfl) hlt (by simp)
    refine ⟨j, c, h1, hc, by rw [h4, hlen], fun i hi' => ?_⟩
    obtain ⟨c', hc', hp⟩ := h5 i 0 (hget i hi')
    rcases hc' with ⟨_, h⟩ | ⟨h, _⟩
    · rw [hc] at h; cases h; exact hp
    · exact absurd h (lt_irrefl _)

/-- The two scales differ: on the logarithmic one (from 1 to 10000) luminance 100 is half way, on the linear one it is near the beginning. -/
example (table : List (Rgb ℝ)) (x y : Rgb ℝ) (h0 : table[1]? = some x) (h1 : table[2]? = some y) (hl : table.length = 4) :
    LogScaleColour table 1 10000 100 ⟨(1 - 1 / 2) * x.r + 1 / 2 * y.r, (1 - 1 / 2) * x.g + 1 / 2 * y.g, (1 - 1 / 2) * x.b + 1 / 2 * y.b⟩ := by
  refine Or.inr ⟨by norm_num, Or.inr (Or.inr ⟨1, x, y, 1 / 2, h0, h1, by norm_num, by norm_num, ?_, rfl⟩)⟩
  have e1 : Real.logb 10 100 = 2 := by rw [show (100 : ℝ) = 10 ^ (2 : ℕ) by norm_num, Real.logb_pow, Real.logb_self_eq_one (by norm_num)]; norm_num
  have e2 : Real.logb 10 10000 = 4 := by rw [show (10000 : ℝ) = 10 ^ (4 : ℕ) by norm_num, Real.logb_pow, Real.logb_self_eq_one (by norm_num)]; norm_num
  rw [e1, e2, hl]
  norm_num

/-- The hypotheses are met by files that the programs write, with limits asked for or not: here with no limits asked for. -/
theorem grey_picture : ∃ (file : List UInt8) (im : ImageBuffer) (lo hi : ℝ), ImageBuffer.fromFile file = .ok (.image im) ∧ im.Consistent ∧ im.width % 65536 ≠ 0 ∧ im.height % 65536 ≠ 0 ∧ LowerEnd 0 none lo ∧ UpperEnd (im.pixels.map Spectrum.luminance) none hi ∧ lo < hi := by
  refine ⟨(⟨1, 2, [Spectrum.gray 1, Spectrum.gray 1]⟩ : ImageBuffer).saveHdre, _, 0, (throughRgbe (Spectrum.gray 1)).luminance, C24_hdr_roundtrip ⟨1, 2, [Spectrum.gray 1, Spectrum.gray 1]⟩ (by norm_num) (by norm_num), rfl, by decide, by decide, Or.inl ⟨rfl, rfl⟩,
    Or.inr ⟨rfl, by simp, by simp⟩, ?_⟩
  have k := (storedLevel_through 1 (by norm_num)).2 (by norm_num) (by norm_num)
  have k0 := k _ (Or.inl rfl)
  have k1 := k _ (Or.inr (Or.inl rfl))
  have k2 := k _ (Or.inr (Or.inr rfl))
  generalize throughRgbe (Spectrum.gray 1) = q at k0 k1 k2
  have p0 : 0 < q.c0 := by linarith [k0.2]
  have p1 : 0 < q.c1 := by linarith [k1.2]
  have p2 : 0 < q.c2 := by linarith [k2.2]
  simp only [Spectrum.luminance, Spectrum.radiance, Spectrum.channels, Spectrum.radianceCoefficients, Spectrum.whiteEfficacy]
  simp
  positivity

end Rendering
