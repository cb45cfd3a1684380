import Verif.Model.ProgramsFloat
import Verif.Props.FalseColourFloat
import Verif.Props.FalseColourPrograms

/-!
# C137: `sfalsecolor` and `scompare -m` in double precision, from the files read to the picture written
-/

set_option linter.unusedSectionVars false
namespace Rendering

/-- The real numbers an image of doubles stands for. -/
def ImageBuffer64.reals (im : ImageBuffer64) : ImageBuffer := ⟨im.width, im.height, im.pixels.map Spectrum.reals⟩

/-- The same for the outcome of reading a file. -/
def ImageBuffer64.ReadResult.reals : ImageBuffer64.ReadResult → ImageBuffer.ReadResult
  | .err => .err
  | .image im => .image im.reals

theorem channel_exact (b e : UInt8) (he : e ≠ 0) : ((rgbeChannel64 b e).val : ℝ) = (b.toNat : ℝ) * 2 ^ ((e.toNat : ℤ) - 136) := by
  unfold rgbeChannel64
  rw [if_neg he]
  have h1 : (F64.lit (b.toNat : ℚ)).val = b.toNat := by
    show round64 _ = _
    refine round64_of_isDouble ?_
    have := isDouble_byte b 0
    simpa using this
  have h2 : (F64.lit (b.toNat : ℚ) * ⟨2 ^ ((e.toNat : ℤ) - 136)⟩).val = (b.toNat : ℚ) * 2 ^ ((e.toNat : ℤ) - 136) := by
    show round64 ((F64.lit (b.toNat : ℚ)).val * _) = _
    rw [h1]
    exact round64_of_isDouble (isDouble_byte b _)
  rw [h2]
  push_cast
  rfl

theorem pixel_exact (q : UInt8 × UInt8 × UInt8 × UInt8) : (rgbeToColour64 q).reals = rgbeToColour q.1 q.2.1 q.2.2.1 q.2.2.2 := by
  obtain ⟨r, g, b, e⟩ := q
  unfold rgbeToColour
  by_cases he : e = 0
  · simp [rgbeToColour64, rgbeChannel64, he, Spectrum.reals, Spectrum.black, Spectrum.gray]
  · simp only [he, if_false, rgbeToColour64, Spectrum.reals, channel_exact _ _ he, rustyLdexp, one_mul]
    norm_num

theorem readFrom_exact (fuel : Nat) (content : List UInt8) : (ImageBuffer64.readFrom fuel content).bind (fun r => .ok r.reals) = ImageBuffer.readFrom fuel content := by
  induction fuel generalizing content with
  | zero => rfl
  | succ n ih =>
    unfold ImageBuffer64.readFrom ImageBuffer.readFrom
    cases content.findIdx? (· == 10) with
    | none => rfl
    | some nl =>
      simp only
      cases ImageBuffer.headerLine (content.take nl) with
      | panic => rfl
      | diverge => rfl
      | ok line =>
        cases line with
        | next => exact ih _
        | err => rfl
        | size height width =>
          simp only [Res.bind_ok, ImageBuffer64.ReadResult.reals, ImageBuffer64.reals, List.map_map]
          congr 5
          funext q
          exact pixel_exact q

/-- **C137.** Reading a picture in double precision loses nothing: the outcome is that of exact arithmetic, for every content of the file. -/
theorem C137_read (file : List UInt8) : (ImageBuffer64.fromFile file).bind (fun r => .ok r.reals) = ImageBuffer.fromFile file := readFrom_exact _ _

theorem read64 {file : List UInt8} {im : ImageBuffer} (h : ImageBuffer.fromFile file = .ok (.image im)) : ∃ im64, ImageBuffer64.fromFile file = .ok (.image im64) ∧ im64.reals = im := by
  rw [← C137_read] at h
  cases hr : ImageBuffer64.fromFile file with
  | panic => rw [hr] at h; cases h
  | diverge => rw [hr] at h; cases h
  | ok r =>
    rw [hr, Res.bind_ok, Res.ok.injEq] at h
    cases r with
    | err => cases h
    | image im64 =>
      simp only [ImageBuffer64.ReadResult.reals, ImageBuffer.ReadResult.image.injEq] at h
      exact ⟨im64, rfl, h⟩

theorem notNegative_of_reals {p : Spectrum F64} (h : 0 ≤ p.reals.c0 ∧ 0 ≤ p.reals.c1 ∧ 0 ≤ p.reals.c2) : NotNegative p := by
  obtain ⟨a, b, c⟩ := h
  simp only [Spectrum.reals] at a b c
  exact ⟨by exact_mod_cast a, by exact_mod_cast b, by exact_mod_cast c⟩

theorem read_notNegative {file : List UInt8} {im64 : ImageBuffer64} (h : ImageBuffer.fromFile file = .ok (.image im64.reals)) : ∀ p ∈ im64.pixels, NotNegative p := fun p hp =>
  notNegative_of_reals (readFrom_nonneg _ _ _ h p.reals (List.mem_map_of_mem hp))

theorem read64_err {file : List UInt8} (h : ImageBuffer.fromFile file = .ok .err) : ImageBuffer64.fromFile file = .ok .err := by
  rw [← C137_read] at h
  cases hr : ImageBuffer64.fromFile file with
  | panic => rw [hr] at h; cases h
  | diverge => rw [hr] at h; cases h
  | ok r =>
    rw [hr, Res.bind_ok] at h
    cases r with
    | err => rfl
    | image im => simp [ImageBuffer64.ReadResult.reals] at h

/-- **C137, unreadable files.** A file whose header cannot be read is an error of either program, and so are two images of different sizes; the programs do not panic and write nothing. -/
theorem C137_fails (min max : Option F64) (m : Colourmap) : (∀ file, ImageBuffer.fromFile file = .ok .err → sfalsecolor64 file min max m = .ok .failed) ∧
    (∀ fileA fileB, ImageBuffer.fromFile fileA = .ok .err → scompare64 fileA fileB min max m = .ok .failed) ∧
    (∀ fileA fileB a, ImageBuffer.fromFile fileA = .ok (.image a) → ImageBuffer.fromFile fileB = .ok .err → scompare64 fileA fileB min max m = .ok .failed) ∧
    ∀ fileA fileB a b, ImageBuffer.fromFile fileA = .ok (.image a) → ImageBuffer.fromFile fileB = .ok (.image b) → ¬ (a.width = b.width ∧ a.height = b.height) → scompare64 fileA fileB min max m = .ok .failed := by
  refine ⟨fun file h => ?_, fun fileA fileB h => ?_, fun fileA fileB a ha hb => ?_, fun fileA fileB a b ha hb hs => ?_⟩
  · simp [sfalsecolor64, read64_err h]
  · simp [scompare64, read64_err h]
  · obtain ⟨a64, ha64, rfl⟩ := read64 ha
    simp [scompare64, ha64, read64_err hb]
  · obtain ⟨a64, ha64, rfl⟩ := read64 ha
    obtain ⟨b64, hb64, rfl⟩ := read64 hb
    simp only [ImageBuffer64.reals] at hs
    have hd : b64.diff a64 = .ok none := by
      unfold ImageBuffer64.diff
      rw [if_pos]
      intro e
      simp only [Prod.mk.injEq] at e
      exact hs ⟨e.1.symm, e.2.symm⟩
    simp [scompare64, ha64, hb64, hd]

/-- C137: an empty file cannot be read. -/
example : ImageBuffer.fromFile [] = .ok .err := rfl

/-- **C137, `sfalsecolor`.** Without a positive minimum, a picture is written in double precision for every complete image that can be read, with no side a multiple of 65536. -/
theorem C137_writes (file : List UInt8) (im : ImageBuffer) (h : ImageBuffer.fromFile file = .ok (.image im)) (hc : im.width * im.height ≤ im.pixels.length) (hw : im.width % 65536 ≠ 0) (hh : im.height % 65536 ≠ 0) (min max : Option F64)
    (hmin : ∀ v, min = some v → v.val ≤ 0) (hmax : ∀ v, max = some v → IsDouble v.val) (m : Colourmap) : ∃ j, sfalsecolor64 file min max m = .ok (.jpeg j) := by
  obtain ⟨im64, h64, rfl⟩ := read64 h
  obtain ⟨j, hj⟩ := C136_written im64.width im64.height im64.pixels (by simpa [ImageBuffer64.reals] using hc) hw hh min max hmin hmax m
  exact ⟨j, by simp [sfalsecolor64, h64, hj]⟩

/-- **C137, `sfalsecolor`.** Every picture that is written has the size of the image (modulo 65536), and its pixels have, but for a millionth in each channel, the colours of the exact luminances of the image on the scale between the exact limits, if the lower end is not more
than 1000 times the length of the scale. -/
theorem C137_colours (file : List UInt8) (im : ImageBuffer) (h : ImageBuffer.fromFile file = .ok (.image im)) (min max : Option F64) (m : Colourmap) (lo hi : ℝ) (hlo : LowerEnd 0 (min.map fun v => (v.val : ℝ)) lo)
    (hhi : UpperEnd (im.pixels.map Spectrum.luminance) (max.map fun v => (v.val : ℝ)) hi) (hlt : lo < hi) (hlen : lo ≤ 1000 * (hi - lo)) (j : JpegInput) (hj : sfalsecolor64 file min max m = .ok (.jpeg j)) :
    j.width = im.width % 65536 ∧ j.height = im.height % 65536 ∧ ColoursOf (NearlyScaleColour m.table lo hi) (im.pixels.map Spectrum.luminance) j.data := by
  obtain ⟨im64, h64, rfl⟩ := read64 h
  have hj' : saveFalsecolour64 im64.width im64.height im64.pixels min max m = .ok j := by
    unfold sfalsecolor64 at hj
    rw [h64, Res.bind_ok] at hj
    simp only at hj
    cases hs : saveFalsecolour64 im64.width im64.height im64.pixels min max m with
    | panic => rw [hs] at hj; cases hj
    | diverge => rw [hs] at hj; cases hj
    | ok k => rw [hs] at hj; cases hj; rfl
  have hl : im64.reals.pixels.map Spectrum.luminance = im64.pixels.map fun p => p.reals.luminance := by
    simp [ImageBuffer64.reals, List.map_map, Function.comp_def]
  rw [hl] at hhi ⊢
  exact C136_colours im64.width im64.height im64.pixels (read_notNegative h) min max m lo hi hlo hhi hlt hlen j hj'

/-! ### `scompare -m` -/

theorem radiance_nonneg (p : Spectrum F64) (h : NotNegative p) : 0 ≤ p.reals.radiance := by
  rw [radiance_reals]
  obtain ⟨h0, h1, h2⟩ := h
  have g0 : (0 : ℝ) ≤ p.c0.val := by exact_mod_cast h0
  have g1 : (0 : ℝ) ≤ p.c1.val := by exact_mod_cast h1
  have g2 : (0 : ℝ) ≤ p.c2.val := by exact_mod_cast h2
  positivity

/-- The error of a difference. -/
theorem diffPixel_near (p q : Spectrum F64) (hp : NotNegative p) (hq : NotNegative q) :
    |(ImageBuffer64.diffPixel p q).reals.luminance - 179 * (|p.reals.radiance - q.reals.radiance|)| ≤ 179 * (p.reals.radiance + q.reals.radiance) / 2 ^ 49 ∧ NotNegative (ImageBuffer64.diffPixel p q) := by
  have a := C136_radiance p hp.1 hp.2.1 hp.2.2
  have b := C136_radiance q hq.1 hq.2.1 hq.2.2
  have s := sub64_error (radiance64 p) (radiance64 q)
  have P0 := radiance_nonneg p hp
  have Q0 := radiance_nonneg q hq
  obtain ⟨a1, a2⟩ := abs_le.1 a
  obtain ⟨b1, b2⟩ := abs_le.1 b
  have t : |((radiance64 p).val : ℝ) - (radiance64 q).val| ≤ 2 * (p.reals.radiance + q.reals.radiance) := by rw [abs_le]; constructor <;> linarith
  have s' : |((radiance64 p - radiance64 q).val : ℝ) - ((radiance64 p).val - (radiance64 q).val)| ≤ 2 * (p.reals.radiance + q.reals.radiance) / 2 ^ 53 := s.trans (by gcongr)
  obtain ⟨s1, s2⟩ := abs_le.1 s'
  constructor
  · have hl : (ImageBuffer64.diffPixel p q).reals.luminance = 179 * |((radiance64 p - radiance64 q).val : ℝ)| := by
      rw [luminance_reals]
      simp only [ImageBuffer64.diffPixel]
      push_cast
      ring
    rw [hl, ← mul_sub, abs_mul, abs_of_pos (by norm_num : (0 : ℝ) < 179), mul_div_assoc]
    gcongr
    refine (abs_abs_sub_abs_le _ _).trans ?_
    rw [abs_le]
    constructor <;> linarith
  · exact ⟨abs_nonneg _, abs_nonneg _, abs_nonneg _⟩

theorem zipWith_mem {α β γ : Type} (f : α → β → γ) {l : List α} {l' : List β} {c : γ} (h : c ∈ List.zipWith f l l') : ∃ a ∈ l, ∃ b ∈ l', c = f a b := by
  obtain ⟨i, hi, rfl⟩ := List.mem_iff_getElem.1 h
  rw [List.getElem_zipWith]
  exact ⟨_, List.getElem_mem _, _, List.getElem_mem _, rfl⟩

/-- Small errors of the value and of the upper end, relative to the length of the scale, change the colour little. -/
theorem colour_shift_abs {m : Colourmap} {lo hi hi' x x' : ℝ} (h0 : 0 ≤ lo) (hlt : lo < hi) (hlen : lo ≤ 1000 * (hi - lo)) (hx0 : 0 ≤ x) (hx1 : x ≤ 2000 * (hi - lo)) (hx : |x' - x| ≤ (hi - lo) / 2 ^ 37) (hh : |hi' - hi| ≤ (hi - lo) / 2 ^ 37) {c : Rgb ℝ}
    (hc : ScaleColour m.table lo hi' x' c) : ∃ c', ScaleColour m.table lo hi x c' ∧ ChannelsWithin (1 / 2 ^ 22) c c' := by
  obtain ⟨a1, a2⟩ := abs_le.1 hx
  obtain ⟨b1, b2⟩ := abs_le.1 hh
  have hl2 : 2 ≤ m.table.length := by rw [(C30_tables m).1]; norm_num
  obtain ⟨c', hc'⟩ := mapLinear_total x lo hi m.table hl2
  have hs := mapLinear_scale hl2 hlt hc'
  refine ⟨c', hs, ?_⟩
  set D := hi - lo with hD
  have hDpos : 0 < D := by linarith
  have hlt' : lo < hi' := by linarith
  set r := (hi - lo) / (hi' - lo) with hr
  have hd' : 0 < hi' - lo := by linarith
  have r1 : |r - 1| ≤ 1 / 2 ^ 36 := by
    have : r - 1 = (hi - hi') / (hi' - lo) := by rw [hr]; field_simp; ring
    rw [this, abs_div, abs_of_pos hd', div_le_iff₀ hd', abs_le]
    constructor <;> linarith
  have x1 : |x' - lo| ≤ 2001 * D := by rw [abs_le]; constructor <;> linarith
  have hc2 := scale_affine hlt' hlt hc
  have close := C135_close m hlt hc2 hs
  have dist : |lo + (x' - lo) * r - x| ≤ D / 2 ^ 37 + D * 2001 / 2 ^ 36 := by
    have e : lo + (x' - lo) * r - x = (x' - lo) * (r - 1) + (x' - x) := by ring
    rw [e]
    have t1 : |(x' - lo) * (r - 1)| ≤ 2001 * D * (1 / 2 ^ 36) := by rw [abs_mul]; gcongr
    have t2 := abs_add_le ((x' - lo) * (r - 1)) (x' - x)
    linarith
  have d2 : 6 * (|lo + (x' - lo) * r - x| / D) ≤ 1 / 2 ^ 22 := by
    have : |lo + (x' - lo) * r - x| / D ≤ 1 / 2 ^ 37 + 2001 / 2 ^ 36 := by
      rw [div_le_iff₀ hDpos]; linarith
    linarith
  obtain ⟨k1, k2, k3⟩ := close
  exact ⟨k1.trans d2, k2.trans d2, k3.trans d2⟩

theorem exists_max (l : List ℝ) (h : l ≠ []) : ∃ x ∈ l, ∀ y ∈ l, y ≤ x := by
  induction l with
  | nil => exact absurd rfl h
  | cons a l ih =>
    by_cases hl : l = []
    · subst hl
      exact ⟨a, by simp, by simp⟩
    · obtain ⟨x, hx, hy⟩ := ih hl
      rcases le_total a x with c | c
      · exact ⟨x, List.mem_cons_of_mem _ hx, fun y hy' => by
          rcases List.mem_cons.1 hy' with rfl | hy'
          · exact c
          · exact hy y hy'⟩
      · exact ⟨a, List.mem_cons_self .., fun y hy' => by
          rcases List.mem_cons.1 hy' with rfl | hy'
          · exact le_rfl
          · exact (hy y hy').trans c⟩

theorem scompare64_jpeg {fileA fileB : List UInt8} {a b : ImageBuffer64} (ha : ImageBuffer64.fromFile fileA = .ok (.image a)) (hb : ImageBuffer64.fromFile fileB = .ok (.image b)) {min max : Option F64} {m : Colourmap} {j : JpegInput}
    (h : scompare64 fileA fileB min max m = .ok (.jpeg j)) : b.width = a.width ∧ b.height = a.height ∧ saveFalsecolour64 b.width b.height ((b.pixels.zip a.pixels).map fun (p, q) => ImageBuffer64.diffPixel p q) min max m = .ok j := by
  unfold scompare64 at h
  rw [ha, Res.bind_ok] at h
  simp only at h
  rw [hb, Res.bind_ok] at h
  simp only at h
  unfold ImageBuffer64.diff at h
  by_cases hs : (b.width, b.height) ≠ (a.width, a.height)
  · rw [if_pos hs] at h
    cases h
  · rw [if_neg hs] at h
    push Not at hs
    simp only [Prod.mk.injEq] at hs
    refine ⟨hs.1, hs.2, ?_⟩
    simp only at h
    split_ifs at h
    · cases h
    · rw [Res.bind_ok] at h
      simp only at h
      cases hk : saveFalsecolour64 b.width b.height ((b.pixels.zip a.pixels).map fun (p, q) => ImageBuffer64.diffPixel p q) min max m with
      | panic => rw [hk] at h; cases h
      | diverge => rw [hk] at h; cases h
      | ok k => rw [hk] at h; cases h; rfl

/-- **C137, `scompare -m` (partial).** Every picture that is written has, but for two millionths in each channel, the colours of the exact differences on the scale between the exact limits, if no luminance of the two images, and not the lower end, is more than 500 times the length of the scale. Missing: scales that are
tiny compared with the luminances, for which the code shows its rounding errors (`C137_violation_noise`). -/
theorem C137_compare_partial (fileA fileB : List UInt8) (a b : ImageBuffer) (ha : ImageBuffer.fromFile fileA = .ok (.image a)) (hb : ImageBuffer.fromFile fileB = .ok (.image b)) (min max : Option F64) (m : Colourmap) (lo hi : ℝ)
    (hlo : LowerEnd 0 (min.map fun v => (v.val : ℝ)) lo) (hhi : UpperEnd (differences b a) (max.map fun v => (v.val : ℝ)) hi) (hlt : lo < hi) (hlen : lo ≤ 500 * (hi - lo))
    (hla : ∀ p ∈ a.pixels, p.luminance ≤ 500 * (hi - lo)) (hlb : ∀ p ∈ b.pixels, p.luminance ≤ 500 * (hi - lo)) (j : JpegInput) (hj : scompare64 fileA fileB min max m = .ok (.jpeg j)) :
    j.width = b.width % 65536 ∧ j.height = b.height % 65536 ∧ ColoursOf (RoughlyScaleColour m.table lo hi) (differences b a) j.data := by
  obtain ⟨a64, ha64, rfl⟩ := read64 ha
  obtain ⟨b64, hb64, rfl⟩ := read64 hb
  obtain ⟨-, -, hk⟩ := scompare64_jpeg ha64 hb64 hj
  have na := read_notNegative ha
  have nb := read_notNegative hb
  have h0 : 0 ≤ lo := (linearMin64_end hlo).2
  have lum : ∀ p : Spectrum F64, p.reals.luminance = 179 * p.reals.radiance := fun p => by rw [luminance_reals, radiance_reals]
  set pix := (b64.pixels.zip a64.pixels).map fun (p, q) => ImageBuffer64.diffPixel p q with hpix
  have hD : 0 < hi - lo := by linarith
  -- each computed difference is nearly the exact one
  have hlen2 : pix.length = (differences b64.reals a64.reals).length := by simp [hpix, differences, ImageBuffer64.reals]
  have near : ∀ (i : Nat) (d : Spectrum F64) (v : ℝ), pix[i]? = some d → (differences b64.reals a64.reals)[i]? = some v → |d.reals.luminance - v| ≤ (hi - lo) / 2 ^ 39 ∧ NotNegative d ∧ 0 ≤ v ∧ v ≤ 500 * (hi - lo) := by
    intro i d v hd hv
    simp only [hpix, List.getElem?_map, Option.map_eq_some_iff] at hd
    obtain ⟨⟨p, q⟩, hpq, rfl⟩ := hd
    rw [List.getElem?_zip_eq_some] at hpq
    obtain ⟨hp, hq⟩ := hpq
    simp only [differences, ImageBuffer64.reals, List.getElem?_zipWith, List.getElem?_map] at hv
    simp only at hp hq
    rw [hp, hq] at hv
    simp only [Option.map_some, Option.some.injEq] at hv
    subst hv
    have hpm := List.mem_of_getElem? hp
    have hqm := List.mem_of_getElem? hq
    obtain ⟨e, nn⟩ := diffPixel_near p q (nb p hpm) (na q hqm)
    have l1 := hlb p.reals (List.mem_map_of_mem hpm)
    have l2 := hla q.reals (List.mem_map_of_mem hqm)
    rw [lum] at l1 l2
    have P0 := radiance_nonneg p (nb p hpm)
    have Q0 := radiance_nonneg q (na q hqm)
    refine ⟨?_, nn, by positivity, ?_⟩
    · refine e.trans ?_
      linarith
    · have : |p.reals.radiance - q.reals.radiance| ≤ Max.max p.reals.radiance q.reals.radiance := by

        rw [abs_le]
        rcases le_total p.reals.radiance q.reals.radiance with c | c
        · rw [max_eq_right c]; constructor <;> linarith
        · rw [max_eq_left c]; constructor <;> linarith

      rcases le_total p.reals.radiance q.reals.radiance with c | c
      · rw [max_eq_right c] at this; linarith
      · rw [max_eq_left c] at this; linarith
  have partner : ∀ (i : Nat) (d : Spectrum F64), pix[i]? = some d → ∃ v, (differences b64.reals a64.reals)[i]? = some v := by
    intro i d hd
    have := (List.getElem?_eq_some_iff.1 hd).1
    rw [hlen2] at this
    exact ⟨_, List.getElem?_eq_getElem this⟩
  have partner' : ∀ (i : Nat) (v : ℝ), (differences b64.reals a64.reals)[i]? = some v → ∃ d, pix[i]? = some d := by
    intro i v hv
    have := (List.getElem?_eq_some_iff.1 hv).1
    rw [← hlen2] at this
    exact ⟨_, List.getElem?_eq_getElem this⟩
  have npix : ∀ d ∈ pix, NotNegative d := by
    intro d hd
    obtain ⟨i, hi⟩ := List.mem_iff_getElem?.1 hd
    obtain ⟨v, hv⟩ := partner i d hi
    exact (near i d v hi hv).2.1
  -- the upper end
  obtain ⟨hi', hhi', hclose⟩ : ∃ hi', UpperEnd (pix.map fun p => p.reals.luminance) (max.map fun v => (v.val : ℝ)) hi' ∧ |hi' - hi| ≤ (hi - lo) / 2 ^ 39 := by
    rcases hhi with h | ⟨h, hm, hge⟩
    · exact ⟨hi, Or.inl h, by rw [sub_self, abs_zero]; positivity⟩
    · obtain ⟨i, hii⟩ := List.mem_iff_getElem?.1 hm
      obtain ⟨d, hd⟩ := partner' i hi hii
      have hne : (pix.map fun p => p.reals.luminance) ≠ [] := List.ne_nil_of_mem (List.mem_map_of_mem (List.mem_of_getElem? hd))
      obtain ⟨x, hx, hxm⟩ := exists_max _ hne
      refine ⟨x, Or.inr ⟨h, hx, hxm⟩, ?_⟩
      obtain ⟨e, he, rfl⟩ := List.mem_map.1 hx
      obtain ⟨k, hkk⟩ := List.mem_iff_getElem?.1 he
      obtain ⟨v, hv⟩ := partner k e hkk
      have n1 := abs_le.1 (near k e v hkk hv).1
      have n2 := abs_le.1 (near i d hi hd hii).1
      have g1 := hge v (List.mem_of_getElem? hv)
      have g2 := hxm _ (List.mem_map_of_mem (f := fun p : Spectrum F64 => p.reals.luminance) (List.mem_of_getElem? hd))
      rw [abs_le]
      constructor <;> linarith [n1.1, n1.2, n2.1, n2.2]
  obtain ⟨c1, c2⟩ := abs_le.1 hclose
  obtain ⟨w1, w2, w3, w4⟩ := C136_colours b64.width b64.height pix npix min max m lo hi' hlo hhi' (by linarith) (by linarith) j hk
  refine ⟨w1, w2, ?_, ?_⟩
  · rw [w3, List.length_map, hlen2]
  · intro i v hv
    obtain ⟨d, hd⟩ := partner' i v hv
    obtain ⟨n1, -, n3, n4⟩ := near i d v hd hv
    obtain ⟨c, ⟨c', hs, hn⟩, hp⟩ := w4 i d.reals.luminance (by rw [List.getElem?_map, hd]; rfl)
    obtain ⟨c0, hs0, hn0⟩ := colour_shift_abs (x := v) (x' := d.reals.luminance) h0 hlt (by linarith) n3 (by linarith) (n1.trans (by linarith)) (hclose.trans (by linarith)) hs
    refine ⟨c, ⟨c0, hs0, ?_, ?_, ?_⟩, hp⟩
    · exact (abs_sub_le _ _ _).trans ((add_le_add hn.1 hn0.1).trans (by norm_num))
    · exact (abs_sub_le _ _ _).trans ((add_le_add hn.2.1 hn0.2.1).trans (by norm_num))
    · exact (abs_sub_le _ _ _).trans ((add_le_add hn.2.2 hn0.2.2).trans (by norm_num))


theorem saves_jpeg {r : Res JpegInput} {j : JpegInput} (h : r = .ok j) : (r.bind fun j => Res.ok (Written.jpeg j)) = .ok (.jpeg j) := by rw [h]; rfl

/-- **C137, `scompare -m`.** Without a positive minimum, a picture is written for every two complete images of the same size that can be read, with no side a multiple of 65536. -/
theorem C137_compare_writes (fileA fileB : List UInt8) (a b : ImageBuffer) (ha : ImageBuffer.fromFile fileA = .ok (.image a)) (hb : ImageBuffer.fromFile fileB = .ok (.image b)) (ca : a.Consistent) (cb : b.Consistent) (hs : a.width = b.width ∧ a.height = b.height)
    (hw : a.width % 65536 ≠ 0) (hh : a.height % 65536 ≠ 0) (min max : Option F64) (hmin : ∀ v, min = some v → v.val ≤ 0) (hmax : ∀ v, max = some v → IsDouble v.val) (m : Colourmap) : ∃ j, scompare64 fileA fileB min max m = .ok (.jpeg j) := by
  obtain ⟨a64, ha64, rfl⟩ := read64 ha
  obtain ⟨b64, hb64, rfl⟩ := read64 hb
  obtain ⟨s1, s2⟩ := hs
  simp only [ImageBuffer64.reals] at s1 s2 hw hh
  have la : a64.pixels.length = a64.width * a64.height := by simpa [ImageBuffer64.reals, ImageBuffer.Consistent] using ca
  have lb : b64.pixels.length = b64.width * b64.height := by simpa [ImageBuffer64.reals, ImageBuffer.Consistent] using cb
  have lp : ((b64.pixels.zip a64.pixels).map fun (p, q) => ImageBuffer64.diffPixel p q).length = b64.width * b64.height := by
    rw [List.length_map, List.length_zip, la, lb, s1, s2, Nat.min_self]
  obtain ⟨j, hj⟩ := C136_written b64.width b64.height _ lp.ge (by rw [← s1]; exact hw) (by rw [← s2]; exact hh) min max hmin hmax m
  refine ⟨j, ?_⟩
  unfold scompare64
  rw [ha64, Res.bind_ok]
  simp only
  rw [hb64, Res.bind_ok]
  simp only
  unfold ImageBuffer64.diff
  rw [if_neg (by rw [s1, s2]; simp)]
  simp only
  rw [if_neg (by rw [lp]; simp), Res.bind_ok]
  exact saves_jpeg hj

theorem diffPixel_self (p : Spectrum F64) : ImageBuffer64.diffPixel p p = ⟨⟨0⟩, ⟨0⟩, ⟨0⟩⟩ := by
  have h : (radiance64 p - radiance64 p).val = 0 := by
    show round64 ((radiance64 p).val - (radiance64 p).val) = 0
    rw [sub_self]
    rfl
  unfold ImageBuffer64.diffPixel
  rw [h, abs_zero]

/-- **C137, identical images.** Comparing an image with itself, whatever the limits, a picture is written in which every pixel has the first colour of the map. -/
theorem C137_same (file : List UInt8) (a : ImageBuffer) (h : ImageBuffer.fromFile file = .ok (.image a)) (ca : a.Consistent) (hw : a.width % 65536 ≠ 0) (hh : a.height % 65536 ≠ 0) (min max : Option F64) (m : Colourmap) :
    ∃ j c0, scompare64 file file min max m = .ok (.jpeg j) ∧ m.table.head? = some c0 ∧ j.data.length = 3 * a.pixels.length ∧ ∀ i < a.pixels.length, ∃ c, ChannelsWithin (1 / 1000000) c c0 ∧ PixelHas j.data i c := by
  obtain ⟨a64, ha64, rfl⟩ := read64 h
  simp only [ImageBuffer64.reals] at hw hh
  have la : a64.pixels.length = a64.width * a64.height := by simpa [ImageBuffer64.reals, ImageBuffer.Consistent] using ca
  set pix := (a64.pixels.zip a64.pixels).map fun (p, q) => ImageBuffer64.diffPixel p q with hpix
  have lp : pix.length = a64.pixels.length := by simp [hpix]
  have hz : ∀ d ∈ pix, luminance64 d = ⟨0⟩ := by
    intro d hd
    obtain ⟨i, hi⟩ := List.mem_iff_getElem?.1 hd
    simp only [hpix, List.getElem?_map, Option.map_eq_some_iff] at hi
    obtain ⟨⟨p, q⟩, hpq, rfl⟩ := hi
    rw [List.getElem?_zip_eq_some] at hpq
    obtain ⟨hp, hq⟩ := hpq
    simp only at hp hq
    rw [hp, Option.some.injEq] at hq
    subst hq
    simp only [diffPixel_self]
    decide +kernel
  obtain ⟨e, he⟩ : ∃ e, m.table64[0]? = some e := ⟨_, List.getElem?_eq_getElem (by rw [table64_len]; norm_num)⟩
  have hlo0 : (⟨0⟩ : F64) ≤ linearMin64 min := by
    show (0 : ℚ) ≤ (linearMin64 min).val
    unfold linearMin64
    cases min with
    | none => exact le_rfl
    | some v =>
      simp only
      split_ifs with hv
      · exact le_rfl
      · exact not_lt.1 hv
  have hcol : ∀ x ∈ pix.map luminance64, mapLinearColour x (linearMin64 min) (linearMax64 (pix.map luminance64) max) m.table64 = .ok e := by
    intro x hx
    obtain ⟨d, hd, rfl⟩ := List.mem_map.1 hx
    rw [hz d hd]
    unfold mapLinearColour
    rw [if_pos hlo0, List.head?_eq_getElem?, he]
    rfl
  obtain ⟨d, hd⟩ := pushColours64_ok (fun x => mapLinearColour x (linearMin64 min) (linearMax64 (pix.map luminance64) max) m.table64) (pix.map luminance64) (fun x hx => ⟨e, hcol x hx⟩)
  obtain ⟨l1, l2⟩ := pushColours64_spec _ _ d hd
  have lp2 : pix.length = a64.width * a64.height := by rw [lp, la]
  have hsave : saveFalsecolour64 a64.width a64.height pix min max m = .ok ⟨d, asU16 a64.width, asU16 a64.height⟩ := by
    unfold saveFalsecolour64
    simp only
    rw [hd, Res.bind_ok, encode64_ok (by simpa using l1) lp2.ge hw hh]
  obtain ⟨p0, hp0, n1, n2, n3, g1, g2, g3⟩ := table64_entry he
  refine ⟨⟨d, asU16 a64.width, asU16 a64.height⟩, p0, ?_, (List.head?_eq_getElem? (l := m.table)).trans hp0, ?_, ?_⟩
  · unfold scompare64
    rw [ha64, Res.bind_ok]
    simp only
    rw [Res.bind_ok]
    simp only
    unfold ImageBuffer64.diff
    rw [if_neg (by simp)]
    simp only
    rw [if_neg (by rw [← hpix, lp2]; simp), Res.bind_ok]
    exact saves_jpeg hsave
  · simp only [ImageBuffer64.reals, List.length_map]
    rw [l1, List.length_map, lp]
  · intro i hi
    simp only [ImageBuffer64.reals, List.length_map] at hi
    obtain ⟨x, hx⟩ : ∃ x, (pix.map luminance64)[i]? = some x := ⟨_, List.getElem?_eq_getElem (by rw [List.length_map, lp]; exact hi)⟩
    obtain ⟨c, hc, b1, b2, b3⟩ := l2 i x hx
    rw [hcol x (List.mem_of_getElem? hx), Res.ok.injEq] at hc
    subst hc
    have w : (1 : ℝ) / 2 ^ 53 ≤ 1 / 2 ^ 21 := by norm_num
    obtain ⟨cr, cr1, cr2⟩ := byte64_spec e.r p0.r (n1.trans w) g1
    obtain ⟨cg, cg1, cg2⟩ := byte64_spec e.g p0.g (n2.trans w) g2
    obtain ⟨cb, cb1, cb2⟩ := byte64_spec e.b p0.b (n3.trans w) g3
    have fin : (1 : ℝ) / 2 ^ 21 + 1 / 2 ^ 50 ≤ 1 / 1000000 := by norm_num
    exact ⟨⟨cr, cg, cb⟩, ⟨cr1.trans fin, cg1.trans fin, cb1.trans fin⟩, _, _, _, b1, b2, b3, cr2, cg2, cb2⟩

/-- A file of two pixels. -/
def twoPixelFile (r g b : UInt8) : List UInt8 := bytes "#?RGBE\nFORMAT=32-bit_rle_rgbe\n\n-Y 1 +X 2\n" ++ [r, g, b, 136, 1, 1, 1, 136]

theorem twoPixelFile_read (r g b : UInt8) (h : (r, g, b) = (0, 1, 9) ∨ (r, g, b) = (4, 0, 3)) :
    ImageBuffer64.fromFile (twoPixelFile r g b) = .ok (.image ⟨2, 1, [⟨⟨r.toNat⟩, ⟨g.toNat⟩, ⟨b.toNat⟩⟩, ⟨⟨1⟩, ⟨1⟩, ⟨1⟩⟩]⟩) := by
  rcases h with h | h <;> cases h <;> decide +kernel

/-- **C137, violation.** Two pictures of two pixels, the second pixel the same in both, the first of exactly the same radiance (0.67 + 9 · 0.065 = 4 · 0.265 + 3 · 0.065), so that there is no difference at all; in the comparison the first pixel has the last, brightest colour of the scale, as the scale, with
no maximum asked for, ends at the largest difference, which is a rounding error. -/
theorem C137_violation_noise : ∃ (fileA fileB : List UInt8) (a b : ImageBuffer), ImageBuffer.fromFile fileA = .ok (.image a) ∧ ImageBuffer.fromFile fileB = .ok (.image b) ∧ a.Consistent ∧ b.Consistent ∧ differences b a = [0, 0] ∧
    scompare64 fileA fileB none none .viridis = .ok (.jpeg ⟨[254, 232, 37, 68, 1, 84], 2, 1⟩) := by
  have r1 := C137_read (twoPixelFile 0 1 9)
  have r2 := C137_read (twoPixelFile 4 0 3)
  rw [twoPixelFile_read 0 1 9 (Or.inl rfl), Res.bind_ok] at r1
  rw [twoPixelFile_read 4 0 3 (Or.inr rfl), Res.bind_ok] at r2
  refine ⟨twoPixelFile 0 1 9, twoPixelFile 4 0 3, _, _, r1.symm, r2.symm, rfl, rfl, ?_, ?_⟩
  · simp only [differences, ImageBuffer64.reals, List.map_cons, List.map_nil, List.zipWith_cons_cons, List.zipWith_nil_left, radiance_reals]
    have e0 : (0 : UInt8).toNat = 0 := rfl
    have e1 : (1 : UInt8).toNat = 1 := rfl
    have e9 : (9 : UInt8).toNat = 9 := rfl
    have e4 : (4 : UInt8).toNat = 4 := rfl
    have e3 : (3 : UInt8).toNat = 3 := rfl
    rw [e0, e1, e9, e4, e3]
    norm_num
  · unfold scompare64
    rw [twoPixelFile_read 0 1 9 (Or.inl rfl), Res.bind_ok]
    simp only
    rw [twoPixelFile_read 4 0 3 (Or.inr rfl), Res.bind_ok]
    simp only
    have hd : ImageBuffer64.diff ⟨2, 1, [⟨⟨(4 : UInt8).toNat⟩, ⟨(0 : UInt8).toNat⟩, ⟨(3 : UInt8).toNat⟩⟩, ⟨⟨1⟩, ⟨1⟩, ⟨1⟩⟩]⟩ ⟨2, 1, [⟨⟨(0 : UInt8).toNat⟩, ⟨(1 : UInt8).toNat⟩, ⟨(9 : UInt8).toNat⟩⟩, ⟨⟨1⟩, ⟨1⟩, ⟨1⟩⟩]⟩ =
        .ok (some ⟨2, 1, [grey64 (1 / 2 ^ 52), grey64 0]⟩) := by decide +kernel
    rw [hd, Res.bind_ok]
    simp only
    have hp : pushColours64 (fun x => mapLinearColour x (linearMin64 none) (linearMax64 ([grey64 (1 / 2 ^ 52), grey64 0].map luminance64) none) Colourmap.viridis.table64) ([grey64 (1 / 2 ^ 52), grey64 0].map luminance64) = .ok [254, 232, 37, 68, 1, 84] := by decide +kernel
    unfold saveFalsecolour64
    simp only
    rw [hp]
    rfl

/-! ### Concrete cases of the theorems above -/

theorem twoPixelFile_image : ∃ a, ImageBuffer.fromFile (twoPixelFile 0 1 9) = .ok (.image a) ∧ a.Consistent ∧ a.width = 2 ∧ a.height = 1 ∧ a.pixels.map Spectrum.luminance = [179 * (67 / 100 + 9 * (65 / 1000)), 179] := by
  have r1 := C137_read (twoPixelFile 0 1 9)
  rw [twoPixelFile_read 0 1 9 (Or.inl rfl), Res.bind_ok] at r1
  refine ⟨_, r1.symm, rfl, rfl, rfl, ?_⟩
  simp only [ImageBuffer64.reals, List.map_cons, List.map_nil, luminance_reals]
  have e0 : (0 : UInt8).toNat = 0 := rfl
  have e1 : (1 : UInt8).toNat = 1 := rfl
  have e9 : (9 : UInt8).toNat = 9 := rfl
  rw [e0, e1, e9]
  norm_num

theorem black_image : ∃ a, ImageBuffer.fromFile (bytes "#?RGBE\nFORMAT=32-bit_rle_rgbe\n\n-Y 1 +X 2\n" ++ [0, 0, 0, 0, 0, 0, 0, 0]) = .ok (.image a) ∧ a.Consistent ∧ a.width = 2 ∧ a.height = 1 ∧ a.pixels = [⟨0, 0, 0⟩, ⟨0, 0, 0⟩] := by
  have r1 := C137_read (bytes "#?RGBE\nFORMAT=32-bit_rle_rgbe\n\n-Y 1 +X 2\n" ++ [0, 0, 0, 0, 0, 0, 0, 0])
  have r2 : ImageBuffer64.fromFile (bytes "#?RGBE\nFORMAT=32-bit_rle_rgbe\n\n-Y 1 +X 2\n" ++ [0, 0, 0, 0, 0, 0, 0, 0]) = .ok (.image ⟨2, 1, [⟨⟨0⟩, ⟨0⟩, ⟨0⟩⟩, ⟨⟨0⟩, ⟨0⟩, ⟨0⟩⟩]⟩) := by decide +kernel
  rw [r2, Res.bind_ok] at r1
  refine ⟨_, r1.symm, rfl, rfl, rfl, ?_⟩
  simp [ImageBuffer64.reals, Spectrum.reals]

/-- C137: `sfalsecolor` on a file of two pixels. -/
example : ∃ j, sfalsecolor64 (twoPixelFile 0 1 9) none none .magma = .ok (.jpeg j) ∧ ColoursOf (NearlyScaleColour Colourmap.magma.table 0 (179 * (67 / 100 + 9 * (65 / 1000)))) [179 * (67 / 100 + 9 * (65 / 1000)), 179] j.data := by
  obtain ⟨a, h, c, w, t, l⟩ := twoPixelFile_image
  obtain ⟨j, hj⟩ := C137_writes (twoPixelFile 0 1 9) a h (le_of_eq c.symm) (by rw [w]; norm_num) (by rw [t]; norm_num) none none (by simp) (by simp) .magma
  refine ⟨j, hj, ?_⟩
  rw [← l]
  exact (C137_colours _ a h none none .magma 0 _ (Or.inl ⟨rfl, rfl⟩) (Or.inr ⟨rfl, by rw [l]; exact List.mem_cons_self .., by
    intro v hv
    rw [l] at hv
    simp only [List.mem_cons, List.not_mem_nil, or_false] at hv
    rcases hv with rfl | rfl <;> norm_num⟩) (by norm_num) (by norm_num) j hj).2.2

/-- C137: `scompare` of two pixels and a black picture. -/
example : ∃ j a b, ImageBuffer.fromFile (twoPixelFile 0 1 9) = .ok (.image b) ∧ scompare64 (bytes "#?RGBE\nFORMAT=32-bit_rle_rgbe\n\n-Y 1 +X 2\n" ++ [0, 0, 0, 0, 0, 0, 0, 0]) (twoPixelFile 0 1 9) none (some ⟨1000⟩) .magma = .ok (.jpeg j) ∧ ColoursOf (RoughlyScaleColour Colourmap.magma.table 0 1000) (differences b a) j.data := by
  obtain ⟨a, h, c, w, t, l⟩ := black_image
  obtain ⟨b, h', c', w', t', l'⟩ := twoPixelFile_image
  obtain ⟨j, hj⟩ := C137_compare_writes _ _ a b h h' c c' ⟨by rw [w, w'], by rw [t, t']⟩ (by rw [w]; norm_num) (by rw [t]; norm_num) none (some ⟨1000⟩) (by simp) (by intro v hv; cases hv; exact ⟨1000, 0, by norm_num, by norm_num⟩) .magma
  refine ⟨j, a, b, h', hj, ?_⟩
  exact (C137_compare_partial _ _ a b h h' none (some ⟨1000⟩) .magma 0 1000 (Or.inl ⟨rfl, rfl⟩) (Or.inl (by norm_num)) (by norm_num) (by norm_num) (by
    intro p hp
    rw [l] at hp
    simp only [List.mem_cons, List.not_mem_nil, or_false, or_self] at hp
    subst hp
    norm_num [Spectrum.luminance, Spectrum.radiance, Spectrum.channels, Spectrum.radianceCoefficients, Spectrum.whiteEfficacy]) (by
    intro p hp
    have := List.mem_map_of_mem (f := Spectrum.luminance) hp
    rw [l'] at this
    simp only [List.mem_cons, List.not_mem_nil, or_false] at this
    rcases this with h | h <;> rw [h] <;> norm_num) j hj).2.2

example : ∃ a, ImageBuffer.fromFile (twoPixelFile 0 1 9) = .ok (.image a) ∧ a.Consistent ∧ a.width % 65536 ≠ 0 ∧ a.height % 65536 ≠ 0 := by
  obtain ⟨a, h, c, w, t, -⟩ := twoPixelFile_image
  exact ⟨a, h, c, by rw [w]; norm_num, by rw [t]; norm_num⟩

end Rendering
