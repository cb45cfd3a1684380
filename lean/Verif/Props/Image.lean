import Verif.Lemmas.Hdr
import Verif.Props.Rgbe
import Mathlib.Data.List.FinRange

/-!
# C24, C26, C27, C28: image buffers and HDR files
-/

namespace Rendering

/-- Specification: an image whose pixel count is width times height. -/
def ImageBuffer.Consistent (im : ImageBuffer) : Prop := im.pixels.length = im.width * im.height

/-- The lines of the header, without their newlines. -/
def hdrLine1 : List UInt8 := [35, 63, 82, 71, 66, 69]
def hdrLine2 : List UInt8 := [70, 79, 82, 77, 65, 84, 61, 51, 50, 45, 98, 105, 116, 95, 114, 108, 101, 95, 114, 103, 98, 101]
def hdrSize (h w : Nat) : List UInt8 := [45, 89] ++ 32 :: (decimal h ++ 32 :: ([43, 88] ++ 32 :: decimal w))

theorem saveHdre_eq (im : ImageBuffer) : im.saveHdre =
    hdrLine1 ++ (10 : UInt8) :: (hdrLine2 ++ (10 : UInt8) :: (([] : List UInt8) ++ (10 : UInt8) :: (hdrSize im.height im.width ++ (10 : UInt8) ::
      im.pixels.flatMap (fun p => let (r, g, b, e) := colourToRgbe p.c0 p.c1 p.c2; [r, g, b, e])))) := by
  have h1 : bytes "#?RGBE\n" = hdrLine1 ++ [10] := by decide
  have h2 : bytes "FORMAT=32-bit_rle_rgbe\n\n" = hdrLine2 ++ [10, 10] := by decide
  have h3 : bytes "-Y " = [45, 89, 32] := by decide
  have h4 : bytes " +X " = [32, 43, 88, 32] := by decide
  have h5 : bytes "\n" = [10] := by decide
  unfold ImageBuffer.saveHdre
  rw [h1, h2, h3, h4, h5]
  simp [hdrSize]

theorem hdrLine1_next : ImageBuffer.headerLine hdrLine1 = .ok .next := by decide
theorem hdrLine2_next : ImageBuffer.headerLine hdrLine2 = .ok .next := by decide
theorem hdrEmpty_next : ImageBuffer.headerLine [] = .ok .next := by decide

theorem decimal_not_ws (n : Nat) : ∀ b ∈ decimal n, isAsciiWhitespace b = false := by
  intro b hb
  have := decimal_digits n b hb
  unfold isAsciiWhitespace
  simp only [Bool.or_eq_false_iff, beq_eq_false_iff_ne, ne_eq]
  refine ⟨⟨⟨⟨?_, ?_⟩, ?_⟩, ?_⟩, ?_⟩ <;> (rintro rfl; simp at this)

theorem hdrSize_mem (h w : Nat) : ∀ b ∈ hdrSize h w, (b == 10) = false ∧ b.toNat < 128 := by
  have hd : ∀ n, ∀ b ∈ decimal n, (b == 10) = false ∧ b.toNat < 128 := by
    intro n b hb
    have := decimal_digits n b hb
    refine ⟨?_, by omega⟩
    rw [beq_eq_false_iff_ne]; rintro rfl; simp at this
  intro b hb
  unfold hdrSize at hb
  simp only [List.mem_append, List.mem_cons, List.not_mem_nil, or_false] at hb
  rcases hb with (rfl | rfl) | rfl | hb | rfl | (rfl | rfl) | rfl | hb
  all_goals first | exact hd _ _ hb | decide

theorem hdrSize_line (h w : Nat) (hh : h < 2 ^ 64) (hw : w < 2 ^ 64) : ImageBuffer.headerLine (hdrSize h w) = .ok (.size h w) := by
  unfold ImageBuffer.headerLine
  have hs : startsWith (bytes "-Y") (hdrSize h w) = true := by
    have : bytes "-Y" = [45, 89] := by decide
    rw [this]; rfl
  have hsplit : splitOnByte isAsciiWhitespace (hdrSize h w) = [[45, 89], decimal h, [43, 88], decimal w] := by
    unfold hdrSize
    rw [splitOnByte_append _ _ (by decide) 32 (by decide), splitOnByte_append _ _ (decimal_not_ws h) 32 (by decide),
      splitOnByte_append _ _ (by decide) 32 (by decide), splitOnByte_none _ _ (decimal_not_ws w)]
  have hu : ∀ l : List UInt8, (∀ b ∈ l, b.toNat < 128) → ImageBuffer.utf8Unwrap l = .ok () := by
    intro l hl; unfold ImageBuffer.utf8Unwrap; rw [validUtf8_ascii l hl]; rfl
  have hda : ∀ n, ∀ b ∈ decimal n, b.toNat < 128 := by
    intro n b hb; have := decimal_digits n b hb; omega
  have hx : bytes "+X" = [43, 88] := by decide
  rw [if_pos hs, hu _ (fun b hb => (hdrSize_mem h w b hb).2), Res.bind_ok, hsplit]
  simp only [hx, ne_eq, not_true_eq_false, if_false]
  rw [hu _ (hda h), Res.bind_ok, parse_decimal h hh]
  simp only
  rw [hu _ (hda w), Res.bind_ok, parse_decimal w hw]

/-- **C24.** Reading back the bytes `save_hdre` wrote gives the same width and height, and exactly the RGBE-decoded pixels in the same
order (hence as many of them): whatever the pixel bytes are, none is taken for header, whatever the sizes. -/
theorem C24_hdr_roundtrip (im : ImageBuffer) (hh : im.height < 2 ^ 64) (hw : im.width < 2 ^ 64) :
    ImageBuffer.fromFile im.saveHdre =
      .ok (.image { width := im.width, height := im.height, pixels := im.pixels.map throughRgbe }) := by
  have hlen : ∃ n, im.saveHdre.length + 1 = n + 1 + 1 + 1 + 1 := by
    refine ⟨im.saveHdre.length - 3, ?_⟩
    have : 3 ≤ im.saveHdre.length := by
      rw [saveHdre_eq]
      simp only [List.length_append, List.length_cons]
      omega
    omega
  obtain ⟨n, hn⟩ := hlen
  unfold ImageBuffer.fromFile
  rw [hn, saveHdre_eq]
  rw [readFrom_line _ _ _ (by decide), hdrLine1_next, Res.bind_ok]
  simp only
  rw [readFrom_line _ _ _ (by decide), hdrLine2_next, Res.bind_ok]
  simp only
  rw [readFrom_line _ _ _ (by simp), hdrEmpty_next, Res.bind_ok]
  simp only
  rw [readFrom_line _ _ _ (fun b hb => (hdrSize_mem _ _ b hb).1), hdrSize_line _ _ hh hw, Res.bind_ok]
  simp only
  rw [chunksExact4_flatMap im.pixels (fun p => colourToRgbe p.c0 p.c1 p.c2)]
  simp only [List.map_map]
  rfl

/-- **C24.** In particular the pixel count survives, and pixel `i` is the encoding of pixel `i`. -/
theorem C24_hdr_pixels (im im' : ImageBuffer) (hh : im.height < 2 ^ 64) (hw : im.width < 2 ^ 64)
    (h : ImageBuffer.fromFile im.saveHdre = .ok (.image im')) :
    im'.width = im.width ∧ im'.height = im.height ∧ im'.pixels.length = im.pixels.length ∧
      ∀ i (hi : i < im.pixels.length), im'.pixels[i]? = some (throughRgbe im.pixels[i]) := by
  rw [C24_hdr_roundtrip im hh hw] at h
  simp only [Res.ok.injEq, ImageBuffer.ReadResult.image.injEq] at h
  subst h
  refine ⟨rfl, rfl, by simp, ?_⟩
  intro i hi
  simp [List.getElem?_eq_getElem hi]

/-- The hypotheses of C24 hold for a one-pixel image whose bytes contain the newline byte (10·2⁻¹³⁶⁺¹³⁸ = 40). -/
example : (⟨1, 1, [⟨40, 40, 40⟩]⟩ : ImageBuffer).height < 2 ^ 64 := by norm_num

/-- **C24.** Reading any file terminates (the header loop consumes input at every turn). -/
theorem C24_reading_terminates (content : List UInt8) : ImageBuffer.fromFile content ≠ .diverge :=
  readFrom_terminates _ _ (by omega)

/-- **C26 (partial).** Files written from consistent images are read back as consistent images. Missing: arbitrary files, for which the
claim is false (`C26_violation`). -/
theorem C26_consistent_partial (im im' : ImageBuffer) (hc : im.Consistent) (hh : im.height < 2 ^ 64) (hw : im.width < 2 ^ 64)
    (h : ImageBuffer.fromFile im.saveHdre = .ok (.image im')) : im'.Consistent := by
  obtain ⟨a, b, c, -⟩ := C24_hdr_pixels im im' hh hw h
  unfold ImageBuffer.Consistent
  rw [a, b, c]; exact hc

/-- **C26, violation.** For all sizes, a file with a valid header and no pixel at all is accepted; a truncated download of a 1920x1080
image is read as an image of that size without pixels. -/
theorem C26_violation (h w : Nat) (hh : h < 2 ^ 64) (hw : w < 2 ^ 64) :
    ImageBuffer.fromFile (hdrSize h w ++ [10]) = .ok (.image { width := w, height := h, pixels := [] }) ∧
    (0 < h → 0 < w → ¬ ImageBuffer.Consistent { width := w, height := h, pixels := [] }) := by
  constructor
  · unfold ImageBuffer.fromFile
    rw [readFrom_line _ _ [] (fun b hb => (hdrSize_mem _ _ b hb).1), hdrSize_line _ _ hh hw]
    rfl
  · intro h0 w0 hc
    have : 0 = w * h := hc
    have := Nat.mul_pos w0 h0
    omega

/-! ### C27 -/

/-- Specification: the image as a function of the coordinates. -/
def ImageBuffer.at? (im : ImageBuffer) (x y : Nat) : Option (Spectrum ℝ) :=
  if x < im.width ∧ y < im.height then im.pixels[y * im.width + x]? else none

/-- In-range coordinates designate a place of the pixel list. -/
theorem coord_lt {w h x y : Nat} (hx : x < w) (hy : y < h) : y * w + x < w * h := by
  calc y * w + x < y * w + w := by omega
    _ = (y + 1) * w := by ring
    _ ≤ h * w := Nat.mul_le_mul_right _ hy
    _ = w * h := Nat.mul_comm _ _

/-- Distinct coordinate pairs designate distinct places. -/
theorem coord_inj {w x y x' y' : Nat} (hx : x < w) (hx' : x' < w) (h : y * w + x = y' * w + x') : x = x' ∧ y = y' := by
  have e1 : (y * w + x) % w = x := by rw [Nat.mul_comm, Nat.mul_add_mod, Nat.mod_eq_of_lt hx]
  have e2 : (y' * w + x') % w = x' := by rw [Nat.mul_comm, Nat.mul_add_mod, Nat.mod_eq_of_lt hx']
  have ex : x = x' := by rw [← e1, ← e2, h]
  subst ex
  have : y * w = y' * w := by omega
  exact ⟨rfl, Nat.eq_of_mul_eq_mul_right (by omega) this⟩

/-- **C27.** In a consistent image every in-range read and write succeeds; a write keeps the size and consistency, is read back at the same
coordinates, and changes no other pixel. -/
theorem C27_read_write (im : ImageBuffer) (hc : im.Consistent) (x y : Nat) (hx : x < im.width) (hy : y < im.height) (v : Spectrum ℝ) :
    (∃ c, im.index x y = .ok c) ∧
    ∃ im', im.setIndex x y v = .ok im' ∧ im'.Consistent ∧ im'.width = im.width ∧ im'.height = im.height ∧
      im'.index x y = .ok v ∧
      ∀ x' y', x' < im.width → y' < im.height → (x', y') ≠ (x, y) → im'.index x' y' = im.index x' y' := by
  have hlt : y * im.width + x < im.pixels.length := by rw [hc]; exact coord_lt hx hy
  refine ⟨⟨im.pixels[y * im.width + x], by simp [ImageBuffer.index, List.getElem?_eq_getElem hlt]⟩, ?_⟩
  refine ⟨{ im with pixels := im.pixels.set (y * im.width + x) v }, by simp [ImageBuffer.setIndex, hlt],
    by simpa [ImageBuffer.Consistent] using hc, rfl, rfl, by simp [ImageBuffer.index, hlt], ?_⟩
  intro x' y' hx' hy' hne
  have : y * im.width + x ≠ y' * im.width + x' := by
    intro h
    obtain ⟨rfl, rfl⟩ := coord_inj hx hx' h
    exact hne rfl
  simp only [ImageBuffer.index]
  rw [List.getElem?_set_ne this]

/-- A history of writes `image[(x, y)] = v`. -/
def ImageBuffer.writes (im : ImageBuffer) : List (Nat × Nat × Spectrum ℝ) → Res ImageBuffer
  | [] => .ok im
  | (x, y, v) :: ws => (im.setIndex x y v).bind fun im => im.writes ws

/-- Specification: the last value written at `(x, y)`, if any. -/
def lastWrite (x y : Nat) (ws : List (Nat × Nat × Spectrum ℝ)) : Option (Spectrum ℝ) :=
  (ws.reverse.find? (fun w => w.1 = x ∧ w.2.1 = y)).map (fun w => w.2.2)

/-- **C27.** After any history of in-range writes, every in-range pixel reads as the last value written there, or its original value if
there was none. -/
theorem C27_history (im : ImageBuffer) (hc : im.Consistent) (ws : List (Nat × Nat × Spectrum ℝ))
    (hws : ∀ w ∈ ws, w.1 < im.width ∧ w.2.1 < im.height) :
    ∃ im', im.writes ws = .ok im' ∧ im'.Consistent ∧
      ∀ x y, x < im.width → y < im.height →
        im'.index x y = match lastWrite x y ws with
          | some v => .ok v
          | none => im.index x y := by
  induction ws generalizing im with
  | nil => exact ⟨im, rfl, hc, fun x y _ _ => rfl⟩
  | cons w ws ih =>
    obtain ⟨x0, y0, v⟩ := w
    obtain ⟨hx0, hy0⟩ := hws _ (List.mem_cons_self ..)
    obtain ⟨-, im1, h1, hc1, hw1, hh1, hr1, hne1⟩ := C27_read_write im hc x0 y0 hx0 hy0 v
    obtain ⟨im', h2, hc2, hr2⟩ := ih im1 hc1 (fun w hw => by rw [hw1, hh1]; exact hws w (List.mem_cons_of_mem _ hw))
    refine ⟨im', by simp [ImageBuffer.writes, h1, h2], hc2, ?_⟩
    intro x y hx hy
    rw [hr2 x y (by rw [hw1]; exact hx) (by rw [hh1]; exact hy)]
    unfold lastWrite
    rw [List.reverse_cons, List.find?_append]
    cases hf : ws.reverse.find? (fun w => w.1 = x ∧ w.2.1 = y) with
    | some w => simp
    | none =>
      by_cases he : x0 = x ∧ y0 = y
      · obtain ⟨rfl, rfl⟩ := he
        simp [hr1]
      · simp only [Option.map_none, List.find?_cons]
        rw [hne1 x y hx hy (by intro h; simp only [Prod.mk.injEq] at h; exact he ⟨h.1.symm, h.2.symm⟩)]
        simp [he]

/-- **C27.** `pixels` lists the rows from top to bottom, each from left to right. -/
theorem C27_row_major (im : ImageBuffer) (x y : Nat) (c : Spectrum ℝ) :
    im.index x y = .ok c ↔ im.pixels[y * im.width + x]? = some c := by
  unfold ImageBuffer.index
  simp only
  cases im.pixels[y * im.width + x]? <;> simp [Res.ofOption]

/-- **C27.** An index past the end of the buffer panics, for reads and writes alike, and nothing else does. -/
theorem C27_panics_iff (im : ImageBuffer) (x y : Nat) (v : Spectrum ℝ) :
    (im.index x y = .panic ↔ im.pixels.length ≤ y * im.width + x) ∧
    (im.setIndex x y v = .panic ↔ im.pixels.length ≤ y * im.width + x) := by
  constructor
  · unfold ImageBuffer.index
    simp only
    rcases lt_or_ge (y * im.width + x) im.pixels.length with h | h
    · simp [List.getElem?_eq_getElem h]; exact h
    · simp [h]
  · unfold ImageBuffer.setIndex
    simp only
    split
    · simp only [reduceCtorEq, false_iff]; omega
    · simp only [true_iff]; omega

/-- **C27.** New images are consistent and black everywhere in range. -/
theorem C27_new (w h : Nat) : (ImageBuffer.new w h).Consistent ∧
    ∀ x y, x < w → y < h → (ImageBuffer.new w h).index x y = .ok Spectrum.black := by
  refine ⟨by simp [ImageBuffer.Consistent, ImageBuffer.new], ?_⟩
  intro x y hx hy
  have := coord_lt hx hy
  simp [ImageBuffer.index, ImageBuffer.new, this]

/-- The hypotheses of C27 are met. -/
example : (ImageBuffer.new 3 2).Consistent ∧ ∀ w ∈ [((2 : Nat), (1 : Nat), (⟨1, 2, 3⟩ : Spectrum ℝ))],
    w.1 < (ImageBuffer.new 3 2).width ∧ w.2.1 < (ImageBuffer.new 3 2).height := by
  refine ⟨(C27_new 3 2).1, ?_⟩
  simp [ImageBuffer.new]

/-- An out-of-range column is *not* rejected when the row below exists: it designates the next row's pixel (recorded as a caveat of
C27, whose statement is about in-range coordinates). -/
theorem C27_column_overflow (im : ImageBuffer) (x y : Nat) : im.index (im.width + x) y = im.index x (y + 1) := by
  unfold ImageBuffer.index
  simp only
  congr 2
  ring

/-! ### C28 -/

/-- **C28.** `diff` of two consistent images succeeds exactly when both sizes agree, and never panics. -/
theorem C28_succeeds_iff (a b : ImageBuffer) (ha : a.Consistent) (hb : b.Consistent) :
    ((∃ d, a.diff b = .ok (some d)) ↔ a.width = b.width ∧ a.height = b.height) ∧
    (a.diff b = .ok none ↔ ¬ (a.width = b.width ∧ a.height = b.height)) ∧ a.diff b ≠ .panic := by
  unfold ImageBuffer.diff
  by_cases h : a.width = b.width ∧ a.height = b.height
  · have hl : ((a.pixels.zip b.pixels).map (fun (p, q) => Spectrum.gray |p.radiance - q.radiance|)).length = a.width * a.height := by
      simp only [List.length_map, List.length_zip]
      rw [ha, hb, ← h.1, ← h.2, min_self]
    simp [h.1, h.2, ImageBuffer.fromPixels]
    rw [ha, hb, ← h.1, ← h.2, min_self]
    simp
  · have : (a.width, a.height) ≠ (b.width, b.height) := by simpa using h
    rw [if_pos this]
    simp [h]

/-- **C28.** The difference has the images' size and is, at each place, the gray level of the absolute difference of radiances. -/
theorem C28_pixelwise (a b d : ImageBuffer) (ha : a.Consistent) (hb : b.Consistent) (h : a.diff b = .ok (some d)) :
    d.Consistent ∧ d.width = a.width ∧ d.height = a.height ∧
    ∀ i (hi : i < d.pixels.length), ∃ p q, a.pixels[i]? = some p ∧ b.pixels[i]? = some q ∧
      d.pixels[i] = Spectrum.gray |p.radiance - q.radiance| ∧
      (d.pixels[i] = Spectrum.black ↔ p.radiance = q.radiance) := by
  have hs := ((C28_succeeds_iff a b ha hb).1).1 ⟨d, h⟩
  unfold ImageBuffer.diff at h
  rw [if_neg (by simp [hs.1, hs.2])] at h
  simp only [ImageBuffer.fromPixels] at h
  split at h
  · simp at h
  · simp only [Res.bind_ok, Res.ok.injEq, Option.some.injEq] at h
    rename_i hl
    push Not at hl
    subst h
    refine ⟨hl, rfl, rfl, ?_⟩
    intro i hi
    simp only [List.length_map, List.length_zip] at hi
    have hia : i < a.pixels.length := by omega
    have hib : i < b.pixels.length := by omega
    refine ⟨a.pixels[i], b.pixels[i], by simp [hia], by simp [hib], by simp, ?_⟩
    simp only [List.getElem_map, List.getElem_zip, Spectrum.black, Spectrum.gray, Spectrum.mk.injEq, abs_eq_zero, sub_eq_zero, and_self]

/-- **C28.** The comparison is symmetric. -/
theorem C28_symmetric (a b : ImageBuffer) : a.diff b = b.diff a := by
  unfold ImageBuffer.diff
  by_cases h : (a.width, a.height) = (b.width, b.height)
  · rw [if_neg (by simpa using h), if_neg (by simpa using h.symm)]
    simp only [Prod.mk.injEq] at h
    have : (a.pixels.zip b.pixels).map (fun (p, q) => Spectrum.gray |p.radiance - q.radiance|) =
        (b.pixels.zip a.pixels).map (fun (p, q) => Spectrum.gray |p.radiance - q.radiance|) := by
      apply List.ext_getElem
      · simp [min_comm]
      · intro i h1 h2
        simp only [List.getElem_map, List.getElem_zip]
        rw [abs_sub_comm]
    rw [this, h.1, h.2]
  · rw [if_pos h, if_pos (fun h' => h h'.symm)]

example : ∃ d, (ImageBuffer.new 3 2).diff (ImageBuffer.new 3 2) = .ok (some d) :=
  ((C28_succeeds_iff _ _ (C27_new 3 2).1 (C27_new 3 2).1).1).2 ⟨rfl, rfl⟩

/-! ### Concrete cases of the theorems above -/

/-- An image of two pixels. -/
noncomputable def twoPixels : ImageBuffer := ⟨2, 1, [⟨40, 40, 40⟩, ⟨1, 2, 3⟩]⟩

theorem twoPixels_consistent : twoPixels.Consistent := by simp [twoPixels, ImageBuffer.Consistent]

/-- C24, C26: it is written and read. -/
example := C24_hdr_roundtrip twoPixels (by norm_num [twoPixels]) (by norm_num [twoPixels])

example := C24_hdr_pixels twoPixels _ (by norm_num [twoPixels]) (by norm_num [twoPixels]) (C24_hdr_roundtrip twoPixels (by norm_num [twoPixels]) (by norm_num [twoPixels]))

example := C26_consistent_partial twoPixels _ twoPixels_consistent (by norm_num [twoPixels]) (by norm_num [twoPixels]) (C24_hdr_roundtrip twoPixels (by norm_num [twoPixels]) (by norm_num [twoPixels]))

example := C26_violation 1080 1920 (by norm_num) (by norm_num)

/-- C27: one pixel is written, and several. -/
example := C27_read_write twoPixels twoPixels_consistent 1 0 (by norm_num [twoPixels]) (by norm_num [twoPixels]) ⟨7, 8, 9⟩

example := C27_history (ImageBuffer.new 3 2) (C27_new 3 2).1 [(2, 1, ⟨1, 2, 3⟩), (0, 0, ⟨1, 1, 1⟩), (2, 1, ⟨4, 4, 4⟩)] (by intro w hw; simp at hw; rcases hw with rfl | rfl | rfl <;> simp [ImageBuffer.new])

/-- C28: it is compared with a black one. -/
example : ∃ d, twoPixels.diff (ImageBuffer.new 2 1) = .ok (some d) ∧ d.Consistent ∧ d.width = 2 := by
  obtain ⟨d, hd⟩ := ((C28_succeeds_iff twoPixels (ImageBuffer.new 2 1) twoPixels_consistent (C27_new 2 1).1).1).2 ⟨rfl, rfl⟩
  obtain ⟨h1, h2, _⟩ := C28_pixelwise _ _ d twoPixels_consistent (C27_new 2 1).1 hd
  exact ⟨d, hd, h1, h2⟩

end Rendering
