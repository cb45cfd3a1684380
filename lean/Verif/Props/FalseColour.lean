import Verif.Model.FalseColour
import Verif.Spec.FalseColour
import Verif.Props.ColourMap
import Verif.Props.Image

/-!
# C30: false-colour output
-/

namespace Rendering

/-! ### The five tables -/

/-- **C30.** Each of the five maps has 256 entries, all with channels between 0 and 1. -/
theorem C30_tables (m : Colourmap) : m.table.length = 256 ∧
    ∀ c ∈ m.table, (0 ≤ c.r ∧ c.r ≤ 1) ∧ (0 ≤ c.g ∧ c.g ≤ 1) ∧ (0 ≤ c.b ∧ c.b ≤ 1) := by
  have hlen : m.raw.length = 256 := by cases m <;> decide +kernel
  have hrange : ∀ c ∈ m.raw, c.1 ≤ 10 ^ 12 ∧ c.2.1 ≤ 10 ^ 12 ∧ c.2.2 ≤ 10 ^ 12 := by cases m <;> decide +kernel
  refine ⟨by simp [Colourmap.table, hlen], ?_⟩
  intro c hc
  simp only [Colourmap.table, List.mem_map] at hc
  obtain ⟨c, hc, rfl⟩ := hc
  obtain ⟨h1, h2, h3⟩ := hrange c hc
  have key : ∀ n : Nat, n ≤ 10 ^ 12 → (0 : ℝ) ≤ n / 10 ^ 12 ∧ (n : ℝ) / 10 ^ 12 ≤ 1 := by
    intro n hn
    refine ⟨by positivity, ?_⟩
    rw [div_le_one (by positivity)]
    exact_mod_cast hn
  exact ⟨key _ h1, key _ h2, key _ h3⟩

/-- Mapping into a table of at least two colours always succeeds (exact arithmetic), also for a reversed interval. -/
theorem mapLinear_total (x min max : ℝ) (map : List (Rgb ℝ)) (hl : 2 ≤ map.length) : ∃ c, mapLinearColour x min max map = .ok c := by
  rcases lt_or_ge min max with h | h
  · exact C29_total_partial x min max map h hl
  · unfold mapLinearColour
    split
    · cases map with
      | nil => simp at hl
      | cons p l => exact ⟨p, rfl⟩
    · rename_i hx
      push Not at hx
      rw [if_pos (h.trans hx.le), List.getLast?_eq_getElem?, List.getElem?_eq_getElem (by omega)]
      exact ⟨_, rfl⟩

theorem pushColours_ok {α : Type} (f : α → Res (Rgb ℝ)) (l : List α) (h : ∀ x ∈ l, ∃ c, f x = .ok c) : ∃ d, pushColours f l = .ok d := by
  induction l with
  | nil => exact ⟨_, rfl⟩
  | cons x l ih =>
    obtain ⟨c, hc⟩ := h x (List.mem_cons_self ..)
    obtain ⟨d, hd⟩ := ih (fun x hx => h x (List.mem_cons_of_mem _ hx))
    exact ⟨colourBytes c ++ d, by simp [pushColours, hc, hd]⟩

theorem pushColours_spec {α : Type} (f : α → Res (Rgb ℝ)) (l : List α) (d : List UInt8) (h : pushColours f l = .ok d) :
    d.length = 3 * l.length ∧ ∀ i (hi : i < l.length), ∃ c, f l[i] = .ok c ∧
      d[3 * i]? = some (realAsU8 (roundAway (c.r * 256))) ∧ d[3 * i + 1]? = some (realAsU8 (roundAway (c.g * 256))) ∧
      d[3 * i + 2]? = some (realAsU8 (roundAway (c.b * 256))) := by
  induction l generalizing d with
  | nil =>
    simp only [pushColours, Res.ok.injEq] at h
    subst h
    simp
  | cons x l ih =>
    simp only [pushColours] at h
    cases hx : f x with
    | panic => simp [hx] at h
    | diverge => simp [hx] at h
    | ok c =>
      cases hr : pushColours f l with
      | panic => simp [hx, hr] at h
      | diverge => simp [hx, hr] at h
      | ok r =>
        simp only [hx, hr, Res.bind_ok, Res.ok.injEq] at h
        subst h
        obtain ⟨h1, h2⟩ := ih r hr
        refine ⟨by simp [colourBytes, h1]; omega, ?_⟩
        intro i hi
        cases i with
        | zero => exact ⟨c, by simpa using hx, by simp [colourBytes], by simp [colourBytes], by simp [colourBytes]⟩
        | succ i =>
          obtain ⟨c', a, b0, b1, b2⟩ := h2 i (by simpa using hi)
          refine ⟨c', by simpa using a, ?_, ?_, ?_⟩
          · rw [show 3 * (i + 1) = 3 * i + 1 + 1 + 1 by ring]; simpa [colourBytes] using b0
          · rw [show 3 * (i + 1) + 1 = (3 * i + 1) + 1 + 1 + 1 by ring]; simpa [colourBytes] using b1
          · rw [show 3 * (i + 1) + 2 = (3 * i + 2) + 1 + 1 + 1 by ring]; simpa [colourBytes] using b2

/-- A channel in [0,1] becomes the byte nearest to 256 times it, capped at 255. -/
theorem byte_of_channel {x : ℝ} (h0 : 0 ≤ x) (h1 : x ≤ 1) :
    ((realAsU8 (roundAway (x * 256))).toNat : ℤ) = min 255 (roundAway (x * 256)) ∧ 0 ≤ roundAway (x * 256) ∧
      |(roundAway (x * 256) : ℝ) - x * 256| ≤ 1 / 2 := by
  have hr : roundAway (x * 256) = ⌊x * 256 + 1 / 2⌋ := by unfold roundAway; rw [if_pos (by positivity)]
  have h2 : 0 ≤ roundAway (x * 256) := by rw [hr]; exact Int.floor_nonneg.2 (by positivity)
  refine ⟨?_, h2, ?_⟩
  · unfold realAsU8
    rw [Int.floor_intCast, UInt8.toNat_ofNat_of_lt' (by have : UInt8.size = 256 := rfl; omega)]
    omega
  · rw [hr, abs_le]
    have := Int.floor_le (x * 256 + 1 / 2)
    have := Int.lt_floor_add_one (x * 256 + 1 / 2)
    constructor <;> linarith

/-- The encoder takes data that cover the picture, if neither side of it, stored in 16 bits, is zero. -/
theorem encode_ok {im : ImageBuffer} {d : List UInt8} (hd : d.length = 3 * im.pixels.length) (hc : im.width * im.height ≤ im.pixels.length) (hw : im.width % 65536 ≠ 0) (hh : im.height % 65536 ≠ 0) :
    JpegInput.encode { data := d, width := asU16 im.width, height := asU16 im.height } = .ok { data := d, width := asU16 im.width, height := asU16 im.height } := by
  unfold JpegInput.encode asU16
  have : im.width % 65536 * (im.height % 65536) ≤ im.width * im.height := Nat.mul_le_mul (Nat.mod_le _ _) (Nat.mod_le _ _)
  simp only
  rw [if_neg]
  push Not
  exact ⟨hw, hh, by omega⟩

theorem encode_eq {j k : JpegInput} (h : JpegInput.encode j = .ok k) : k = j := by
  unfold JpegInput.encode at h
  split at h
  · cases h
  · cases h; rfl

/-! ### Linear scale -/

/-- **C30 (exact arithmetic).** Whatever the image and the limits, the linear false-colour image is produced, if the image has all its pixels and neither side of it is a multiple of 65536
(else see `C30_violation_truncated` and `C30_violation_wide`). -/
theorem C30_linear_succeeds_partial (im : ImageBuffer) (hc : im.width * im.height ≤ im.pixels.length) (hw : im.width % 65536 ≠ 0) (hh : im.height % 65536 ≠ 0) (min max : Option ℝ) (m : Colourmap) : ∃ j, im.saveFalsecolour min max m = .ok j := by
  have hl : 2 ≤ m.table.length := by rw [(C30_tables m).1]; norm_num
  obtain ⟨d, hd⟩ := pushColours_ok (fun x => mapLinearColour x (linearMin min) (linearMax (im.pixels.map Spectrum.luminance) max) m.table)
    (im.pixels.map Spectrum.luminance) (fun x _ => mapLinear_total x _ _ _ hl)
  unfold ImageBuffer.saveFalsecolour
  simp only
  rw [hd, Res.bind_ok, encode_ok (by simpa using (pushColours_spec _ _ d hd).1) hc hw hh]
  exact ⟨_, rfl⟩

/-- **C30.** The encoder gets three bytes per pixel, in pixel order: those of pixel `i` are the colour the map gives to its luminance. -/
theorem C30_linear_bytes (im : ImageBuffer) (min max : Option ℝ) (m : Colourmap) (j : JpegInput) (h : im.saveFalsecolour min max m = .ok j) :
    j.data.length = 3 * im.pixels.length ∧ j.width = im.width % 65536 ∧ j.height = im.height % 65536 ∧
    ∀ i (hi : i < im.pixels.length), ∃ c,
      mapLinearColour im.pixels[i].luminance (linearMin min) (linearMax (im.pixels.map Spectrum.luminance) max) m.table = .ok c ∧
      j.data[3 * i]? = some (realAsU8 (roundAway (c.r * 256))) ∧ j.data[3 * i + 1]? = some (realAsU8 (roundAway (c.g * 256))) ∧
      j.data[3 * i + 2]? = some (realAsU8 (roundAway (c.b * 256))) := by
  unfold ImageBuffer.saveFalsecolour at h
  simp only at h
  cases hd : pushColours (fun x => mapLinearColour x (linearMin min) (linearMax (im.pixels.map Spectrum.luminance) max) m.table)
      (im.pixels.map Spectrum.luminance) with
  | panic => simp [hd] at h
  | diverge => simp [hd] at h
  | ok d =>
    rw [hd, Res.bind_ok] at h
    have h := encode_eq h
    subst h
    obtain ⟨h1, h2⟩ := pushColours_spec _ _ d hd
    refine ⟨by simpa using h1, rfl, rfl, ?_⟩
    intro i hi
    obtain ⟨c, hc, b⟩ := h2 i (by simpa using hi)
    exact ⟨c, by simpa using hc, b⟩

theorem foldl_max (l : List ℝ) (m0 : ℝ) : m0 ≤ l.foldl (fun m v => if v > m then v else m) m0 ∧
    (∀ v ∈ l, v ≤ l.foldl (fun m v => if v > m then v else m) m0) ∧
    (l.foldl (fun m v => if v > m then v else m) m0 = m0 ∨ l.foldl (fun m v => if v > m then v else m) m0 ∈ l) := by
  induction l generalizing m0 with
  | nil => simp
  | cons x l ih =>
    simp only [List.foldl_cons]
    by_cases h : x > m0
    · simp only [h, if_true]
      obtain ⟨a, b, c⟩ := ih x
      refine ⟨h.le.trans a, ?_, ?_⟩
      · intro v hv
        rcases List.mem_cons.1 hv with rfl | hv
        · exact a
        · exact b v hv
      · rcases c with c | c
        · right; rw [c]; exact List.mem_cons_self ..
        · right; exact List.mem_cons_of_mem _ c
    · simp only [h, if_false]
      obtain ⟨a, b, c⟩ := ih m0
      refine ⟨a, ?_, ?_⟩
      · intro v hv
        rcases List.mem_cons.1 hv with rfl | hv
        · exact (not_lt.1 h).trans a
        · exact b v hv
      · rcases c with c | c
        · left; exact c
        · right; exact List.mem_cons_of_mem _ c

/-- **C30.** With automatic limits on the linear scale: no pixel is above the upper limit, and when some pixel has positive luminance the
limit is the luminance of a pixel, which gets the last colour of the map. -/
theorem C30_linear_auto (im : ImageBuffer) (m : Colourmap) :
    (∀ p ∈ im.pixels, p.luminance ≤ linearMax (im.pixels.map Spectrum.luminance) none) ∧
    ((∃ p ∈ im.pixels, 0 < p.luminance) →
      ∃ p ∈ im.pixels, p.luminance = linearMax (im.pixels.map Spectrum.luminance) none ∧
        (m.table[255]?).map Res.ok =
          some (mapLinearColour p.luminance (linearMin none) (linearMax (im.pixels.map Spectrum.luminance) none) m.table)) := by
  obtain ⟨a, b, c⟩ := foldl_max (im.pixels.map Spectrum.luminance) 0
  have hm : linearMax (im.pixels.map Spectrum.luminance) none = (im.pixels.map Spectrum.luminance).foldl (fun m v => if v > m then v else m) 0 := by
    simp only [linearMax]
    split
    · rename_i h; rw [mul_zero]; exact le_antisymm a h
    · rfl
  rw [hm]
  refine ⟨fun p hp => b _ (List.mem_map_of_mem hp), ?_⟩
  rintro ⟨p, hp, hpos⟩
  have hgt : 0 < (im.pixels.map Spectrum.luminance).foldl (fun m v => if v > m then v else m) 0 :=
    lt_of_lt_of_le hpos (b _ (List.mem_map_of_mem hp))
  rcases c with c | c
  · rw [c] at hgt; exact absurd hgt (lt_irrefl _)
  · obtain ⟨q, hq, hqe⟩ := List.mem_map.1 c
    refine ⟨q, hq, hqe, ?_⟩
    rw [hqe]
    have hl : 2 ≤ m.table.length := by rw [(C30_tables m).1]; norm_num
    rw [(C29_clamped_partial _ (linearMin none) _ m.table (by simpa [linearMin] using hgt) hl).2 le_rfl]
    have : m.table.length - 1 = 255 := by rw [(C30_tables m).1]
    simp only [this]
    rw [List.getElem?_eq_getElem (by rw [(C30_tables m).1]; norm_num)]
    rfl

/-! ### The colours, in terms of the specification -/

theorem mapLinear_scale {table : List (Rgb ℝ)} {lo hi x : ℝ} (hl : 2 ≤ table.length) (hlt : lo < hi) {c : Rgb ℝ} (h : mapLinearColour x lo hi table = .ok c) : ScaleColour table lo hi x c := by
  obtain ⟨k1, k2⟩ := C29_clamped_partial x lo hi table hlt hl
  rcases le_or_gt x lo with h1 | h1
  · left
    refine ⟨h1, ?_⟩
    rw [k1 h1] at h
    rw [List.head?_eq_getElem?, List.getElem?_eq_getElem (by omega), Res.ok.inj h]
  rcases le_or_gt hi x with h2 | h2
  · right; left
    refine ⟨h2, ?_⟩
    rw [k2 h2] at h
    rw [List.getLast?_eq_getElem?, List.getElem?_eq_getElem (by omega), Res.ok.inj h]
  · right; right
    obtain ⟨i, hi', a, b⟩ := exists_interval x lo hi table.length hl hlt h1.le h2.le
    rw [C29_interpolates_partial x lo hi table hlt i hi' a b] at h
    have hn : (0 : ℝ) < ((table.length - 1 : Nat) : ℝ) := by
      have : 0 < table.length - 1 := by omega
      exact_mod_cast this
    have hc : ((table.length - 1 : Nat) : ℝ) = (table.length : ℝ) - 1 := by rw [Nat.cast_sub (by omega)]; simp
    have hd : 0 < (hi - lo) / ((table.length - 1 : Nat) : ℝ) := div_pos (by linarith) hn
    have hw : stop lo hi table.length (i + 1) - stop lo hi table.length i = (hi - lo) / ((table.length - 1 : Nat) : ℝ) := by
      unfold stop; push_cast; ring
    rw [hw] at h
    refine ⟨i, table[i], table[i + 1], (x - stop lo hi table.length i) / ((hi - lo) / ((table.length - 1 : Nat) : ℝ)), List.getElem?_eq_getElem (by omega), List.getElem?_eq_getElem hi', ?_, ?_, ?_, (Res.ok.inj h).symm⟩
    · exact div_nonneg (by linarith) hd.le
    · rw [div_le_one hd]; linarith
    · rw [← hc]
      generalize (hi - lo) / ((table.length - 1 : Nat) : ℝ) = w at hd hw
      have : stop lo hi table.length i = lo + i * ((hi - lo) / ((table.length - 1 : Nat) : ℝ)) := rfl
      rw [add_mul, div_mul_cancel₀ _ hd.ne']
      unfold stop at hw ⊢
      push_cast at hw
      have hw' : (hi - lo) / ((table.length - 1 : Nat) : ℝ) = w := by linarith
      rw [hw']; ring

theorem linearMin_end {asked : Option ℝ} {lo : ℝ} (h : LowerEnd 0 asked lo) : linearMin asked = lo := by
  rcases h with ⟨rfl, rfl⟩ | ⟨v, rfl, ⟨h1, rfl⟩ | ⟨h1, rfl⟩⟩
  · rfl
  · exact max_eq_right h1.le
  · exact max_eq_left h1

theorem linearMax_end {values : List ℝ} {asked : Option ℝ} {hi : ℝ} (h : UpperEnd values asked hi) (hpos : asked = none → 0 < hi) : linearMax values asked = hi := by
  rcases h with rfl | ⟨rfl, hm, hge⟩
  · rfl
  · obtain ⟨_, b, c⟩ := foldl_max values 0
    have hle := b _ hm
    have he : values.foldl (fun m v => if v > m then v else m) 0 = hi := by
      rcases c with c | c
      · rw [c] at hle; exact absurd (hpos rfl) (not_lt.2 hle)
      · exact le_antisymm (hge _ c) hle
    simp only [linearMax, he]
    rw [if_neg (not_le.2 (hpos rfl))]

/-- **C30, linear scale.** The bytes of each pixel are those of the colour of its luminance on the scale from the lower end (the one asked for, or zero if none was asked for or it is negative) to the upper end (the one asked for, or
the brightest pixel). -/
theorem C30_linear_colours (im : ImageBuffer) (min max : Option ℝ) (m : Colourmap) (j : JpegInput) (h : im.saveFalsecolour min max m = .ok j) (lo hi : ℝ) (hlo : LowerEnd 0 min lo)
    (hhi : UpperEnd (im.pixels.map Spectrum.luminance) max hi) (hlt : lo < hi) (i : Nat) (p : Spectrum ℝ) (hp : im.pixels[i]? = some p) :
    ∃ c, ScaleColour m.table lo hi p.luminance c ∧ j.data[3 * i]? = some (realAsU8 (roundAway (c.r * 256))) ∧ j.data[3 * i + 1]? = some (realAsU8 (roundAway (c.g * 256))) ∧
      j.data[3 * i + 2]? = some (realAsU8 (roundAway (c.b * 256))) := by
  obtain ⟨_, _, _, hb⟩ := C30_linear_bytes im min max m j h
  obtain ⟨hi', he⟩ := List.getElem?_eq_some_iff.1 hp
  obtain ⟨c, hc, hbytes⟩ := hb i hi'
  have h0 : 0 ≤ lo := by
    rcases hlo with ⟨_, rfl⟩ | ⟨v, _, ⟨_, rfl⟩ | ⟨h1, rfl⟩⟩ <;> [exact le_rfl; exact le_rfl; exact h1]
  rw [linearMin_end hlo, linearMax_end hhi (fun _ => lt_of_le_of_lt h0 hlt), he] at hc
  exact ⟨c, mapLinear_scale (by rw [(C30_tables m).1]; norm_num) hlt hc, hbytes⟩

/-! ### Logarithmic scale -/

theorem mapLog_total (x : LogF) (min : ℝ) (max : LogF) (map : List (Rgb ℝ)) (hl : 2 ≤ map.length) (hx : x ≠ .nan) (hm : max ≠ .nan) :
    ∃ c, mapLogColour x min max map = .ok c := by
  have h0 : ∃ c, Res.ofOption map.head? = .ok c := by
    cases map with
    | nil => simp at hl
    | cons p l => exact ⟨p, rfl⟩
  have h1 : ∃ c, Res.ofOption map.getLast? = .ok c := by
    rw [List.getLast?_eq_getElem?, List.getElem?_eq_getElem (by omega)]; exact ⟨_, rfl⟩
  unfold mapLogColour
  cases x with
  | nan => exact absurd rfl hx
  | negInf => exact h0
  | fin x =>
    cases max with
    | nan => exact absurd rfl hm
    | negInf =>
      simp only
      split
      · exact h0
      · exact h1
    | fin max => exact mapLinear_total x min max map hl

theorem log10F_ne_nan {x : ℝ} (h : 0 ≤ x) : log10F x ≠ .nan := by
  unfold log10F
  split
  · simp
  · split
    · simp
    · rename_i h1 h2; exact absurd (lt_of_le_of_ne h (Ne.symm h2)) h1

theorem logMax_ne_nan (l : List LogF) (max : Option ℝ) (hmax : ∀ v, max = some v → 0 ≤ v) : logMax l max ≠ .nan := by
  cases max with
  | none => simp only [logMax]; split <;> simp
  | some v => exact log10F_ne_nan (hmax v rfl)

/-- **C30 (exact arithmetic).** The logarithmic false-colour image is produced for every image without negative luminances and every
non-negative upper limit (black pixels included: their logarithm is minus infinity), if the image has all its pixels and neither side of it is a multiple of 65536. -/
theorem C30_log_succeeds_partial (im : ImageBuffer) (hc : im.width * im.height ≤ im.pixels.length) (hw : im.width % 65536 ≠ 0) (hh : im.height % 65536 ≠ 0) (min max : Option ℝ) (m : Colourmap) (hp : ∀ p ∈ im.pixels, 0 ≤ p.luminance)
    (hmax : ∀ v, max = some v → 0 ≤ v) : ∃ j, im.saveLogFalsecolour min max m = .ok j := by
  have hl : 2 ≤ m.table.length := by rw [(C30_tables m).1]; norm_num
  have := pushColours_ok (fun x => mapLogColour x (logMin min) (logMax (im.pixels.map (fun p => log10F p.luminance)) max) m.table)
    (im.pixels.map (fun p => log10F p.luminance)) (by
      intro x hx
      obtain ⟨p, hpm, rfl⟩ := List.mem_map.1 hx
      exact mapLog_total _ _ _ _ hl (log10F_ne_nan (hp p hpm)) (logMax_ne_nan _ _ hmax))
  obtain ⟨d, hd⟩ := this
  unfold ImageBuffer.saveLogFalsecolour
  simp only
  rw [hd, Res.bind_ok, encode_ok (by simpa using (pushColours_spec _ _ d hd).1) hc hw hh]
  exact ⟨_, rfl⟩

/-- **C30.** Three bytes per pixel, in pixel order, on the logarithmic scale. -/
theorem C30_log_bytes (im : ImageBuffer) (min max : Option ℝ) (m : Colourmap) (j : JpegInput) (h : im.saveLogFalsecolour min max m = .ok j) :
    j.data.length = 3 * im.pixels.length ∧ j.width = im.width % 65536 ∧ j.height = im.height % 65536 ∧
    ∀ i (hi : i < im.pixels.length), ∃ c,
      mapLogColour (log10F im.pixels[i].luminance) (logMin min) (logMax (im.pixels.map (fun p => log10F p.luminance)) max) m.table = .ok c ∧
      j.data[3 * i]? = some (realAsU8 (roundAway (c.r * 256))) ∧ j.data[3 * i + 1]? = some (realAsU8 (roundAway (c.g * 256))) ∧
      j.data[3 * i + 2]? = some (realAsU8 (roundAway (c.b * 256))) := by
  unfold ImageBuffer.saveLogFalsecolour at h
  simp only at h
  cases hd : pushColours (fun x => mapLogColour x (logMin min) (logMax (im.pixels.map (fun p => log10F p.luminance)) max) m.table)
      (im.pixels.map (fun p => log10F p.luminance)) with
  | panic => simp [hd] at h
  | diverge => simp [hd] at h
  | ok d =>
    rw [hd, Res.bind_ok] at h
    have h := encode_eq h
    subst h
    obtain ⟨h1, h2⟩ := pushColours_spec _ _ d hd
    refine ⟨by simpa using h1, rfl, rfl, ?_⟩
    intro i hi
    obtain ⟨c, hc, b⟩ := h2 i (by simpa using hi)
    exact ⟨c, by simpa using hc, b⟩

theorem foldl_logMax (l : List LogF) (m0 : ℝ) : m0 ≤ l.foldl logMaxStep m0 ∧ ∀ v, LogF.fin v ∈ l → v ≤ l.foldl logMaxStep m0 := by
  induction l generalizing m0 with
  | nil => simp
  | cons x l ih =>
    simp only [List.foldl_cons]
    obtain ⟨a, b⟩ := ih (logMaxStep m0 x)
    have hstep : m0 ≤ logMaxStep m0 x := by
      cases x with
      | fin v => simp only [logMaxStep]; split <;> linarith
      | _ => exact le_rfl
    refine ⟨hstep.trans a, ?_⟩
    intro v hv
    rcases List.mem_cons.1 hv with rfl | hv
    · refine le_trans ?_ a
      simp only [logMaxStep]; split <;> linarith
    · exact b v hv

/-- **C30.** With an automatic upper limit on the logarithmic scale, no pixel is above it. -/
theorem C30_log_auto_bounds (im : ImageBuffer) (p : Spectrum ℝ) (hp : p ∈ im.pixels) (h : 0 < p.luminance) :
    ∃ hi, logMax (im.pixels.map (fun p => log10F p.luminance)) none = .fin hi ∧ Real.logb 10 p.luminance ≤ hi := by
  obtain ⟨a, b⟩ := foldl_logMax (im.pixels.map (fun p => log10F p.luminance)) (1 / 1000)
  have hmem : LogF.fin (Real.logb 10 p.luminance) ∈ im.pixels.map (fun p => log10F p.luminance) :=
    List.mem_map.2 ⟨p, hp, by simp [log10F, h]⟩
  have := b _ hmem
  simp only [logMax]
  split
  · rename_i hle
    exact ⟨_, rfl, by linarith⟩
  · exact ⟨_, rfl, this⟩

theorem logMin_end {asked : Option ℝ} {lo : ℝ} (h : LowerEnd (1 / 1000) asked lo) : logMin asked = Real.logb 10 lo := by
  rcases h with ⟨rfl, rfl⟩ | ⟨v, rfl, ⟨h1, rfl⟩ | ⟨h1, rfl⟩⟩
  · rfl
  · simp only [logMin]; rw [max_eq_right h1.le]
  · simp only [logMin]; rw [max_eq_left h1]

theorem foldl_logMax_mem (l : List LogF) (m0 : ℝ) : l.foldl logMaxStep m0 = m0 ∨ LogF.fin (l.foldl logMaxStep m0) ∈ l := by
  induction l generalizing m0 with
  | nil => left; rfl
  | cons x l ih =>
    simp only [List.foldl_cons]
    rcases ih (logMaxStep m0 x) with h | h
    · rw [h]
      cases x with
      | fin v =>
        simp only [logMaxStep]
        split
        · right; exact List.mem_cons_self
        · left; rfl
      | _ => left; rfl
    · right; exact List.mem_cons_of_mem _ h

theorem logMax_end {pixels : List (Spectrum ℝ)} {asked : Option ℝ} {hi : ℝ} (h : UpperEnd (pixels.map Spectrum.luminance) asked hi) (h0 : 0 < hi) (hpos : asked = none → 1 / 1000 < Real.logb 10 hi) :
    logMax (pixels.map fun p => log10F p.luminance) asked = .fin (Real.logb 10 hi) := by
  rcases h with rfl | ⟨rfl, hm, hge⟩
  · simp [logMax, log10F, h0]
  · obtain ⟨p, hp, hpe⟩ := List.mem_map.1 hm
    obtain ⟨a, b⟩ := foldl_logMax (pixels.map fun p => log10F p.luminance) (1 / 1000)
    have hb := b (Real.logb 10 hi) (List.mem_map.2 ⟨p, hp, by simp [log10F, hpe, h0]⟩)
    have he : (pixels.map fun p => log10F p.luminance).foldl logMaxStep (1 / 1000) = Real.logb 10 hi := by
      rcases foldl_logMax_mem (pixels.map fun p => log10F p.luminance) (1 / 1000) with h | h
      · rw [h] at hb; exact absurd (hpos rfl) (not_lt.2 hb)
      · obtain ⟨q, hq, hqe⟩ := List.mem_map.1 h
        refine le_antisymm ?_ hb
        clear hb h
        generalize (pixels.map fun p => log10F p.luminance).foldl logMaxStep (1 / 1000) = M at hqe
        unfold log10F at hqe
        split at hqe
        · rename_i hq0
          rw [← LogF.fin.inj hqe]
          exact Real.logb_le_logb_of_le (by norm_num) hq0 (hge _ (List.mem_map_of_mem hq))
        · split at hqe <;> cases hqe
    simp only [logMax, he]
    rw [if_neg (not_le.2 (hpos rfl))]

/-- **C30, logarithmic scale.** The bytes of each pixel are those of the colour of the logarithm of its luminance, on the scale from the logarithm of the lower end (the one asked for, or 0.001 if none was asked for or it is less) to that of the
upper end (the one asked for, or the brightest pixel); black pixels get the first colour. For automatic upper ends only if the brightest pixel is above `10 ^ 0.001` (else see `C30_violation_log_auto`). -/
theorem C30_log_colours_partial (im : ImageBuffer) (min max : Option ℝ) (m : Colourmap) (j : JpegInput) (h : im.saveLogFalsecolour min max m = .ok j) (lo hi : ℝ) (hlo : LowerEnd (1 / 1000) min lo)
    (hhi : UpperEnd (im.pixels.map Spectrum.luminance) max hi) (hlt : lo < hi) (hauto : max = none → 1 / 1000 < Real.logb 10 hi) (i : Nat) (p : Spectrum ℝ) (hp : im.pixels[i]? = some p) :
    ∃ c, (p.luminance = 0 ∧ m.table.head? = some c ∨ 0 < p.luminance ∧ ScaleColour m.table (Real.logb 10 lo) (Real.logb 10 hi) (Real.logb 10 p.luminance) c) ∧
      j.data[3 * i]? = some (realAsU8 (roundAway (c.r * 256))) ∧ j.data[3 * i + 1]? = some (realAsU8 (roundAway (c.g * 256))) ∧ j.data[3 * i + 2]? = some (realAsU8 (roundAway (c.b * 256))) := by
  obtain ⟨_, _, _, hb⟩ := C30_log_bytes im min max m j h
  obtain ⟨hi', he⟩ := List.getElem?_eq_some_iff.1 hp
  obtain ⟨c, hc, hbytes⟩ := hb i hi'
  have h0 : 0 < lo := by
    rcases hlo with ⟨_, rfl⟩ | ⟨v, _, ⟨_, rfl⟩ | ⟨h1, rfl⟩⟩ <;> [norm_num; norm_num; exact lt_of_lt_of_le (by norm_num) h1]
  rw [logMin_end hlo, logMax_end hhi (h0.trans hlt) hauto, he] at hc
  refine ⟨c, ?_, hbytes⟩
  unfold log10F at hc
  split at hc
  · rename_i hpos
    exact Or.inr ⟨hpos, mapLinear_scale (by rw [(C30_tables m).1]; norm_num) (Real.logb_lt_logb (by norm_num) h0 hlt) hc⟩
  · split at hc
    · rename_i h2
      refine Or.inl ⟨h2, ?_⟩
      simp only [mapLogColour] at hc
      cases hh : m.table.head? with
      | none => rw [hh] at hc; cases hc
      | some d => rw [hh] at hc; rw [Res.ok.inj hc]
    · simp [mapLogColour] at hc

/-- C30: a negative lower end is met, and behaves as zero. -/
example : LowerEnd 0 (some (-3)) 0 ∧ UpperEnd ((⟨1, 2, [Spectrum.gray 0, Spectrum.gray 1]⟩ : ImageBuffer).pixels.map Spectrum.luminance) none 179 :=
  ⟨Or.inr ⟨-3, rfl, Or.inl ⟨by norm_num, rfl⟩⟩, Or.inr ⟨rfl, by norm_num [Spectrum.luminance, Spectrum.radiance, Spectrum.channels, Spectrum.gray, Spectrum.radianceCoefficients, Spectrum.whiteEfficacy],
    by norm_num [Spectrum.luminance, Spectrum.radiance, Spectrum.channels, Spectrum.gray, Spectrum.radianceCoefficients, Spectrum.whiteEfficacy]⟩⟩

/-- **C30, violation (automatic logarithmic limit).** For an image no brighter than 1 cd/m², however dark, the automatic upper limit is the
fixed value 10^0.002: the starting value 0.001 is meant as a luminance but is compared with logarithms. So a dim image never
uses the upper part of the map. -/
theorem C30_violation_log_auto (im : ImageBuffer) (h : ∀ p ∈ im.pixels, 0 ≤ p.luminance ∧ p.luminance ≤ 1) :
    logMax (im.pixels.map (fun p => log10F p.luminance)) none = .fin (2 / 1000) := by
  have : (im.pixels.map (fun p => log10F p.luminance)).foldl logMaxStep (1 / 1000) = 1 / 1000 := by
    generalize hl : im.pixels = l at h
    clear hl
    induction l with
    | nil => rfl
    | cons p l ih =>
      simp only [List.map_cons, List.foldl_cons]
      have hp := h p (List.mem_cons_self ..)
      have : logMaxStep (1 / 1000) (log10F p.luminance) = 1 / 1000 := by
        unfold log10F
        split
        · have : Real.logb 10 p.luminance ≤ 0 := Real.logb_nonpos (by norm_num) hp.1 hp.2
          simp only [logMaxStep]
          rw [if_neg (by linarith)]
        · split <;> rfl
      rw [this]
      exact ih (fun p hp => h p (List.mem_cons_of_mem _ hp))
  simp only [logMax]
  rw [this, if_pos le_rfl]
  norm_num

/-- A pixel of negative luminance makes the logarithmic version panic (NaN falls through `map_linear_colour`). -/
theorem C30_violation_log_negative (c : Spectrum ℝ) (h : c.luminance < 0) (m : Colourmap) :
    (⟨1, 1, [c]⟩ : ImageBuffer).saveLogFalsecolour none none m = .panic := by
  have hn : log10F c.luminance = .nan := by
    unfold log10F; rw [if_neg (by linarith), if_neg h.ne]
  simp [ImageBuffer.saveLogFalsecolour, pushColours, hn, mapLogColour]

theorem pushColours_panics {β : Type} (f : β → Res (Rgb ℝ)) (xs : List β) (hf : ∀ x ∈ xs, f x ≠ .diverge) (x : β) (hx : x ∈ xs) (h : f x = .panic) : pushColours f xs = .panic := by
  induction xs with
  | nil => simp at hx
  | cons y ys ih =>
    unfold pushColours
    cases hy : f y with
    | panic => rfl
    | diverge => exact absurd hy (hf y (List.mem_cons_self ..))
    | ok c =>
      simp only [Res.bind_ok]
      rcases List.mem_cons.1 hx with rfl | hx
      · rw [h] at hy; cases hy
      · rw [ih (fun z hz => hf z (List.mem_cons_of_mem _ hz)) hx]
        rfl

/-- **C30, violation (negative upper limit).** With a negative upper limit the logarithmic version panics as soon as one pixel is brighter than the lower limit; it does not if all of them are at most as bright, but then everything has the first colour. -/
theorem C30_violation_log_limit (im : ImageBuffer) (hp : ∀ p ∈ im.pixels, 0 ≤ p.luminance) (min : Option ℝ) (v : ℝ) (hv : v < 0) (m : Colourmap) :
    ((∃ p ∈ im.pixels, max (min.getD 0) (1 / 1000) < p.luminance) → im.saveLogFalsecolour min (some v) m = .panic) ∧
    ((∀ p ∈ im.pixels, p.luminance ≤ max (min.getD 0) (1 / 1000)) → ∃ c, m.table.head? = some c ∧
      im.saveLogFalsecolour min (some v) m = JpegInput.encode { data := im.pixels.flatMap fun _ => colourBytes c, width := asU16 im.width, height := asU16 im.height }) := by
  have hlo : logMin min = Real.logb 10 (max (min.getD 0) (1 / 1000)) := by
    cases min with
    | none =>
      simp only [logMin, Option.getD_none]
      rw [max_eq_right (by norm_num)]
    | some w => rfl
  have hpos : 0 < max (min.getD 0) (1 / 1000) := lt_of_lt_of_le (by norm_num) (le_max_right _ _)
  have hhi : ∀ l, logMax l (some v) = .nan := by
    intro l
    simp only [logMax, log10F]
    rw [if_neg (by linarith), if_neg hv.ne]
  obtain ⟨c, hc⟩ : ∃ c, m.table.head? = some c := by
    have hl : 2 ≤ m.table.length := by rw [(C30_tables m).1]; norm_num
    cases ht : m.table with
    | nil => rw [ht] at hl; simp at hl
    | cons c cs => exact ⟨c, rfl⟩
  have hdark : ∀ p : Spectrum ℝ, 0 ≤ p.luminance → p.luminance ≤ max (min.getD 0) (1 / 1000) → mapLogColour (log10F p.luminance) (logMin min) .nan m.table = .ok c := by
    intro p h0 h1
    unfold log10F
    split
    · rename_i h
      simp only [mapLogColour]
      rw [hlo, if_pos (Real.logb_le_logb_of_le (by norm_num) h h1), hc]
      rfl
    · rw [if_pos (by linarith)]
      simp only [mapLogColour, hc]
      rfl
  have hbright : ∀ p : Spectrum ℝ, max (min.getD 0) (1 / 1000) < p.luminance → mapLogColour (log10F p.luminance) (logMin min) .nan m.table = .panic := by
    intro p h1
    unfold log10F
    rw [if_pos (by linarith)]
    simp only [mapLogColour]
    rw [hlo, if_neg (not_le.2 (Real.logb_lt_logb (by norm_num) hpos h1))]
  constructor
  · rintro ⟨p, hpm, hb⟩
    unfold ImageBuffer.saveLogFalsecolour
    simp only [hhi]
    rw [pushColours_panics _ _ ?_ (log10F p.luminance) (List.mem_map.2 ⟨p, hpm, rfl⟩) (hbright p hb)]
    · rfl
    · intro x hx
      obtain ⟨q, hq, rfl⟩ := List.mem_map.1 hx
      by_cases h : q.luminance ≤ max (min.getD 0) (1 / 1000)
      · rw [hdark q (hp q hq) h]; simp
      · rw [hbright q (not_le.1 h)]; simp
  · intro hd
    refine ⟨c, hc, ?_⟩
    unfold ImageBuffer.saveLogFalsecolour
    simp only [hhi]
    have : ∀ l : List (Spectrum ℝ), (∀ p ∈ l, 0 ≤ p.luminance) → (∀ p ∈ l, p.luminance ≤ max (min.getD 0) (1 / 1000)) → pushColours (fun x => mapLogColour x (logMin min) .nan m.table) (l.map fun p => log10F p.luminance) = .ok (l.flatMap fun _ => colourBytes c) := by
      intro l h0 h1
      induction l with
      | nil => rfl
      | cons p l ih =>
        simp only [List.map_cons, pushColours]
        rw [hdark p (h0 p (by simp)) (h1 p (by simp)), Res.bind_ok, ih (fun q hq => h0 q (by simp [hq])) (fun q hq => h1 q (by simp [hq])), Res.bind_ok]
        rfl
    rw [this im.pixels hp hd, Res.bind_ok]

/-- A white pixel, whatever the lower limit below 1, and a black one. -/
example (m : Colourmap) : (⟨1, 1, [⟨1, 1, 1⟩]⟩ : ImageBuffer).saveLogFalsecolour none (some (-1)) m = .panic :=
  (C30_violation_log_limit _ (by norm_num [Spectrum.luminance, Spectrum.radiance, Spectrum.whiteEfficacy, Spectrum.channels, Spectrum.radianceCoefficients]) none (-1) (by norm_num) m).1
    ⟨⟨1, 1, 1⟩, by simp, by norm_num [Spectrum.luminance, Spectrum.radiance, Spectrum.whiteEfficacy, Spectrum.channels, Spectrum.radianceCoefficients]⟩

theorem encode_panics {j : JpegInput} (h : j.width = 0 ∨ j.height = 0 ∨ j.data.length < j.width * j.height * 3) : JpegInput.encode j = .panic := by
  unfold JpegInput.encode; rw [if_pos h]

/-- What `saveFalsecolour` and `saveLogFalsecolour` do if the encoder refuses whatever data they make. -/
theorem falsecolour_refused (im : ImageBuffer) (h : ∀ d : List UInt8, d.length = 3 * im.pixels.length → JpegInput.encode { data := d, width := asU16 im.width, height := asU16 im.height } = .panic)
    (min max : Option ℝ) (m : Colourmap) : im.saveFalsecolour min max m = .panic ∧ ((∀ p ∈ im.pixels, 0 ≤ p.luminance) → (∀ v, max = some v → 0 ≤ v) → im.saveLogFalsecolour min max m = .panic) := by
  have hl : 2 ≤ m.table.length := by rw [(C30_tables m).1]; norm_num
  constructor
  · obtain ⟨d, hd⟩ := pushColours_ok (fun x => mapLinearColour x (linearMin min) (linearMax (im.pixels.map Spectrum.luminance) max) m.table)
      (im.pixels.map Spectrum.luminance) (fun x _ => mapLinear_total x _ _ _ hl)
    unfold ImageBuffer.saveFalsecolour
    simp only
    rw [hd, Res.bind_ok, h d (by simpa using (pushColours_spec _ _ d hd).1)]
  · intro hp hmax
    obtain ⟨d, hd⟩ := pushColours_ok (fun x => mapLogColour x (logMin min) (logMax (im.pixels.map (fun p => log10F p.luminance)) max) m.table)
      (im.pixels.map (fun p => log10F p.luminance)) (by
        intro x hx
        obtain ⟨p, hpm, rfl⟩ := List.mem_map.1 hx
        exact mapLog_total _ _ _ _ hl (log10F_ne_nan (hp p hpm)) (logMax_ne_nan _ _ hmax))
    unfold ImageBuffer.saveLogFalsecolour
    simp only
    rw [hd, Res.bind_ok, h d (by simpa using (pushColours_spec _ _ d hd).1)]

/-- **C30, violation (incomplete images).** An image that has fewer pixels than its size says — which is what reading a file that was cut short gives, see `C26` — makes the saving of false colours panic instead of reporting an error. -/
theorem C30_violation_truncated (im : ImageBuffer) (hw : im.width < 65536) (hh : im.height < 65536) (h : im.pixels.length < im.width * im.height) (min max : Option ℝ) (m : Colourmap) :
    im.saveFalsecolour min max m = .panic ∧ ((∀ p ∈ im.pixels, 0 ≤ p.luminance) → (∀ v, max = some v → 0 ≤ v) → im.saveLogFalsecolour min max m = .panic) := by
  refine falsecolour_refused im (fun d hd => encode_panics (Or.inr (Or.inr ?_))) min max m
  simp only [asU16, Nat.mod_eq_of_lt hw, Nat.mod_eq_of_lt hh, hd]
  omega

/-- **C30, violation (large images).** So does an image 65536 pixels wide or high, since the sizes are cut to 16 bits; and one with no pixels at all. -/
theorem C30_violation_wide (im : ImageBuffer) (h : im.width % 65536 = 0 ∨ im.height % 65536 = 0) (min max : Option ℝ) (m : Colourmap) :
    im.saveFalsecolour min max m = .panic ∧ ((∀ p ∈ im.pixels, 0 ≤ p.luminance) → (∀ v, max = some v → 0 ≤ v) → im.saveLogFalsecolour min max m = .panic) :=
  falsecolour_refused im (fun _ _ => encode_panics (h.elim Or.inl fun h => Or.inr (Or.inl h))) min max m

/-- **C30, violation (larger images).** An image of 65537 by 1 pixels gives, with no complaint, a picture one pixel wide. -/
theorem C30_violation_cropped (c : Spectrum ℝ) (min max : Option ℝ) (m : Colourmap) :
    ∃ j, (⟨65537, 1, List.replicate 65537 c⟩ : ImageBuffer).saveFalsecolour min max m = .ok j ∧ j.width = 1 ∧ j.height = 1 := by
  obtain ⟨j, hj⟩ := C30_linear_succeeds_partial ⟨65537, 1, List.replicate 65537 c⟩ (by simp only [List.length_replicate]; norm_num) (by norm_num) (by norm_num) min max m
  obtain ⟨_, k2, k3, _⟩ := C30_linear_bytes _ min max m j hj
  exact ⟨j, hj, by simpa using k2, by simpa using k3⟩

/-- The hypotheses are met: a 1x2 image with a dark and a bright pixel. -/
example : ∃ p ∈ (⟨1, 2, [Spectrum.gray 0, Spectrum.gray 1]⟩ : ImageBuffer).pixels, 0 < p.luminance :=
  ⟨Spectrum.gray 1, by simp, by norm_num [Spectrum.luminance, Spectrum.radiance, Spectrum.channels, Spectrum.gray, Spectrum.radianceCoefficients, Spectrum.whiteEfficacy]⟩

/-- The picture of the cases below: a black pixel above a white one. -/
noncomputable def blackWhite : ImageBuffer := ⟨1, 2, [Spectrum.gray 0, Spectrum.gray 1]⟩

theorem blackWhite_luminance : (Spectrum.gray (1 : ℝ)).luminance = 179 ∧ (Spectrum.gray (0 : ℝ)).luminance = 0 := by
  constructor <;> norm_num [Spectrum.luminance, Spectrum.radiance, Spectrum.channels, Spectrum.gray, Spectrum.radianceCoefficients, Spectrum.whiteEfficacy]

theorem blackWhite_scale : UpperEnd (blackWhite.pixels.map Spectrum.luminance) none 179 := by
  refine Or.inr ⟨rfl, ?_, ?_⟩ <;> simp [blackWhite, blackWhite_luminance.1, blackWhite_luminance.2]

theorem blackWhite_dark : ∀ p ∈ blackWhite.pixels, 0 ≤ p.luminance := by
  intro p hp
  simp only [blackWhite, List.mem_cons, List.not_mem_nil, or_false] at hp
  rcases hp with rfl | rfl
  · rw [blackWhite_luminance.2]
  · rw [blackWhite_luminance.1]; norm_num

/-- C30: its false colours. -/
example (m : Colourmap) : ∃ j, blackWhite.saveFalsecolour none none m = .ok j ∧ j.data.length = 6 ∧ ∃ c, ScaleColour m.table 0 179 179 c ∧ j.data[3]? = some (realAsU8 (roundAway (c.r * 256))) := by
  obtain ⟨j, hj⟩ := C30_linear_succeeds_partial blackWhite (by simp [blackWhite]) (by norm_num [blackWhite]) (by norm_num [blackWhite]) none none m
  obtain ⟨h1, _⟩ := C30_linear_bytes blackWhite none none m j hj
  obtain ⟨c, h2, h3, _⟩ := C30_linear_colours blackWhite none none m j hj 0 179 (Or.inl ⟨rfl, rfl⟩) blackWhite_scale (by norm_num) 1 (Spectrum.gray 1) rfl
  rw [blackWhite_luminance.1] at h2
  exact ⟨j, hj, h1, c, h2, h3⟩

example (m : Colourmap) : ∃ j, blackWhite.saveLogFalsecolour none none m = .ok j ∧ j.data.length = 6 ∧ ∃ c, m.table.head? = some c ∧ j.data[0]? = some (realAsU8 (roundAway (c.r * 256))) := by
  obtain ⟨j, hj⟩ := C30_log_succeeds_partial blackWhite (by simp [blackWhite]) (by norm_num [blackWhite]) (by norm_num [blackWhite]) none none m blackWhite_dark (by simp)
  obtain ⟨h1, _⟩ := C30_log_bytes blackWhite none none m j hj
  have hlog : (1 / 1000 : ℝ) < Real.logb 10 179 := by
    have : Real.logb 10 10 ≤ Real.logb 10 179 := Real.logb_le_logb_of_le (by norm_num) (by norm_num) (by norm_num)
    rw [Real.logb_self_eq_one (by norm_num)] at this
    linarith
  obtain ⟨c, h2, h3, _⟩ := C30_log_colours_partial blackWhite none none m j hj (1 / 1000) 179 (Or.inl ⟨rfl, rfl⟩) blackWhite_scale (by norm_num) (fun _ => hlog) 0 (Spectrum.gray 0) rfl
  rw [blackWhite_luminance.2] at h2
  exact ⟨j, hj, h1, c, h2.elim (fun h => h.2) fun h => absurd h.1 (lt_irrefl _), h3⟩

/-- C30: dark pictures, a picture with too few pixels, one that is too wide. -/
example := C30_violation_log_auto ⟨1, 1, [Spectrum.gray 0]⟩ (by intro p hp; rw [List.mem_singleton.1 hp, blackWhite_luminance.2]; norm_num)

example := fun min max m => C30_violation_truncated ⟨2, 2, [Spectrum.gray 0]⟩ (by norm_num) (by norm_num) (by norm_num) min max m

example := fun min max m => C30_violation_wide ⟨65536, 1, List.replicate 65536 (Spectrum.gray 0)⟩ (Or.inl rfl) min max m

end Rendering
