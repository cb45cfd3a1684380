import Verif.Lemmas.Rgbe

/-!
# C23, C25: the RGBE pixel encoding
-/

namespace Rendering

/-- Encoding then decoding one pixel. -/
noncomputable def throughRgbe (p : Spectrum ℝ) : Spectrum ℝ :=
  match colourToRgbe p.c0 p.c1 p.c2 with
  | (r, g, b, e) => rgbeToColour r g b e

/-- The pixel has no negative channel, and `m` is its largest channel. -/
def LargestChannel (p : Spectrum ℝ) (m : ℝ) : Prop :=
  0 ≤ p.c0 ∧ 0 ≤ p.c1 ∧ 0 ≤ p.c2 ∧ p.c0 ≤ m ∧ p.c1 ≤ m ∧ p.c2 ≤ m ∧ (m = p.c0 ∨ m = p.c1 ∨ m = p.c2)

theorem LargestChannel.eq_maxOf {p : Spectrum ℝ} {m : ℝ} (h : LargestChannel p m) : m = maxOf p.c0 p.c1 p.c2 := by
  obtain ⟨_, _, _, a, b, c, d⟩ := h
  apply le_antisymm
  · rcases d with d | d | d <;> rw [d]
    · exact (le_maxOf _ _ _).1
    · exact (le_maxOf _ _ _).2.1
    · exact (le_maxOf _ _ _).2.2
  · exact max_le (max_le a b) c

theorem floor_error {c : ℝ} (e : ℤ) (m : ℝ) (h1 : (2 : ℝ) ^ (e - 1) ≤ m) :
    (⌊c * 2 ^ (8 - e)⌋ : ℝ) * 2 ^ (e - 8) ≤ c ∧ c - ⌊c * 2 ^ (8 - e)⌋ * 2 ^ (e - 8) < m / 128 := by
  have hp : (0 : ℝ) < 2 ^ (e - 8) := by positivity
  have hinv : (2 : ℝ) ^ (8 - e) * 2 ^ (e - 8) = 1 := by rw [← zpow_add₀ (by norm_num)]; norm_num
  have hfl := Int.floor_le (c * (2 : ℝ) ^ (8 - e))
  have hfl' := Int.lt_floor_add_one (c * (2 : ℝ) ^ (8 - e))
  have hc : c = c * (2 : ℝ) ^ (8 - e) * 2 ^ (e - 8) := by rw [mul_assoc, hinv, mul_one]
  have h8 : (2 : ℝ) ^ (e - 8) * 128 = 2 ^ (e - 1) := by
    rw [show (128 : ℝ) = 2 ^ (7 : ℤ) by norm_num, ← zpow_add₀ (by norm_num)]; congr 1; ring
  constructor
  · calc (⌊c * (2 : ℝ) ^ (8 - e)⌋ : ℝ) * 2 ^ (e - 8) ≤ c * 2 ^ (8 - e) * 2 ^ (e - 8) := by gcongr
      _ = c := hc.symm
  · have : c - ⌊c * (2 : ℝ) ^ (8 - e)⌋ * 2 ^ (e - 8) = (c * (2 : ℝ) ^ (8 - e) - ⌊c * (2 : ℝ) ^ (8 - e)⌋) * 2 ^ (e - 8) := by
      rw [sub_mul]; rw [← hc]
    rw [this]
    calc (c * (2 : ℝ) ^ (8 - e) - ⌊c * (2 : ℝ) ^ (8 - e)⌋) * 2 ^ (e - 8) < 1 * 2 ^ (e - 8) := by
          apply mul_lt_mul_of_pos_right _ hp; linarith
      _ ≤ m / 128 := by rw [one_mul, le_div_iff₀ (by norm_num)]; rw [h8]; exact h1

/-- **C23.** For every pixel whose largest channel `m` is between 1e-19 and 2^127, each decoded channel is at most the original and less
than `m / 128` below it. -/
theorem C23_rgbe_error_bounded (p : Spectrum ℝ) (m : ℝ) (hm : LargestChannel p m) (hlo : 1 / 10 ^ 19 ≤ m) (hhi : m < 2 ^ 127) :
    ((throughRgbe p).c0 ≤ p.c0 ∧ p.c0 - (throughRgbe p).c0 < m / 128) ∧
    ((throughRgbe p).c1 ≤ p.c1 ∧ p.c1 - (throughRgbe p).c1 < m / 128) ∧
    ((throughRgbe p).c2 ≤ p.c2 ∧ p.c2 - (throughRgbe p).c2 < m / 128) := by
  have he := hm.eq_maxOf
  obtain ⟨h0, h1, h2, -⟩ := hm
  rw [he] at hlo hhi
  obtain ⟨e, a, b, c⟩ := decode_encode h0 h1 h2 hlo hhi
  have : throughRgbe p = _ := c
  rw [this, he]
  exact ⟨floor_error e _ a, floor_error e _ a, floor_error e _ a⟩

/-- **C23.** A pixel whose largest channel is below 1e-19 decodes to black. -/
theorem C23_dark_is_black (p : Spectrum ℝ) (m : ℝ) (hm : LargestChannel p m) (hlo : m < 1 / 10 ^ 19) :
    throughRgbe p = Spectrum.black := by
  rw [hm.eq_maxOf] at hlo
  unfold throughRgbe
  rw [colourToRgbe_small hlo]
  simp [rgbeToColour]

/-- The hypotheses are met by an ordinary pixel. -/
example : LargestChannel ⟨807, 249, 73⟩ 807 ∧ (1 : ℝ) / 10 ^ 19 ≤ 807 ∧ (807 : ℝ) < 2 ^ 127 := by
  unfold LargestChannel; norm_num

/-- The range is needed: a pixel of 2^128 has an exponent that does not fit the byte, and decodes to black (in a release build). -/
theorem C23_range_needed : throughRgbe ⟨2 ^ 127, 0, 0⟩ = Spectrum.black := by
  have hmx : maxOf (2 ^ 127) 0 0 = 2 ^ 127 := by
    unfold maxOf; rw [max_eq_left (by positivity), max_eq_left (by positivity)]
  obtain ⟨e, h1, h2, h3⟩ := colourToRgbe_big (r := 2 ^ 127) (g := 0) (b := 0) (by rw [hmx]; norm_num)
  rw [hmx] at h1 h2
  have : e = 128 := exponent_unique h1 h2 (by norm_num) (by
    rw [show ((2 : ℝ) ^ (128 : ℤ)) = 2 ^ (128 : ℕ) by norm_cast]; norm_num)
  subst this
  unfold throughRgbe
  simp only
  rw [h3]
  have : i32AsU8 (128 + 128) = 0 := by decide
  simp only [this]
  simp [rgbeToColour]

theorem floor_of_byte (n : ℤ) (e : ℤ) : ⌊(n : ℝ) * 2 ^ (e - 8) * 2 ^ (8 - e)⌋ = n := by
  have : (2 : ℝ) ^ (e - 8) * 2 ^ (8 - e) = 1 := by rw [← zpow_add₀ (by norm_num)]; norm_num
  rw [mul_assoc, this, mul_one, Int.floor_intCast]

/-- **C25 (partial).** Re-encoding a decoded pixel gives the same four bytes, provided the largest channel is at least 237·2⁻⁷¹ (about
1.0038e-19, the first value at or above 1e-19 on the grid of the encoding). The missing part is the interval from 1e-19 to there, where
it is false (`C25_violation`). -/
theorem C25_resave_identity_partial (p : Spectrum ℝ) (m : ℝ) (hm : LargestChannel p m) (hlo : 237 / 2 ^ 71 ≤ m) (hhi : m < 2 ^ 127) :
    colourToRgbe (throughRgbe p).c0 (throughRgbe p).c1 (throughRgbe p).c2 = colourToRgbe p.c0 p.c1 p.c2 := by
  have hlo' : 1 / 10 ^ 19 ≤ m := le_trans (by norm_num) hlo
  obtain ⟨b0, b1, b2⟩ := C23_rgbe_error_bounded p m hm hlo' hhi
  have he := hm.eq_maxOf
  obtain ⟨h0, h1, h2, l0, l1, l2, heq⟩ := hm
  rw [he] at hlo' hhi
  obtain ⟨e, a, b, c⟩ := colourToRgbe_big hlo'
  obtain ⟨e', a', b', c'⟩ := decode_encode h0 h1 h2 hlo' hhi
  have hee : e' = e := exponent_unique a' b' a b
  subst hee
  have ht : throughRgbe p = _ := c'
  have hp : (0 : ℝ) < 2 ^ (e' - 8) := by positivity
  -- the largest channel of the decoded pixel
  have h256 : (2 : ℝ) ^ (8 - e') * 2 ^ (e' - 1) = 128 := by rw [← zpow_add₀ (by norm_num)]; norm_num
  have hbig : ∀ ch, ch = maxOf p.c0 p.c1 p.c2 → (2 : ℝ) ^ (e' - 1) ≤ ⌊ch * 2 ^ (8 - e')⌋ * 2 ^ (e' - 8) := by
    intro ch hch
    have : (128 : ℤ) ≤ ⌊ch * (2 : ℝ) ^ (8 - e')⌋ := by
      rw [Int.le_floor]
      push_cast
      rw [← h256, mul_comm ((2 : ℝ) ^ (8 - e'))]
      apply mul_le_mul_of_nonneg_right _ (by positivity)
      rw [hch]; exact a'
    have h' : (128 : ℝ) ≤ ⌊ch * (2 : ℝ) ^ (8 - e')⌋ := by exact_mod_cast this
    calc (2 : ℝ) ^ (e' - 1) = 128 * 2 ^ (e' - 8) := by
          rw [show (128 : ℝ) = 2 ^ (7 : ℤ) by norm_num, ← zpow_add₀ (by norm_num)]; congr 1; ring
      _ ≤ _ := by gcongr
  have hmaxlow : (2 : ℝ) ^ (e' - 1) ≤ maxOf (throughRgbe p).c0 (throughRgbe p).c1 (throughRgbe p).c2 := by
    rw [he] at heq
    rcases heq with h | h | h
    · exact (hbig _ h.symm).trans (by rw [ht]; exact (le_maxOf _ _ _).1)
    · exact (hbig _ h.symm).trans (by rw [ht]; exact (le_maxOf _ _ _).2.1)
    · exact (hbig _ h.symm).trans (by rw [ht]; exact (le_maxOf _ _ _).2.2)
  have hmaxhigh : maxOf (throughRgbe p).c0 (throughRgbe p).c1 (throughRgbe p).c2 < 2 ^ e' := by
    refine lt_of_le_of_lt (max_le (max_le ?_ ?_) ?_) b
    · exact b0.1.trans (le_maxOf _ _ _).1
    · exact b1.1.trans (le_maxOf _ _ _).2.1
    · exact b2.1.trans (le_maxOf _ _ _).2.2
  have henc : 1 / 10 ^ 19 ≤ maxOf (throughRgbe p).c0 (throughRgbe p).c1 (throughRgbe p).c2 := by
    by_contra hcon
    push Not at hcon
    have hgrid : 2 ^ (e' - 1) ≤ (1 : ℝ) / 10 ^ 19 := hmaxlow.trans hcon.le
    have he63 : e' = -63 := by
      have hub : (2 : ℝ) ^ (e' - 1) < 2 ^ (-63 : ℤ) := lt_of_le_of_lt hgrid (by norm_num)
      have := (zpow_lt_zpow_iff_right₀ (by norm_num : (1 : ℝ) < 2)).1 hub
      have := (exponent_range hlo' hhi a b).1
      omega
    rw [he63] at ht
    have hb : ∀ ch, ch = m → (1 : ℝ) / 10 ^ 19 ≤ ⌊ch * 2 ^ (8 - (-63 : ℤ))⌋ * 2 ^ ((-63 : ℤ) - 8) := by
      intro ch hch
      have : (237 : ℤ) ≤ ⌊ch * (2 : ℝ) ^ (8 - (-63 : ℤ))⌋ := by
        rw [Int.le_floor, hch]
        have h71 : (8 : ℤ) - (-63) = ((71 : ℕ) : ℤ) := by norm_num
        rw [h71, zpow_natCast]
        calc ((237 : ℤ) : ℝ) ≤ 237 / 2 ^ 71 * 2 ^ 71 := by norm_num
          _ ≤ m * 2 ^ 71 := by gcongr
      have h' : (237 : ℝ) ≤ ⌊ch * (2 : ℝ) ^ (8 - (-63 : ℤ))⌋ := by exact_mod_cast this
      calc (1 : ℝ) / 10 ^ 19 ≤ 237 * 2 ^ ((-63 : ℤ) - 8) := by norm_num
        _ ≤ _ := by gcongr
    have hl := le_maxOf (throughRgbe p).c0 (throughRgbe p).c1 (throughRgbe p).c2
    rcases heq with h | h | h
    · have := hb _ h.symm
      rw [ht] at hcon hl
      exact absurd (this.trans hl.1) (not_le.2 hcon)
    · have := hb _ h.symm
      rw [ht] at hcon hl
      exact absurd (this.trans hl.2.1) (not_le.2 hcon)
    · have := hb _ h.symm
      rw [ht] at hcon hl
      exact absurd (this.trans hl.2.2) (not_le.2 hcon)
  obtain ⟨e2, a2, b2', c2⟩ := colourToRgbe_big henc
  have : e2 = e' := exponent_unique a2 b2' hmaxlow hmaxhigh
  subst this
  rw [c2, c, ht]
  simp only [floor_of_byte]

example : LargestChannel ⟨1, 2, 3⟩ 3 ∧ (237 : ℝ) / 2 ^ 71 ≤ 3 ∧ (3 : ℝ) < 2 ^ 127 := by
  unfold LargestChannel; norm_num

/-- **C25 (partial).** Dark pixels, too, are stable under re-saving. -/
theorem C25_resave_dark_partial (p : Spectrum ℝ) (m : ℝ) (hm : LargestChannel p m) (hlo : m < 1 / 10 ^ 19) :
    colourToRgbe (throughRgbe p).c0 (throughRgbe p).c1 (throughRgbe p).c2 = colourToRgbe p.c0 p.c1 p.c2 := by
  rw [C23_dark_is_black p m hm hlo, colourToRgbe_small (r := p.c0) (by rw [← hm.eq_maxOf]; exact hlo)]
  apply colourToRgbe_small
  simp [Spectrum.black, Spectrum.gray, maxOf]

/-- **C25, violation.** A pixel of exactly 1e-19 is encoded as a non-zero pixel, whose decoding is below 1e-19 and therefore encoded as
four zero bytes. -/
theorem C25_violation : ∃ p m, LargestChannel p m ∧ 1 / 10 ^ 19 ≤ m ∧ m < 2 ^ 127 ∧
    colourToRgbe (throughRgbe p).c0 (throughRgbe p).c1 (throughRgbe p).c2 ≠ colourToRgbe p.c0 p.c1 p.c2 := by
  have hlc : LargestChannel ⟨1 / 10 ^ 19, 0, 0⟩ (1 / 10 ^ 19) := by unfold LargestChannel; norm_num
  refine ⟨⟨1 / 10 ^ 19, 0, 0⟩, 1 / 10 ^ 19, hlc, le_rfl, by norm_num, ?_⟩
  have hmx : maxOf (1 / 10 ^ 19) 0 0 = 1 / 10 ^ 19 := by
    unfold maxOf; rw [max_eq_left (by positivity), max_eq_left (by positivity)]
  obtain ⟨e, a, b, c⟩ := decode_encode (r := 1 / 10 ^ 19) (g := 0) (b := 0) (by norm_num) le_rfl le_rfl hmx.ge (by rw [hmx]; norm_num)
  obtain ⟨e', a', b', c'⟩ := colourToRgbe_big (r := 1 / 10 ^ 19) (g := 0) (b := 0) hmx.ge
  rw [hmx] at a b a' b'
  have e63 : e = -63 := exponent_unique a b (by norm_num) (by norm_num)
  have e63' : e' = -63 := exponent_unique a' b' (by norm_num) (by norm_num)
  subst e63 e63'
  have hf : ⌊(1 : ℝ) / 10 ^ 19 * 2 ^ (8 - (-63 : ℤ))⌋ = 236 := by
    rw [Int.floor_eq_iff]; norm_num
  have ht : throughRgbe ⟨1 / 10 ^ 19, 0, 0⟩ = _ := c
  rw [colourToRgbe_small (r := (throughRgbe ⟨1 / 10 ^ 19, 0, 0⟩).c0)]
  · simp only [c', ne_eq, Prod.mk.injEq, not_and]
    intro h
    have := congrArg UInt8.toNat h
    rw [hf] at this
    have h2 := realAsU8_floor (x := 236) (by norm_num) (by norm_num)
    have h3 : ⌊(236 : ℝ)⌋ = 236 := by norm_num
    rw [h3] at h2
    rw [← this] at h2
    simp at h2
  · rw [ht, hf]
    unfold maxOf
    norm_num

/-! ### Concrete cases of the theorems above -/

/-- C23, C25: an orange pixel, and one that is practically dark. -/
example := C23_rgbe_error_bounded ⟨807, 249, 73⟩ 807 (by refine ⟨?_, ?_⟩ <;> norm_num) (by norm_num) (by norm_num)

example := C23_dark_is_black ⟨0, 1 / 10 ^ 20, 0⟩ (1 / 10 ^ 20) (by refine ⟨?_, ?_⟩ <;> norm_num) (by norm_num)

example := C25_resave_identity_partial ⟨1, 2, 3⟩ 3 (by refine ⟨?_, ?_⟩ <;> norm_num) (by norm_num) (by norm_num)

example := C25_resave_dark_partial ⟨0, 1 / 10 ^ 20, 0⟩ (1 / 10 ^ 20) (by refine ⟨?_, ?_⟩ <;> norm_num) (by norm_num)

end Rendering
