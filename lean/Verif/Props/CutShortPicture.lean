import Verif.Props.CutShort
import Verif.Props.Image

/-!
# C134: pictures that were not written to the end
-/

set_option linter.unusedSectionVars false

namespace Rendering

theorem chunksExact4_take (l : List UInt8) (n : Nat) : chunksExact4 (l.take n) = (chunksExact4 l).take (n / 4) := by
  induction l using chunksExact4.induct generalizing n with
  | case1 a b c d rest ih =>
    rcases n with _ | _ | _ | _ | n
    · simp [chunksExact4]
    · simp [chunksExact4]
    · simp [chunksExact4]
    · simp [chunksExact4]
    · have e : (n + 1 + 1 + 1 + 1) / 4 = n / 4 + 1 := by omega
      rw [e]
      simp only [List.take_succ_cons, chunksExact4, ih]
  | case2 l h =>
    have e : chunksExact4 l = [] := by
      unfold chunksExact4
      split
      · rename_i a b c d rest
        exact absurd rfl (h a b c d rest)
      · rfl
    rw [e]
    have : chunksExact4 (l.take n) = [] := by
      unfold chunksExact4
      split
      · rename_i a b c d rest hl
        exfalso
        have h2 := congrArg List.length hl
        simp only [List.length_take, List.length_cons] at h2
        match l, h with
        | [], _ => simp at h2
        | [_], _ => simp at h2; omega
        | [_, _], _ => simp at h2; omega
        | [_, _, _], _ => simp at h2; omega
        | a :: b :: c :: d :: rest, h => exact h a b c d rest rfl
      · rfl
    simp [this]

/-- Reading a file that stops inside a line gives an error; otherwise the line counts. -/
theorem readFrom_cut (fuel : Nat) (line rest : List UInt8) (h : ∀ b ∈ line, (b == 10) = false) (n : Nat) :
    ImageBuffer.readFrom (fuel + 1) ((line ++ 10 :: rest).take n) =
      if n ≤ line.length then .ok .err else ImageBuffer.readFrom (fuel + 1) (line ++ 10 :: rest.take (n - (line.length + 1))) := by
  by_cases hn : n ≤ line.length
  · rw [if_pos hn, List.take_append_of_le_length hn, ImageBuffer.readFrom]
    have : (line.take n).findIdx? (· == 10) = none := by
      rw [List.findIdx?_eq_none_iff]
      intro b hb
      exact h b (List.mem_of_mem_take hb)
    rw [this]
  · rw [if_neg hn, List.take_append, List.take_of_length_le (by omega)]
    obtain ⟨k, hk⟩ : ∃ k, n - line.length = k + 1 := ⟨n - line.length - 1, by omega⟩
    rw [hk, List.take_succ_cons, show n - (line.length + 1) = k by omega]

/-- **C134, pictures (partial).** Let the writing of a picture stop after any number of bytes. Reading what is left never panics; before the end of the header it is an error; after it one gets a picture of the announced size
with exactly those pixels that were written completely, whether or not they are all. Missing: an error in every case. -/
theorem C134_picture_partial (im : ImageBuffer) (hh : im.height < 2 ^ 64) (hw : im.width < 2 ^ 64) (n : Nat) :
    (n < (ImageBuffer.saveHdre ⟨im.width, im.height, []⟩).length → ImageBuffer.fromFile (im.saveHdre.take n) = .ok .err) ∧
    ((ImageBuffer.saveHdre ⟨im.width, im.height, []⟩).length ≤ n →
      ImageBuffer.fromFile (im.saveHdre.take n) = .ok (.image ⟨im.width, im.height, (im.pixels.map throughRgbe).take ((n - (ImageBuffer.saveHdre ⟨im.width, im.height, []⟩).length) / 4)⟩)) := by
  have hL : (ImageBuffer.saveHdre ⟨im.width, im.height, []⟩).length = 7 + (23 + (1 + ((hdrSize im.height im.width).length + 1))) := by
    rw [saveHdre_eq]
    simp [hdrLine1, hdrLine2]
    omega
  have l1 : hdrLine1.length = 6 := rfl
  have l2 : hdrLine2.length = 22 := rfl
  rw [hL]
  unfold ImageBuffer.fromFile
  have step : ∀ fuel, min n 31 < fuel → ImageBuffer.readFrom fuel (im.saveHdre.take n) = if n < 7 + (23 + (1 + ((hdrSize im.height im.width).length + 1))) then .ok .err else
      .ok (.image ⟨im.width, im.height, (im.pixels.map throughRgbe).take ((n - (7 + (23 + (1 + ((hdrSize im.height im.width).length + 1))))) / 4)⟩) := by
    intro fuel hf
    rw [saveHdre_eq]
    obtain ⟨f1, rfl⟩ : ∃ f, fuel = f + 1 := ⟨fuel - 1, by omega⟩
    rw [readFrom_cut _ _ _ (by decide), l1]
    by_cases h1 : n ≤ 6
    · rw [if_pos h1, if_pos (by omega)]
    rw [if_neg h1, readFrom_line _ _ _ (by decide), hdrLine1_next, Res.bind_ok]
    simp only
    obtain ⟨f2, rfl⟩ : ∃ f, f1 = f + 1 := ⟨f1 - 1, by omega⟩
    rw [readFrom_cut _ _ _ (by decide), l2]
    by_cases h2 : n - (6 + 1) ≤ 22
    · rw [if_pos h2, if_pos (by omega)]
    rw [if_neg h2, readFrom_line _ _ _ (by decide), hdrLine2_next, Res.bind_ok]
    simp only
    obtain ⟨f3, rfl⟩ : ∃ f, f2 = f + 1 := ⟨f2 - 1, by omega⟩
    rw [readFrom_cut _ _ _ (by simp)]
    by_cases h3 : n - (6 + 1) - (22 + 1) ≤ ([] : List UInt8).length
    · rw [if_pos h3, if_pos (by simp at h3; omega)]
    rw [if_neg h3, readFrom_line _ _ _ (by simp), hdrEmpty_next, Res.bind_ok]
    simp only
    simp only [List.length_nil] at h3 ⊢
    obtain ⟨f4, rfl⟩ : ∃ f, f3 = f + 1 := ⟨f3 - 1, by omega⟩
    rw [readFrom_cut _ _ _ (fun b hb => (hdrSize_mem _ _ b hb).1)]
    by_cases h4 : n - (6 + 1) - (22 + 1) - (0 + 1) ≤ (hdrSize im.height im.width).length
    · rw [if_pos h4, if_pos (by omega)]
    rw [if_neg h4, if_neg (by omega), readFrom_line _ _ _ (fun b hb => (hdrSize_mem _ _ b hb).1), hdrSize_line _ _ hh hw, Res.bind_ok]
    simp only
    rw [chunksExact4_take, chunksExact4_flatMap im.pixels (fun p => colourToRgbe p.c0 p.c1 p.c2), List.map_take, List.map_map]
    have : n - (6 + 1) - (22 + 1) - (0 + 1) - ((hdrSize im.height im.width).length + 1) = n - (7 + (23 + (1 + ((hdrSize im.height im.width).length + 1)))) := by omega
    rw [this]
    rfl
  have hfile : 31 ≤ im.saveHdre.length := by
    rw [saveHdre_eq]
    simp only [List.length_append, List.length_cons, l1, l2]
    omega
  have key := step ((im.saveHdre.take n).length + 1) (by rw [List.length_take]; omega)
  refine ⟨fun h => by rw [key, if_pos h], fun h => by rw [key, if_neg (by omega)]⟩

/-- **C134 (violation).** Whatever the picture, if at least one pixel of it is missing the file left is read without complaint, as a picture with too few pixels. -/
theorem C134_violation_picture (im : ImageBuffer) (hh : im.height < 2 ^ 64) (hw : im.width < 2 ^ 64) (hc : im.Consistent) (k : Nat) (hk : k < im.pixels.length) :
    ∃ part im', part <+: im.saveHdre ∧ part ≠ im.saveHdre ∧ ImageBuffer.fromFile part = .ok (.image im') ∧ im'.width = im.width ∧ im'.height = im.height ∧ im'.pixels = (im.pixels.map throughRgbe).take k ∧ ¬ im'.Consistent := by
  have h := (C134_picture_partial im hh hw ((ImageBuffer.saveHdre ⟨im.width, im.height, []⟩).length + 4 * k)).2 (by omega)
  rw [show ((ImageBuffer.saveHdre ⟨im.width, im.height, []⟩).length + 4 * k - (ImageBuffer.saveHdre ⟨im.width, im.height, []⟩).length) / 4 = k by omega] at h
  refine ⟨_, _, List.take_prefix _ _, ?_, h, rfl, rfl, rfl, ?_⟩
  · intro e
    rw [e, C24_hdr_roundtrip im hh hw] at h
    simp only [Res.ok.injEq, ImageBuffer.ReadResult.image.injEq, ImageBuffer.mk.injEq, true_and] at h
    have := congrArg List.length h
    simp only [List.length_map, List.length_take] at this
    omega
  · unfold ImageBuffer.Consistent at *
    simp only [List.length_take, List.length_map]
    omega

/-! ### The hypotheses are met -/

example := fun n => C134_picture_partial twoPixels (by norm_num [twoPixels]) (by norm_num [twoPixels]) n
example := C134_violation_picture twoPixels (by norm_num [twoPixels]) (by norm_num [twoPixels]) twoPixels_consistent 1 (by simp [twoPixels])
/-- The first 60 bytes of files that are longer. -/
example := C134_matrix_partial ratFmt ratFmt_faithful sampleScalars rfl (by decide) (by decide) ((saveMatrix ratFmt sampleScalars).take 60) (List.take_prefix _ _) (by decide +kernel)
example := C134_colour_matrix_partial ratFmt round5 ratFmt_fixed sampleColours rfl (by decide) (by decide) ((saveColourMatrix ratFmt sampleColours).take 60) (List.take_prefix _ _) (by decide +kernel)
example := C134_violation_rows ratFmt ratFmt_faithful sampleScalars rfl (by decide) (by decide) 1 (by decide)

end Rendering
