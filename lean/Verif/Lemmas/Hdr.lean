import Verif.Model.Image
import Mathlib.Data.Nat.Digits.Lemmas

namespace Rendering

/-! ### Decimal numbers -/

theorem digit_toNat {d : Nat} (h : d < 10) : (UInt8.ofNat (48 + d)).toNat = 48 + d :=
  UInt8.toNat_ofNat_of_lt' (by have : UInt8.size = 256 := rfl; omega)

theorem foldl_digits (ds : List Nat) (h : ∀ d ∈ ds, d < 10) (acc : Nat) :
    (ds.map (fun d => UInt8.ofNat (48 + d))).foldl digitStep (some acc) = some (ds.foldl (fun a d => 10 * a + d) acc) := by
  induction ds generalizing acc with
  | nil => rfl
  | cons d ds ih =>
    have hd : d < 10 := h d (List.mem_cons_self ..)
    simp only [List.map_cons, List.foldl_cons, digitStep]
    have e := digit_toNat hd
    rw [if_pos (by rw [e]; omega), e, show 48 + d - 48 = d by omega]
    exact ih (fun d hd => h d (List.mem_cons_of_mem _ hd)) _

theorem foldl_reverse_ofDigits (ds : List Nat) :
    ds.reverse.foldl (fun a d => 10 * a + d) 0 = Nat.ofDigits 10 ds := by
  rw [List.foldl_reverse, Nat.ofDigits_eq_foldr]
  simp [add_comm]

/-- The digits of a number are ASCII digits. -/
theorem decimal_digits (n : Nat) : ∀ b ∈ decimal n, 48 ≤ b.toNat ∧ b.toNat ≤ 57 := by
  intro b hb
  unfold decimal at hb
  split at hb
  · simp at hb; subst hb; decide
  · simp only [List.mem_map, List.mem_reverse] at hb
    obtain ⟨d, hd, rfl⟩ := hb
    have : d < 10 := Nat.digits_lt_base (by norm_num) hd
    rw [digit_toNat this]; omega

theorem decimal_ne_nil (n : Nat) : decimal n ≠ [] := by
  unfold decimal
  split
  · simp
  · rename_i h
    simpa [Nat.digits_ne_nil_iff_ne_zero] using h

/-- Parsing undoes printing. -/
theorem parse_decimal (n : Nat) (h : n < 2 ^ 64) : parseUsize (decimal n) = some n := by
  have hne := decimal_ne_nil n
  have hdig := decimal_digits n
  have hds : stripPlus (decimal n) = decimal n := by
    cases hd : decimal n with
    | nil => rfl
    | cons b l =>
      have hb := hdig b (by rw [hd]; exact List.mem_cons_self ..)
      by_cases h43 : b = 43
      · subst h43; simp at hb
      · unfold stripPlus
        split
        · rename_i heq; simp only [List.cons.injEq] at heq; exact absurd heq.1 h43
        · rfl
  unfold parseUsize
  simp only
  rw [hds, if_neg hne]
  have : (decimal n).foldl digitStep (some 0) = some n := by
    unfold decimal
    split
    · rename_i h0; subst h0; decide
    · rw [foldl_digits _ (fun d hd => Nat.digits_lt_base (by norm_num) (List.mem_reverse.1 hd)), foldl_reverse_ofDigits, Nat.ofDigits_digits]
  rw [this]
  simp only [if_pos h]

/-! ### Splitting -/

theorem splitOnByte_none (p : UInt8 → Bool) (l : List UInt8) (h : ∀ b ∈ l, p b = false) : splitOnByte p l = [l] := by
  induction l with
  | nil => rfl
  | cons b l ih =>
    simp only [splitOnByte]
    rw [ih (fun b hb => h b (List.mem_cons_of_mem _ hb))]
    simp [h b (List.mem_cons_self ..)]

theorem splitOnByte_append (p : UInt8 → Bool) (l : List UInt8) (h : ∀ b ∈ l, p b = false) (s : UInt8) (hs : p s = true) (rest : List UInt8) :
    splitOnByte p (l ++ s :: rest) = l :: splitOnByte p rest := by
  induction l with
  | nil => simp [splitOnByte, hs]
  | cons b l ih =>
    simp only [List.cons_append, splitOnByte]
    rw [ih (fun b hb => h b (List.mem_cons_of_mem _ hb))]
    simp [h b (List.mem_cons_self ..)]

theorem validUtf8_ascii (l : List UInt8) (h : ∀ b ∈ l, b.toNat < 128) : validUtf8 l = true := by
  induction l with
  | nil => rfl
  | cons b l ih =>
    rw [validUtf8.eq_def]
    simp only
    rw [if_pos (h b (List.mem_cons_self ..))]
    exact ih (fun b hb => h b (List.mem_cons_of_mem _ hb))

theorem findIdx_append (l : List UInt8) (h : ∀ b ∈ l, (b == 10) = false) (rest : List UInt8) :
    (l ++ 10 :: rest).findIdx? (· == 10) = some l.length := by
  induction l with
  | nil => rfl
  | cons b l ih =>
    rw [List.cons_append, List.findIdx?_cons, h b (List.mem_cons_self ..)]
    rw [ih (fun b hb => h b (List.mem_cons_of_mem _ hb))]
    simp

/-- One turn of the header loop on a file that starts with a complete line. -/
theorem readFrom_line (fuel : Nat) (line rest : List UInt8) (h : ∀ b ∈ line, (b == 10) = false) :
    ImageBuffer.readFrom (fuel + 1) (line ++ 10 :: rest) =
      (ImageBuffer.headerLine line).bind fun
        | .next => ImageBuffer.readFrom fuel rest
        | .err => .ok .err
        | .size height width =>
          .ok (.image { width, height, pixels := (chunksExact4 rest).map (fun (r, g, b, e) => rgbeToColour r g b e) }) := by
  rw [ImageBuffer.readFrom, findIdx_append line h rest]
  simp only [List.take_left]
  have : (line ++ 10 :: rest).drop (line.length + 1) = rest := by
    rw [List.drop_append]; simp
  rw [this]
  rfl

theorem chunksExact4_flatMap {α : Type} (l : List α) (f : α → UInt8 × UInt8 × UInt8 × UInt8) :
    chunksExact4 (l.flatMap (fun p => let (r, g, b, e) := f p; [r, g, b, e])) = l.map f := by
  induction l with
  | nil => rfl
  | cons p l ih =>
    simp only [List.flatMap_cons, List.map_cons]
    rw [← ih]
    rfl

/-- The fuel supplied always suffices. -/
theorem readFrom_terminates (fuel : Nat) (content : List UInt8) (h : content.length < fuel) : ImageBuffer.readFrom fuel content ≠ .diverge := by
  induction fuel generalizing content with
  | zero => omega
  | succ fuel ih =>
    rw [ImageBuffer.readFrom]
    split
    · simp
    · rename_i nl hnl
      have hlt : nl < content.length := by
        rw [List.findIdx?_eq_some_iff_findIdx_eq] at hnl
        exact hnl.1
      have hutf : ∀ l, ImageBuffer.utf8Unwrap l ≠ .diverge := by
        intro l; unfold ImageBuffer.utf8Unwrap; split <;> simp
      have hutfb : ∀ {β : Type} l (f : Unit → Res β), (f () ≠ .diverge) → (ImageBuffer.utf8Unwrap l).bind f ≠ .diverge := by
        intro β l f hf
        unfold ImageBuffer.utf8Unwrap; split <;> simp [hf]
      have hhl : ImageBuffer.headerLine (content.take nl) ≠ .diverge := by
        unfold ImageBuffer.headerLine
        split
        · apply hutfb
          split
          · split
            · simp
            · apply hutfb
              split
              · simp
              · apply hutfb
                split <;> simp
          · simp
        · split
          · split
            · split
              · apply hutfb; simp
              · simp
            · apply hutfb; simp
          · simp
      simp only
      cases hh : ImageBuffer.headerLine (content.take nl) with
      | panic => simp
      | diverge => exact absurd hh hhl
      | ok a =>
        cases a with
        | next => simp only [Res.bind_ok]; apply ih; simp; omega
        | err => simp
        | size => simp

end Rendering
