import Verif.Props.Radiance

/-!
# The text and number formats the readers rely on (used by C65, C66, C25 and C35)

`validUtf8` and `parseUsize` appear in the statements about readers. Here they are pinned to the standard formats:
UTF-8 as implemented by Lean's own `String.utf8EncodeChar`, and decimal numbers.
-/

set_option linter.unusedSectionVars false
namespace Rendering

theorem byte_ofNat (b : UInt8) (n : Nat) (h : n = b.toNat) : UInt8.ofNat n = b := by subst h; exact UInt8.ofNat_toNat

theorem byte_lt (b : UInt8) : b.toNat < 256 := b.toNat_lt

theorem char_exists (v : Nat) (h : v < 0xD800 ∨ (0xDFFF < v ∧ v < 0x110000)) : ∃ c : Char, c.val.toNat = v := by
  refine ⟨⟨UInt32.ofNat v, ?_⟩, ?_⟩
  · show Nat.isValidChar (UInt32.ofNat v).toNat
    have : (UInt32.ofNat v).toNat = v := by simp only [UInt32.toNat_ofNat']; omega
    rw [this]; exact h
  · simp only [UInt32.toNat_ofNat']; omega

theorem char_range (c : Char) : c.val.toNat < 0xD800 ∨ (0xDFFF < c.val.toNat ∧ c.val.toNat < 0x110000) := c.valid

/-- A character's code is a prefix of well-formed text, and what follows decides. -/
theorem validUtf8_char (c : Char) (rest : List UInt8) : validUtf8 (String.utf8EncodeChar c ++ rest) = validUtf8 rest := by
  have hc := char_range c
  unfold String.utf8EncodeChar
  simp only
  generalize c.val.toNat = v at hc
  have key : ∀ n : Nat, n < 256 → (UInt8.ofNat n).toNat = n := by intro n hn; simp only [UInt8.toNat_ofNat']; omega
  split_ifs with h1 h2 h3
  · simp only [List.cons_append, List.nil_append]
    rw [validUtf8.eq_def]; simp only
    rw [key v (by omega), if_pos (by omega)]
  · simp only [List.cons_append, List.nil_append]
    rw [validUtf8.eq_def]; simp only [isCont]
    rw [key (v / 64 % 32 + 192) (by omega), key (v % 64 + 128) (by omega), if_neg (by omega), if_pos (by simp only [Bool.and_eq_true, decide_eq_true_eq]; omega)]
    have a1 : decide (128 ≤ v % 64 + 128) = true := by simp
    have a2 : decide (v % 64 + 128 ≤ 191) = true := by simp; omega
    rw [a1, a2]; rfl
  · simp only [List.cons_append, List.nil_append]
    rw [validUtf8.eq_def]; simp only [isCont]
    rw [key (v / 4096 % 16 + 224) (by omega), key (v / 64 % 64 + 128) (by omega), key (v % 64 + 128) (by omega), if_neg (by omega),
      if_neg (by simp only [Bool.and_eq_true, decide_eq_true_eq]; omega)]
    have a1 : decide (128 ≤ v % 64 + 128) = true := by simp
    have a2 : decide (v % 64 + 128 ≤ 191) = true := by simp; omega
    have b1 : decide (128 ≤ v / 64 % 64 + 128) = true := by simp
    have b2 : decide (v / 64 % 64 + 128 ≤ 191) = true := by simp; omega
    rw [a1, a2, b1, b2]
    by_cases e0 : v / 4096 % 16 + 224 = 224
    · have : decide (160 ≤ v / 64 % 64 + 128) = true := by simp; omega
      rw [this]; simp [e0]
    · by_cases e1 : v / 4096 % 16 + 224 = 237
      · have : decide (v / 64 % 64 + 128 ≤ 159) = true := by simp; omega
        rw [this]; simp [e1]
      · have c1 : decide (225 ≤ v / 4096 % 16 + 224) = true := by simp; omega
        have c2 : decide (v / 4096 % 16 + 224 ≤ 239) = true := by simp; omega
        rw [c1, c2, if_neg (by simpa using e0), if_neg (by simpa using e1)]; rfl
  · simp only [List.cons_append, List.nil_append]
    rw [validUtf8.eq_def]; simp only [isCont]
    rw [key (v / 262144 % 8 + 240) (by omega), key (v / 4096 % 64 + 128) (by omega), key (v / 64 % 64 + 128) (by omega), key (v % 64 + 128) (by omega),
      if_neg (by omega), if_neg (by simp only [Bool.and_eq_true, decide_eq_true_eq]; omega),
      if_neg (by simp only [beq_iff_eq]; omega), if_neg (by simp only [beq_iff_eq]; omega),
      if_neg (by simp only [Bool.and_eq_true, decide_eq_true_eq]; omega)]
    have a1 : decide (128 ≤ v % 64 + 128) = true := by simp
    have a2 : decide (v % 64 + 128 ≤ 191) = true := by simp; omega
    have b1 : decide (128 ≤ v / 64 % 64 + 128) = true := by simp
    have b2 : decide (v / 64 % 64 + 128 ≤ 191) = true := by simp; omega
    have d1 : decide (128 ≤ v / 4096 % 64 + 128) = true := by simp
    have d2 : decide (v / 4096 % 64 + 128 ≤ 191) = true := by simp; omega
    rw [a1, a2, b1, b2, d1, d2]
    by_cases e0 : v / 262144 % 8 + 240 = 240
    · have : decide (144 ≤ v / 4096 % 64 + 128) = true := by simp; omega
      rw [this]; simp [e0]
    · by_cases e1 : v / 262144 % 8 + 240 = 244
      · have : decide (v / 4096 % 64 + 128 ≤ 143) = true := by simp; omega
        rw [this]; simp [e1]
      · have c1 : decide (241 ≤ v / 262144 % 8 + 240) = true := by simp; omega
        have c2 : decide (v / 262144 % 8 + 240 ≤ 243) = true := by simp; omega
        rw [c1, c2, if_neg (by simpa using e0), if_neg (by simpa using e1)]; rfl

/-- Well-formed text that is not empty starts with the code of a character, and what follows is well formed. -/
theorem validUtf8_head (l : List UInt8) (h : validUtf8 l = true) (hne : l ≠ []) :
    ∃ (c : Char) (rest : List UInt8), l = String.utf8EncodeChar c ++ rest ∧ validUtf8 rest = true := by
  have enc1 : ∀ b0 : UInt8, b0.toNat < 128 → ∃ c : Char, String.utf8EncodeChar c = [b0] := by
    intro b0 h0
    obtain ⟨c, hc⟩ := char_exists b0.toNat (by omega)
    refine ⟨c, ?_⟩
    unfold String.utf8EncodeChar; simp only [hc]
    rw [if_pos (by omega), byte_ofNat b0 _ rfl]
  have enc2 : ∀ b0 b1 : UInt8, 0xC2 ≤ b0.toNat → b0.toNat ≤ 0xDF → 128 ≤ b1.toNat → b1.toNat ≤ 191 →
      ∃ c : Char, String.utf8EncodeChar c = [b0, b1] := by
    intro b0 b1 h0 h0' h1 h1'
    obtain ⟨c, hc⟩ := char_exists ((b0.toNat - 192) * 64 + (b1.toNat - 128)) (by omega)
    refine ⟨c, ?_⟩
    unfold String.utf8EncodeChar; simp only [hc]
    rw [if_neg (by omega), if_pos (by omega), byte_ofNat b0 _ (by omega), byte_ofNat b1 _ (by omega)]
  have enc3 : ∀ b0 b1 b2 : UInt8, 0xE0 ≤ b0.toNat → b0.toNat ≤ 0xEF → 128 ≤ b1.toNat → b1.toNat ≤ 191 → 128 ≤ b2.toNat → b2.toNat ≤ 191 →
      (b0.toNat = 0xE0 → 0xA0 ≤ b1.toNat) → (b0.toNat = 0xED → b1.toNat ≤ 0x9F) → ∃ c : Char, String.utf8EncodeChar c = [b0, b1, b2] := by
    intro b0 b1 b2 h0 h0' h1 h1' h2 h2' hlow hsur
    obtain ⟨c, hc⟩ := char_exists ((b0.toNat - 224) * 4096 + (b1.toNat - 128) * 64 + (b2.toNat - 128)) (by omega)
    refine ⟨c, ?_⟩
    unfold String.utf8EncodeChar; simp only [hc]
    rw [if_neg (by omega), if_neg (by omega), if_pos (by omega), byte_ofNat b0 _ (by omega), byte_ofNat b1 _ (by omega), byte_ofNat b2 _ (by omega)]
  have enc4 : ∀ b0 b1 b2 b3 : UInt8, 0xF0 ≤ b0.toNat → b0.toNat ≤ 0xF4 → 128 ≤ b1.toNat → b1.toNat ≤ 191 → 128 ≤ b2.toNat → b2.toNat ≤ 191 →
      128 ≤ b3.toNat → b3.toNat ≤ 191 → (b0.toNat = 0xF0 → 0x90 ≤ b1.toNat) → (b0.toNat = 0xF4 → b1.toNat ≤ 0x8F) →
      ∃ c : Char, String.utf8EncodeChar c = [b0, b1, b2, b3] := by
    intro b0 b1 b2 b3 h0 h0' h1 h1' h2 h2' h3 h3' hlow hhigh
    obtain ⟨c, hc⟩ := char_exists ((b0.toNat - 240) * 262144 + (b1.toNat - 128) * 4096 + (b2.toNat - 128) * 64 + (b3.toNat - 128)) (by omega)
    refine ⟨c, ?_⟩
    unfold String.utf8EncodeChar; simp only [hc]
    rw [if_neg (by omega), if_neg (by omega), if_neg (by omega), byte_ofNat b0 _ (by omega), byte_ofNat b1 _ (by omega), byte_ofNat b2 _ (by omega),
      byte_ofNat b3 _ (by omega)]
  cases l with
  | nil => exact absurd rfl hne
  | cons b0 l1 =>
    rw [validUtf8.eq_def] at h
    simp only at h
    by_cases h0 : b0.toNat < 128
    · rw [if_pos h0] at h
      obtain ⟨c, hc⟩ := enc1 b0 h0
      exact ⟨c, l1, by rw [hc]; rfl, h⟩
    · rw [if_neg h0] at h
      cases l1 with
      | nil => cases h
      | cons b1 l2 =>
        simp only at h
        by_cases g2 : (decide (0xC2 ≤ b0.toNat) && decide (b0.toNat ≤ 0xDF)) = true
        · rw [if_pos g2] at h
          simp only [isCont, Bool.and_eq_true, decide_eq_true_eq] at h g2
          obtain ⟨c, hc⟩ := enc2 b0 b1 g2.1 g2.2 h.1.1 h.1.2
          exact ⟨c, l2, by rw [hc]; rfl, h.2⟩
        · rw [if_neg g2] at h
          cases l2 with
          | nil => cases h
          | cons b2 l3 =>
            simp only at h
            by_cases g3 : (b0.toNat == 0xE0) = true
            · rw [if_pos g3] at h
              simp only [isCont, Bool.and_eq_true, decide_eq_true_eq, beq_iff_eq] at h g3
              obtain ⟨c, hc⟩ := enc3 b0 b1 b2 (by omega) (by omega) (by omega) (by omega) (by omega) (by omega) (by omega) (by omega)
              exact ⟨c, l3, by rw [hc]; rfl, h.2⟩
            rw [if_neg g3] at h
            by_cases g4 : (b0.toNat == 0xED) = true
            · rw [if_pos g4] at h
              simp only [isCont, Bool.and_eq_true, decide_eq_true_eq, beq_iff_eq] at h g4
              obtain ⟨c, hc⟩ := enc3 b0 b1 b2 (by omega) (by omega) (by omega) (by omega) (by omega) (by omega) (by omega) (by omega)
              exact ⟨c, l3, by rw [hc]; rfl, h.2⟩
            rw [if_neg g4] at h
            by_cases g5 : (decide (0xE1 ≤ b0.toNat) && decide (b0.toNat ≤ 0xEF)) = true
            · rw [if_pos g5] at h
              simp only [isCont, Bool.and_eq_true, decide_eq_true_eq, beq_iff_eq] at h g3 g4 g5
              obtain ⟨c, hc⟩ := enc3 b0 b1 b2 (by omega) (by omega) (by omega) (by omega) (by omega) (by omega) (by omega) (by omega)
              exact ⟨c, l3, by rw [hc]; rfl, h.2⟩
            rw [if_neg g5] at h
            cases l3 with
            | nil => cases h
            | cons b3 l4 =>
              simp only at h
              by_cases g6 : (b0.toNat == 0xF0) = true
              · rw [if_pos g6] at h
                simp only [isCont, Bool.and_eq_true, decide_eq_true_eq, beq_iff_eq] at h g6
                obtain ⟨c, hc⟩ := enc4 b0 b1 b2 b3 (by omega) (by omega) (by omega) (by omega) (by omega) (by omega) (by omega) (by omega) (by omega) (by omega)
                exact ⟨c, l4, by rw [hc]; rfl, h.2⟩
              rw [if_neg g6] at h
              by_cases g7 : (b0.toNat == 0xF4) = true
              · rw [if_pos g7] at h
                simp only [isCont, Bool.and_eq_true, decide_eq_true_eq, beq_iff_eq] at h g7
                obtain ⟨c, hc⟩ := enc4 b0 b1 b2 b3 (by omega) (by omega) (by omega) (by omega) (by omega) (by omega) (by omega) (by omega) (by omega) (by omega)
                exact ⟨c, l4, by rw [hc]; rfl, h.2⟩
              rw [if_neg g7] at h
              by_cases g8 : (decide (0xF1 ≤ b0.toNat) && decide (b0.toNat ≤ 0xF3)) = true
              · rw [if_pos g8] at h
                simp only [isCont, Bool.and_eq_true, decide_eq_true_eq, beq_iff_eq] at h g6 g7 g8
                obtain ⟨c, hc⟩ := enc4 b0 b1 b2 b3 (by omega) (by omega) (by omega) (by omega) (by omega) (by omega) (by omega) (by omega) (by omega) (by omega)
                exact ⟨c, l4, by rw [hc]; rfl, h.2⟩
              rw [if_neg g8] at h
              cases h

/-- The bytes accepted as text are exactly the UTF-8 encodings of sequences of characters (Lean's own encoder being the reference). -/
theorem C65_text_is_utf8 (l : List UInt8) : validUtf8 l = true ↔ ∃ cs : List Char, l = cs.flatMap String.utf8EncodeChar := by
  constructor
  · intro h
    induction hn : l.length using Nat.strong_induction_on generalizing l with
    | _ n ih =>
      by_cases hne : l = []
      · exact ⟨[], hne⟩
      · obtain ⟨c, rest, hl, hr⟩ := validUtf8_head l h hne
        have hlen : 0 < (String.utf8EncodeChar c).length := by unfold String.utf8EncodeChar; simp only; split_ifs <;> simp
        obtain ⟨cs, hcs⟩ := ih rest.length (by rw [← hn, hl, List.length_append]; omega) rest hr rfl
        exact ⟨c :: cs, by rw [hl, hcs, List.flatMap_cons]⟩
  · rintro ⟨cs, rfl⟩
    induction cs with
    | nil => rfl
    | cons c cs ih => rw [List.flatMap_cons, validUtf8_char]; exact ih

/-- A byte that is a decimal digit. -/
def IsDigit (b : UInt8) : Prop := 48 ≤ b.toNat ∧ b.toNat ≤ 57

/-- The number a list of digits denotes, most significant first: `∑ dᵢ·10^(n-1-i)`. -/
def decimalValue (l : List UInt8) : Nat := Nat.ofDigits 10 ((l.map fun b => b.toNat - 48).reverse)

theorem digitStep_none (l : List UInt8) : l.foldl digitStep none = none := by
  induction l with
  | nil => rfl
  | cons b l ih => exact ih

theorem digits_fold (l : List UInt8) (a n : Nat) :
    l.foldl digitStep (some a) = some n ↔ (∀ b ∈ l, IsDigit b) ∧ n = a * 10 ^ l.length + decimalValue l := by
  induction l generalizing a with
  | nil => simp [decimalValue, eq_comm]
  | cons b l ih =>
    rw [List.foldl_cons]
    by_cases hb : 48 ≤ b.toNat ∧ b.toNat ≤ 57
    · have : digitStep (some a) b = some (10 * a + (b.toNat - 48)) := by unfold digitStep; simp only; rw [if_pos hb]
      rw [this, ih]
      have hv : decimalValue (b :: l) = decimalValue l + 10 ^ l.length * (b.toNat - 48) := by
        unfold decimalValue
        rw [List.map_cons, List.reverse_cons, Nat.ofDigits_append]
        simp [Nat.ofDigits]
      rw [hv, List.length_cons, pow_succ]
      constructor
      · rintro ⟨h, rfl⟩
        refine ⟨fun x hx => ?_, by ring⟩
        rcases List.mem_cons.mp hx with rfl | hx
        · exact hb
        · exact h x hx
      · rintro ⟨h, rfl⟩
        exact ⟨fun x hx => h x (List.mem_cons_of_mem _ hx), by ring⟩
    · have : digitStep (some a) b = none := by unfold digitStep; simp only; rw [if_neg hb]
      rw [this, digitStep_none]
      constructor
      · intro h; cases h
      · rintro ⟨h, -⟩
        exact absurd (h b (List.mem_cons_self ..)) hb

/-- A count is accepted exactly when it is written as decimal digits, at least one, with at most one leading `+`, and fits 64 bits; its value is the number
those digits denote. -/
theorem C65_counts_are_decimal (l : List UInt8) (n : Nat) :
    parseUsize l = some n ↔
      ∃ digits, (l = digits ∨ l = bytes "+" ++ digits) ∧ digits ≠ [] ∧ (∀ b ∈ digits, IsDigit b) ∧ n = decimalValue digits ∧ n < 2 ^ 64 := by
  have body : ∀ ds : List UInt8, (if ds = [] then none else match ds.foldl digitStep (some 0) with
      | none => none
      | some n => if n < 2 ^ 64 then some n else none) = some n ↔ ds ≠ [] ∧ (∀ b ∈ ds, IsDigit b) ∧ n = decimalValue ds ∧ n < 2 ^ 64 := by
    intro ds
    by_cases hd : ds = []
    · simp [hd]
    · rw [if_neg hd]
      cases hf : ds.foldl digitStep (some 0) with
      | none =>
        constructor
        · intro h; cases h
        · rintro ⟨-, h1, h2, -⟩
          have := (digits_fold ds 0 n).mpr ⟨h1, by omega⟩
          rw [hf] at this; cases this
      | some m =>
        obtain ⟨h1, h2⟩ := (digits_fold ds 0 m).mp hf
        simp only
        constructor
        · intro h
          split_ifs at h with hm
          cases h
          exact ⟨hd, h1, by omega, hm⟩
        · rintro ⟨-, -, h3, h4⟩
          have : m = n := by omega
          subst this
          rw [if_pos h4]
  have plus : bytes "+" = [43] := by decide
  rw [plus]
  refine Iff.trans (body (stripPlus l)) ?_
  constructor
  · rintro ⟨h1, h2, h3, h4⟩
    refine ⟨stripPlus l, ?_, h1, h2, h3, h4⟩
    unfold stripPlus
    split
    · right; rfl
    · left; rfl
  · rintro ⟨ds, hl | hl, h1, h2, h3, h4⟩
    · subst hl
      have : stripPlus l = l := by
        unfold stripPlus
        split
        · rename_i rest
          have := h2 43 (List.mem_cons_self ..)
          exact absurd this (by unfold IsDigit; decide)
        · rfl
      rw [this]; exact ⟨h1, h2, h3, h4⟩
    · subst hl
      exact ⟨h1, h2, h3, h4⟩

/-- The casts by which the flattened tree stores counts and offsets are two's-complement truncations: the unique 16-bit (32-bit) signed number congruent to
the value. A stored number is the value itself exactly when the value is below 2^15 (2^31). -/
theorem C08_casts_wrap (n : Nat) :
    (-2 ^ 15 ≤ asI16 n ∧ asI16 n < 2 ^ 15 ∧ (2 ^ 16 : Int) ∣ asI16 n - n ∧ (asI16 n = n ↔ n < 2 ^ 15)) ∧
    (-2 ^ 31 ≤ asI32 n ∧ asI32 n < 2 ^ 31 ∧ (2 ^ 32 : Int) ∣ asI32 n - n ∧ (asI32 n = n ↔ n < 2 ^ 31)) := by
  have key : ∀ (m : Nat) (i : Int), i = Int.bmod n (2 * m) → 0 < m → (-(m : Int) ≤ i ∧ i < m ∧ ((2 * m : Nat) : Int) ∣ i - n ∧ (i = n ↔ n < m)) := by
    intro m i hi hm
    have h1 := Int.le_bmod (x := (n : Int)) (m := 2 * m) (by omega)
    have h2 := Int.bmod_lt (x := (n : Int)) (m := 2 * m) (by omega)
    have h3 : ((2 * m : Nat) : Int) ∣ i - n := by rw [hi]; exact Int.dvd_bmod_sub_self
    rw [← hi] at h1 h2
    push_cast at h1 h2
    have l1 : -(m : Int) ≤ i := by omega
    have l2 : i < m := by omega
    refine ⟨l1, l2, h3, ⟨fun e => by omega, fun e => ?_⟩⟩
    obtain ⟨k, hk⟩ := h3
    push_cast at hk
    rcases lt_trichotomy k 0 with hk0 | hk0 | hk0
    · nlinarith
    · subst hk0; omega
    · nlinarith
  have e16 : asI16 n = Int.bmod n (2 * 32768) := by unfold asI16; norm_num only
  have e32 : asI32 n = Int.bmod n (2 * 2147483648) := by unfold asI32; norm_num only
  have h16 := key 32768 (asI16 n) e16 (by norm_num)
  have h32 := key 2147483648 (asI32 n) e32 (by norm_num)
  norm_num only at h16 h32 ⊢
  exact ⟨h16, h32⟩

/-- Both sides of the limit occur. -/
example : asI16 32767 = 32767 ∧ asI16 32768 = -32768 ∧ asI32 2147483648 = -2147483648 := by decide

/-- The theorem about text is not vacuous: `é` (two bytes), `√` (three) and `𝄞` (four) are accepted, a lone continuation byte and an encoded surrogate are not. -/
example : validUtf8 [0xC3, 0xA9, 0xE2, 0x88, 0x9A, 0xF0, 0x9D, 0x84, 0x9E] = true ∧ validUtf8 [0x80] = false ∧ validUtf8 [0xED, 0xA0, 0x80] = false ∧
    (∃ cs : List Char, [0xC3, 0xA9, 0xE2, 0x88, 0x9A, 0xF0, 0x9D, 0x84, 0x9E] = cs.flatMap String.utf8EncodeChar) ∧
    ¬ ∃ cs : List Char, [0x80] = cs.flatMap String.utf8EncodeChar :=
  ⟨by decide +kernel, by decide +kernel, by decide +kernel, (C65_text_is_utf8 _).mp (by decide +kernel),
    fun h => by have := (C65_text_is_utf8 _).mpr h; revert this; decide +kernel⟩

/-- Nor the one about counts: `+12` is twelve, `1x`, `+` and the empty text are no counts. -/
example : (∃ digits, (bytes "+12" = digits ∨ bytes "+12" = bytes "+" ++ digits) ∧ digits ≠ [] ∧ (∀ b ∈ digits, IsDigit b) ∧ 12 = decimalValue digits ∧
    12 < 2 ^ 64) ∧ parseUsize (bytes "1x") = none ∧ parseUsize (bytes "x1") = none ∧ parseUsize (bytes "+") = none ∧ parseUsize [] = none :=
  ⟨(C65_counts_are_decimal _ 12).mp (by decide +kernel), by decide +kernel, by decide +kernel, by decide +kernel, by decide +kernel⟩

end Rendering
