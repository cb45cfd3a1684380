import Verif.Props.ColourMatrix

/-!
# C31–C34: a concrete number format, and the files the readers get wrong

`ratFmt` shows that the contracts asked of number printing in C31 and C32 can be met: `fixed5` is the real fixed-point format (sign, integer part,
point, five decimals, ties to even); `display` prints a fraction, since a rational has no finite decimal expansion in general.
-/

namespace Rendering

/-- An unsigned digit string of any length. -/
def parseDigits (l : List UInt8) : Option Nat := if l = [] then none else l.foldl digitStep (some 0)

/-- Five digits, zero padded. -/
def pad5 (n : Nat) : List UInt8 := [n / 10000 % 10, n / 1000 % 10, n / 100 % 10, n / 10 % 10, n % 10].map (fun d => UInt8.ofNat (48 + d))

def signText (neg : Bool) : List UInt8 := if neg then [45] else []

def ratFixed5 (q : ℚ) : List UInt8 :=
  let n := roundHalfEven (q * 100000)
  signText (n < 0) ++ (decimal (n.natAbs / 100000) ++ 46 :: pad5 (n.natAbs % 100000))

def ratDisplay (q : ℚ) : List UInt8 := signText (q.num < 0) ++ (decimal q.num.natAbs ++ 47 :: decimal q.den)

def parseUnsigned (l : List UInt8) : Option ℚ :=
  match splitOnByte (· == 46) l with
  | [a, b] =>
    match parseDigits a, parseDigits b with
    | some x, some y => some (x + y / 10 ^ b.length)
    | _, _ => none
  | _ =>
    match splitOnByte (· == 47) l with
    | [a, b] =>
      match parseDigits a, parseDigits b with
      | some x, some y => some (x / y)
      | _, _ => none
    | _ => (parseDigits l).map (fun n => (n : ℚ))

def parseSigned : List UInt8 → Option ℚ
  | 45 :: rest => (parseUnsigned rest).map (fun q => -q)
  | l => parseUnsigned l

/-- A number format for rationals. -/
def ratFmt : NumFmt ℚ := ⟨ratDisplay, ratFixed5, parseSigned⟩

def round5 (q : ℚ) : ℚ := roundHalfEven (q * 100000) / 100000

theorem parseDigits_decimal (n : Nat) : parseDigits (decimal n) = some n := by
  unfold parseDigits
  rw [if_neg (decimal_ne_nil n)]
  unfold decimal
  split
  · rename_i h0; subst h0; decide
  · rw [foldl_digits _ (fun d hd => Nat.digits_lt_base (by norm_num) (List.mem_reverse.1 hd)), foldl_reverse_ofDigits, Nat.ofDigits_digits]

theorem pad5_digits (n : Nat) : ∀ b ∈ pad5 n, 48 ≤ b.toNat ∧ b.toNat ≤ 57 := by
  intro b hb
  simp only [pad5, List.mem_map] at hb
  obtain ⟨d, hd, rfl⟩ := hb
  have : d < 10 := by
    simp only [List.mem_cons, List.not_mem_nil, or_false] at hd
    rcases hd with rfl | rfl | rfl | rfl | rfl <;> omega
  rw [digit_toNat this]; omega

theorem parseDigits_pad5 (n : Nat) (hn : n < 100000) : parseDigits (pad5 n) = some n := by
  unfold parseDigits
  rw [if_neg (by simp [pad5])]
  unfold pad5
  rw [foldl_digits _ (by
    intro d hd
    simp only [List.mem_cons, List.not_mem_nil, or_false] at hd
    rcases hd with rfl | rfl | rfl | rfl | rfl <;> omega)]
  simp only [List.foldl_cons, List.foldl_nil, Option.some.injEq]
  omega

theorem digit_facts {b : UInt8} (h : 48 ≤ b.toNat ∧ b.toNat ≤ 57) : (b == 46) = false ∧ (b == 47) = false ∧ b ≠ 45 ∧ isAsciiWhitespace b = false := by
  refine ⟨?_, ?_, ?_, ?_⟩
  · rw [beq_eq_false_iff_ne]; rintro rfl; simp at h
  · rw [beq_eq_false_iff_ne]; rintro rfl; simp at h
  · rintro rfl; simp at h
  · unfold isAsciiWhitespace
    simp only [Bool.or_eq_false_iff, beq_eq_false_iff_ne, ne_eq]
    refine ⟨⟨⟨⟨?_, ?_⟩, ?_⟩, ?_⟩, ?_⟩ <;> (rintro rfl; simp at h)

theorem parseSigned_sign (neg : Bool) (l : List UInt8) (q : ℚ) (hl : ∃ b t, l = b :: t ∧ b ≠ 45) (h : parseUnsigned l = some q) :
    parseSigned (signText neg ++ l) = some (if neg then -q else q) := by
  cases neg with
  | true => simp [signText, parseSigned, h]
  | false =>
    obtain ⟨b, t, rfl, hb⟩ := hl
    simp only [signText, Bool.false_eq_true, if_false, List.nil_append]
    rw [← h]
    unfold parseSigned
    split
    · rename_i heq; simp only [List.cons.injEq] at heq; exact absurd heq.1 hb
    · rfl

theorem decimal_cons (n : Nat) (rest : List UInt8) : ∃ b t, decimal n ++ rest = b :: t ∧ b ≠ 45 := by
  cases h : decimal n with
  | nil => exact absurd h (decimal_ne_nil n)
  | cons b t => exact ⟨b, _, rfl, (digit_facts (decimal_digits n b (by rw [h]; exact List.mem_cons_self ..))).2.2.1⟩

theorem int_sign (n : ℤ) : (if (decide (n < 0)) = true then -((n.natAbs : ℕ) : ℚ) else ((n.natAbs : ℕ) : ℚ)) = n := by
  have : ((n.natAbs : ℕ) : ℚ) = |(n : ℚ)| := by rw [← Int.cast_abs, Int.abs_eq_natAbs]; simp
  rw [this]
  by_cases h : n < 0
  · simp [h, abs_of_neg (by exact_mod_cast h : (n : ℚ) < 0)]
  · simp [h, abs_of_nonneg (by exact_mod_cast not_lt.1 h : (0 : ℚ) ≤ n)]

theorem isToken_parts (neg : Bool) (n : Nat) (sep : UInt8) (hs : isAsciiWhitespace sep = false) (rest : List UInt8)
    (hrest : ∀ b ∈ rest, isAsciiWhitespace b = false) : IsToken (signText neg ++ (decimal n ++ sep :: rest)) := by
  constructor
  · simp
  · intro b hb
    simp only [List.mem_append, List.mem_cons] at hb
    rcases hb with hb | hb | rfl | hb
    · cases neg
      · simp [signText] at hb
      · simp [signText] at hb; subst hb; decide
    · exact (digit_facts (decimal_digits n b hb)).2.2.2
    · exact hs
    · exact hrest b hb

/-- The contract of C31 is met by a concrete format. -/
theorem ratFmt_faithful : ratFmt.Faithful := by
  intro q
  refine ⟨isToken_parts _ _ _ (by decide) _ (fun b hb => (digit_facts (decimal_digits _ b hb)).2.2.2), ?_⟩
  show parseSigned (ratDisplay q) = some q
  unfold ratDisplay
  have hu : parseUnsigned (decimal q.num.natAbs ++ 47 :: decimal q.den) = some ((q.num.natAbs : ℚ) / q.den) := by
    unfold parseUnsigned
    rw [splitOnByte_none (· == 46) _ (by
      intro b hb
      simp only [List.mem_append, List.mem_cons] at hb
      rcases hb with hb | rfl | hb
      · exact (digit_facts (decimal_digits _ b hb)).1
      · decide
      · exact (digit_facts (decimal_digits _ b hb)).1)]
    simp only
    rw [splitOnByte_append _ _ (fun b hb => (digit_facts (decimal_digits _ b hb)).2.1) 47 rfl,
      splitOnByte_none _ _ (fun b hb => (digit_facts (decimal_digits _ b hb)).2.1)]
    simp only [parseDigits_decimal]
  rw [parseSigned_sign _ _ _ (decimal_cons _ _) hu]
  have := int_sign q.num
  congr 1
  rw [← Rat.num_div_den q]
  conv_rhs => rw [← this]
  simp only [Rat.num_div_den]
  split <;> ring

/-- The contract of C32 is met by a concrete format. -/
theorem ratFmt_fixed : ratFmt.FixedFaithful round5 := by
  intro q
  refine ⟨isToken_parts _ _ _ (by decide) _ (fun b hb => (digit_facts (pad5_digits _ b hb)).2.2.2), ?_⟩
  show parseSigned (ratFixed5 q) = some (round5 q)
  unfold ratFixed5 round5
  simp only
  have hu : ∀ n : Nat, parseUnsigned (decimal (n / 100000) ++ 46 :: pad5 (n % 100000)) = some ((n : ℚ) / 100000) := by
    intro n
    unfold parseUnsigned
    rw [splitOnByte_append _ _ (fun b hb => (digit_facts (decimal_digits _ b hb)).1) 46 rfl,
      splitOnByte_none _ _ (fun b hb => (digit_facts (pad5_digits _ b hb)).1)]
    simp only [parseDigits_decimal, parseDigits_pad5 _ (Nat.mod_lt n (by norm_num : 100000 > 0)), Option.some.injEq]
    have h := Nat.div_add_mod n 100000
    have h' : (100000 : ℚ) * ((n / 100000 : ℕ) : ℚ) + ((n % 100000 : ℕ) : ℚ) = n := by exact_mod_cast h
    have : (pad5 (n % 100000)).length = 5 := rfl
    rw [this, ← h']
    ring
  rw [parseSigned_sign _ _ _ (decimal_cons _ _) (hu _)]
  have := int_sign (roundHalfEven (q * 100000))
  congr 1
  conv_rhs => rw [← this]
  split <;> ring

/-- Rounding to an integer moves a number by at most one half. -/
theorem roundHalfEven_near (q : ℚ) : |(roundHalfEven q : ℚ) - q| ≤ 1 / 2 := by
  have h1 := Int.floor_le q
  have h2 := Int.lt_floor_add_one q
  unfold roundHalfEven
  simp only
  rw [abs_le]
  split
  · constructor <;> linarith
  · split
    · push_cast; constructor <;> linarith
    · split
      · constructor <;> linarith
      · push_cast; constructor <;> linarith

/-- **C32.** With five decimals nothing moves by more than half a unit of the fifth decimal. -/
theorem C32_precision (q : ℚ) : |round5 q - q| ≤ 1 / 200000 := by
  have := roundHalfEven_near (q * 100000)
  unfold round5
  have h : (roundHalfEven (q * 100000) : ℚ) / 100000 - q = ((roundHalfEven (q * 100000) : ℚ) - q * 100000) / 100000 := by ring
  rw [h, abs_div, abs_of_pos (by norm_num : (0 : ℚ) < 100000), div_le_iff₀ (by norm_num)]
  linarith

/-- A two by two colour matrix. -/
def sampleColours : Mat (Spectrum ℚ) := ⟨2, 2, [⟨1, 2, 3⟩, ⟨1 / 3, 0, -5⟩, ⟨7, 8, 9⟩, ⟨1 / 2, 1 / 4, 1000⟩]⟩
def sampleScalars : Mat ℚ := ⟨2, 3, [1, 2 / 7, -3, 0, 5, 6]⟩

example : sampleColours.WF ∧ sampleScalars.WF := ⟨rfl, rfl⟩
example : readMatrix ratFmt (saveMatrix ratFmt sampleScalars) = .ok (some sampleScalars) :=
  C31_matrix_roundtrip ratFmt ratFmt_faithful _ rfl (by decide) (by decide)
example : ∃ m, readColourMatrix ratFmt (saveColourMatrix ratFmt sampleColours) = .ok (some m) ∧ m.get? 0 1 = some ⟨33333 / 100000, 0, -5⟩ := by
  obtain ⟨m, h1, -, -, -, h2⟩ := C32_colour_matrix_roundtrip ratFmt round5 ratFmt_fixed sampleColours rfl (by decide) (by decide)
  exact ⟨m, h1, by rw [h2 0 1 ⟨1 / 3, 0, -5⟩ rfl]; decide +kernel⟩

/-! ### C34 fails -/

/-- Three rows announced, one given. -/
def shortFile : List UInt8 := bytes "#?SIMPLE\nNROWS=3\nNCOLS=2\nNCOMP=1\nFORMAT=ascii\n\n1.5 2\n"
/-- One row announced, two given. -/
def longFile : List UInt8 := bytes "#?SIMPLE\nNROWS=1\nNCOLS=2\nNCOMP=1\nFORMAT=ascii\n\n1.5 2\n3 4\n"

/-- **C34 (violation).** A file with fewer data rows than announced is accepted, the missing rows being filled with zeros; a file with more
rows makes the reader panic instead of returning an error. -/
theorem C34_violation : readMatrix ratFmt shortFile = .ok (some ⟨3, 2, [3 / 2, 2, 0, 0, 0, 0]⟩) ∧ readMatrix ratFmt longFile = .panic := by
  decide +kernel

/-- The hypotheses of the partial theorems are met. -/
example : ∃ lines, Announces 1 shortFile 3 2 lines ∧ lines.length = 1 := ⟨[bytes "1.5 2"], (announces_iff _ _ _ _ _).2 ⟨6, by decide +kernel⟩, rfl⟩
example : readMatrix ratFmt (bytes "NROWS=2\nNCOLS=2\n\n1 x\n") = .ok none := by
  refine (C34_bad_row_is_error_partial ratFmt _ 2 2 [bytes "1 x"]).1 ((announces_iff _ _ _ _ _).2 ⟨3, by decide +kernel⟩) (by decide) ⟨_, List.mem_cons_self .., Or.inr ⟨bytes "x", ?_, ?_⟩⟩ <;>
  decide +kernel

/-- A header with two numbers in one line announces nothing. -/
example : readMatrix ratFmt (bytes "NROWS=1=2\nNCOLS=1\n\n1\n") = .ok none := by
  refine (C34_bad_header_is_error_partial ratFmt _).1 ?_
  rintro ⟨r, c, ls, h⟩
  obtain ⟨n, h1, _⟩ := (announces_iff _ _ _ _ _).1 h
  rw [show mHeader 1 (linesOf (bytes "NROWS=1=2\nNCOLS=1\n\n1\n")) none none 0 = none by decide +kernel] at h1
  cases h1

/-- C33, C35: for the matrices above. -/
example := C33_kinds_not_confused ratFmt sampleScalars sampleColours (by decide) (by decide) (by decide) (by decide)

example := C35_conversions sampleColours rfl

example := C35_average sampleScalars rfl

example := C35_radiance_between (⟨1, 2, 3⟩ : Spectrum ℚ) 1 3 (by norm_num) (by norm_num)

/-- C34: files that are accepted. -/
example := C34_accepted_scalar_partial ratFmt shortFile _ C34_violation.1

example : ∃ (m : Mat (Spectrum ℚ)) (lines : List (List UInt8)), readColourMatrix ratFmt (saveColourMatrix ratFmt sampleColours) = .ok (some m) ∧ Announces 3 (saveColourMatrix ratFmt sampleColours) m.nrows m.ncols lines := by
  obtain ⟨m, h, _⟩ := C32_colour_matrix_roundtrip ratFmt round5 ratFmt_fixed sampleColours rfl (by decide) (by decide)
  obtain ⟨lines, h2, _⟩ := C34_accepted_colour_partial ratFmt _ m h
  exact ⟨m, lines, h, h2⟩

end Rendering
