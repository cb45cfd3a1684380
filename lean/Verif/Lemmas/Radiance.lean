import Verif.Spec.Radiance

/-! # Scanning lemmas for the Radiance reader -/

set_option linter.unusedSectionVars false
namespace Rendering
variable {K : Type}

/-! ### Tokens -/

theorem tokensOf_nil : tokensOf [] = [] := by simp [tokensOf, splitOnByte]

theorem tokensOf_ws {b : UInt8} {l : List UInt8} (h : isAsciiWhitespace b = true) : tokensOf (b :: l) = tokensOf l := by
  simp [tokensOf, splitOnByte, h]

theorem splitOnByte_ne_nil (p : UInt8 → Bool) (l : List UInt8) : splitOnByte p l ≠ [] := by
  induction l with
  | nil => simp [splitOnByte]
  | cons b l ih =>
    unfold splitOnByte
    split
    · simp
    · split <;> simp

theorem splitOnByte_split (p : UInt8 → Bool) (l : List UInt8) :
    splitOnByte p l = l.takeWhile (fun b => !p b) :: (match l.dropWhile (fun b => !p b) with
      | [] => []
      | _ :: rest => splitOnByte p rest) := by
  induction l with
  | nil => simp [splitOnByte]
  | cons b l ih =>
    by_cases h : p b
    · simp [splitOnByte, h]
    · rw [splitOnByte, if_neg h, ih]
      simp [h]

theorem tokensOf_token {l : List UInt8} (h : l.takeWhile (fun b => !isAsciiWhitespace b) ≠ []) :
    tokensOf l = l.takeWhile (fun b => !isAsciiWhitespace b) :: tokensOf (l.dropWhile (fun b => !isAsciiWhitespace b)) := by
  unfold tokensOf
  rw [splitOnByte_split, List.filter_cons, if_pos (by simpa using h)]
  congr 1
  cases hd : l.dropWhile (fun b => !isAsciiWhitespace b) with
  | nil => simp [splitOnByte]
  | cons b rest =>
    have hb : isAsciiWhitespace b = true := by
      have := List.head?_dropWhile_not (fun b => !isAsciiWhitespace b) l
      rw [hd] at this
      simpa using this
    simp [splitOnByte, hb]

theorem tokensOf_dropWhile (l : List UInt8) : tokensOf (l.dropWhile isAsciiWhitespace) = tokensOf l := by
  induction l with
  | nil => rfl
  | cons b l ih =>
    by_cases h : isAsciiWhitespace b
    · rw [List.dropWhile_cons_of_pos h, ih, tokensOf_ws h]
    · rw [List.dropWhile_cons_of_neg h]

/-! ### The reader at a position -/

/-- The state of the reader when `i` bytes have been consumed. -/
def readerAt (src : List UInt8) (mods : List (List UInt8)) (i : Nat) : RadReader :=
  { index := i, done := decide (i = src.length), modifiers := mods, line := (src.take i).count 10 }

theorem checkEmpty_readerAt (src : List UInt8) (mods : List (List UInt8)) (i : Nat) (hi : i ≤ src.length) :
    (readerAt src mods i).checkEmpty src = readerAt src mods i := by
  unfold RadReader.checkEmpty
  split
  · next h =>
    have : src = [] := by simpa using h
    subst this
    simp only [List.length_nil, nonpos_iff_eq_zero] at hi
    simp [readerAt, hi]
  · rfl

theorem consumeChar_readerAt (src : List UInt8) (mods : List (List UInt8)) (i : Nat) (hi : i < src.length) :
    (readerAt src mods i).consumeChar src = .ok (true, readerAt src mods (i + 1)) := by
  unfold RadReader.consumeChar
  rw [checkEmpty_readerAt src mods i hi.le]
  have hd : (readerAt src mods i).done = false := by simp [readerAt]; omega
  have hix : (readerAt src mods i).index = i := rfl
  simp only [hd, hix, Bool.false_eq_true, if_false, List.getElem?_eq_getElem hi]
  congr 2
  have ht : (src.take (i + 1)).count 10 = (src.take i).count 10 + if src[i] == 10 then 1 else 0 := by
    rw [List.take_succ_eq_append_getElem hi, List.count_append, List.count_singleton]
  unfold readerAt
  by_cases h10 : src[i] == 10 <;> by_cases hl : i + 1 = src.length <;> simp_all <;> omega

theorem consumeWhitespace_readerAt (src : List UInt8) (mods : List (List UInt8)) (i : Nat) (hi : i ≤ src.length) :
    (readerAt src mods i).consumeWhitespace src = match src.drop i with
      | [] => .ok (false, readerAt src mods i)
      | b :: _ => if isAsciiWhitespace b then .ok (true, readerAt src mods (i + 1)) else .ok (false, readerAt src mods i) := by
  unfold RadReader.consumeWhitespace
  rw [checkEmpty_readerAt src mods i hi]
  rcases Nat.lt_or_ge i src.length with h | h
  · have hd : (readerAt src mods i).done = false := by simp [readerAt]; omega
    have hix : (readerAt src mods i).index = i := rfl
    rw [List.drop_eq_getElem_cons h]
    simp only [hd, hix, Bool.false_eq_true, if_false, List.getElem?_eq_getElem h, consumeChar_readerAt src mods i h]
  · have hd : (readerAt src mods i).done = true := by simp [readerAt]; omega
    rw [List.drop_eq_nil_of_le h]
    simp only [hd, if_true]

theorem consumeNonWhite_readerAt (src : List UInt8) (mods : List (List UInt8)) (i : Nat) (hi : i ≤ src.length) :
    (readerAt src mods i).consumeNonWhite src = match src.drop i with
      | [] => .ok (false, readerAt src mods i)
      | b :: _ => if !isAsciiWhitespace b then .ok (true, readerAt src mods (i + 1)) else .ok (false, readerAt src mods i) := by
  unfold RadReader.consumeNonWhite
  rw [checkEmpty_readerAt src mods i hi]
  rcases Nat.lt_or_ge i src.length with h | h
  · have hd : (readerAt src mods i).done = false := by simp [readerAt]; omega
    have hix : (readerAt src mods i).index = i := rfl
    rw [List.drop_eq_getElem_cons h]
    simp only [hd, hix, Bool.false_eq_true, if_false, List.getElem?_eq_getElem h, consumeChar_readerAt src mods i h]
    cases isAsciiWhitespace src[i] <;> simp
  · have hd : (readerAt src mods i).done = true := by simp [readerAt]; omega
    rw [List.drop_eq_nil_of_le h]
    simp only [hd, if_true]

/-- Both loops: a maximal run of characters satisfying `p` is consumed. -/
theorem consumeLoop_readerAt (p : UInt8 → Bool) (src : List UInt8) (mods : List (List UInt8)) (step : RadReader → Res (Bool × RadReader))
    (hstep : ∀ i, i ≤ src.length → step (readerAt src mods i) = match src.drop i with
      | [] => .ok (false, readerAt src mods i)
      | b :: _ => if p b then .ok (true, readerAt src mods (i + 1)) else .ok (false, readerAt src mods i)) :
    ∀ (fuel i : Nat), i ≤ src.length → src.length - i < fuel →
      RadReader.consumeLoop step fuel (readerAt src mods i) = .ok (readerAt src mods (i + ((src.drop i).takeWhile p).length)) := by
  intro fuel
  induction fuel with
  | zero => intro i _ h; omega
  | succ fuel ih =>
    intro i hi hf
    unfold RadReader.consumeLoop
    rw [hstep i hi]
    rcases Nat.lt_or_ge i src.length with h | h
    · rw [List.drop_eq_getElem_cons h]
      by_cases hp : p src[i]
      · simp only [hp, if_true, Res.bind_ok, List.takeWhile_cons_of_pos]
        rw [ih (i + 1) (by omega) (by omega)]
        congr 2
        simp only [List.length_cons]; omega
      · simp only [hp, Bool.false_eq_true, if_false, Res.bind_ok, List.takeWhile_cons_of_neg hp, List.length_nil, Nat.add_zero]
    · rw [List.drop_eq_nil_of_le h]
      simp

theorem takeWhile_length_le' (p : UInt8 → Bool) (l : List UInt8) : (l.takeWhile p).length ≤ l.length :=
  List.Sublist.length_le (List.takeWhile_sublist p)

theorem drop_takeWhile (p : UInt8 → Bool) (src : List UInt8) (i : Nat) :
    src.drop (i + ((src.drop i).takeWhile p).length) = (src.drop i).dropWhile p := by
  rw [← List.drop_drop]
  generalize src.drop i = l
  induction l with
  | nil => rfl
  | cons b l ih => by_cases h : p b <;> simp [h, ih]

theorem reachNextToken_readerAt (src : List UInt8) (mods : List (List UInt8)) (i : Nat) (hi : i ≤ src.length) :
    ∃ j, i ≤ j ∧ j ≤ src.length ∧ src.drop j = (src.drop i).dropWhile isAsciiWhitespace ∧ (readerAt src mods i).reachNextToken src = .ok (readerAt src mods j) := by
  refine ⟨i + ((src.drop i).takeWhile isAsciiWhitespace).length, by omega, ?_, drop_takeWhile _ _ _, ?_⟩
  · have := takeWhile_length_le' isAsciiWhitespace (src.drop i)
    rw [List.length_drop] at this; omega
  · unfold RadReader.reachNextToken
    exact consumeLoop_readerAt _ src mods _ (fun i hi => consumeWhitespace_readerAt src mods i hi) _ i hi (by omega)

/-- One token: either the text is exhausted, or the next token is taken off, provided it is UTF-8. -/
theorem consumeToken_readerAt (src : List UInt8) (mods : List (List UInt8)) (i : Nat) (hi : i ≤ src.length) :
    (tokensOf (src.drop i) = [] ∧ (readerAt src mods i).consumeToken src = .ok ([], readerAt src mods src.length)) ∨
    ∃ t j, i < j ∧ j ≤ src.length ∧ t ≠ [] ∧ tokensOf (src.drop i) = t :: tokensOf (src.drop j) ∧
      (readerAt src mods i).consumeToken src = if validUtf8 t then .ok (t, readerAt src mods j) else .panic := by
  obtain ⟨j, hij, hj, hdrop, hreach⟩ := reachNextToken_readerAt src mods i hi
  have hloop := consumeLoop_readerAt _ src mods _ (fun i hi => consumeNonWhite_readerAt src mods i hi) (src.length + 1) j hj (by omega)
  have htok : tokensOf (src.drop i) = tokensOf (src.drop j) := by rw [hdrop, tokensOf_dropWhile]
  set k := j + ((src.drop j).takeWhile (fun b => !isAsciiWhitespace b)).length with hk
  have hkl : k ≤ src.length := by
    have := takeWhile_length_le' (fun b => !isAsciiWhitespace b) (src.drop j)
    rw [List.length_drop] at this; omega
  have hconsume : (readerAt src mods i).consumeToken src = if j = k then .ok ([], readerAt src mods k)
      else if validUtf8 ((src.take k).drop j) then .ok ((src.take k).drop j, readerAt src mods k) else .panic := by
    unfold RadReader.consumeToken
    rw [hreach, Res.bind_ok]
    rw [hloop, Res.bind_ok]
    rfl
  have hslice : (src.take k).drop j = (src.drop j).takeWhile (fun b => !isAsciiWhitespace b) := by
    rw [List.drop_take, hk, Nat.add_sub_cancel_left]
    exact (List.prefix_iff_eq_take.mp (List.takeWhile_prefix _)).symm
  by_cases he : (src.drop j).takeWhile (fun b => !isAsciiWhitespace b) = []
  · left
    have hjk : j = k := by rw [hk, he]; simp
    have hnil : src.drop j = [] := by
      cases hd : src.drop j with
      | nil => rfl
      | cons b l =>
        exfalso
        rw [hd] at he
        have hb : isAsciiWhitespace b = true := by
          by_contra hb
          rw [List.takeWhile_cons_of_pos (by simpa using hb)] at he
          simp at he
        have := List.head?_dropWhile_not isAsciiWhitespace (src.drop i)
        rw [← hdrop, hd] at this
        simp [hb] at this
    have hjl : j = src.length := le_antisymm hj (by simpa using hnil)
    refine ⟨by rw [htok, hnil, tokensOf_nil], ?_⟩
    rw [hconsume, if_pos hjk, ← hjk, hjl]
  · right
    have hlen : 0 < ((src.drop j).takeWhile (fun b => !isAsciiWhitespace b)).length := List.length_pos_iff.mpr he
    refine ⟨(src.drop j).takeWhile (fun b => !isAsciiWhitespace b), k, by omega, hkl, he, ?_, ?_⟩
    · rw [htok, tokensOf_token he, hk, drop_takeWhile]
    · rw [hconsume, if_neg (by omega), hslice]

end Rendering
