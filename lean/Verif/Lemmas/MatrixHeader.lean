import Verif.Spec.MatrixFiles
import Verif.Lemmas.Matrix

/-!
# The header loop reads what the header says
-/

set_option linter.unusedSectionVars false
namespace Rendering

theorem startsWith_iff (key l : List UInt8) : startsWith key l = true ↔ key <+: l := by
  unfold startsWith
  rw [beq_iff_eq, List.prefix_iff_eq_take]

theorem splitOnByte_two {p : UInt8 → Bool} {l a v : List UInt8} (h : splitOnByte p l = [a, v]) : ∃ s, l = a ++ s :: v ∧ p s = true ∧ (∀ b ∈ a, p b = false) ∧ ∀ b ∈ v, p b = false := by
  have one : ∀ {l v : List UInt8}, splitOnByte p l = [v] → l = v ∧ ∀ b ∈ v, p b = false := by
    intro l
    induction l with
    | nil => intro v h; simp only [splitOnByte, List.cons.injEq, and_true] at h; subst h; simp
    | cons b l ih =>
      intro v h
      unfold splitOnByte at h
      by_cases hb : p b = true
      · rw [if_pos hb] at h
        have := splitOnByte_ne_nil p l
        simp only [List.cons.injEq] at h
        exact absurd h.2 this
      · rw [if_neg hb] at h
        cases hr : splitOnByte p l with
        | nil => exact absurd hr (splitOnByte_ne_nil p l)
        | cons x xs =>
          rw [hr] at h
          simp only [List.cons.injEq] at h
          obtain ⟨rfl, rfl⟩ := h
          obtain ⟨rfl, h2⟩ := ih hr
          refine ⟨rfl, ?_⟩
          intro c hc
          rcases List.mem_cons.1 hc with rfl | hc
          · simpa using hb
          · exact h2 c hc
  induction l generalizing a with
  | nil => simp [splitOnByte] at h
  | cons b l ih =>
    unfold splitOnByte at h
    by_cases hb : p b = true
    · rw [if_pos hb] at h
      simp only [List.cons.injEq] at h
      obtain ⟨rfl, h⟩ := h
      obtain ⟨rfl, h2⟩ := one h
      exact ⟨b, rfl, hb, by simp, h2⟩
    · rw [if_neg hb] at h
      cases hr : splitOnByte p l with
      | nil => exact absurd hr (splitOnByte_ne_nil p l)
      | cons x xs =>
        rw [hr] at h
        simp only [List.cons.injEq] at h
        obtain ⟨rfl, rfl⟩ := h
        obtain ⟨s, rfl, h1, h2, h3⟩ := ih hr
        refine ⟨s, rfl, h1, ?_, h3⟩
        intro c hc
        rcases List.mem_cons.1 hc with rfl | hc
        · simpa using hb
        · exact h2 c hc

theorem headerNumber_iff (key : String) (hk : (61 : UInt8) ∉ bytes key) (line : List UInt8) (hl : bytes key <+: line) (n : Nat) : headerNumber line = some n ↔ Says key line n := by
  have e61 : ∀ b : UInt8, (b == 61) = true ↔ b = 61 := fun b => beq_iff_eq
  constructor
  · intro h
    unfold headerNumber at h
    split at h
    · rename_i a v hs
      obtain ⟨s, rfl, h1, h2, h3⟩ := splitOnByte_two hs
      have : s = 61 := (e61 s).1 h1
      subst this
      have ha : (61 : UInt8) ∉ a := fun hm => by have := h2 61 hm; simp at this
      have hv : (61 : UInt8) ∉ v := fun hm => by have := h3 61 hm; simp at this
      have hp : bytes key <+: a := by
        rcases List.prefix_or_prefix_of_prefix hl (List.prefix_append a (61 :: v)) with h4 | ⟨t, ht⟩
        · exact h4
        · rw [← ht] at hl
          cases t with
          | nil => rw [← ht]; simp
          | cons x t =>
            obtain ⟨u, hu⟩ := hl
            simp only [List.append_assoc, List.append_cancel_left_eq, List.cons_append, List.cons.injEq] at hu
            exact absurd (by rw [← ht, hu.1]; simp) hk
      obtain ⟨more, rfl⟩ := hp
      exact ⟨more, v, by simp, fun hm => ha (List.mem_append_right _ hm), hv, h⟩
    · cases h
  · rintro ⟨more, digits, rfl, h1, h2, h3⟩
    unfold headerNumber
    rw [splitOnByte_append _ (bytes key ++ more) ?_ 61 (by decide) digits, splitOnByte_none _ digits ?_]
    · exact h3
    · intro b hb
      simp only [beq_eq_false_iff_ne]
      rintro rfl
      exact h2 hb
    · intro b hb
      simp only [beq_eq_false_iff_ne]
      rintro rfl
      rcases List.mem_append.1 hb with h | h
      · exact hk h
      · exact h1 h

theorem keys_differ {l a b : List UInt8} (ha : a <+: l) (hb : b <+: l) (hl : a.length = b.length) : a = b := by
  rw [List.prefix_iff_eq_take.1 ha, List.prefix_iff_eq_take.1 hb, hl]

/-- A line of the header that is in order. -/
def GoodLine (comps : Nat) (l : List UInt8) : Prop :=
  (bytes "NROWS" <+: l → ∃ n, Says "NROWS" l n) ∧ (bytes "NCOLS" <+: l → ∃ n, Says "NCOLS" l n) ∧ (bytes "NCOMP" <+: l → Says "NCOMP" l comps)

/-- The number of the last line that begins with `key`. -/
def lastNumber (key : List UInt8) : Option Nat → List (List UInt8) → Option Nat
  | r, [] => r
  | r, l :: ls => lastNumber key (if startsWith key l then headerNumber l else r) ls

theorem no61_rows : (61 : UInt8) ∉ bytes "NROWS" := by decide +kernel
theorem no61_cols : (61 : UInt8) ∉ bytes "NCOLS" := by decide +kernel
theorem no61_comp : (61 : UInt8) ∉ bytes "NCOMP" := by decide +kernel

/-- What one header line does. -/
theorem headerLine_good (comps : Nat) (l : List UInt8) (hg : GoodLine comps l) :
    (bytes "NROWS" <+: l ∧ ¬ bytes "NCOLS" <+: l ∧ ∃ n, headerNumber l = some n ∧ mHeaderLine comps l = some (.nrows n)) ∨
    (¬ bytes "NROWS" <+: l ∧ bytes "NCOLS" <+: l ∧ ∃ n, headerNumber l = some n ∧ mHeaderLine comps l = some (.ncols n)) ∨
    (¬ bytes "NROWS" <+: l ∧ ¬ bytes "NCOLS" <+: l ∧ mHeaderLine comps l = some .skip) := by
  unfold mHeaderLine
  by_cases h1 : bytes "NROWS" <+: l
  · left
    obtain ⟨n, hn⟩ := hg.1 h1
    have hn := (headerNumber_iff "NROWS" no61_rows l h1 n).2 hn
    refine ⟨h1, fun h2 => ?_, n, hn, ?_⟩
    · have := keys_differ h1 h2 (by decide +kernel)
      revert this; decide +kernel
    · rw [if_pos ((startsWith_iff _ _).2 h1), hn]; rfl
  · right
    rw [if_neg (fun h => h1 ((startsWith_iff _ _).1 h))]
    by_cases h2 : bytes "NCOLS" <+: l
    · left
      obtain ⟨n, hn⟩ := hg.2.1 h2
      have hn := (headerNumber_iff "NCOLS" no61_cols l h2 n).2 hn
      exact ⟨h1, h2, n, hn, by rw [if_pos ((startsWith_iff _ _).2 h2), hn]; rfl⟩
    · right
      refine ⟨h1, h2, ?_⟩
      rw [if_neg (fun h => h2 ((startsWith_iff _ _).1 h))]
      by_cases h3 : bytes "NCOMP" <+: l
      · rw [if_pos ((startsWith_iff _ _).2 h3), (headerNumber_iff "NCOMP" no61_comp l h3 comps).2 (hg.2.2 h3)]
        simp
      · rw [if_neg (fun h => h3 ((startsWith_iff _ _).1 h))]

theorem headerLine_bad (comps : Nat) (l : List UInt8) (hg : ¬ GoodLine comps l) : mHeaderLine comps l = none := by
  unfold mHeaderLine
  by_cases h1 : bytes "NROWS" <+: l
  · rw [if_pos ((startsWith_iff _ _).2 h1)]
    cases hn : headerNumber l with
    | none => rfl
    | some n =>
      refine absurd ⟨fun _ => ⟨n, (headerNumber_iff "NROWS" no61_rows l h1 n).1 hn⟩, fun h2 => ?_, fun h2 => ?_⟩ hg
      · have := keys_differ h1 h2 (by decide +kernel)
        exact absurd this (by decide +kernel)
      · have := keys_differ h1 h2 (by decide +kernel)
        exact absurd this (by decide +kernel)
  · rw [if_neg (fun h => h1 ((startsWith_iff _ _).1 h))]
    by_cases h2 : bytes "NCOLS" <+: l
    · rw [if_pos ((startsWith_iff _ _).2 h2)]
      cases hn : headerNumber l with
      | none => rfl
      | some n =>
        refine absurd ⟨fun h => absurd h h1, fun _ => ⟨n, (headerNumber_iff "NCOLS" no61_cols l h2 n).1 hn⟩, fun h3 => ?_⟩ hg
        have := keys_differ h2 h3 (by decide +kernel)
        exact absurd this (by decide +kernel)
    · rw [if_neg (fun h => h2 ((startsWith_iff _ _).1 h))]
      by_cases h3 : bytes "NCOMP" <+: l
      · rw [if_pos ((startsWith_iff _ _).2 h3)]
        cases hn : headerNumber l with
        | none => rfl
        | some n =>
          by_cases hc : n = comps
          · subst hc
            exact absurd ⟨fun h => absurd h h1, fun h => absurd h h2, fun _ => (headerNumber_iff "NCOMP" no61_comp l h3 n).1 hn⟩ hg
          · simp [hc]
      · exact absurd ⟨fun h => absurd h h1, fun h => absurd h h2, fun h => absurd h h3⟩ hg

theorem blank_iff (l : List UInt8) : (l.isEmpty || isAsciiWhitespace l.head!) = true ↔ BlankLine l := by
  cases l with
  | nil => simp [BlankLine]
  | cons b l => simp [BlankLine]

theorem mHeader_good (comps : Nat) (header rest : List (List UInt8)) (hb : ∀ l ∈ header, ¬ BlankLine l) (hr : ∀ l ∈ rest.head?, BlankLine l) (hg : ∀ l ∈ header, GoodLine comps l) (r c : Option Nat) (n : Nat) :
    mHeader comps (header ++ rest) r c n = some (lastNumber (bytes "NROWS") r header, lastNumber (bytes "NCOLS") c header, n + header.length + min 1 rest.length) := by
  induction header generalizing r c n with
  | nil =>
    cases rest with
    | nil => rfl
    | cons l rest =>
      have := (blank_iff l).2 (hr l rfl)
      simp only [List.nil_append]
      unfold mHeader
      rw [if_pos this]
      simp [lastNumber]
  | cons l header ih =>
    have hl : ¬ (l.isEmpty || isAsciiWhitespace l.head!) = true := fun h => hb l (by simp) ((blank_iff l).1 h)
    simp only [List.cons_append]
    unfold mHeader
    rw [if_neg hl]
    have ih := fun r c => ih (fun x hx => hb x (by simp [hx])) (fun x hx => hg x (by simp [hx])) r c (n + 1)
    have hlen : n + 1 + header.length + min 1 rest.length = n + (l :: header).length + min 1 rest.length := by simp only [List.length_cons]; omega
    rcases headerLine_good comps l (hg l (by simp)) with ⟨h1, h2, v, hv, hm⟩ | ⟨h1, h2, v, hv, hm⟩ | ⟨h1, h2, hm⟩
    · have h1 := (startsWith_iff _ _).2 h1
      have h2 : startsWith (bytes "NCOLS") l = false := by rw [← Bool.not_eq_true, startsWith_iff]; exact h2
      simp only [hm, ih, lastNumber, h1, h2, hv, hlen, if_true, Bool.false_eq_true, if_false]
    · have h1 : startsWith (bytes "NROWS") l = false := by rw [← Bool.not_eq_true, startsWith_iff]; exact h1
      have h2 := (startsWith_iff _ _).2 h2
      simp only [hm, ih, lastNumber, h1, h2, hv, hlen, if_true, Bool.false_eq_true, if_false]
    · have h1 : startsWith (bytes "NROWS") l = false := by rw [← Bool.not_eq_true, startsWith_iff]; exact h1
      have h2 : startsWith (bytes "NCOLS") l = false := by rw [← Bool.not_eq_true, startsWith_iff]; exact h2
      simp only [hm, ih, lastNumber, h1, h2, hlen, Bool.false_eq_true, if_false]

theorem mHeader_bad (comps : Nat) (header rest : List (List UInt8)) (hb : ∀ l ∈ header, ¬ BlankLine l) (hg : ∃ l ∈ header, ¬ GoodLine comps l) (r c : Option Nat) (n : Nat) : mHeader comps (header ++ rest) r c n = none := by
  induction header generalizing r c n with
  | nil => obtain ⟨l, hl, _⟩ := hg; simp at hl
  | cons l header ih =>
    have hl : ¬ (l.isEmpty || isAsciiWhitespace l.head!) = true := fun h => hb l (by simp) ((blank_iff l).1 h)
    simp only [List.cons_append]
    unfold mHeader
    rw [if_neg hl]
    by_cases hgl : GoodLine comps l
    · have : ∃ x ∈ header, ¬ GoodLine comps x := by
        obtain ⟨x, hx, hn⟩ := hg
        rcases List.mem_cons.1 hx with rfl | hx
        · exact absurd hgl hn
        · exact ⟨x, hx, hn⟩
      have ih := fun r c => ih (fun x hx => hb x (by simp [hx])) this r c (n + 1)
      rcases headerLine_good comps l hgl with ⟨_, _, v, _, hm⟩ | ⟨_, _, v, _, hm⟩ | ⟨_, _, hm⟩ <;> simp only [hm, ih]
    · rw [headerLine_bad comps l hgl]

theorem header_split (lines : List (List UInt8)) : ∃ header rest, lines = header ++ rest ∧ (∀ l ∈ header, ¬ BlankLine l) ∧ ∀ l ∈ rest.head?, BlankLine l := by
  induction lines with
  | nil => exact ⟨[], [], rfl, by simp, by simp⟩
  | cons l lines ih =>
    by_cases h : BlankLine l
    · exact ⟨[], l :: lines, rfl, by simp, fun x hx => by simp at hx; rw [← hx]; exact h⟩
    · obtain ⟨header, rest, rfl, h1, h2⟩ := ih
      refine ⟨l :: header, rest, rfl, ?_, h2⟩
      intro x hx
      rcases List.mem_cons.1 hx with rfl | hx
      · exact h
      · exact h1 x hx

theorem lastNumber_append (key : List UInt8) (r : Option Nat) (a b : List (List UInt8)) : lastNumber key r (a ++ b) = lastNumber key (lastNumber key r a) b := by
  induction a generalizing r with
  | nil => rfl
  | cons l a ih => exact ih _

theorem lastNumber_none (key : List UInt8) (r : Option Nat) (ls : List (List UInt8)) (h : ∀ l ∈ ls, ¬ key <+: l) : lastNumber key r ls = r := by
  induction ls generalizing r with
  | nil => rfl
  | cons l ls ih =>
    have h1 : startsWith key l = false := by rw [← Bool.not_eq_true, startsWith_iff]; exact h l (by simp)
    unfold lastNumber
    rw [h1]
    exact ih r fun x hx => h x (by simp [hx])

theorem lastNumber_iff (key : String) (hk : (61 : UInt8) ∉ bytes key) (header : List (List UInt8)) (n : Nat) : lastNumber (bytes key) none header = some n ↔ LastSays key header n := by
  constructor
  · intro h
    have : ∀ (ls : List (List UInt8)) (r : Option Nat), lastNumber (bytes key) r ls = some n → LastSays key ls n ∨ (r = some n ∧ ∀ l ∈ ls, ¬ bytes key <+: l) := by
      intro ls
      induction ls with
      | nil => intro r h; exact Or.inr ⟨h, by simp⟩
      | cons l ls ih =>
        intro r h
        unfold lastNumber at h
        rcases ih _ h with ⟨a, x, b, rfl, h1, h2⟩ | ⟨h1, h2⟩
        · exact Or.inl ⟨l :: a, x, b, rfl, h1, h2⟩
        · by_cases hs : bytes key <+: l
          · rw [if_pos ((startsWith_iff _ _).2 hs)] at h1
            exact Or.inl ⟨[], l, ls, rfl, (headerNumber_iff key hk l hs n).1 h1, h2⟩
          · rw [if_neg (fun h => hs ((startsWith_iff _ _).1 h))] at h1
            refine Or.inr ⟨h1, ?_⟩
            intro x hx
            rcases List.mem_cons.1 hx with rfl | hx
            · exact hs
            · exact h2 x hx
    rcases this header none h with h | ⟨h, _⟩
    · exact h
    · cases h
  · rintro ⟨a, l, b, rfl, h1, h2⟩
    have hs : bytes key <+: l := by obtain ⟨more, d, rfl, _⟩ := h1; exact ⟨more ++ 61 :: d, by simp⟩
    rw [lastNumber_append, lastNumber, if_pos ((startsWith_iff _ _).2 hs), lastNumber_none _ _ _ h2]
    exact (headerNumber_iff key hk l hs n).2 h1

/-- The header loop finds exactly what the header announces. -/
theorem announces_iff (comps : Nat) (content : List UInt8) (nrows ncols : Nat) (dataLines : List (List UInt8)) :
    Announces comps content nrows ncols dataLines ↔ ∃ n, mHeader comps (linesOf content) none none 0 = some (some nrows, some ncols, n) ∧ dataLines = (linesOf content).drop n := by
  have hdrop : ∀ header rest : List (List UInt8), (header ++ rest).drop (0 + header.length + min 1 rest.length) = rest.tail := by
    intro header rest
    rw [Nat.zero_add, List.drop_append, List.drop_eq_nil_of_le (by omega)]
    simp only [List.nil_append, Nat.add_sub_cancel_left]
    cases rest <;> simp
  constructor
  · rintro ⟨header, rest, hl, rfl, hb, hr, h1, h2, hg⟩
    refine ⟨0 + header.length + min 1 rest.length, ?_, ?_⟩
    · rw [hl, mHeader_good comps header rest hb hr hg, (lastNumber_iff "NROWS" no61_rows header nrows).2 h1, (lastNumber_iff "NCOLS" no61_cols header ncols).2 h2]
    · rw [hl, hdrop]
  · rintro ⟨n, h, rfl⟩
    obtain ⟨header, rest, hl, hb, hr⟩ := header_split (linesOf content)
    rw [hl] at h
    by_cases hg : ∀ l ∈ header, GoodLine comps l
    · rw [mHeader_good comps header rest hb hr hg] at h
      simp only [Option.some.injEq, Prod.mk.injEq] at h
      obtain ⟨h1, h2, h3⟩ := h
      refine ⟨header, rest, hl, ?_, hb, hr, (lastNumber_iff "NROWS" no61_rows header nrows).1 h1, (lastNumber_iff "NCOLS" no61_cols header ncols).1 h2, hg⟩
      rw [hl, ← h3, hdrop]
    · push Not at hg
      rw [mHeader_bad comps header rest hb hg] at h
      cases h

end Rendering
