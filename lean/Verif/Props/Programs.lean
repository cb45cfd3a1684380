import Verif.Model.Programs
import Verif.Props.Image
import Verif.Props.FalseColour
import Mathlib.Data.List.TakeWhile

/-!
# C88–C90: what the command-line programs make of their input

C88: view points and directions given to `spict`; C89: the sensors given to `sfluxmtx`; C90: `scompare`.
-/

set_option linter.unusedSectionVars false
namespace Rendering

open Classical

/-- The text consists of the given words separated by single spaces, surrounded by any amount of white space. -/
def Words (words : List (List Char)) (s : List Char) : Prop :=
  ∃ before after : List Char, (∀ c ∈ before, isWhite c = true) ∧ (∀ c ∈ after, isWhite c = true) ∧ s = before ++ List.intercalate [' '] words ++ after

/-- **C88, white space.** White space is the twenty-five characters that Unicode calls so: the controls from tab to carriage return, the space, and
U+0085, U+00A0, U+1680, U+2000 to U+200A, U+2028, U+2029, U+202F, U+205F and U+3000. -/
theorem C88_white_space (c : Char) : isWhite c = true ↔
    c.toNat ∈ [0x9, 0xA, 0xB, 0xC, 0xD, 0x20, 0x85, 0xA0, 0x1680, 0x2000, 0x2001, 0x2002, 0x2003, 0x2004, 0x2005, 0x2006, 0x2007, 0x2008, 0x2009, 0x200A,
      0x2028, 0x2029, 0x202F, 0x205F, 0x3000] := by
  unfold isWhite
  generalize c.toNat = n
  simp only [Bool.or_eq_true, Bool.and_eq_true, decide_eq_true_eq, beq_iff_eq, List.mem_cons, List.not_mem_nil, or_false]
  omega

theorem splitSpaces_ne (s : List Char) : splitSpaces s ≠ [] := by
  cases s with
  | nil => simp [splitSpaces]
  | cons c s =>
    unfold splitSpaces
    split_ifs
    · simp
    · split <;> simp

theorem splitSpaces_join (s : List Char) : List.intercalate [' '] (splitSpaces s) = s ∧ ∀ w ∈ splitSpaces s, ' ' ∉ w := by
  induction s with
  | nil => simp [splitSpaces]
  | cons c s ih =>
    unfold splitSpaces
    obtain ⟨h1, h2⟩ := ih
    have hne := splitSpaces_ne s
    cases hs : splitSpaces s with
    | nil => exact absurd hs hne
    | cons piece more =>
      rw [hs] at h1 h2
      split_ifs with hc
      · subst hc
        refine ⟨?_, ?_⟩
        · rw [List.intercalate_cons_cons, h1]; rfl
        · intro w hw
          rcases List.mem_cons.1 hw with rfl | hw
          · simp
          · exact h2 w hw
      · simp only
        refine ⟨?_, ?_⟩
        · cases more with
          | nil => simpa using h1
          | cons m ms => rw [List.intercalate_cons_cons] at h1 ⊢; rw [← h1]; rfl
        · intro w hw
          rcases List.mem_cons.1 hw with rfl | hw
          · have := h2 piece List.mem_cons_self
            simp [this, Ne.symm hc]
          · exact h2 w (List.mem_cons_of_mem _ hw)

theorem splitSpaces_noSpace (w rest : List Char) (h : ' ' ∉ w) : splitSpaces (w ++ ' ' :: rest) = w :: splitSpaces rest := by
  induction w with
  | nil => simp [splitSpaces]
  | cons c w ih =>
    simp only [List.mem_cons, not_or] at h
    rw [List.cons_append, splitSpaces, if_neg (Ne.symm h.1), ih h.2]

theorem splitSpaces_word (w : List Char) (h : ' ' ∉ w) : splitSpaces w = [w] := by
  induction w with
  | nil => rfl
  | cons c w ih =>
    simp only [List.mem_cons, not_or] at h
    rw [splitSpaces, if_neg (Ne.symm h.1), ih h.2]

theorem splitSpaces_intercalate (words : List (List Char)) (hne : words ≠ []) (h : ∀ w ∈ words, ' ' ∉ w) : splitSpaces (List.intercalate [' '] words) = words := by
  induction words with
  | nil => exact absurd rfl hne
  | cons w ws ih =>
    cases ws with
    | nil => simpa using splitSpaces_word w (h w List.mem_cons_self)
    | cons v vs =>
      rw [List.intercalate_cons_cons, List.append_assoc, List.singleton_append, splitSpaces_noSpace w _ (h w List.mem_cons_self), ih (by simp) fun x hx => h x (List.mem_cons_of_mem _ hx)]

theorem dropWhile_white (before s : List Char) (hb : ∀ c ∈ before, isWhite c = true) (hs : ∀ c, s.head? = some c → isWhite c = false) : (before ++ s).dropWhile isWhite = s := by
  induction before with
  | nil =>
    cases s with
    | nil => rfl
    | cons c s => rw [List.nil_append, List.dropWhile_cons_of_neg (by rw [hs c rfl]; simp)]
  | cons b bs ih =>
    rw [List.cons_append, List.dropWhile_cons_of_pos (hb b List.mem_cons_self)]
    exact ih fun c hc => hb c (List.mem_cons_of_mem _ hc)

theorem trimText_spec (before s after : List Char) (hb : ∀ c ∈ before, isWhite c = true) (ha : ∀ c ∈ after, isWhite c = true) (h1 : ∀ c, s.head? = some c → isWhite c = false)
    (h2 : ∀ c, s.getLast? = some c → isWhite c = false) : trimText (before ++ s ++ after) = s := by
  unfold trimText
  by_cases hs : s = []
  · subst hs
    have hall : ∀ c ∈ before ++ [] ++ after, isWhite c = true := by simpa using fun c hc => hc.elim (hb c) (ha c)
    rw [List.dropWhile_eq_nil_iff.2 hall]
    rfl
  · rw [List.append_assoc, dropWhile_white before (s ++ after) hb (by
      intro c hc
      cases s with
      | nil => exact absurd rfl hs
      | cons d s => exact h1 c (by simpa using hc)), List.reverse_append, dropWhile_white after.reverse s.reverse (by simpa using ha) (by simpa using h2), List.reverse_reverse]

theorem trimText_ends (s : List Char) : ∃ before after, (∀ c ∈ before, isWhite c = true) ∧ (∀ c ∈ after, isWhite c = true) ∧ s = before ++ trimText s ++ after := by
  refine ⟨s.takeWhile isWhite, ((s.dropWhile isWhite).reverse.takeWhile isWhite).reverse, fun c hc => List.mem_takeWhile_imp hc, ?_, ?_⟩
  · intro c hc
    rw [List.mem_reverse] at hc
    exact List.mem_takeWhile_imp hc
  · unfold trimText
    rw [List.append_assoc, ← List.reverse_append, List.takeWhile_append_dropWhile, List.reverse_reverse, List.takeWhile_append_dropWhile]

/-- What `str::parse::<f64>` guarantees: numbers are written without white space, and the empty text is not a number. -/
def NumberParser {K : Type} (parse : List Char → Option K) : Prop := ∀ w a, parse w = some a → w ≠ [] ∧ ∀ c ∈ w, isWhite c = false

theorem words_trim (words : List (List Char)) (s : List Char) (hw : words ≠ []) (h : ∀ w ∈ words, w ≠ [] ∧ ∀ c ∈ w, isWhite c = false) : Words words s ↔ splitSpaces (trimText s) = words := by
  have hspace : ∀ w ∈ words, ' ' ∉ w := fun w hm hc => by have := (h w hm).2 ' ' hc; revert this; decide
  have hhead : ∀ (l : List (List Char)), l ≠ [] → (∀ w ∈ l, w ≠ [] ∧ ∀ c ∈ w, isWhite c = false) → ∀ c, (List.intercalate [' '] l).head? = some c → isWhite c = false := by
    intro l hl hh c hc
    cases l with
    | nil => exact absurd rfl hl
    | cons w ws =>
      obtain ⟨k1, k2⟩ := hh w List.mem_cons_self
      cases w with
      | nil => exact absurd rfl k1
      | cons d w =>
        have : c = d := by
          cases ws with
          | nil => simpa using hc.symm
          | cons v vs => rw [List.intercalate_cons_cons] at hc; simpa using hc.symm
        rw [this]
        exact k2 d List.mem_cons_self
  have hlast : ∀ (l : List (List Char)), (∀ w ∈ l, w ≠ [] ∧ ∀ c ∈ w, isWhite c = false) → ∀ c, (List.intercalate [' '] l).getLast? = some c → isWhite c = false := by
    intro l hh c hc
    induction l with
    | nil => simp at hc
    | cons w ws ih =>
      cases ws with
      | nil =>
        simp only [List.intercalate_singleton] at hc
        exact (hh w List.mem_cons_self).2 c (List.mem_of_getLast? hc)
      | cons v vs =>
        refine ih (fun w hw => hh w (List.mem_cons_of_mem _ hw)) ?_
        rw [List.intercalate_cons_cons, List.getLast?_append] at hc
        have hne : (List.intercalate [' '] (v :: vs)) ≠ [] := by
          have hv := (hh v (by simp)).1
          cases vs with
          | nil => simpa using hv
          | cons u us => rw [List.intercalate_cons_cons]; simp [hv]
        cases hl : (List.intercalate [' '] (v :: vs)).getLast? with
        | none => exact absurd (List.getLast?_eq_none_iff.1 hl) hne
        | some d => rw [hl] at hc; simpa using hc
  constructor
  · rintro ⟨before, after, hb, ha, rfl⟩
    rw [trimText_spec before _ after hb ha (hhead words hw h) (hlast words h), splitSpaces_intercalate words hw hspace]
  · intro hs
    obtain ⟨before, after, hb, ha, e⟩ := trimText_ends s
    refine ⟨before, after, hb, ha, ?_⟩
    rw [← hs, (splitSpaces_join (trimText s)).1]
    exact e

/-! ### C88 -/

section
variable {K : Type}

/-- **C88.** `spict` accepts a view point, direction or up vector exactly when the argument is three numbers separated by single spaces (and any white space around them), and takes them in that order. -/
theorem C88_triplet_iff (parse : List Char → Option K) (hp : NumberParser parse) (s : List Char) (v : Vec3 K) :
    tripletFromStr parse s = some v ↔ ∃ x y z, Words [x, y, z] s ∧ parse x = some v.x ∧ parse y = some v.y ∧ parse z = some v.z := by
  unfold tripletFromStr
  constructor
  · intro h
    split at h
    · rename_i x y z hs
      simp only [Option.bind_eq_some_iff] at h
      obtain ⟨a, ha, b, hb, c, hc, h⟩ := h
      cases h
      refine ⟨x, y, z, (words_trim [x, y, z] s (by simp) ?_).2 hs, ha, hb, hc⟩
      intro w hw
      simp only [List.mem_cons, List.not_mem_nil, or_false] at hw
      rcases hw with rfl | rfl | rfl
      · exact hp _ _ ha
      · exact hp _ _ hb
      · exact hp _ _ hc
    · cases h
  · rintro ⟨x, y, z, hw, ha, hb, hc⟩
    rw [(words_trim [x, y, z] s (by simp) (by
      intro w hw
      simp only [List.mem_cons, List.not_mem_nil, or_false] at hw
      rcases hw with rfl | rfl | rfl
      · exact hp _ _ ha
      · exact hp _ _ hb
      · exact hp _ _ hc)).1 hw]
    simp only [ha, hb, hc, Option.bind_some]

/-- **C88, round trip.** What is displayed for a triplet (such as the default view up in the help text) is read back as the same triplet, if numbers are printed so that they parse back. -/
theorem C88_round_trip (parse : List Char → Option K) (hp : NumberParser parse) (print : K → List Char) (hprint : ∀ a, parse (print a) = some a) (v : Vec3 K) :
    tripletFromStr parse (tripletDisplay print v) = some v := by
  rw [C88_triplet_iff parse hp]
  refine ⟨print v.x, print v.y, print v.z, ⟨[], [], by simp, by simp, ?_⟩, hprint _, hprint _, hprint _⟩
  simp [tripletDisplay, List.intercalate_cons_cons, List.intercalate_singleton]

/-- **C88, what is rejected.** More than one space, or a tab, between two numbers. -/
theorem C88_rejects_wide_gaps (parse : List Char → Option K) (hp : NumberParser parse) (x y z gap : List Char) (hgap : gap ≠ [' ']) (hwhite : ∀ c ∈ gap, isWhite c = true)
    (hx : ∃ a, parse x = some a) (hy : ∃ a, parse y = some a) (hz : ∃ a, parse z = some a) : tripletFromStr parse (x ++ gap ++ y ++ [' '] ++ z) = none := by
  cases ht : tripletFromStr parse (x ++ gap ++ y ++ [' '] ++ z) with
  | none => rfl
  | some v =>
    exfalso
    obtain ⟨a, b, c, ⟨before, after, hb, ha, e⟩, ka, kb, kc⟩ := (C88_triplet_iff parse hp _ v).1 ht
    obtain ⟨ax, hx⟩ := hx
    obtain ⟨ay, hy⟩ := hy
    obtain ⟨az, hz⟩ := hz
    have none_white : ∀ w r, parse w = some r → w.filter isWhite = [] := fun w r h => List.filter_eq_nil_iff.2 fun c hc => by rw [(hp w r h).2 c hc]; simp
    have all_white : ∀ l : List Char, (∀ c ∈ l, isWhite c = true) → l.filter isWhite = l := fun l h => List.filter_eq_self.2 h
    have hsp : [' '].filter isWhite = [' '] := by decide
    have hf := congrArg (List.filter isWhite) e
    simp only [List.intercalate_cons_cons, List.intercalate_singleton, List.filter_append, none_white _ _ hx, none_white _ _ hy, none_white _ _ hz, none_white _ _ ka, none_white _ _ kb, none_white _ _ kc,
      all_white gap hwhite, all_white before hb, all_white after ha, hsp, List.nil_append, List.append_nil] at hf
    have hbefore : before = [] := by
      cases before with
      | nil => rfl
      | cons d ds =>
        exfalso
        obtain ⟨k1, k2⟩ := hp x ax hx
        cases x with
        | nil => exact k1 rfl
        | cons f fs =>
          simp only [List.cons_append, List.cons.injEq] at e
          have h1 := k2 f List.mem_cons_self
          rw [e.1, hb d List.mem_cons_self] at h1
          cases h1
    have hafter : after = [] := by
      by_contra hne
      obtain ⟨l, d, rfl⟩ := List.eq_nil_or_concat after |>.resolve_left hne
      obtain ⟨k1, k2⟩ := hp z az hz
      obtain ⟨zl, zd, rfl⟩ := List.eq_nil_or_concat z |>.resolve_left k1
      have hl := congrArg List.getLast? e
      simp only [List.concat_eq_append, ← List.append_assoc, List.getLast?_append, List.getLast?_singleton, Option.some_or, Option.some.injEq] at hl
      have h1 := k2 zd (by simp)
      rw [hl, ha d (by simp)] at h1
      cases h1
    rw [hbefore, hafter] at hf
    have : gap ++ [' '] = [' '] ++ [' '] := by simpa using hf
    exact hgap (List.append_cancel_right this)

/-! ### C89 -/

/-- The line holds six numbers separated by single spaces: the sensor's position and the direction it looks in (of any length). -/
def SensorLine (parse : List Char → Option K) (normalized : Vec3 K → Vec3 K) (line : List Char) (r : Ray3 K) : Prop :=
  ∃ px py pz dx dy dz : List Char, ∃ direction : Vec3 K, Words [px, py, pz, dx, dy, dz] line ∧ parse px = some r.origin.x ∧ parse py = some r.origin.y ∧ parse pz = some r.origin.z ∧
    parse dx = some direction.x ∧ parse dy = some direction.y ∧ parse dz = some direction.z ∧ r.direction = normalized direction

/-- **C89, one line.** -/
theorem C89_line_iff (parse : List Char → Option K) (hp : NumberParser parse) (normalized : Vec3 K → Vec3 K) (line : List Char) (r : Ray3 K) :
    sensorOfLine parse normalized line = some r ↔ SensorLine parse normalized line r := by
  have nice : ∀ (px py pz dx dy dz : List Char) (a b c d e f : K), parse px = some a → parse py = some b → parse pz = some c → parse dx = some d → parse dy = some e → parse dz = some f →
      ∀ w ∈ [px, py, pz, dx, dy, dz], w ≠ [] ∧ ∀ c ∈ w, isWhite c = false := by
    intro px py pz dx dy dz a b c d e f h1 h2 h3 h4 h5 h6 w hw
    simp only [List.mem_cons, List.not_mem_nil, or_false] at hw
    rcases hw with rfl | rfl | rfl | rfl | rfl | rfl
    · exact hp _ _ h1
    · exact hp _ _ h2
    · exact hp _ _ h3
    · exact hp _ _ h4
    · exact hp _ _ h5
    · exact hp _ _ h6
  unfold sensorOfLine SensorLine
  constructor
  · intro h
    split at h
    · rename_i px py pz dx dy dz hs
      simp only [Option.bind_eq_some_iff] at h
      obtain ⟨a, ha, b, hb, c, hc, d, hd, e, he, f, hf, h⟩ := h
      cases h
      exact ⟨px, py, pz, dx, dy, dz, ⟨d, e, f⟩, (words_trim _ line (by simp) (nice _ _ _ _ _ _ _ _ _ _ _ _ ha hb hc hd he hf)).2 hs, ha, hb, hc, hd, he, hf, rfl⟩
    · cases h
  · rintro ⟨px, py, pz, dx, dy, dz, ⟨d, e, f⟩, hw, ha, hb, hc, hd, he, hf, hr⟩
    rw [(words_trim _ line (by simp) (nice _ _ _ _ _ _ _ _ _ _ _ _ ha hb hc hd he hf)).1 hw]
    simp only [ha, hb, hc, hd, he, hf, Option.bind_some]
    obtain ⟨⟨_, _, _⟩, dir⟩ := r
    cases hr
    rfl

/-- **C89, lines.** The lines are the input, cut after every newline. -/
theorem C89_lines (input : List UInt8) : (rawLines input).flatten = input ∧ (∀ line ∈ rawLines input, line ≠ [] ∧ 10 ∉ line.dropLast) ∧
    ∀ i, i + 1 < (rawLines input).length → ∀ line, (rawLines input)[i]? = some line → line.getLast? = some 10 := by
  induction input with
  | nil => simp [rawLines]
  | cons b rest ih =>
    obtain ⟨h1, h2, h3⟩ := ih
    unfold rawLines
    split_ifs with hb
    · subst hb
      refine ⟨by simp [h1], ?_, ?_⟩
      · intro line hl
        rcases List.mem_cons.1 hl with rfl | hl
        · simp
        · exact h2 line hl
      · intro i hi line hl
        cases i with
        | zero => simp only [List.getElem?_cons_zero, Option.some.injEq] at hl; subst hl; rfl
        | succ i => simp only [List.getElem?_cons_succ] at hl; exact h3 i (by simpa using hi) line hl
    · cases hr : rawLines rest with
      | nil =>
        rw [hr] at h1
        refine ⟨by simp [← h1], by simp, ?_⟩
        intro i hi
        simp at hi
      | cons l ls =>
        rw [hr] at h1 h2 h3
        simp only
        have hl := h2 l List.mem_cons_self
        refine ⟨by simpa using h1, ?_, ?_⟩
        · intro line hm
          rcases List.mem_cons.1 hm with rfl | hm
          · refine ⟨by simp, ?_⟩
            cases l with
            | nil => simp
            | cons c l => rw [List.dropLast_cons₂]; simp only [List.mem_cons, not_or]; exact ⟨fun h => hb h.symm, hl.2⟩
          · exact h2 line (List.mem_cons_of_mem _ hm)
        · intro i hi line hm
          cases i with
          | zero =>
            simp only [List.getElem?_cons_zero, Option.some.injEq] at hm
            subst hm
            have := h3 0 (by simpa using hi) l rfl
            cases l with
            | nil => exact absurd rfl hl.1
            | cons c l => rw [List.getLast?_cons_cons]; exact this
          | succ i => simp only [List.getElem?_cons_succ] at hm; exact h3 (i + 1) (by simpa using hi) line hm

theorem readSensors_all (parse : List Char → Option K) (normalized : Vec3 K → Vec3 K) (decode : List UInt8 → Option (List Char)) (lines : List (List UInt8)) (hd : ∀ l ∈ lines, ∃ t, decode l = some t)
    (acc rays : List (Ray3 K)) : readSensors parse normalized decode lines acc = some rays ↔
      ∃ new, rays = acc ++ new ∧ List.Forall₂ (fun line r => ∃ t, decode line = some t ∧ sensorOfLine parse normalized t = some r) lines new := by
  induction lines generalizing acc with
  | nil => simp [readSensors, eq_comm]
  | cons l ls ih =>
    obtain ⟨t, ht⟩ := hd l List.mem_cons_self
    unfold readSensors
    rw [ht]
    simp only [Option.bind_eq_some_iff, ih fun l hl => hd l (List.mem_cons_of_mem _ hl)]
    constructor
    · rintro ⟨r, hr, new, e, hf⟩
      exact ⟨r :: new, by simpa using e, .cons ⟨t, ht, hr⟩ hf⟩
    · rintro ⟨new, e, hf⟩
      cases hf with
      | cons h hf =>
        obtain ⟨t', ht', hr⟩ := h
        rw [ht] at ht'
        cases ht'
        exact ⟨_, hr, _, by simpa using e, hf⟩

/-- **C89 (partial).** `sfluxmtx` reads one sensor from every line of its input, in order, with a position, and a direction that is scaled to length one; it stops with an error if a line is not six numbers separated by single
spaces (a blank line included). For input that is text. (Missing: input that is not UTF-8, for which it is false, see `C89_violation_bad_line`.) -/
theorem C89_one_ray_per_line_partial (parse : List Char → Option K) (hp : NumberParser parse) (normalized : Vec3 K → Vec3 K) (decode : List UInt8 → Option (List Char)) (input : List UInt8)
    (hd : ∀ l ∈ rawLines input, ∃ t, decode l = some t) (rays : List (Ray3 K)) :
    sensorsOf parse normalized decode input = some rays ↔ List.Forall₂ (fun line r => ∃ t, decode line = some t ∧ SensorLine parse normalized t r) (rawLines input) rays := by
  unfold sensorsOf
  rw [readSensors_all parse normalized decode _ hd]
  simp only [List.nil_append, exists_eq_left', C89_line_iff parse hp]

/-- **C89, violation.** A line that is not UTF-8 ends the reading without an error: it and all lines after it are dropped, and the matrix is computed for the sensors before it. -/
theorem C89_violation_bad_line (parse : List Char → Option K) (normalized : Vec3 K → Vec3 K) (decode : List UInt8 → Option (List Char)) (before after : List (List UInt8)) (bad : List UInt8) (hbad : decode bad = none) (acc : List (Ray3 K)) :
    readSensors parse normalized decode (before ++ bad :: after) acc = readSensors parse normalized decode before acc := by
  induction before generalizing acc with
  | nil => simp [readSensors, hbad]
  | cons l ls ih =>
    rw [List.cons_append]
    unfold readSensors
    cases decode l with
    | none => rfl
    | some t => simp only [ih]

end

/-! ### C90 -/

/-- All three channels hold `level`, up to what an HDR file can store: nothing below 1e-19, else one part in 128 less at most. -/
def StoredLevel (level : ℝ) (p : Spectrum ℝ) : Prop :=
  (level < 1 / 10 ^ 19 → p = Spectrum.black) ∧
  (1 / 10 ^ 19 ≤ level → level < 2 ^ 127 → ∀ c, c = p.c0 ∨ c = p.c1 ∨ c = p.c2 → c ≤ level ∧ level - c < level / 128)

theorem storedLevel_through (level : ℝ) (h : 0 ≤ level) : StoredLevel level (throughRgbe (Spectrum.gray level)) := by
  have hm : LargestChannel (Spectrum.gray level) level := ⟨h, h, h, le_rfl, le_rfl, le_rfl, Or.inl rfl⟩
  refine ⟨C23_dark_is_black _ level hm, fun h1 h2 => ?_⟩
  obtain ⟨k0, k1, k2⟩ := C23_rgbe_error_bounded _ level hm h1 h2
  rintro c (rfl | rfl | rfl)
  · exact k0
  · exact k1
  · exact k2

/-- **C90.** `scompare` on two readable images: if the sizes differ it fails; else it writes an HDR file of the same size in which every pixel holds the absolute difference of the two images' radiances at that place. -/
theorem C90_writes_difference_partial (fileA fileB : List UInt8) (a b : ImageBuffer) (ha : ImageBuffer.fromFile fileA = .ok (.image a)) (hb : ImageBuffer.fromFile fileB = .ok (.image b)) (ca : a.Consistent) (cb : b.Consistent)
    (hw : a.width < 2 ^ 64) (hh : a.height < 2 ^ 64) (min max : Option ℝ) (log : Bool) :
    (¬ (a.width = b.width ∧ a.height = b.height) → scompare fileA fileB min max log none = .ok .failed) ∧
    (a.width = b.width ∧ a.height = b.height → ∃ content d, scompare fileA fileB min max log none = .ok (.hdr content) ∧ ImageBuffer.fromFile content = .ok (.image d) ∧
      d.width = a.width ∧ d.height = a.height ∧ d.pixels.length = a.pixels.length ∧
      ∀ (i : Nat) (p q : Spectrum ℝ), a.pixels[i]? = some p → b.pixels[i]? = some q → ∃ r, d.pixels[i]? = some r ∧ StoredLevel |p.radiance - q.radiance| r) := by
  unfold scompare
  simp only [ha, hb, Res.bind_ok]
  constructor
  · intro hne
    rw [C28_symmetric, ((C28_succeeds_iff a b ca cb).2.1).2 hne]
    rfl
  · intro hs
    obtain ⟨d, hd⟩ := ((C28_succeeds_iff a b ca cb).1).2 hs
    obtain ⟨k1, k2, k3, k4⟩ := C28_pixelwise a b d ca cb hd
    rw [C28_symmetric, hd]
    have hlen : d.pixels.length = a.pixels.length := by rw [k1, ca, k2, k3]
    refine ⟨d.saveHdre, _, rfl, C24_hdr_roundtrip d (by rw [k3]; exact hh) (by rw [k2]; exact hw), k2, k3, by simpa using hlen, ?_⟩
    intro i p q hp hq
    have hi : i < d.pixels.length := by rw [hlen]; exact (List.getElem?_eq_some_iff.1 hp).1
    obtain ⟨p', q', hp', hq', e, _⟩ := k4 i hi
    rw [hp] at hp'
    rw [hq] at hq'
    cases hp'
    cases hq'
    refine ⟨throughRgbe d.pixels[i], by simp [List.getElem?_eq_getElem hi], ?_⟩
    rw [e]
    exact storedLevel_through _ (abs_nonneg _)

/-- **C90, no difference.** Comparing an image with itself gives a black image. -/
theorem C90_same_is_black (file : List UInt8) (a : ImageBuffer) (ha : ImageBuffer.fromFile file = .ok (.image a)) (ca : a.Consistent) (hw : a.width < 2 ^ 64) (hh : a.height < 2 ^ 64) (min max : Option ℝ) (log : Bool) :
    ∃ content d, scompare file file min max log none = .ok (.hdr content) ∧ ImageBuffer.fromFile content = .ok (.image d) ∧ d.width = a.width ∧ d.height = a.height ∧ ∀ r ∈ d.pixels, r = Spectrum.black := by
  obtain ⟨content, d, h1, h2, h3, h4, h5, h6⟩ := (C90_writes_difference_partial file file a a ha ha ca ca hw hh min max log).2 ⟨rfl, rfl⟩
  refine ⟨content, d, h1, h2, h3, h4, fun r hr => ?_⟩
  obtain ⟨i, hi, rfl⟩ := List.mem_iff_getElem.1 hr
  have hia : i < a.pixels.length := by rw [← h5]; exact hi
  obtain ⟨r, hr, hs⟩ := h6 i _ _ (List.getElem?_eq_getElem hia) (List.getElem?_eq_getElem hia)
  rw [List.getElem?_eq_getElem hi] at hr
  rw [Option.some.inj hr]
  exact hs.1 (by simp)

/-- **C90, order.** The two files can be exchanged. -/
theorem C90_symmetric (fileA fileB : List UInt8) (a b : ImageBuffer) (ha : ImageBuffer.fromFile fileA = .ok (.image a)) (hb : ImageBuffer.fromFile fileB = .ok (.image b)) (min max : Option ℝ) (log : Bool) (map : Option Colourmap) :
    scompare fileA fileB min max log map = scompare fileB fileA min max log map := by
  unfold scompare
  simp only [ha, hb, Res.bind_ok]
  rw [C28_symmetric]

/-- **C90, unreadable input.** -/
theorem C90_unreadable (fileA fileB : List UInt8) (min max : Option ℝ) (log : Bool) (map : Option Colourmap) (m : Colourmap) :
    (ImageBuffer.fromFile fileA = .ok .err → scompare fileA fileB min max log map = .ok .failed) ∧
    ((∃ a, ImageBuffer.fromFile fileA = .ok (.image a)) → ImageBuffer.fromFile fileB = .ok .err → scompare fileA fileB min max log map = .ok .failed) ∧
    (ImageBuffer.fromFile fileA = .ok .err → sfalsecolor fileA min max log m = .ok .failed) := by
  refine ⟨fun h => by simp only [scompare, h, Res.bind_ok], ?_, fun h => by simp only [sfalsecolor, h, Res.bind_ok]⟩
  rintro ⟨a, ha⟩ hb
  simp only [scompare, ha, hb, Res.bind_ok]

/-- **C90, violation.** An image cut off after its header (of any size) compared with a complete image of that size: the program crashes instead of reporting the error. -/
theorem C90_violation_truncated (w h : Nat) (hh : h < 2 ^ 64) (hw : w < 2 ^ 64) (h0 : 0 < h) (w0 : 0 < w) (fileB : List UInt8) (b : ImageBuffer) (hb : ImageBuffer.fromFile fileB = .ok (.image b)) (hs : b.width = w ∧ b.height = h)
    (min max : Option ℝ) (log : Bool) (map : Option Colourmap) : scompare (hdrSize h w ++ [10]) fileB min max log map = .panic := by
  unfold scompare
  have : 0 ≠ w * h := (Nat.mul_pos w0 h0).ne
  simp only [(C26_violation h w hh hw).1, hb, Res.bind_ok, ImageBuffer.diff, hs.1, hs.2, ne_eq, not_true_eq_false, if_false, List.zip_nil_right, List.map_nil, ImageBuffer.fromPixels, List.length_nil, this,
    not_false_eq_true, if_true, Res.bind_panic]

/-- Both hypotheses are met by files that the program itself writes. -/
example : ∃ (file : List UInt8) (a : ImageBuffer), ImageBuffer.fromFile file = .ok (.image a) ∧ a.Consistent ∧ a.width = 3 ∧ a.height = 2 :=
  ⟨(ImageBuffer.new 3 2).saveHdre, _, C24_hdr_roundtrip (ImageBuffer.new 3 2) (by simp [ImageBuffer.new]) (by simp [ImageBuffer.new]), by simp [ImageBuffer.Consistent, ImageBuffer.new], rfl, rfl⟩

/-! ### Examples -/

namespace ProgramExamples

/-- Unary numbers, as a stand-in for floating point numbers that satisfies all laws assumed. -/
def parse (w : List Char) : Option Nat := if w ≠ [] ∧ w.all (· == 'I') then some (w.length - 1) else none
/-- Printing of unary numbers. -/
def print (n : Nat) : List Char := List.replicate (n + 1) 'I'

theorem parser : NumberParser parse := by
  intro w a h
  unfold parse at h
  split_ifs at h with hw
  refine ⟨hw.1, fun c hc => ?_⟩
  have := List.all_eq_true.1 hw.2 c hc
  rw [show c = 'I' by simpa using this]
  decide

theorem round_trip (n : Nat) : parse (print n) = some n := by simp [parse, print]

example : tripletFromStr parse "  I III II\n".toList = some ⟨0, 2, 1⟩ := by decide
example : tripletFromStr parse "I  III II".toList = none := by decide
example : tripletFromStr parse (tripletDisplay print ⟨4, 0, 2⟩) = some ⟨4, 0, 2⟩ := C88_round_trip parse parser print round_trip _

/-- ASCII decoding. -/
def decode (l : List UInt8) : Option (List Char) := if l.all (· < 128) then some (l.map fun b => Char.ofNat b.toNat) else none

/-- Three sensors; then the same with a broken second line: only the first is read. -/
example : (sensorsOf parse id decode (bytes "I I I I I II\nII I I I I II\nIII I I I I II")).map List.length = some 3 := by decide +kernel
example : (sensorsOf parse id decode (bytes "I I I I I II\n" ++ [255, 10] ++ bytes "III I I I I II")).map List.length = some 1 := by decide +kernel
example : sensorsOf parse id decode (bytes "I I I I I II\n\nIII I I I I II") = none := by decide +kernel

/-- C88, C89: two spaces between the words, and the lines of a file. -/
example := C88_rejects_wide_gaps parse parser ['I'] ['I', 'I'] ['I'] [' ', ' '] (by decide) (by decide) ⟨0, by decide⟩ ⟨1, by decide⟩ ⟨0, by decide⟩

example := fun rays => C89_one_ray_per_line_partial parse parser id decode (bytes "I I I I I II\nII I I I I II\n") (by
  have h : ∀ l ∈ rawLines (bytes "I I I I I II\nII I I I I II\n"), (decode l).isSome = true := by decide +kernel
  exact fun l hl => Option.isSome_iff_exists.1 (h l hl)) rays

example := C89_violation_bad_line parse id decode [bytes "I I I I I II\n"] [bytes "II I I I I II\n"] [255, 10] (by decide +kernel) []

/-- C90: two pictures of one size and one of another. -/
theorem saved (im : ImageBuffer) (hw : im.width < 2 ^ 64) (hh : im.height < 2 ^ 64) (hc : im.Consistent) : ∃ a, ImageBuffer.fromFile im.saveHdre = .ok (.image a) ∧ a.Consistent ∧ a.width = im.width ∧ a.height = im.height := by
  refine ⟨_, C24_hdr_roundtrip im hh hw, ?_, rfl, rfl⟩
  simpa [ImageBuffer.Consistent] using hc

example (min max : Option ℝ) (log : Bool) : ∃ content d, scompare (ImageBuffer.new 3 2).saveHdre (⟨3, 2, List.replicate 6 (Spectrum.gray 1)⟩ : ImageBuffer).saveHdre min max log none = .ok (.hdr content) ∧
    ImageBuffer.fromFile content = .ok (.image d) ∧ d.width = 3 ∧ d.height = 2 := by
  obtain ⟨a, ha, ca, wa, ka⟩ := saved (ImageBuffer.new 3 2) (by simp [ImageBuffer.new]) (by simp [ImageBuffer.new]) (by simp [ImageBuffer.Consistent, ImageBuffer.new])
  obtain ⟨b, hb, cb, wb, kb⟩ := saved ⟨3, 2, List.replicate 6 (Spectrum.gray 1)⟩ (by norm_num) (by norm_num) (by simp [ImageBuffer.Consistent])
  have ea : a.width = 3 ∧ a.height = 2 := ⟨wa, ka⟩
  obtain ⟨content, d, h1, h2, h3, h4, _⟩ := (C90_writes_difference_partial _ _ a b ha hb ca cb (by rw [ea.1]; norm_num) (by rw [ea.2]; norm_num) min max log).2 ⟨by rw [wb, ea.1], by rw [kb, ea.2]⟩
  exact ⟨content, d, h1, h2, by rw [h3, ea.1], by rw [h4, ea.2]⟩

example (min max : Option ℝ) (log : Bool) : scompare (ImageBuffer.new 3 2).saveHdre (ImageBuffer.new 2 3).saveHdre min max log none = .ok .failed := by
  obtain ⟨a, ha, ca, wa, ka⟩ := saved (ImageBuffer.new 3 2) (by simp [ImageBuffer.new]) (by simp [ImageBuffer.new]) (by simp [ImageBuffer.Consistent, ImageBuffer.new])
  obtain ⟨b, hb, cb, wb, kb⟩ := saved (ImageBuffer.new 2 3) (by simp [ImageBuffer.new]) (by simp [ImageBuffer.new]) (by simp [ImageBuffer.Consistent, ImageBuffer.new])
  have ea : a.width = 3 ∧ a.height = 2 := ⟨wa, ka⟩
  have eb : b.width = 2 ∧ b.height = 3 := ⟨wb, kb⟩
  exact (C90_writes_difference_partial _ _ a b ha hb ca cb (by rw [ea.1]; norm_num) (by rw [ea.2]; norm_num) min max log).1 (by rw [ea.1, eb.1]; norm_num)

example (min max : Option ℝ) (log : Bool) (map : Option Colourmap) : scompare (hdrSize 2 3 ++ [10]) (ImageBuffer.new 3 2).saveHdre min max log map = .panic := by
  obtain ⟨b, hb, cb, wb, kb⟩ := saved (ImageBuffer.new 3 2) (by simp [ImageBuffer.new]) (by simp [ImageBuffer.new]) (by simp [ImageBuffer.Consistent, ImageBuffer.new])
  exact C90_violation_truncated 3 2 (by norm_num) (by norm_num) (by norm_num) (by norm_num) _ b hb ⟨wb, kb⟩ min max log map

end ProgramExamples

end Rendering
