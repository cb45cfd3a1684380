import Verif.Lemmas.MatrixHeader
import Verif.Model.F64
import Mathlib.Algebra.Order.Field.Basic
import Mathlib.Algebra.BigOperators.Group.List.Basic
import Mathlib.Tactic.Linarith
import Mathlib.Tactic.FieldSimp
import Mathlib.Tactic.Ring

/-!
# C31–C35: matrix files and conversions
-/

set_option linter.unusedSectionVars false
namespace Rendering
variable {K : Type}

/-! ## Specification: what is asked of the printing and parsing of numbers -/

/-- A printed number: not empty and without white space. -/
def IsToken (l : List UInt8) : Prop := l ≠ [] ∧ ∀ b ∈ l, isAsciiWhitespace b = false

/-- `{}` prints every number as one token, which parses back to the same number (true of finite doubles). -/
def NumFmt.Faithful (fmt : NumFmt K) : Prop := ∀ x, IsToken (fmt.display x) ∧ fmt.parse (fmt.display x) = some x

/-- `{:.5}` prints every number as one token, which parses back to that number rounded by `round5`. -/
def NumFmt.FixedFaithful (fmt : NumFmt K) (round5 : K → K) : Prop :=
  ∀ x, IsToken (fmt.fixed5 x) ∧ fmt.parse (fmt.fixed5 x) = some (round5 x)

/-- Every entry of a colour matrix rounded, channel by channel. -/
def roundSpectrum (round5 : K → K) (s : Spectrum K) : Spectrum K := ⟨round5 s.c0, round5 s.c1, round5 s.c2⟩

/-! ## Reading back what was written -/

theorem IsToken.ne13 {l : List UInt8} (h : IsToken l) : ∀ b ∈ l, (b == 10) = false ∧ b ≠ 13 := by
  intro b hb
  have := h.2 b hb
  simp only [isAsciiWhitespace, Bool.or_eq_false_iff] at this
  exact ⟨this.1.1.2, by simpa using this.2⟩

theorem rowLine_map {α : Type} (text : α → List UInt8) (m : Mat α) (hm : m.WF) (r : Nat) (hr : r < m.nrows) :
    ∃ vs : List α, vs.length = m.ncols ∧ (∀ c (hc : c < vs.length), m.get? r c = some vs[c]) ∧
      rowLine text m r = vs.flatMap (fun v => text v ++ [9]) := by
  have h : ∀ n ≤ m.ncols, ∃ vs : List α, vs.length = n ∧ (∀ c (hc : c < vs.length), m.get? r c = some vs[c]) ∧
      (List.range n).flatMap (fun c => match m.get? r c with | some v => text v ++ [9] | none => []) = vs.flatMap (fun v => text v ++ [9]) := by
    intro n
    induction n with
    | zero => exact fun _ => ⟨[], rfl, by simp, rfl⟩
    | succ n ih =>
      intro hn
      obtain ⟨vs, h1, h2, h3⟩ := ih (by omega)
      obtain ⟨v, hv⟩ := Mat.get?_isSome hm hr (c := n) (by omega)
      refine ⟨vs ++ [v], by simp [h1], ?_, ?_⟩
      · intro c hc
        simp only [List.length_append, List.length_singleton] at hc
        by_cases hcn : c < vs.length
        · rw [List.getElem_append_left hcn]; exact h2 c hcn
        · have : c = n := by omega
          subst this
          rw [List.getElem_append_right (by omega)]
          simpa using hv
      · rw [List.range_succ, List.flatMap_append, h3]
        simp [hv]
  obtain ⟨vs, h1, h2, h3⟩ := h m.ncols le_rfl
  exact ⟨vs, h1, h2, h3⟩

/-- The general round trip: if every row's words are accepted and give the entries `f` of the original ones, the file gives back
exactly that matrix. -/
theorem roundtrip {α : Type} (zero : α) (comps : Nat) (hcomps : comps < 2 ^ 64) (text : α → List UInt8) (entry : List (List UInt8) → Nat → Res (Option α))
    (f : α → α) (m : Mat α) (hm : m.WF) (hr : m.nrows < 2 ^ 64) (hc : m.ncols < 2 ^ 64)
    (htext : ∀ v, ∀ b ∈ text v, (b == 10) = false ∧ b ≠ 13)
    (hwords : ∀ vs : List α, vs.length = m.ncols → (words (vs.flatMap (fun v => text v ++ [9]))).length = comps * m.ncols ∧
      ∀ c (hc : c < vs.length), entry (words (vs.flatMap (fun v => text v ++ [9]))) c = .ok (some (f vs[c]))) :
    ∃ m', readGeneric zero comps entry (saveText text (decimal comps) m) = .ok (some m') ∧ m'.WF ∧ m'.nrows = m.nrows ∧ m'.ncols = m.ncols ∧
      ∀ r c, r < m.nrows → c < m.ncols → m'.get? r c = (m.get? r c).map f := by
  have hrow10 : ∀ r, ∀ b ∈ rowLine text m r, (b == 10) = false ∧ b ≠ 13 := by
    intro r b hb
    simp only [rowLine, List.mem_flatMap] at hb
    obtain ⟨c, -, hb⟩ := hb
    cases hg : m.get? r c with
    | none => simp [hg] at hb
    | some v =>
      simp only [hg, List.mem_append, List.mem_singleton] at hb
      rcases hb with hb | rfl
      · exact htext v b hb
      · decide
  have hclean : ∀ l ∈ headerLines m.nrows m.ncols (decimal comps) ++ (List.range m.nrows).map (rowLine text m), ∀ b ∈ l, (b == 10) = false ∧ b ≠ 13 := by
    intro l hl
    rw [List.mem_append] at hl
    rcases hl with hl | hl
    · exact headerLines_clean _ _ _ l hl
    · obtain ⟨r, -, rfl⟩ := List.mem_map.1 hl
      exact hrow10 r
  have hlines : linesOf (saveText text (decimal comps) m) = headerLines m.nrows m.ncols (decimal comps) ++ (List.range m.nrows).map (rowLine text m) := by
    rw [saveText_unlines]
    apply linesOf_unlines
    · exact fun l hl b hb => (hclean l hl b hb).1
    · intro l hl h13
      exact (hclean l hl 13 (List.mem_of_getLast? h13)).2 rfl
  have hdrop : ((headerLines m.nrows m.ncols (decimal comps)) ++ (List.range m.nrows).map (rowLine text m)).drop 6 = (List.range m.nrows).map (rowLine text m) := by
    rw [List.drop_append_of_le_length (by simp [headerLines])]
    simp [headerLines]
  unfold readGeneric
  simp only [hlines, mHeader_ok comps _ _ _ hr hc hcomps, hdrop]
  have hentry : ∀ l ∈ (List.range m.nrows).map (rowLine text m), (words l).length = comps * m.ncols ∧ ∀ c < m.ncols, ∃ v, entry (words l) c = .ok (some v) := by
    intro l hl
    obtain ⟨r, hr, rfl⟩ := List.mem_map.1 hl
    obtain ⟨vs, h1, h2, h3⟩ := rowLine_map text m hm r (List.mem_range.1 hr)
    rw [h3]
    obtain ⟨a, b⟩ := hwords vs h1
    exact ⟨a, fun c hc => ⟨_, b c (by omega)⟩⟩
  obtain ⟨m', hm'⟩ := readRows_ok comps m.ncols entry 0 ((List.range m.nrows).map (rowLine text m)) (Mat.new zero m.nrows m.ncols)
    (Mat.WF_new _ _ _) rfl (by simp [Mat.new]) hentry
  obtain ⟨w, n, k, -, g, -⟩ := readRows_spec _ _ _ _ _ _ _ (Mat.WF_new _ _ _) rfl hm'
  refine ⟨m', hm', w, n, k, ?_⟩
  intro r c hr hc
  obtain ⟨-, g2⟩ := g r (by simpa using hr)
  obtain ⟨v, hv, hg⟩ := g2 c hc
  simp only [List.getElem_map, List.getElem_range] at hv
  obtain ⟨vs, h1, h2, h3⟩ := rowLine_map text m hm r hr
  rw [h3, (hwords vs h1).2 c (by omega)] at hv
  rw [Nat.zero_add] at hg
  rw [hg, h2 c (by omega)]
  simp only [Res.ok.injEq, Option.some.injEq] at hv
  simp [hv]

theorem decimal_one : decimal 1 = bytes "1" := by decide +kernel
theorem decimal_three : decimal 3 = bytes "3" := by decide +kernel

section
variable [Field K]

theorem saveText_ne_nil {α : Type} (text : α → List UInt8) (n : List UInt8) (m : Mat α) : (saveText text n m).isEmpty = false := by
  unfold saveText
  have : bytes "#?SIMPLE" = 35 :: bytes "?SIMPLE" := by decide
  rw [this]; rfl

/-- **C31.** `read_matrix` applied to what `save_matrix` wrote returns the very same matrix. -/
theorem C31_matrix_roundtrip (fmt : NumFmt K) (hf : fmt.Faithful) (m : Mat K) (hm : m.WF) (hr : m.nrows < 2 ^ 64) (hc : m.ncols < 2 ^ 64) :
    readMatrix fmt (saveMatrix fmt m) = .ok (some m) := by
  unfold readMatrix saveMatrix
  rw [saveText_ne_nil, ← decimal_one]
  simp only [Bool.false_eq_true, if_false]
  obtain ⟨m', h, w, n, k, g⟩ := roundtrip (0 : K) 1 (by norm_num) fmt.display (parseAt fmt) id m hm hr hc
    (fun v => (hf v).1.ne13) (by
      intro vs hvs
      rw [words_flatMap _ _ (fun x _ => (hf x).1.1) (fun x _ => (hf x).1.2) 9 rfl]
      refine ⟨by simp [hvs], ?_⟩
      intro c hc
      simp [parseAt, hc, (hf _).2])
  rw [h]
  congr 2
  refine Mat.ext_get? w hm n k ?_
  intro r c hr hc
  rw [n] at hr; rw [k] at hc
  simpa using g r c hr hc

theorem words_spectrum (fmt : NumFmt K) (h : ∀ x, IsToken (fmt.fixed5 x)) (vs : List (Spectrum K)) :
    words (vs.flatMap (fun v => spectrumText fmt v ++ [9])) = vs.flatMap (fun v => [fmt.fixed5 v.c0, fmt.fixed5 v.c1, fmt.fixed5 v.c2]) := by
  induction vs with
  | nil => rfl
  | cons v vs ih =>
    simp only [List.flatMap_cons, spectrumText, List.append_assoc, List.singleton_append, List.cons_append, List.nil_append]
    rw [words_cons _ (h _).1 (h _).2 32 rfl, words_cons _ (h _).1 (h _).2 32 rfl, words_cons _ (h _).1 (h _).2 9 rfl]
    simp only [spectrumText, List.append_assoc, List.singleton_append, List.cons_append, List.nil_append] at ih
    rw [ih]

theorem triple_getElem {α β : Type} (f0 f1 f2 : α → β) (vs : List α) (c : Nat) (hc : c < vs.length) :
    (vs.flatMap (fun v => [f0 v, f1 v, f2 v]))[3 * c]? = some (f0 vs[c]) ∧
    (vs.flatMap (fun v => [f0 v, f1 v, f2 v]))[3 * c + 1]? = some (f1 vs[c]) ∧
    (vs.flatMap (fun v => [f0 v, f1 v, f2 v]))[3 * c + 2]? = some (f2 vs[c]) := by
  induction vs generalizing c with
  | nil => simp at hc
  | cons v vs ih =>
    cases c with
    | zero => simp
    | succ c =>
      have := ih c (by simpa using hc)
      simp only [List.flatMap_cons, List.getElem_cons_succ]
      refine ⟨?_, ?_, ?_⟩
      · rw [List.getElem?_append_right (by simp only [List.length_cons, List.length_nil]; omega)]
        convert this.1 using 2
        simp only [List.length_cons, List.length_nil]; omega
      · rw [List.getElem?_append_right (by simp only [List.length_cons, List.length_nil]; omega)]
        convert this.2.1 using 2
        simp only [List.length_cons, List.length_nil]; omega
      · rw [List.getElem?_append_right (by simp only [List.length_cons, List.length_nil]; omega)]
        convert this.2.2 using 2
        simp only [List.length_cons, List.length_nil]; omega

/-- **C32.** `read_colour_matrix` applied to what `save_colour_matrix` wrote returns a matrix of the same shape whose entry at every row
and column is the original one with its three channels rounded as printed. -/
theorem C32_colour_matrix_roundtrip (fmt : NumFmt K) (round5 : K → K) (hf : fmt.FixedFaithful round5) (m : Mat (Spectrum K)) (hm : m.WF)
    (hr : m.nrows < 2 ^ 64) (hc : m.ncols < 2 ^ 64) :
    ∃ m', readColourMatrix fmt (saveColourMatrix fmt m) = .ok (some m') ∧ m'.WF ∧ m'.nrows = m.nrows ∧ m'.ncols = m.ncols ∧
      ∀ r c v, m.get? r c = some v → m'.get? r c = some (roundSpectrum round5 v) := by
  unfold readColourMatrix saveColourMatrix
  rw [← decimal_three]
  obtain ⟨m', h, w, n, k, g⟩ := roundtrip Spectrum.black 3 (by norm_num) (spectrumText fmt) (parseColour fmt) (roundSpectrum round5) m hm hr hc
    (by
      intro v b hb
      simp only [spectrumText, List.mem_append, List.mem_singleton] at hb
      rcases hb with (((hb | rfl) | hb) | rfl) | hb
      · exact (hf _).1.ne13 b hb
      · decide
      · exact (hf _).1.ne13 b hb
      · decide
      · exact (hf _).1.ne13 b hb)
    (by
      intro vs hvs
      rw [words_spectrum fmt (fun x => (hf x).1)]
      refine ⟨?_, ?_⟩
      · clear hc
        rw [← hvs]
        clear hvs
        induction vs with
        | nil => rfl
        | cons v vs ih => rw [List.flatMap_cons, List.length_append, ih]; simp; omega
      · intro c hc
        obtain ⟨a, b, d⟩ := triple_getElem (fun v : Spectrum K => fmt.fixed5 v.c0) (fun v => fmt.fixed5 v.c1) (fun v => fmt.fixed5 v.c2) vs c hc
        simp [parseColour, parseAt, a, b, d, (hf _).2, roundSpectrum])
  refine ⟨m', h, w, n, k, ?_⟩
  intro r c v hv
  obtain ⟨h1, h2⟩ := Mat.get?_some_iff hv
  rw [g r c h1 h2, hv]
  rfl

theorem cross {α β : Type} (zero : β) (comps comps' : Nat) (h' : comps' < 2 ^ 64) (hne : comps' ≠ comps) (text : α → List UInt8)
    (entry : List (List UInt8) → Nat → Res (Option β)) (m : Mat α) (hr : m.nrows < 2 ^ 64) (hc : m.ncols < 2 ^ 64) :
    readGeneric zero comps entry (saveText text (decimal comps') m) = .ok none := by
  have key : ∃ rest, linesOf (saveText text (decimal comps') m) = headerLines m.nrows m.ncols (decimal comps') ++ rest := by
    rw [saveText_unlines]
    have : unlines (headerLines m.nrows m.ncols (decimal comps') ++ (List.range m.nrows).map (rowLine text m)) =
        unlines (headerLines m.nrows m.ncols (decimal comps')) ++ unlines ((List.range m.nrows).map (rowLine text m)) := by simp [unlines]
    rw [this]
    exact linesOf_unlines_append _ _ (fun l hl b hb => (headerLines_clean _ _ _ l hl b hb).1)
      (fun l hl h13 => (headerLines_clean _ _ _ l hl 13 (List.mem_of_getLast? h13)).2 rfl)
  obtain ⟨rest, hrest⟩ := key
  unfold readGeneric
  simp only [hrest, mHeader_wrong comps comps' _ _ _ hr hc h' hne]

/-- **C33.** A colour-matrix file is an error for `read_matrix` and the other way round, whatever numbers are in it and however they are
printed (even with tokens that contain white space). -/
theorem C33_kinds_not_confused (fmt : NumFmt K) (m : Mat K) (cm : Mat (Spectrum K)) (hr : m.nrows < 2 ^ 64) (hc : m.ncols < 2 ^ 64)
    (hr' : cm.nrows < 2 ^ 64) (hc' : cm.ncols < 2 ^ 64) :
    readMatrix fmt (saveColourMatrix fmt cm) = .ok none ∧ readColourMatrix fmt (saveMatrix fmt m) = .ok none := by
  constructor
  · unfold readMatrix saveColourMatrix
    rw [saveText_ne_nil, ← decimal_three]
    simp only [Bool.false_eq_true, if_false]
    exact cross _ 1 3 (by norm_num) (by norm_num) _ _ cm hr' hc'
  · unfold readColourMatrix saveMatrix
    rw [← decimal_one]
    exact cross _ 3 1 (by norm_num) (by norm_num) _ _ m hr hc

/-! ## C34: what the readers accept -/

theorem readGeneric_announces {α : Type} {zero : α} {comps : Nat} {entry : List (List UInt8) → Nat → Res (Option α)} {content : List UInt8}
    {nrows ncols : Nat} {lines : List (List UInt8)} (h : Announces comps content nrows ncols lines) :
    readGeneric zero comps entry content = readRows comps ncols entry 0 lines (Mat.new zero nrows ncols) := by
  obtain ⟨n, h1, h2⟩ := (announces_iff _ _ _ _ _).1 h
  unfold readGeneric
  simp only [h1, h2]

theorem readGeneric_accepted {α : Type} {zero : α} {comps : Nat} {entry : List (List UInt8) → Nat → Res (Option α)} {content : List UInt8} {m : Mat α}
    (h : readGeneric zero comps entry content = .ok (some m)) :
    ∃ lines, Announces comps content m.nrows m.ncols lines ∧ m.WF ∧ (0 < m.ncols → lines.length ≤ m.nrows) ∧
      (∀ i (hi : i < lines.length), (words lines[i]).length = comps * m.ncols ∧
        ∀ c < m.ncols, ∃ v, entry (words lines[i]) c = .ok (some v) ∧ m.get? i c = some v) ∧
      (∀ r c, lines.length ≤ r → r < m.nrows → c < m.ncols → m.get? r c = some zero) := by
  unfold readGeneric at h
  simp only at h
  cases hh : mHeader comps (linesOf content) none none 0 with
  | none => simp [hh] at h
  | some t =>
    obtain ⟨nr, nc, n⟩ := t
    simp only [hh] at h
    cases nr with
    | none => simp at h
    | some nrows =>
      cases nc with
      | none => simp at h
      | some ncols =>
        simp only at h
        obtain ⟨w, a, b, d, e, f⟩ := readRows_spec _ _ _ _ _ _ _ (Mat.WF_new _ _ _) rfl h
        have ha : m.nrows = nrows := a
        have hb : m.ncols = ncols := b
        refine ⟨(linesOf content).drop n, (announces_iff _ _ _ _ _).2 ⟨n, by rw [hh, ha, hb], rfl⟩, w, ?_, ?_, ?_⟩
        · intro h0
          rcases Nat.eq_zero_or_pos ((linesOf content).drop n).length with hz | hp
          · omega
          · have := d (by rw [← hb]; exact h0) hp
            simp only [Mat.new] at this
            omega
        · intro i hi
          obtain ⟨e1, e2⟩ := e i hi
          refine ⟨by rw [e1, hb]; rfl, ?_⟩
          intro c hc
          obtain ⟨v, h1, h2⟩ := e2 c (by omega)
          exact ⟨v, h1, by rw [← h2, Nat.zero_add]⟩
        · intro r c h1 h2 h3
          rw [f r c (by omega), Mat.get?_new _ _ _ _ _ (by omega) (by omega)]

/-- **C34 (partial).** What an accepted colour matrix file contains: every data line has exactly three numbers per column, they are the
entries of the row with the line's number, there are at most as many lines as announced, and the rows without a line are black.
Missing from the full statement: a file with fewer lines than announced should be an error. -/
theorem C34_accepted_colour_partial (fmt : NumFmt K) (content : List UInt8) (m : Mat (Spectrum K))
    (h : readColourMatrix fmt content = .ok (some m)) :
    ∃ lines, Announces 3 content m.nrows m.ncols lines ∧ (0 < m.ncols → lines.length ≤ m.nrows) ∧
      (∀ i (hi : i < lines.length), (words lines[i]).length = 3 * m.ncols ∧
        ∀ c < m.ncols, ∃ r g b tr tg tb, (words lines[i])[3 * c]? = some tr ∧ (words lines[i])[3 * c + 1]? = some tg ∧
          (words lines[i])[3 * c + 2]? = some tb ∧ fmt.parse tr = some r ∧ fmt.parse tg = some g ∧ fmt.parse tb = some b ∧
          m.get? i c = some ⟨r, g, b⟩) ∧
      (∀ r c, lines.length ≤ r → r < m.nrows → c < m.ncols → m.get? r c = some Spectrum.black) := by
  obtain ⟨lines, h1, -, h3, h4, h5⟩ := readGeneric_accepted h
  refine ⟨lines, h1, h3, ?_, h5⟩
  intro i hi
  obtain ⟨h6, h7⟩ := h4 i hi
  refine ⟨h6, ?_⟩
  intro c hc
  obtain ⟨v, h8, h9⟩ := h7 c hc
  have e0 : (words lines[i])[3 * c]? = some (words lines[i])[3 * c] := List.getElem?_eq_getElem (by omega)
  have e1 : (words lines[i])[3 * c + 1]? = some (words lines[i])[3 * c + 1] := List.getElem?_eq_getElem (by omega)
  have e2 : (words lines[i])[3 * c + 2]? = some (words lines[i])[3 * c + 2] := List.getElem?_eq_getElem (by omega)
  simp only [parseColour, parseAt, e0, e1, e2, Res.bind_ok] at h8
  cases p0 : fmt.parse (words lines[i])[3 * c] with
  | none => simp [p0] at h8
  | some r =>
    cases p1 : fmt.parse (words lines[i])[3 * c + 1] with
    | none => simp [p0, p1] at h8
    | some g =>
      cases p2 : fmt.parse (words lines[i])[3 * c + 2] with
      | none => simp [p0, p1, p2] at h8
      | some b =>
        simp only [p0, p1, p2, Res.bind_ok, Res.ok.injEq, Option.some.injEq] at h8
        exact ⟨r, g, b, _, _, _, e0, e1, e2, p0, p1, p2, by rw [h8]; exact h9⟩

/-- **C34 (partial).** The same for scalar matrices. -/
theorem C34_accepted_scalar_partial (fmt : NumFmt K) (content : List UInt8) (m : Mat K) (h : readMatrix fmt content = .ok (some m)) :
    ∃ lines, Announces 1 content m.nrows m.ncols lines ∧ (0 < m.ncols → lines.length ≤ m.nrows) ∧
      (∀ i (hi : i < lines.length), (words lines[i]).length = m.ncols ∧
        ∀ c < m.ncols, ∃ v tok, (words lines[i])[c]? = some tok ∧ fmt.parse tok = some v ∧ m.get? i c = some v) ∧
      (∀ r c, lines.length ≤ r → r < m.nrows → c < m.ncols → m.get? r c = some 0) := by
  unfold readMatrix at h
  split at h
  · simp at h
  obtain ⟨lines, h1, -, h3, h4, h5⟩ := readGeneric_accepted h
  refine ⟨lines, h1, h3, ?_, h5⟩
  intro i hi
  obtain ⟨h6, h7⟩ := h4 i hi
  refine ⟨by omega, ?_⟩
  intro c hc
  obtain ⟨v, h8, h9⟩ := h7 c hc
  have e0 : (words lines[i])[c]? = some (words lines[i])[c] := List.getElem?_eq_getElem (by omega)
  simp only [parseAt, e0, Res.ok.injEq] at h8
  exact ⟨v, _, e0, h8, h9⟩

/-- A readers' loop that has no more lines than rows never panics. -/
theorem readRows_no_panic {α : Type} (comps ncols : Nat) (entry : List (List UInt8) → Nat → Res (Option α)) (nrow : Nat) (lines : List (List UInt8))
    (m : Mat α) (hm : m.WF) (hk : m.ncols = ncols) (hr : nrow + lines.length ≤ m.nrows)
    (he : ∀ l, (words l).length = comps * ncols → ∀ c < ncols, ∃ o, entry (words l) c = .ok o) :
    ∃ o, readRows comps ncols entry nrow lines m = .ok o := by
  induction lines generalizing nrow m with
  | nil => exact ⟨_, rfl⟩
  | cons line lines ih =>
    simp only [List.length_cons] at hr
    simp only [readRows]
    split
    · exact ⟨_, rfl⟩
    rename_i hlen
    push Not at hlen
    have hone : ∀ todo col (m : Mat α), m.WF → m.ncols = ncols → nrow < m.nrows → col + todo ≤ ncols →
        ∃ o, readRow (entry (words line)) nrow todo col m = .ok o := by
      intro todo
      induction todo with
      | zero => exact fun _ m _ _ _ _ => ⟨_, rfl⟩
      | succ todo ih2 =>
        intro col m hm hk hr hct
        obtain ⟨o, ho⟩ := he line hlen col (by omega)
        simp only [readRow, ho, Res.bind_ok]
        cases o with
        | none => exact ⟨_, rfl⟩
        | some v =>
          obtain ⟨m1, h1⟩ := (Mat.set_ok_iff m nrow col v).2 ⟨hr, by omega⟩
          obtain ⟨w1, n1, k1, -⟩ := Mat.set_spec hm h1
          simp only [h1, Res.bind_ok]
          exact ih2 (col + 1) m1 w1 (by omega) (by omega) (by omega)
    obtain ⟨o, ho⟩ := hone ncols 0 m hm hk (by omega) (by omega)
    rw [ho, Res.bind_ok]
    cases o with
    | none => exact ⟨_, rfl⟩
    | some m1 =>
      obtain ⟨w1, n1, k1, -⟩ := readRow_spec _ _ _ _ _ _ hm ho
      exact ih (nrow + 1) m1 w1 (by omega) (by rw [n1]; omega)

theorem rejected {α : Type} (zero : α) (comps : Nat) (entry : List (List UInt8) → Nat → Res (Option α)) (content : List UInt8)
    (nrows ncols : Nat) (lines : List (List UInt8)) (h : Announces comps content nrows ncols lines) (hl : lines.length ≤ nrows)
    (he : ∀ l, (words l).length = comps * ncols → ∀ c < ncols, ∃ o, entry (words l) c = .ok o)
    (hbad : ∃ l ∈ lines, (words l).length ≠ comps * ncols ∨ ∃ c < ncols, entry (words l) c = .ok none) :
    readGeneric zero comps entry content = .ok none := by
  rw [readGeneric_announces h]
  obtain ⟨o, ho⟩ := readRows_no_panic comps ncols entry 0 lines (Mat.new zero nrows ncols) (Mat.WF_new _ _ _) rfl (by simpa [Mat.new] using hl) he
  rw [ho]
  cases o with
  | none => rfl
  | some m =>
    exfalso
    obtain ⟨-, -, -, -, g, -⟩ := readRows_spec _ _ _ _ _ _ _ (Mat.WF_new _ _ _) rfl ho
    obtain ⟨l, hl, hbad⟩ := hbad
    obtain ⟨i, hi, rfl⟩ := List.getElem_of_mem hl
    obtain ⟨g1, g2⟩ := g i hi
    rcases hbad with hb | ⟨c, hc, hb⟩
    · exact hb g1
    · obtain ⟨v, hv, -⟩ := g2 c hc
      rw [hv] at hb
      simp at hb

theorem unannounced {α : Type} (zero : α) (comps : Nat) (entry : List (List UInt8) → Nat → Res (Option α)) (content : List UInt8) (h : ¬ ∃ nrows ncols lines, Announces comps content nrows ncols lines) : readGeneric zero comps entry content = .ok none := by
  unfold readGeneric
  simp only
  cases hh : mHeader comps (linesOf content) none none 0 with
  | none => rfl
  | some t =>
    obtain ⟨nr, nc, n⟩ := t
    cases nr with
    | none => rfl
    | some nrows =>
      cases nc with
      | none => rfl
      | some ncols => exact absurd ⟨nrows, ncols, _, (announces_iff _ _ _ _ _).2 ⟨n, hh, rfl⟩⟩ h

/-- **C34 (partial).** A header that does not announce both sizes, in which a line about sizes or components is not of the form `key=number`, or with another number of components than the reader expects, is reported as an error, whatever follows. -/
theorem C34_bad_header_is_error_partial (fmt : NumFmt K) (content : List UInt8) :
    ((¬ ∃ nrows ncols lines, Announces 1 content nrows ncols lines) → readMatrix fmt content = .ok none) ∧
    ((¬ ∃ nrows ncols lines, Announces 3 content nrows ncols lines) → readColourMatrix fmt content = .ok none) := by
  refine ⟨fun h => ?_, fun h => unannounced _ _ _ _ h⟩
  unfold readMatrix
  split
  · rfl
  · exact unannounced _ _ _ _ h

/-- **C34 (partial).** A row with a wrong number of values, or with a value that is not a number, anywhere in a file with at most as many
data lines as announced, is reported as an error (never a panic, never a matrix). -/
theorem C34_bad_row_is_error_partial (fmt : NumFmt K) (content : List UInt8) (nrows ncols : Nat) (lines : List (List UInt8)) :
    (Announces 1 content nrows ncols lines → lines.length ≤ nrows →
      (∃ l ∈ lines, (words l).length ≠ ncols ∨ ∃ tok ∈ words l, fmt.parse tok = none) → readMatrix fmt content = .ok none) ∧
    (Announces 3 content nrows ncols lines → lines.length ≤ nrows →
      (∃ l ∈ lines, (words l).length ≠ 3 * ncols ∨ ∃ tok ∈ words l, fmt.parse tok = none) → readColourMatrix fmt content = .ok none) := by
  constructor
  · intro h hl hbad
    unfold readMatrix
    split
    · rfl
    apply rejected _ _ _ _ _ _ _ h hl
    · intro l hlen c hc
      have e0 : (words l)[c]? = some (words l)[c] := List.getElem?_eq_getElem (by omega)
      exact ⟨fmt.parse (words l)[c], by simp only [parseAt, e0]⟩
    · obtain ⟨l, hl, hbad⟩ := hbad
      refine ⟨l, hl, ?_⟩
      by_cases hlen : (words l).length = ncols
      · rcases hbad with hb | ⟨tok, ht, hp⟩
        · exact absurd hlen hb
        · obtain ⟨c, hc, rfl⟩ := List.getElem_of_mem ht
          refine Or.inr ⟨c, by omega, ?_⟩
          have e0 : (words l)[c]? = some (words l)[c] := by simp
          simp only [parseAt, e0, hp]
      · exact Or.inl (by omega)
  · intro h hl hbad
    unfold readColourMatrix
    apply rejected _ _ _ _ _ _ _ h hl
    · intro l hlen c hc
      have e0 : (words l)[3 * c]? = some (words l)[3 * c] := List.getElem?_eq_getElem (by omega)
      have e1 : (words l)[3 * c + 1]? = some (words l)[3 * c + 1] := List.getElem?_eq_getElem (by omega)
      have e2 : (words l)[3 * c + 2]? = some (words l)[3 * c + 2] := List.getElem?_eq_getElem (by omega)
      simp only [parseColour, parseAt, e0, e1, e2, Res.bind_ok]
      cases fmt.parse (words l)[3 * c] with
      | none => exact ⟨_, rfl⟩
      | some r =>
        cases fmt.parse (words l)[3 * c + 1] with
        | none => exact ⟨_, rfl⟩
        | some g => cases fmt.parse (words l)[3 * c + 2] <;> exact ⟨_, rfl⟩
    · obtain ⟨l, hl, hbad⟩ := hbad
      refine ⟨l, hl, ?_⟩
      by_cases hlen : (words l).length = 3 * ncols
      · rcases hbad with hb | ⟨tok, ht, hp⟩
        · exact absurd hlen hb
        · obtain ⟨j, hj, rfl⟩ := List.getElem_of_mem ht
          have hc : j / 3 < ncols := by omega
          refine Or.inr ⟨j / 3, hc, ?_⟩
          have e0 : (words l)[3 * (j / 3)]? = some (words l)[3 * (j / 3)] := List.getElem?_eq_getElem (by omega)
          have e1 : (words l)[3 * (j / 3) + 1]? = some (words l)[3 * (j / 3) + 1] := List.getElem?_eq_getElem (by omega)
          have e2 : (words l)[3 * (j / 3) + 2]? = some (words l)[3 * (j / 3) + 2] := List.getElem?_eq_getElem (by omega)
          have h3 : j = 3 * (j / 3) ∨ j = 3 * (j / 3) + 1 ∨ j = 3 * (j / 3) + 2 := by omega
          have key : ∀ k (hk : k < (words l).length), j = k → fmt.parse (words l)[k] = none := by
            rintro k hk rfl; exact hp
          simp only [parseColour, parseAt, e0, e1, e2, Res.bind_ok]
          rcases h3 with h | h | h
          · rw [key _ _ h]
          · rw [key _ _ h]
            cases fmt.parse (words l)[3 * (j / 3)] <;> simp
          · rw [key _ _ h]
            cases fmt.parse (words l)[3 * (j / 3)] with
            | none => simp
            | some _ => cases fmt.parse (words l)[3 * (j / 3) + 1] <;> simp
      · exact Or.inl (by omega)

end

/-! ## C35: conversions -/

section
variable [Field K]

theorem convertLoop_spec (f : Spectrum K → K) (cm : Mat (Spectrum K)) (hcm : cm.WF) (ps : List (Nat × Nat)) (ret : Mat K) (hret : ret.WF)
    (hn : ret.nrows = cm.nrows) (hk : ret.ncols = cm.ncols) (hps : ∀ p ∈ ps, p.1 < cm.nrows ∧ p.2 < cm.ncols) :
    ∃ m, convertLoop f cm ret ps = .ok m ∧ m.WF ∧ m.nrows = cm.nrows ∧ m.ncols = cm.ncols ∧
      (∀ r c, (r, c) ∈ ps → m.get? r c = (cm.get? r c).map f) ∧ (∀ r c, (r, c) ∉ ps → m.get? r c = ret.get? r c) := by
  induction ps generalizing ret with
  | nil => exact ⟨ret, rfl, hret, hn, hk, by simp, fun _ _ _ => rfl⟩
  | cons p ps ih =>
    obtain ⟨row, col⟩ := p
    obtain ⟨h1, h2⟩ := hps _ (List.mem_cons_self ..)
    obtain ⟨v, hv⟩ := Mat.get?_isSome hcm h1 h2
    obtain ⟨ret1, hr1⟩ := (Mat.set_ok_iff ret row col (f v)).2 ⟨by omega, by omega⟩
    obtain ⟨w1, n1, k1, -, -, g1, g1'⟩ := Mat.set_spec hret hr1
    obtain ⟨m, hm, w, n, k, g, o⟩ := ih ret1 w1 (by omega) (by omega) (fun p hp => hps p (List.mem_cons_of_mem _ hp))
    refine ⟨m, by simp only [convertLoop, hv, hr1, Res.bind_ok, hm], w, n, k, ?_, ?_⟩
    · intro r c hrc
      by_cases hin : (r, c) ∈ ps
      · exact g r c hin
      · have : (r, c) = (row, col) := by simpa [hin] using hrc
        simp only [Prod.mk.injEq] at this
        obtain ⟨rfl, rfl⟩ := this
        rw [o r c hin, g1, hv]
        simp
    · intro r c hrc
      simp only [List.mem_cons, not_or, Prod.mk.injEq] at hrc
      rw [o r c hrc.2]
      exact g1' r c (by simpa using hrc.1)

theorem mem_positions {nrows ncols r c : Nat} : (r, c) ∈ positions nrows ncols ↔ r < nrows ∧ c < ncols := by
  simp [positions]

theorem radiance_eq (a : Spectrum K) : a.radiance = a.c0 * (265 / 1000) + a.c1 * (67 / 100) + a.c2 * (65 / 1000) := by
  simp [Spectrum.radiance, Spectrum.channels, Spectrum.radianceCoefficients]; ring

/-- **C35.** The two conversions always succeed, keep the shape, and give at every position 0.265 R + 0.67 G + 0.065 B, respectively 179
times that. -/
theorem C35_conversions (cm : Mat (Spectrum K)) (hcm : cm.WF) :
    ∃ rad lum, colourMatrixToRadiance cm = .ok rad ∧ colourMatrixToLuminance cm = .ok lum ∧
      rad.WF ∧ lum.WF ∧ rad.nrows = cm.nrows ∧ rad.ncols = cm.ncols ∧ lum.nrows = cm.nrows ∧ lum.ncols = cm.ncols ∧
      ∀ r c v, cm.get? r c = some v →
        rad.get? r c = some (v.c0 * (265 / 1000) + v.c1 * (67 / 100) + v.c2 * (65 / 1000)) ∧
        lum.get? r c = some (179 * (v.c0 * (265 / 1000) + v.c1 * (67 / 100) + v.c2 * (65 / 1000))) := by
  obtain ⟨rad, h1, w1, n1, k1, g1, -⟩ := convertLoop_spec Spectrum.radiance cm hcm (positions cm.nrows cm.ncols) (Mat.new 0 cm.nrows cm.ncols)
    (Mat.WF_new _ _ _) rfl rfl (fun p hp => mem_positions.1 hp)
  obtain ⟨lum, h2, w2, n2, k2, g2, -⟩ := convertLoop_spec Spectrum.luminance cm hcm (positions cm.nrows cm.ncols) (Mat.new 0 cm.nrows cm.ncols)
    (Mat.WF_new _ _ _) rfl rfl (fun p hp => mem_positions.1 hp)
  refine ⟨rad, lum, h1, h2, w1, w2, n1, k1, n2, k2, ?_⟩
  intro r c v hv
  have hb := Mat.get?_some_iff hv
  rw [g1 r c (mem_positions.2 hb), g2 r c (mem_positions.2 hb), hv]
  simp only [Option.map_some, radiance_eq, Spectrum.luminance, Spectrum.whiteEfficacy, true_and, Option.some.injEq]
  ring

/-- **C35.** `average_matrix` returns one row, with the mean of each column. -/
theorem C35_average (dc : Mat K) (hdc : dc.WF) :
    ∃ avg, averageMatrix dc = .ok avg ∧ avg.nrows = 1 ∧ avg.ncols = dc.ncols ∧ avg.WF ∧
      ∀ c < dc.ncols, ∀ column : List K, column.length = dc.nrows → (∀ r (hr : r < column.length), dc.get? r c = some column[r]) →
        avg.get? 0 c = some (column.sum / dc.nrows) := by
  have hmul : averageMatrix dc = .ok ⟨1, dc.ncols, (List.range dc.ncols).map (fun j =>
      ((List.range dc.nrows).map ((Mat.new (1 / (dc.nrows : K)) 1 dc.nrows).term dc 0 j)).sum)⟩ := by
    unfold averageMatrix Mat.mul
    simp [Mat.new]
  refine ⟨_, hmul, rfl, rfl, by simp [Mat.WF], ?_⟩
  intro c hc column hlen hcol
  simp only [Mat.get?, hc, Nat.zero_mul, Nat.zero_add, Nat.lt_one_iff, and_self, if_true]
  rw [List.getElem?_map, List.getElem?_range hc]
  simp only [Option.map_some, Option.some.injEq]
  have : (List.range dc.nrows).map ((Mat.new (1 / (dc.nrows : K)) 1 dc.nrows).term dc 0 c) = column.map (fun y => (1 / (dc.nrows : K)) * y) := by
    apply List.ext_getElem
    · simp [hlen]
    · intro i h1 h2
      simp only [List.length_map, List.length_range] at h1
      simp only [List.getElem_map, List.getElem_range, Mat.term]
      rw [Mat.get?_new _ _ _ _ _ (by norm_num) h1, hcol i (by omega)]
  rw [this, List.sum_map_mul_left, List.map_id']
  ring

end

section
variable [Field K] [LinearOrder K] [IsStrictOrderedRing K]

/-- **C35.** The radiance of a colour is between any lower and upper bound of its channels; a gray entry's radiance is its value. -/
theorem C35_radiance_between (a : Spectrum K) (lo hi : K) (hlo : lo ≤ a.c0 ∧ lo ≤ a.c1 ∧ lo ≤ a.c2) (hhi : a.c0 ≤ hi ∧ a.c1 ≤ hi ∧ a.c2 ≤ hi) :
    lo ≤ a.radiance ∧ a.radiance ≤ hi := by
  rw [radiance_eq]
  constructor <;> linarith [hlo.1, hlo.2.1, hlo.2.2, hhi.1, hhi.2.1, hhi.2.2]

theorem C35_gray (v : K) : (Spectrum.gray v).radiance = v ∧ (Spectrum.gray v).luminance = 179 * v := by
  simp only [Spectrum.luminance, radiance_eq, Spectrum.gray, Spectrum.whiteEfficacy]
  constructor <;> ring

end
end Rendering
