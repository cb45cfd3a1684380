import Verif.Spec.CutShort
import Verif.Props.ColourMatrix

/-!
# Reading part of a matrix file
-/

set_option linter.unusedSectionVars false
namespace Rendering

theorem take_unlines (L : List (List UInt8)) (n : Nat) (hn : n < (unlines L).length) :
    ∃ i, ∃ h : i < L.length, ∃ j ≤ L[i].length, (unlines L).take n = unlines (L.take i) ++ L[i].take j ∧ n = (unlines (L.take i)).length + j := by
  induction L generalizing n with
  | nil => simp [unlines] at hn
  | cons l L ih =>
    have e : unlines (l :: L) = l ++ 10 :: unlines L := by simp [unlines, ln]
    by_cases h : n ≤ l.length
    · refine ⟨0, by simp, n, by simpa using h, ?_, by simp [unlines]⟩
      rw [e]
      simp [unlines, List.take_append_of_le_length h]
    · rw [e] at hn
      simp only [List.length_append, List.length_cons] at hn
      obtain ⟨i, hi, j, hj, h1, h2⟩ := ih (n - (l.length + 1)) (by omega)
      refine ⟨i + 1, by simpa using hi, j, by simpa using hj, ?_, ?_⟩
      · have e2 : n = l.length + (1 + (n - (l.length + 1))) := by omega
        rw [e, e2, List.take_length_add_append, Nat.add_comm 1]
        simp only [List.take_succ_cons, h1, List.getElem_cons_succ]
        simp [unlines, ln]
      · have : (unlines ((l :: L).take (i + 1))).length = l.length + 1 + (unlines (L.take i)).length := by
          simp [unlines, ln]
          omega
        rw [this]; omega

theorem linesOf_cut (ls : List (List UInt8)) (piece : List UInt8) (h : ∀ l ∈ ls, ∀ b ∈ l, (b == 10) = false ∧ b ≠ 13) (hp : ∀ b ∈ piece, (b == 10) = false) :
    linesOf (unlines ls ++ piece) = ls ++ if piece = [] then [] else [piece] := by
  have hid : ls.map stripCr = ls := by
    conv_rhs => rw [← List.map_id ls]
    apply List.map_congr_left
    intro l hl
    have : l.getLast? ≠ some 13 := fun h13 => (h l hl 13 (List.mem_of_getLast? h13)).2 rfl
    simp [stripCr, this]
  unfold linesOf
  rw [splitOnByte_unlines_append ls (fun l hl b hb => (h l hl b hb).1), splitOnByte_none _ piece hp]
  simp only [List.dropLast_concat, List.getLast?_append, List.getLast?_singleton, Option.some_or, hid]
  cases piece <;> simp

/-- Tokens, each followed by a separator. -/
def separated (ts : List (List UInt8 × UInt8)) : List UInt8 := ts.flatMap fun t => t.1 ++ [t.2]

theorem words_piece (p : List UInt8) (h : ∀ b ∈ p, isAsciiWhitespace b = false) : words p = if p = [] then [] else [p] := by
  unfold words
  rw [splitOnByte_none _ p h]
  cases p <;> simp

theorem words_cut (ts : List (List UInt8 × UInt8)) (h : ∀ t ∈ ts, IsToken t.1 ∧ isAsciiWhitespace t.2 = true) (j : Nat) :
    ∃ k q, k ≤ ts.length ∧ words ((separated ts).take j) = (ts.take k).map Prod.fst ++ q ∧ (q = [] ∨ ∃ (hk : k < ts.length) (p : List UInt8), q = [p] ∧ p ≠ [] ∧ p <+: ts[k].1) := by
  induction ts generalizing j with
  | nil => exact ⟨0, [], le_rfl, by simp [separated, words_nil], Or.inl rfl⟩
  | cons t ts ih =>
    obtain ⟨⟨h1, h2⟩, h3⟩ := h t (by simp)
    have e : separated (t :: ts) = t.1 ++ t.2 :: separated ts := by simp [separated]
    by_cases hj : j ≤ t.1.length
    · rw [e, List.take_append_of_le_length hj, words_piece _ (fun b hb => h2 b (List.mem_of_mem_take hb))]
      split
      · exact ⟨0, [], by simp, by simp, Or.inl rfl⟩
      · rename_i hne
        exact ⟨0, [t.1.take j], by simp, by simp, Or.inr ⟨by simp, _, rfl, hne, List.take_prefix _ _⟩⟩
    · obtain ⟨k, q, hk, hw, hq⟩ := ih (fun x hx => h x (by simp [hx])) (j - (t.1.length + 1))
      refine ⟨k + 1, q, by simpa using hk, ?_, ?_⟩
      · have e2 : j = t.1.length + (1 + (j - (t.1.length + 1))) := by omega
        rw [e, e2, List.take_length_add_append, Nat.add_comm 1]
        simp only [List.take_succ_cons]
        rw [words_cons _ h1 h2 _ h3, hw]
        simp
      · rcases hq with rfl | ⟨hk, p, h1, h2, h3⟩
        · exact Or.inl rfl
        · exact Or.inr ⟨by simpa using hk, p, h1, h2, by simpa using h3⟩

/-- If a part of a line has as many words as the line, only the last one can be incomplete. -/
theorem words_cut_all (ts : List (List UInt8 × UInt8)) (h : ∀ t ∈ ts, IsToken t.1 ∧ isAsciiWhitespace t.2 = true) (j : Nat) (hl : (words ((separated ts).take j)).length = ts.length) :
    (∀ i, i + 1 < ts.length → (words ((separated ts).take j))[i]? = ts[i]?.map Prod.fst) ∧
    (0 < ts.length → ∃ p q, p ≠ [] ∧ p <+: q ∧ (ts[ts.length - 1]?).map Prod.fst = some q ∧ (words ((separated ts).take j))[ts.length - 1]? = some p) := by
  obtain ⟨k, q, hk, hw, hq⟩ := words_cut ts h j
  rw [hw] at hl ⊢
  simp only [List.length_append, List.length_map, List.length_take] at hl
  rcases hq with rfl | ⟨hk', p, rfl, h2, h3⟩
  · have : k = ts.length := by simp at hl; omega
    subst this
    simp only [List.append_nil, List.take_length, List.getElem?_map]
    refine ⟨fun i _ => trivial, fun h0 => ⟨(ts[ts.length - 1]'(by omega)).1, _, (h _ (List.getElem_mem _)).1.1, List.prefix_refl _, ?_, ?_⟩⟩ <;>
    rw [List.getElem?_eq_getElem (by omega)] <;> rfl
  · have hk2 : k = ts.length - 1 := by simp at hl; omega
    subst hk2
    refine ⟨fun i hi => ?_, fun h0 => ⟨p, _, h2, h3, by rw [List.getElem?_eq_getElem hk']; rfl, ?_⟩⟩
    · rw [List.getElem?_append_left (by simp; omega), List.getElem?_map, List.getElem?_take_of_lt (by omega)]
    · rw [List.getElem?_append_right (by simp)]
      simp

theorem mHeader_rest (comps : Nat) (ls : List (List UInt8)) (hb : ∀ l ∈ ls, ¬ BlankLine l) (r c : Option Nat) (n : Nat) (r' c' : Option Nat) (n' : Nat) (h : mHeader comps ls r c n = some (r', c', n')) :
    n' = n + ls.length ∧ ((∀ l ∈ ls, ¬ bytes "NROWS" <+: l) → r' = r) ∧ ((∀ l ∈ ls, ¬ bytes "NCOLS" <+: l) → c' = c) := by
  induction ls generalizing r c n with
  | nil =>
    simp only [mHeader, Option.some.injEq, Prod.mk.injEq] at h
    obtain ⟨rfl, rfl, rfl⟩ := h
    simp
  | cons l ls ih =>
    have hl : ¬ (l.isEmpty || isAsciiWhitespace l.head!) = true := fun h => hb l (by simp) ((blank_iff l).1 h)
    rw [mHeader, if_neg hl] at h
    have ih := fun r c h => ih (fun x hx => hb x (by simp [hx])) r c (n + 1) h
    have hlen : ∀ k, k = n + 1 + ls.length → k = n + (l :: ls).length := by intro k hk; rw [hk, List.length_cons]; omega
    by_cases hg : GoodLine comps l
    · rcases headerLine_good comps l hg with ⟨h1, h2, v, _, hm⟩ | ⟨h1, h2, v, _, hm⟩ | ⟨h1, h2, hm⟩
      · rw [hm] at h
        obtain ⟨k1, k2, k3⟩ := ih _ _ h
        exact ⟨hlen _ k1, fun hh => absurd h1 (hh l (by simp)), fun hh => k3 fun x hx => hh x (by simp [hx])⟩
      · rw [hm] at h
        obtain ⟨k1, k2, k3⟩ := ih _ _ h
        exact ⟨hlen _ k1, fun hh => k2 fun x hx => hh x (by simp [hx]), fun hh => absurd h2 (hh l (by simp))⟩
      · rw [hm] at h
        obtain ⟨k1, k2, k3⟩ := ih _ _ h
        exact ⟨hlen _ k1, fun hh => k2 fun x hx => hh x (by simp [hx]), fun hh => k3 fun x hx => hh x (by simp [hx])⟩
    · rw [headerLine_bad comps l hg] at h
      cases h

theorem header_step2 (comps nrows : Nat) (rest : List (List UInt8)) (hr : nrows < 2 ^ 64) :
    mHeader comps (bytes "#?SIMPLE" :: (bytes "NROWS" ++ 61 :: decimal nrows) :: rest) none none 0 = mHeader comps rest (some nrows) none 2 := by
  have d1 : mHeaderLine comps (bytes "NROWS" ++ 61 :: decimal nrows) = some (.nrows nrows) := by
    unfold mHeaderLine
    rw [if_pos (startsWith_self _ _), headerNumber_key _ (by decide) _ hr]; rfl
  have e0 : mHeaderLine comps (bytes "#?SIMPLE") = some .skip := by
    unfold mHeaderLine
    rw [if_neg (by decide), if_neg (by decide), if_neg (by decide)]
  rw [mHeader, if_neg (by decide), e0]
  simp only
  rw [mHeader, first_not_ws ⟨78, _, rfl, by decide⟩, d1]
  simp only [Bool.false_eq_true, if_false]

theorem header_step3 (comps nrows ncols : Nat) (rest : List (List UInt8)) (hr : nrows < 2 ^ 64) (hc : ncols < 2 ^ 64) :
    mHeader comps (bytes "#?SIMPLE" :: (bytes "NROWS" ++ 61 :: decimal nrows) :: (bytes "NCOLS" ++ 61 :: decimal ncols) :: rest) none none 0 = mHeader comps rest (some nrows) (some ncols) 3 := by
  have d2 : mHeaderLine comps (bytes "NCOLS" ++ 61 :: decimal ncols) = some (.ncols ncols) := by
    unfold mHeaderLine
    rw [if_neg (by rw [startsWith_bytes_ne _ (by decide) (by decide)]; simp), if_pos (startsWith_self _ _), headerNumber_key _ (by decide) _ hc]; rfl
  rw [header_step2 comps nrows _ hr, mHeader, first_not_ws ⟨78, _, rfl, by decide⟩, d2]
  simp only [Bool.false_eq_true, if_false]

theorem not_start {key k l piece : List UInt8} (hk : k <+: l) (hlen : key.length = k.length) (hne : key ≠ k) (hp : piece <+: l) : ¬ key <+: piece :=
  fun h => hne (keys_differ (h.trans hp) hk hlen)

theorem header_not_blank (nrows ncols comps : Nat) (i : Nat) (hi : i < 6) (piece : List UInt8) (hp : piece <+: (headerLines nrows ncols (decimal comps))[i]) (hne : piece ≠ []) : ¬ BlankLine piece := by
  rintro (h | ⟨b, rest, rfl, hb⟩)
  · exact hne h
  · have hmem : b ∈ (headerLines nrows ncols (decimal comps))[i].head? := by
      obtain ⟨t, ht⟩ := hp
      rw [← ht]; simp
    match i, hi with
    | 0, _ =>
      have e : (bytes "#?SIMPLE").head? = some 35 := by decide +kernel
      simp [headerLines, e] at hmem; rw [← hmem] at hb; revert hb; decide
    | 1, _ => simp [headerLines] at hmem; rw [← hmem] at hb; revert hb; decide
    | 2, _ => simp [headerLines] at hmem; rw [← hmem] at hb; revert hb; decide
    | 3, _ => simp [headerLines] at hmem; rw [← hmem] at hb; revert hb; decide
    | 4, _ =>
      have e : (bytes "FORMAT=ascii").head? = some 70 := by decide +kernel
      simp [headerLines, e] at hmem; rw [← hmem] at hb; revert hb; decide
    | 5, _ => simp [headerLines] at hmem

/-- A file that stops in its header. -/
theorem header_cut {α : Type} (zero : α) (comps : Nat) (entry : List (List UInt8) → Nat → Res (Option α)) (nrows ncols : Nat) (hr : nrows < 2 ^ 64) (hc : ncols < 2 ^ 64) (content piece : List UInt8) (i : Nat) (hi : i < 6)
    (hp : piece <+: (headerLines nrows ncols (decimal comps))[i]) (hl : linesOf content = (headerLines nrows ncols (decimal comps)).take i ++ if piece = [] then [] else [piece]) :
    readGeneric zero comps entry content = .ok none ∨
    ((3 ≤ i ∨ i = 2 ∧ 6 < piece.length) ∧ ∃ digits n, digits ≠ [] ∧ digits <+: decimal ncols ∧ parseUsize digits = some n ∧ readGeneric zero comps entry content = .ok (some (Mat.new zero nrows n))) := by
  have hnb : ∀ l ∈ linesOf content, ¬ BlankLine l := by
    intro l hm
    rw [hl, List.mem_append] at hm
    rcases hm with hm | hm
    · obtain ⟨k, hk, rfl⟩ := List.getElem_of_mem hm
      simp only [List.length_take] at hk
      have hk6 : k < 5 := by
        have : i ≤ 5 := by omega
        omega
      rw [List.getElem_take]
      refine header_not_blank nrows ncols comps k (by omega) _ (List.prefix_refl _) ?_
      match k, hk6 with
      | 0, _ => simp only [headerLines, List.getElem_cons_zero]; decide +kernel
      | 1, _ => simp [headerLines]
      | 2, _ => simp [headerLines]
      | 3, _ => simp [headerLines]
      | 4, _ => simp only [headerLines, List.getElem_cons_succ, List.getElem_cons_zero]; decide +kernel
    · split at hm
      · simp at hm
      · rename_i hne
        simp only [List.mem_singleton] at hm
        subst hm
        exact header_not_blank nrows ncols comps i hi _ hp hne
  unfold readGeneric
  simp only
  cases hh : mHeader comps (linesOf content) none none 0 with
  | none => exact Or.inl rfl
  | some t =>
    obtain ⟨r, c, n⟩ := t
    simp only
    obtain ⟨hn, hrr, hcc⟩ := mHeader_rest comps _ hnb _ _ _ _ _ _ hh
    have hd : (linesOf content).drop n = [] := by rw [hn]; simp
    rw [hd]
    have hpiece : ∀ l ∈ (if piece = [] then [] else [piece]), l = piece ∧ piece ≠ [] := by
      intro l hm
      split at hm
      · simp at hm
      · rename_i hne
        exact ⟨by simpa using hm, hne⟩
    match i, hi with
    | 0, _ =>
      simp only [headerLines, List.take_zero, List.nil_append, List.getElem_cons_zero] at hl hp
      rw [hcc (by
        intro l hm
        rw [hl] at hm
        rw [(hpiece l hm).1]
        exact not_start (k := (bytes "#?SIMPLE").take 5) (List.take_prefix _ _) (by decide +kernel) (by decide +kernel) hp)]
      left
      cases r <;> rfl
    | 1, _ =>
      simp only [headerLines, List.take_succ_cons, List.take_zero, List.cons_append, List.nil_append, List.getElem_cons_succ, List.getElem_cons_zero] at hl hp
      rw [hcc (by
        intro l hm
        rw [hl, List.mem_cons] at hm
        rcases hm with rfl | hm
        · exact not_start (k := (bytes "#?SIMPLE").take 5) (List.take_prefix _ _) (by decide +kernel) (by decide +kernel) (List.prefix_refl _)
        · rw [(hpiece l hm).1]
          exact not_start (k := bytes "NROWS") (List.prefix_append _ _) (by decide +kernel) (by decide +kernel) hp)]
      left
      cases r <;> rfl
    | 2, _ =>
      simp only [headerLines, List.take_succ_cons, List.take_zero, List.cons_append, List.nil_append, List.getElem_cons_succ, List.getElem_cons_zero] at hl hp
      rw [hl, header_step2 comps nrows _ hr] at hh
      by_cases hne : piece = []
      · rw [if_pos hne] at hh
        simp only [mHeader, Option.some.injEq, Prod.mk.injEq] at hh
        obtain ⟨rfl, rfl, -⟩ := hh
        exact Or.inl rfl
      · rw [if_neg hne] at hh
        have hbl : ¬ (piece.isEmpty || isAsciiWhitespace piece.head!) = true := fun h => hnb piece (by rw [hl]; simp [hne]) ((blank_iff piece).1 h)
        have hno : ¬ bytes "NROWS" <+: piece := not_start (k := bytes "NCOLS") (List.prefix_append _ _) (by decide +kernel) (by decide +kernel) hp
        rw [mHeader, if_neg hbl] at hh
        by_cases hg : GoodLine comps piece
        · rcases headerLine_good comps piece hg with ⟨h1, _⟩ | ⟨_, h2, v, hv, hm⟩ | ⟨_, _, hm⟩
          · exact absurd h1 hno
          · rw [hm] at hh
            simp only [mHeader, Option.some.injEq, Prod.mk.injEq] at hh
            obtain ⟨rfl, rfl, -⟩ := hh
            obtain ⟨more, digits, rfl, k1, k2, k3⟩ := (headerNumber_iff "NCOLS" no61_cols piece h2 v).1 hv
            right
            have hmore : more = [] := by
              cases more with
              | nil => rfl
              | cons x more =>
                obtain ⟨t, ht⟩ := hp
                simp only [List.append_assoc, List.append_cancel_left_eq, List.cons_append, List.cons.injEq] at ht
                exact absurd (by rw [ht.1]; simp) k1
            subst hmore
            have hdig : digits ≠ [] := by
              rintro rfl
              revert k3
              simp [parseUsize, stripPlus]
            have hlen : (bytes "NCOLS").length = 5 := by decide +kernel
            refine ⟨Or.inr ⟨rfl, ?_⟩, digits, v, hdig, ?_, k3, rfl⟩
            · have := List.length_pos_iff.2 hdig
              simp only [List.append_nil, List.length_append, List.length_cons, hlen]
              omega
            · obtain ⟨t, ht⟩ := hp
              simp only [List.append_nil, List.append_assoc, List.append_cancel_left_eq, List.cons_append, List.cons.injEq, true_and] at ht
              exact ⟨t, ht⟩
          · rw [hm] at hh
            simp only [mHeader, Option.some.injEq, Prod.mk.injEq] at hh
            obtain ⟨rfl, rfl, -⟩ := hh
            exact Or.inl rfl
        · rw [headerLine_bad comps piece hg] at hh
          cases hh
    | k + 3, hk =>
      have hrest : ∃ rest, linesOf content = bytes "#?SIMPLE" :: (bytes "NROWS" ++ 61 :: decimal nrows) :: (bytes "NCOLS" ++ 61 :: decimal ncols) :: rest ∧ ∀ l ∈ rest, ∃ x ∈ [bytes "NCOMP" ++ 61 :: decimal comps, bytes "FORMAT=ascii"], l <+: x := by
        match k, hk with
        | 0, _ =>
          simp only [headerLines, List.take_succ_cons, List.take_zero, List.cons_append, List.nil_append, List.getElem_cons_succ, List.getElem_cons_zero] at hl hp
          refine ⟨_, hl, fun l hm => ⟨bytes "NCOMP" ++ 61 :: decimal comps, by simp, ?_⟩⟩
          · rw [(hpiece l hm).1]; exact hp
        | 1, _ =>
          simp only [headerLines, List.take_succ_cons, List.take_zero, List.cons_append, List.nil_append, List.getElem_cons_succ, List.getElem_cons_zero] at hl hp
          refine ⟨_, hl, fun l hm => ?_⟩
          rcases List.mem_cons.1 hm with rfl | hm
          · exact ⟨_, by simp, List.prefix_refl _⟩
          · exact ⟨bytes "FORMAT=ascii", by simp, by rw [(hpiece l hm).1]; exact hp⟩
        | 2, _ =>
          simp only [headerLines, List.take_succ_cons, List.take_zero, List.cons_append, List.nil_append, List.getElem_cons_succ, List.getElem_cons_zero] at hl hp
          refine ⟨_, hl, fun l hm => ?_⟩
          rcases List.mem_cons.1 hm with rfl | hm
          · exact ⟨_, by simp, List.prefix_refl _⟩
          · rcases List.mem_cons.1 hm with rfl | hm
            · exact ⟨bytes "FORMAT=ascii", by simp, List.prefix_refl _⟩
            · have := hpiece l hm
              exact absurd (List.prefix_nil.1 hp) this.2
      obtain ⟨rest, hl2, hrest⟩ := hrest
      rw [hl2, header_step3 comps nrows ncols _ hr hc] at hh
      have hno : ∀ key : List UInt8, key.length = 5 → key ≠ bytes "NCOMP" → key ≠ (bytes "FORMAT=ascii").take 5 → ∀ l ∈ rest, ¬ key <+: l := by
        intro key h5 h1 h2 l hm
        obtain ⟨x, hx, hlx⟩ := hrest l hm
        simp only [List.mem_cons, List.not_mem_nil, or_false] at hx
        rcases hx with rfl | rfl
        · exact not_start (k := bytes "NCOMP") (List.prefix_append _ _) (by rw [h5]; decide +kernel) h1 hlx
        · exact not_start (k := (bytes "FORMAT=ascii").take 5) (List.take_prefix _ _) (by rw [h5]; decide +kernel) h2 hlx
      obtain ⟨-, e1, e2⟩ := mHeader_rest comps rest (fun l hm => hnb l (by rw [hl2]; simp [hm])) _ _ _ _ _ _ hh
      rw [e1 (hno _ (by decide +kernel) (by decide +kernel) (by decide +kernel)), e2 (hno _ (by decide +kernel) (by decide +kernel) (by decide +kernel))]
      exact Or.inr ⟨Or.inl (by omega), decimal ncols, ncols, decimal_ne_nil _, List.prefix_refl _, parse_decimal _ hc, rfl⟩

end Rendering
