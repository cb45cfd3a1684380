import Verif.Lemmas.CutShort
import Verif.Props.ColourMatrixExamples
import Verif.Props.Image

/-!
# C134: files that were not written to the end
-/

set_option linter.unusedSectionVars false
namespace Rendering
variable {K : Type}

theorem words_separated (ts : List (List UInt8 × UInt8)) (h : ∀ t ∈ ts, IsToken t.1 ∧ isAsciiWhitespace t.2 = true) : words (separated ts) = ts.map Prod.fst := by
  induction ts with
  | nil => rfl
  | cons t ts ih =>
    have e : separated (t :: ts) = t.1 ++ t.2 :: separated ts := by simp [separated]
    obtain ⟨⟨h1, h2⟩, h3⟩ := h t (by simp)
    rw [e, words_cons _ h1 h2 _ h3, ih fun x hx => h x (by simp [hx])]
    rfl

theorem flatMap_length {α β : Type} (vs : List α) (g : α → List β) (n : Nat) (h : ∀ v, (g v).length = n) : (vs.flatMap g).length = n * vs.length := by
  induction vs with
  | nil => simp
  | cons v vs ih => simp [h, ih]; ring

theorem flatMap_last {α β : Type} (vs : List α) (v : α) (g : α → List β) (n : Nat) (h : ∀ v, (g v).length = n) (i : Nat) : ((vs ++ [v]).flatMap g)[n * vs.length + i]? = (g v)[i]? := by
  rw [List.flatMap_append, List.getElem?_append_right (by rw [flatMap_length vs g n h]; omega), flatMap_length vs g n h]
  simp

/-- Reading a proper part of a matrix file. -/
theorem cut_generic {α : Type} (zero : α) (comps : Nat) (hcomps : comps < 2 ^ 64) (h1 : 0 < comps) (text : α → List UInt8) (toks : α → List (List UInt8 × UInt8)) (entry : List (List UInt8) → Nat → Res (Option α))
    (f : α → α) (last : α → α → Prop) (m : Mat α) (hm : m.WF) (hr : m.nrows < 2 ^ 64) (hc : m.ncols < 2 ^ 64)
    (htoks : ∀ v, text v ++ [9] = separated (toks v) ∧ (toks v).length = comps ∧ ∀ t ∈ toks v, IsToken t.1 ∧ (t.2 = 9 ∨ t.2 = 32))
    (hentry : ∀ ws : List (List UInt8), ws.length = comps * m.ncols → ∀ c < m.ncols, ∃ o, entry ws c = .ok o)
    (hfull : ∀ (vs : List α) (ws : List (List UInt8)) (c : Nat) (hc : c < vs.length), (∀ i < comps, ws[comps * c + i]? = ((vs.flatMap toks)[comps * c + i]?).map Prod.fst) → entry ws c = .ok (some (f vs[c])))
    (hlast : ∀ (vs : List α) (v v' : α) (ws : List (List UInt8)), (∀ i, i + 1 < comps → ws[comps * vs.length + i]? = ((toks v)[i]?).map Prod.fst) →
      (∃ p q, p ≠ [] ∧ p <+: q ∧ ((toks v)[comps - 1]?).map Prod.fst = some q ∧ ws[comps * vs.length + (comps - 1)]? = some p) → entry ws vs.length = .ok (some v') → last v v')
    (part : List UInt8) (hp : part <+: saveText text (decimal comps) m) (hne : part ≠ saveText text (decimal comps) m) :
    (∃ o, readGeneric zero comps entry part = .ok o ∧ ∀ m', o = some m' → (HeaderOnly zero m m' ∨ ∃ k, StopsInRow zero f last m m' k)) ∧
    (part.length ≤ (bytes "#?SIMPLE\nNROWS=" ++ decimal m.nrows ++ bytes "\nNCOLS=").length → readGeneric zero comps entry part = .ok none) := by
  have hb1 : (bytes "#?SIMPLE\nNROWS=").length = 15 := by decide +kernel
  have hb2 : (bytes "\nNCOLS=").length = 7 := by decide +kernel
  have hb3 : (bytes "#?SIMPLE").length = 8 := by decide +kernel
  have hb4 : (bytes "NROWS").length = 5 := by decide +kernel
  have hb5 : (bytes "NCOLS").length = 5 := by decide +kernel
  have hws : ∀ v, ∀ t ∈ toks v, IsToken t.1 ∧ isAsciiWhitespace t.2 = true := by
    intro v t ht
    obtain ⟨k1, k2⟩ := (htoks v).2.2 t ht
    exact ⟨k1, by rcases k2 with h | h <;> rw [h] <;> rfl⟩
  have hwsl : ∀ vs : List α, ∀ t ∈ vs.flatMap toks, IsToken t.1 ∧ isAsciiWhitespace t.2 = true := by
    intro vs t ht
    obtain ⟨v, -, hv⟩ := List.mem_flatMap.1 ht
    exact hws v t hv
  have hrowsep : ∀ r < m.nrows, ∃ vs : List α, vs.length = m.ncols ∧ (∀ c (hc : c < vs.length), m.get? r c = some vs[c]) ∧ rowLine text m r = separated (vs.flatMap toks) := by
    intro r hr
    obtain ⟨vs, a, b, c⟩ := rowLine_map text m hm r hr
    refine ⟨vs, a, b, ?_⟩
    rw [c]
    unfold separated
    rw [List.flatMap_assoc]
    exact List.flatMap_congr fun v _ => (htoks v).1
  have hclean : ∀ l ∈ headerLines m.nrows m.ncols (decimal comps) ++ (List.range m.nrows).map (rowLine text m), ∀ b ∈ l, (b == 10) = false ∧ b ≠ 13 := by
    intro l hl
    rw [List.mem_append] at hl
    rcases hl with hl | hl
    · exact headerLines_clean _ _ _ l hl
    · obtain ⟨r, hr, rfl⟩ := List.mem_map.1 hl
      obtain ⟨vs, -, -, e⟩ := hrowsep r (List.mem_range.1 hr)
      rw [e]
      intro b hb
      simp only [separated, List.mem_flatMap] at hb
      obtain ⟨t, ⟨v, -, ht⟩, hb⟩ := hb
      obtain ⟨k1, k2⟩ := (htoks v).2.2 t ht
      rcases List.mem_append.1 hb with hb | hb
      · exact k1.ne13 b hb
      · rw [List.mem_singleton] at hb
        subst hb
        rcases k2 with h | h <;> rw [h] <;> decide
  rw [saveText_unlines] at hp hne
  set H := headerLines m.nrows m.ncols (decimal comps) with hH
  have hH6 : H.length = 6 := rfl
  set L := H ++ (List.range m.nrows).map (rowLine text m) with hL
  have hlen : part.length < (unlines L).length := by
    refine lt_of_le_of_ne hp.length_le fun h => hne (hp.eq_of_length h)
  obtain ⟨i, hi, j, hj, htake, hn⟩ := take_unlines L part.length hlen
  have hpart : part = unlines (L.take i) ++ L[i].take j := by rw [← htake]; exact List.prefix_iff_eq_take.1 hp
  have hlines : linesOf part = L.take i ++ if L[i].take j = [] then [] else [L[i].take j] := by
    rw [hpart]
    exact linesOf_cut _ _ (fun l hl => hclean l (List.mem_of_mem_take hl)) fun b hb => (hclean _ (List.getElem_mem hi) b (List.mem_of_mem_take hb)).1
  simp only [List.length_append, hb1, hb2]
  rcases Nat.lt_or_ge i 6 with hi6 | hi6
  · have e1 : L.take i = H.take i := List.take_append_of_le_length (by omega)
    have e2 : L[i] = H[i]'(by omega) := List.getElem_append_left _
    have hpre : L[i].take j <+: H[i]'(by omega) := by rw [← e2]; exact List.take_prefix _ _
    rw [e1] at hlines hn
    rcases header_cut zero comps entry m.nrows m.ncols hr hc part (L[i].take j) i hi6 hpre hlines with h | ⟨h, digits, n, k1, k2, k3, k4⟩
    · exact ⟨⟨none, h, by simp⟩, fun _ => h⟩
    · refine ⟨⟨_, k4, fun m' e => Or.inl ⟨digits, n, k1, k2, k3, (Option.some.inj e).symm⟩⟩, fun hle => ?_⟩
      exfalso
      rcases h with h | ⟨rfl, h⟩
      · have : (unlines (H.take 3)).length ≤ (unlines (H.take i)).length := by
          have : H.take i = H.take 3 ++ (H.take i).drop 3 := by
            conv_lhs => rw [← List.take_append_drop 3 (H.take i)]
            rw [List.take_take, Nat.min_eq_left h]
          rw [this]
          simp [unlines]
        have e3 : (unlines (H.take 3)).length = 23 + (decimal m.nrows).length + (decimal m.ncols).length := by
          simp [hH, headerLines, unlines, ln, hb3, hb4, hb5]; omega
        omega
      · have e3 : (unlines (H.take 2)).length = 16 + (decimal m.nrows).length := by
          simp [hH, headerLines, unlines, ln, hb3, hb4]; omega
        rw [List.length_take] at h
        omega
  · obtain ⟨k, rfl⟩ := Nat.exists_eq_add_of_le hi6
    have hk : k < m.nrows := by rw [hL] at hi; simp [hH6] at hi; exact hi
    have e1 : L.take (6 + k) = H ++ (List.range k).map (rowLine text m) := by
      rw [hL, List.take_append, hH6, List.take_of_length_le (by omega), Nat.add_sub_cancel_left, ← List.map_take, List.take_range, Nat.min_eq_left hk.le]
    have e2 : L[6 + k] = rowLine text m k := by
      simp only [hL]
      rw [List.getElem_append_right (by omega)]
      simp [hH6]
    rw [e1, e2] at hlines
    set piece := (rowLine text m k).take j with hpiece
    have hmh : mHeader comps (linesOf part) none none 0 = some (some m.nrows, some m.ncols, 6) := by
      rw [hlines, List.append_assoc]
      exact mHeader_ok comps _ _ _ hr hc hcomps
    have hdrop : (linesOf part).drop 6 = (List.range k).map (rowLine text m) ++ if piece = [] then [] else [piece] := by
      rw [hlines, List.append_assoc, List.drop_append_of_le_length (by omega), List.drop_of_length_le (by omega)]
      simp
    refine ⟨?_, fun hle => ?_⟩
    · have hread : readGeneric zero comps entry part = readRows comps m.ncols entry 0 ((List.range k).map (rowLine text m) ++ if piece = [] then [] else [piece]) (Mat.new zero m.nrows m.ncols) := by
        unfold readGeneric
        simp only [hmh, hdrop]
      rw [hread]
      obtain ⟨o, ho⟩ := readRows_no_panic comps m.ncols entry 0 ((List.range k).map (rowLine text m) ++ if piece = [] then [] else [piece]) (Mat.new zero m.nrows m.ncols) (Mat.WF_new _ _ _) rfl
        (by simp only [List.length_append, List.length_map, List.length_range, Mat.new]; split <;> simp <;> omega) (fun l hl c hc => hentry _ hl c hc)
      refine ⟨o, ho, ?_⟩
      rintro m' rfl
      obtain ⟨w, n, kk, -, g, out⟩ := readRows_spec _ _ _ _ _ _ _ (Mat.WF_new _ _ _) rfl ho
      have hzero : ∀ r c, r < m.nrows → c < m.ncols → ¬ (0 ≤ r ∧ r < 0 + ((List.range k).map (rowLine text m) ++ if piece = [] then [] else [piece]).length) → m'.get? r c = some zero := by
        intro r c hr hc h
        rw [out r c h, Mat.get?_new _ _ _ _ _ hr hc]
      refine Or.inr ⟨k, n, kk, hk, ?_, ?_, ?_⟩
      · intro r hrk c hcn
        obtain ⟨-, g2⟩ := g r (by simp; omega)
        obtain ⟨v, hv, hg⟩ := g2 c hcn
        rw [List.getElem_append_left (by simpa using hrk)] at hv
        simp only [List.getElem_map, List.getElem_range] at hv
        obtain ⟨vs, a, b, e⟩ := hrowsep r (by omega)
        rw [e, words_separated _ (hwsl vs), hfull vs _ c (by omega) (fun i _ => by rw [List.getElem?_map])] at hv
        rw [Nat.zero_add] at hg
        rw [hg, b c (by omega)]
        simp only [Res.ok.injEq, Option.some.injEq] at hv
        simp [hv]
      · intro r hkr hr c hc
        refine hzero r c hr hc ?_
        rintro ⟨-, h⟩
        simp only [List.length_append, List.length_map, List.length_range] at h
        split at h <;> simp at h <;> omega
      · by_cases hpe : piece = []
        · left
          intro c hc
          refine hzero k c hk hc ?_
          rintro ⟨-, h⟩
          simp [hpe] at h
        · right
          obtain ⟨g1, g2⟩ := g k (by simp [hpe])
          have egk : ((List.range k).map (rowLine text m) ++ if piece = [] then [] else [piece])[k]'(by simp [hpe]) = piece := by
            rw [List.getElem_append_right (by simp)]
            simp [hpe]
          rw [egk] at g1
          simp only [egk] at g2
          obtain ⟨vs, a, b, e⟩ := hrowsep k hk
          have hlv : (vs.flatMap toks).length = comps * m.ncols := by rw [flatMap_length vs toks comps (fun v => (htoks v).2.1), a]
          rw [hpiece, e] at g1 g2
          obtain ⟨c1, c2⟩ := words_cut_all (vs.flatMap toks) (hwsl vs) j (by rw [g1, hlv]; rfl)
          rw [hlv] at c1 c2
          constructor
          · intro c hcn
            obtain ⟨v, hv, hg⟩ := g2 c (show c < m.ncols by omega)
            rw [Nat.zero_add] at hg
            rw [hfull vs _ c (by omega) (fun i hi => by
              refine c1 _ ?_
              calc comps * c + i + 1 ≤ comps * c + comps := by omega
                _ = comps * (c + 1) := by ring
                _ < comps * (c + 1) + comps := by omega
                _ = comps * (c + 2) := by ring
                _ ≤ _ := Nat.mul_le_mul_left _ (by omega))] at hv
            rw [hg, b c (by omega)]
            simp only [Res.ok.injEq, Option.some.injEq] at hv
            simp [hv]
          · intro v hv
            obtain ⟨-, hcn⟩ := Mat.get?_some_iff hv
            obtain ⟨v', hv', hg⟩ := g2 (m.ncols - 1) hcn
            rw [Nat.zero_add] at hg
            refine ⟨v', hg, ?_⟩
            have hvs : vs = vs.dropLast ++ [v] := by
              have hne : vs ≠ [] := by rintro rfl; simp at a; omega
              conv_lhs => rw [← List.dropLast_append_getLast hne]
              congr 2
              have := b (m.ncols - 1) (by omega)
              rw [hv] at this
              rw [List.getLast_eq_getElem]
              simp only [Option.some.injEq] at this
              rw [this]
              congr 1
              omega
            set us := vs.dropLast with hus
            have hul : us.length = m.ncols - 1 := by simp [hus, a]
            have e5 : comps * us.length + comps = comps * m.ncols := by
              rw [hul]
              calc comps * (m.ncols - 1) + comps = comps * (m.ncols - 1 + 1) := by ring
                _ = _ := by congr 1; omega
            refine hlast us v v' _ (fun i hi => ?_) ?_ (by rw [hul]; exact hv')
            · rw [c1 _ (by omega), hvs, flatMap_last us v toks comps fun v => (htoks v).2.1]
            · obtain ⟨p, q, p1, p2, p3, p4⟩ := c2 (by rw [← e5]; omega)
              have e6 : comps * us.length + (comps - 1) = comps * m.ncols - 1 := by omega
              refine ⟨p, q, p1, p2, ?_, ?_⟩
              · rw [← flatMap_last us v toks comps (fun v => (htoks v).2.1) (comps - 1), ← hvs, e6]
                exact p3
              · rw [e6, p4]
    · exfalso
      rw [e1] at hn
      have : (unlines H).length ≤ (unlines (H ++ (List.range k).map (rowLine text m))).length := by simp [unlines]
      have e3 : 23 + (decimal m.nrows).length ≤ (unlines H).length := by
        simp only [hH, headerLines, unlines, ln, List.flatMap_cons, List.flatMap_nil, List.length_append, List.length_cons, hb3, hb4, hb5, List.length_nil]; omega
      omega

/-- A file that stops after some complete rows. -/
theorem rows_generic {α : Type} (zero : α) (comps : Nat) (hcomps : comps < 2 ^ 64) (text : α → List UInt8) (entry : List (List UInt8) → Nat → Res (Option α))
    (f : α → α) (m : Mat α) (hm : m.WF) (hr : m.nrows < 2 ^ 64) (hc : m.ncols < 2 ^ 64)
    (htext : ∀ v, ∀ b ∈ text v, (b == 10) = false ∧ b ≠ 13)
    (hwords : ∀ vs : List α, vs.length = m.ncols → (words (vs.flatMap (fun v => text v ++ [9]))).length = comps * m.ncols ∧
      ∀ c (hc : c < vs.length), entry (words (vs.flatMap (fun v => text v ++ [9]))) c = .ok (some (f vs[c]))) (k : Nat) (hk : k < m.nrows) :
    ∃ part m', part <+: saveText text (decimal comps) m ∧ part ≠ saveText text (decimal comps) m ∧ readGeneric zero comps entry part = .ok (some m') ∧ m'.WF ∧ m'.nrows = m.nrows ∧ m'.ncols = m.ncols ∧
      (∀ r < k, ∀ c < m.ncols, m'.get? r c = (m.get? r c).map f) ∧ ∀ r, k ≤ r → r < m.nrows → ∀ c < m.ncols, m'.get? r c = some zero := by
  set H := headerLines m.nrows m.ncols (decimal comps) with hH
  have hrow10 : ∀ r, ∀ b ∈ rowLine text m r, (b == 10) = false ∧ b ≠ 13 := by
    intro r b hb
    simp only [rowLine, List.mem_flatMap] at hb
    obtain ⟨c, -, hb⟩ := hb
    cases hg : m.get? r c with
    | none => simp [hg] at hb
    | some v =>
      simp only [hg, List.mem_append, List.mem_singleton] at hb
      rcases hb with hb | rfl
      · exact htext v b hb
      · decide
  have hsplit : saveText text (decimal comps) m = unlines (H ++ (List.range k).map (rowLine text m)) ++ unlines (((List.range m.nrows).map (rowLine text m)).drop k) := by
    rw [saveText_unlines, ← hH]
    have : (List.range k).map (rowLine text m) = ((List.range m.nrows).map (rowLine text m)).take k := by rw [← List.map_take, List.take_range, Nat.min_eq_left hk.le]
    rw [this]
    unfold unlines
    rw [← List.flatMap_append, List.append_assoc, List.take_append_drop]
  have hlines : linesOf (unlines (H ++ (List.range k).map (rowLine text m))) = H ++ (List.range k).map (rowLine text m) := by
    have := linesOf_cut (H ++ (List.range k).map (rowLine text m)) [] (by
      intro l hl
      rw [List.mem_append] at hl
      rcases hl with hl | hl
      · exact headerLines_clean _ _ _ l hl
      · obtain ⟨r, -, rfl⟩ := List.mem_map.1 hl
        exact hrow10 r) (by simp)
    simpa using this
  have hdrop : (H ++ (List.range k).map (rowLine text m)).drop 6 = (List.range k).map (rowLine text m) := by
    rw [List.drop_append_of_le_length (by simp [hH, headerLines])]
    simp [hH, headerLines]
  have hentry : ∀ l ∈ (List.range k).map (rowLine text m), (words l).length = comps * m.ncols ∧ ∀ c < m.ncols, ∃ v, entry (words l) c = .ok (some v) := by
    intro l hl
    obtain ⟨r, hr, rfl⟩ := List.mem_map.1 hl
    obtain ⟨vs, h1, h2, h3⟩ := rowLine_map text m hm r (by have := List.mem_range.1 hr; omega)
    rw [h3]
    obtain ⟨a, b⟩ := hwords vs h1
    exact ⟨a, fun c hc => ⟨_, b c (by omega)⟩⟩
  obtain ⟨m', hm'⟩ := readRows_ok comps m.ncols entry 0 ((List.range k).map (rowLine text m)) (Mat.new zero m.nrows m.ncols) (Mat.WF_new _ _ _) rfl (by simp [Mat.new]; omega) hentry
  obtain ⟨w, n, kk, -, g, out⟩ := readRows_spec _ _ _ _ _ _ _ (Mat.WF_new _ _ _) rfl hm'
  refine ⟨unlines (H ++ (List.range k).map (rowLine text m)), m', ⟨_, hsplit.symm⟩, ?_, ?_, w, n, kk, ?_, ?_⟩
  · intro h
    rw [hsplit] at h
    have := congrArg List.length h
    have hpos : 0 < (unlines (((List.range m.nrows).map (rowLine text m)).drop k)).length := by
      have hne : ((List.range m.nrows).map (rowLine text m)).drop k ≠ [] := by
        intro h0
        have := congrArg List.length h0
        simp at this
        omega
      obtain ⟨x, xs, e⟩ := List.exists_cons_of_ne_nil hne
      rw [e]
      simp [unlines, ln]
    simp only [List.length_append] at this
    omega
  · unfold readGeneric
    have hmh : mHeader comps (H ++ (List.range k).map (rowLine text m)) none none 0 = some (some m.nrows, some m.ncols, 6) := mHeader_ok comps _ _ _ hr hc hcomps
    simp only [hlines, hmh, hdrop]
    exact hm'
  · intro r hrk c hcn
    obtain ⟨-, g2⟩ := g r (by simpa using hrk)
    obtain ⟨v, hv, hg⟩ := g2 c hcn
    simp only [List.getElem_map, List.getElem_range] at hv
    obtain ⟨vs, h1, h2, h3⟩ := rowLine_map text m hm r (by omega)
    rw [h3, (hwords vs h1).2 c (by omega)] at hv
    rw [Nat.zero_add] at hg
    rw [hg, h2 c (by omega)]
    simp only [Res.ok.injEq, Option.some.injEq] at hv
    simp [hv]
  · intro r hkr hr c hc
    rw [out r c (by simp; omega), Mat.get?_new _ _ _ _ _ hr hc]

section
variable [Field K]

/-- **C134, matrices (partial).** Let the writing of a matrix file stop anywhere before its end. Reading what is left never panics; up to the number of columns it is an error; and if a matrix is returned after all, either the file stopped in its header and there are zeros only
(with as many columns as the digits written so far say), or it stopped in some row: the rows above are right, those below are zero, and that row is zero or right but for its last entry, which is read from the characters of it that were written.
Missing: an error in every case, see the violations below. -/
theorem C134_matrix_partial (fmt : NumFmt K) (hf : fmt.Faithful) (m : Mat K) (hm : m.WF) (hr : m.nrows < 2 ^ 64) (hc : m.ncols < 2 ^ 64) (part : List UInt8) (hp : part <+: saveMatrix fmt m) (hne : part ≠ saveMatrix fmt m) :
    (∃ o, readMatrix fmt part = .ok o ∧ ∀ m', o = some m' → (HeaderOnly 0 m m' ∨ ∃ k, StopsInRow 0 id (fun v v' => ReadFromPart fmt (fmt.display v) v') m m' k)) ∧
    (part.length ≤ (bytes "#?SIMPLE\nNROWS=" ++ decimal m.nrows ++ bytes "\nNCOLS=").length → readMatrix fmt part = .ok none) := by
  unfold saveMatrix at hp hne
  rw [← decimal_one] at hp hne
  have key := cut_generic (0 : K) 1 (by norm_num) one_pos fmt.display (fun v => [(fmt.display v, 9)]) (parseAt fmt) id (fun v v' => ReadFromPart fmt (fmt.display v) v') m hm hr hc
    (fun v => ⟨by simp [separated], rfl, by simp [(hf v).1]⟩)
    (fun ws hl c hcn => by
      have e0 : ws[c]? = some ws[c] := List.getElem?_eq_getElem (by omega)
      exact ⟨fmt.parse ws[c], by simp only [parseAt, e0]⟩)
    (fun vs ws c hcn h => by
      have h := h 0 one_pos
      have e : (vs.flatMap fun v => [(fmt.display v, (9 : UInt8))]) = vs.map fun v => (fmt.display v, (9 : UInt8)) := by
        rw [← List.flatMap_pure_eq_map]; rfl
      rw [e] at h
      simp only [one_mul, Nat.add_zero, List.getElem?_map, List.getElem?_eq_getElem hcn, Option.map_some] at h
      simp only [parseAt, h, (hf _).2, id])
    (fun vs v v' ws _ h he => by
      obtain ⟨p, q, h1, h2, h3, h4⟩ := h
      simp only [Nat.sub_self, List.getElem?_cons_zero, Option.map_some, Option.some.injEq] at h3
      subst h3
      simp only [one_mul, Nat.sub_self, Nat.add_zero] at h4
      simp only [parseAt, h4, Res.ok.injEq] at he
      exact ⟨p, h1, h2, he⟩) part hp hne
  unfold readMatrix
  by_cases h0 : part.isEmpty = true
  · simp only [h0, if_true]
    exact ⟨⟨none, rfl, by simp⟩, fun _ => trivial⟩
  · simp only [h0, Bool.false_eq_true, if_false]
    exact key

/-- **C134, colour matrices (partial).** The same for colour matrices, whose entries are rounded as in C32: only the last channel of the last entry written can be wrong. -/
theorem C134_colour_matrix_partial (fmt : NumFmt K) (round5 : K → K) (hf : fmt.FixedFaithful round5) (m : Mat (Spectrum K)) (hm : m.WF) (hr : m.nrows < 2 ^ 64) (hc : m.ncols < 2 ^ 64) (part : List UInt8)
    (hp : part <+: saveColourMatrix fmt m) (hne : part ≠ saveColourMatrix fmt m) :
    (∃ o, readColourMatrix fmt part = .ok o ∧ ∀ m', o = some m' → (HeaderOnly Spectrum.black m m' ∨ ∃ k, StopsInRow Spectrum.black (roundSpectrum round5) (fun v v' => v'.c0 = round5 v.c0 ∧ v'.c1 = round5 v.c1 ∧ ReadFromPart fmt (fmt.fixed5 v.c2) v'.c2) m m' k)) ∧
    (part.length ≤ (bytes "#?SIMPLE\nNROWS=" ++ decimal m.nrows ++ bytes "\nNCOLS=").length → readColourMatrix fmt part = .ok none) := by
  unfold saveColourMatrix at hp hne
  rw [← decimal_three] at hp hne
  unfold readColourMatrix
  refine cut_generic Spectrum.black 3 (by norm_num) (by norm_num) (spectrumText fmt) (fun v => [(fmt.fixed5 v.c0, 32), (fmt.fixed5 v.c1, 32), (fmt.fixed5 v.c2, 9)]) (parseColour fmt) (roundSpectrum round5) _ m hm hr hc
    (fun v => ⟨by simp [separated, spectrumText], rfl, by simp [(hf _).1]⟩) ?_ ?_ ?_ part hp hne
  · intro ws hl c hcn
    have e : ∀ i < 3, ∃ w, ws[3 * c + i]? = some w := fun i hi => ⟨_, List.getElem?_eq_getElem (by omega)⟩
    obtain ⟨a, ha⟩ := e 0 (by omega)
    obtain ⟨b, hb⟩ := e 1 (by omega)
    obtain ⟨d, hd⟩ := e 2 (by omega)
    rw [Nat.add_zero] at ha
    unfold parseColour parseAt
    simp only [ha, hb, hd, Res.bind_ok]
    cases fmt.parse a <;> simp only
    · exact ⟨_, rfl⟩
    · cases fmt.parse b <;> simp only
      · exact ⟨_, rfl⟩
      · cases fmt.parse d <;> exact ⟨_, rfl⟩
  · intro vs ws c hcn h
    have hh := triple_getElem (fun v : Spectrum K => (fmt.fixed5 v.c0, (32 : UInt8))) (fun v => (fmt.fixed5 v.c1, (32 : UInt8))) (fun v => (fmt.fixed5 v.c2, (9 : UInt8))) vs c hcn
    have h0 := h 0 (by omega)
    have h1 := h 1 (by omega)
    have h2 := h 2 (by omega)
    rw [Nat.add_zero, hh.1] at h0
    rw [hh.2.1] at h1
    rw [hh.2.2] at h2
    simp only [Option.map_some] at h0 h1 h2
    simp [parseColour, parseAt, h0, h1, h2, (hf _).2, roundSpectrum]
  · intro vs v v' ws h hp he
    obtain ⟨p, q, h1, h2, h3, h4⟩ := hp
    have k0 := h 0 (by omega)
    have k1 := h 1 (by omega)
    simp only [Nat.reduceSub, List.getElem?_cons_succ, List.getElem?_cons_zero, Option.map_some, Option.some.injEq, Nat.add_zero] at h3 h4 k0 k1
    subst h3
    simp only [parseColour, parseAt, k0, k1, h4, Res.bind_ok, (hf _).2] at he
    cases hq : fmt.parse p with
    | none => simp [hq] at he
    | some x =>
      simp only [hq, Res.ok.injEq, Option.some.injEq] at he
      subst he
      exact ⟨rfl, rfl, p, h1, h2, hq⟩

/-- **C134 (violation).** Whatever the matrix: if writing stops after any complete row, the file left is read without complaint as a matrix of the same shape in which the missing rows are zero. -/
theorem C134_violation_rows (fmt : NumFmt K) (hf : fmt.Faithful) (m : Mat K) (hm : m.WF) (hr : m.nrows < 2 ^ 64) (hc : m.ncols < 2 ^ 64) (k : Nat) (hk : k < m.nrows) :
    ∃ part m', part <+: saveMatrix fmt m ∧ part ≠ saveMatrix fmt m ∧ readMatrix fmt part = .ok (some m') ∧ m'.nrows = m.nrows ∧ m'.ncols = m.ncols ∧
      (∀ r < k, ∀ c < m.ncols, m'.get? r c = m.get? r c) ∧ ∀ r, k ≤ r → r < m.nrows → ∀ c < m.ncols, m'.get? r c = some 0 := by
  obtain ⟨part, m', h1, h2, h3, h4, h5, h6, h7, h8⟩ := rows_generic (0 : K) 1 (by norm_num) fmt.display (parseAt fmt) id m hm hr hc (fun v => (hf v).1.ne13) (by
      intro vs hvs
      rw [words_flatMap _ _ (fun x _ => (hf x).1.1) (fun x _ => (hf x).1.2) 9 rfl]
      refine ⟨by simp [hvs], ?_⟩
      intro c hc
      simp [parseAt, hc, (hf _).2]) k hk
  rw [decimal_one] at h1 h2
  refine ⟨part, m', h1, h2, ?_, h5, h6, fun r hr c hc => by simpa using h7 r hr c hc, h8⟩
  unfold readMatrix
  have hne : part.isEmpty = false := by
    cases part with
    | nil =>
      have : readGeneric (0 : K) 1 (parseAt fmt) [] = .ok none := by
        have e : linesOf [] = [] := by decide +kernel
        unfold readGeneric
        simp only [e, mHeader]
      rw [this] at h3
      cases h3
    | cons x xs => rfl
  rw [hne]
  exact h3

end

/-- **C134 (violation).** A value can be read wrong: 125/2 written, 12 read. -/
theorem C134_violation_value : ∃ part, part <+: saveMatrix ratFmt ⟨1, 1, [125 / 2]⟩ ∧ readMatrix ratFmt part = .ok (some ⟨1, 1, [12]⟩) := by
  refine ⟨(saveMatrix ratFmt ⟨1, 1, [125 / 2]⟩).take 49, List.take_prefix _ _, ?_⟩
  decide +kernel

/-- **C134 (violation).** A number of columns can be read wrong: one row of twelve numbers written, one row of one zero read. -/
theorem C134_violation_columns : ∃ part, part <+: saveMatrix ratFmt ⟨1, 12, [1, 2, 3, 4, 5, 6, 7, 8, 9, 10, 11, 12]⟩ ∧ readMatrix ratFmt part = .ok (some ⟨1, 1, [0]⟩) := by
  refine ⟨(saveMatrix ratFmt ⟨1, 12, [1, 2, 3, 4, 5, 6, 7, 8, 9, 10, 11, 12]⟩).take 24, List.take_prefix _ _, ?_⟩
  decide +kernel

end Rendering
