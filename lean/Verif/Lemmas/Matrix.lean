import Verif.Model.ColourMatrix
import Verif.Lemmas.Hdr
import Mathlib.Tactic.Ring

namespace Rendering
namespace Mat
variable {α : Type}

theorem pos_lt {w h x y : Nat} (hx : x < w) (hy : y < h) : y * w + x < h * w := by
  calc y * w + x < y * w + w := by omega
    _ = (y + 1) * w := by ring
    _ ≤ h * w := Nat.mul_le_mul_right _ hy

theorem pos_inj {w x y x' y' : Nat} (hx : x < w) (hx' : x' < w) (h : y * w + x = y' * w + x') : x = x' ∧ y = y' := by
  have e1 : (y * w + x) % w = x := by rw [Nat.mul_comm, Nat.mul_add_mod, Nat.mod_eq_of_lt hx]
  have e2 : (y' * w + x') % w = x' := by rw [Nat.mul_comm, Nat.mul_add_mod, Nat.mod_eq_of_lt hx']
  have ex : x = x' := by rw [← e1, ← e2, h]
  subst ex
  have : y * w = y' * w := by omega
  exact ⟨rfl, Nat.eq_of_mul_eq_mul_right (by omega) this⟩

theorem WF_new (v : α) (n m : Nat) : (Mat.new v n m).WF := by simp [WF, new]

theorem get?_new (v : α) (n m r c : Nat) (hr : r < n) (hc : c < m) : (Mat.new v n m).get? r c = some v := by
  have := pos_lt hc hr
  simp [get?, new, hr, hc, this]

theorem get?_isSome {m : Mat α} (h : m.WF) {r c : Nat} (hr : r < m.nrows) (hc : c < m.ncols) : ∃ v, m.get? r c = some v := by
  have hlt : r * m.ncols + c < m.data.length := by rw [h]; exact pos_lt hc hr
  refine ⟨m.data[r * m.ncols + c], ?_⟩
  simp [get?, hr, hc, List.getElem?_eq_getElem hlt]

theorem get?_some_iff {m : Mat α} {r c : Nat} {v : α} (h : m.get? r c = some v) : r < m.nrows ∧ c < m.ncols := by
  unfold get? at h
  split at h
  · assumption
  · simp at h

theorem set_ok_iff (m : Mat α) (r c : Nat) (v : α) : (∃ m', m.set r c v = .ok m') ↔ r < m.nrows ∧ c < m.ncols := by
  unfold set
  split
  · rename_i h; simp only [h, and_self, iff_true]; exact ⟨_, rfl⟩
  · rename_i h; simp [h]

theorem set_spec {m m' : Mat α} (hm : m.WF) {r c : Nat} {v : α} (h : m.set r c v = .ok m') :
    m'.WF ∧ m'.nrows = m.nrows ∧ m'.ncols = m.ncols ∧ r < m.nrows ∧ c < m.ncols ∧ m'.get? r c = some v ∧
      ∀ r' c', (r', c') ≠ (r, c) → m'.get? r' c' = m.get? r' c' := by
  have hin := (set_ok_iff m r c v).1 ⟨m', h⟩
  unfold set at h
  rw [if_pos hin, Res.ok.injEq] at h
  subst h
  have hlt : r * m.ncols + c < m.data.length := by rw [hm]; exact pos_lt hin.2 hin.1
  refine ⟨by simpa [WF] using hm, rfl, rfl, hin.1, hin.2, ?_, ?_⟩
  · simp [get?, hin.1, hin.2, hlt]
  · intro r' c' hne
    simp only [get?]
    split
    · rename_i hin'
      have : r * m.ncols + c ≠ r' * m.ncols + c' := by
        intro h
        obtain ⟨rfl, rfl⟩ := pos_inj hin.2 hin'.2 h
        exact hne rfl
      rw [List.getElem?_set_ne this]
    · rfl

/-- A matrix is determined by its shape and its entries. -/
theorem ext_get? {m m' : Mat α} (hm : m.WF) (hm' : m'.WF) (hr : m.nrows = m'.nrows) (hc : m.ncols = m'.ncols)
    (h : ∀ r c, r < m.nrows → c < m.ncols → m.get? r c = m'.get? r c) : m = m' := by
  obtain ⟨n, k, d⟩ := m
  obtain ⟨n', k', d'⟩ := m'
  simp only at hr hc
  subst hr hc
  congr 1
  apply List.ext_getElem?
  intro i
  unfold WF at hm hm'
  simp only at hm hm' h
  rcases lt_or_ge i (n * k) with hi | hi
  · have hk : 0 < k := by
      rcases Nat.eq_zero_or_pos k with rfl | hk
      · simp at hi
      · exact hk
    have h1 : i / k < n := Nat.div_lt_of_lt_mul (by rw [Nat.mul_comm]; exact hi)
    have h2 : i % k < k := Nat.mod_lt _ hk
    have := h (i / k) (i % k) h1 h2
    simp only [get?, h1, h2, and_self, if_true] at this
    rwa [Nat.mul_comm, Nat.div_add_mod] at this
  · rw [List.getElem?_eq_none (by omega), List.getElem?_eq_none (by omega)]

end Mat

/-! ### Lines and words -/

/-- Text made of complete lines. -/
def unlines (ls : List (List UInt8)) : List UInt8 := ls.flatMap ln

theorem splitOnByte_unlines (ls : List (List UInt8)) (h : ∀ l ∈ ls, ∀ b ∈ l, (b == 10) = false) :
    splitOnByte (· == 10) (unlines ls) = ls ++ [[]] := by
  induction ls with
  | nil => rfl
  | cons l ls ih =>
    have : unlines (l :: ls) = l ++ 10 :: unlines ls := by simp [unlines, ln]
    rw [this, splitOnByte_append _ l (h l (List.mem_cons_self ..)) 10 rfl, ih (fun l hl => h l (List.mem_cons_of_mem _ hl))]
    rfl

theorem linesOf_unlines (ls : List (List UInt8)) (h : ∀ l ∈ ls, ∀ b ∈ l, (b == 10) = false) (hcr : ∀ l ∈ ls, l.getLast? ≠ some 13) :
    linesOf (unlines ls) = ls := by
  unfold linesOf
  rw [splitOnByte_unlines ls h]
  simp only [List.dropLast_concat, List.getLast?_append, List.getLast?_singleton, Option.some_or, List.append_nil]
  conv_rhs => rw [← List.map_id ls]
  apply List.map_congr_left
  intro l hl
  simp [stripCr, hcr l hl]

theorem splitOnByte_unlines_append (ls : List (List UInt8)) (h : ∀ l ∈ ls, ∀ b ∈ l, (b == 10) = false) (rest : List UInt8) :
    splitOnByte (· == 10) (unlines ls ++ rest) = ls ++ splitOnByte (· == 10) rest := by
  induction ls with
  | nil => rfl
  | cons l ls ih =>
    have : unlines (l :: ls) ++ rest = l ++ 10 :: (unlines ls ++ rest) := by simp [unlines, ln]
    rw [this, splitOnByte_append _ l (h l (List.mem_cons_self ..)) 10 rfl, ih (fun l hl => h l (List.mem_cons_of_mem _ hl))]
    rfl

theorem splitOnByte_ne_nil (p : UInt8 → Bool) (l : List UInt8) : splitOnByte p l ≠ [] := by
  cases l with
  | nil => simp [splitOnByte]
  | cons b l =>
    unfold splitOnByte
    split
    · simp
    · split <;> simp

theorem linesOf_unlines_append (ls : List (List UInt8)) (rest : List UInt8) (h : ∀ l ∈ ls, ∀ b ∈ l, (b == 10) = false)
    (hcr : ∀ l ∈ ls, l.getLast? ≠ some 13) : ∃ more, linesOf (unlines ls ++ rest) = ls ++ more := by
  have hid : ls.map stripCr = ls := by
    conv_rhs => rw [← List.map_id ls]
    apply List.map_congr_left
    intro l hl
    simp [stripCr, hcr l hl]
  unfold linesOf
  rw [splitOnByte_unlines_append ls h]
  have hne := splitOnByte_ne_nil (· == 10) rest
  simp only [List.dropLast_append_of_ne_nil hne, List.map_append, hid, List.append_assoc]
  exact ⟨_, rfl⟩

theorem words_nil : words [] = [] := rfl

theorem words_cons (tok : List UInt8) (hne : tok ≠ []) (h : ∀ b ∈ tok, isAsciiWhitespace b = false) (s : UInt8) (hs : isAsciiWhitespace s = true)
    (rest : List UInt8) : words (tok ++ s :: rest) = tok :: words rest := by
  unfold words
  rw [splitOnByte_append _ tok h s hs, List.filter_cons, if_pos (by simpa using hne)]

theorem words_flatMap {β : Type} (l : List β) (tok : β → List UInt8) (hne : ∀ x ∈ l, tok x ≠ [])
    (h : ∀ x ∈ l, ∀ b ∈ tok x, isAsciiWhitespace b = false) (s : UInt8) (hs : isAsciiWhitespace s = true) :
    words (l.flatMap (fun x => tok x ++ [s])) = l.map tok := by
  induction l with
  | nil => rfl
  | cons x l ih =>
    simp only [List.flatMap_cons, List.map_cons, List.append_assoc, List.singleton_append]
    rw [words_cons _ (hne x (List.mem_cons_self ..)) (h x (List.mem_cons_self ..)) s hs,
      ih (fun x hx => hne x (List.mem_cons_of_mem _ hx)) (fun x hx => h x (List.mem_cons_of_mem _ hx))]

/-! ### Reading rows -/

section rows
variable {α : Type}

theorem readRow_spec (entry : Nat → Res (Option α)) (nrow todo ncol : Nat) (m m' : Mat α) (hm : m.WF)
    (h : readRow entry nrow todo ncol m = .ok (some m')) :
    m'.WF ∧ m'.nrows = m.nrows ∧ m'.ncols = m.ncols ∧ (0 < todo → nrow < m.nrows) ∧
    (∀ c, ncol ≤ c → c < ncol + todo → ∃ v, entry c = .ok (some v) ∧ m'.get? nrow c = some v) ∧
    (∀ r c, ¬ (r = nrow ∧ ncol ≤ c ∧ c < ncol + todo) → m'.get? r c = m.get? r c) := by
  induction todo generalizing ncol m with
  | zero =>
    simp only [readRow, Res.ok.injEq, Option.some.injEq] at h
    subst h
    exact ⟨hm, rfl, rfl, by simp, fun c h1 h2 => by omega, fun _ _ _ => rfl⟩
  | succ todo ih =>
    simp only [readRow] at h
    cases he : entry ncol with
    | panic => simp [he] at h
    | diverge => simp [he] at h
    | ok o =>
      cases o with
      | none => simp [he] at h
      | some v =>
        rw [he, Res.bind_ok] at h
        simp only at h
        cases hs : m.set nrow ncol v with
        | panic => simp [hs] at h
        | diverge => simp [hs] at h
        | ok m1 =>
          rw [hs, Res.bind_ok] at h
          obtain ⟨w1, n1, k1, b1, -, g1, o1⟩ := Mat.set_spec hm hs
          obtain ⟨w2, n2, k2, -, g2, o2⟩ := ih (ncol + 1) m1 w1 h
          refine ⟨w2, n2.trans n1, k2.trans k1, fun _ => b1, ?_, ?_⟩
          · intro c h1 h2
            rcases Nat.eq_or_lt_of_le h1 with rfl | h1
            · exact ⟨v, he, by rw [o2 _ _ (by omega), g1]⟩
            · exact g2 c h1 (by omega)
          · intro r c hn
            rw [o2 r c (by intro hh; exact hn ⟨hh.1, by omega, by omega⟩), o1 r c (by
              intro hh; simp only [Prod.mk.injEq] at hh; exact hn ⟨hh.1, by omega, by omega⟩)]

theorem readRow_ok (entry : Nat → Res (Option α)) (nrow todo ncol : Nat) (m : Mat α) (hm : m.WF) (hr : nrow < m.nrows) (hc : ncol + todo ≤ m.ncols)
    (he : ∀ c, ncol ≤ c → c < ncol + todo → ∃ v, entry c = .ok (some v)) : ∃ m', readRow entry nrow todo ncol m = .ok (some m') := by
  induction todo generalizing ncol m with
  | zero => exact ⟨m, rfl⟩
  | succ todo ih =>
    obtain ⟨v, hv⟩ := he ncol le_rfl (by omega)
    obtain ⟨m1, h1⟩ := (Mat.set_ok_iff m nrow ncol v).2 ⟨hr, by omega⟩
    obtain ⟨w1, n1, k1, -⟩ := Mat.set_spec hm h1
    obtain ⟨m', h'⟩ := ih (ncol + 1) m1 w1 (by rw [n1]; exact hr) (by rw [k1]; omega) (fun c a b => he c (by omega) (by omega))
    exact ⟨m', by simp [readRow, hv, h1, h']⟩

theorem readRows_spec (comps ncols : Nat) (entry : List (List UInt8) → Nat → Res (Option α)) (nrow : Nat) (lines : List (List UInt8)) (m m' : Mat α)
    (hm : m.WF) (hk : m.ncols = ncols) (h : readRows comps ncols entry nrow lines m = .ok (some m')) :
    m'.WF ∧ m'.nrows = m.nrows ∧ m'.ncols = m.ncols ∧ (0 < ncols → 0 < lines.length → nrow + lines.length ≤ m.nrows) ∧
    (∀ i (hi : i < lines.length), (words lines[i]).length = comps * ncols ∧
      ∀ c < ncols, ∃ v, entry (words lines[i]) c = .ok (some v) ∧ m'.get? (nrow + i) c = some v) ∧
    (∀ r c, ¬ (nrow ≤ r ∧ r < nrow + lines.length) → m'.get? r c = m.get? r c) := by
  induction lines generalizing nrow m with
  | nil =>
    simp only [readRows, Res.ok.injEq, Option.some.injEq] at h
    subst h
    exact ⟨hm, rfl, rfl, by simp, by simp, fun _ _ _ => rfl⟩
  | cons line lines ih =>
    simp only [readRows] at h
    split at h
    · simp at h
    rename_i hlen
    push Not at hlen
    cases hrow : readRow (entry (words line)) nrow ncols 0 m with
    | panic => simp [hrow] at h
    | diverge => simp [hrow] at h
    | ok o =>
      cases o with
      | none => simp [hrow] at h
      | some m1 =>
        rw [hrow, Res.bind_ok] at h
        simp only at h
        obtain ⟨w1, n1, k1, b1, g1, o1⟩ := readRow_spec _ _ _ _ _ _ hm hrow
        obtain ⟨w2, n2, k2, b2, g2, o2⟩ := ih (nrow + 1) m1 w1 (by rw [k1]; exact hk) h
        refine ⟨w2, n2.trans n1, k2.trans k1, ?_, ?_, ?_⟩
        · intro h0 _
          have := b1 h0
          rcases Nat.eq_zero_or_pos lines.length with hz | hp
          · simp [hz]; omega
          · have := b2 h0 hp
            simp only [List.length_cons]; omega
        · intro i hi
          cases i with
          | zero =>
            refine ⟨by simpa using hlen, ?_⟩
            intro c hc
            obtain ⟨v, hv, hg⟩ := g1 c (Nat.zero_le _) (by omega)
            refine ⟨v, by simpa using hv, ?_⟩
            rw [Nat.add_zero, o2 nrow c (by omega), hg]
          | succ i =>
            obtain ⟨a, b⟩ := g2 i (by simpa using hi)
            refine ⟨by simpa using a, ?_⟩
            intro c hc
            obtain ⟨v, hv, hg⟩ := b c hc
            exact ⟨v, by simpa using hv, by rw [show nrow + (i + 1) = nrow + 1 + i by omega]; exact hg⟩
        · intro r c hn
          simp only [List.length_cons] at hn
          rw [o2 r c (by omega), o1 r c (by omega)]

theorem readRows_ok (comps ncols : Nat) (entry : List (List UInt8) → Nat → Res (Option α)) (nrow : Nat) (lines : List (List UInt8)) (m : Mat α)
    (hm : m.WF) (hk : m.ncols = ncols) (hr : nrow + lines.length ≤ m.nrows)
    (he : ∀ l ∈ lines, (words l).length = comps * ncols ∧ ∀ c < ncols, ∃ v, entry (words l) c = .ok (some v)) :
    ∃ m', readRows comps ncols entry nrow lines m = .ok (some m') := by
  induction lines generalizing nrow m with
  | nil => exact ⟨m, rfl⟩
  | cons line lines ih =>
    simp only [List.length_cons] at hr
    obtain ⟨h1, h2⟩ := he line (List.mem_cons_self ..)
    obtain ⟨m1, hm1⟩ := readRow_ok (entry (words line)) nrow ncols 0 m hm (by omega) (by omega) (fun c _ hc => h2 c (by omega))
    obtain ⟨w1, n1, k1, -⟩ := readRow_spec _ _ _ _ _ _ hm hm1
    obtain ⟨m', hm'⟩ := ih (nrow + 1) m1 w1 (by rw [k1]; exact hk) (by rw [n1]; omega) (fun l hl => he l (List.mem_cons_of_mem _ hl))
    refine ⟨m', ?_⟩
    simp only [readRows]
    rw [if_neg (by simpa using h1), hm1, Res.bind_ok]
    exact hm'

end rows

/-! ### The header written by the two writers -/

theorem mem_bytes_ascii {s : String} (h : (bytes s).all (fun b => b.toNat < 128 && b != 10 && b != 13) = true) :
    ∀ b ∈ bytes s, b.toNat < 128 ∧ (b == 10) = false ∧ b ≠ 13 := by
  intro b hb
  have := List.all_eq_true.1 h b hb
  simp only [Bool.and_eq_true, decide_eq_true_eq, bne_iff_ne] at this
  exact ⟨this.1.1, by simpa using this.1.2, this.2⟩

theorem decimal_clean (n : Nat) : ∀ b ∈ decimal n, (b == 10) = false ∧ b ≠ 13 ∧ (b == 61) = false := by
  intro b hb
  have := decimal_digits n b hb
  refine ⟨?_, ?_, ?_⟩
  · rw [beq_eq_false_iff_ne]; rintro rfl; simp at this
  · rintro rfl; simp at this
  · rw [beq_eq_false_iff_ne]; rintro rfl; simp at this

theorem headerNumber_key (key : List UInt8) (hk : ∀ b ∈ key, (b == 61) = false) (n : Nat) (hn : n < 2 ^ 64) :
    headerNumber (key ++ 61 :: decimal n) = some n := by
  unfold headerNumber
  rw [splitOnByte_append _ key hk 61 rfl, splitOnByte_none _ _ (fun b hb => (decimal_clean n b hb).2.2)]
  exact parse_decimal n hn

/-- The header lines of a file. -/
def headerLines (nrows ncols : Nat) (ncomp : List UInt8) : List (List UInt8) :=
  [bytes "#?SIMPLE", bytes "NROWS" ++ 61 :: decimal nrows, bytes "NCOLS" ++ 61 :: decimal ncols, bytes "NCOMP" ++ 61 :: ncomp,
   bytes "FORMAT=ascii", []]

/-- The text of row `r`. -/
def rowLine {α : Type} (text : α → List UInt8) (cm : Mat α) (r : Nat) : List UInt8 :=
  (List.range cm.ncols).flatMap (fun c =>
    match cm.get? r c with
    | some v => text v ++ [9]
    | none => [])

theorem saveText_unlines {α : Type} (text : α → List UInt8) (ncomp : List UInt8) (cm : Mat α) :
    saveText text ncomp cm = unlines (headerLines cm.nrows cm.ncols ncomp ++ (List.range cm.nrows).map (rowLine text cm)) := by
  have h1 : bytes "NROWS=" = bytes "NROWS" ++ [61] := by decide
  have h2 : bytes "NCOLS=" = bytes "NCOLS" ++ [61] := by decide
  have h3 : bytes "NCOMP=" = bytes "NCOMP" ++ [61] := by decide
  unfold saveText unlines headerLines
  rw [h1, h2, h3]
  simp only [List.flatMap_append, List.flatMap_cons, List.flatMap_nil, List.append_nil, List.append_assoc, List.singleton_append,
    List.flatMap_map, rowLine]
  rfl

theorem first_not_ws {s : String} {rest : List UInt8} (h : ∃ b l, bytes s = b :: l ∧ isAsciiWhitespace b = false) :
    ((bytes s ++ rest).isEmpty || isAsciiWhitespace (bytes s ++ rest).head!) = false := by
  obtain ⟨b, l, hb, hw⟩ := h
  rw [hb]
  simpa using hw

theorem startsWith_self (p rest : List UInt8) : startsWith p (p ++ rest) = true := by simp [startsWith]

theorem startsWith_bytes_ne {p q : List UInt8} (rest : List UInt8) (hl : p.length = q.length) (h : p ≠ q) : startsWith p (q ++ rest) = false := by
  simp [startsWith, hl, h]

theorem mHeader_ok (comps nrows ncols : Nat) (rest : List (List UInt8)) (hr : nrows < 2 ^ 64) (hc : ncols < 2 ^ 64) (hcomp : comps < 2 ^ 64) :
    mHeader comps (headerLines nrows ncols (decimal comps) ++ rest) none none 0 = some (some nrows, some ncols, 6) := by
  have d1 : mHeaderLine comps (bytes "NROWS" ++ 61 :: decimal nrows) = some (.nrows nrows) := by
    unfold mHeaderLine
    rw [if_pos (startsWith_self _ _), headerNumber_key _ (by decide) _ hr]; rfl
  have d2 : mHeaderLine comps (bytes "NCOLS" ++ 61 :: decimal ncols) = some (.ncols ncols) := by
    unfold mHeaderLine
    rw [if_neg (by rw [startsWith_bytes_ne _ (by decide) (by decide)]; simp), if_pos (startsWith_self _ _), headerNumber_key _ (by decide) _ hc]; rfl
  have d3 : mHeaderLine comps (bytes "NCOMP" ++ 61 :: decimal comps) = some .skip := by
    unfold mHeaderLine
    rw [if_neg (by rw [startsWith_bytes_ne _ (by decide) (by decide)]; simp), if_neg (by rw [startsWith_bytes_ne _ (by decide) (by decide)]; simp),
      if_pos (startsWith_self _ _), headerNumber_key _ (by decide) _ hcomp]
    simp
  have e0 : mHeaderLine comps (bytes "#?SIMPLE") = some .skip := by
    unfold mHeaderLine
    rw [if_neg (by decide), if_neg (by decide), if_neg (by decide)]
  have e4 : mHeaderLine comps (bytes "FORMAT=ascii") = some .skip := by
    unfold mHeaderLine
    rw [if_neg (by decide), if_neg (by decide), if_neg (by decide)]
  unfold headerLines
  simp only [List.cons_append, List.nil_append]
  rw [mHeader, if_neg (by decide), e0]
  simp only
  rw [mHeader, first_not_ws ⟨78, _, rfl, by decide⟩, d1]
  simp only [Bool.false_eq_true, if_false]
  rw [mHeader, first_not_ws ⟨78, _, rfl, by decide⟩, d2]
  simp only [Bool.false_eq_true, if_false]
  rw [mHeader, first_not_ws ⟨78, _, rfl, by decide⟩, d3]
  simp only [Bool.false_eq_true, if_false]
  rw [mHeader, if_neg (by decide), e4]
  simp only
  rw [mHeader]
  rfl

/-- A file announcing another number of components is an error. -/
theorem mHeader_wrong (comps comps' nrows ncols : Nat) (rest : List (List UInt8)) (hr : nrows < 2 ^ 64) (hc : ncols < 2 ^ 64) (hcomp : comps' < 2 ^ 64)
    (hne : comps' ≠ comps) :
    mHeader comps (headerLines nrows ncols (decimal comps') ++ rest) none none 0 = none := by
  have d1 : mHeaderLine comps (bytes "NROWS" ++ 61 :: decimal nrows) = some (.nrows nrows) := by
    unfold mHeaderLine
    rw [if_pos (startsWith_self _ _), headerNumber_key _ (by decide) _ hr]; rfl
  have d2 : mHeaderLine comps (bytes "NCOLS" ++ 61 :: decimal ncols) = some (.ncols ncols) := by
    unfold mHeaderLine
    rw [if_neg (by rw [startsWith_bytes_ne _ (by decide) (by decide)]; simp), if_pos (startsWith_self _ _), headerNumber_key _ (by decide) _ hc]; rfl
  have d3 : mHeaderLine comps (bytes "NCOMP" ++ 61 :: decimal comps') = none := by
    unfold mHeaderLine
    rw [if_neg (by rw [startsWith_bytes_ne _ (by decide) (by decide)]; simp), if_neg (by rw [startsWith_bytes_ne _ (by decide) (by decide)]; simp),
      if_pos (startsWith_self _ _), headerNumber_key _ (by decide) _ hcomp]
    simp [hne]
  have e0 : mHeaderLine comps (bytes "#?SIMPLE") = some .skip := by
    unfold mHeaderLine
    rw [if_neg (by decide), if_neg (by decide), if_neg (by decide)]
  unfold headerLines
  simp only [List.cons_append, List.nil_append]
  rw [mHeader, if_neg (by decide), e0]
  simp only
  rw [mHeader, first_not_ws ⟨78, _, rfl, by decide⟩, d1]
  simp only [Bool.false_eq_true, if_false]
  rw [mHeader, first_not_ws ⟨78, _, rfl, by decide⟩, d2]
  simp only [Bool.false_eq_true, if_false]
  rw [mHeader, first_not_ws ⟨78, _, rfl, by decide⟩, d3]
  simp

theorem headerLines_clean (nrows ncols comps : Nat) : ∀ l ∈ headerLines nrows ncols (decimal comps), ∀ b ∈ l, (b == 10) = false ∧ b ≠ 13 := by
  intro l hl b hb
  unfold headerLines at hl
  simp only [List.mem_cons, List.not_mem_nil, or_false] at hl
  have key : ∀ s n, (bytes s).all (fun b => b.toNat < 128 && b != 10 && b != 13) = true → b ∈ bytes s ++ 61 :: decimal n → (b == 10) = false ∧ b ≠ 13 := by
    intro s n hs hb
    simp only [List.mem_append, List.mem_cons] at hb
    rcases hb with hb | rfl | hb
    · exact (mem_bytes_ascii hs b hb).2
    · decide
    · exact ⟨(decimal_clean n b hb).1, (decimal_clean n b hb).2.1⟩
  rcases hl with rfl | rfl | rfl | rfl | rfl | rfl
  · exact (mem_bytes_ascii (s := "#?SIMPLE") (by decide) b hb).2
  · exact key "NROWS" nrows (by decide) hb
  · exact key "NCOLS" ncols (by decide) hb
  · exact key "NCOMP" comps (by decide) hb
  · exact (mem_bytes_ascii (s := "FORMAT=ascii") (by decide) b hb).2
  · simp at hb

end Rendering
