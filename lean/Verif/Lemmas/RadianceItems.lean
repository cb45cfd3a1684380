import Verif.Lemmas.RadianceTokens

/-! # From tokens to objects -/

set_option linter.unusedSectionVars false
namespace Rendering
variable {K : Type} {env : RadEnv K} {src : List UInt8} {names : List (List UInt8)} {r : RadReader} {ts : List (List UInt8)}

theorem tokensOf_length (l : List UInt8) : (tokensOf l).length ≤ l.length := by
  induction hn : l.length using Nat.strong_induction_on generalizing l with
  | _ n ih =>
    cases l with
    | nil => simp [tokensOf_nil]
    | cons b l =>
      by_cases hb : isAsciiWhitespace b
      · rw [tokensOf_ws hb]
        have := ih l.length (by rw [← hn]; simp) l rfl
        rw [← hn, List.length_cons]; omega
      · rw [tokensOf_token (by simp [hb])]
        have hlt : ((b :: l).dropWhile (fun b => !isAsciiWhitespace b)).length < n := by
          rw [← hn, List.dropWhile_cons_of_pos (by simp [hb])]
          have := List.Sublist.length_le (List.dropWhile_sublist (l := l) (fun b => !isAsciiWhitespace b))
          simp only [List.length_cons]; omega
        have := ih _ hlt _ rfl
        simp only [List.length_cons]; omega

theorem tToken_ok {t : List UInt8} {ts' : List (List UInt8)} (h : tToken ts = .ok (t, ts')) (ht : t ≠ []) : ts = t :: ts' ∧ validUtf8 t = true := by
  cases ts with
  | nil => simp [tToken] at h; exact absurd h.1 ht
  | cons u us =>
    unfold tToken at h
    simp only at h
    by_cases hv : validUtf8 u = true
    · rw [if_pos hv] at h
      cases h
      exact ⟨rfl, hv⟩
    · rw [if_neg hv] at h; cases h

theorem tToken_ok' {t : List UInt8} {ts' : List (List UInt8)} (h : tToken ts = .ok (t, ts')) (ht : ts' ≠ []) : ts = t :: ts' ∧ validUtf8 t = true := by
  cases ts with
  | nil => simp [tToken] at h; exact absurd h.2 ht
  | cons u us =>
    unfold tToken at h
    simp only at h
    by_cases hv : validUtf8 u = true
    · rw [if_pos hv] at h
      cases h
      exact ⟨rfl, hv⟩
    · rw [if_neg hv] at h; cases h

theorem tToken_cons {t : List UInt8} (hv : validUtf8 t = true) : tToken (t :: ts) = .ok (t, ts) := by simp [tToken, hv]

theorem tToken_ne_diverge : tToken ts ≠ .diverge := by
  cases ts with
  | nil => simp [tToken]
  | cons u us => unfold tToken; simp only; split <;> simp

theorem bytes_ne_nil {e : String} (h : e ≠ "") : bytes e ≠ [] := by
  unfold bytes
  intro h'
  rw [List.map_eq_nil_iff] at h'
  exact h (by rwa [String.toList_eq_nil_iff] at h')

theorem bind_ok_iff {α β : Type} {x : Res α} {f : α → Res β} {b : β} : x.bind f = .ok b ↔ ∃ a, x = .ok a ∧ f a = .ok b := by
  cases x <;> simp

theorem ofOption_ok_iff {α : Type} {x : Option α} {a : α} : Res.ofOption x = .ok a ↔ x = some a := by
  cases x <;> simp [Res.ofOption]

theorem tExpect_ok_iff {e : String} (he : e ≠ "") {ts' : List (List UInt8)} : tExpect e ts = .ok ts' ↔ ts = bytes e :: ts' ∧ validUtf8 (bytes e) = true := by
  unfold tExpect
  rw [bind_ok_iff]
  constructor
  · rintro ⟨⟨t, us⟩, h1, h2⟩
    simp only at h2
    by_cases ht : t = bytes e
    · rw [if_pos ht] at h2
      cases h2
      subst ht
      exact tToken_ok h1 (bytes_ne_nil he)
    · rw [if_neg ht] at h2; cases h2
  · rintro ⟨rfl, hv⟩
    exact ⟨_, tToken_cons hv, by simp⟩

theorem tFloat_ok_iff {x : K} {ts' : List (List UInt8)} :
    tFloat env ts = .ok (x, ts') ↔ ∃ t, ts = t :: ts' ∧ validUtf8 t = true ∧ env.parseFloat t = some x := by
  unfold tFloat
  rw [bind_ok_iff]
  constructor
  · rintro ⟨⟨t, us⟩, h1, h2⟩
    simp only at h2
    rw [bind_ok_iff] at h2
    obtain ⟨y, h2, h3⟩ := h2
    cases h3
    rw [ofOption_ok_iff] at h2
    have ht : t ≠ [] := by rintro rfl; rw [env.parseFloat_empty] at h2; cases h2
    obtain ⟨h4, h5⟩ := tToken_ok h1 ht
    exact ⟨t, h4, h5, h2⟩
  · rintro ⟨t, rfl, hv, hp⟩
    exact ⟨_, tToken_cons hv, by simp [hp]⟩

theorem tFloats_ok_iff {n : Nat} {xs : List K} {ts' : List (List UInt8)} :
    tFloats env n ts = .ok (xs, ts') ↔ ∃ args, ts = args ++ ts' ∧ args.length = n ∧ (∀ t ∈ args, validUtf8 t = true) ∧ args.map env.parseFloat = xs.map some := by
  induction n generalizing ts xs with
  | zero =>
    unfold tFloats
    constructor
    · intro h; cases h; exact ⟨[], by simp⟩
    · rintro ⟨args, rfl, h1, -, h3⟩
      have : args = [] := List.length_eq_zero_iff.mp h1
      subst this
      cases xs with
      | nil => rfl
      | cons x xs => simp at h3
  | succ n ih =>
    unfold tFloats
    rw [bind_ok_iff]
    constructor
    · rintro ⟨⟨x, us⟩, h1, h2⟩
      simp only at h2
      rw [bind_ok_iff] at h2
      obtain ⟨⟨ys, vs⟩, h2, h3⟩ := h2
      cases h3
      obtain ⟨t, rfl, h4, h5⟩ := tFloat_ok_iff.mp h1
      obtain ⟨args, rfl, h6, h7, h8⟩ := ih.mp h2
      refine ⟨t :: args, rfl, by simp [h6], ?_, by simp [h5, h8]⟩
      intro u hu
      rcases List.mem_cons.mp hu with rfl | hu
      · exact h4
      · exact h7 u hu
    · rintro ⟨args, rfl, h1, h2, h3⟩
      cases args with
      | nil => simp at h1
      | cons t args =>
        cases xs with
        | nil => simp at h3
        | cons x xs =>
          simp only [List.map_cons, List.cons.injEq] at h3
          refine ⟨(x, args ++ ts'), tFloat_ok_iff.mpr ⟨t, rfl, h2 t (by simp), h3.1⟩, ?_⟩
          simp only
          rw [bind_ok_iff]
          exact ⟨(xs, ts'), ih.mpr ⟨args, rfl, by simpa using h1, fun u hu => h2 u (by simp [hu]), h3.2⟩, rfl⟩

theorem pointsOf_length : ∀ (n : Nat) (l : List K), l.length = n → ∀ {vs}, pointsOf l = some vs → l.length = 3 * vs.length := by
  intro n
  induction n using Nat.strong_induction_on with
  | _ n ih =>
    intro l hl vs h
    match l, h with
    | [], h => simp [pointsOf] at h; subst h; rfl
    | [_], h => simp [pointsOf] at h
    | [_, _], h => simp [pointsOf] at h
    | x :: y :: z :: rest, h =>
      simp only [pointsOf, Option.map_eq_some_iff] at h
      obtain ⟨us, h1, rfl⟩ := h
      have := ih rest.length (by rw [← hl]; simp; omega) rest rfl h1
      simp [this]; ring

variable [Field K]

theorem arity_announces {type : String} {count : List UInt8} {n : Nat} (h : arity type count = some n) : AnnouncesArgs type count n := by
  unfold arity at h
  have h3 : parseUsize (bytes "3") = some 3 ∧ bytes "3" = decimal 3 := by decide +kernel
  have h4 : parseUsize (bytes "4") = some 4 ∧ bytes "4" = decimal 4 := by decide +kernel
  have h5 : parseUsize (bytes "5") = some 5 ∧ bytes "5" = decimal 5 := by decide +kernel
  split_ifs at h with h1
  · refine ⟨?_, fun hn => absurd h1 hn⟩
    rw [Option.bind_eq_some_iff] at h
    obtain ⟨m, h2, h3⟩ := h
    split_ifs at h3
    cases h3
    exact h2
  all_goals (cases h; subst_vars; first | exact ⟨h3.1, fun _ => h3.2⟩ | exact ⟨h4.1, fun _ => h4.2⟩ | exact ⟨h5.1, fun _ => h5.2⟩)

theorem arity_of_item {modifier name count : List UInt8} {type : String} {numbers : List K} {item : RadItem K}
    (h : AnnouncesArgs type count numbers.length) (hi : radItem env modifier type name numbers = some item) :
    arity type count = some numbers.length ∧ radTypes.find? (fun t => bytes t == bytes type) = some type := by
  have h3 : bytes "3" = decimal 3 := by decide +kernel
  have h4 : bytes "4" = decimal 4 := by decide +kernel
  have h5 : bytes "5" = decimal 5 := by decide +kernel
  obtain ⟨ha, hb⟩ := h
  unfold radItem at hi
  split at hi
  case h_10 =>
    rw [Option.bind_eq_some_iff] at hi
    obtain ⟨vs, h1, -⟩ := hi
    have := pointsOf_length _ _ rfl h1
    refine ⟨?_, by decide +kernel⟩
    simp only [arity, if_true, ha, Option.bind_some]
    rw [if_pos (by omega)]
  case h_11 => cases hi
  all_goals
    refine ⟨?_, by decide +kernel⟩
    have hc := hb (by decide)
    simp only [List.length_cons, List.length_nil, Nat.zero_add, Nat.reduceAdd] at hc ⊢
    subst hc
    simp only [arity, ← h3, ← h4, ← h5, String.reduceEq, if_false, if_true, true_or, or_true, or_self]
    try rfl

theorem find_type {type : String} {t : List UInt8} (h : radTypes.find? (fun t' => bytes t' == t) = some type) : bytes type = t ∧ type ≠ "" := by
  have h1 := List.find?_some h
  have h2 := List.mem_of_find?_eq_some h
  refine ⟨by simpa using h1, ?_⟩
  rintro rfl
  exact absurd h2 (by decide)

/-- What the reader does with the next object. -/
theorem tObject_ok_iff {s s' : Scene K} {ts' names' : List (List UInt8)} :
    tObject env names s ts = .ok (ts', names', s') ↔
      ∃ (modifier name count : List UInt8) (type : String) (args : List (List UInt8)) (numbers : List K) (item : RadItem K),
        ts = [modifier, bytes type, name, bytes "0", bytes "0", count] ++ args ++ ts' ∧ (∀ t ∈ [modifier, bytes type, name, bytes "0", bytes "0", count] ++ args, validUtf8 t = true) ∧
        AnnouncesArgs type count args.length ∧ args.map env.parseFloat = numbers.map some ∧ radItem env modifier type name numbers = some item ∧
        tApply env.scene names s item = .ok (names', s') := by
  constructor
  · intro h
    unfold tObject at h
    rw [bind_ok_iff] at h
    obtain ⟨⟨m, t1⟩, h1, h⟩ := h
    simp only at h
    rw [bind_ok_iff] at h
    obtain ⟨⟨ty, t2⟩, h2, h⟩ := h
    simp only at h
    rw [bind_ok_iff] at h
    obtain ⟨⟨n, t3⟩, h3, h⟩ := h
    simp only at h
    unfold tDispatch at h
    cases hf : radTypes.find? (fun t => bytes t == ty) with
    | none => rw [hf] at h; cases h
    | some type =>
      obtain ⟨hty, hne⟩ := find_type hf
      rw [hf] at h
      simp only at h
      rw [bind_ok_iff] at h
      obtain ⟨⟨item, t7⟩, hbody, h⟩ := h
      simp only at h
      rw [bind_ok_iff] at h
      obtain ⟨⟨nm, sc⟩, happ, h⟩ := h
      cases h
      unfold tBody at hbody
      rw [bind_ok_iff] at hbody
      obtain ⟨t4, h4, hbody⟩ := hbody
      rw [bind_ok_iff] at hbody
      obtain ⟨t5, h5, hbody⟩ := hbody
      rw [bind_ok_iff] at hbody
      obtain ⟨⟨c, t6⟩, h6, hbody⟩ := hbody
      simp only at hbody
      rw [bind_ok_iff] at hbody
      obtain ⟨k, h7, hbody⟩ := hbody
      rw [bind_ok_iff] at hbody
      obtain ⟨⟨xs, t8⟩, h8, hbody⟩ := hbody
      simp only at hbody
      rw [bind_ok_iff] at hbody
      obtain ⟨it, h9, hbody⟩ := hbody
      cases hbody
      rw [ofOption_ok_iff] at h7 h9
      obtain ⟨args, rfl, ha1, ha2, ha3⟩ := tFloats_ok_iff.mp h8
      have hann := arity_announces h7
      have hc : c ≠ [] := by
        rintro rfl
        have := hann.1
        have h0 : parseUsize [] = none := by decide
        rw [h0] at this; cases this
      obtain ⟨rfl, hv6⟩ := tToken_ok h6 hc
      obtain ⟨rfl, hv5⟩ := (tExpect_ok_iff (by decide)).mp h5
      obtain ⟨rfl, hv4⟩ := (tExpect_ok_iff (by decide)).mp h4
      obtain ⟨rfl, hv3⟩ := tToken_ok' h3 (by simp)
      obtain ⟨rfl, hv2⟩ := tToken_ok' h2 (by simp)
      obtain ⟨rfl, hv1⟩ := tToken_ok' h1 (by simp)
      refine ⟨m, n, c, type, args, xs, item, by simp [hty], ?_, ha1 ▸ hann, ha3, h9, happ⟩
      intro t ht
      rw [List.mem_append] at ht
      rcases ht with ht | ht
      · simp only [List.mem_cons, List.not_mem_nil, or_false] at ht
        rcases ht with rfl | rfl | rfl | rfl | rfl | rfl
        · exact hv1
        · rw [hty]; exact hv2
        · exact hv3
        · exact hv4
        · exact hv5
        · exact hv6
      · exact ha2 t ht
  · rintro ⟨m, n, c, type, args, xs, item, rfl, hv, hann, ha, hitem, happ⟩
    have hlen : args.length = xs.length := by simpa using congrArg List.length ha
    rw [hlen] at hann
    obtain ⟨har, hf⟩ := arity_of_item hann hitem
    simp only [List.mem_append, List.mem_cons, List.not_mem_nil, or_false] at hv
    unfold tObject tDispatch tBody
    simp only [List.cons_append, List.nil_append]
    rw [tToken_cons (hv _ (by simp)), Res.bind_ok]
    simp only
    rw [tToken_cons (hv _ (by simp)), Res.bind_ok]
    simp only
    rw [tToken_cons (hv _ (by simp)), Res.bind_ok]
    simp only [hf]
    rw [(tExpect_ok_iff (by decide)).mpr ⟨rfl, hv _ (by simp)⟩, Res.bind_ok]
    rw [(tExpect_ok_iff (by decide)).mpr ⟨rfl, hv _ (by simp)⟩, Res.bind_ok]
    rw [tToken_cons (hv _ (by simp)), Res.bind_ok]
    simp only [har, Res.ofOption_some, Res.bind_ok]
    rw [tFloats_ok_iff.mpr ⟨args, rfl, hlen, fun t ht => hv t (Or.inr ht), ha⟩, Res.bind_ok]
    simp only [hitem, Res.ofOption_some, Res.bind_ok, happ]

theorem build_of_apply {item : RadItem K} {s s1 : Scene K} {names' : List (List UInt8)} (h : tApply env.scene names s item = .ok (names', s1)) (items : List (RadItem K)) :
    buildItems env.scene names (item :: items) s = buildItems env.scene names' items s1 := by
  cases item with
  | material name m => cases h; rfl
  | object md parts =>
    simp only [tApply] at h
    simp only [buildItems]
    by_cases hin : md ∈ names
    · rw [if_pos hin] at h ⊢
      rw [bind_ok_iff] at h
      obtain ⟨s2, h5, h6⟩ := h
      cases h6
      rw [h5]; rfl
    · rw [if_neg hin] at h; cases h

theorem apply_of_build {item : RadItem K} {items : List (RadItem K)} {s s' : Scene K} (h : buildItems env.scene names (item :: items) s = .ok s') :
    ∃ names' s1, tApply env.scene names s item = .ok (names', s1) ∧ buildItems env.scene names' items s1 = .ok s' := by
  have hap : ∃ x, tApply env.scene names s item = .ok x := by
    cases item with
    | material name m => exact ⟨_, rfl⟩
    | object md parts =>
      simp only [buildItems] at h
      simp only [tApply]
      by_cases hin : md ∈ names
      · rw [if_pos hin] at h ⊢
        rw [bind_ok_iff] at h
        obtain ⟨s1, h5, -⟩ := h
        exact ⟨_, by rw [h5]; rfl⟩
      · rw [if_neg hin] at h; cases h
  obtain ⟨⟨nm, sc⟩, hap⟩ := hap
  exact ⟨nm, sc, hap, by rw [← build_of_apply hap]; exact h⟩

/-- The loop over objects: never diverges, and succeeds exactly on descriptions of scenes. -/
theorem objects_iff : ∀ (fuel : Nat) (r : RadReader) (ts names : List (List UInt8)) (s : Scene K), At src names r ts → ts.length + 1 < fuel →
    RadReader.objects env src fuel r s ≠ .diverge ∧
    ∀ s', (∃ r', RadReader.objects env src fuel r s = .ok (r', s')) ↔
      (∀ t ∈ ts, validUtf8 t = true) ∧ ∃ items, Describes env ts items ∧ buildItems env.scene names items s = .ok s' := by
  intro fuel
  induction fuel with
  | zero => intro r ts names s _ h; omega
  | succ fuel ih =>
    intro r ts names s hat hfuel
    by_cases hts : ts = []
    · -- nothing but white space left
      subst hts
      have hok : ∃ r', RadReader.objects env src (fuel + 1) r s = .ok (r', s) := by
        unfold RadReader.objects
        by_cases hd : r.done = true
        · rw [if_pos hd]; exact ⟨r, rfl⟩
        · rw [if_neg hd]
          obtain ⟨r1, h1, h2, h3⟩ := reach_at hat
          have hc : r.consumeObject env src s = .ok (r1, s) := by
            unfold RadReader.consumeObject
            rw [h1, Res.bind_ok, if_pos (h3.mpr rfl)]
          rw [hc, Res.bind_ok]
          obtain ⟨f, rfl⟩ : ∃ f, fuel = f + 1 := ⟨fuel - 1, by simp only [List.length_nil] at hfuel; omega⟩
          unfold RadReader.objects
          simp only
          rw [if_pos (h3.mpr rfl)]
          exact ⟨r1, rfl⟩
      obtain ⟨r', hr'⟩ := hok
      refine ⟨by rw [hr']; simp, fun s' => ⟨?_, ?_⟩⟩
      · rintro ⟨r2, h2⟩
        rw [hr'] at h2
        cases h2
        exact ⟨by simp, [], .nil, rfl⟩
      · rintro ⟨-, items, hdesc, hb⟩
        cases hdesc with
        | nil => cases hb; exact ⟨r', hr'⟩
    · have hnd : r.done = false := by
        obtain ⟨i, hi, rfl, rfl⟩ := hat
        by_contra hd
        have : i = src.length := by simpa [readerAt] using hd
        subst this
        exact hts (by simp [tokensOf_nil])
      have hrel := rel_consumeObject (env := env) s hat
      rw [if_neg hts] at hrel
      have hobj : RadReader.objects env src (fuel + 1) r s = (r.consumeObject env src s).bind fun x => RadReader.objects env src fuel x.1 x.2 := by
        rw [RadReader.objects]
        simp only [hnd, Bool.false_eq_true, if_false]
      rw [hobj]
      cases ht : tObject env names s ts with
      | diverge => rw [ht] at hrel; cases hc : r.consumeObject env src s <;> rw [hc] at hrel <;> exact hrel.elim
      | panic =>
        rw [ht] at hrel
        cases hc : r.consumeObject env src s with
        | diverge => rw [hc] at hrel; exact hrel.elim
        | ok x => rw [hc] at hrel; exact hrel.elim
        | panic =>
          refine ⟨by simp, fun s' => ⟨by rintro ⟨r', h⟩; simp at h, ?_⟩⟩
          rintro ⟨hv, items, hdesc, hb⟩
          exfalso
          cases hdesc with
          | nil => exact hts rfl
          | cons m n c type args numbers item rest items h1 h2 h3 h4 =>
            obtain ⟨nm, sc, hap, -⟩ := apply_of_build hb
            have := (tObject_ok_iff (ts' := rest)).mpr ⟨m, n, c, type, args, numbers, item, rfl, fun t ht => hv t (by simp only [List.mem_append] at ht ⊢; exact Or.inl ht), h1, h2, h3, hap⟩
            rw [ht] at this
            cases this
      | ok y =>
        obtain ⟨ts', names', s1⟩ := y
        rw [ht] at hrel
        cases hc : r.consumeObject env src s with
        | diverge => rw [hc] at hrel; exact hrel.elim
        | panic => rw [hc] at hrel; exact hrel.elim
        | ok x =>
          obtain ⟨r1, s1'⟩ := x
          rw [hc] at hrel
          obtain ⟨hat1, hs⟩ := hrel
          simp only at hat1 hs
          subst hs
          obtain ⟨m, n, c, type, args, numbers, item, rfl, hv, hann, ha, hitem, happ⟩ := tObject_ok_iff.mp ht
          obtain ⟨g1, g2⟩ := ih r1 ts' names' s1' hat1 (by simp only [List.length_append, List.length_cons] at hfuel; omega)
          have hbuild := build_of_apply happ
          refine ⟨g1, fun s' => ⟨?_, ?_⟩⟩
          · rintro ⟨r', h⟩
            obtain ⟨h1, items, h2, h3⟩ := (g2 s').mp ⟨r', h⟩
            refine ⟨?_, item :: items, .cons _ _ _ _ _ _ _ _ _ hann ha hitem h2, by rw [hbuild]; exact h3⟩
            intro t ht
            rw [List.mem_append] at ht
            exact ht.elim (hv t) (h1 t)
          · rintro ⟨hv', items', hdesc, hb⟩
            generalize hts' : [m, bytes type, n, bytes "0", bytes "0", c] ++ args ++ ts' = tt at hdesc
            cases hdesc with
            | nil => simp at hts'
            | cons m' n' c' type' args' numbers' item' rest items'' k1 k2 k3 k4 =>
              obtain ⟨nm, sc, hap', hb'⟩ := apply_of_build hb
              have hv'' : ∀ t ∈ [m', bytes type', n', bytes "0", bytes "0", c'] ++ args', validUtf8 t = true := by
                intro t htm
                refine hv' t ?_
                rw [hts', List.mem_append]
                exact Or.inl htm
              have := (tObject_ok_iff (ts' := rest)).mpr ⟨m', n', c', type', args', numbers', item', rfl, hv'', k1, k2, k3, hap'⟩
              rw [← hts', ht] at this
              cases this
              refine (g2 s').mpr ⟨fun t htm => hv' t (by rw [List.mem_append]; exact Or.inr htm), items'', k4, hb'⟩

end Rendering
