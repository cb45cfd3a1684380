import Verif.Lemmas.RadianceItems
import Verif.Props.SceneExamples

/-!
# C65–C67: reading Radiance texts
-/

set_option linter.unusedSectionVars false
namespace Rendering

section
variable {K : Type} [Field K]

theorem reader_start {src : List UInt8} (h : src ≠ []) : ({} : RadReader) = readerAt src [] 0 := by
  have : ¬ (0 = src.length) := fun e => h (List.length_eq_zero_iff.mp e.symm)
  simp [readerAt, this]

/-- Reading a text succeeds with a scene exactly when the text describes objects from which that scene is built; it never runs forever. -/
theorem reads_iff (env : RadEnv K) (src : List UInt8) :
    Scene.fromRadianceSource env src ≠ .diverge ∧
    ∀ s, Scene.fromRadianceSource env src = .ok s ↔
      (∀ t ∈ tokensOf src, validUtf8 t = true) ∧ ∃ items, Describes env (tokensOf src) items ∧ buildItems env.scene [] items {} = .ok s := by
  by_cases hsrc : src = []
  · subst hsrc
    have h : Scene.fromRadianceSource env [] = .ok {} := rfl
    refine ⟨by rw [h]; simp, fun s => ⟨?_, ?_⟩⟩
    · intro h'
      rw [h] at h'
      cases h'
      rw [tokensOf_nil]
      exact ⟨by simp, [], .nil, rfl⟩
    · rw [tokensOf_nil]
      rintro ⟨-, items, hd, hb⟩
      cases hd with
      | nil => cases hb; exact h
  · obtain ⟨h1, h2⟩ := objects_iff (env := env) (src := src) (src.length + 2) {} (tokensOf src) [] {}
      ⟨0, by omega, reader_start hsrc, by simp⟩ (by have := tokensOf_length src; omega)
    unfold Scene.fromRadianceSource
    refine ⟨?_, fun s => ?_⟩
    · cases h : RadReader.objects env src (src.length + 2) {} {} with
      | ok x => simp
      | panic => simp
      | diverge => exact absurd h h1
    · rw [← h2 s, bind_ok_iff]
      constructor
      · rintro ⟨⟨r, s1⟩, h3, h4⟩
        cases h4
        exact ⟨r, h3⟩
      · rintro ⟨r, h3⟩
        exact ⟨(r, s), h3, rfl⟩

/-! ### C65 -/

/-- **C65.** Reading a Radiance text ends on every byte string. -/
theorem C65_terminates (env : RadEnv K) (src : List UInt8) : Scene.fromRadianceSource env src ≠ .diverge := (reads_iff env src).1

/-- The states in which the reader can be while it scans `src`: it starts at the beginning, skips white space, takes tokens and records modifiers. -/
inductive Scanning (src : List UInt8) : RadReader → Prop where
  | start : Scanning src {}
  | skip (r r' : RadReader) : Scanning src r → r.reachNextToken src = .ok r' → Scanning src r'
  | token (r r' : RadReader) (t : List UInt8) : Scanning src r → r.consumeToken src = .ok (t, r') → Scanning src r'
  | define (r : RadReader) (mods : List (List UInt8)) : Scanning src r → Scanning src { r with modifiers := mods }

theorem scanning_at {src : List UInt8} (hsrc : src ≠ []) {r : RadReader} (h : Scanning src r) :
    ∃ mods i, i ≤ src.length ∧ r = readerAt src mods i := by
  induction h with
  | start => exact ⟨[], 0, by omega, reader_start hsrc⟩
  | skip r r' _ hr ih =>
    obtain ⟨mods, i, hi, rfl⟩ := ih
    obtain ⟨j, -, hj, -, h2⟩ := reachNextToken_readerAt src mods i hi
    rw [h2] at hr
    cases hr
    exact ⟨mods, j, hj, rfl⟩
  | token r r' t _ hr ih =>
    obtain ⟨mods, i, hi, rfl⟩ := ih
    rcases consumeToken_readerAt src mods i hi with ⟨-, h2⟩ | ⟨u, j, -, h2, -, -, h5⟩
    · rw [h2] at hr
      cases hr
      exact ⟨mods, src.length, le_rfl, rfl⟩
    · rw [h5] at hr
      by_cases hv : validUtf8 u = true
      · rw [if_pos hv] at hr
        cases hr
        exact ⟨mods, j, h2, rfl⟩
      · rw [if_neg hv] at hr; cases hr
  | define r mods _ ih =>
    obtain ⟨m, i, hi, rfl⟩ := ih
    exact ⟨mods, i, hi, rfl⟩

/-- **C65.** Whatever has been scanned: the position is inside the text (or at its end), the reader is done exactly at the end, the line number that error messages
show is the number of line ends consumed, and the next scanning step does not read past the end — it succeeds, unless the next token is not UTF-8 — and moves forward. -/
theorem C65_scanner (src : List UInt8) (hsrc : src ≠ []) (r : RadReader) (h : Scanning src r) :
    r.index ≤ src.length ∧ (r.done = true ↔ r.index = src.length) ∧ r.line = (src.take r.index).count 10 ∧
    (∃ r', r.reachNextToken src = .ok r' ∧ r.index ≤ r'.index) ∧
    ((∃ t r', r.consumeToken src = .ok (t, r') ∧ r.index ≤ r'.index ∧ (r.done = false → r.index < r'.index)) ∨
      (r.consumeToken src = .panic ∧ ∃ t rest, tokensOf (src.drop r.index) = t :: rest ∧ validUtf8 t = false)) := by
  obtain ⟨mods, i, hi, rfl⟩ := scanning_at hsrc h
  refine ⟨hi, by simp [readerAt], rfl, ?_, ?_⟩
  · obtain ⟨j, hij, -, -, h2⟩ := reachNextToken_readerAt src mods i hi
    exact ⟨_, h2, hij⟩
  · rcases consumeToken_readerAt src mods i hi with ⟨-, h2⟩ | ⟨t, j, h1, h2, -, h4, h5⟩
    · refine Or.inl ⟨_, _, h2, hi, fun hd => ?_⟩
      have : ¬ i = src.length := by simpa [readerAt] using hd
      show i < src.length
      omega
    · by_cases hv : validUtf8 t = true
      · rw [if_pos hv] at h5
        exact Or.inl ⟨_, _, h5, h1.le, fun _ => h1⟩
      · rw [if_neg hv] at h5
        exact Or.inr ⟨h5, t, _, h4, by simpa using hv⟩

/-! ### C67 -/

theorem tokensOf_append_ws (w l : List UInt8) (h : ∀ b ∈ w, isAsciiWhitespace b = true) : tokensOf (w ++ l) = tokensOf l := by
  induction w with
  | nil => rfl
  | cons b w ih =>
    rw [List.cons_append, tokensOf_ws (h b (by simp)), ih (fun b hb => h b (by simp [hb]))]

theorem tokensOf_laidOut {ts : List (List UInt8)} {src : List UInt8} (h : LaidOut ts src) : tokensOf src = ts := by
  induction h with
  | nil w hw =>
    have := tokensOf_append_ws w [] hw
    rw [List.append_nil] at this
    rw [this, tokensOf_nil]
  | cons w t rest ts hw ht htb hr _ ih =>
    rw [List.append_assoc, tokensOf_append_ws w _ hw]
    have h1 : (t ++ rest).takeWhile (fun b => !isAsciiWhitespace b) = t := by
      rw [List.takeWhile_append_of_pos (by intro b hb; simp [htb b hb])]
      cases rest with
      | nil => simp
      | cons b rest => rw [List.takeWhile_cons_of_neg (by simp [hr b rfl]), List.append_nil]
    have h2 : (t ++ rest).dropWhile (fun b => !isAsciiWhitespace b) = rest := by
      rw [List.dropWhile_append_of_pos (by intro b hb; simp [htb b hb])]
      cases rest with
      | nil => simp
      | cons b rest => rw [List.dropWhile_cons_of_neg (by simp [hr b rfl])]
    rw [tokensOf_token (by rw [h1]; exact ht), h1, h2, ih]

/-- **C67.** Two texts made of the same tokens give the same scene — or both make the reader panic — whatever white space separates the tokens. -/
theorem C67_layout_does_not_matter (env : RadEnv K) (ts : List (List UInt8)) (a b : List UInt8) (ha : LaidOut ts a) (hb : LaidOut ts b) :
    Scene.fromRadianceSource env a = Scene.fromRadianceSource env b := by
  obtain ⟨a1, a2⟩ := reads_iff env a
  obtain ⟨b1, b2⟩ := reads_iff env b
  rw [tokensOf_laidOut ha] at a2
  rw [tokensOf_laidOut hb] at b2
  cases hA : Scene.fromRadianceSource env a with
  | diverge => exact absurd hA a1
  | ok s => exact ((b2 s).mpr ((a2 s).mp hA)).symm
  | panic =>
    cases hB : Scene.fromRadianceSource env b with
    | diverge => exact absurd hB b1
    | ok s => rw [(a2 s).mpr ((b2 s).mp hB)] at hA; cases hA
    | panic => rfl

/-- Every text is laid out somehow: C67 speaks about all texts. -/
theorem laidOut_tokensOf (src : List UInt8) : LaidOut (tokensOf src) src := by
  induction hn : src.length using Nat.strong_induction_on generalizing src with
  | _ n ih =>
    have hsplit : src = src.takeWhile isAsciiWhitespace ++ src.dropWhile isAsciiWhitespace := List.takeWhile_append_dropWhile.symm
    have hws : ∀ b ∈ src.takeWhile isAsciiWhitespace, isAsciiWhitespace b = true := fun b hb => List.all_eq_true.mp (List.all_takeWhile) b hb
    cases hd : src.dropWhile isAsciiWhitespace with
    | nil =>
      rw [hd, List.append_nil] at hsplit
      rw [← tokensOf_dropWhile, hd, tokensOf_nil]
      refine .nil src ?_
      rw [hsplit]; exact hws
    | cons b l =>
      have hb : isAsciiWhitespace b = false := by
        have := List.head?_dropWhile_not isAsciiWhitespace src
        rw [hd] at this
        simpa using this
      have hne : (b :: l).takeWhile (fun b => !isAsciiWhitespace b) ≠ [] := by simp [hb]
      have h1 : tokensOf src = (b :: l).takeWhile (fun b => !isAsciiWhitespace b) :: tokensOf ((b :: l).dropWhile (fun b => !isAsciiWhitespace b)) := by
        rw [← tokensOf_dropWhile, hd, tokensOf_token hne]
      rw [h1]
      have h2 : src = src.takeWhile isAsciiWhitespace ++ (b :: l).takeWhile (fun b => !isAsciiWhitespace b) ++ (b :: l).dropWhile (fun b => !isAsciiWhitespace b) := by
        rw [List.append_assoc, List.takeWhile_append_dropWhile, ← hd]; exact hsplit
      conv => rhs; rw [h2]
      refine .cons _ _ _ _ hws hne ?_ ?_ ?_
      · intro c hc
        simpa using List.all_eq_true.mp (List.all_takeWhile) c hc
      · intro c hc
        have := List.head?_dropWhile_not (fun b => !isAsciiWhitespace b) (b :: l)
        rw [hc] at this
        simpa using this
      · refine ih _ ?_ _ rfl
        rw [← hn]
        have h3 := congrArg List.length h2
        have h4 : 0 < ((b :: l).takeWhile (fun b => !isAsciiWhitespace b)).length := List.length_pos_iff.mpr hne
        simp only [List.length_append] at h3
        omega

/-! ### C66 -/

/-- **C66.** Reading succeeds with scene `s` exactly when all tokens are UTF-8 and they describe objects — materials and objects made of the first material defined under
the modifier's name — from which `s` is built in order. -/
theorem C66_reads_what_is_described (env : RadEnv K) (src : List UInt8) (s : Scene K) :
    Scene.fromRadianceSource env src = .ok s ↔
      (∀ t ∈ tokensOf src, validUtf8 t = true) ∧ ∃ items, Describes env (tokensOf src) items ∧ buildItems env.scene [] items {} = .ok s :=
  (reads_iff env src).2 s

/-- A text describes at most one list of objects. -/
theorem C66_describes_unique (env : RadEnv K) (ts : List (List UInt8)) (items items' : List (RadItem K)) (h : Describes env ts items) (h' : Describes env ts items') :
    items = items' := by
  induction h generalizing items' with
  | nil => cases h' with | nil => rfl
  | cons m n c type args numbers item rest items h1 h2 h3 _ ih =>
    generalize hts : [m, bytes type, n, bytes "0", bytes "0", c] ++ args ++ rest = tt at h'
    cases h' with
    | nil => simp at hts
    | cons m' n' c' type' args' numbers' item' rest' items'' k1 k2 k3 k4 =>
      simp only [List.cons_append, List.nil_append, List.cons.injEq, true_and] at hts
      obtain ⟨rfl, ht, rfl, rfl, hrest⟩ := hts
      have hl : args.length = numbers.length := by simpa using congrArg List.length h2
      have hl' : args'.length = numbers'.length := by simpa using congrArg List.length k2
      have f1 := (arity_of_item (hl ▸ h1) h3).2
      have f2 := (arity_of_item (hl' ▸ k1) k3).2
      rw [ht] at f1
      have htype : type = type' := Option.some.inj (f1.symm.trans f2)
      subst htype
      have hlen : args.length = args'.length := Option.some.inj (h1.1.symm.trans k1.1)
      obtain ⟨rfl, rfl⟩ := List.append_inj hrest hlen
      have hnum : numbers = numbers' := by
        have := h2.symm.trans k2
        exact List.map_injective_iff.mpr (Option.some_injective K) this
      subst hnum
      have hitem : item = item' := Option.some.inj (h3.symm.trans k3)
      rw [hitem, ih _ k4]

theorem build_unknown (env : SceneEnv K) (modifier : List UInt8) (parts : List (Primitive K)) (post : List (RadItem K)) :
    ∀ (pre : List (RadItem K)) (names : List (List UInt8)) (s s' : Scene K), modifier ∉ names ++ pre.flatMap RadItem.names →
      buildItems env names (pre ++ .object modifier parts :: post) s ≠ .ok s' := by
  intro pre
  induction pre with
  | nil =>
    intro names s s' h
    have h : modifier ∉ names := by simpa using h
    simp [buildItems, h]
  | cons item pre ih =>
    intro names s s' h
    cases item with
    | material name m =>
      simp only [List.cons_append, buildItems]
      refine ih _ _ _ ?_
      simpa [RadItem.names] using h
    | object md ps =>
      simp only [List.cons_append, buildItems]
      by_cases hin : md ∈ names
      · rw [if_pos hin]
        intro hb
        rw [bind_ok_iff] at hb
        obtain ⟨s1, -, h2⟩ := hb
        refine ih names s1 s' ?_ h2
        simpa [RadItem.names] using h
      · rw [if_neg hin]; simp

/-- **C66.** An object whose modifier has not been defined before it makes the reader panic. -/
theorem C66_unknown_modifier (env : RadEnv K) (src : List UInt8) (pre post : List (RadItem K)) (modifier : List UInt8) (parts : List (Primitive K))
    (h : Describes env (tokensOf src) (pre ++ .object modifier parts :: post)) (hn : modifier ∉ pre.flatMap RadItem.names) :
    Scene.fromRadianceSource env src = .panic := by
  obtain ⟨h1, h2⟩ := reads_iff env src
  cases hr : Scene.fromRadianceSource env src with
  | panic => rfl
  | diverge => exact absurd hr h1
  | ok s =>
    obtain ⟨-, items, hd, hb⟩ := (h2 s).mp hr
    rw [C66_describes_unique env _ _ _ hd h] at hb
    exact absurd hb (build_unknown env.scene modifier parts post pre [] {} s (by simpa using hn))

end

section
variable {K : Type} [Field K] [LinearOrder K] [IsStrictOrderedRing K] [FloorRing K]

theorem run_append (env : SceneEnv K) (a b : List (SceneOp K)) (s : Scene K) : s.run env (a ++ b) = (s.run env a).bind fun s => s.run env b := by
  induction a generalizing s with
  | nil => rfl
  | cons op a ih =>
    simp only [List.cons_append, Scene.run]
    cases s.step env op with
    | ok s => exact ih s
    | panic => rfl
    | diverge => rfl

theorem pushParts_run (env : SceneEnv K) (i : Nat) (parts : List (Primitive K)) (s : Scene K) :
    pushParts env i parts s = s.run env (parts.map fun p => .pushObject i i p) := by
  induction parts generalizing s with
  | nil => rfl
  | cons p ps ih =>
    simp only [pushParts, List.map_cons, Scene.run, Scene.step]
    cases s.pushObject env i i p with
    | ok s => exact ih s
    | panic => rfl
    | diverge => rfl

theorem build_run (env : SceneEnv K) (items : List (RadItem K)) (names : List (List UInt8)) (s s' : Scene K) (h : buildItems env names items s = .ok s') :
    s.run env (itemOps names items) = .ok s' := by
  induction items generalizing names s with
  | nil => exact h
  | cons item items ih =>
    cases item with
    | material name m => exact ih _ _ h
    | object md parts =>
      simp only [buildItems] at h
      by_cases hin : md ∈ names
      · rw [if_pos hin, bind_ok_iff] at h
        obtain ⟨s1, h1, h2⟩ := h
        rw [pushParts_run] at h1
        simp only [itemOps, run_append]
        rw [h1, Res.bind_ok]
        exact ih _ _ h2
      · rw [if_neg hin] at h; cases h

theorem build_known (env : SceneEnv K) (items : List (RadItem K)) (s s' : Scene K) (h : buildItems env [] items s = .ok s') (pre post : List (RadItem K))
    (modifier : List UInt8) (parts : List (Primitive K)) (hi : items = pre ++ .object modifier parts :: post) : modifier ∈ pre.flatMap RadItem.names := by
  by_contra hn
  subst hi
  exact build_unknown env modifier parts post pre [] s s' (by simpa using hn) h

theorem itemOps_append (pre : List (RadItem K)) : ∀ (names : List (List UInt8)) (items : List (RadItem K)),
    itemOps names (pre ++ items) = itemOps names pre ++ itemOps (names ++ pre.flatMap RadItem.names) items := by
  induction pre with
  | nil => intro names items; simp [itemOps]
  | cons item pre ih =>
    intro names items
    cases item with
    | material name m =>
      simp only [List.cons_append, itemOps, ih, List.flatMap_cons, RadItem.names, List.append_assoc]
    | object md parts =>
      simp only [List.cons_append, itemOps, ih, List.flatMap_cons, RadItem.names, List.append_assoc, List.nil_append]

theorem pushedRows_append (env : SceneEnv K) (a b : List (SceneOp K)) : pushedRows env (a ++ b) = pushedRows env a ++ pushedRows env b := by
  induction a with
  | nil => rfl
  | cons op a ih => cases op <;> simp [pushedRows, ih]

theorem pushedRows_parts (env : SceneEnv K) (i : Nat) (parts : List (Primitive K)) :
    pushedRows env (parts.map fun p => .pushObject i i p) = parts.flatMap fun p => (env.meshOf p).map fun x => (x.1, i, i, x.2) := by
  induction parts with
  | nil => rfl
  | cons p ps ih => simp [pushedRows, ih]

theorem pushedMaterials_items (items : List (RadItem K)) (names : List (List UInt8)) :
    pushedMaterials (itemOps names items) = (items.flatMap RadItem.defines).map Prod.snd := by
  induction items generalizing names with
  | nil => rfl
  | cons item items ih =>
    cases item with
    | material name m => simp [itemOps, pushedMaterials, RadItem.defines, ih]
    | object md parts =>
      have : ∀ (i : Nat) (ops : List (SceneOp K)), pushedMaterials (parts.map (fun p => SceneOp.pushObject i i p) ++ ops) = pushedMaterials ops := by
        intro i ops
        induction parts with
        | nil => rfl
        | cons p ps ih => simp [pushedMaterials, ih]
      simp [itemOps, RadItem.defines, this, ih]

theorem names_defines (items : List (RadItem K)) : items.flatMap RadItem.names = (items.flatMap RadItem.defines).map Prod.fst := by
  induction items with
  | nil => rfl
  | cons item items ih => cases item <;> simp [RadItem.names, RadItem.defines, ih]

theorem itemOps_noBuild (items : List (RadItem K)) (names : List (List UInt8)) : ∀ op ∈ itemOps names items, op.NoBuild := by
  induction items generalizing names with
  | nil => simp [itemOps]
  | cons item items ih =>
    cases item with
    | material name m =>
      intro op hop
      simp only [itemOps, List.mem_cons] at hop
      rcases hop with rfl | hop
      · trivial
      · exact ih _ op hop
    | object md parts =>
      intro op hop
      simp only [itemOps, List.mem_append, List.mem_map] at hop
      rcases hop with ⟨p, -, rfl⟩ | hop
      · trivial
      · exact ih _ op hop

/-- A history of pushes leaves exactly the rows and materials pushed, in order. -/
theorem run_noBuild_rows (env : SceneEnv K) (hM : env.MeshAligned) (ops : List (SceneOp K)) (hno : ∀ op ∈ ops, op.NoBuild) :
    ∀ s s' : Scene K, s.Aligned → s.run env ops = .ok s' → s'.Aligned ∧ s'.rows = s.rows ++ pushedRows env ops ∧ s'.materials = s.materials ++ pushedMaterials ops := by
  induction ops with
  | nil => intro s s' ha h; cases h; exact ⟨ha, by simp [pushedRows], by simp [pushedMaterials]⟩
  | cons op ops ih =>
    intro s s' ha h
    unfold Scene.run at h
    have h0 := hno op List.mem_cons_self
    have ih := ih (fun o ho => hno o (List.mem_cons_of_mem _ ho))
    cases hs : s.step env op with
    | panic => rw [hs] at h; cases h
    | diverge => rw [hs] at h; cases h
    | ok s1 =>
      rw [hs] at h
      cases op with
      | pushMaterial m =>
        simp only [Scene.step, Scene.pushMaterial, Res.ok.injEq] at hs
        subst hs
        have hh := fun ha' => ih _ s' ha' h
        obtain ⟨h1, h2, h3⟩ := hh ha
        exact ⟨h1, h2, by rw [h3]; simp [pushedMaterials]⟩
      | pushObject f b p =>
        obtain ⟨e1, _, e3, _⟩ := C13_push_object_effect env hM s s1 f b p ha hs
        obtain ⟨_, _, _, _, g1, g2, g3, g4, _⟩ := pushObject_ok env s s1 f b p hs
        have hml : (env.meshPair p).2.length = (env.meshPair p).1.length := by
          cases p with
          | sphere c r => exact hM c r
          | _ => rfl
        have ha1 : s1.Aligned := by
          obtain ⟨a1, a2, a3⟩ := ha
          unfold Scene.Aligned
          rw [g1, g2, g3, g4]
          simp only [List.length_append, List.length_replicate]
          omega
        obtain ⟨h1, h2, h3⟩ := ih _ s' ha1 h
        exact ⟨h1, by rw [h2, e1]; simp [pushedRows], by rw [h3, e3]; rfl⟩
      | build => exact absurd h0 (by simp [SceneOp.NoBuild])
      | rebuild => exact absurd h0 (by simp [SceneOp.NoBuild])
      | addPerezSky sun =>
        simp only [Scene.step] at hs
        rw [addPerezSky_eq] at hs
        cases hs
        cases sun with
        | none =>
          obtain ⟨h1, h2, h3⟩ := ih { s with hasSky := true } s' ha h
          exact ⟨h1, h2, h3⟩
        | some x =>
          obtain ⟨d, br, a⟩ := x
          have hh := fun ha' => ih _ s' ha' h
          obtain ⟨h1, h2, h3⟩ := hh ha
          exact ⟨h1, h2, by rw [h3]; simp [pushedMaterials]⟩

/-- **C66.** After a successful read: the materials of the scene are those defined in the text, in order; and every object's triangles are stored — after those of the objects
before it — with front and back index `i`, where the `i`-th definition is the first one under the name of the object's modifier, and precedes the object. -/
theorem C66_objects_get_their_material (env : RadEnv K) (hM : env.scene.MeshAligned) (src : List UInt8) (s : Scene K) (h : Scene.fromRadianceSource env src = .ok s) :
    ∃ items, Describes env (tokensOf src) items ∧ s.materials = (items.flatMap RadItem.defines).map Prod.snd ∧
      s.rows = pushedRows env.scene (itemOps [] items) ∧
      ∀ pre modifier parts post, items = pre ++ .object modifier parts :: post →
        ∃ (i : Nat) (m : Material K) (after : List (Tri K × Nat × Nat × Normals K)),
          (pre.flatMap RadItem.defines)[i]? = some (modifier, m) ∧ (∀ (j : Nat) d, j < i → (pre.flatMap RadItem.defines)[j]? = some d → d.1 ≠ modifier) ∧
          s.materials[i]? = some m ∧
          s.rows = pushedRows env.scene (itemOps [] pre) ++ (parts.flatMap fun p => (env.scene.meshOf p).map fun x => (x.1, i, i, x.2)) ++ after := by
  obtain ⟨-, items, hd, hb⟩ := (reads_iff env src).2 s |>.mp h
  have hrun := build_run env.scene items [] {} s hb
  obtain ⟨-, h2, h3⟩ := run_noBuild_rows env.scene hM _ (itemOps_noBuild items []) {} s (by simp [Scene.Aligned]) hrun
  have hrows : s.rows = pushedRows env.scene (itemOps [] items) := by simpa [Scene.rows, rows] using h2
  have hmats : s.materials = (items.flatMap RadItem.defines).map Prod.snd := by
    rw [h3, pushedMaterials_items]; rfl
  refine ⟨items, hd, hmats, hrows, ?_⟩
  intro pre modifier parts post hi
  have hin := build_known env.scene items {} s hb pre post modifier parts hi
  set i := (pre.flatMap RadItem.names).idxOf modifier with hidef
  have hlt : i < (pre.flatMap RadItem.names).length := List.idxOf_lt_length_of_mem hin
  have hlt' : i < (pre.flatMap RadItem.defines).length := by
    rw [names_defines, List.length_map] at hlt; exact hlt
  have hget : (pre.flatMap RadItem.names)[i] = modifier := List.getElem_idxOf hlt
  have hfst : (pre.flatMap RadItem.defines)[i].1 = modifier := by
    have : (pre.flatMap RadItem.names)[i]? = ((pre.flatMap RadItem.defines).map Prod.fst)[i]? := by rw [← names_defines]
    rw [List.getElem?_eq_getElem hlt, List.getElem?_map, List.getElem?_eq_getElem hlt', hget] at this
    simpa using this.symm
  refine ⟨i, (pre.flatMap RadItem.defines)[i].2, pushedRows env.scene (itemOps (pre.flatMap RadItem.names) post), ?_, ?_, ?_, ?_⟩
  · rw [List.getElem?_eq_getElem hlt', ← hfst]
  · intro j d hj hdj hc
    have hjn : (pre.flatMap RadItem.names)[j]? = some modifier := by
      rw [names_defines, List.getElem?_map, hdj, ← hc]; rfl
    obtain ⟨hjl, hje⟩ := List.getElem?_eq_some_iff.mp hjn
    have := List.not_of_lt_findIdx (p := (· == modifier)) (xs := pre.flatMap RadItem.names) (i := j) hj
    simp [hje] at this
  · rw [hmats, hi, List.flatMap_append, List.map_append, List.getElem?_append_left (by simpa using hlt'), List.getElem?_map, List.getElem?_eq_getElem hlt']
    rfl
  · rw [hrows, hi, itemOps_append, pushedRows_append, List.nil_append]
    simp only [itemOps, pushedRows_append, pushedRows_parts, ← hidef, List.append_assoc]

end
end Rendering

/-! ### Examples -/

namespace Rendering
namespace RadianceExamples
open BvhExamples SceneExamples

/-- An environment in which numbers are written as natural numbers and polygons are triangles. -/
def env : RadEnv ℚ where
  scene := refSceneEnv ℚ
  parseFloat := fun t => (parseUsize t).map fun n => (n : ℚ)
  parseFloat_empty := by decide
  toRadians := fun x => x * 314 / 18000
  triangulate := fun vs => match vs with
    | [a, b, c] => some [⟨a, b, c⟩]
    | _ => none

def text : List UInt8 := bytes "void plastic red 0 0 5 1 0 0 0 0\nvoid light lamp 0 0 3 9 9 9\nvoid metal red 0 0 5 0 1 0 0 0\nlamp polygon p1 0 0 9 0 0 1 1 0 1 0 1 1\nred polygon p2 0 0 9 0 0 3 1 0 3 0 1 3\nlamp source sun 0 0 4 0 0 1 1\n"

/-- The same tokens on other lines, with tabs, carriage returns and without a final newline. -/
def text' : List UInt8 := bytes "  void plastic\n\n red\t0 0 5 1 0 0 0 0 void light lamp 0 0 3\r\n 9 9 9 void metal red 0 0 5 0 1 0 0 0 lamp polygon p1\n0\n0\n9 0 0 1\n1 0 1\n0 1 1\nred polygon p2 0 0 9 0 0 3 1 0 3 0 1 3 lamp source sun 0 0 4 0 0 1 1"

/-- C65, C66: the text is read; the objects get the first material of their name (index 0 although `red` is defined again as a metal, index 2). -/
example : ((Scene.fromRadianceSource env text).bind fun s =>
    .ok (s.triangles, s.front, s.back, s.lights.length, s.distantLights.length)) =
    .ok ([triAt 1, triAt 3], [1, 0], [1, 0], 1, 1) := by
  decide +kernel
example : ((Scene.fromRadianceSource env text).bind fun s => .ok s.materials) =
    .ok [.plastic ⟨1, 0, 0⟩ 0 0, .light ⟨9, 9, 9⟩, .metal ⟨0, 1, 0⟩ 0 0] := by
  decide +kernel

/-- C67: both texts are laid out from the same tokens. -/
example : LaidOut (tokensOf text) text ∧ LaidOut (tokensOf text) text' := by
  refine ⟨laidOut_tokensOf text, ?_⟩
  have : tokensOf text = tokensOf text' := by decide +kernel
  rw [this]; exact laidOut_tokensOf text'

/-- C66: an undefined modifier. -/
example : ((Scene.fromRadianceSource env (bytes "void plastic red 0 0 5 1 0 0 0 0\nblue polygon p2 0 0 9 0 0 3 1 0 3 0 1 3\n")).bind fun s => .ok s.front) = .panic := by
  decide +kernel

/-- C65: a state in the middle of a text, on the second line. -/
example : ∃ r, Scanning text r ∧ r.line = 1 ∧ r.done = false := by
  have h : ∃ r, ((List.range 12).foldl (fun (x : Res RadReader) _ => x.bind fun r => (r.consumeToken text).bind fun y => .ok y.2) (.ok {})) = .ok r ∧ r.line = 1 ∧ r.done = false := by
    refine ⟨{ index := 37, done := false, modifiers := [], line := 1 }, by decide +kernel, rfl, rfl⟩
  have key : ∀ (l : List Nat) (r0 r1 : RadReader), Scanning text r0 →
      l.foldl (fun (x : Res RadReader) _ => x.bind fun r => (r.consumeToken text).bind fun y => .ok y.2) (.ok r0) = .ok r1 → Scanning text r1 := by
    intro l
    induction l with
    | nil => intro r0 r1 h0 h1; cases h1; exact h0
    | cons a l ih =>
      intro r0 r1 h0 h1
      simp only [List.foldl_cons, Res.bind_ok] at h1
      cases hc : r0.consumeToken text with
      | ok y =>
        rw [hc, Res.bind_ok] at h1
        exact ih y.2 r1 (.token r0 y.2 y.1 h0 hc) h1
      | panic =>
        rw [hc] at h1
        have : ∀ l : List Nat, l.foldl (fun (x : Res RadReader) _ => x.bind fun r => (r.consumeToken text).bind fun y => .ok y.2) .panic = .panic := by
          intro l; induction l with
          | nil => rfl
          | cons a l ih => exact ih
        simp only [Res.bind_panic] at h1
        rw [this] at h1; cases h1
      | diverge =>
        rw [hc] at h1
        have : ∀ l : List Nat, l.foldl (fun (x : Res RadReader) _ => x.bind fun r => (r.consumeToken text).bind fun y => .ok y.2) .diverge = .diverge := by
          intro l; induction l with
          | nil => rfl
          | cons a l ih => exact ih
        simp only [Res.bind_diverge] at h1
        rw [this] at h1; cases h1
  obtain ⟨r, h1, h2⟩ := h
  exact ⟨r, key _ _ _ .start h1, h2⟩

/-- C67, C66: both texts give the same scene, and the text without a definition of its modifier none. -/
theorem text'_laidOut : LaidOut (tokensOf text) text' := by
  have : tokensOf text = tokensOf text' := by decide +kernel
  rw [this]; exact laidOut_tokensOf text'

example := C67_layout_does_not_matter env (tokensOf text) text text' (laidOut_tokensOf text) text'_laidOut

theorem text_read : ∃ s, Scene.fromRadianceSource env text = .ok s ∧ s.triangles.length = 2 := by
  have h : ((Scene.fromRadianceSource env text).bind fun s => .ok s.triangles.length) = .ok 2 := by decide +kernel
  obtain ⟨s, h1, h2⟩ := ok_of_bind h
  exact ⟨s, h1, Res.ok.inj h2⟩

example : ∃ s items, Scene.fromRadianceSource env text = .ok s ∧ Describes env (tokensOf text) items ∧ s.rows = pushedRows env.scene (itemOps [] items) := by
  obtain ⟨s, hs, _⟩ := text_read
  obtain ⟨items, h1, _, h2, _⟩ := C66_objects_get_their_material env refMesh text s hs
  exact ⟨s, items, hs, h1, h2⟩

end RadianceExamples
end Rendering
