import Verif.Props.Clearer

/-!
# C142: paint in a room with mirrors and windows, and how much brighter it makes it
-/

set_option linter.unusedSectionVars false
namespace Rendering

open MeasureTheory Set

variable {w : World} {s s' b' : Scene ℝ} {R : Spectrum ℝ → Spectrum ℝ → Prop}

/-- The same ray with any weight and colour. -/
def Alike (x y : TRay) : Prop := y = { x with value := y.value, colour := y.colour }

/-- A mirror, pane or dielectric offers the same paths with the same weights to rays that differ in the weight carried. -/
theorem offered_alike (m : Material ℝ) {x y : TRay} (h : Alike x y) : List.Forall₂ (fun p q => Alike p.1 q.1 ∧ q.2 = p.2 ∧ p.1.value = x.value ∧ q.1.value = y.value ∧ p.1.depth = x.depth) (offered m x) (offered m y) := by
  obtain ⟨g, η, it, d, v, cx⟩ := x
  obtain ⟨g', η', it', d', v', cy⟩ := y
  simp only [Alike, TRay.mk.injEq, and_true, true_and] at h
  obtain ⟨rfl, rfl, rfl, rfl⟩ := h
  cases m with
  | plastic => exact .nil
  | metal => exact .nil
  | light => exact .nil
  | mirror c =>
    simp only [offered, Material.getPossiblePaths, mirrorPaths, mirrorBsdf, Paths.toList, Option.toList_some, Option.toList_none, List.append_nil]
    exact .cons ⟨rfl, rfl, rfl, rfl, rfl⟩ .nil
  | glass c n =>
    simp only [offered, Material.getPossiblePaths, glassPaths, Paths.toList, Option.toList_some, List.cons_append, List.nil_append]
    refine .cons ⟨rfl, rfl, rfl, rfl, rfl⟩ ?_
    split_ifs
    · exact .cons ⟨rfl, rfl, rfl, rfl, rfl⟩ .nil
    · exact .nil
  | dielectric c n =>
    have e : cosAndN ⟨g', η', it', d', v', cy⟩ it'.shading.normal n = cosAndN ⟨g', η', it', d', v, cx⟩ it'.shading.normal n := rfl
    simp only [offered, Material.getPossiblePaths, dielectricPaths, e, Paths.toList, Option.toList_some, List.cons_append, List.nil_append]
    refine .cons ⟨rfl, rfl, rfl, rfl, rfl⟩ ?_
    cases (cosAndN ⟨g', η', it', d', v, cx⟩ it'.shading.normal n).2.2.2 with
    | none => exact .nil
    | some c2 => exact .cons ⟨rfl, rfl, rfl, rfl, rfl⟩ .nil

/-- The repainted scene is as simple as the original. -/
theorem World.SunlitGlazed.repainted (hW : w.SunlitGlazed s) (hs : s.SunsShine) (h : s.Repainted R s') (hR : ∀ c c', R c c' → c'.Nonneg) (hb : s'.BuiltFrom w.env b') : World.SunlitGlazed { w with scene := b' } s' where
  renders := by
    refine ⟨hW.renders.lawful, hW.renders.box, ?_, ?_, hb⟩
    · have := hW.renders.aligned
      rw [h.same]; exact this
    · have := hW.renders.fits
      rw [h.same]; exact this
  indices := by
    have hl : s'.materials.length = s.materials.length := h.paint.length_eq.symm
    obtain ⟨h1, h2, h3, h4⟩ := hW.indices
    unfold Scene.IndicesValid
    rw [hl, h.same]
    exact ⟨h1, h2, h3, h4⟩
  perp := hW.perp
  box := hW.box
  flat := by rw [h.same]; exact hW.flat
  sky := hW.sky
  lamps := by rw [h.same]; exact hW.lamps
  suns := by
    intro sun hsun
    have hsun' : sun ∈ s.distantLights := by rw [h.same] at hsun; exact hsun
    obtain ⟨d, a, L, D, h1, h2⟩ := hW.suns sun hsun'
    exact ⟨d, a, L, D, h1.repainted h hs hsun' b', h2⟩
  surfaces := by
    intro k m hk hmem
    have hmem' : k ∈ s.front ++ s.back := by rw [h.same] at hmem; exact hmem
    rcases repainted_get h.paint k with ⟨_, h2⟩ | ⟨m0, m', h1, h2, hm⟩
    · rw [h2] at hk; cases hk
    · rw [h2] at hk
      cases hk
      have hM := hW.surfaces k m0 h1 hmem'
      cases hm with
      | plastic c c' r' hc' => exact Or.inl ⟨c', r', by simp, hR _ _ hc'⟩
      | metal c c' r' hc' => exact Or.inl ⟨c', r', by simp, hR _ _ hc'⟩
      | other => exact hM

/-- A mirror, pane or dielectric is not painted. -/
theorem Material.Repainted.specular {m m' : Material ℝ} (h : m.Repainted R m') : m'.specularOnly = m.specularOnly ∧ (m.specularOnly = true → m' = m) := by
  cases h with
  | plastic => exact ⟨rfl, fun h => by cases h⟩
  | metal => exact ⟨rfl, fun h => by cases h⟩
  | other => exact ⟨rfl, fun _ => rfl⟩

/-- A matt material and its successor. -/
theorem repainted_colours {m m' : Material ℝ} {col : Spectrum ℝ} {r : ℝ} (hm : m ∈ [Material.plastic col 0 r, Material.metal col 0 r]) (h : m.Repainted R m') : ∃ col', m' ∈ [Material.plastic col' 0 r, Material.metal col' 0 r] ∧ R col col' := by
  cases h with
  | plastic c c' r' hc' =>
    have e : c = col ∧ r' = r := by simpa using hm
    exact ⟨c', by simp [e.2], e.1 ▸ hc'⟩
  | metal c c' r' hc' =>
    have e : c = col ∧ r' = r := by simpa using hm
    exact ⟨c', by simp [e.2], e.1 ▸ hc'⟩
  | other _ ho => exact absurd hm (ho col r)

/-- What one ray meets in both scenes. -/
theorem meets_repainted (hW : w.SunlitGlazed s) (hbb : w.scene.Repainted R b') {x y : TRay} (hxy : Alike x y) (hu : Norm x.geometry.direction = 1) :
    (w.cast x = .ok none ∧ World.cast { w with scene := b' } y = .ok none) ∨
    ∃ i bk tri m m' it, FlatSide w s i bk tri m ∧ ArrivesAt x.geometry bk tri it ∧ w.cast x = .ok (some (i, { x with interaction := it })) ∧ w.materialAt it.shading.side i = .ok m ∧ m.Repainted R m' ∧
      World.cast { w with scene := b' } y = .ok (some (i, { y with interaction := it })) ∧ World.materialAt { w with scene := b' } it.shading.side i = .ok m' := by
  obtain ⟨code, -, hall⟩ := disc_flat hW.toSunlit
  have hg : x.geometry = y.geometry := by rw [hxy]
  have hc' : World.cast { w with scene := b' } y = w.cast y := cast_repainted hbb rfl y
  have huy : Norm y.geometry.direction = 1 := by rw [← hg]; exact hu
  rcases hall x hu with ⟨h1, hc⟩ | ⟨i, bk, tri, m, it, -, hS, hc, ha⟩
  · refine Or.inl ⟨hc, ?_⟩
    rw [hc']
    rcases hall y huy with ⟨-, h⟩ | ⟨i, bk, tri, m, it, h2, -⟩
    · exact h
    · rw [← hg, h1] at h2; cases h2
  · have hmat := hS.material
    rw [← ha.side] at hmat
    obtain ⟨m', hmat', hmm⟩ := materialAt_repainted hbb rfl _ _ m hmat
    exact Or.inr ⟨i, bk, tri, m, m', it, hS, ha, hc, hmat, hmm, by rw [hc']; exact cast_same x y hg hc, hmat'⟩

/-- Paint doesn't change how far rays go. -/
theorem ends_repainted (hW : w.SunlitGlazed s) (hbb : w.scene.Repainted R b') (rt : RayTracer) (n : ℕ) :
    ∀ x y : TRay, Alike x y → Norm x.geometry.direction = 1 → 0 < x.refractionIndex → w.EndsWithin rt n x → World.EndsWithin { w with scene := b' } rt n y := by
  induction n with
  | zero => exact fun _ _ _ _ _ h => h
  | succ n ih =>
    intro x y hxy hu hη hE
    unfold World.EndsWithin at hE ⊢
    rcases meets_repainted hW hbb hxy hu with ⟨-, hc'⟩ | ⟨i, bk, tri, m, m', it, hS, ha, hc, hmat, hmm, hc', hmat'⟩
    · rw [hc']; trivial
    simp only [hc, hmat] at hE
    simp only [hc', hmat']
    intro hd
    have hdepth : y.depth = x.depth := by rw [hxy]
    have hE := hE (by rw [← hdepth]; exact hd)
    rw [hmm.specular.1]
    have hal : Alike { x with interaction := it } { y with interaction := it } := by unfold Alike; rw [hxy]
    by_cases hsp : m.specularOnly = true
    · rw [if_pos hsp] at hE ⊢
      rw [hmm.specular.2 hsp]
      have hPh : m.Physical := by
        rcases hS.kind hW with ⟨col, r, hM⟩ | ⟨-, h⟩
        · rw [(matt_only_flags hM.matt).2.1] at hsp; cases hsp
        · exact h
      have hunit := offered_unit hS hsp hPh hη ha hu
      intro q hq
      obtain ⟨p, hp, hpq, -⟩ : ∃ p ∈ offered m { x with interaction := it }, Alike p.1 q.1 ∧ True := by
        have key : ∀ {l l' : List (TRay × Spectrum ℝ)}, List.Forall₂ (fun p q => Alike p.1 q.1 ∧ q.2 = p.2 ∧ p.1.value = x.value ∧ q.1.value = y.value ∧ p.1.depth = x.depth) l l' → q ∈ l' → ∃ p ∈ l, Alike p.1 q.1 ∧ True := by
          intro l l' hl hq
          induction hl with
          | nil => cases hq
          | cons h _ ih =>
            rcases List.mem_cons.1 hq with rfl | hq
            · exact ⟨_, List.mem_cons_self, h.1, trivial⟩
            · obtain ⟨p, h1, h2⟩ := ih hq
              exact ⟨p, List.mem_cons_of_mem _ h1, h2⟩
        exact key (offered_alike m hal) hq
      obtain ⟨u1, u2⟩ := hunit p hp
      refine ⟨fun h => ih p.1.counted q.1.counted ?_ u1 u2 ((hE p hp).1 h), fun h => ih p.1 q.1 hpq u1 u2 ((hE p hp).2 h)⟩
      unfold Alike TRay.counted
      rw [hpq]
    · rw [if_neg hsp] at hE ⊢
      intro l hl
      refine ih (TRay.onward { x with interaction := it } m l) _ ?_ ?_ hη (hE l hl)
      · unfold Alike TRay.onward
        rw [hxy]
      · have hl2 : l.x ^ 2 + l.y ^ 2 + l.z ^ 2 = 1 := by
          have := Dot_self_of_norm hl; simp only [Dot] at this; nlinarith
        have := (world_unit hS.frame hl2).1
        rw [world_eq] at this
        simp only [TRay.onward, ha.normal, ha.dpdu, ha.dpdv]
        exact this

theorem sum_forall₂ {l l' : List (TRay × Spectrum ℝ)} {P : TRay × Spectrum ℝ → TRay × Spectrum ℝ → Prop} (h : List.Forall₂ P l l') {F F' : TRay × Spectrum ℝ → ENNReal} (hF : ∀ p ∈ l, ∀ q, P p q → F p ≤ F' q) : (l.map F).sum ≤ (l'.map F').sum := by
  induction h with
  | nil => exact le_rfl
  | @cons p q l l' hpq _ ih =>
    simp only [List.map_cons, List.sum_cons]
    exact add_le_add (hF p List.mem_cons_self q hpq) (ih fun p hp => hF p (List.mem_cons_of_mem _ hp))

theorem mul_sum_list (F : ENNReal) (l : List (TRay × Spectrum ℝ)) (g : TRay × Spectrum ℝ → ENNReal) : F * (l.map g).sum = (l.map fun p => F * g p).sum := by
  induction l with
  | nil => simp
  | cons p l ih => simp only [List.map_cons, List.sum_cons, mul_add, ih]

/-- With colours at least `f` times brighter, at least `f` times as much light comes back (`f ≥ 1`). -/
theorem glazed_at_least (hW : w.SunlitGlazed s) (hs : s.SunsShine) {f : ℝ} (hf : 1 ≤ f) (h : s.Repainted (AtLeastTimes f) s') (hb : s'.BuiltFrom w.env b') (rt : RayTracer) (ch : Spectrum ℝ → ℝ) (hch : ch ∈ [Spectrum.c0, Spectrum.c1, Spectrum.c2]) (n : ℕ) :
    ∀ x y : TRay, Beside x y → Norm x.geometry.direction = 1 → 0 < x.refractionIndex → ENNReal.ofReal f * glazedLight w rt ch n x ≤ glazedLight { w with scene := b' } rt ch n y := by
  have hR : ∀ c c', AtLeastTimes f c c' → c'.Nonneg := fun c c' hc => brighter_nonneg c c' (brighter_of_times hf c c' hc)
  have hW' := hW.repainted hs h hR hb
  have hbb : w.scene.Repainted (AtLeastTimes f) b' := built_repainted w.env h hW.renders.built hb
  obtain ⟨suns, hsuns⟩ := suns_exist hW.toSunlit
  have hsuns' := hsuns.repainted h hs b'
  obtain ⟨S, -, hfree, -⟩ := sight_exists hW.renders
  have hfree' : ∀ p v D, S.free p v D ↔ b'.unobstructedDistance w.env ⟨p, v⟩ D [] = .ok true := fun p v D => by rw [free_repainted hbb]; exact hfree p v D
  obtain ⟨axes⟩ := axes_exist
  have hF : (1 : ENNReal) ≤ ENNReal.ofReal f := by rw [← ENNReal.ofReal_one]; exact ENNReal.ofReal_le_ofReal hf
  induction n with
  | zero => intro x y _ _ _; simp [glazedLight]
  | succ n ih =>
    intro x y hxy hu hη
    rw [glazedLight, glazedLight]
    rcases meets_repainted hW hbb hxy.1 hu with ⟨hc, -⟩ | ⟨i, bk, tri, m, m', it, hS, ha, hc, hmat, hmm, hc', hmat'⟩
    · rw [hc]; simp
    simp only [hc, hmat, hc', hmat']
    have hdepth : y.depth = x.depth := by rw [hxy.1]
    by_cases hdeep : rt.maxDepth < x.depth
    · rw [if_pos hdeep]; simp
    have hdeep' : ¬ rt.maxDepth < y.depth := by rw [hdepth]; exact hdeep
    rw [if_neg hdeep, if_neg hdeep', hmm.specular.1]
    by_cases hsp : m.specularOnly = true
    · rw [if_pos hsp, if_pos hsp, hmm.specular.2 hsp, mul_sum_list]
      have hPh : m.Physical := by
        rcases hS.kind hW with ⟨col, r, hM⟩ | ⟨-, h⟩
        · rw [(matt_only_flags hM.matt).2.1] at hsp; cases hsp
        · exact h
      have hunit := offered_unit hS hsp hPh hη ha hu
      have hal : Alike { x with interaction := it } { y with interaction := it } := by unfold Alike; rw [hxy.1]
      refine sum_forall₂ (offered_alike m hal) fun p hp q hpq => ?_
      obtain ⟨u1, u2⟩ := hunit p hp
      obtain ⟨a1, a2, a3, a4, a5⟩ := hpq
      have hbes : Beside p.1 q.1 := ⟨a1, by rw [a3]; exact hxy.2.1, by rw [a3, a4]; exact hxy.2.2⟩
      have hbes' : Beside p.1.counted q.1.counted := ⟨by simp only [TRay.counted]; rw [a1], hbes.2⟩
      rw [a2]
      calc ENNReal.ofReal f * (ENNReal.ofReal (ch p.2) * (countedChance rt * glazedLight w rt ch n p.1.counted + (1 - countedChance rt) * glazedLight w rt ch n p.1))
          = ENNReal.ofReal (ch p.2) * (countedChance rt * (ENNReal.ofReal f * glazedLight w rt ch n p.1.counted) + (1 - countedChance rt) * (ENNReal.ofReal f * glazedLight w rt ch n p.1)) := by ring
        _ ≤ _ := mul_le_mul' le_rfl (add_le_add (mul_le_mul' le_rfl (ih _ _ hbes' u1 u2)) (mul_le_mul' le_rfl (ih _ _ hbes u1 u2)))
    · rw [if_neg hsp, if_neg hsp]
      rcases hS.kind hW with ⟨col, r, hM⟩ | ⟨h1, -⟩
      swap
      · exact absurd h1 hsp
      obtain ⟨-, -, hcc⟩ := matt_only_flags hM.matt
      obtain ⟨col', hm', hcol⟩ := repainted_colours hM.matt hmm
      obtain ⟨-, -, hcc'⟩ := matt_only_flags hm'
      have hcolB := brighter_of_times hf _ _ hcol
      have hpi := Real.pi_pos
      have hle : ENNReal.ofReal f * ENNReal.ofReal (ch col / Real.pi) ≤ ENNReal.ofReal (ch col' / Real.pi) := by
        rw [← ENNReal.ofReal_mul (by linarith)]
        refine ENNReal.ofReal_le_ofReal ?_
        rw [← mul_div_assoc]
        refine div_le_div_of_nonneg_right ?_ hpi.le
        refine le_trans (le_of_eq ?_) (channel_atMost hcol.2 hch)
        simp only [List.mem_cons, List.not_mem_nil, or_false] at hch
        rcases hch with rfl | rfl | rfl <;> rfl
      rw [sunlight_exact hW.toSunlit suns hsuns m col r hM.matt hM.nonneg ch hch S hfree axes, sunlight_exact hW'.toSunlit suns hsuns' m' col' r hm' (hR _ _ hcol) ch hch S hfree' axes, mul_add]
      refine add_le_add ?_ ?_
      · rw [← mul_assoc]
        exact mul_le_mul' hle le_rfl
      · have hr0 : 0 ≤ m.colour.radiance := by
          rw [hcc]
          have : Spectrum.AtMost ⟨0, 0, 0⟩ col := hM.nonneg
          have h := radiance_atMost this
          have e0 : (⟨0, 0, 0⟩ : Spectrum ℝ).radiance = 0 := by simp [Spectrum.radiance, Spectrum.channels, Spectrum.radianceCoefficients]
          rwa [e0] at h
        have hrad : m.colour.radiance ≤ m'.colour.radiance := by rw [hcc, hcc']; exact radiance_atMost hcolB.2
        have hfo : followChance rt x.depth x.value ≤ followChance rt y.depth y.value := by rw [hdepth]; exact follow_mono rt _ hxy.2.1 hxy.2.2
        have hI : irradiance (fun l => glazedLight w rt ch n (TRay.onward { x with interaction := it } m l)) ≤ irradiance (fun l => glazedLight { w with scene := b' } rt ch n (TRay.onward { y with interaction := it } m' l)) := by
          refine irradiance_mono_unit fun l hl => ?_
          refine le_trans ?_ (ih (TRay.onward { x with interaction := it } m l) (TRay.onward { y with interaction := it } m' l) ⟨?_, mul_nonneg hxy.2.1 hr0, mul_le_mul hxy.2.2 hrad hr0 (hxy.2.1.trans hxy.2.2)⟩ ?_ hη)
          · exact le_mul_of_one_le_left zero_le hF
          · simp only [TRay.onward]
            rw [hxy.1]
          · have hl2 : l.x ^ 2 + l.y ^ 2 + l.z ^ 2 = 1 := by
              have := Dot_self_of_norm hl; simp only [Dot] at this; nlinarith
            have := (world_unit hS.frame hl2).1
            rw [world_eq] at this
            simp only [TRay.onward, ha.normal, ha.dpdu, ha.dpdv]
            exact this
        rw [hcc, hcc']
        refine le_trans (le_of_eq ?_) (mul_le_mul' hfo (mul_le_mul' hle hI))
        ring

/-- With colours up to `f` times brighter, the light grows at most `f` times with every matt surface that a path may meet. -/
theorem glazed_up_to (hW : w.SunlitGlazed s) (hs : s.SunsShine) {f : ℝ} (hf : 1 ≤ f) (h : s.Repainted (UpToTimes f) s') (hb : s'.BuiltFrom w.env b') (rt : RayTracer) (hlim : rt.limitWeight = 0) (ch : Spectrum ℝ → ℝ) (hch : ch ∈ [Spectrum.c0, Spectrum.c1, Spectrum.c2]) (n : ℕ) :
    ∀ x y : TRay, Alike x y → Norm x.geometry.direction = 1 → 0 < x.refractionIndex → glazedLight { w with scene := b' } rt ch n y ≤ ENNReal.ofReal f ^ (rt.maxDepth + 1 - x.depth) * glazedLight w rt ch n x := by
  have hR : ∀ c c', UpToTimes f c c' → c'.Nonneg := fun c c' hc => hc.2.1
  have hW' := hW.repainted hs h hR hb
  have hbb : w.scene.Repainted (UpToTimes f) b' := built_repainted w.env h hW.renders.built hb
  obtain ⟨suns, hsuns⟩ := suns_exist hW.toSunlit
  have hsuns' := hsuns.repainted h hs b'
  obtain ⟨S, -, hfree, -⟩ := sight_exists hW.renders
  have hfree' : ∀ p v D, S.free p v D ↔ b'.unobstructedDistance w.env ⟨p, v⟩ D [] = .ok true := fun p v D => by rw [free_repainted hbb]; exact hfree p v D
  obtain ⟨axes⟩ := axes_exist
  have hF : (1 : ENNReal) ≤ ENNReal.ofReal f := by rw [← ENNReal.ofReal_one]; exact ENNReal.ofReal_le_ofReal hf
  induction n with
  | zero => intro x y _ _ _; simp [glazedLight]
  | succ n ih =>
    intro x y hxy hu hη
    rw [glazedLight, glazedLight]
    rcases meets_repainted hW hbb hxy hu with ⟨-, hc'⟩ | ⟨i, bk, tri, m, m', it, hS, ha, hc, hmat, hmm, hc', hmat'⟩
    · rw [hc']; exact zero_le
    simp only [hc, hmat, hc', hmat']
    have hdepth : y.depth = x.depth := by rw [hxy]
    by_cases hdeep : rt.maxDepth < x.depth
    · rw [if_pos (by rw [hdepth]; exact hdeep)]; exact zero_le
    have hdeep' : ¬ rt.maxDepth < y.depth := by rw [hdepth]; exact hdeep
    rw [if_neg hdeep, if_neg hdeep', hmm.specular.1]
    by_cases hsp : m.specularOnly = true
    · rw [if_pos hsp, if_pos hsp, hmm.specular.2 hsp, mul_sum_list]
      have hPh : m.Physical := by
        rcases hS.kind hW with ⟨col, r, hM⟩ | ⟨-, h⟩
        · rw [(matt_only_flags hM.matt).2.1] at hsp; cases hsp
        · exact h
      have hunit := offered_unit hS hsp hPh hη ha hu
      have hal : Alike { x with interaction := it } { y with interaction := it } := by unfold Alike; rw [hxy]
      have hflip : List.Forall₂ (fun q p => Alike p.1 q.1 ∧ q.2 = p.2 ∧ p.1.depth = x.depth ∧ p ∈ offered m { x with interaction := it }) (offered m { y with interaction := it }) (offered m { x with interaction := it }) := by
        have key : ∀ {l l' : List (TRay × Spectrum ℝ)}, List.Forall₂ (fun p q => Alike p.1 q.1 ∧ q.2 = p.2 ∧ p.1.value = x.value ∧ q.1.value = y.value ∧ p.1.depth = x.depth) l l' → (∀ p ∈ l, p ∈ offered m { x with interaction := it }) → List.Forall₂ (fun q p => Alike p.1 q.1 ∧ q.2 = p.2 ∧ p.1.depth = x.depth ∧ p ∈ offered m { x with interaction := it }) l' l := by
          intro l l' hl hm
          induction hl with
          | nil => exact .nil
          | cons h _ ih => exact .cons ⟨h.1, h.2.1, h.2.2.2.2, hm _ List.mem_cons_self⟩ (ih fun p hp => hm p (List.mem_cons_of_mem _ hp))
        exact key (offered_alike m hal) fun _ hp => hp
      refine sum_forall₂ hflip fun q _ p hpq => ?_
      obtain ⟨a1, a2, a5, hp⟩ := hpq
      obtain ⟨u1, u2⟩ := hunit p hp
      have i1 := ih p.1.counted q.1.counted (by unfold Alike TRay.counted; rw [a1]) u1 u2
      have i2 := ih p.1 q.1 a1 u1 u2
      rw [a5] at i2
      have hpow : ENNReal.ofReal f ^ (rt.maxDepth + 1 - p.1.counted.depth) ≤ ENNReal.ofReal f ^ (rt.maxDepth + 1 - x.depth) := pow_le_pow_right₀ hF (by simp only [TRay.counted, a5]; omega)
      have i1 := i1.trans (mul_le_mul' hpow le_rfl)
      rw [a2]
      calc _ ≤ ENNReal.ofReal (ch p.2) * (countedChance rt * (ENNReal.ofReal f ^ (rt.maxDepth + 1 - x.depth) * glazedLight w rt ch n p.1.counted) + (1 - countedChance rt) * (ENNReal.ofReal f ^ (rt.maxDepth + 1 - x.depth) * glazedLight w rt ch n p.1)) :=
            mul_le_mul' le_rfl (add_le_add (mul_le_mul' le_rfl i1) (mul_le_mul' le_rfl i2))
        _ = _ := by ring
    · rw [if_neg hsp, if_neg hsp]
      rcases hS.kind hW with ⟨col, r, hM⟩ | ⟨h1, -⟩
      swap
      · exact absurd h1 hsp
      obtain ⟨-, -, hcc⟩ := matt_only_flags hM.matt
      obtain ⟨col', hm', hcol⟩ := repainted_colours hM.matt hmm
      obtain ⟨-, -, hcc'⟩ := matt_only_flags hm'
      have hpi := Real.pi_pos
      have hle : ENNReal.ofReal (ch col' / Real.pi) ≤ ENNReal.ofReal f * ENNReal.ofReal (ch col / Real.pi) := by
        rw [← ENNReal.ofReal_mul (by linarith)]
        refine ENNReal.ofReal_le_ofReal ?_
        rw [← mul_div_assoc]
        refine div_le_div_of_nonneg_right ?_ hpi.le
        refine (channel_atMost hcol.2.2 hch).trans (le_of_eq ?_)
        simp only [List.mem_cons, List.not_mem_nil, or_false] at hch
        rcases hch with rfl | rfl | rfl <;> rfl
      have hfo : followChance rt y.depth y.value = followChance rt x.depth x.value := by
        rw [hdepth]; unfold followChance; simp only [hlim, if_true]
      have hpow : rt.maxDepth + 1 - x.depth = (rt.maxDepth - x.depth) + 1 := by omega
      rw [sunlight_exact hW.toSunlit suns hsuns m col r hM.matt hM.nonneg ch hch S hfree axes, sunlight_exact hW'.toSunlit suns hsuns' m' col' r hm' (hR _ _ hcol) ch hch S hfree' axes, mul_add]
      refine add_le_add ?_ ?_
      · rw [← mul_assoc]
        refine mul_le_mul' (hle.trans (mul_le_mul' ?_ le_rfl)) le_rfl
        calc ENNReal.ofReal f = ENNReal.ofReal f ^ 1 := (pow_one _).symm
          _ ≤ _ := pow_le_pow_right₀ hF (by omega)
      · have hI : irradiance (fun l => glazedLight { w with scene := b' } rt ch n (TRay.onward { y with interaction := it } m' l)) ≤ irradiance (fun l => ENNReal.ofReal f ^ (rt.maxDepth - x.depth) * glazedLight w rt ch n (TRay.onward { x with interaction := it } m l)) := by
          refine irradiance_mono_unit fun l hl => ?_
          refine le_trans (ih (TRay.onward { x with interaction := it } m l) (TRay.onward { y with interaction := it } m' l) ?_ ?_ hη) (le_of_eq ?_)
          · unfold Alike TRay.onward
            rw [hxy]
          · have hl2 : l.x ^ 2 + l.y ^ 2 + l.z ^ 2 = 1 := by
              have := Dot_self_of_norm hl; simp only [Dot] at this; nlinarith
            have := (world_unit hS.frame hl2).1
            rw [world_eq] at this
            simp only [TRay.onward, ha.normal, ha.dpdu, ha.dpdv]
            exact this
          · congr 2
            simp only [TRay.onward]
            omega
        rw [irradiance_mul _ (ENNReal.pow_ne_top ENNReal.ofReal_ne_top)] at hI
        simp only [hcc, hcc', hfo, hpow] at hI ⊢
        refine (mul_le_mul' (le_refl (followChance rt x.depth x.value)) (mul_le_mul' hle hI)).trans (le_of_eq ?_)
        rw [pow_succ]; ring

/-- **C142, at least.** In a scene with mirrors, panes and dielectrics, painting the matt surfaces at least `f ≥ 1` times brighter makes the mean of what comes back along any ray, in any channel, at least `f` times brighter; and rays end as soon as before. -/
theorem C142_at_least (hW : w.SunlitGlazed s) (hs : s.SunsShine) (ops ops' : List (SceneOp ℝ)) (hrun : Scene.run w.env {} ops = .ok s) (f : ℝ) (hf : 1 ≤ f) (ho : List.Forall₂ (SceneOp.Repainted (AtLeastTimes f)) ops ops') :
    ∃ s', Scene.run w.env {} ops' = .ok s' ∧ ∀ b', s'.BuiltFrom w.env b' → ∀ (rt : RayTracer), 0 < rt.nShadowSamples → ∀ ch ∈ [Spectrum.c0, Spectrum.c1, Spectrum.c2], ∀ (rays : List TRay), rt.maxDepth < rays.length → ∀ (ray : TRay), Norm ray.geometry.direction = 1 →
      0 ≤ ray.value → 0 < ray.refractionIndex → ∀ n, w.EndsWithin rt n ray → World.EndsWithin { w with scene := b' } rt n ray ∧ ∀ fuel, n + rt.nShadowSamples + rt.nAmbientSamples + 2 ≤ fuel →
      ENNReal.ofReal f * ∫⁻ r, seenLight (traceRay w rt fuel ⟨r, rays⟩ ray) ch ∂randomNumbers ≤ ∫⁻ r, seenLight (traceRay { w with scene := b' } rt fuel ⟨r, rays⟩ ray) ch ∂randomNumbers := by
  obtain ⟨s', h', hrep⟩ := run_repainted w.env ho nil_repainted hrun
  refine ⟨s', h', fun b' hb rt hsh ch hch rays hlen ray hu hv hη n hE => ?_⟩
  have hE' := ends_repainted hW (built_repainted w.env hrep hW.renders.built hb) rt n ray ray rfl hu hη hE
  refine ⟨hE', fun fuel hfuel => ?_⟩
  have hW' := hW.repainted hs hrep (fun c c' hc => brighter_nonneg c c' (brighter_of_times hf c c' hc)) hb
  rw [C123_mean_light hW rt hsh ch hch rays hlen ray hu hv hη n hE fuel hfuel, C123_mean_light hW' rt hsh ch hch rays hlen ray hu hv hη n hE' fuel hfuel]
  exact glazed_at_least hW hs hf hrep hb rt ch hch n ray ray ⟨rfl, hv, le_rfl⟩ hu hη

/-- **C142, at most.** With `limit_weight` 0, colours of the matt surfaces that are up to `f ≥ 1` times brighter make the mean of what comes back at most `f^(max_depth + 1)` times brighter, however many mirrors, panes and dielectrics are passed. -/
theorem C142_at_most (hW : w.SunlitGlazed s) (hs : s.SunsShine) (ops ops' : List (SceneOp ℝ)) (hrun : Scene.run w.env {} ops = .ok s) (f : ℝ) (hf : 1 ≤ f) (ho : List.Forall₂ (SceneOp.Repainted (UpToTimes f)) ops ops') :
    ∃ s', Scene.run w.env {} ops' = .ok s' ∧ ∀ b', s'.BuiltFrom w.env b' → ∀ (rt : RayTracer), 0 < rt.nShadowSamples → rt.limitWeight = 0 → ∀ ch ∈ [Spectrum.c0, Spectrum.c1, Spectrum.c2], ∀ (rays : List TRay), rt.maxDepth < rays.length → ∀ (ray : TRay), Norm ray.geometry.direction = 1 →
      0 ≤ ray.value → 0 < ray.refractionIndex → ∀ n, w.EndsWithin rt n ray → ∀ fuel, n + rt.nShadowSamples + rt.nAmbientSamples + 2 ≤ fuel →
      ∫⁻ r, seenLight (traceRay { w with scene := b' } rt fuel ⟨r, rays⟩ ray) ch ∂randomNumbers ≤ ENNReal.ofReal f ^ (rt.maxDepth + 1 - ray.depth) * ∫⁻ r, seenLight (traceRay w rt fuel ⟨r, rays⟩ ray) ch ∂randomNumbers := by
  obtain ⟨s', h', hrep⟩ := run_repainted w.env ho nil_repainted hrun
  refine ⟨s', h', fun b' hb rt hsh hlim ch hch rays hlen ray hu hv hη n hE fuel hfuel => ?_⟩
  have hE' := ends_repainted hW (built_repainted w.env hrep hW.renders.built hb) rt n ray ray rfl hu hη hE
  have hW' := hW.repainted hs hrep (fun _ _ hc => hc.2.1) hb
  rw [C123_mean_light hW rt hsh ch hch rays hlen ray hu hv hη n hE fuel hfuel, C123_mean_light hW' rt hsh ch hch rays hlen ray hu hv hη n hE' fuel hfuel]
  exact glazed_up_to hW hs hf hrep hb rt hlim ch hch n ray ray rfl hu hη

/-- **C142, pictures.** … and so does the mean of every pixel of a picture grow, whatever the schedules and the generators: at least `f` times, and with `limit_weight` 0 at most `g^(max_depth + 1)` times if no colour grew more than `g` times. -/
theorem C142_picture (hW : w.SunlitGlazed s) (hs : s.SunsShine) (ops ops' : List (SceneOp ℝ)) (hrun : Scene.run w.env {} ops = .ok s) (f g : ℝ) (hf : 1 ≤ f) (hg1 : 1 ≤ g) (ho : List.Forall₂ (SceneOp.Repainted fun c c' => AtLeastTimes f c c' ∧ UpToTimes g c c') ops ops') :
    ∃ s', Scene.run w.env {} ops' = .ok s' ∧ ∀ b', s'.BuiltFrom w.env b' → ∀ (o : SpictOptions), o.Sized → o.camera.view.Proper → 0 < o.rt.nShadowSamples → o.rt.maxDepth < 15 → ∀ n fuel, n + o.rt.nShadowSamples + o.rt.nAmbientSamples + 2 ≤ fuel →
    (∀ p : Nat × Nat, p.1 < o.width → p.2 < o.height → w.EndsWithin o.rt n (o.camera.traceableRay p)) →
    ∀ {Ω : Type} [MeasurableSpace Ω] (μ : Measure Ω) (gen gen' : Ω → Nat → Rng), (∀ k, MeasurePreserving (fun ω => gen ω k) μ randomNumbers) → (∀ k, MeasurePreserving (fun ω => gen' ω k) μ randomNumbers) →
    ∀ state state' : Ω → RState TState (Spectrum ℝ), (∀ ω, o.Rendered w fuel (gen ω) (state ω)) → (∀ ω, o.Rendered { w with scene := b' } fuel (gen' ω) (state' ω)) → ∀ ch ∈ [Spectrum.c0, Spectrum.c1, Spectrum.c2], ∀ x y, x < o.width → y < o.height →
      ENNReal.ofReal f * ∫⁻ ω, ENNReal.ofReal (ch (pixelOf o.width o.height (state ω) x y)) ∂μ ≤ ∫⁻ ω, ENNReal.ofReal (ch (pixelOf o.width o.height (state' ω) x y)) ∂μ ∧
      (o.rt.limitWeight = 0 → ∫⁻ ω, ENNReal.ofReal (ch (pixelOf o.width o.height (state' ω) x y)) ∂μ ≤ ENNReal.ofReal g ^ (o.rt.maxDepth + 1) * ∫⁻ ω, ENNReal.ofReal (ch (pixelOf o.width o.height (state ω) x y)) ∂μ) := by
  obtain ⟨s', h', hrep⟩ := run_repainted w.env ho nil_repainted hrun
  refine ⟨s', h', fun b' hb o hsz hv hsh hD n fuel hfuel hE Ω _ μ gen gen' hg hg' state state' hst hst' ch hch x y hx hy => ?_⟩
  have hW' := hW.repainted hs hrep (fun _ _ hc => hc.2.2.1) hb
  have hu : ∀ p, Norm (o.camera.traceableRay p).geometry.direction = 1 := traceable_unit o hv
  have hη : ∀ p, 0 < (o.camera.traceableRay p).refractionIndex := fun p => by simp [Pinhole.traceableRay, TRay.default]
  have h0 : 0 ≤ (o.camera.traceableRay (x, y)).value := by simp [Pinhole.traceableRay, Pinhole.genRay]
  have hd : (o.camera.traceableRay (x, y)).depth = 0 := rfl
  have hE' := fun (p : Nat × Nat) (h1 : p.1 < o.width) (h2 : p.2 < o.height) => ends_repainted hW (built_repainted w.env hrep hW.renders.built hb) o.rt n (o.camera.traceableRay p) (o.camera.traceableRay p) rfl (hu p) (hη p) (hE p h1 h2)
  rw [C138_mean_picture hW o hsz hv hsh hD n fuel hfuel hE hg state hst ch hch x y hx hy, C138_mean_picture hW' o hsz hv hsh hD n fuel hfuel hE' hg' state' hst' ch hch x y hx hy]
  refine ⟨glazed_at_least hW hs hf (hrep.imp fun _ _ h => h.1) hb o.rt ch hch n _ _ ⟨rfl, h0, le_rfl⟩ (hu _) (hη _), fun hlim => ?_⟩
  have := glazed_up_to hW hs hg1 (hrep.imp fun _ _ h => h.2) hb o.rt hlim ch hch n (o.camera.traceableRay (x, y)) (o.camera.traceableRay (x, y)) rfl (hu _) (hη _)
  rwa [hd] at this

end Rendering
