import Verif.Spec.Panes
import Verif.Props.Mirrors
import Verif.Props.Glass

/-!
# C145: on average, pictures with mirrors and panes of glass show the light of the scene's geometry
-/

set_option linter.unusedSectionVars false
namespace Rendering

open MeasureTheory Set

variable {w : World} {s : Scene ℝ}

theorem World.SunlitPanes.glazed (hW : w.SunlitPanes s) : w.SunlitGlazed s := by
  refine ⟨hW.toSunlit, fun k m hm hk => ?_⟩
  obtain ⟨col, hn, rfl | ⟨r, h⟩ | ⟨n, rfl, h1, hf, -⟩⟩ := hW.surfaces k m hm hk
  · exact Or.inr ⟨rfl, hn⟩
  · exact Or.inl ⟨col, r, h, hn⟩
  · exact Or.inr ⟨rfl, hf, by linarith⟩

/-- A colour without brightness is black. -/
theorem black_of_radiance {c : Spectrum ℝ} (hc : c.Nonneg) (h : ¬ c.radiance > 0) : c.c0 = 0 ∧ c.c1 = 0 ∧ c.c2 = 0 := by
  obtain ⟨h0, h1, h2⟩ := hc
  simp only [Spectrum.radiance, Spectrum.channels, Spectrum.radianceCoefficients] at h
  norm_num at h
  refine ⟨?_, ?_, ?_⟩ <;> nlinarith

/-- The paths a pane offers, and their shares. -/
theorem pane_offered (colour : Spectrum ℝ) (n : ℝ) (hn : 1 ≤ n) (hf : colour.Fraction) (hclear : 1 / 10 ^ 15 ≤ colour.c0 ∨ 1 / 10 ^ 15 ≤ colour.c1 ∨ 1 / 10 ^ 15 ≤ colour.c2) (N d : Vec3 ℝ) (hN : Norm N = 1) (hd : Norm d = 1) (hdot : Dot N d < 0) (p : Vec3 ℝ) :
    ∃ outs : List (Ray3 ℝ × Spectrum ℝ), (∀ o ∈ outs, Norm o.1.direction = 1) ∧ (∀ arrived : TRay, arrived.geometry.direction = d → arrived.interaction.point = p → arrived.interaction.shading.normal = N → offered (.glass colour n) arrived = outs.map fun o => ({ arrived with geometry := o.1 }, o.2)) ∧
      ∀ ch : Spectrum ℝ → ℝ, ch ∈ [Spectrum.c0, Spectrum.c1, Spectrum.c2] → ∀ L : Ray3 ℝ → ENNReal, (outs.map fun o => ENNReal.ofReal (ch o.2) * L o.1).sum =
        ENNReal.ofReal (thrownBack (ch colour) n |Dot N d|) * L ⟨p + N.scale (1 / 10 ^ 5), mirrored d N⟩ + ENNReal.ofReal (letThrough (ch colour) n |Dot N d|) * L ⟨p - N.scale (1 / 10 ^ 5), d⟩ := by
  have hm : Norm (mirrored d N) = 1 := by
    have h := (C43_mirror_direction d N hN hd).1
    rwa [mirror_raw hN hd] at h
  have hnn := glassReflTrans_nonneg colour hf n (by linarith) N d
  have key : ∀ ch : Spectrum ℝ → ℝ, ch ∈ [Spectrum.c0, Spectrum.c1, Spectrum.c2] → ch (glassReflTrans colour n N d).1 = thrownBack (ch colour) n |Dot N d| ∧ ch (glassReflTrans colour n N d).2 = letThrough (ch colour) n |Dot N d| := by
    intro ch hch
    have hc : ∀ ch ∈ channelOf, 0 ≤ ch colour ∧ ch colour ≤ 1 := by
      intro ch hch
      simp only [channelOf, List.mem_cons, List.not_mem_nil, or_false] at hch
      rcases hch with rfl | rfl | rfl
      exacts [⟨hf.1.1, hf.2.1⟩, ⟨hf.1.2.1, hf.2.2.1⟩, ⟨hf.1.2.2, hf.2.2.2⟩]
    have hex : ∃ ch' ∈ channelOf, 1 / 10 ^ 15 ≤ ch' colour := by
      rcases hclear with h | h | h
      exacts [⟨_, by simp [channelOf], h⟩, ⟨Spectrum.c1, by simp [channelOf], h⟩, ⟨Spectrum.c2, by simp [channelOf], h⟩]
    obtain ⟨-, -, -, -, h⟩ := C48_glass_energy colour n N d hdot.ne hn hc ch hch
    obtain ⟨hT, hR⟩ := h hex
    constructor
    · have e := hR.tsum_eq
      unfold thrownBack
      have : ch (glassReflTrans colour n N d).1 = (faceTE n |Dot N d| (cosineInside n |Dot N d|) + faceTM n |Dot N d| (cosineInside n |Dot N d|)) / 2 + (ch (glassReflTrans colour n N d).1 - (faceTE n |Dot N d| (cosineInside n |Dot N d|) + faceTM n |Dot N d| (cosineInside n |Dot N d|)) / 2) := by ring
      rw [this]
      congr 1
      exact e.symm
    · exact hT.tsum_eq.symm
  by_cases hT : (glassReflTrans colour n N d).2.radiance > 0
  · refine ⟨[(⟨p + N.scale (1 / 10 ^ 5), mirrored d N⟩, (glassReflTrans colour n N d).1), (⟨p - N.scale (1 / 10 ^ 5), d⟩, (glassReflTrans colour n N d).2)], ?_, ?_, fun ch hch L => ?_⟩
    · intro o ho
      simp only [List.mem_cons, List.not_mem_nil, or_false] at ho
      rcases ho with rfl | rfl
      exacts [hm, hd]
    · rintro arrived rfl rfl rfl
      simp only [offered, Material.getPossiblePaths, glassPaths, hT, if_true, Paths.toList, Option.toList_some, mirror_raw hN hd]
      rfl
    · obtain ⟨k1, k2⟩ := key ch hch
      simp only [List.map_cons, List.map_nil, List.sum_cons, List.sum_nil, add_zero, k1, k2]
  · refine ⟨[(⟨p + N.scale (1 / 10 ^ 5), mirrored d N⟩, (glassReflTrans colour n N d).1)], ?_, ?_, fun ch hch L => ?_⟩
    · intro o ho
      rw [List.mem_singleton.1 ho]
      exact hm
    · rintro arrived rfl rfl rfl
      simp only [offered, Material.getPossiblePaths, glassPaths, hT, if_false, Paths.toList, Option.toList_some, Option.toList_none, List.append_nil, mirror_raw hN hd]
      rfl
    · obtain ⟨k1, k2⟩ := key ch hch
      have h0 : ch (glassReflTrans colour n N d).2 = 0 := by
        obtain ⟨e0, e1, e2⟩ := black_of_radiance hnn.2 hT
        simp only [List.mem_cons, List.not_mem_nil, or_false] at hch
        rcases hch with rfl | rfl | rfl
        exacts [e0, e1, e2]
      simp only [List.map_cons, List.map_nil, List.sum_cons, List.sum_nil, add_zero, k1, ← k2, h0, ENNReal.ofReal_zero, zero_mul]

/-- The program sees the scene as `S` does. -/
def World.PaneSight (w : World) (s : Scene ℝ) (suns : List SunDisc) (S : Sight) (axes : Axes) (ch : Spectrum ℝ → ℝ) : Prop := ∀ view : Ray3 ℝ, Norm view.direction = 1 →
    ((∀ ray : TRay, ray.geometry = view → w.cast ray = .ok none) ∧ ∀ L, s.paneRadiance suns S axes ch L view = 0) ∨
    ∃ i it m, (∀ ray : TRay, ray.geometry = view → w.cast ray = .ok (some (i, { ray with interaction := it }))) ∧ w.materialAt it.shading.side i = .ok m ∧
      ((m.specularOnly = true ∧ ∃ outs : List (Ray3 ℝ × Spectrum ℝ), (∀ o ∈ outs, Norm o.1.direction = 1) ∧ (∀ ray : TRay, ray.geometry = view → offered m { ray with interaction := it } = outs.map fun o => ({ ray with geometry := o.1, interaction := it }, o.2)) ∧
        ∀ L, s.paneRadiance suns S axes ch L view = (outs.map fun o => ENNReal.ofReal (ch o.2) * L o.1).sum) ∨
       (m.specularOnly = false ∧ (∀ (ray : TRay) l, ray.geometry = view → Norm l = 1 → Norm (TRay.onward { ray with interaction := it } m l).geometry.direction = 1) ∧ ∀ L (ray : TRay), ray.geometry = view →
          s.paneRadiance suns S axes ch L view = sunlightAt w m { ray with interaction := it } ch + ENNReal.ofReal (ch m.colour / Real.pi) * irradiance fun l => L (TRay.onward { ray with interaction := it } m l).geometry))

/-- What the program meets along a ray, and what the geometry says. -/
theorem pane_sight (hW : w.SunlitPanes s) (suns : List SunDisc) (hsuns : w.HasSuns s suns) : ∃ S : Sight, S.Faithful s ∧ ∀ (axes : Axes) (ch : Spectrum ℝ → ℝ), ch ∈ [Spectrum.c0, Spectrum.c1, Spectrum.c2] → w.PaneSight s suns S axes ch := by
  obtain ⟨S, hS, hfree, hmeets⟩ := sight_exists hW.renders
  refine ⟨S, hS, fun axes ch hch view hv => ?_⟩
  rcases hmeets view with ⟨h1, h2⟩ | ⟨j, p, i, tri, b, h1, h2⟩
  · refine Or.inl ⟨fun ray hr => ?_, fun L => by unfold Scene.paneRadiance; rw [h1]⟩
    unfold World.cast at h2 ⊢
    rw [hr]
    revert h2
    cases w.scene.castRay w.env view [] with
    | ok x =>
      rcases x with _ | x
      · simp
      · simp only
        rcases ho : w.scene.triangles[x.1]? with _ | t <;> simp only [ho, Res.ofOption_some, Res.ofOption, Res.bind] <;> intro h2 <;> cases h2
    | panic => simp
    | diverge => simp
  · obtain ⟨m, k, hm, hk, hmat, hseen⟩ := surface_seen hW.toSunlit hv h2
    obtain ⟨hp, hframe, -, hdot, -, -, -⟩ := recorded_spec tri view b hv h2.hit
    have hpp : (recordedInteraction tri view b).point = p := by rw [hp, h2.point]
    have hN := hframe.n3
    refine Or.inr ⟨i, recordedInteraction tri view b, m, fun ray hr => cast_same { TRay.default with geometry := view } ray hr.symm h2.cast, hmat, ?_⟩
    obtain ⟨col, hnn, rfl | ⟨r, hmm⟩ | ⟨n, rfl, h1n, hf, hclear⟩⟩ := hW.surfaces k m hm hk
    · refine Or.inl ⟨rfl, [(⟨p + (recordedInteraction tri view b).shading.normal.scale (1 / 10 ^ 5), mirrored view.direction (recordedInteraction tri view b).shading.normal⟩, Spectrum.one)], ?_, fun ray hr => ?_, fun L => ?_⟩
      · have h := (C43_mirror_direction view.direction _ hN hv).1
        rw [mirror_raw hN hv] at h
        intro o ho
        rw [List.mem_singleton.1 ho]
        exact h
      · subst hr
        rw [mirror_path_offered col { ray with interaction := recordedInteraction tri ray.geometry b } hN hv hdot]
        simp only [hpp, List.map_cons, List.map_nil]
      · unfold Scene.paneRadiance
        rw [h1]
        simp only [hseen, List.map_cons, List.map_nil, List.sum_cons, List.sum_nil, add_zero, chan_one hch, ENNReal.ofReal_one, one_mul]
    · obtain ⟨-, hspec, hcc⟩ := matt_only_flags hmm
      refine Or.inr ⟨hspec, fun ray l hr hl => ?_, fun L ray hr => ?_⟩
      · have hl2 : l.x ^ 2 + l.y ^ 2 + l.z ^ 2 = 1 := by
          have := Dot_self_of_norm hl; simp only [Dot] at this; nlinarith
        have := (world_unit hframe hl2).1
        rw [world_eq] at this
        exact this
      · have hm' : s.paneRadiance suns S axes ch L view = ENNReal.ofReal (ch m.colour / Real.pi) * ((suns.map fun sun => sun.onto S axes ch (p + (recordedInteraction tri view b).shading.normal.scale (1 / 1000)) (recordedInteraction tri view b).shading.normal).sum +
            ∫⁻ q in Ioo (0 : ℝ) 1 ×ˢ Ioo 0 (2 * Real.pi), L ⟨p + (recordedInteraction tri view b).shading.normal.scale (1 / 10 ^ 5), axes.around (recordedInteraction tri view b).shading.normal q.1 q.2⟩ * ENNReal.ofReal q.1) := by
          unfold Scene.paneRadiance
          rw [h1]
          simp only [hseen]
          simp only [List.mem_cons, List.not_mem_nil, or_false] at hmm
          rcases hmm with rfl | rfl <;> rfl
        rw [hm', sunlight_exact hW.toSunlit suns hsuns m col r hmm hnn ch hch S hfree axes _, mul_add, hcc]
        simp only [hpp]
        congr 2
        have e := frame_free (axes.frame _ hN) hframe (Ioo 0 1) measurableSet_Ioo (fun z v => L ⟨p + (recordedInteraction tri view b).shading.normal.scale (1 / 10 ^ 5), v⟩ * ENNReal.ofReal z)
        unfold irradiance
        simp only [TRay.onward, hpp, Axes.around]
        exact e.symm
    · obtain ⟨outs, o1, o2, o3⟩ := pane_offered col n h1n hf hclear _ view.direction hN hv hdot p
      refine Or.inl ⟨rfl, outs, o1, fun ray hr => ?_, fun L => ?_⟩
      · subst hr
        exact o2 { ray with interaction := recordedInteraction tri ray.geometry b } rfl hpp rfl
      · rw [o3 ch hch L]
        unfold Scene.paneRadiance
        rw [h1]
        simp only [hseen]

/-- When mirrors and panes count as bounces, the light of `max_depth` is the light that has met so many surfaces. -/
theorem glazed_paneAfter {suns : List SunDisc} {S : Sight} {axes : Axes} {ch : Spectrum ℝ → ℝ} (hch : ch ∈ [Spectrum.c0, Spectrum.c1, Spectrum.c2]) (h : w.PaneSight s suns S axes ch) (rt : RayTracer) (hamb : 0 < rt.nAmbientSamples) (hlim : rt.limitWeight = 0) (hcsb : 1 ≤ rt.countSpecularBounce)
    (k : Nat) : ∀ ray : TRay, ray.depth + k = rt.maxDepth + 1 → Norm ray.geometry.direction = 1 → glazedLight w rt ch (k + 1) ray = s.paneAfter suns S axes ch k ray.geometry := by
  have hκ : countedChance rt = 1 := by
    unfold countedChance
    rw [min_eq_left hcsb, ENNReal.ofReal_one]
  induction k with
  | zero =>
    intro ray hd hu
    rw [glazedLight]
    simp only [Scene.paneAfter]
    rcases h ray.geometry hu with ⟨h1, -⟩ | ⟨i, it, m, h1, h2, -⟩
    · rw [h1 ray rfl]
    · simp only [h1 ray rfl, h2]
      rw [if_pos (by omega)]
  | succ k ih =>
    intro ray hd hu
    rw [glazedLight, Scene.paneAfter]
    rcases h ray.geometry hu with ⟨h1, h3⟩ | ⟨i, it, m, h1, h2, ⟨hs, outs, hout, ho, h3⟩ | ⟨hs, hon, h3⟩⟩
    · rw [h1 ray rfl, h3]
    · simp only [h1 ray rfl, h2]
      rw [if_neg (by omega), if_pos hs, ho ray rfl, h3, hκ]
      simp only [tsub_self, zero_mul, one_mul, add_zero, List.map_map]
      congr 1
      refine List.map_congr_left fun o ho => ?_
      simp only [Function.comp]
      rw [ih _ (by simp only [TRay.counted]; omega) (by simpa only [TRay.counted] using hout o ho)]
      rfl
    · simp only [h1 ray rfl, h2]
      rw [if_neg (by omega), if_neg (by rw [hs]; simp), h3 _ ray rfl]
      congr 1
      have e : irradiance (fun l => glazedLight w rt ch (k + 1) (TRay.onward { ray with interaction := it } m l)) = irradiance fun l => s.paneAfter suns S axes ch k (TRay.onward { ray with interaction := it } m l).geometry :=
        irradiance_congr fun l hl => ih _ (by simp only [TRay.onward]; omega) (hon ray l rfl hl)
      rw [e]
      by_cases hD : rt.maxDepth = 0
      · have hk : k = 0 := by omega
        subst hk
        have hz : (irradiance fun l => s.paneAfter suns S axes ch 0 (TRay.onward { ray with interaction := it } m l).geometry) = 0 := by
          unfold irradiance
          simp [Scene.paneAfter]
        rw [hz, mul_zero, mul_zero]
      · have hf : followChance rt ray.depth ray.value = 1 := by
          unfold followChance
          rw [if_neg (by omega)]
          simp [hlim]
        rw [hf, one_mul]

/-- The program's equation is that of the geometry, in every medium. -/
theorem glazedBack_pane {suns : List SunDisc} {S : Sight} {axes : Axes} {ch : Spectrum ℝ → ℝ} (hch : ch ∈ [Spectrum.c0, Spectrum.c1, Spectrum.c2]) (h : w.PaneSight s suns S axes ch) (L : Ray3 ℝ → ℝ → ENNReal) (view : Ray3 ℝ) (η : ℝ) (hu : Norm view.direction = 1) :
    w.glazedBack ch L view η = s.paneRadiance suns S axes ch (fun g => L g η) view := by
  unfold World.glazedBack
  rcases h view hu with ⟨h1, h3⟩ | ⟨i, it, m, h1, h2, ⟨hs, outs, hout, ho, h3⟩ | ⟨hs, hon, h3⟩⟩
  · rw [h1 _ rfl, h3]
  · simp only [h1 { TRay.default with geometry := view, refractionIndex := η } rfl, h2]
    rw [if_pos hs, ho { TRay.default with geometry := view, refractionIndex := η } rfl, h3]
    rw [List.map_map]
    rfl
  · simp only [h1 { TRay.default with geometry := view, refractionIndex := η } rfl, h2]
    rw [if_neg (by rw [hs]; simp), h3 _ { TRay.default with geometry := view, refractionIndex := η } rfl]

theorem paneBalance_of_solves {suns : List SunDisc} {S : Sight} {axes : Axes} {ch : Spectrum ℝ → ℝ} (hch : ch ∈ [Spectrum.c0, Spectrum.c1, Spectrum.c2]) (h : w.PaneSight s suns S axes ch) {L : Ray3 ℝ → ℝ → ENNReal} (hL : w.SolvesGlazedEquation ch L) :
    s.PaneBalance suns S axes ch fun g => L g 1 := fun view hu => by
  beta_reduce
  rw [hL view 1 hu one_pos, glazedBack_pane hch h L view 1 hu]

theorem solves_of_paneBalance {suns : List SunDisc} {S : Sight} {axes : Axes} {ch : Spectrum ℝ → ℝ} (hch : ch ∈ [Spectrum.c0, Spectrum.c1, Spectrum.c2]) (h : w.PaneSight s suns S axes ch) {L : Ray3 ℝ → ENNReal} (hL : s.PaneBalance suns S axes ch L) :
    w.SolvesGlazedEquation ch fun g _ => L g := fun view η hu _ => by
  rw [glazedBack_pane hch h _ view η hu]
  exact hL view hu

/-- **C145, finitely many surfaces.** In a scene of matt surfaces, mirrors and panes of glass under suns there is a way of seeing that agrees with the triangles of the scene, such that for every setting with `limit_weight` 0 in which mirrors and panes count as bounces, along every ray, the mean of what `trace_ray` returns is the light
of the scene's geometry that has met at most `max_depth + 1` surfaces: mirrors show all the light of the mirrored direction, panes their shares of it and of the light straight behind them, matt surfaces `colour / π` times the integrals over the discs of the suns and over the hemisphere. -/
theorem C145_mean_light (hW : w.SunlitPanes s) (suns : List SunDisc) (hsuns : w.HasSuns s suns) : ∃ S : Sight, S.Faithful s ∧ ∀ (axes : Axes) (ch : Spectrum ℝ → ℝ), ch ∈ [Spectrum.c0, Spectrum.c1, Spectrum.c2] →
    ∀ (rt : RayTracer) (rays : List TRay) (ray : TRay) (fuel : Nat), 0 < rt.nShadowSamples → 0 < rt.nAmbientSamples → rt.limitWeight = 0 → 1 ≤ rt.countSpecularBounce → rt.maxDepth < rays.length →
      Norm ray.geometry.direction = 1 → 0 ≤ ray.value → 0 < ray.refractionIndex → ray.depth = 0 → rt.maxDepth + rt.nShadowSamples + rt.nAmbientSamples + 4 ≤ fuel →
      ∫⁻ r, seenLight (traceRay w rt fuel ⟨r, rays⟩ ray) ch ∂randomNumbers = s.paneAfter suns S axes ch (rt.maxDepth + 1) ray.geometry := by
  obtain ⟨S, hS, hb⟩ := pane_sight hW suns hsuns
  refine ⟨S, hS, fun axes ch hch rt rays ray fuel hsh hA hlim hcsb hlen hu hv hη hd hfuel => ?_⟩
  rw [C123_every_bounce_counts hW.glazed rt hsh hcsb ch hch rays hlen ray hu hv hη (by omega) fuel hfuel, hd]
  exact glazed_paneAfter hch (hb axes ch hch) rt hA hlim hcsb (rt.maxDepth + 1) ray (by omega) hu

/-- **C145, any number of surfaces.** There is a way of seeing that agrees with the triangles of the scene, such that as `max_depth` grows, whatever the chance that mirrors and panes count as bounces, the mean of what `trace_ray` returns tends to a light that is in balance with the scene's geometry, mirrors and panes included: the least such light.
(For each `max_depth` the paths have to end, as they do when there is a limit to the mirrors and panes in a row, or when mirrors count.) -/
theorem C145_limit (hW : w.SunlitPanes s) (suns : List SunDisc) (hsuns : w.HasSuns s suns) : ∃ S : Sight, S.Faithful s ∧ ∀ (axes : Axes) (ch : Spectrum ℝ → ℝ), ch ∈ [Spectrum.c0, Spectrum.c1, Spectrum.c2] →
    ∃ L : Ray3 ℝ → ENNReal, s.PaneBalance suns S axes ch L ∧ (∀ L', s.PaneBalance suns S axes ch L' → ∀ g : Ray3 ℝ, Norm g.direction = 1 → L g ≤ L' g) ∧
    ∀ (rt : RayTracer) (ray : TRay) (n : Nat → Nat), 0 < rt.nShadowSamples → 0 < rt.nAmbientSamples → rt.limitWeight = 0 → Norm ray.geometry.direction = 1 → 0 ≤ ray.value → ray.refractionIndex = 1 → (∀ depth, w.EndsWithin { rt with maxDepth := depth } (n depth) ray) →
      Filter.Tendsto (fun depth => ∫⁻ r, seenLight (traceRay w { rt with maxDepth := depth } (n depth + rt.nShadowSamples + rt.nAmbientSamples + 2) ⟨r, List.replicate (depth + 1) TRay.default⟩ ray) ch ∂randomNumbers) Filter.atTop (nhds (L ray.geometry)) := by
  obtain ⟨S, hS, hb⟩ := pane_sight hW suns hsuns
  refine ⟨S, hS, fun axes ch hch => ?_⟩
  obtain ⟨L, h1, h2, h3⟩ := C139_limit hW.glazed ch hch
  refine ⟨fun g => L g 1, paneBalance_of_solves hch (hb axes ch hch) h1, fun L' hL' g hg => h2 _ (solves_of_paneBalance hch (hb axes ch hch) hL') g 1 hg one_pos, fun rt ray n hsh hA hlim hu hv hη hE => ?_⟩
  have := h3 rt ray n hsh hA hlim hu hv (by rw [hη]; exact one_pos) hE
  rwa [hη] at this

/-- **C145, the error.** If every matt surface reflects at most the share `ρ < 1` and at most `b` mirrors or panes follow each other on any path, exactly one bounded light is in balance with the scene's geometry; the mean of what `trace_ray` returns is never more, and with `limit_weight` 0 it misses at most `ρ^k` times a constant
of the scene, where `k` matt surfaces, each after `b` mirrors or panes, have room in `max_depth`. -/
theorem C145_error (hW : w.SunlitPanes s) (suns : List SunDisc) (hsuns : w.HasSuns s suns) : ∃ S : Sight, S.Faithful s ∧ ∀ (axes : Axes) (ch : Spectrum ℝ → ℝ), ch ∈ [Spectrum.c0, Spectrum.c1, Spectrum.c2] →
    ∀ ρ : ENNReal, ρ < 1 → (∀ (k : Nat) m, s.materials[k]? = some m → k ∈ s.front ++ s.back → m.specularOnly = false → ENNReal.ofReal (ch m.colour) ≤ ρ) →
    ∀ b : Nat, (∀ ray : TRay, Norm ray.geometry.direction = 1 → 0 < ray.refractionIndex → w.SpecularRow b ray) →
    ∃ (L : Ray3 ℝ → ENNReal) (B : ENNReal), B ≠ ⊤ ∧ s.PaneBalance suns S axes ch L ∧ (∀ g : Ray3 ℝ, Norm g.direction = 1 → L g ≤ B) ∧
      (∀ L' C, C ≠ ⊤ → s.PaneBalance suns S axes ch L' → (∀ g : Ray3 ℝ, Norm g.direction = 1 → L' g ≤ C) → ∀ g : Ray3 ℝ, Norm g.direction = 1 → L' g = L g) ∧
      ∀ (rt : RayTracer) (rays : List TRay) (ray : TRay) (n fuel : Nat), 0 < rt.nShadowSamples → rt.maxDepth < rays.length → Norm ray.geometry.direction = 1 → 0 ≤ ray.value → ray.refractionIndex = 1 → w.EndsWithin rt n ray → n + rt.nShadowSamples + rt.nAmbientSamples + 2 ≤ fuel →
        ∫⁻ r, seenLight (traceRay w rt fuel ⟨r, rays⟩ ray) ch ∂randomNumbers ≤ L ray.geometry ∧
        (0 < rt.nAmbientSamples → rt.limitWeight = 0 → ∀ k, ray.depth + (k * (b + 1) + b) ≤ rt.maxDepth + 1 →
          L ray.geometry ≤ ∫⁻ r, seenLight (traceRay w rt fuel ⟨r, rays⟩ ray) ch ∂randomNumbers + ρ ^ k * B) := by
  obtain ⟨S, hS, hb⟩ := pane_sight hW suns hsuns
  refine ⟨S, hS, fun axes ch hch ρ hρ1 hρ b hrows => ?_⟩
  have hA : ∀ (k : Nat) m, s.materials[k]? = some m → k ∈ s.front ++ s.back → m.specularOnly = true → m.AddsNoLight ch 1 := by
    intro k m hm hk hs
    obtain ⟨col, hnn, rfl | ⟨r, hmm⟩ | ⟨n, rfl, h1n, -, -⟩⟩ := hW.surfaces k m hm hk
    · trivial
    · rw [(matt_only_flags hmm).2.1] at hs; cases hs
    · exact h1n
  obtain ⟨L, B, hB, h1, h2, h3, h4⟩ := C139_error hW.glazed ch hch ρ hρ1 le_rfl hA hρ b hrows
  have h11 : ENNReal.ofReal (((1 : ℝ) / 1) ^ 2) = 1 := by norm_num
  refine ⟨fun g => L g 1, B, hB, paneBalance_of_solves hch (hb axes ch hch) h1, fun g hg => ?_, fun L' C hC hL' hB' g hg => ?_, fun rt rays ray n fuel hsh hlen hu hv hη hE hfuel => ?_⟩
  · have := h2 g 1 hg one_pos le_rfl
    rwa [h11, one_mul] at this
  · refine h3 _ C hC (solves_of_paneBalance hch (hb axes ch hch) hL') (fun g η hg hη ht => (hB' g hg).trans ?_) g 1 hg one_pos le_rfl
    have h1η : 1 ≤ (1 / η) ^ 2 := one_le_pow₀ (by rw [le_div_iff₀ hη]; linarith)
    calc C = 1 * C := (one_mul C).symm
      _ ≤ ENNReal.ofReal ((1 / η) ^ 2) * C := mul_le_mul' (by rw [← ENNReal.ofReal_one]; exact ENNReal.ofReal_le_ofReal h1η) le_rfl
  · have := h4 rt rays ray n fuel hsh hlen hu hv (by rw [hη]; exact one_pos) (by rw [hη]) hE hfuel
    rw [hη, h11] at this
    simpa only [one_mul] using this

/-- **C145, pictures.** With `limit_weight` 0 and mirrors and panes that count as bounces, the mean of each channel of each pixel is the light of the scene's geometry that has met at most `max_depth + 1` surfaces, along the camera's ray through that pixel, whatever the schedule of the workers. -/
theorem C145_picture (hW : w.SunlitPanes s) (suns : List SunDisc) (hsuns : w.HasSuns s suns) : ∃ S : Sight, S.Faithful s ∧ ∀ (axes : Axes) (ch : Spectrum ℝ → ℝ), ch ∈ [Spectrum.c0, Spectrum.c1, Spectrum.c2] →
    ∀ (o : SpictOptions), o.Sized → o.camera.view.Proper → 0 < o.rt.nShadowSamples → 0 < o.rt.nAmbientSamples → o.rt.limitWeight = 0 → 1 ≤ o.rt.countSpecularBounce → o.rt.maxDepth < 15 → ∀ fuel, o.rt.maxDepth + o.rt.nShadowSamples + o.rt.nAmbientSamples + 4 ≤ fuel →
    ∀ {Ω : Type} [MeasurableSpace Ω] (μ : Measure Ω) (gen : Ω → Nat → Rng), (∀ k, MeasurePreserving (fun ω => gen ω k) μ randomNumbers) → ∀ state : Ω → RState TState (Spectrum ℝ), (∀ ω, o.Rendered w fuel (gen ω) (state ω)) →
    ∀ x y, x < o.width → y < o.height →
      ∫⁻ ω, ENNReal.ofReal (ch (pixelOf o.width o.height (state ω) x y)) ∂μ = s.paneAfter suns S axes ch (o.rt.maxDepth + 1) (o.camera.traceableRay (x, y)).geometry := by
  obtain ⟨S, hS, hb⟩ := pane_sight hW suns hsuns
  refine ⟨S, hS, fun axes ch hch o ho hv hsh hA hlim hcsb hD fuel hfuel Ω _ μ gen hgen state hs x y hx hy => ?_⟩
  have h0 : ∀ p, (o.camera.traceableRay p).depth = 0 := fun p => by simp [Pinhole.traceableRay, TRay.default]
  rw [C138_mean_picture hW.glazed o ho hv hsh hD (o.rt.maxDepth + 2) fuel (by omega) (fun p _ _ => counted_ends hW.toSunlit o.rt hcsb (o.rt.maxDepth + 1) _ (by rw [h0]; omega)) hgen state hs ch hch x y hx hy]
  exact glazed_paneAfter hch (hb axes ch hch) o.rt hA hlim hcsb (o.rt.maxDepth + 1) _ (by rw [h0]; omega) (traceable_unit o hv _)

end Rendering
