import Verif.Spec.Mirrors
import Verif.Props.GeometricLight
import Verif.Props.ExactGlazedPicture
import Verif.Props.Specular

/-!
# C144: on average, pictures with mirrors show the light of the scene's geometry
-/

set_option linter.unusedSectionVars false
namespace Rendering

open MeasureTheory Set

variable {w : World} {s : Scene ℝ}

theorem World.SunlitMirrors.glazed (hW : w.SunlitMirrors s) : w.SunlitGlazed s := by
  refine ⟨hW.toSunlit, fun k m hm hk => ?_⟩
  obtain ⟨col, hn, rfl | ⟨r, h⟩⟩ := hW.surfaces k m hm hk
  · exact Or.inr ⟨rfl, hn⟩
  · exact Or.inl ⟨col, r, h, hn⟩

/-- The side that is seen. -/
theorem surface_seen (hW : w.Sunlit s) {g : Ray3 ℝ} (hg : Norm g.direction = 1) {j : Nat} {p : Vec3 ℝ} {i : Nat} {tri : Tri ℝ} {b : Bary ℝ} (h : Met w s g j p i tri b) :
    ∃ m k, s.materials[k]? = some m ∧ k ∈ s.front ++ s.back ∧ w.materialAt (recordedInteraction tri g b).shading.side i = .ok m ∧ s.surfaceSeen j g.direction = some ((recordedInteraction tri g b).shading.normal, m) := by
  obtain ⟨-, -, hside, hdot, hpos, -, -⟩ := recorded_spec tri g b hg h.hit
  have hnorm : 0 < Norm (geometricNormal tri) := Norm_pos hpos
  have hinv : Dot (geometricNormal tri).normalized g.direction = Dot (geometricNormal tri) g.direction / Norm (geometricNormal tri) := by
    rw [normalized_eq]; simp only [Dot, Vec3.scale]; ring
  have hjl : j < s.triangles.length := (List.getElem?_eq_some_iff.1 h.triangle).1
  have hal := hW.renders.aligned
  rcases hside with ⟨h3, h4⟩ | ⟨h3, h4⟩
  · have hneg : Dot (geometricNormal tri) g.direction < 0 := by
      rw [h4, hinv] at hdot
      by_contra hc
      have := div_nonneg (not_lt.1 hc) hnorm.le
      linarith
    have hfl : j < s.front.length := by rw [hal.2.1]; exact hjl
    have hk : s.front[j] ∈ s.front := List.getElem_mem _
    have hlt : s.front[j] < s.materials.length := hW.indices.1 _ hk
    have hm : s.materials[s.front[j]]? = some s.materials[s.front[j]] := List.getElem?_eq_getElem hlt
    refine ⟨_, _, hm, List.mem_append_left _ hk, ?_, ?_⟩
    · rw [h3]
      simp only [World.materialAt, h.front, List.getElem?_eq_getElem hfl, Res.ofOption_some, Res.bind_ok, hW.renders.same.1, hm]
    · simp only [Scene.surfaceSeen, h.triangle, Option.bind_some, hneg, if_true, List.getElem?_eq_getElem hfl, hm, Option.map_some, h4]
  · have hneg : ¬ Dot (geometricNormal tri) g.direction < 0 := by
      intro hc
      rw [h4] at hdot
      have e : Dot (-(geometricNormal tri).normalized) g.direction = -(Dot (geometricNormal tri) g.direction / Norm (geometricNormal tri)) := by
        rw [← hinv]; simp only [Dot, Vec3.neg_x, Vec3.neg_y, Vec3.neg_z]; ring
      rw [e] at hdot
      have := div_neg_of_neg_of_pos hc hnorm
      linarith
    have hbl : j < s.back.length := by rw [hal.2.2]; exact hjl
    have hk : s.back[j] ∈ s.back := List.getElem_mem _
    have hlt : s.back[j] < s.materials.length := hW.indices.2.1 _ hk
    have hm : s.materials[s.back[j]]? = some s.materials[s.back[j]] := List.getElem?_eq_getElem hlt
    refine ⟨_, _, hm, List.mem_append_right _ hk, ?_, ?_⟩
    · rw [h3]
      simp only [World.materialAt, h.back, List.getElem?_eq_getElem hbl, Res.ofOption_some, Res.bind_ok, hW.renders.same.1, hm]
    · simp only [Scene.surfaceSeen, h.triangle, Option.bind_some, hneg, if_false, List.getElem?_eq_getElem hbl, hm, Option.map_some, h4]

/-- The path a mirror offers: into the mirrored direction, with weight one. -/
theorem mirror_path_offered (c : Spectrum ℝ) (arrived : TRay) (hn : Norm arrived.interaction.shading.normal = 1) (hd : Norm arrived.geometry.direction = 1) (hdot : Dot arrived.interaction.shading.normal arrived.geometry.direction < 0) :
    offered (.mirror c) arrived = [({ arrived with geometry := ⟨arrived.interaction.point + arrived.interaction.shading.normal.scale (1 / 10 ^ 5), mirrored arrived.geometry.direction arrived.interaction.shading.normal⟩ }, Spectrum.one)] := by
  have hm := (C43_mirror_direction arrived.geometry.direction arrived.interaction.shading.normal hn hd).2.1
  have hcomm : ∀ a b : Vec3 ℝ, a.dot b = Dot a b := fun a b => rfl
  have hsym : ∀ a b : Vec3 ℝ, Dot a b = Dot b a := fun a b => by simp only [Dot]; ring
  have hne : |Dot arrived.geometry.direction arrived.interaction.shading.normal| ≠ 0 := by rw [hsym]; exact abs_ne_zero.2 hdot.ne
  simp only [offered, Material.getPossiblePaths, mirrorPaths, mirrorBsdf, Paths.toList, Option.toList_some, Option.toList_none, List.append_nil, hcomm]
  rw [hsym arrived.interaction.shading.normal (mirrorDirection _ _), hm, abs_neg, mirror_raw hn hd]
  have hone : ((Spectrum.one : Spectrum ℝ).scale (1 / |Dot arrived.geometry.direction arrived.interaction.shading.normal|)).scale |Dot arrived.geometry.direction arrived.interaction.shading.normal| = Spectrum.one := by
    simp only [Spectrum.scale, Spectrum.one, Spectrum.gray]
    simp [inv_mul_cancel₀ hne]
  rw [hone]
  rfl

/-- The program sees the scene as `S` does. -/
def World.MirrorSight (w : World) (s : Scene ℝ) (suns : List SunDisc) (S : Sight) (axes : Axes) (ch : Spectrum ℝ → ℝ) : Prop := ∀ view : Ray3 ℝ, Norm view.direction = 1 →
    ((∀ ray : TRay, ray.geometry = view → w.cast ray = .ok none) ∧ ∀ L, s.mirrorRadiance suns S axes ch L view = 0) ∨
    ∃ i it m, (∀ ray : TRay, ray.geometry = view → w.cast ray = .ok (some (i, { ray with interaction := it }))) ∧ w.materialAt it.shading.side i = .ok m ∧
      ((m.specularOnly = true ∧ ∃ out : Ray3 ℝ, Norm out.direction = 1 ∧ (∀ ray : TRay, ray.geometry = view → offered m { ray with interaction := it } = [({ ray with geometry := out, interaction := it }, Spectrum.one)]) ∧ ∀ L, s.mirrorRadiance suns S axes ch L view = L out) ∨
       (m.specularOnly = false ∧ (∀ (ray : TRay) l, ray.geometry = view → Norm l = 1 → Norm (TRay.onward { ray with interaction := it } m l).geometry.direction = 1) ∧ ∀ L (ray : TRay), ray.geometry = view →
          s.mirrorRadiance suns S axes ch L view = sunlightAt w m { ray with interaction := it } ch + ENNReal.ofReal (ch m.colour / Real.pi) * irradiance fun l => L (TRay.onward { ray with interaction := it } m l).geometry))

/-- What the program meets along a ray, and what the geometry says. -/
theorem mirror_sight (hW : w.SunlitMirrors s) (suns : List SunDisc) (hsuns : w.HasSuns s suns) : ∃ S : Sight, S.Faithful s ∧ ∀ (axes : Axes) (ch : Spectrum ℝ → ℝ), ch ∈ [Spectrum.c0, Spectrum.c1, Spectrum.c2] → w.MirrorSight s suns S axes ch := by
  obtain ⟨S, hS, hfree, hmeets⟩ := sight_exists hW.renders
  refine ⟨S, hS, fun axes ch hch view hv => ?_⟩
  rcases hmeets view with ⟨h1, h2⟩ | ⟨j, p, i, tri, b, h1, h2⟩
  · refine Or.inl ⟨fun ray hr => ?_, fun L => by unfold Scene.mirrorRadiance; rw [h1]⟩
    unfold World.cast at h2 ⊢
    rw [hr]
    revert h2
    cases w.scene.castRay w.env view [] with
    | ok x =>
      rcases x with _ | x
      · simp
      · simp only
        rcases ho : w.scene.triangles[x.1]? with _ | t <;> simp only [ho, Res.ofOption_some, Res.ofOption, Res.bind] <;> intro h2 <;> cases h2
    | panic => simp
    | diverge => simp
  · obtain ⟨m, k, hm, hk, hmat, hseen⟩ := surface_seen hW.toSunlit hv h2
    obtain ⟨hp, hframe, -, hdot, -, -, -⟩ := recorded_spec tri view b hv h2.hit
    have hpp : (recordedInteraction tri view b).point = p := by rw [hp, h2.point]
    have hN := hframe.n3
    refine Or.inr ⟨i, recordedInteraction tri view b, m, fun ray hr => cast_same { TRay.default with geometry := view } ray hr.symm h2.cast, hmat, ?_⟩
    obtain ⟨col, hnn, rfl | ⟨r, hmm⟩⟩ := hW.surfaces k m hm hk
    · refine Or.inl ⟨rfl, ⟨p + (recordedInteraction tri view b).shading.normal.scale (1 / 10 ^ 5), mirrored view.direction (recordedInteraction tri view b).shading.normal⟩, ?_, fun ray hr => ?_, fun L => ?_⟩
      · have h := (C43_mirror_direction view.direction _ hN hv).1
        rwa [mirror_raw hN hv] at h
      · subst hr
        rw [mirror_path_offered col { ray with interaction := recordedInteraction tri ray.geometry b } hN hv hdot]
        simp only [hpp]
      · unfold Scene.mirrorRadiance
        rw [h1]
        simp only [hseen]
    · obtain ⟨-, hspec, hcc⟩ := matt_only_flags hmm
      refine Or.inr ⟨hspec, fun ray l hr hl => ?_, fun L ray hr => ?_⟩
      · have hl2 : l.x ^ 2 + l.y ^ 2 + l.z ^ 2 = 1 := by
          have := Dot_self_of_norm hl; simp only [Dot] at this; nlinarith
        have := (world_unit hframe hl2).1
        rw [world_eq] at this
        exact this
      · have hm' : s.mirrorRadiance suns S axes ch L view = ENNReal.ofReal (ch m.colour / Real.pi) * ((suns.map fun sun => sun.onto S axes ch (p + (recordedInteraction tri view b).shading.normal.scale (1 / 1000)) (recordedInteraction tri view b).shading.normal).sum +
            ∫⁻ q in Ioo (0 : ℝ) 1 ×ˢ Ioo 0 (2 * Real.pi), L ⟨p + (recordedInteraction tri view b).shading.normal.scale (1 / 10 ^ 5), axes.around (recordedInteraction tri view b).shading.normal q.1 q.2⟩ * ENNReal.ofReal q.1) := by
          unfold Scene.mirrorRadiance
          rw [h1]
          simp only [hseen]
          simp only [List.mem_cons, List.not_mem_nil, or_false] at hmm
          rcases hmm with rfl | rfl <;> rfl
        rw [hm', sunlight_exact hW.toSunlit suns hsuns m col r hmm hnn ch hch S hfree axes _, mul_add, hcc]
        simp only [hpp]
        congr 2
        have e := frame_free (axes.frame _ hN) hframe (Ioo 0 1) measurableSet_Ioo (fun z v => L ⟨p + (recordedInteraction tri view b).shading.normal.scale (1 / 10 ^ 5), v⟩ * ENNReal.ofReal z)
        unfold irradiance
        simp only [TRay.onward, hpp, Axes.around]
        exact e.symm

/-- When mirrors count as bounces, the light of `max_depth` is the light that has met so many surfaces. -/
theorem glazed_mirrorAfter {suns : List SunDisc} {S : Sight} {axes : Axes} {ch : Spectrum ℝ → ℝ} (hch : ch ∈ [Spectrum.c0, Spectrum.c1, Spectrum.c2]) (h : w.MirrorSight s suns S axes ch) (rt : RayTracer) (hamb : 0 < rt.nAmbientSamples) (hlim : rt.limitWeight = 0) (hcsb : 1 ≤ rt.countSpecularBounce)
    (k : Nat) : ∀ ray : TRay, ray.depth + k = rt.maxDepth + 1 → Norm ray.geometry.direction = 1 → glazedLight w rt ch (k + 1) ray = s.mirrorAfter suns S axes ch k ray.geometry := by
  have hκ : countedChance rt = 1 := by
    unfold countedChance
    rw [min_eq_left hcsb, ENNReal.ofReal_one]
  induction k with
  | zero =>
    intro ray hd hu
    rw [glazedLight]
    simp only [Scene.mirrorAfter]
    rcases h ray.geometry hu with ⟨h1, -⟩ | ⟨i, it, m, h1, h2, -⟩
    · rw [h1 ray rfl]
    · simp only [h1 ray rfl, h2]
      rw [if_pos (by omega)]
  | succ k ih =>
    intro ray hd hu
    rw [glazedLight, Scene.mirrorAfter]
    rcases h ray.geometry hu with ⟨h1, h3⟩ | ⟨i, it, m, h1, h2, ⟨hs, out, hout, ho, h3⟩ | ⟨hs, hon, h3⟩⟩
    · rw [h1 ray rfl, h3]
    · simp only [h1 ray rfl, h2]
      rw [if_neg (by omega), if_pos hs, ho ray rfl, h3, hκ]
      simp only [List.map_cons, List.map_nil, List.sum_cons, List.sum_nil, add_zero, tsub_self, zero_mul, one_mul]
      rw [ih _ (by simp only [TRay.counted]; omega) (by simpa only [TRay.counted] using hout), chan_one hch, ENNReal.ofReal_one, one_mul]
      rfl
    · simp only [h1 ray rfl, h2]
      rw [if_neg (by omega), if_neg (by rw [hs]; simp), h3 _ ray rfl]
      congr 1
      have e : irradiance (fun l => glazedLight w rt ch (k + 1) (TRay.onward { ray with interaction := it } m l)) = irradiance fun l => s.mirrorAfter suns S axes ch k (TRay.onward { ray with interaction := it } m l).geometry :=
        irradiance_congr fun l hl => ih _ (by simp only [TRay.onward]; omega) (hon ray l rfl hl)
      rw [e]
      by_cases hD : rt.maxDepth = 0
      · have hk : k = 0 := by omega
        subst hk
        have hz : (irradiance fun l => s.mirrorAfter suns S axes ch 0 (TRay.onward { ray with interaction := it } m l).geometry) = 0 := by
          unfold irradiance
          simp [Scene.mirrorAfter]
        rw [hz, mul_zero, mul_zero]
      · have hf : followChance rt ray.depth ray.value = 1 := by
          unfold followChance
          rw [if_neg (by omega)]
          simp [hlim]
        rw [hf, one_mul]

/-- The program's equation is that of the geometry, in every medium. -/
theorem glazedBack_mirror {suns : List SunDisc} {S : Sight} {axes : Axes} {ch : Spectrum ℝ → ℝ} (hch : ch ∈ [Spectrum.c0, Spectrum.c1, Spectrum.c2]) (h : w.MirrorSight s suns S axes ch) (L : Ray3 ℝ → ℝ → ENNReal) (view : Ray3 ℝ) (η : ℝ) (hu : Norm view.direction = 1) :
    w.glazedBack ch L view η = s.mirrorRadiance suns S axes ch (fun g => L g η) view := by
  unfold World.glazedBack
  rcases h view hu with ⟨h1, h3⟩ | ⟨i, it, m, h1, h2, ⟨hs, out, hout, ho, h3⟩ | ⟨hs, hon, h3⟩⟩
  · rw [h1 _ rfl, h3]
  · simp only [h1 { TRay.default with geometry := view, refractionIndex := η } rfl, h2]
    rw [if_pos hs, ho { TRay.default with geometry := view, refractionIndex := η } rfl, h3]
    simp only [List.map_cons, List.map_nil, List.sum_cons, List.sum_nil, add_zero]
    rw [chan_one hch, ENNReal.ofReal_one, one_mul]
  · simp only [h1 { TRay.default with geometry := view, refractionIndex := η } rfl, h2]
    rw [if_neg (by rw [hs]; simp), h3 _ { TRay.default with geometry := view, refractionIndex := η } rfl]

theorem mirrorBalance_of_solves {suns : List SunDisc} {S : Sight} {axes : Axes} {ch : Spectrum ℝ → ℝ} (hch : ch ∈ [Spectrum.c0, Spectrum.c1, Spectrum.c2]) (h : w.MirrorSight s suns S axes ch) {L : Ray3 ℝ → ℝ → ENNReal} (hL : w.SolvesGlazedEquation ch L) :
    s.MirrorBalance suns S axes ch fun g => L g 1 := fun view hu => by
  beta_reduce
  rw [hL view 1 hu one_pos, glazedBack_mirror hch h L view 1 hu]

theorem solves_of_mirrorBalance {suns : List SunDisc} {S : Sight} {axes : Axes} {ch : Spectrum ℝ → ℝ} (hch : ch ∈ [Spectrum.c0, Spectrum.c1, Spectrum.c2]) (h : w.MirrorSight s suns S axes ch) {L : Ray3 ℝ → ENNReal} (hL : s.MirrorBalance suns S axes ch L) :
    w.SolvesGlazedEquation ch fun g _ => L g := fun view η hu _ => by
  rw [glazedBack_mirror hch h _ view η hu]
  exact hL view hu

/-- **C144, finitely many surfaces.** In a scene of matt surfaces and mirrors under suns there is a way of seeing that agrees with the triangles of the scene, such that for every setting with `limit_weight` 0 in which mirrors count as bounces, along every ray, the mean of what `trace_ray` returns is the light
of the scene's geometry that has met at most `max_depth + 1` surfaces: mirrors show all the light of the mirrored direction, matt surfaces `colour / π` times the integrals over the discs of the suns and over the hemisphere. -/
theorem C144_mean_light (hW : w.SunlitMirrors s) (suns : List SunDisc) (hsuns : w.HasSuns s suns) : ∃ S : Sight, S.Faithful s ∧ ∀ (axes : Axes) (ch : Spectrum ℝ → ℝ), ch ∈ [Spectrum.c0, Spectrum.c1, Spectrum.c2] →
    ∀ (rt : RayTracer) (rays : List TRay) (ray : TRay) (fuel : Nat), 0 < rt.nShadowSamples → 0 < rt.nAmbientSamples → rt.limitWeight = 0 → 1 ≤ rt.countSpecularBounce → rt.maxDepth < rays.length →
      Norm ray.geometry.direction = 1 → 0 ≤ ray.value → 0 < ray.refractionIndex → ray.depth = 0 → rt.maxDepth + rt.nShadowSamples + rt.nAmbientSamples + 4 ≤ fuel →
      ∫⁻ r, seenLight (traceRay w rt fuel ⟨r, rays⟩ ray) ch ∂randomNumbers = s.mirrorAfter suns S axes ch (rt.maxDepth + 1) ray.geometry := by
  obtain ⟨S, hS, hb⟩ := mirror_sight hW suns hsuns
  refine ⟨S, hS, fun axes ch hch rt rays ray fuel hsh hA hlim hcsb hlen hu hv hη hd hfuel => ?_⟩
  rw [C123_every_bounce_counts hW.glazed rt hsh hcsb ch hch rays hlen ray hu hv hη (by omega) fuel hfuel, hd]
  exact glazed_mirrorAfter hch (hb axes ch hch) rt hA hlim hcsb (rt.maxDepth + 1) ray (by omega) hu

/-- **C144, any number of surfaces.** There is a way of seeing that agrees with the triangles of the scene, such that as `max_depth` grows, whatever the chance that mirrors count as bounces, the mean of what `trace_ray` returns tends to a light that is in balance with the scene's geometry, mirrors included: the least such light.
(For each `max_depth` the paths have to end, as they do when there is a limit to the mirrors in a row, or when mirrors count.) -/
theorem C144_limit (hW : w.SunlitMirrors s) (suns : List SunDisc) (hsuns : w.HasSuns s suns) : ∃ S : Sight, S.Faithful s ∧ ∀ (axes : Axes) (ch : Spectrum ℝ → ℝ), ch ∈ [Spectrum.c0, Spectrum.c1, Spectrum.c2] →
    ∃ L : Ray3 ℝ → ENNReal, s.MirrorBalance suns S axes ch L ∧ (∀ L', s.MirrorBalance suns S axes ch L' → ∀ g : Ray3 ℝ, Norm g.direction = 1 → L g ≤ L' g) ∧
    ∀ (rt : RayTracer) (ray : TRay) (n : Nat → Nat), 0 < rt.nShadowSamples → 0 < rt.nAmbientSamples → rt.limitWeight = 0 → Norm ray.geometry.direction = 1 → 0 ≤ ray.value → ray.refractionIndex = 1 → (∀ depth, w.EndsWithin { rt with maxDepth := depth } (n depth) ray) →
      Filter.Tendsto (fun depth => ∫⁻ r, seenLight (traceRay w { rt with maxDepth := depth } (n depth + rt.nShadowSamples + rt.nAmbientSamples + 2) ⟨r, List.replicate (depth + 1) TRay.default⟩ ray) ch ∂randomNumbers) Filter.atTop (nhds (L ray.geometry)) := by
  obtain ⟨S, hS, hb⟩ := mirror_sight hW suns hsuns
  refine ⟨S, hS, fun axes ch hch => ?_⟩
  obtain ⟨L, h1, h2, h3⟩ := C139_limit hW.glazed ch hch
  refine ⟨fun g => L g 1, mirrorBalance_of_solves hch (hb axes ch hch) h1, fun L' hL' g hg => h2 _ (solves_of_mirrorBalance hch (hb axes ch hch) hL') g 1 hg one_pos, fun rt ray n hsh hA hlim hu hv hη hE => ?_⟩
  have := h3 rt ray n hsh hA hlim hu hv (by rw [hη]; exact one_pos) hE
  rwa [hη] at this

/-- **C144, the error.** If every matt surface reflects at most the share `ρ < 1` and at most `b` mirrors follow each other on any path, exactly one bounded light is in balance with the scene's geometry; the mean of what `trace_ray` returns is never more, and with `limit_weight` 0 it misses at most `ρ^k` times a constant
of the scene, where `k` matt surfaces, each after `b` mirrors, have room in `max_depth`. -/
theorem C144_error (hW : w.SunlitMirrors s) (suns : List SunDisc) (hsuns : w.HasSuns s suns) : ∃ S : Sight, S.Faithful s ∧ ∀ (axes : Axes) (ch : Spectrum ℝ → ℝ), ch ∈ [Spectrum.c0, Spectrum.c1, Spectrum.c2] →
    ∀ ρ : ENNReal, ρ < 1 → (∀ (k : Nat) m, s.materials[k]? = some m → k ∈ s.front ++ s.back → m.specularOnly = false → ENNReal.ofReal (ch m.colour) ≤ ρ) →
    ∀ b : Nat, (∀ ray : TRay, Norm ray.geometry.direction = 1 → 0 < ray.refractionIndex → w.SpecularRow b ray) →
    ∃ (L : Ray3 ℝ → ENNReal) (B : ENNReal), B ≠ ⊤ ∧ s.MirrorBalance suns S axes ch L ∧ (∀ g : Ray3 ℝ, Norm g.direction = 1 → L g ≤ B) ∧
      (∀ L' C, C ≠ ⊤ → s.MirrorBalance suns S axes ch L' → (∀ g : Ray3 ℝ, Norm g.direction = 1 → L' g ≤ C) → ∀ g : Ray3 ℝ, Norm g.direction = 1 → L' g = L g) ∧
      ∀ (rt : RayTracer) (rays : List TRay) (ray : TRay) (n fuel : Nat), 0 < rt.nShadowSamples → rt.maxDepth < rays.length → Norm ray.geometry.direction = 1 → 0 ≤ ray.value → ray.refractionIndex = 1 → w.EndsWithin rt n ray → n + rt.nShadowSamples + rt.nAmbientSamples + 2 ≤ fuel →
        ∫⁻ r, seenLight (traceRay w rt fuel ⟨r, rays⟩ ray) ch ∂randomNumbers ≤ L ray.geometry ∧
        (0 < rt.nAmbientSamples → rt.limitWeight = 0 → ∀ k, ray.depth + (k * (b + 1) + b) ≤ rt.maxDepth + 1 →
          L ray.geometry ≤ ∫⁻ r, seenLight (traceRay w rt fuel ⟨r, rays⟩ ray) ch ∂randomNumbers + ρ ^ k * B) := by
  obtain ⟨S, hS, hb⟩ := mirror_sight hW suns hsuns
  refine ⟨S, hS, fun axes ch hch ρ hρ1 hρ b hrows => ?_⟩
  have hA : ∀ (k : Nat) m, s.materials[k]? = some m → k ∈ s.front ++ s.back → m.specularOnly = true → m.AddsNoLight ch 1 := by
    intro k m hm hk hs
    obtain ⟨col, hnn, rfl | ⟨r, hmm⟩⟩ := hW.surfaces k m hm hk
    · trivial
    · rw [(matt_only_flags hmm).2.1] at hs; cases hs
  obtain ⟨L, B, hB, h1, h2, h3, h4⟩ := C139_error hW.glazed ch hch ρ hρ1 le_rfl hA hρ b hrows
  have h11 : ENNReal.ofReal (((1 : ℝ) / 1) ^ 2) = 1 := by norm_num
  refine ⟨fun g => L g 1, B, hB, mirrorBalance_of_solves hch (hb axes ch hch) h1, fun g hg => ?_, fun L' C hC hL' hB' g hg => ?_, fun rt rays ray n fuel hsh hlen hu hv hη hE hfuel => ?_⟩
  · have := h2 g 1 hg one_pos le_rfl
    rwa [h11, one_mul] at this
  · refine h3 _ C hC (solves_of_mirrorBalance hch (hb axes ch hch) hL') (fun g η hg hη ht => (hB' g hg).trans ?_) g 1 hg one_pos le_rfl
    have h1η : 1 ≤ (1 / η) ^ 2 := one_le_pow₀ (by rw [le_div_iff₀ hη]; linarith)
    calc C = 1 * C := (one_mul C).symm
      _ ≤ ENNReal.ofReal ((1 / η) ^ 2) * C := mul_le_mul' (by rw [← ENNReal.ofReal_one]; exact ENNReal.ofReal_le_ofReal h1η) le_rfl
  · have := h4 rt rays ray n fuel hsh hlen hu hv (by rw [hη]; exact one_pos) (by rw [hη]) hE hfuel
    rw [hη, h11] at this
    simpa only [one_mul] using this

/-- **C144, pictures.** With `limit_weight` 0 and mirrors that count as bounces, the mean of each channel of each pixel is the light of the scene's geometry that has met at most `max_depth + 1` surfaces, along the camera's ray through that pixel, whatever the schedule of the workers. -/
theorem C144_picture (hW : w.SunlitMirrors s) (suns : List SunDisc) (hsuns : w.HasSuns s suns) : ∃ S : Sight, S.Faithful s ∧ ∀ (axes : Axes) (ch : Spectrum ℝ → ℝ), ch ∈ [Spectrum.c0, Spectrum.c1, Spectrum.c2] →
    ∀ (o : SpictOptions), o.Sized → o.camera.view.Proper → 0 < o.rt.nShadowSamples → 0 < o.rt.nAmbientSamples → o.rt.limitWeight = 0 → 1 ≤ o.rt.countSpecularBounce → o.rt.maxDepth < 15 → ∀ fuel, o.rt.maxDepth + o.rt.nShadowSamples + o.rt.nAmbientSamples + 4 ≤ fuel →
    ∀ {Ω : Type} [MeasurableSpace Ω] (μ : Measure Ω) (gen : Ω → Nat → Rng), (∀ k, MeasurePreserving (fun ω => gen ω k) μ randomNumbers) → ∀ state : Ω → RState TState (Spectrum ℝ), (∀ ω, o.Rendered w fuel (gen ω) (state ω)) →
    ∀ x y, x < o.width → y < o.height →
      ∫⁻ ω, ENNReal.ofReal (ch (pixelOf o.width o.height (state ω) x y)) ∂μ = s.mirrorAfter suns S axes ch (o.rt.maxDepth + 1) (o.camera.traceableRay (x, y)).geometry := by
  obtain ⟨S, hS, hb⟩ := mirror_sight hW suns hsuns
  refine ⟨S, hS, fun axes ch hch o ho hv hsh hA hlim hcsb hD fuel hfuel Ω _ μ gen hgen state hs x y hx hy => ?_⟩
  have h0 : ∀ p, (o.camera.traceableRay p).depth = 0 := fun p => by simp [Pinhole.traceableRay, TRay.default]
  rw [C138_mean_picture hW.glazed o ho hv hsh hD (o.rt.maxDepth + 2) fuel (by omega) (fun p _ _ => counted_ends hW.toSunlit o.rt hcsb (o.rt.maxDepth + 1) _ (by rw [h0]; omega)) hgen state hs ch hch x y hx hy]
  exact glazed_mirrorAfter hch (hb axes ch hch) o.rt hA hlim hcsb (o.rt.maxDepth + 1) _ (by rw [h0]; omega) (traceable_unit o hv _)

end Rendering
