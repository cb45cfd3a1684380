import Verif.Spec.Media
import Verif.Props.Panes
import Verif.Props.Specular

/-!
# C146: on average, pictures with mirrors, panes and dielectrics show the light of the scene's geometry
-/

set_option linter.unusedSectionVars false
namespace Rendering

open MeasureTheory Set

variable {w : World} {s : Scene ℝ}

theorem World.SunlitMedia.glazed (hW : w.SunlitMedia s) : w.SunlitGlazed s := by
  refine ⟨hW.toSunlit, fun k m hm hk => ?_⟩
  obtain ⟨col, hn, rfl | ⟨r, h⟩ | ⟨n, rfl, h1, hf, -⟩ | ⟨n, rfl, h1⟩⟩ := hW.surfaces k m hm hk
  · exact Or.inr ⟨rfl, hn⟩
  · exact Or.inl ⟨col, r, h, hn⟩
  · exact Or.inr ⟨rfl, hf, by linarith⟩
  · exact Or.inr ⟨rfl, hn, h1⟩

/-- What is said of an offered path. -/
abbrev pathSeen : TRay × Spectrum ℝ → Ray3 ℝ × ℝ × Spectrum ℝ := fun x => (x.1.geometry, x.1.refractionIndex, x.2)

/-- The paths the surface of a dielectric offers, and their shares. -/
theorem dielectric_offered (colour : Spectrum ℝ) (n : ℝ) (hn : 0 < n) (N d : Vec3 ℝ) (hN : Norm N = 1) (hd : Norm d = 1) (hdot : Dot N d < 0) (p : Vec3 ℝ) (η : ℝ) (hη : 0 < η) :
    ∃ outs : List (Ray3 ℝ × ℝ × Spectrum ℝ), (∀ o ∈ outs, Norm o.1.direction = 1 ∧ 0 < o.2.1) ∧
      (∀ arrived : TRay, arrived.geometry.direction = d → arrived.interaction.point = p → arrived.interaction.shading.normal = N → arrived.refractionIndex = η → (offered (.dielectric colour n) arrived).map pathSeen = outs) ∧
      ∀ ch : Spectrum ℝ → ℝ, ch ∈ [Spectrum.c0, Spectrum.c1, Spectrum.c2] → ∀ L : Ray3 ℝ → ℝ → ENNReal, (outs.map fun o => ENNReal.ofReal (ch o.2.2) * L o.1 o.2.1).sum =
        (let n2 := beyondSurface η n
         let a := |Dot N d|
         let x := sineBeyond η n2 a
         let R := fresnelShare η n2 a (Real.sqrt (1 - x ^ 2))
         if 1 ≤ x then L ⟨p + N.scale (1 / 10 ^ 5), mirrored d N⟩ η
         else ENNReal.ofReal R * L ⟨p + N.scale (1 / 10 ^ 5), mirrored d N⟩ η +
          ENNReal.ofReal (ch colour * ((1 - R) * (n2 / η) ^ 2)) * L ⟨p - N.scale (1 / 10 ^ 5), bent η n2 d N⟩ n2) := by
  have hm : Norm (mirrored d N) = 1 := by
    have h := (C43_mirror_direction d N hN hd).1
    rwa [mirror_raw hN hd] at h
  have hdot' : Dot d N < 0 := by rw [Dot_comm]; exact hdot
  have hle := dot_abs_le_one hd hN
  have hn2 : 0 < beyondSurface η n := farIndex_pos (n1 := η) hn
  have ha : 0 < |Dot N d| := abs_pos.2 hdot.ne
  have hab : |Dot d N| = |Dot N d| := by rw [Dot_comm]
  have hx0 : 0 ≤ sineBeyond η (beyondSurface η n) |Dot N d| := by unfold sineBeyond; positivity
  have hxs : η ^ 2 * (1 - |Dot N d| ^ 2) / beyondSurface η n ^ 2 = sineBeyond η (beyondSurface η n) |Dot N d| ^ 2 := by
    unfold sineBeyond
    rw [mul_pow, Real.sq_sqrt (by rw [sq_abs, Dot_comm]; linarith), div_pow]
    ring
  have hcos : ∀ arrived : TRay, arrived.geometry.direction = d → arrived.refractionIndex = η → cosAndN arrived N n =
      (η, |Dot N d|, beyondSurface η n, if sineBeyond η (beyondSurface η n) |Dot N d| ^ 2 > 1 then none else some (Real.sqrt (1 - sineBeyond η (beyondSurface η n) |Dot N d| ^ 2))) := by
    rintro arrived rfl rfl
    rw [cosAndN_eq arrived N n hN hd]
    simp only [hab]
    rw [← hxs]
    rfl
  -- the transmitted direction is a unit vector
  have hbent : ¬ sineBeyond η (beyondSurface η n) |Dot N d| ^ 2 > 1 → Norm (bent η (beyondSurface η n) d N) = 1 := by
    intro hx
    have hc := hcos { TRay.default with geometry := ⟨p, d⟩, refractionIndex := η } rfl rfl
    rw [if_neg hx] at hc
    have := (C45_transmitted_path colour n N p { TRay.default with geometry := ⟨p, d⟩, refractionIndex := η } hN hd hdot' hη hn _ _ (by unfold dielectricPaths; simp only [hc]; rfl)).1
    exact this
  set n2 := beyondSurface η n with hn2def
  set a := |Dot N d| with hadef
  set x := sineBeyond η n2 a with hxdef
  by_cases h1 : x ^ 2 > 1
  · have hx1 : 1 ≤ x := by nlinarith
    refine ⟨[(⟨p + N.scale (1 / 10 ^ 5), mirrored d N⟩, η, Spectrum.one)], ?_, ?_, fun ch hch L => ?_⟩
    · intro o ho
      rw [List.mem_singleton.1 ho]
      exact ⟨hm, hη⟩
    · intro arrived e1 e2 e3 e4
      have hc := hcos arrived e1 e4
      rw [if_pos h1] at hc
      have hone : ((Spectrum.one : Spectrum ℝ).divBy a).scale a = Spectrum.one := by
        simp only [Spectrum.divBy, Spectrum.scale, Spectrum.one, Spectrum.gray]
        ext <;> field_simp
      simp only [offered, Material.getPossiblePaths, e2, e3, dielectricPaths, hc, dielectricReflTrans, Paths.toList, Option.toList_some, Option.toList_none, List.append_nil, List.map_cons, List.map_nil, pathSeen, e1, e4, mirror_raw hN hd, hone]
      rfl
    · simp only [← hxdef, if_pos hx1, List.map_cons, List.map_nil, List.sum_cons, List.sum_nil, add_zero, chan_one hch, ENNReal.ofReal_one, one_mul]
  · have hxle : x ≤ 1 := by nlinarith
    refine ⟨[(⟨p + N.scale (1 / 10 ^ 5), mirrored d N⟩, η, (((Spectrum.one : Spectrum ℝ).scale (fresnelReflectance η a n2 (Real.sqrt (1 - x ^ 2)))).divBy a).scale a), (⟨p - N.scale (1 / 10 ^ 5), bent η n2 d N⟩, n2, ((colour.scale ((1 - fresnelReflectance η a n2 (Real.sqrt (1 - x ^ 2))) * (n2 / η * (n2 / η)))).divBy (Real.sqrt (1 - x ^ 2))).scale (Real.sqrt (1 - x ^ 2)))], ?_, ?_, fun ch hch L => ?_⟩
    · intro o ho
      simp only [List.mem_cons, List.not_mem_nil, or_false] at ho
      rcases ho with rfl | rfl
      exacts [⟨hm, hη⟩, ⟨hbent h1, hn2⟩]
    · intro arrived e1 e2 e3 e4
      have hc := hcos arrived e1 e4
      rw [if_neg h1] at hc
      simp only [offered, Material.getPossiblePaths, e2, e3, dielectricPaths, hc, dielectricReflTrans, Paths.toList, Option.toList_some, List.map_cons, List.map_nil, pathSeen, e1, e4, mirror_raw hN hd]
      rfl
    · have hw1 : ch ((((Spectrum.one : Spectrum ℝ).scale (fresnelReflectance η a n2 (Real.sqrt (1 - x ^ 2)))).divBy a).scale a) = fresnelReflectance η a n2 (Real.sqrt (1 - x ^ 2)) := by
        simp only [List.mem_cons, List.not_mem_nil, or_false] at hch
        rcases hch with rfl | rfl | rfl <;> simp only [Spectrum.divBy, Spectrum.scale, Spectrum.one, Spectrum.gray] <;> field_simp
      by_cases h2 : 1 ≤ x
      · have e : x = 1 := le_antisymm hxle h2
        have hz : Real.sqrt (1 - x ^ 2) = 0 := by rw [e]; norm_num
        have hR : fresnelReflectance η a n2 (Real.sqrt (1 - x ^ 2)) = 1 := by
          rw [hz]
          unfold fresnelReflectance fresnelTm fresnelTe
          have h3 : η / a ≠ 0 := (div_pos hη ha).ne'
          have h4 : η * a ≠ 0 := (mul_pos hη ha).ne'
          simp only [div_zero, mul_zero, sub_zero, add_zero, div_self h3, div_self h4]
          norm_num
        have hw2 : ch (((colour.scale ((1 - fresnelReflectance η a n2 (Real.sqrt (1 - x ^ 2))) * (n2 / η * (n2 / η)))).divBy (Real.sqrt (1 - x ^ 2))).scale (Real.sqrt (1 - x ^ 2))) = 0 := by
          rw [hz]
          simp only [List.mem_cons, List.not_mem_nil, or_false] at hch
          rcases hch with rfl | rfl | rfl <;> simp only [Spectrum.divBy, Spectrum.scale, mul_zero]
        simp only [← hxdef, List.map_cons, List.map_nil, List.sum_cons, List.sum_nil, add_zero, hw1, hw2, if_pos h2]
        rw [hR, ENNReal.ofReal_one, ENNReal.ofReal_zero, one_mul, zero_mul, add_zero]
      · have hb : 0 < Real.sqrt (1 - x ^ 2) := Real.sqrt_pos.2 (by nlinarith)
        have hR : fresnelReflectance η a n2 (Real.sqrt (1 - x ^ 2)) = fresnelShare η n2 a (Real.sqrt (1 - x ^ 2)) := by
          rw [fresnelReflectance_eq ha hb]
          unfold FresnelR fresnelShare
          ring
        have hw2 : ch (((colour.scale ((1 - fresnelReflectance η a n2 (Real.sqrt (1 - x ^ 2))) * (n2 / η * (n2 / η)))).divBy (Real.sqrt (1 - x ^ 2))).scale (Real.sqrt (1 - x ^ 2))) = ch colour * ((1 - fresnelShare η n2 a (Real.sqrt (1 - x ^ 2))) * (n2 / η) ^ 2) := by
          rw [hR]
          simp only [List.mem_cons, List.not_mem_nil, or_false] at hch
          rcases hch with rfl | rfl | rfl <;> simp only [Spectrum.divBy, Spectrum.scale] <;> rw [div_mul_cancel₀ _ hb.ne'] <;> ring
        simp only [← hxdef, List.map_cons, List.map_nil, List.sum_cons, List.sum_nil, add_zero, hw1, hw2, if_neg h2]
        rw [hR]

/-- The program sees the scene as `S` does, in every medium. -/
def World.MediaSight (w : World) (s : Scene ℝ) (suns : List SunDisc) (S : Sight) (axes : Axes) (ch : Spectrum ℝ → ℝ) : Prop := ∀ (view : Ray3 ℝ) (η : ℝ), Norm view.direction = 1 → 0 < η →
    ((∀ ray : TRay, ray.geometry = view → w.cast ray = .ok none) ∧ ∀ L, s.mediaRadiance suns S axes ch L view η = 0) ∨
    ∃ i it m, (∀ ray : TRay, ray.geometry = view → w.cast ray = .ok (some (i, { ray with interaction := it }))) ∧ w.materialAt it.shading.side i = .ok m ∧
      ((m.specularOnly = true ∧ ∃ outs : List (Ray3 ℝ × ℝ × Spectrum ℝ), (∀ o ∈ outs, Norm o.1.direction = 1 ∧ 0 < o.2.1) ∧ (∀ ray : TRay, ray.geometry = view → ray.refractionIndex = η → (offered m { ray with interaction := it }).map pathSeen = outs) ∧
        ∀ L, s.mediaRadiance suns S axes ch L view η = (outs.map fun o => ENNReal.ofReal (ch o.2.2) * L o.1 o.2.1).sum) ∨
       (m.specularOnly = false ∧ (∀ (ray : TRay) l, ray.geometry = view → Norm l = 1 → Norm (TRay.onward { ray with interaction := it } m l).geometry.direction = 1) ∧ ∀ L (ray : TRay), ray.geometry = view →
          s.mediaRadiance suns S axes ch L view η = sunlightAt w m { ray with interaction := it } ch + ENNReal.ofReal (ch m.colour / Real.pi) * irradiance fun l => L (TRay.onward { ray with interaction := it } m l).geometry η))

/-- What the program meets along a ray, and what the geometry says. -/
theorem media_sight (hW : w.SunlitMedia s) (suns : List SunDisc) (hsuns : w.HasSuns s suns) : ∃ S : Sight, S.Faithful s ∧ ∀ (axes : Axes) (ch : Spectrum ℝ → ℝ), ch ∈ [Spectrum.c0, Spectrum.c1, Spectrum.c2] → w.MediaSight s suns S axes ch := by
  obtain ⟨S, hS, hfree, hmeets⟩ := sight_exists hW.renders
  refine ⟨S, hS, fun axes ch hch view η hv hη => ?_⟩
  rcases hmeets view with ⟨h1, h2⟩ | ⟨j, p, i, tri, b, h1, h2⟩
  · refine Or.inl ⟨fun ray hr => ?_, fun L => by unfold Scene.mediaRadiance; rw [h1]⟩
    unfold World.cast at h2 ⊢
    rw [hr]
    revert h2
    cases w.scene.castRay w.env view [] with
    | ok x =>
      rcases x with _ | x
      · simp
      · simp only
        rcases ho : w.scene.triangles[x.1]? with _ | t <;> simp only [ho, Res.ofOption_some, Res.ofOption, Res.bind] <;> intro h2 <;> cases h2
    | panic => simp
    | diverge => simp
  · obtain ⟨m, k, hm, hk, hmat, hseen⟩ := surface_seen hW.toSunlit hv h2
    obtain ⟨hp, hframe, -, hdot, -, -, -⟩ := recorded_spec tri view b hv h2.hit
    have hpp : (recordedInteraction tri view b).point = p := by rw [hp, h2.point]
    have hN := hframe.n3
    refine Or.inr ⟨i, recordedInteraction tri view b, m, fun ray hr => cast_same { TRay.default with geometry := view } ray hr.symm h2.cast, hmat, ?_⟩
    obtain ⟨col, hnn, rfl | ⟨r, hmm⟩ | ⟨n, rfl, h1n, hf, hclear⟩ | ⟨n, rfl, hn0⟩⟩ := hW.surfaces k m hm hk
    · refine Or.inl ⟨rfl, [(⟨p + (recordedInteraction tri view b).shading.normal.scale (1 / 10 ^ 5), mirrored view.direction (recordedInteraction tri view b).shading.normal⟩, η, Spectrum.one)], ?_, fun ray hr hi => ?_, fun L => ?_⟩
      · have h := (C43_mirror_direction view.direction _ hN hv).1
        rw [mirror_raw hN hv] at h
        intro o ho
        rw [List.mem_singleton.1 ho]
        exact ⟨h, hη⟩
      · subst hr
        rw [mirror_path_offered col { ray with interaction := recordedInteraction tri ray.geometry b } hN hv hdot]
        simp only [hpp, List.map_cons, List.map_nil, pathSeen, hi]
      · unfold Scene.mediaRadiance
        rw [h1]
        simp only [hseen, List.map_cons, List.map_nil, List.sum_cons, List.sum_nil, add_zero, chan_one hch, ENNReal.ofReal_one, one_mul]
    · obtain ⟨-, hspec, hcc⟩ := matt_only_flags hmm
      refine Or.inr ⟨hspec, fun ray l hr hl => ?_, fun L ray hr => ?_⟩
      · have hl2 : l.x ^ 2 + l.y ^ 2 + l.z ^ 2 = 1 := by
          have := Dot_self_of_norm hl; simp only [Dot] at this; nlinarith
        have := (world_unit hframe hl2).1
        rw [world_eq] at this
        exact this
      · have hm' : s.mediaRadiance suns S axes ch L view η = ENNReal.ofReal (ch m.colour / Real.pi) * ((suns.map fun sun => sun.onto S axes ch (p + (recordedInteraction tri view b).shading.normal.scale (1 / 1000)) (recordedInteraction tri view b).shading.normal).sum +
            ∫⁻ q in Ioo (0 : ℝ) 1 ×ˢ Ioo 0 (2 * Real.pi), L ⟨p + (recordedInteraction tri view b).shading.normal.scale (1 / 10 ^ 5), axes.around (recordedInteraction tri view b).shading.normal q.1 q.2⟩ η * ENNReal.ofReal q.1) := by
          unfold Scene.mediaRadiance
          rw [h1]
          simp only [hseen]
          simp only [List.mem_cons, List.not_mem_nil, or_false] at hmm
          rcases hmm with rfl | rfl <;> rfl
        rw [hm', sunlight_exact hW.toSunlit suns hsuns m col r hmm hnn ch hch S hfree axes _, mul_add, hcc]
        simp only [hpp]
        congr 2
        have e := frame_free (axes.frame _ hN) hframe (Ioo 0 1) measurableSet_Ioo (fun z v => L ⟨p + (recordedInteraction tri view b).shading.normal.scale (1 / 10 ^ 5), v⟩ η * ENNReal.ofReal z)
        unfold irradiance
        simp only [TRay.onward, hpp, Axes.around]
        exact e.symm
    · obtain ⟨outs, o1, o2, o3⟩ := pane_offered col n h1n hf hclear _ view.direction hN hv hdot p
      refine Or.inl ⟨rfl, outs.map fun o => (o.1, η, o.2), ?_, fun ray hr hi => ?_, fun L => ?_⟩
      · intro o ho
        obtain ⟨o', h', rfl⟩ := List.mem_map.1 ho
        exact ⟨o1 o' h', hη⟩
      · subst hr
        rw [o2 { ray with interaction := recordedInteraction tri ray.geometry b } rfl hpp rfl, List.map_map]
        simp only [Function.comp_def, pathSeen, hi]
      · have := o3 ch hch fun g => L g η
        rw [List.map_map]
        simp only [Function.comp_def]
        rw [this]
        unfold Scene.mediaRadiance
        rw [h1]
        simp only [hseen]
    · obtain ⟨outs, o1, o2, o3⟩ := dielectric_offered col n hn0 _ view.direction hN hv hdot p η hη
      refine Or.inl ⟨rfl, outs, o1, fun ray hr hi => ?_, fun L => ?_⟩
      · subst hr
        exact o2 { ray with interaction := recordedInteraction tri ray.geometry b } rfl hpp rfl hi
      · rw [o3 ch hch L]
        unfold Scene.mediaRadiance
        rw [h1]
        simp only [hseen]

/-- When mirrors, panes and dielectrics count as bounces, the light of `max_depth` is the light that has met so many surfaces. -/
theorem glazed_mediaAfter {suns : List SunDisc} {S : Sight} {axes : Axes} {ch : Spectrum ℝ → ℝ} (hch : ch ∈ [Spectrum.c0, Spectrum.c1, Spectrum.c2]) (h : w.MediaSight s suns S axes ch) (rt : RayTracer) (hamb : 0 < rt.nAmbientSamples) (hlim : rt.limitWeight = 0) (hcsb : 1 ≤ rt.countSpecularBounce)
    (k : Nat) : ∀ ray : TRay, ray.depth + k = rt.maxDepth + 1 → Norm ray.geometry.direction = 1 → 0 < ray.refractionIndex → glazedLight w rt ch (k + 1) ray = s.mediaAfter suns S axes ch k ray.geometry ray.refractionIndex := by
  have hκ : countedChance rt = 1 := by
    unfold countedChance
    rw [min_eq_left hcsb, ENNReal.ofReal_one]
  induction k with
  | zero =>
    intro ray hd hu hi
    rw [glazedLight]
    simp only [Scene.mediaAfter]
    rcases h ray.geometry ray.refractionIndex hu hi with ⟨h1, -⟩ | ⟨i, it, m, h1, h2, -⟩
    · rw [h1 ray rfl]
    · simp only [h1 ray rfl, h2]
      rw [if_pos (by omega)]
  | succ k ih =>
    intro ray hd hu hi
    rw [glazedLight, Scene.mediaAfter]
    rcases h ray.geometry ray.refractionIndex hu hi with ⟨h1, h3⟩ | ⟨i, it, m, h1, h2, ⟨hs, outs, hout, ho, h3⟩ | ⟨hs, hon, h3⟩⟩
    · rw [h1 ray rfl, h3]
    · simp only [h1 ray rfl, h2]
      rw [if_neg (by omega), if_pos hs, h3, hκ, ← ho ray rfl rfl]
      simp only [tsub_self, zero_mul, one_mul, add_zero, List.map_map]
      congr 1
      refine List.map_congr_left fun o ho' => ?_
      simp only [Function.comp, pathSeen]
      have hd' := offered_depth m _ o ho'
      have hu' := hout (pathSeen o) (by rw [← ho ray rfl rfl]; exact List.mem_map_of_mem ho')
      rw [ih _ (by simp only [TRay.counted]; simp only at hd'; omega) (by simpa only [TRay.counted] using hu'.1) (by simpa only [TRay.counted] using hu'.2)]
      rfl
    · simp only [h1 ray rfl, h2]
      rw [if_neg (by omega), if_neg (by rw [hs]; simp), h3 _ ray rfl]
      congr 1
      have e : irradiance (fun l => glazedLight w rt ch (k + 1) (TRay.onward { ray with interaction := it } m l)) = irradiance fun l => s.mediaAfter suns S axes ch k (TRay.onward { ray with interaction := it } m l).geometry ray.refractionIndex :=
        irradiance_congr fun l hl => ih _ (by simp only [TRay.onward]; omega) (hon ray l rfl hl) hi
      rw [e]
      by_cases hD : rt.maxDepth = 0
      · have hk : k = 0 := by omega
        subst hk
        have hz : (irradiance fun l => s.mediaAfter suns S axes ch 0 (TRay.onward { ray with interaction := it } m l).geometry ray.refractionIndex) = 0 := by
          unfold irradiance
          simp [Scene.mediaAfter]
        rw [hz, mul_zero, mul_zero]
      · have hf : followChance rt ray.depth ray.value = 1 := by
          unfold followChance
          rw [if_neg (by omega)]
          simp [hlim]
        rw [hf, one_mul]

/-- The program's equation is that of the geometry. -/
theorem glazedBack_media {suns : List SunDisc} {S : Sight} {axes : Axes} {ch : Spectrum ℝ → ℝ} (h : w.MediaSight s suns S axes ch) (L : Ray3 ℝ → ℝ → ENNReal) (view : Ray3 ℝ) (η : ℝ) (hu : Norm view.direction = 1) (hη : 0 < η) :
    w.glazedBack ch L view η = s.mediaRadiance suns S axes ch L view η := by
  unfold World.glazedBack
  rcases h view η hu hη with ⟨h1, h3⟩ | ⟨i, it, m, h1, h2, ⟨hs, outs, hout, ho, h3⟩ | ⟨hs, hon, h3⟩⟩
  · rw [h1 _ rfl, h3]
  · simp only [h1 { TRay.default with geometry := view, refractionIndex := η } rfl, h2]
    rw [if_pos hs, h3, ← ho { TRay.default with geometry := view, refractionIndex := η } rfl rfl, List.map_map]
    rfl
  · simp only [h1 { TRay.default with geometry := view, refractionIndex := η } rfl, h2]
    rw [if_neg (by rw [hs]; simp), h3 _ { TRay.default with geometry := view, refractionIndex := η } rfl]

theorem mediaBalance_iff {suns : List SunDisc} {S : Sight} {axes : Axes} {ch : Spectrum ℝ → ℝ} (h : w.MediaSight s suns S axes ch) (L : Ray3 ℝ → ℝ → ENNReal) : w.SolvesGlazedEquation ch L ↔ s.MediaBalance suns S axes ch L := by
  unfold World.SolvesGlazedEquation Scene.MediaBalance
  exact forall₂_congr fun view η => forall₂_congr fun hu hη => by rw [glazedBack_media h L view η hu hη]

/-- **C146, finitely many surfaces.** In a scene of matt surfaces, mirrors, panes of glass and dielectrics under suns there is a way of seeing that agrees with the triangles of the scene, such that for every setting with `limit_weight` 0 in which mirrors, panes and dielectrics count as bounces, along every ray, the mean of what `trace_ray` returns is the light
of the scene's geometry that has met at most `max_depth + 1` surfaces: mirrors show all the light of the mirrored direction, panes their shares of it and of the light straight behind them, dielectrics Fresnel's share of it and the rest of the light from the refracted direction, matt surfaces `colour / π` times the integrals over the discs of the suns and over the hemisphere. -/
theorem C146_mean_light (hW : w.SunlitMedia s) (suns : List SunDisc) (hsuns : w.HasSuns s suns) : ∃ S : Sight, S.Faithful s ∧ ∀ (axes : Axes) (ch : Spectrum ℝ → ℝ), ch ∈ [Spectrum.c0, Spectrum.c1, Spectrum.c2] →
    ∀ (rt : RayTracer) (rays : List TRay) (ray : TRay) (fuel : Nat), 0 < rt.nShadowSamples → 0 < rt.nAmbientSamples → rt.limitWeight = 0 → 1 ≤ rt.countSpecularBounce → rt.maxDepth < rays.length →
      Norm ray.geometry.direction = 1 → 0 ≤ ray.value → 0 < ray.refractionIndex → ray.depth = 0 → rt.maxDepth + rt.nShadowSamples + rt.nAmbientSamples + 4 ≤ fuel →
      ∫⁻ r, seenLight (traceRay w rt fuel ⟨r, rays⟩ ray) ch ∂randomNumbers = s.mediaAfter suns S axes ch (rt.maxDepth + 1) ray.geometry ray.refractionIndex := by
  obtain ⟨S, hS, hb⟩ := media_sight hW suns hsuns
  refine ⟨S, hS, fun axes ch hch rt rays ray fuel hsh hA hlim hcsb hlen hu hv hη hd hfuel => ?_⟩
  rw [C123_every_bounce_counts hW.glazed rt hsh hcsb ch hch rays hlen ray hu hv hη (by omega) fuel hfuel, hd]
  exact glazed_mediaAfter hch (hb axes ch hch) rt hA hlim hcsb (rt.maxDepth + 1) ray (by omega) hu hη

/-- **C146, any number of surfaces.** There is a way of seeing that agrees with the triangles of the scene, such that as `max_depth` grows, whatever the chance that mirrors, panes and dielectrics count as bounces, the mean of what `trace_ray` returns tends to a light that is in balance with the scene's geometry, mirrors, panes and dielectrics included: the least such light.
(For each `max_depth` the paths have to end, as they do when there is a limit to the mirrors, panes and dielectrics in a row, or when mirrors count.) -/
theorem C146_limit (hW : w.SunlitMedia s) (suns : List SunDisc) (hsuns : w.HasSuns s suns) : ∃ S : Sight, S.Faithful s ∧ ∀ (axes : Axes) (ch : Spectrum ℝ → ℝ), ch ∈ [Spectrum.c0, Spectrum.c1, Spectrum.c2] →
    ∃ L : Ray3 ℝ → ℝ → ENNReal, s.MediaBalance suns S axes ch L ∧ (∀ L', s.MediaBalance suns S axes ch L' → ∀ (g : Ray3 ℝ) (η : ℝ), Norm g.direction = 1 → 0 < η → L g η ≤ L' g η) ∧
    ∀ (rt : RayTracer) (ray : TRay) (n : Nat → Nat), 0 < rt.nShadowSamples → 0 < rt.nAmbientSamples → rt.limitWeight = 0 → Norm ray.geometry.direction = 1 → 0 ≤ ray.value → 0 < ray.refractionIndex → (∀ depth, w.EndsWithin { rt with maxDepth := depth } (n depth) ray) →
      Filter.Tendsto (fun depth => ∫⁻ r, seenLight (traceRay w { rt with maxDepth := depth } (n depth + rt.nShadowSamples + rt.nAmbientSamples + 2) ⟨r, List.replicate (depth + 1) TRay.default⟩ ray) ch ∂randomNumbers) Filter.atTop (nhds (L ray.geometry ray.refractionIndex)) := by
  obtain ⟨S, hS, hb⟩ := media_sight hW suns hsuns
  refine ⟨S, hS, fun axes ch hch => ?_⟩
  obtain ⟨L, h1, h2, h3⟩ := C139_limit hW.glazed ch hch
  exact ⟨L, (mediaBalance_iff (hb axes ch hch) L).1 h1, fun L' hL' => h2 L' ((mediaBalance_iff (hb axes ch hch) L').2 hL'), h3⟩

/-- **C146, the error.** If every matt surface reflects at most the share `ρ < 1`, dielectrics have no channel brighter than one and are not denser than `top`, and at most `b` mirrors, panes or dielectrics follow each other on any path, exactly one light (bounded in light per squared index) is in balance with the scene's geometry; the mean of what `trace_ray` returns is never more,
and with `limit_weight` 0 it misses at most `ρ^k` times a constant of the scene and of the medium, where `k` matt surfaces, each after `b` mirrors, panes or dielectrics, have room in `max_depth`. -/
theorem C146_error (hW : w.SunlitMedia s) (suns : List SunDisc) (hsuns : w.HasSuns s suns) : ∃ S : Sight, S.Faithful s ∧ ∀ (axes : Axes) (ch : Spectrum ℝ → ℝ), ch ∈ [Spectrum.c0, Spectrum.c1, Spectrum.c2] →
    ∀ ρ : ENNReal, ρ < 1 → (∀ (k : Nat) m, s.materials[k]? = some m → k ∈ s.front ++ s.back → m.specularOnly = false → ENNReal.ofReal (ch m.colour) ≤ ρ) →
    ∀ top : ℝ, 1 ≤ top → (∀ (k : Nat) col n, s.materials[k]? = some (.dielectric col n) → k ∈ s.front ++ s.back → ch col ≤ 1 ∧ n ≤ top) →
    ∀ b : Nat, (∀ ray : TRay, Norm ray.geometry.direction = 1 → 0 < ray.refractionIndex → w.SpecularRow b ray) →
    ∃ (L : Ray3 ℝ → ℝ → ENNReal) (B : ENNReal), B ≠ ⊤ ∧ s.MediaBalance suns S axes ch L ∧ (∀ (g : Ray3 ℝ) (η : ℝ), Norm g.direction = 1 → 0 < η → η ≤ top → L g η ≤ ENNReal.ofReal ((top / η) ^ 2) * B) ∧
      (∀ L' C, C ≠ ⊤ → s.MediaBalance suns S axes ch L' → (∀ (g : Ray3 ℝ) (η : ℝ), Norm g.direction = 1 → 0 < η → η ≤ top → L' g η ≤ ENNReal.ofReal ((top / η) ^ 2) * C) → ∀ (g : Ray3 ℝ) (η : ℝ), Norm g.direction = 1 → 0 < η → η ≤ top → L' g η = L g η) ∧
      ∀ (rt : RayTracer) (rays : List TRay) (ray : TRay) (n fuel : Nat), 0 < rt.nShadowSamples → rt.maxDepth < rays.length → Norm ray.geometry.direction = 1 → 0 ≤ ray.value → 0 < ray.refractionIndex → ray.refractionIndex ≤ top → w.EndsWithin rt n ray → n + rt.nShadowSamples + rt.nAmbientSamples + 2 ≤ fuel →
        ∫⁻ r, seenLight (traceRay w rt fuel ⟨r, rays⟩ ray) ch ∂randomNumbers ≤ L ray.geometry ray.refractionIndex ∧
        (0 < rt.nAmbientSamples → rt.limitWeight = 0 → ∀ k, ray.depth + (k * (b + 1) + b) ≤ rt.maxDepth + 1 →
          L ray.geometry ray.refractionIndex ≤ ∫⁻ r, seenLight (traceRay w rt fuel ⟨r, rays⟩ ray) ch ∂randomNumbers + ENNReal.ofReal ((top / ray.refractionIndex) ^ 2) * (ρ ^ k * B)) := by
  obtain ⟨S, hS, hb⟩ := media_sight hW suns hsuns
  refine ⟨S, hS, fun axes ch hch ρ hρ1 hρ top htop hdiel b hrows => ?_⟩
  have hA : ∀ (k : Nat) m, s.materials[k]? = some m → k ∈ s.front ++ s.back → m.specularOnly = true → m.AddsNoLight ch top := by
    intro k m hm hk hs
    obtain ⟨col, hnn, rfl | ⟨r, hmm⟩ | ⟨n, rfl, h1n, -, -⟩ | ⟨n, rfl, -⟩⟩ := hW.surfaces k m hm hk
    · trivial
    · rw [(matt_only_flags hmm).2.1] at hs; cases hs
    · exact h1n
    · exact hdiel k col n hm hk
  obtain ⟨L, B, hB, h1, h2, h3, h4⟩ := C139_error hW.glazed ch hch ρ hρ1 htop hA hρ b hrows
  exact ⟨L, B, hB, (mediaBalance_iff (hb axes ch hch) L).1 h1, h2, fun L' C hC hL' => h3 L' C hC ((mediaBalance_iff (hb axes ch hch) L').2 hL'), h4⟩

/-- **C146, pictures.** With `limit_weight` 0 and mirrors, panes and dielectrics that count as bounces, the mean of each channel of each pixel is the light of the scene's geometry that has met at most `max_depth + 1` surfaces, along the camera's ray through that pixel, whatever the schedule of the workers. -/
theorem C146_picture (hW : w.SunlitMedia s) (suns : List SunDisc) (hsuns : w.HasSuns s suns) : ∃ S : Sight, S.Faithful s ∧ ∀ (axes : Axes) (ch : Spectrum ℝ → ℝ), ch ∈ [Spectrum.c0, Spectrum.c1, Spectrum.c2] →
    ∀ (o : SpictOptions), o.Sized → o.camera.view.Proper → 0 < o.rt.nShadowSamples → 0 < o.rt.nAmbientSamples → o.rt.limitWeight = 0 → 1 ≤ o.rt.countSpecularBounce → o.rt.maxDepth < 15 → ∀ fuel, o.rt.maxDepth + o.rt.nShadowSamples + o.rt.nAmbientSamples + 4 ≤ fuel →
    ∀ {Ω : Type} [MeasurableSpace Ω] (μ : Measure Ω) (gen : Ω → Nat → Rng), (∀ k, MeasurePreserving (fun ω => gen ω k) μ randomNumbers) → ∀ state : Ω → RState TState (Spectrum ℝ), (∀ ω, o.Rendered w fuel (gen ω) (state ω)) →
    ∀ x y, x < o.width → y < o.height →
      ∫⁻ ω, ENNReal.ofReal (ch (pixelOf o.width o.height (state ω) x y)) ∂μ = s.mediaAfter suns S axes ch (o.rt.maxDepth + 1) (o.camera.traceableRay (x, y)).geometry 1 := by
  obtain ⟨S, hS, hb⟩ := media_sight hW suns hsuns
  refine ⟨S, hS, fun axes ch hch o ho hv hsh hA hlim hcsb hD fuel hfuel Ω _ μ gen hgen state hs x y hx hy => ?_⟩
  have h0 : ∀ p, (o.camera.traceableRay p).depth = 0 := fun p => by simp [Pinhole.traceableRay, TRay.default]
  rw [C138_mean_picture hW.glazed o ho hv hsh hD (o.rt.maxDepth + 2) fuel (by omega) (fun p _ _ => counted_ends hW.toSunlit o.rt hcsb (o.rt.maxDepth + 1) _ (by rw [h0]; omega)) hgen state hs ch hch x y hx hy]
  have h1 : (o.camera.traceableRay (x, y)).refractionIndex = 1 := by simp [Pinhole.traceableRay, TRay.default]
  rw [glazed_mediaAfter hch (hb axes ch hch) o.rt hA hlim hcsb (o.rt.maxDepth + 1) _ (by rw [h0]; omega) (traceable_unit o hv _) (by rw [h1]; exact one_pos), h1]

end Rendering
