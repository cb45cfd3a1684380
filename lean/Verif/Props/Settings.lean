import Verif.Spec.Settings
import Verif.Props.GlazedRepaint

/-!
# C143: finer settings never make a darker picture
-/

set_option linter.unusedSectionVars false
namespace Rendering

open MeasureTheory Set

variable {w : World} {s : Scene ℝ} {rt rt' : RayTracer}

/-- The same ray, no deeper. -/
def Sooner (x y : TRay) : Prop := y = { x with depth := y.depth } ∧ y.depth ≤ x.depth

theorem Sooner.counted {x y : TRay} (h : Sooner x y) : Sooner x.counted y.counted := by
  refine ⟨?_, Nat.add_le_add_right h.2 1⟩
  unfold TRay.counted
  rw [h.1]

theorem offered_sooner (m : Material ℝ) {x y : TRay} (h : Sooner x y) : List.Forall₂ (fun p q => Sooner p.1 q.1 ∧ q.2 = p.2 ∧ p.1.value = x.value) (offered m x) (offered m y) := by
  obtain ⟨g, η, it, d, v, cx⟩ := x
  obtain ⟨g', η', it', d', v', cy⟩ := y
  obtain ⟨h, hd⟩ := h
  simp only [TRay.mk.injEq, true_and] at h
  simp only at hd
  obtain ⟨rfl, rfl, rfl, rfl, rfl⟩ := h
  cases m with
  | plastic => exact .nil
  | metal => exact .nil
  | light => exact .nil
  | mirror c =>
    simp only [offered, Material.getPossiblePaths, mirrorPaths, mirrorBsdf, Paths.toList, Option.toList_some, Option.toList_none, List.append_nil]
    exact .cons ⟨⟨rfl, hd⟩, rfl, rfl⟩ .nil
  | glass c n =>
    simp only [offered, Material.getPossiblePaths, glassPaths, Paths.toList, Option.toList_some, List.cons_append, List.nil_append]
    refine .cons ⟨⟨rfl, hd⟩, rfl, rfl⟩ ?_
    split_ifs
    · exact .cons ⟨⟨rfl, hd⟩, rfl, rfl⟩ .nil
    · exact .nil
  | dielectric c n =>
    have e : cosAndN ⟨g', η', it', d', v', cy⟩ it'.shading.normal n = cosAndN ⟨g', η', it', d, v', cy⟩ it'.shading.normal n := rfl
    simp only [offered, Material.getPossiblePaths, dielectricPaths, e, Paths.toList, Option.toList_some, List.cons_append, List.nil_append]
    refine .cons ⟨⟨rfl, hd⟩, rfl, rfl⟩ ?_
    cases (cosAndN ⟨g', η', it', d, v', cy⟩ it'.shading.normal n).2.2.2 with
    | none => exact .nil
    | some c2 => exact .cons ⟨⟨rfl, hd⟩, rfl, rfl⟩ .nil

theorem follow_finer (h : rt.Finer rt') {d d' : Nat} (hd : d' ≤ d) {v : ℝ} (hv : 0 ≤ v) : followChance rt d v ≤ followChance rt' d' v := by
  have h1 : ∀ (rt : RayTracer) d v, followChance rt d v ≤ 1 := follow_le
  by_cases hoff : rt.maxDepth = 0 ∨ rt.nAmbientSamples = 0
  · have : followChance rt d v = 0 := by simp only [followChance, hoff, if_true]
    rw [this]; exact zero_le
  have hoff' : ¬ (rt'.maxDepth = 0 ∨ rt'.nAmbientSamples = 0) := by
    have := h.deeper
    have := h.ambient
    omega
  by_cases hd0 : d' = 0
  · have : followChance rt' d' v = 1 := by simp only [followChance, hoff', if_false, hd0, if_true]
    rw [this]; exact h1 _ _ _
  by_cases hl0 : rt'.limitWeight = 0
  · have : followChance rt' d' v = 1 := by simp only [followChance, hoff', if_false, hd0, hl0, if_true]
    rw [this]; exact h1 _ _ _
  have hl' : 0 < rt'.limitWeight := lt_of_le_of_ne h.limit_nonneg (Ne.symm hl0)
  have hl : 0 < rt.limitWeight := hl'.trans_le h.limit
  have hd1 : d ≠ 0 := by omega
  simp only [followChance, hoff, hoff', if_false, hd0, hd1, hl0, hl.ne']
  exact ENNReal.ofReal_le_ofReal (min_le_min le_rfl (div_le_div_of_nonneg_left hv hl' h.limit))

theorem counted_finer (h : rt.Finer rt') : countedChance rt' ≤ countedChance rt := ENNReal.ofReal_le_ofReal (min_le_min le_rfl h.counted)

/-- Counting less often gives more weight to the path that doesn't count. -/
theorem mix_le_mix {c c' a b a' b' : ENNReal} (hc : c' ≤ c) (h1 : c ≤ 1) (ha : a ≤ a') (hb : b ≤ b') (hab : a' ≤ b') : c * a + (1 - c) * b ≤ c' * a' + (1 - c') * b' := by
  obtain ⟨t, rfl⟩ := exists_add_of_le hc
  obtain ⟨u, hu⟩ := exists_add_of_le h1
  have hc' : c' ≠ ⊤ := ne_top_of_le_ne_top ENNReal.one_ne_top (hc.trans h1)
  have hct : c' + t ≠ ⊤ := ne_top_of_le_ne_top ENNReal.one_ne_top h1
  have e1 : 1 - (c' + t) = u := by rw [hu]; exact ENNReal.add_sub_cancel_left hct
  have e2 : 1 - c' = t + u := by rw [hu, add_assoc]; exact ENNReal.add_sub_cancel_left hc'
  rw [e1, e2, add_mul, add_mul]
  calc c' * a + t * a + u * b ≤ c' * a' + t * b' + u * b' := add_le_add (add_le_add (mul_le_mul' le_rfl ha) (mul_le_mul' le_rfl (ha.trans hab))) (mul_le_mul' le_rfl hb)
    _ = c' * a' + (t * b' + u * b') := by ring

/-- What one ray meets, whatever its depth. -/
theorem meets_sooner (hW : w.SunlitGlazed s) {x y : TRay} (hxy : Sooner x y) (hu : Norm x.geometry.direction = 1) :
    (w.cast x = .ok none ∧ w.cast y = .ok none) ∨
    ∃ i bk tri m it, FlatSide w s i bk tri m ∧ ArrivesAt x.geometry bk tri it ∧ w.cast x = .ok (some (i, { x with interaction := it })) ∧ w.materialAt it.shading.side i = .ok m ∧ w.cast y = .ok (some (i, { y with interaction := it })) := by
  obtain ⟨code, -, hall⟩ := disc_flat hW.toSunlit
  have hg : x.geometry = y.geometry := by rw [hxy.1]
  have huy : Norm y.geometry.direction = 1 := by rw [← hg]; exact hu
  rcases hall x hu with ⟨h1, hc⟩ | ⟨i, bk, tri, m, it, -, hS, hc, ha⟩
  · refine Or.inl ⟨hc, ?_⟩
    rcases hall y huy with ⟨-, h⟩ | ⟨i, bk, tri, m, it, h2, -⟩
    · exact h
    · rw [← hg, h1] at h2; cases h2
  · have hmat := hS.material
    rw [← ha.side] at hmat
    exact Or.inr ⟨i, bk, tri, m, it, hS, ha, hc, hmat, cast_same x y hg hc⟩

theorem onward_unit_side {i : Nat} {bk : Bool} {tri : Tri ℝ} {m : Material ℝ} (hS : FlatSide w s i bk tri m) {x : TRay} {it : Interaction} (ha : ArrivesAt x.geometry bk tri it) {l : Vec3 ℝ} (hl : Norm l = 1) : Norm (TRay.onward { x with interaction := it } m l).geometry.direction = 1 := by
  have hl2 : l.x ^ 2 + l.y ^ 2 + l.z ^ 2 = 1 := by
    have := Dot_self_of_norm hl; simp only [Dot] at this; nlinarith
  have := (world_unit hS.frame hl2).1
  rw [world_eq] at this
  simp only [TRay.onward, ha.normal, ha.dpdu, ha.dpdv]
  exact this

/-- Coarser settings let rays end no later. -/
theorem ends_finer (hW : w.SunlitGlazed s) (n : ℕ) : ∀ {rt rt' : RayTracer}, rt.Finer rt' → ∀ x y : TRay, Sooner x y → Norm x.geometry.direction = 1 → 0 < x.refractionIndex → w.EndsWithin rt' n y → w.EndsWithin rt n x := by
  induction n with
  | zero => exact fun _ _ _ _ _ _ h => h
  | succ n ih =>
    intro rt rt' hf x y hxy hu hη hE
    unfold World.EndsWithin at hE ⊢
    rcases meets_sooner hW hxy hu with ⟨hc, -⟩ | ⟨i, bk, tri, m, it, hS, ha, hc, hmat, hc'⟩
    · rw [hc]; trivial
    simp only [hc', hmat] at hE
    simp only [hc, hmat]
    intro hd
    have hE := hE (hxy.2.trans (hd.trans hf.deeper))
    have hal : Sooner { x with interaction := it } { y with interaction := it } := ⟨by rw [hxy.1], hxy.2⟩
    by_cases hsp : m.specularOnly = true
    · rw [if_pos hsp] at hE ⊢
      have hPh : m.Physical := by
        rcases hS.kind hW with ⟨col, r, hM⟩ | ⟨-, h⟩
        · rw [(matt_only_flags hM.matt).2.1] at hsp; cases hsp
        · exact h
      have hunit := offered_unit hS hsp hPh hη ha hu
      intro p hp
      obtain ⟨q, hq, hpq⟩ : ∃ q ∈ offered m { y with interaction := it }, Sooner p.1 q.1 := by
        have key : ∀ {l l' : List (TRay × Spectrum ℝ)} {v : ℝ}, List.Forall₂ (fun p q => Sooner p.1 q.1 ∧ q.2 = p.2 ∧ p.1.value = v) l l' → p ∈ l → ∃ q ∈ l', Sooner p.1 q.1 := by
          intro l l' v hl hp
          induction hl with
          | nil => cases hp
          | cons h _ ih =>
            rcases List.mem_cons.1 hp with rfl | hp
            · exact ⟨_, List.mem_cons_self, h.1⟩
            · obtain ⟨q, h1, h2⟩ := ih hp
              exact ⟨q, List.mem_cons_of_mem _ h1, h2⟩
        exact key (offered_sooner m hal) hp
      obtain ⟨u1, u2⟩ := hunit p hp
      refine ⟨fun h => ?_, fun h => ih hf p.1 q.1 hpq u1 u2 ((hE q hq).2 (hf.counted.trans_lt h))⟩
      by_cases h' : 0 < rt'.countSpecularBounce
      · exact ih hf p.1.counted q.1.counted hpq.counted u1 u2 ((hE q hq).1 h')
      · exact ih hf p.1.counted q.1 ⟨by simp only [TRay.counted]; rw [hpq.1], hpq.2.trans (Nat.le_succ _)⟩ u1 u2 ((hE q hq).2 (by linarith))
    · rw [if_neg hsp] at hE ⊢
      intro l hl
      refine ih hf (TRay.onward { x with interaction := it } m l) _ ⟨?_, Nat.add_le_add_right hxy.2 1⟩ (onward_unit_side hS ha hl) hη (hE l hl)
      simp only [TRay.onward]
      rw [hxy.1]

/-- Finer settings bring no less light. -/
theorem glazed_finer (hW : w.SunlitGlazed s) (ch : Spectrum ℝ → ℝ) (hch : ch ∈ [Spectrum.c0, Spectrum.c1, Spectrum.c2]) (n : ℕ) : ∀ {rt rt' : RayTracer}, rt.Finer rt' → ∀ x y : TRay, Sooner x y → 0 ≤ x.value → Norm x.geometry.direction = 1 → 0 < x.refractionIndex → glazedLight w rt ch n x ≤ glazedLight w rt' ch n y := by
  obtain ⟨suns, hsuns⟩ := suns_exist hW.toSunlit
  obtain ⟨S, -, hfree, -⟩ := sight_exists hW.renders
  obtain ⟨axes⟩ := axes_exist
  induction n with
  | zero => exact fun _ _ _ _ _ _ _ => zero_le
  | succ n ih =>
    intro rt rt' hf x y hxy hv hu hη
    rw [glazedLight, glazedLight]
    rcases meets_sooner hW hxy hu with ⟨hc, -⟩ | ⟨i, bk, tri, m, it, hS, ha, hc, hmat, hc'⟩
    · rw [hc]; exact zero_le
    simp only [hc, hmat, hc']
    by_cases hdeep : rt.maxDepth < x.depth
    · rw [if_pos hdeep]; exact zero_le
    have hdeep' : ¬ rt'.maxDepth < y.depth := by
      have := hf.deeper
      have := hxy.2
      omega
    rw [if_neg hdeep, if_neg hdeep']
    have hal : Sooner { x with interaction := it } { y with interaction := it } := ⟨by rw [hxy.1], hxy.2⟩
    by_cases hsp : m.specularOnly = true
    · rw [if_pos hsp, if_pos hsp]
      have hPh : m.Physical := by
        rcases hS.kind hW with ⟨col, r, hM⟩ | ⟨-, h⟩
        · rw [(matt_only_flags hM.matt).2.1] at hsp; cases hsp
        · exact h
      have hunit := offered_unit hS hsp hPh hη ha hu
      refine sum_forall₂ (offered_sooner m hal) fun p hp q hpq => ?_
      obtain ⟨u1, u2⟩ := hunit p hp
      obtain ⟨a1, a2, a3⟩ := hpq
      have hv' : 0 ≤ p.1.value := by rw [a3]; exact hv
      have hq : 0 ≤ q.1.value ∧ Norm q.1.geometry.direction = 1 ∧ 0 < q.1.refractionIndex := by rw [a1.1]; exact ⟨hv', u1, u2⟩
      rw [a2]
      refine mul_le_mul' le_rfl (mix_le_mix (counted_finer hf) (counted_le_one rt) (ih hf _ _ a1.counted hv' u1 u2) (ih hf _ _ a1 hv' u1 u2) ?_)
      exact ih ⟨le_rfl, by omega, hf.limit_nonneg, le_rfl, le_rfl⟩ q.1.counted q.1 ⟨rfl, Nat.le_succ _⟩ hq.1 hq.2.1 hq.2.2
    · rw [if_neg hsp, if_neg hsp]
      rcases hS.kind hW with ⟨col, r, hM⟩ | ⟨h1, -⟩
      swap
      · exact absurd h1 hsp
      obtain ⟨-, -, hcc⟩ := matt_only_flags hM.matt
      have hr0 : 0 ≤ m.colour.radiance := by
        rw [hcc]
        have : Spectrum.AtMost ⟨0, 0, 0⟩ col := hM.nonneg
        have h := radiance_atMost this
        have e0 : (⟨0, 0, 0⟩ : Spectrum ℝ).radiance = 0 := by simp [Spectrum.radiance, Spectrum.channels, Spectrum.radianceCoefficients]
        rwa [e0] at h
      have hval : y.value = x.value := by rw [hxy.1]
      refine add_le_add (le_of_eq ?_) (mul_le_mul' ?_ (mul_le_mul' le_rfl (irradiance_mono_unit fun l hl => ih hf _ _ ⟨?_, Nat.add_le_add_right hxy.2 1⟩ (mul_nonneg hv hr0) (onward_unit_side hS ha hl) hη)))
      · rw [sunlight_exact hW.toSunlit suns hsuns m col r hM.matt hM.nonneg ch hch S hfree axes, sunlight_exact hW.toSunlit suns hsuns m col r hM.matt hM.nonneg ch hch S hfree axes]
      · show followChance rt x.depth x.value ≤ followChance rt' y.depth y.value
        rw [hval]
        exact follow_finer hf hxy.2 hv
      · simp only [TRay.onward]
        rw [hxy.1]

/-- **C143.** In a scene of matt surfaces, mirrors, panes and dielectrics lit by suns: settings that cut off no more (longer paths, a smaller `limit_weight`, bounces at mirrors and panes counted less often; any positive numbers of samples) bring, on average, no less light along any ray, in any channel. If the light is
back after `n` passages with the finer settings, it is with the coarser ones. -/
theorem C143_finer (hW : w.SunlitGlazed s) (rt rt' : RayTracer) (hf : rt.Finer rt') (hsh : 0 < rt.nShadowSamples) (hsh' : 0 < rt'.nShadowSamples) (ch : Spectrum ℝ → ℝ) (hch : ch ∈ [Spectrum.c0, Spectrum.c1, Spectrum.c2]) (rays : List TRay) (hlen : rt'.maxDepth < rays.length)
    (ray : TRay) (hu : Norm ray.geometry.direction = 1) (hv : 0 ≤ ray.value) (hη : 0 < ray.refractionIndex) (n : Nat) (hE : w.EndsWithin rt' n ray) :
    w.EndsWithin rt n ray ∧ ∀ fuel, n + rt.nShadowSamples + rt.nAmbientSamples + 2 ≤ fuel → n + rt'.nShadowSamples + rt'.nAmbientSamples + 2 ≤ fuel →
      ∫⁻ r, seenLight (traceRay w rt fuel ⟨r, rays⟩ ray) ch ∂randomNumbers ≤ ∫⁻ r, seenLight (traceRay w rt' fuel ⟨r, rays⟩ ray) ch ∂randomNumbers := by
  have hE' := ends_finer hW n hf ray ray ⟨rfl, le_rfl⟩ hu hη hE
  refine ⟨hE', fun fuel h1 h2 => ?_⟩
  rw [C123_mean_light hW rt hsh ch hch rays (hf.deeper.trans_lt hlen) ray hu hv hη n hE' fuel h1, C123_mean_light hW rt' hsh' ch hch rays hlen ray hu hv hη n hE fuel h2]
  exact glazed_finer hW ch hch n hf ray ray ⟨rfl, le_rfl⟩ hv hu hη

/-- **C143, pictures.** … and nor do they make the mean of any pixel darker, whatever the schedules and the generators. -/
theorem C143_finer_picture (hW : w.SunlitGlazed s) (o : SpictOptions) (rt' : RayTracer) (hf : o.rt.Finer rt') (hsz : o.Sized) (hv : o.camera.view.Proper) (hsh : 0 < o.rt.nShadowSamples) (hsh' : 0 < rt'.nShadowSamples) (hD : rt'.maxDepth < 15) (n fuel : Nat)
    (h1 : n + o.rt.nShadowSamples + o.rt.nAmbientSamples + 2 ≤ fuel) (h2 : n + rt'.nShadowSamples + rt'.nAmbientSamples + 2 ≤ fuel) (hE : ∀ p : Nat × Nat, p.1 < o.width → p.2 < o.height → w.EndsWithin rt' n (o.camera.traceableRay p))
    {Ω : Type} [MeasurableSpace Ω] (μ : Measure Ω) (gen gen' : Ω → Nat → Rng) (hg : ∀ k, MeasurePreserving (fun ω => gen ω k) μ randomNumbers) (hg' : ∀ k, MeasurePreserving (fun ω => gen' ω k) μ randomNumbers)
    (state state' : Ω → RState TState (Spectrum ℝ)) (hst : ∀ ω, o.Rendered w fuel (gen ω) (state ω)) (hst' : ∀ ω, { o with rt := rt' }.Rendered w fuel (gen' ω) (state' ω)) (ch : Spectrum ℝ → ℝ) (hch : ch ∈ [Spectrum.c0, Spectrum.c1, Spectrum.c2]) (x y : Nat) (hx : x < o.width) (hy : y < o.height) :
    ∫⁻ ω, ENNReal.ofReal (ch (pixelOf o.width o.height (state ω) x y)) ∂μ ≤ ∫⁻ ω, ENNReal.ofReal (ch (pixelOf o.width o.height (state' ω) x y)) ∂μ := by
  have hu : ∀ p, Norm (o.camera.traceableRay p).geometry.direction = 1 := traceable_unit o hv
  have hη : ∀ p, 0 < (o.camera.traceableRay p).refractionIndex := fun p => by simp [Pinhole.traceableRay, TRay.default]
  have h0 : 0 ≤ (o.camera.traceableRay (x, y)).value := by simp [Pinhole.traceableRay, Pinhole.genRay]
  have hD0 : o.rt.maxDepth < 15 := hf.deeper.trans_lt hD
  have hE' := fun (p : Nat × Nat) (a : p.1 < o.width) (b : p.2 < o.height) => ends_finer hW n hf (o.camera.traceableRay p) _ ⟨rfl, le_rfl⟩ (hu p) (hη p) (hE p a b)
  have e := C138_mean_picture hW { o with rt := rt' } ⟨hsz.1, hsz.2, hsz.3⟩ hv hsh' hD n fuel h2 hE hg' state' hst' ch hch x y hx hy
  rw [C138_mean_picture hW o hsz hv hsh hD0 n fuel h1 hE' hg state hst ch hch x y hx hy]
  refine le_of_le_of_eq ?_ e.symm
  exact glazed_finer hW ch hch n hf _ _ ⟨rfl, le_rfl⟩ h0 (hu _) (hη _)

end Rendering
