import Verif.Spec.GlazedEnergy
import Verif.Props.Glazed
import Verif.Props.Glass
import Verif.Lemmas.ExactLight

/-!
# C138: the energy of the mean picture with mirrors, panes of glass and dielectrics
-/

set_option linter.unusedSectionVars false
namespace Rendering

open MeasureTheory Set

variable {w : World} {s : Scene ℝ}

theorem reflectance_bound {n1 c1 n2 c2 : ℝ} (hn1 : 0 < n1) (hn2 : 0 < n2) (h1 : 0 < c1) (h2 : 0 ≤ c2) : 0 ≤ fresnelReflectance n1 c1 n2 c2 ∧ fresnelReflectance n1 c1 n2 c2 ≤ 1 := by
  rcases h2.lt_or_eq with h2 | h2
  · exact (C46_bounds n1 c1 n2 c2 hn1 hn2 h1 h2).2.2
  · subst h2
    have a : n1 * c1 ≠ 0 := (mul_pos hn1 h1).ne'
    have b : n1 / c1 ≠ 0 := (div_pos hn1 h1).ne'
    have : fresnelReflectance n1 c1 n2 0 = 1 := by
      simp only [fresnelReflectance, fresnelTm, fresnelTe, mul_zero, div_zero, sub_zero, add_zero, div_self a, div_self b]
      norm_num
    rw [this]; norm_num

theorem chan_one {ch : Spectrum ℝ → ℝ} (hch : ch ∈ [Spectrum.c0, Spectrum.c1, Spectrum.c2]) : ch Spectrum.one = 1 := by
  simp only [List.mem_cons, List.not_mem_nil, or_false] at hch
  rcases hch with rfl | rfl | rfl <;> rfl

/-- What a path that a specular surface offers is like. -/
structure GoodPath (arrived : TRay) (top : ℝ) (ch : Spectrum ℝ → ℝ) (x : TRay × Spectrum ℝ) : Prop where
  unit : Norm x.1.geometry.direction = 1
  depth : x.1.depth = arrived.depth
  index : 0 < x.1.refractionIndex
  bound : x.1.refractionIndex ≤ top
  weight : 0 ≤ ch x.2

/-- The paths that a specular surface offers carry together at most what the ray carries, measured in light per squared index. -/
theorem offered_energy {m : Material ℝ} (hs : m.specularOnly = true) (hPh : m.Physical) (ch : Spectrum ℝ → ℝ) (hch : ch ∈ [Spectrum.c0, Spectrum.c1, Spectrum.c2]) {top : ℝ} (htop : 1 ≤ top) (hA : m.AddsNoLight ch top)
    (arrived : TRay) (hN : Norm arrived.interaction.shading.normal = 1) (hu : Norm arrived.geometry.direction = 1) (hface : Dot arrived.interaction.shading.normal arrived.geometry.direction < 0) (hη : 0 < arrived.refractionIndex) (hηtop : arrived.refractionIndex ≤ top) :
    ((offered m arrived).map fun x => ch x.2 / x.1.refractionIndex ^ 2).sum ≤ 1 / arrived.refractionIndex ^ 2 ∧ ∀ x ∈ offered m arrived, GoodPath arrived top ch x := by
  set N := arrived.interaction.shading.normal with hNdef
  set pt := arrived.interaction.point with hpt
  set η := arrived.refractionIndex with hηdef
  have hη2 : 0 < η ^ 2 := by positivity
  obtain ⟨u1, -⟩ := C43_mirror_direction arrived.geometry.direction N hN hu
  have hd : 0 < |arrived.geometry.direction.dot N| := by
    rw [Vec3.dot_eq, Dot_comm]
    exact abs_pos.2 hface.ne
  have hoff : ∀ p, m.getPossiblePaths N pt arrived = .ok p → offered m arrived = p.toList := by
    intro p hp
    unfold offered
    rw [← hNdef, ← hpt, hp]
  cases m with
  | plastic c sp r => cases hs
  | metal c sp r => cases hs
  | light c => cases hs
  | mirror c =>
    obtain ⟨-, hm, -, -⟩ := C43_mirror_direction arrived.geometry.direction N hN hu
    have hp : (Material.mirror c).getPossiblePaths N pt arrived = .ok (some (mirrorBsdf pt arrived N).1 |>.map fun r => (r, (Spectrum.one.scale (1 / |arrived.geometry.direction.dot N|)).scale |N.dot (mirrorDirection arrived.geometry.direction N)|), none) := rfl
    have hw : ch ((Spectrum.one.scale (1 / |arrived.geometry.direction.dot N|)).scale |N.dot (mirrorDirection arrived.geometry.direction N)|) = 1 := by
      rw [chan_scale hch, chan_scale hch, chan_one hch]
      simp only [Vec3.dot_eq] at hd ⊢
      rw [Dot_comm N, hm, abs_neg, one_mul, one_div, inv_mul_cancel₀ hd.ne']
    rw [hoff _ hp]
    simp only [Option.map_some, Paths.toList, Option.toList_some, Option.toList_none, List.append_nil, List.map_cons, List.map_nil, List.sum_cons, List.sum_nil, add_zero, List.mem_cons, List.not_mem_nil, or_false, forall_eq]
    refine ⟨?_, ⟨u1, rfl, hη, hηtop, by rw [hw]; exact zero_le_one⟩⟩
    rw [hw]
    exact le_rfl
  | glass c n =>
    have hc : ∀ ch ∈ channelOf, 0 ≤ ch c ∧ ch c ≤ 1 := by
      obtain ⟨⟨⟨f1, f2, f3⟩, f4, f5, f6⟩, -⟩ := hPh
      intro ch hch
      simp only [channelOf, List.mem_cons, List.not_mem_nil, or_false] at hch
      rcases hch with rfl | rfl | rfl
      exacts [⟨f1, f4⟩, ⟨f2, f5⟩, ⟨f3, f6⟩]
    obtain ⟨⟨k0, -⟩, ⟨k1, -⟩, k2, -, -⟩ := C48_glass_energy c n N arrived.geometry.direction hface.ne hA hc ch hch
    have hp : (Material.glass c n).getPossiblePaths N pt arrived = .ok (glassPaths c n N pt arrived) := rfl
    rw [hoff _ hp]
    by_cases h : (glassReflTrans c n N arrived.geometry.direction).2.radiance > 0
    · simp only [glassPaths, h, if_true, Paths.toList, Option.toList_some, List.cons_append, List.nil_append, List.map_cons, List.map_nil, List.sum_cons, List.sum_nil, add_zero, List.mem_cons, List.not_mem_nil, or_false, forall_eq_or_imp, forall_eq]
      refine ⟨?_, ⟨u1, rfl, hη, hηtop, k0⟩, ⟨hu, rfl, hη, hηtop, k1⟩⟩
      rw [← add_div]
      exact div_le_div_of_nonneg_right k2 hη2.le
    · simp only [glassPaths, h, if_false, Paths.toList, Option.toList_some, Option.toList_none, List.append_nil, List.map_cons, List.map_nil, List.sum_cons, List.sum_nil, add_zero, List.mem_cons, List.not_mem_nil, or_false, forall_eq]
      refine ⟨?_, ⟨u1, rfl, hη, hηtop, k0⟩⟩
      exact div_le_div_of_nonneg_right (by linarith) hη2.le
  | dielectric c n =>
    obtain ⟨hA1, hA2⟩ := hA
    obtain ⟨hc0, hn⟩ := hPh
    have hc0 := chan_nonneg hch hc0
    have hn2 : 0 < farIndex η n := farIndex_pos hn
    have hn2top : farIndex η n ≤ top := by
      unfold farIndex
      split_ifs
      · exact htop
      · exact hA2
    have hp : (Material.dielectric c n).getPossiblePaths N pt arrived = .ok (dielectricPaths c n N pt arrived) := rfl
    rw [hoff _ hp]
    have hsn := C44_snell arrived N n hN hu hη hn
    simp only at hsn
    obtain ⟨e1, e2, e3, hnone, hcosv⟩ := hsn
    have hdir := C45_transmitted_path c n N pt arrived hN hu (by rw [Dot_comm]; exact hface) hη hn
    rw [Vec3.dot_eq] at hd
    cases hcs : (cosAndN arrived N n).2.2.2 with
    | none =>
      simp only [dielectricPaths, hcs, dielectricReflTrans, e2, Paths.toList, Option.toList_some, Option.toList_none, List.append_nil, List.map_cons, List.map_nil, List.sum_cons, List.sum_nil, add_zero, List.mem_cons, List.not_mem_nil, or_false, forall_eq]
      have hw : ch ((Spectrum.one.divBy |Dot arrived.geometry.direction N|).scale |Dot arrived.geometry.direction N|) = 1 := by
        rw [chan_scale hch, chan_divBy hch, chan_one hch, div_mul_cancel₀ _ hd.ne']
      refine ⟨?_, ⟨u1, rfl, hη, hηtop, by simp only [Vec3.dot_eq] at *; rw [hw]; exact zero_le_one⟩⟩
      rw [hw]
    | some c2 =>
      obtain ⟨hc2, -, -⟩ := hcosv c2 hcs
      obtain ⟨r0, r1⟩ := reflectance_bound (n1 := η) (c1 := |Dot arrived.geometry.direction N|) (n2 := farIndex η n) (c2 := c2) hη hn2 hd hc2
      have hdir := hdir _ _ (show (dielectricPaths c n N pt arrived).2 = _ from by simp only [dielectricPaths, hcs]; rfl)
      simp only [dielectricPaths, hcs, dielectricReflTrans, e1, e2, e3, Paths.toList, Option.toList_some, List.cons_append, List.nil_append, List.map_cons, List.map_nil, List.sum_cons, List.sum_nil, add_zero, List.mem_cons, List.not_mem_nil, or_false, forall_eq_or_imp, forall_eq] at hdir ⊢
      set R := fresnelReflectance η |Dot arrived.geometry.direction N| (farIndex η n) c2 with hR
      have w1 : ch (((Spectrum.one.scale R).divBy |Dot arrived.geometry.direction N|).scale |Dot arrived.geometry.direction N|) = R := by
        rw [chan_scale hch, chan_divBy hch, chan_scale hch, chan_one hch, one_mul, div_mul_cancel₀ _ hd.ne']
      have w2 : 0 ≤ ch (((c.scale ((1 - R) * (farIndex η n / η * (farIndex η n / η)))).divBy c2).scale c2) ∧ ch (((c.scale ((1 - R) * (farIndex η n / η * (farIndex η n / η)))).divBy c2).scale c2) ≤ (1 - R) * (farIndex η n / η * (farIndex η n / η)) := by
        have q : 0 ≤ (1 - R) * (farIndex η n / η * (farIndex η n / η)) := mul_nonneg (by linarith) (mul_self_nonneg _)
        rw [chan_scale hch, chan_divBy hch, chan_scale hch]
        rcases hc2.lt_or_eq with h | h
        · rw [div_mul_cancel₀ _ h.ne']
          exact ⟨mul_nonneg hc0 q, mul_le_of_le_one_left q hA1⟩
        · rw [← h, mul_zero]
          exact ⟨le_rfl, q⟩
      refine ⟨?_, ⟨u1, rfl, hη, hηtop, by rw [w1]; exact r0⟩, ⟨hdir.1, rfl, hn2, hn2top, w2.1⟩⟩
      rw [w1]
      calc R / η ^ 2 + _ ≤ R / η ^ 2 + (1 - R) * (farIndex η n / η * (farIndex η n / η)) / farIndex η n ^ 2 := by
            gcongr
            exact w2.2
        _ = 1 / η ^ 2 := by
            field_simp
            ring

/-- The bound. -/
noncomputable def glazedBound (rt : RayTracer) (D ρ : ENNReal) (top : ℝ) (d : Nat) (η : ℝ) : ENNReal := ENNReal.ofReal ((top / η) ^ 2) * ∑ j ∈ Finset.range (rt.maxDepth + 1 - d), D * ρ ^ j

theorem glazed_le (hW : w.SunlitGlazed s) (rt : RayTracer) (ch : Spectrum ℝ → ℝ) (hch : ch ∈ [Spectrum.c0, Spectrum.c1, Spectrum.c2]) (D ρ : ENNReal) {top : ℝ} (htop : 1 ≤ top)
    (hA : ∀ (k : Nat) m, s.materials[k]? = some m → k ∈ s.front ++ s.back → m.specularOnly = true → m.AddsNoLight ch top)
    (hρ : ∀ (k : Nat) m, s.materials[k]? = some m → k ∈ s.front ++ s.back → m.specularOnly = false → ENNReal.ofReal (ch m.colour) ≤ ρ)
    (hD : ∀ (ray : TRay) i arrived m, Norm ray.geometry.direction = 1 → w.cast ray = .ok (some (i, arrived)) → w.materialAt arrived.interaction.shading.side i = .ok m → m.specularOnly = false → sunlightAt w m arrived ch ≤ D) (n : Nat) :
    ∀ ray : TRay, Norm ray.geometry.direction = 1 → 0 < ray.refractionIndex → ray.refractionIndex ≤ top → glazedLight w rt ch n ray ≤ glazedBound rt D ρ top ray.depth ray.refractionIndex := by
  obtain ⟨code, -, hall⟩ := disc_flat hW.toSunlit
  induction n with
  | zero => exact fun _ _ _ _ => zero_le
  | succ n ih =>
    intro ray hu hη hηtop
    unfold glazedLight
    rcases hall ray hu with ⟨-, hc⟩ | ⟨i, bk, tri, m, it, -, hS, hc, ha⟩
    · rw [hc]; exact zero_le
    have hmat := hS.material
    rw [← ha.side] at hmat
    simp only [hc, hmat]
    by_cases hdeep : rt.maxDepth < ray.depth
    · rw [if_pos hdeep]; exact zero_le
    rw [if_neg hdeep]
    obtain ⟨k, hk1, hk2⟩ := hS.listed
    have hfac : 1 ≤ ENNReal.ofReal ((top / ray.refractionIndex) ^ 2) := by
      rw [ENNReal.one_le_ofReal]
      exact one_le_pow₀ ((one_le_div hη).2 hηtop)
    by_cases hs : m.specularOnly = true
    · rw [if_pos hs]
      have hPh : m.Physical := by
        rcases hS.kind hW with ⟨col, r, hM⟩ | ⟨-, h⟩
        · rw [(matt_only_flags hM.matt).2.1] at hs; cases hs
        · exact h
      obtain ⟨hsum, hgood⟩ := offered_energy hs hPh ch hch htop (hA k m hk1 hk2 hs) { ray with interaction := it } (by rw [ha.normal]; exact hS.frame.n3) hu (by rw [ha.normal]; exact ha.faces) hη hηtop
      set S : ENNReal := ∑ j ∈ Finset.range (rt.maxDepth + 1 - ray.depth), D * ρ ^ j with hSdef
      have each : ∀ x ∈ offered m { ray with interaction := it }, ENNReal.ofReal (ch x.2) * (countedChance rt * glazedLight w rt ch n x.1.counted + (1 - countedChance rt) * glazedLight w rt ch n x.1) ≤ ENNReal.ofReal (ch x.2 / x.1.refractionIndex ^ 2) * (ENNReal.ofReal (top ^ 2) * S) := by
        intro x hx
        have g := hgood x hx
        have hB : glazedBound rt D ρ top x.1.depth x.1.refractionIndex = ENNReal.ofReal ((top / x.1.refractionIndex) ^ 2) * S := by
          unfold glazedBound
          rw [g.depth]
        have b1 : glazedLight w rt ch n x.1 ≤ ENNReal.ofReal ((top / x.1.refractionIndex) ^ 2) * S := by
          rw [← hB]
          exact ih x.1 g.unit g.index g.bound
        have b2 : glazedLight w rt ch n x.1.counted ≤ ENNReal.ofReal ((top / x.1.refractionIndex) ^ 2) * S := by
          refine (ih x.1.counted g.unit g.index g.bound).trans ?_
          rw [← hB]
          unfold glazedBound
          refine mul_le_mul' le_rfl (Finset.sum_le_sum_of_subset (Finset.range_mono ?_))
          simp only [TRay.counted]
          omega
        have hcc : countedChance rt ≤ 1 := by
          unfold countedChance
          rw [← ENNReal.ofReal_one]
          exact ENNReal.ofReal_le_ofReal (min_le_left _ _)
        calc _ ≤ ENNReal.ofReal (ch x.2) * (countedChance rt * (ENNReal.ofReal ((top / x.1.refractionIndex) ^ 2) * S) + (1 - countedChance rt) * (ENNReal.ofReal ((top / x.1.refractionIndex) ^ 2) * S)) := by gcongr
          _ = ENNReal.ofReal (ch x.2) * (ENNReal.ofReal ((top / x.1.refractionIndex) ^ 2) * S) := by rw [← add_mul, add_tsub_cancel_of_le hcc, one_mul]
          _ = _ := by
            have hp := g.index
            rw [← mul_assoc, ← ENNReal.ofReal_mul g.weight, ← mul_assoc, ← ENNReal.ofReal_mul (div_nonneg g.weight (sq_nonneg _))]
            congr 2
            rw [div_pow]
            ring
      have hsumE : ((offered m { ray with interaction := it }).map fun x => ENNReal.ofReal (ch x.2 / x.1.refractionIndex ^ 2)).sum = ENNReal.ofReal (((offered m { ray with interaction := it }).map fun x => ch x.2 / x.1.refractionIndex ^ 2).sum) := by
        generalize offered m { ray with interaction := it } = l at hgood
        clear each hsum
        induction l with
        | nil => simp
        | cons x l ihl =>
          have hx := hgood x (List.mem_cons_self ..)
          have hl := fun y hy => hgood y (List.mem_cons_of_mem _ hy)
          rw [List.map_cons, List.sum_cons, List.map_cons, List.sum_cons, ihl hl, ENNReal.ofReal_add (div_nonneg hx.weight (sq_nonneg _))]
          exact List.sum_nonneg fun z hz => by
            obtain ⟨y, hy, rfl⟩ := List.mem_map.1 hz
            exact div_nonneg (hl y hy).weight (sq_nonneg _)
      calc _ ≤ ((offered m { ray with interaction := it }).map fun x => ENNReal.ofReal (ch x.2 / x.1.refractionIndex ^ 2) * (ENNReal.ofReal (top ^ 2) * S)).sum := List.sum_le_sum each
        _ = ((offered m { ray with interaction := it }).map fun x => ENNReal.ofReal (ch x.2 / x.1.refractionIndex ^ 2)).sum * (ENNReal.ofReal (top ^ 2) * S) := List.sum_map_mul_right ..
        _ ≤ ENNReal.ofReal (1 / ray.refractionIndex ^ 2) * (ENNReal.ofReal (top ^ 2) * S) := by
          rw [hsumE]
          exact mul_le_mul' (ENNReal.ofReal_le_ofReal hsum) le_rfl
        _ = _ := by
          unfold glazedBound
          rw [← mul_assoc, ← ENNReal.ofReal_mul (by positivity), div_pow, one_div_mul_eq_div]
    · have hs' : m.specularOnly = false := by simpa using hs
      simp only [hs', Bool.false_eq_true, if_false]
      have h1 := hD ray i _ m hu hc hmat hs'
      have hr := hρ k m hk1 hk2 hs'
      obtain ⟨e, he⟩ : ∃ e, rt.maxDepth + 1 - ray.depth = e + 1 := ⟨rt.maxDepth - ray.depth, by omega⟩
      have h2 : (irradiance fun l => glazedLight w rt ch n (({ ray with interaction := it } : TRay).onward m l)) ≤ (ENNReal.ofReal ((top / ray.refractionIndex) ^ 2) * ∑ j ∈ Finset.range e, D * ρ ^ j) * ENNReal.ofReal Real.pi := by
        rw [← irradiance_const]
        refine irradiance_mono_unit fun l hl => ?_
        refine (ih (({ ray with interaction := it } : TRay).onward m l) ?_ hη hηtop).trans ?_
        · have hl2 : l.x ^ 2 + l.y ^ 2 + l.z ^ 2 = 1 := by
            have := Dot_self_of_norm hl; simp only [Dot] at this; nlinarith
          have := (world_unit hS.frame hl2).1
          rw [world_eq] at this
          simp only [TRay.onward, ha.normal, ha.dpdu, ha.dpdv]
          exact this
        · unfold glazedBound
          refine mul_le_mul' le_rfl (Finset.sum_le_sum_of_subset (Finset.range_mono ?_))
          simp only [TRay.onward]
          omega
      have hpi : ENNReal.ofReal Real.pi ≠ 0 := by simpa using Real.pi_pos
      set F := ENNReal.ofReal ((top / ray.refractionIndex) ^ 2) with hF
      set S := ∑ j ∈ Finset.range e, D * ρ ^ j with hSdef
      have h3 : ENNReal.ofReal (ch m.colour / Real.pi) * ((F * S) * ENNReal.ofReal Real.pi) = ENNReal.ofReal (ch m.colour) * (F * S) := by
        rw [ENNReal.ofReal_div_of_pos Real.pi_pos, ENNReal.div_eq_inv_mul]
        calc _ = (ENNReal.ofReal Real.pi)⁻¹ * ENNReal.ofReal Real.pi * (ENNReal.ofReal (ch m.colour) * (F * S)) := by ring
          _ = _ := by rw [ENNReal.inv_mul_cancel hpi ENNReal.ofReal_ne_top, one_mul]
      have h4 : followChance rt ray.depth ray.value * (ENNReal.ofReal (ch m.colour / Real.pi) * irradiance fun l => glazedLight w rt ch n (({ ray with interaction := it } : TRay).onward m l)) ≤ ρ * (F * S) := by
        calc _ ≤ 1 * (ENNReal.ofReal (ch m.colour / Real.pi) * ((F * S) * ENNReal.ofReal Real.pi)) := mul_le_mul' (follow_le _ _ _) (mul_le_mul' le_rfl h2)
          _ ≤ ρ * (F * S) := by rw [one_mul, h3]; exact mul_le_mul' hr le_rfl
      unfold glazedBound
      rw [he, Finset.sum_range_succ', pow_zero, mul_one, mul_add, add_comm]
      refine (add_le_add h4 h1).trans (add_le_add (le_of_eq ?_) ?_)
      · rw [hSdef, Finset.mul_sum, Finset.mul_sum, Finset.mul_sum]
        exact Finset.sum_congr rfl fun j _ => by ring
      · calc D = 1 * D := (one_mul D).symm
          _ ≤ _ := mul_le_mul' hfac le_rfl

/-- **C138, energy.** Let the matt surfaces reflect at most the share `ρ` and show at most `D` of sunlight, let the panes and dielectrics absorb light rather than add it, and let no dielectric be denser than `top ≥ 1`. Then the mean of what `trace_ray` brings back along a ray in a medium of index `η` is at most `(top / η)² D (1 + ρ + ρ² + …)`, a term for each
bounce that `max_depth` allows, however often the light passes through glass or off mirrors without being counted. -/
theorem C138_energy (hW : w.SunlitGlazed s) (rt : RayTracer) (hsh : 0 < rt.nShadowSamples) (ch : Spectrum ℝ → ℝ) (hch : ch ∈ [Spectrum.c0, Spectrum.c1, Spectrum.c2]) (D ρ : ENNReal) (top : ℝ) (htop : 1 ≤ top)
    (hA : ∀ (k : Nat) m, s.materials[k]? = some m → k ∈ s.front ++ s.back → m.specularOnly = true → m.AddsNoLight ch top)
    (hρ : ∀ (k : Nat) m, s.materials[k]? = some m → k ∈ s.front ++ s.back → m.specularOnly = false → ENNReal.ofReal (ch m.colour) ≤ ρ)
    (hD : ∀ (ray : TRay) i arrived m, Norm ray.geometry.direction = 1 → w.cast ray = .ok (some (i, arrived)) → w.materialAt arrived.interaction.shading.side i = .ok m → m.specularOnly = false → sunlightAt w m arrived ch ≤ D)
    (rays : List TRay) (hlen : rt.maxDepth < rays.length) (ray : TRay) (hu : Norm ray.geometry.direction = 1) (hval : 0 ≤ ray.value) (hindex : 0 < ray.refractionIndex) (hindex' : ray.refractionIndex ≤ top) (n : Nat) (hE : w.EndsWithin rt n ray) (fuel : Nat) (hfuel : n + rt.nShadowSamples + rt.nAmbientSamples + 2 ≤ fuel) :
    ∫⁻ r, seenLight (traceRay w rt fuel ⟨r, rays⟩ ray) ch ∂randomNumbers ≤ ENNReal.ofReal ((top / ray.refractionIndex) ^ 2) * ∑ j ∈ Finset.range (rt.maxDepth + 1 - ray.depth), D * ρ ^ j := by
  rw [C123_mean_light hW rt hsh ch hch rays hlen ray hu hval hindex n hE fuel hfuel]
  exact glazed_le hW rt ch hch D ρ htop hA hρ hD n ray hu hindex hindex'

/-- There is such a finite `D` in every scene. -/
theorem glazed_sunlight_bounded (hW : w.SunlitGlazed s) (ch : Spectrum ℝ → ℝ) (hch : ch ∈ [Spectrum.c0, Spectrum.c1, Spectrum.c2]) : ∃ D : ENNReal, D ≠ ⊤ ∧
    ∀ (ray : TRay) i arrived m, Norm ray.geometry.direction = 1 → w.cast ray = .ok (some (i, arrived)) → w.materialAt arrived.interaction.shading.side i = .ok m → m.specularOnly = false → sunlightAt w m arrived ch ≤ D := by
  obtain ⟨E, hE, h⟩ := suns_bounded hW.renders hW.perp ch hch s.distantLights (fun sun hs => by
    obtain ⟨d, a, L, D, h1, h2⟩ := hW.suns sun hs
    exact ⟨d, a, L, D, h1, chan_nonneg hch h2⟩)
  have each : ∀ (ray : TRay) (i : Nat) (arrived : TRay) (m : Material ℝ), Norm ray.geometry.direction = 1 → w.cast ray = .ok (some (i, arrived)) → w.materialAt arrived.interaction.shading.side i = .ok m → m.specularOnly = false →
      sunlightAt w m arrived ch ≤ ENNReal.ofReal (ch m.colour * (E / Real.pi)) ∧ ∃ k : Nat, s.materials[k]? = some m := by
    intro ray i arrived m hu hc hm hs
    obtain ⟨code, -, hall⟩ := disc_flat hW.toSunlit
    rcases hall ray hu with ⟨_, h'⟩ | ⟨i', bk, tri, m', it, _, hS, h', ha⟩
    · rw [hc] at h'; cases h'
    rw [hc] at h'
    simp only [Res.ok.injEq, Option.some.injEq, Prod.mk.injEq] at h'
    obtain ⟨rfl, rfl⟩ := h'
    simp only at hm
    have hmm := hS.material
    rw [← ha.side, hm] at hmm
    cases hmm
    obtain ⟨k, hk, -⟩ := hS.listed
    refine ⟨?_, k, hk⟩
    rcases hS.kind hW with ⟨col, r, hM⟩ | ⟨h1, -⟩
    swap
    · rw [hs] at h1; cases h1
    obtain ⟨-, -, hcc⟩ := matt_only_flags hM.matt
    have hN : Norm it.shading.normal = 1 := by rw [ha.normal]; exact hS.frame.n3
    have hcol := chan_nonneg hch hM.nonneg
    unfold sunlightAt
    rw [hcc]
    calc _ ≤ avg fun _ => ENNReal.ofReal (ch col * (E / Real.pi)) := ?_
      _ = _ := avg_const _
    refine lintegral_mono_ae ?_
    have : ∀ᵐ r ∂randomNumbers, Rng.Valid r := valid_almost_surely
    filter_upwards [this] with rng hv
    obtain ⟨v, rng', k1, k2, k3⟩ := h m col r hM.matt hcol it.shading.normal hN it.point { ray with interaction := it } it.shading.dpdu it.shading.dpdv Spectrum.black rng hv
    have hb : Spectrum.black + v = v := by ext <;> simp [Spectrum.black, Spectrum.gray]
    have e : w.localIllumination 2 m { ray with interaction := it } rng 1 = .ok (v, rng') := by
      unfold World.localIllumination
      rw [hW.renders.same.2.1, hW.lamps, hW.renders.same.2.2]
      simp only [World.sampleLightArray, World.lightsLoop, TRay.getTriad, Res.bind_ok, k1, hb]
    rw [e]
    simp only [brought]
    refine ENNReal.ofReal_le_ofReal ?_
    rw [chan_black hch, zero_add] at k3
    calc _ ≤ _ := k3
      _ = _ := by ring
  refine ⟨∑ m ∈ (s.materials.map fun m => ENNReal.ofReal (ch m.colour * (E / Real.pi))).toFinset, m, ?_, fun ray i arrived m hu hc hm hs => ?_⟩
  · refine ENNReal.sum_ne_top.2 fun x hx => ?_
    rw [List.mem_toFinset] at hx
    obtain ⟨m, -, rfl⟩ := List.mem_map.1 hx
    exact ENNReal.ofReal_ne_top
  · obtain ⟨h1, k, hk⟩ := each ray i arrived m hu hc hm hs
    refine h1.trans (Finset.single_le_sum (f := fun x : ENNReal => x) (fun _ _ => zero_le) ?_)
    rw [List.mem_toFinset]
    exact List.mem_map_of_mem (f := fun m : Material ℝ => ENNReal.ofReal (ch m.colour * (E / Real.pi))) (List.mem_of_getElem? hk)

end Rendering
