import Verif.Spec.GeometricLight
import Verif.Props.ExactLight

/-!
# From drawn directions to integrals over the discs of suns
-/

set_option linter.unusedSectionVars false
namespace Rendering

open MeasureTheory Set

theorem towards_polar {f1 f2 a : Vec3 ℝ} (hf : Frame f1 f2 a) {R z : ℝ} (φ : ℝ) (hR : 0 < R) (hz : 0 < z) (hz1 : z < 1) :
    towards f1 f2 a R ((1 / z ^ 2 - 1) / R ^ 2, φ / (2 * Real.pi)) = worldOf f2 f1 a (directionAt z φ) := by
  have hpi := Real.pi_pos
  have hz2 : 0 ≤ 1 - z ^ 2 := by nlinarith
  have hs := Real.sq_sqrt hz2
  have h1 : R * Real.sqrt ((1 / z ^ 2 - 1) / R ^ 2) = Real.sqrt (1 - z ^ 2) / z := by
    rw [show (1 / z ^ 2 - 1) / R ^ 2 = (1 - z ^ 2) / (z * R) ^ 2 by field_simp, Real.sqrt_div hz2, Real.sqrt_sq (by positivity)]
    field_simp
  have hang : 2 * Real.pi * (φ / (2 * Real.pi)) = φ := by field_simp
  have hdm : discMap R ((1 / z ^ 2 - 1) / R ^ 2, φ / (2 * Real.pi)) = (Real.sqrt (1 - z ^ 2) / z * Real.sin φ, Real.sqrt (1 - z ^ 2) / z * Real.cos φ) := by
    simp only [discMap, h1, hang]
  unfold towards
  rw [hdm]
  simp only
  have hn : Norm (a + f1.scale (Real.sqrt (1 - z ^ 2) / z * Real.sin φ) + f2.scale (Real.sqrt (1 - z ^ 2) / z * Real.cos φ)) = 1 / z := by
    have h := offset_sq hf (Real.sqrt (1 - z ^ 2) / z * Real.sin φ) (Real.sqrt (1 - z ^ 2) / z * Real.cos φ)
    rw [← Norm_sq] at h
    have hsc := Real.sin_sq_add_cos_sq φ
    have h2 : 1 + ((Real.sqrt (1 - z ^ 2) / z * Real.sin φ) ^ 2 + (Real.sqrt (1 - z ^ 2) / z * Real.cos φ) ^ 2) = (1 / z) ^ 2 := by
      calc _ = 1 + Real.sqrt (1 - z ^ 2) ^ 2 / z ^ 2 * (Real.sin φ ^ 2 + Real.cos φ ^ 2) := by ring
        _ = _ := by rw [hs, hsc]; field_simp; ring
    rw [h2] at h
    exact (sq_eq_sq₀ (Norm_nonneg _) (by positivity)).1 h
  rw [normalized_eq, hn]
  unfold worldOf directionAt
  ext <;> simp <;> field_simp <;> ring

/-- The mean over directions drawn towards a sun, as an integral over its disc. -/
theorem cone_integral {f1 f2 a : Vec3 ℝ} (hf : Frame f1 f2 a) (h : ℝ) (h0 : 0 < h) (h1 : h < Real.pi / 2) (g : Vec3 ℝ → ENNReal) :
    ENNReal.ofReal (2 * Real.pi * (1 - Real.cos h)) * Mean (fun d => g (towards f1 f2 a (Real.tan h) d)) =
      ∫⁻ q in Ioo (Real.cos h) 1 ×ˢ Ioo 0 (2 * Real.pi), ENNReal.ofReal (discWeight (Real.cos h) q.1) * g (worldOf f2 f1 a (directionAt q.1 q.2)) := by
  have hpi := Real.pi_pos
  have hc : 0 < Real.cos h := Real.cos_pos_of_mem_Ioo ⟨by linarith, h1⟩
  have hs0 : 0 < Real.sin h := Real.sin_pos_of_pos_of_lt_pi h0 (by linarith)
  have hc1 : Real.cos h < 1 := by nlinarith [Real.sin_sq_add_cos_sq h, Real.cos_le_one h]
  have ht : 0 < Real.tan h := Real.tan_pos_of_pos_of_lt_pi_div_two h0 h1
  have htq := tan_sq_eq hc
  set c := Real.cos h with hcdef
  set R := Real.tan h with hRdef
  have hR2 : 0 < R ^ 2 := by positivity
  set s : Set (ℝ × ℝ) := Ioo c 1 ×ˢ Ioo 0 (2 * Real.pi) with hsdef
  have hsm : MeasurableSet s := measurableSet_Ioo.prod measurableSet_Ioo
  let Φ : ℝ × ℝ → ℝ × ℝ := fun q => ((1 / q.1 ^ 2 - 1) / R ^ 2, q.2 / (2 * Real.pi))
  have hz : ∀ q ∈ s, 0 < q.1 ∧ q.1 < 1 := fun q hq => ⟨hc.trans hq.1.1, hq.1.2⟩
  have hder : ∀ q ∈ s, HasFDerivWithinAt Φ (planeDeriv (-2 / (q.1 ^ 3 * R ^ 2)) 0 0 (1 / (2 * Real.pi))) s q := by
    intro q hq
    have hq0 := (hz q hq).1
    refine (hasFDeriv_plane ?_ ?_).hasFDerivWithinAt
    · have hd : HasDerivAt (fun z : ℝ => (1 / z ^ 2 - 1) / R ^ 2) (-2 / (q.1 ^ 3 * R ^ 2)) q.1 := by
        have e : HasDerivAt (fun z : ℝ => (z ^ 2)⁻¹) (-(((2 : ℕ) : ℝ) * q.1 ^ (2 - 1) * 1) / (q.1 ^ 2) ^ 2) q.1 := ((hasDerivAt_id q.1).pow 2).inv (pow_ne_zero 2 hq0.ne')
        have e2 := (e.sub_const 1).div_const (R ^ 2)
        have k1 : (fun z : ℝ => (1 / z ^ 2 - 1) / R ^ 2) = fun x => ((x ^ 2)⁻¹ - 1) / R ^ 2 := by funext z; simp [one_div]
        have k2 : -2 / (q.1 ^ 3 * R ^ 2) = -(((2 : ℕ) : ℝ) * q.1 ^ (2 - 1) * 1) / (q.1 ^ 2) ^ 2 / R ^ 2 := by
          have := hq0.ne'
          field_simp
          norm_num
        rw [k1, k2]
        exact e2
      have := hd.comp_hasFDerivAt q (hasFDerivAt_fst (𝕜 := ℝ) (E := ℝ) (F := ℝ) (p := q))
      refine this.congr_fderiv ?_
      ext <;> simp
    · have hd : HasDerivAt (fun φ : ℝ => φ / (2 * Real.pi)) (1 / (2 * Real.pi)) q.2 := (hasDerivAt_id q.2).div_const _
      have := hd.comp_hasFDerivAt q (hasFDerivAt_snd (𝕜 := ℝ) (E := ℝ) (F := ℝ) (p := q))
      refine this.congr_fderiv ?_
      ext <;> simp
  have hinj : InjOn Φ s := by
    rintro ⟨z, φ⟩ hq ⟨z', φ'⟩ hq' e
    have hz0 := (hz _ hq).1
    have hz0' := (hz _ hq').1
    simp only at hz0 hz0'
    simp only [Φ, Prod.mk.injEq] at e
    obtain ⟨e1, e2⟩ := e
    have e3 : 1 / z ^ 2 = 1 / z' ^ 2 := by
      have := (div_left_inj' hR2.ne').1 e1
      linarith
    have e4 : z ^ 2 = z' ^ 2 := by simpa using e3
    have e5 : z = z' := (sq_eq_sq₀ hz0.le hz0'.le).1 e4
    have e6 : φ = φ' := (div_left_inj' (by positivity)).1 e2
    rw [e5, e6]
  have himg : Φ '' s = openSquare := by
    ext ⟨x, y⟩
    constructor
    · rintro ⟨⟨z, φ⟩, ⟨⟨hz1, hz2⟩, hφ1, hφ2⟩, e⟩
      simp only at hz1 hz2 hφ1 hφ2
      have hz0 : 0 < z := hc.trans hz1
      simp only [Φ, Prod.mk.injEq] at e
      obtain ⟨rfl, rfl⟩ := e
      refine ⟨⟨div_pos ?_ hR2, ?_⟩, div_pos hφ1 (by positivity), by rw [div_lt_one (by positivity)]; exact hφ2⟩
      · rw [sub_pos, lt_div_iff₀ (by positivity)]; nlinarith
      · rw [div_lt_one hR2, htq]
        have : 1 / z ^ 2 < 1 / c ^ 2 := one_div_lt_one_div_of_lt (by positivity) (by nlinarith)
        linarith
    · rintro ⟨⟨hx0, hx1⟩, hy0, hy1⟩
      simp only at hx0 hx1 hy0 hy1
      have hpos : 0 < 1 + R ^ 2 * x := by positivity
      have hsq := Real.sq_sqrt hpos.le
      have hsp := Real.sqrt_pos.2 hpos
      refine ⟨(1 / Real.sqrt (1 + R ^ 2 * x), 2 * Real.pi * y), ⟨⟨?_, ?_⟩, by positivity, by nlinarith⟩, ?_⟩
      · rw [lt_div_iff₀ hsp]
        refine lt_of_pow_lt_pow_left₀ 2 zero_le_one ?_
        rw [mul_pow, hsq, one_pow]
        have : R ^ 2 * x < R ^ 2 := by nlinarith
        have h3 : c ^ 2 * (1 + R ^ 2) = 1 := by rw [htq]; field_simp; ring
        nlinarith [pow_pos hc 2]
      · rw [div_lt_one hsp]
        refine lt_of_pow_lt_pow_left₀ 2 hsp.le ?_
        rw [hsq]; nlinarith
      · simp only [Φ, Prod.mk.injEq]
        constructor
        · rw [div_pow, hsq]; field_simp; ring
        · field_simp
  have key := lintegral_image_eq_lintegral_abs_det_fderiv_mul volume hsm hder hinj (fun d => g (towards f1 f2 a R d))
  rw [himg] at key
  have hMean : Mean (fun d => g (towards f1 f2 a R d)) = ∫⁻ d in openSquare, g (towards f1 f2 a R d) := setLIntegral_congr unitSquare_ae
  rw [hMean, key, ← lintegral_const_mul' _ _ ENNReal.ofReal_ne_top]
  refine setLIntegral_congr_fun hsm fun q hq => ?_
  obtain ⟨hq0, hq1⟩ := hz q hq
  rw [← mul_assoc, ← ENNReal.ofReal_mul (by nlinarith), planeDeriv_det]
  have e1 : 2 * Real.pi * (1 - c) * |-2 / (q.1 ^ 3 * R ^ 2) * (1 / (2 * Real.pi)) - 0 * 0| = discWeight c q.1 := by
    have : -2 / (q.1 ^ 3 * R ^ 2) * (1 / (2 * Real.pi)) - 0 * 0 = -(1 / (q.1 ^ 3 * R ^ 2 * Real.pi)) := by field_simp; ring
    rw [this, abs_neg, abs_of_pos (by positivity), htq]
    have hne : 1 - c ^ 2 ≠ 0 := by nlinarith
    have hne' : 1 / c ^ 2 - 1 ≠ 0 := by rw [← htq]; exact hR2.ne'
    have e : 1 / c ^ 2 - 1 = (1 - c) * (1 + c) / c ^ 2 := by field_simp; ring
    have h1c : 1 - c ≠ 0 := by linarith
    have h1c' : 1 + c ≠ 0 := by linarith
    rw [e]
    unfold discWeight
    field_simp
  rw [e1, towards_polar hf q.2 ht hq0 hq1]

theorem Frame.swap {f1 f2 a : Vec3 ℝ} (h : Frame f1 f2 a) : Frame f2 f1 a := ⟨h.n2, h.n1, h.n3, by have := h.d12; simp only [Dot] at this ⊢; linarith, h.d23, h.d13⟩

variable {w : World} {s : Scene ℝ}

open Classical in
/-- The mean of one shadow ray to a sun. -/
theorem sun_mean_exact (hR : w.Renders s) (hbox : w.env.bvh.MeasurableBoxTest) (sun : SunDisc) (h0 : 0 < sun.angle) (h1 : sun.angle < Real.pi) (hd : 0 < Dot sun.direction sun.direction) (ch : Spectrum ℝ → ℝ) (hL : 0 ≤ ch sun.radiance)
    (S : Sight) (hS : ∀ p v D, S.free p v D ↔ w.scene.unobstructedDistance w.env ⟨p, v⟩ D [] = .ok true) (axes : Axes) (k : ℝ) (hk : 0 ≤ k) (N p f1 f2 : Vec3 ℝ) (hf : Frame f1 f2 sun.direction.normalized) :
    avg (fun r => ENNReal.ofReal (sunSample w sun.distSq (Real.tan (sun.angle / 2)) (k * ch sun.radiance * (2 * Real.pi * (1 - Real.cos (sun.angle / 2)))) N f1 f2 sun.direction.normalized p (r 0, r 1))) =
      ENNReal.ofReal k * sun.onto S axes ch (p + N.scale (1 / 1000)) N := by
  have hpi := Real.pi_pos
  have hc : 0 < Real.cos (sun.angle / 2) := Real.cos_pos_of_mem_Ioo ⟨by linarith, by linarith⟩
  have hc1 := Real.cos_le_one (sun.angle / 2)
  set c := Real.cos (sun.angle / 2) with hcdef
  set a := sun.direction.normalized with ha
  set K := k * ch sun.radiance * (2 * Real.pi * (1 - c)) with hK
  set pt := p + N.scale (1 / 1000) with hpt
  set g : Vec3 ℝ → ENNReal := fun v => if S.free pt v sun.distSq then ENNReal.ofReal (ch sun.radiance * |Dot N v|) else 0 with hg
  have hm := (sunSample_measurable hR hbox sun.distSq (Real.tan (sun.angle / 2)) K N f1 f2 a).ennreal_ofReal
  have e1 := (Fresh.const hm).mean_draw2 p
  simp only [avg_const] at e1
  rw [e1]
  have hcone : 0 ≤ 2 * Real.pi * (1 - c) := by have : 0 ≤ 1 - c := by linarith
                                               positivity
  have e2 : ∀ d : ℝ × ℝ, ENNReal.ofReal (sunSample w sun.distSq (Real.tan (sun.angle / 2)) K N f1 f2 a p d) = ENNReal.ofReal k * (ENNReal.ofReal (2 * Real.pi * (1 - c)) * g (towards f1 f2 a (Real.tan (sun.angle / 2)) d)) := by
    intro d
    unfold sunSample
    simp only [hg, hS, ← hpt]
    split_ifs
    · rw [← ENNReal.ofReal_mul hcone, ← ENNReal.ofReal_mul hk]
      congr 1
      rw [hK]; ring
    · simp
  simp only [e2]
  rw [lintegral_const_mul' _ _ ENNReal.ofReal_ne_top, lintegral_const_mul' _ _ ENNReal.ofReal_ne_top]
  congr 1
  have e3 := cone_integral hf (sun.angle / 2) (by linarith) (by linarith) g
  rw [← hcdef] at e3
  unfold Mean unitSquare at e3
  rw [e3]
  have e4 := frame_free (axes.frame a (Norm_eq_one (normalized_dot_self hd))) hf.swap (Ioo c 1) measurableSet_Ioo (fun z v => ENNReal.ofReal (discWeight c z) * g v)
  rw [e4]
  unfold SunDisc.onto
  rw [← hcdef, ← ha]
  refine setLIntegral_congr_fun (measurableSet_Ioo.prod measurableSet_Ioo) fun q hq => ?_
  have hq0 : 0 < q.1 := hc.trans hq.1.1
  simp only [hg, Axes.around]
  by_cases hfree : S.free pt (worldOf (axes.first a) (axes.second a) a (directionAt q.1 q.2)) sun.distSq
  · simp only [hfree, if_true]
    rw [← ENNReal.ofReal_mul (by unfold discWeight; positivity)]
    congr 1
    ring
  · simp only [hfree, if_false, mul_zero]

/-- The sunlight at a point of a matt surface, as a sum over the suns. -/
theorem suns_mean (hR : w.Renders s) (hext : w.ext.PerpSpec) (hbox : w.env.bvh.MeasurableBoxTest) (m : Material ℝ) (col : Spectrum ℝ) (r : ℝ) (hm : m ∈ [Material.plastic col 0 r, Material.metal col 0 r])
    (ch : Spectrum ℝ → ℝ) (hch : ch ∈ [Spectrum.c0, Spectrum.c1, Spectrum.c2]) (hcol : 0 ≤ ch col) (N : Vec3 ℝ) (S : Sight) (hS : ∀ p v D, S.free p v D ↔ w.scene.unobstructedDistance w.env ⟨p, v⟩ D [] = .ok true) (axes : Axes)
    (sources : List (Object ℝ)) (suns : List SunDisc) (h : List.Forall₂ (fun source sun => w.IsSun s source sun.direction sun.angle sun.radiance sun.distSq ∧ sun.radiance.Nonneg) sources suns) :
    ∃ val rest, Fresh val rest ∧ (∀ p, avg (val p) = ENNReal.ofReal (ch col / Real.pi) * (suns.map fun sun => sun.onto S axes ch (p + N.scale (1 / 1000)) N).sum) ∧
      ∀ (p : Vec3 ℝ) (ray : TRay) (e1 e2 : Vec3 ℝ) (fuel : Nat) (acc : Spectrum ℝ) (rng : Rng), 1 < fuel → rng.Valid →
        ∃ v x, w.lightsLoop fuel m ray 1 (p + N.scale (1 / 1000)) N e1 e2 sources acc rng = .ok (v, rest p rng) ∧ 0 ≤ x ∧ ch v = ch acc + x ∧ ENNReal.ofReal x = val p rng ∧ (rest p rng).Valid := by
  induction h with
  | nil => exact ⟨fun _ _ => 0, fun _ r => r, Fresh.const measurable_const, fun p => by rw [avg_const]; simp, fun p ray e1 e2 fuel acc rng _ hv => ⟨acc, 0, rfl, le_rfl, by simp, by simp, hv⟩⟩
  | @cons source sun sources suns hsun _ ih =>
    obtain ⟨val, rst, hF, hmean, hrun⟩ := ih
    obtain ⟨hsun, hnn⟩ := hsun
    have hL : 0 ≤ ch sun.radiance := by
      simp only [List.mem_cons, List.not_mem_nil, or_false] at hch
      rcases hch with rfl | rfl | rfl
      · exact hnn.1
      · exact hnn.2.1
      · exact hnn.2.2
    obtain ⟨f1, f2, hf, hloop⟩ := sun_loop_gives hR hext hsun m col r hm ch hch hcol hL N
    have hF1 := sun_fresh hR hbox sun.distSq (Real.tan (sun.angle / 2)) (ch col / Real.pi * ch sun.radiance * (2 * Real.pi * (1 - Real.cos (sun.angle / 2))) / (1 : ℕ)) N f1 f2 sun.direction.normalized
    refine ⟨_, _, (hF1.iterate 1).add hF, fun p => ?_, ?_⟩
    · rw [(hF1.iterate 1).mean_add hF, hF1.mean_iterate, hmean]
      simp only [Nat.cast_one, one_mul, div_one]
      have hpi := Real.pi_pos
      rw [sun_mean_exact hR hbox sun hsun.angle_pos hsun.angle_lt hsun.direction_ne ch hL S hS axes (ch col / Real.pi) (by positivity) N p f1 f2 hf, List.map_cons, List.sum_cons, mul_add]
    · intro p ray e1 e2 fuel acc rng hfu hv
      obtain ⟨v, x, h1, h2, h3, h4⟩ := hloop 1 one_pos p ray e1 e2 1 fuel acc rng le_rfl hfu hv
      rw [Nat.sub_self] at h1
      obtain ⟨v', x', k1, k2, k3, k4, k5⟩ := hrun p ray e1 e2 fuel v _ hfu (repeatRest_drop 1 p rng hv)
      refine ⟨v', x + x', ?_, add_nonneg h2 k2, by rw [k3, h3]; ring, ?_, k5⟩
      · unfold World.lightsLoop
        rw [h1, Res.bind_ok]
        exact k1
      · rw [ENNReal.ofReal_add h2 k2, h4, k4]

/-- The mean of the sunlight is the sum over the suns. -/
theorem sunlight_exact (hW : w.Sunlit s) (suns : List SunDisc) (hsuns : w.HasSuns s suns) (m : Material ℝ) (col : Spectrum ℝ) (r : ℝ) (hm : m ∈ [Material.plastic col 0 r, Material.metal col 0 r]) (hcol : col.Nonneg) (ch : Spectrum ℝ → ℝ)
    (hch : ch ∈ [Spectrum.c0, Spectrum.c1, Spectrum.c2]) (S : Sight) (hS : ∀ p v D, S.free p v D ↔ w.scene.unobstructedDistance w.env ⟨p, v⟩ D [] = .ok true) (axes : Axes) (arrived : TRay) :
    sunlightAt w m arrived ch = ENNReal.ofReal (ch col / Real.pi) * (suns.map fun sun => sun.onto S axes ch (arrived.interaction.point + arrived.interaction.shading.normal.scale (1 / 1000)) arrived.interaction.shading.normal).sum := by
  have hcol' : 0 ≤ ch col := by
    simp only [List.mem_cons, List.not_mem_nil, or_false] at hch
    rcases hch with rfl | rfl | rfl
    · exact hcol.1
    · exact hcol.2.1
    · exact hcol.2.2
  obtain ⟨val, rest, hF, hmean, hrun⟩ := suns_mean hW.renders hW.perp hW.box m col r hm ch hch hcol' arrived.interaction.shading.normal S hS axes _ _ hsuns
  rw [← hmean]
  refine avg_congr fun rng hv => ?_
  obtain ⟨v, x, h1, h2, h3, h4, -⟩ := hrun arrived.interaction.point arrived arrived.interaction.shading.dpdu arrived.interaction.shading.dpdv 2 Spectrum.black rng (by norm_num) hv
  have hb : Spectrum.black + v = v := by ext <;> simp [Spectrum.black, Spectrum.gray]
  rw [chan_black hch, zero_add] at h3
  have e : w.localIllumination 2 m arrived rng 1 = .ok (v, rest arrived.interaction.point rng) := by
    unfold World.localIllumination
    rw [hW.renders.same.2.1, hW.lamps, hW.renders.same.2.2]
    simp only [World.sampleLightArray, World.lightsLoop, TRay.getTriad, Res.bind_ok, h1, hb]
  rw [e, ← h4, ← h3]
  rfl

end Rendering
