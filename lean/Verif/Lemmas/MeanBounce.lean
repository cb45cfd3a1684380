import Verif.Spec.RenderingEquation
import Verif.Props.Unbiased
import Verif.Props.Tracer
import Verif.Lemmas.Shows

/-!
# One bounce off a matt surface as a random experiment
-/

set_option linter.unusedSectionVars false
namespace Rendering

open MeasureTheory Set

variable {w : World} {s : Scene ℝ} {X : Type} [MeasurableSpace X]

/-- The cosine-weighted direction for a pair of random numbers. -/
noncomputable def cosDir (d : ℝ × ℝ) : Vec3 ℝ := ⟨(discMap 1 d).1, (discMap 1 d).2, Real.sqrt (1 - ((discMap 1 d).1 ^ 2 + (discMap 1 d).2 ^ 2))⟩

@[fun_prop] theorem measurable_cosDir : Measurable cosDir := by
  have h := discMap_measurable 1
  have h1 : Measurable fun d => (discMap 1 d).1 := measurable_fst.comp h
  have h2 : Measurable fun d => (discMap 1 d).2 := measurable_snd.comp h
  unfold cosDir
  fun_prop

theorem measurable_worldOf {X : Type} [MeasurableSpace X] (e1 e2 n : Vec3 ℝ) {f : X → Vec3 ℝ} (hf : Measurable f) : Measurable fun a => worldOf e1 e2 n (f a) := by
  unfold worldOf
  fun_prop

theorem mean_cosDir {L : Vec3 ℝ → ENNReal} (hL : Measurable L) : ∫⁻ d in Ico (0 : ℝ) 1 ×ˢ Ico (0 : ℝ) 1, L (cosDir d) = irradiance L / ENNReal.ofReal Real.pi := by
  rw [← C78_cosine_mean (fun _ => 0) L (measurableFn3_iff.2 hL)]
  change Mean (fun d => L (cosDir d)) = _
  refine mean_congr fun d hd => ?_
  rw [cosine_sample_eq _ ⟨hd.1.1.le, hd.1.2⟩]
  rfl

theorem irradiance_congr {L L' : Vec3 ℝ → ENNReal} (h : ∀ l, Norm l = 1 → L l = L' l) : irradiance L = irradiance L' := by
  unfold irradiance
  refine setLIntegral_congr_fun (measurableSet_Ioo.prod measurableSet_Ioo) fun p hp => ?_
  have hu : Norm (directionAt p.1 p.2) = 1 := by
    have h1 : 0 ≤ 1 - p.1 ^ 2 := by nlinarith [hp.1.1, hp.1.2]
    have h2 := Real.sq_sqrt h1
    have h3 := Real.sin_sq_add_cos_sq p.2
    refine Norm_eq_one ?_
    simp only [Dot, directionAt]
    calc _ = Real.sqrt (1 - p.1 ^ 2) ^ 2 * (Real.sin p.2 ^ 2 + Real.cos p.2 ^ 2) + p.1 ^ 2 := by ring
      _ = 1 := by rw [h2, h3]; ring
  simp only [h _ hu]

theorem cosDir_unit {a b : ℝ} (ha : 0 ≤ a ∧ a < 1) (hb : 0 ≤ b ∧ b < 1) : Norm (cosDir (a, b)) = 1 := by
  let r : Rng := fun k => if k = 0 then a else b
  obtain ⟨g1, -, -⟩ := C55_cosine_hemisphere r (fun k => by by_cases h : k = 0 <;> simp only [r, h, if_true, if_false] <;> assumption)
  have hcd : (sampleCosineHemisphere r).1 = cosDir (r 0, r 1) := cosine_sample_eq _ ha
  rw [hcd] at g1
  exact g1

/-- One sample of a matt surface. -/
theorem matt_sample (fuel : Nat) (m : Material ℝ) (col : Spectrum ℝ) (r : ℝ) (hm : m ∈ [Material.plastic col 0 r, Material.metal col 0 r]) (n e1 e2 pt : Vec3 ℝ) (hf : Frame e1 e2 n) (ray : TRay) (rng : Rng) (hv : rng.Valid) :
    ∃ z, 0 < z ∧ Dot n (worldOf e1 e2 n (cosDir (rng 1, rng 2))) = z ∧ Norm (worldOf e1 e2 n (cosDir (rng 1, rng 2))) = 1 ∧
      m.sampleBsdf fuel n e1 e2 pt ray rng = .ok ((col.scale (1 / Real.pi), z / Real.pi), { ray with geometry := ⟨pt + n.scale (1 / 10 ^ 5), worldOf e1 e2 n (cosDir (rng 1, rng 2))⟩ }, rng.drop 3) := by
  obtain ⟨g1, g2, -⟩ := C55_cosine_hemisphere (fun k => rng (k + 1)) (fun k => hv (k + 1))
  have hcd : (sampleCosineHemisphere (fun k => rng (k + 1))).1 = cosDir (rng 1, rng 2) := cosine_sample_eq _ (hv 1)
  rw [hcd] at g1 g2
  set d := cosDir (rng 1, rng 2) with hd
  have hd2 : d.x ^ 2 + d.y ^ 2 + d.z ^ 2 = 1 := by
    have := Dot_self_of_norm g1; simp only [Dot] at this; nlinarith
  obtain ⟨w1, w2⟩ := world_unit hf hd2
  have hw : localToWorld e1 e2 n 0 d.x d.y d.z = worldOf e1 e2 n d := world_eq e1 e2 n d.x d.y d.z
  rw [hw] at w1 w2
  have hnorm : (worldOf e1 e2 n d).normalized = worldOf e1 e2 n d := by
    rw [normalized_eq, w1]; ext <;> simp
  have hcos : Dot n (worldOf e1 e2 n d) = d.z := by rw [Dot_comm]; exact w2
  refine ⟨d.z, g2, hcos, w1, ?_⟩
  have hward : sampleWard fuel n e1 e2 pt 0 r r ray rng = .ok ((0, (1 - 0) / Real.pi, d.z / Real.pi), { ray with geometry := ⟨pt + n.scale (1 / 10 ^ 5), worldOf e1 e2 n d⟩ }, rng.drop 3) := by
    unfold sampleWard
    simp only [Rng.gen]
    have hns : ¬ rng 0 < 0 := not_lt.2 (hv 0).1
    simp only [hns, if_false, hcd, hw, hnorm, Vec3.dot_eq, hcos]
    rfl
  simp only [List.mem_cons, List.not_mem_nil, or_false] at hm
  rcases hm with rfl | rfl
  · simp only [Material.sampleBsdf, hward, Res.bind_ok, plasticBsdf]
    have : Spectrum.gray 0 + col.scale ((1 - 0) / Real.pi) = col.scale (1 / Real.pi) := by ext <;> simp [Spectrum.gray, Spectrum.scale]
    rw [this]
  · simp only [Material.sampleBsdf, hward, Res.bind_ok, metalBsdf]
    have : col.scale 0 + col.scale ((1 - 0) / Real.pi) = col.scale (1 / Real.pi) := by ext <;> simp [Spectrum.scale]
    rw [this]

/-- What one ambient sample brings, as a random experiment. -/
noncomputable def bounceVal (valc : Ray3 ℝ → Rng → ENNReal) (k : ENNReal) (N e1 e2 : Vec3 ℝ) (p : Vec3 ℝ) (r : Rng) : ENNReal := k * valc ⟨p + N.scale (1 / 10 ^ 5), worldOf e1 e2 N (cosDir (r 1, r 2))⟩ (r.drop 3)

noncomputable def bounceRest (restc : Ray3 ℝ → Rng → Rng) (N e1 e2 : Vec3 ℝ) (p : Vec3 ℝ) (r : Rng) : Rng := restc ⟨p + N.scale (1 / 10 ^ 5), worldOf e1 e2 N (cosDir (r 1, r 2))⟩ (r.drop 3)

theorem bounce_aux {valc : Ray3 ℝ → Rng → ENNReal} {restc : Ray3 ℝ → Rng → Rng} (h : Fresh valc restc) (k : ENNReal) (N e1 e2 : Vec3 ℝ) :
    Fresh (fun (q : Vec3 ℝ × (ℝ × ℝ)) r => k * valc ⟨q.1 + N.scale (1 / 10 ^ 5), worldOf e1 e2 N (cosDir q.2)⟩ r) (fun q r => restc ⟨q.1 + N.scale (1 / 10 ^ 5), worldOf e1 e2 N (cosDir q.2)⟩ r) := by
  have ht : Measurable fun q : Vec3 ℝ × (ℝ × ℝ) => worldOf e1 e2 N (cosDir q.2) := measurable_worldOf e1 e2 N (measurable_cosDir.comp measurable_snd)
  have hm : Measurable fun q : Vec3 ℝ × (ℝ × ℝ) => (⟨q.1 + N.scale (1 / 10 ^ 5), worldOf e1 e2 N (cosDir q.2)⟩ : Ray3 ℝ) := by fun_prop
  exact (h.comp hm).mul (k := fun _ => k) measurable_const

theorem bounce_fresh {valc : Ray3 ℝ → Rng → ENNReal} {restc : Ray3 ℝ → Rng → Rng} (h : Fresh valc restc) (k : ENNReal) (N e1 e2 : Vec3 ℝ) : Fresh (bounceVal valc k N e1 e2) (bounceRest restc N e1 e2) :=
  ((bounce_aux h k N e1 e2).draw2.comp (f := fun q : Vec3 ℝ × ℝ => q.1) measurable_fst).draw

theorem bounce_mean {valc : Ray3 ℝ → Rng → ENNReal} {restc : Ray3 ℝ → Rng → Rng} (h : Fresh valc restc) (k : ℝ) (hk : 0 ≤ k) (N e1 e2 : Vec3 ℝ) (p : Vec3 ℝ) :
    avg (bounceVal valc (ENNReal.ofReal k) N e1 e2 p) = ENNReal.ofReal (k / Real.pi) * irradiance fun l => avg (valc ⟨p + N.scale (1 / 10 ^ 5), worldOf e1 e2 N l⟩) := by
  have ha := bounce_aux h (ENNReal.ofReal k) N e1 e2
  have h1 := (ha.draw2.comp (f := fun q : Vec3 ℝ × ℝ => q.1) measurable_fst).mean_draw p
  have h2 := ha.mean_draw2 p
  have e1' : avg (bounceVal valc (ENNReal.ofReal k) N e1 e2 p) = _ := h1
  rw [e1']
  simp only
  have hval : ∀ u : ℝ, avg (fun r => (fun (x : Vec3 ℝ × ℝ) (r : Rng) => (fun (q : Vec3 ℝ × (ℝ × ℝ)) r => ENNReal.ofReal k * valc ⟨q.1 + N.scale (1 / 10 ^ 5), worldOf e1 e2 N (cosDir q.2)⟩ r) (x.1, (r 0, r 1)) (r.drop 2)) (p, u) r) = _ := fun _ => h2
  simp only [avg] at hval h2 ⊢
  simp only [h2]
  rw [setLIntegral_const, Real.volume_Ico]
  norm_num
  have hmv : ∀ d : ℝ × ℝ, ∫⁻ r, ENNReal.ofReal k * valc ⟨p + N.scale (1 / 10 ^ 5), worldOf e1 e2 N (cosDir d)⟩ r ∂randomNumbers = ENNReal.ofReal k * avg (valc ⟨p + N.scale (1 / 10 ^ 5), worldOf e1 e2 N (cosDir d)⟩) :=
    fun d => lintegral_const_mul _ (h.mval_at _)
  have hL : Measurable fun l => avg (valc ⟨p + N.scale (1 / 10 ^ 5), worldOf e1 e2 N l⟩) := by
    have ht : Measurable fun l : Vec3 ℝ => worldOf e1 e2 N l := measurable_worldOf e1 e2 N measurable_id
    have hm : Measurable fun l : Vec3 ℝ => (⟨p + N.scale (1 / 10 ^ 5), worldOf e1 e2 N l⟩ : Ray3 ℝ) := by fun_prop
    exact h.measurable_mean.comp hm
  norm_num at hmv hL
  simp only [hmv]
  rw [lintegral_const_mul' _ _ ENNReal.ofReal_ne_top]
  have := mean_cosDir hL
  rw [this, ENNReal.ofReal_div_of_pos Real.pi_pos, ENNReal.div_eq_inv_mul, ENNReal.div_eq_inv_mul]
  ring

theorem repeat_valid {rest : X → Rng → Rng} {x : X} (h : ∀ rng : Rng, rng.Valid → (rest x rng).Valid) (n : Nat) : ∀ rng : Rng, rng.Valid → (repeatRest rest n x rng).Valid := by
  induction n with
  | zero => exact fun rng hv => hv
  | succ n ih => exact fun rng hv => ih _ (h rng hv)

/-- What a trace of the onward rays gives, for the experiments `valc`, `restc`. -/
def Gives (self : RefTrace) (ch : Spectrum ℝ → ℝ) (valc : Ray3 ℝ → Rng → ENNReal) (restc : Ray3 ℝ → Rng → Rng) (ray : TRay) : Prop :=
  ∀ rng : Rng, rng.Valid → ∃ light, self rng ray = .ok ((light, 0), restc ray.geometry rng) ∧ 0 ≤ ch light ∧ ENNReal.ofReal (ch light) = valc ray.geometry rng ∧ (restc ray.geometry rng).Valid

/-- The ambient samples at a point of a matt surface. -/
theorem ambient_gives (self : RefTrace) (m : Material ℝ) (col : Spectrum ℝ) (r : ℝ) (hm : m ∈ [Material.plastic col 0 r, Material.metal col 0 r]) (ch : Spectrum ℝ → ℝ) (hch : ch ∈ [Spectrum.c0, Spectrum.c1, Spectrum.c2]) (hcol : 0 ≤ ch col)
    (valc : Ray3 ℝ → Rng → ENNReal) (restc : Ray3 ℝ → Rng → Rng) (arriving : TRay) (hf : Frame arriving.interaction.shading.dpdu arriving.interaction.shading.dpdv arriving.interaction.shading.normal)
    (hself : ∀ l, Norm l = 1 → Norm (arriving.onward m l).geometry.direction = 1 → Gives self ch valc restc (arriving.onward m l)) (n : Nat) : ∀ (fuel : Nat) (rng : Rng), n < fuel → rng.Valid →
    ∃ sum, refAmbient self m arriving fuel n rng = .ok (sum, repeatRest (bounceRest restc arriving.interaction.shading.normal arriving.interaction.shading.dpdu arriving.interaction.shading.dpdv) n arriving.interaction.point rng) ∧ 0 ≤ ch sum ∧
      ENNReal.ofReal (ch sum) = repeatVal (bounceVal valc (ENNReal.ofReal (ch col)) arriving.interaction.shading.normal arriving.interaction.shading.dpdu arriving.interaction.shading.dpdv)
        (bounceRest restc arriving.interaction.shading.normal arriving.interaction.shading.dpdu arriving.interaction.shading.dpdv) n arriving.interaction.point rng ∧
      (repeatRest (bounceRest restc arriving.interaction.shading.normal arriving.interaction.shading.dpdu arriving.interaction.shading.dpdv) n arriving.interaction.point rng).Valid := by
  induction n with
  | zero =>
    intro fuel rng hfu hv
    obtain ⟨fuel, rfl⟩ := Nat.exists_eq_succ_of_ne_zero (Nat.pos_iff_ne_zero.1 hfu)
    exact ⟨Spectrum.black, rfl, (chan_black hch).ge, by rw [chan_black hch]; simp [repeatVal], hv⟩
  | succ n ih =>
    intro fuel rng hfu hv
    obtain ⟨fuel, rfl⟩ := Nat.exists_eq_succ_of_ne_zero (Nat.pos_iff_ne_zero.1 (lt_of_le_of_lt (Nat.zero_le _) hfu))
    obtain ⟨z, hz, hcos, hunit, hs⟩ := matt_sample fuel m col r hm _ _ _ arriving.interaction.point hf arriving rng hv
    have hmc : m.colour = col := by
      simp only [List.mem_cons, List.not_mem_nil, or_false] at hm
      rcases hm with rfl | rfl <;> rfl
    have hpi := Real.pi_pos
    have hd3 : (rng.drop 3).Valid := fun j => hv (j + 3)
    have hrad : (col.scale (1 / Real.pi)).radiance * z / (z / Real.pi) = col.radiance := by
      have : (col.scale (1 / Real.pi)).radiance = col.radiance / Real.pi := by
        simp [Spectrum.radiance, Spectrum.channels, Spectrum.scale, Spectrum.radianceCoefficients]; ring
      rw [this]; field_simp
    obtain ⟨light, h1, h2, h3, h4⟩ := hself (cosDir (rng 1, rng 2)) (cosDir_unit (hv 1) (hv 2)) hunit (rng.drop 3) hd3
    obtain ⟨sum, k1, k2, k3, k4⟩ := ih fuel _ (by omega) h4
    have harr : ({ arriving with geometry := ⟨arriving.interaction.point + arriving.interaction.shading.normal.scale (1 / 10 ^ 5), worldOf arriving.interaction.shading.dpdu arriving.interaction.shading.dpdv arriving.interaction.shading.normal (cosDir (rng 1, rng 2))⟩, depth := arriving.depth + 1, value := arriving.value * col.radiance } : TRay) = arriving.onward m (cosDir (rng 1, rng 2)) := by
      unfold TRay.onward
      rw [hmc]
    have hterm : ch (((light * col.scale (1 / Real.pi)).scale z).divBy (z / Real.pi)) = ch col * ch light := by
      rw [chan_divBy hch, chan_scale hch, chan_mul hch, chan_scale hch]
      field_simp
    refine ⟨((light * col.scale (1 / Real.pi)).scale z).divBy (z / Real.pi) + sum, ?_, ?_, ?_, k4⟩
    · unfold refAmbient
      simp only [hs, Res.bind_ok, Vec3.dot_eq, hcos, abs_of_pos hz, hrad, harr, h1, lt_irrefl, gt_iff_lt, if_false]
      rw [k1]
      rfl
    · rw [chan_add hch, hterm]
      positivity
    · rw [chan_add hch, hterm, ENNReal.ofReal_add (by positivity) k2, ENNReal.ofReal_mul hcol, h3, k3]
      rfl

end Rendering
