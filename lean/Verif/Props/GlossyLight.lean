import Verif.Props.GlossySampling
import Verif.Props.SafetyScenes

/-!
# C93 on the glossy materials: light that counts as negative
-/

set_option linter.unusedSectionVars false
namespace Rendering

open MeasureTheory Set
open Classical

/-- The reflected vector lies deeper below the surface than the incoming one stands above it. -/
theorem deeper (μ D L : ℝ) (h0 : 0 < μ) (h1 : μ < 1) (hD : D < -2 * μ) (hL : 0 < L) (hL2 : L * L = 1 + 2 * D * μ + D ^ 2) : (μ + D) / L < -μ := by
  rw [div_lt_iff₀ hL]
  by_contra h
  have h2 : -(μ + D) ≤ μ * L := by linarith
  have h3 : 0 < -(μ + D) := by linarith
  have h4 : (-(μ + D)) * (-(μ + D)) ≤ (μ * L) * (μ * L) := mul_le_mul h2 h2 h3.le (h3.le.trans h2)
  have h5 : (μ * L) * (μ * L) = μ ^ 2 * (1 + 2 * D * μ + D ^ 2) := by rw [← hL2]; ring
  rw [h5] at h4
  have h6 : 0 < (1 - μ ^ 2) * (D * (D + 2 * μ)) := mul_pos (by nlinarith) (mul_pos_of_neg_of_neg (by linarith) (by linarith))
  nlinarith

/-- The specular value is positive where it is defined. -/
theorem ward_positive (n e1 e2 i v : Vec3 ℝ) (s α : ℝ) (hα : 0 < α) (hs : 1 / 10 ^ 5 < s) (hin : Dot i n < 0) (hh : Dot (v - i) n ≠ 0) : 0 < (evaluateWard n e1 e2 s α α i v).1 ∧ (evaluateWard n e1 e2 s α α i v).2 = (1 - s) / Real.pi := by
  have hc := clampRoughness_pos α
  have h0 : ¬ i.dot n > 0 := by rw [Vec3.dot_eq]; linarith
  have hhh : 0 < Dot (v - i) (v - i) := by
    by_contra h
    generalize v - i = u at h hh
    have h1 : Dot u u = 0 := le_antisymm (not_lt.1 h) (by unfold Dot; nlinarith [sq_nonneg u.x, sq_nonneg u.y, sq_nonneg u.z])
    have hx : u.x = 0 ∧ u.y = 0 ∧ u.z = 0 := by
      unfold Dot at h1
      refine ⟨?_, ?_, ?_⟩ <;> nlinarith [sq_nonneg u.x, sq_nonneg u.y, sq_nonneg u.z]
    exact hh (by simp [Dot, hx.1, hx.2.1, hx.2.2])
  unfold evaluateWard
  simp only [hs, h0, if_true, if_false, gt_iff_lt]
  refine ⟨?_, trivial⟩
  rw [Vec3.dot_eq, Vec3.dot_eq]
  have h4 : 0 < Dot (v - i) n ^ 4 := by positivity
  have := Real.pi_pos
  have hs0 : 0 < s := lt_trans (by norm_num) hs
  positivity

/-- The draws for which a glossy sample has a negative weight: on one side of the plane of incidence, and near enough to the mirror direction. -/
theorem glossy_negative (fuel : Nat) (n e1 e2 pt : Vec3 ℝ) (s r : ℝ) (hf : Frame e1 e2 n) (ray : TRay) (hd : Norm ray.geometry.direction = 1) (hin : Dot ray.geometry.direction n < 0) (hs : 1 / 10 ^ 5 < s) (q : ℝ) (hq : q < s) (d : ℝ × ℝ) (rest : Rng)
    (hδ : 0 < halfTangent (clampRoughness r) d.2)
    (hκ : halfTangent (clampRoughness r) d.2 * Dot ray.geometry.direction n > Real.cos (2 * Real.pi * d.1) * Dot e1 ray.geometry.direction + Real.sin (2 * Real.pi * d.1) * Dot e2 ray.geometry.direction)
    (hoff : -1 < Dot ray.geometry.direction n) :
    ∃ direct weight v, sampleWard (fuel + 1) n e1 e2 pt s r r ray (Rng.cons q (Rng.cons2 d rest)) = .ok ((direct, (1 - s) / Real.pi, weight), { ray with geometry := ⟨pt + n.scale (1 / 10 ^ 5), v⟩ }, rest) ∧ 0 < direct ∧ weight < 0 ∧ Dot n v < 0 := by
  have hα := clampRoughness_pos r
  set l := ray.geometry.direction.scale (-1) with hl
  set μ := -Dot ray.geometry.direction n with hμdef
  have hc : Dot n l = μ := by rw [hl, hμdef]; simp only [Dot, Vec3.scale_x, Vec3.scale_y, Vec3.scale_z]; ring
  have hμ0 : 0 < μ := by rw [hμdef]; linarith
  have hμ1 : μ < 1 := by rw [hμdef]; linarith
  have hll : Dot l l = 1 := by
    have : Dot l l = Dot ray.geometry.direction ray.geometry.direction := by rw [hl]; simp only [Dot, Vec3.scale_x, Vec3.scale_y, Vec3.scale_z]; ring
    rw [this, Dot_self_of_norm hd]
  have hnn := Dot_self_of_norm hf.n3
  set δ := halfTangent (clampRoughness r) d.2 with hδdef
  have hneg : ∀ u, Dot u l = -Dot u ray.geometry.direction := fun u => by rw [hl]; simp only [Dot, Vec3.scale_x, Vec3.scale_y, Vec3.scale_z]; ring
  set κ := Real.cos (2 * Real.pi * d.1) * Dot e1 l + Real.sin (2 * Real.pi * d.1) * Dot e2 l with hκdef
  have hκ' : δ * μ < κ := by rw [hκdef, hneg, hneg, hμdef]; linarith
  set D := (Dot n l + δ * κ) * (-2) / (1 + δ ^ 2) with hD
  have hden : 0 < 1 + δ ^ 2 := by positivity
  have hlow : D < -2 * μ := by
    rw [hD, div_lt_iff₀ hden, hc]
    have := mul_lt_mul_of_pos_left hκ' hδ
    nlinarith
  have hraw : glossyRaw n e1 e2 l (clampRoughness r) d = l + n.scale D := rfl
  obtain ⟨a1, a2⟩ := along_normal n l hnn hll D
  have hN : 0 < Norm (l + n.scale D) := by
    rcases (Norm_nonneg (l + n.scale D)).eq_or_lt with h0 | h0
    · exfalso
      have h2 := Norm_sq (l + n.scale D)
      rw [← h0, a2, hc] at h2
      have := len_pos μ D (by nlinarith) (by linarith)
      linarith [h2]
    · exact h0
  have hne : l + n.scale D ≠ 0 := by
    intro h
    rw [h] at hN
    simp [Norm, Dot] at hN
  have hv : Dot (l + n.scale D).normalized n < -μ := by
    have e2 : Dot (l + n.scale D).normalized n = Dot (l + n.scale D) n / Norm (l + n.scale D) := by
      rw [normalized_eq]; simp only [Dot, Vec3.scale_x, Vec3.scale_y, Vec3.scale_z]; field_simp
    rw [e2, a1, hc]
    refine deeper μ D _ hμ0 hμ1 hlow hN ?_
    have := Norm_sq (l + n.scale D)
    rw [a2, hc] at this
    linarith
  have e : Dot ((l + n.scale D).normalized.scale (-1) - ray.geometry.direction) n = μ - Dot (l + n.scale D).normalized n := by
    rw [hμdef]; simp only [Dot, Vec3.sub_x, Vec3.sub_y, Vec3.sub_z, Vec3.scale_x, Vec3.scale_y, Vec3.scale_z]; ring
  have hnan : ¬ (wardIsNaN n s ray.geometry.direction ((l + n.scale D).normalized.scale (-1)) ∨ l + n.scale D = 0) := by
    rintro (⟨_, _, h⟩ | h)
    · rw [Vec3.dot_eq, e] at h
      linarith
    · exact hne h
  have hsw := sampleWard_outside fuel n e1 e2 pt s r ray hin q d rest hq
  rw [← hl, hraw, if_neg hnan] at hsw
  obtain ⟨p1, p2⟩ := ward_positive n e1 e2 ray.geometry.direction ((l + n.scale D).normalized.scale (-1)) s (clampRoughness r) hα hs hin (by rw [e]; linarith)
  rw [p2] at hsw
  refine ⟨_, _, _, hsw, p1, ?_, ?_⟩
  · have hc' : Dot l n = μ := by rw [← hc]; simp only [Dot]; ring
    rw [hc']
    refine div_neg_of_pos_of_neg two_pos ?_
    have : Dot (l + n.scale D).normalized n / μ < -1 := by rw [div_lt_iff₀ hμ0]; linarith
    linarith
  · have : Dot n (l + n.scale D).normalized = Dot (l + n.scale D).normalized n := by simp only [Dot]; ring
    rw [this]; linarith

/-- Such draws have positive probability. -/
theorem negative_draws (a b μ α : ℝ) (hα : 0 < α) (hμ : 0 < μ) (hab : ¬ (a = 0 ∧ b = 0)) :
    0 < Probability fun d => 0 < halfTangent α d.2 ∧ Real.cos (2 * Real.pi * d.1) * a + Real.sin (2 * Real.pi * d.1) * b < halfTangent α d.2 * -μ := by
  have hp := Real.pi_pos
  -- an angle at which the wave is negative
  obtain ⟨x0, hx0, hneg⟩ : ∃ x ∈ Ioo (0 : ℝ) 1, Real.cos (2 * Real.pi * x) * a + Real.sin (2 * Real.pi * x) * b < 0 := by
    by_contra hno
    push Not at hno
    have f8 : ∀ x ∈ Ioo (0 : ℝ) 1, 0 ≤ Real.cos (2 * Real.pi * x) * a + Real.sin (2 * Real.pi * x) * b := hno
    have q1 := f8 (1 / 4) ⟨by norm_num, by norm_num⟩
    have q2 := f8 (1 / 2) ⟨by norm_num, by norm_num⟩
    have q3 := f8 (3 / 4) ⟨by norm_num, by norm_num⟩
    have q4 := f8 (1 / 8) ⟨by norm_num, by norm_num⟩
    have q5 := f8 (7 / 8) ⟨by norm_num, by norm_num⟩
    rw [show 2 * Real.pi * (1 / 4) = Real.pi / 2 by ring, Real.cos_pi_div_two, Real.sin_pi_div_two] at q1
    rw [show 2 * Real.pi * (1 / 2) = Real.pi by ring, Real.cos_pi, Real.sin_pi] at q2
    rw [show 2 * Real.pi * (3 / 4) = Real.pi / 2 + Real.pi by ring, Real.cos_add_pi, Real.sin_add_pi, Real.cos_pi_div_two, Real.sin_pi_div_two] at q3
    rw [show 2 * Real.pi * (1 / 8) = Real.pi / 4 by ring, Real.cos_pi_div_four, Real.sin_pi_div_four] at q4
    have hb : b = 0 := by linarith
    have hs2 : 0 < Real.sqrt 2 := by positivity
    have ha : 0 ≤ a := by
      by_contra h
      rw [hb] at q4
      nlinarith
    exact hab ⟨by linarith, hb⟩
  set w : ℝ → ℝ := fun x => Real.cos (2 * Real.pi * x) * a + Real.sin (2 * Real.pi * x) * b with hw
  have hcont : Continuous w := by rw [hw]; fun_prop
  set δ0 : ℝ := -w x0 / (2 * μ) with hδ0
  have hδ0p : 0 < δ0 := div_pos (by simp only [hw]; linarith) (by positivity)
  set M := max (Real.exp (-δ0 ^ 2 / α ^ 2)) (1 / 10 ^ 9) with hM
  have hM1 : M < 1 := max_lt (by
    rw [Real.exp_lt_one_iff]
    exact div_neg_of_neg_of_pos (by nlinarith) (by positivity)) (by norm_num)
  set A : Set ℝ := {x | w x < w x0 / 2} ∩ Ioo 0 1 with hA
  have hopen : IsOpen A := (isOpen_lt hcont continuous_const).inter isOpen_Ioo
  have hApos : 0 < volume A := hopen.measure_pos volume ⟨x0, by
    refine ⟨?_, hx0⟩
    have : w x0 < 0 := hneg
    show w x0 < w x0 / 2
    linarith⟩
  calc 0 < volume (A ×ˢ Ioo M 1) := by
        rw [show (volume : Measure (ℝ × ℝ)) = (volume : Measure ℝ).prod volume from rfl, Measure.prod_prod, Real.volume_Ioo]
        exact ENNReal.mul_pos hApos.ne' (by simpa using hM1)
    _ ≤ _ := by
        refine measure_mono ?_
        rintro d ⟨⟨h1, h2⟩, h3, h4⟩
        have hd0 : 0 ≤ d.2 := ((by positivity : (0 : ℝ) ≤ M).trans_lt h3).le
        refine ⟨⟨⟨h2.1.le, h2.2⟩, hd0, h4⟩, ?_⟩
        have hlow : 1 / 10 ^ 9 ≤ d.2 := (le_max_right _ _).trans h3.le
        have hpos : 0 < halfTangent α d.2 := by
          rw [halfTangent, if_neg (not_lt.2 hlow)]
          refine Real.sqrt_pos.2 (div_pos ?_ (by positivity))
          have := Real.log_neg (by linarith [show (0 : ℝ) < 1 / 10 ^ 9 by norm_num]) h4
          linarith
        have hlt : halfTangent α d.2 < δ0 := by
          by_contra hge
          have hge' : δ0 ^ 2 ≤ halfTangent α d.2 ^ 2 := by
            have := not_lt.1 hge
            nlinarith
          have := (halfTangent_ge α d.2 (δ0 ^ 2) hα hd0 h4 hlow).1 hge'
          linarith [le_max_left (Real.exp (-δ0 ^ 2 / α ^ 2)) (1 / 10 ^ 9)]
        refine ⟨hpos, ?_⟩
        have h5 : w d.1 < w x0 / 2 := h1
        have h6 : halfTangent α d.2 * μ < δ0 * μ := mul_lt_mul_of_pos_right hlt hμ
        have h7 : δ0 * μ = -w x0 / 2 := by rw [hδ0]; field_simp
        show w d.1 < _
        linarith

/-- **C93, the code violates it on glossy surfaces.** A ray arrives obliquely at a flat plastic or metal surface, and the specular branch has been drawn. With positive probability over the two numbers that choose the direction, the sample's weight is negative, and
whatever positive light arrives from there counts as *negative* light. -/
theorem C93_violation_glossy (self : RefTrace) (light : Spectrum ℝ) (hl : 0 < light.c0 ∧ 0 < light.c1 ∧ 0 < light.c2) (hself : ∀ rng ray, ∃ rng', self rng ray = .ok ((light, 0), rng'))
    (arriving : TRay) (hf : Frame arriving.interaction.shading.dpdu arriving.interaction.shading.dpdv arriving.interaction.shading.normal) (hd : Norm arriving.geometry.direction = 1)
    (hin : Dot arriving.geometry.direction arriving.interaction.shading.normal < 0) (hoff : -1 < Dot arriving.geometry.direction arriving.interaction.shading.normal)
    (c : Spectrum ℝ) (hc : 0 < c.c0 ∧ 0 < c.c1 ∧ 0 < c.c2) (s r : ℝ) (hs : 1 / 10 ^ 5 < s) (hs1 : s ≤ 1) (q : ℝ) (hq : q < s) (rest : Rng) (fuel : Nat) :
    ∀ m ∈ [Material.plastic c s r, Material.metal c s r],
      0 < Probability fun d => ∃ v rng', refAmbient self m arriving (fuel + 2) 1 (Rng.cons q (Rng.cons2 d rest)) = .ok (v, rng') ∧ v.c0 < 0 ∧ v.c1 < 0 ∧ v.c2 < 0 := by
  intro m hm
  set n := arriving.interaction.shading.normal with hn
  set e1 := arriving.interaction.shading.dpdu with he1
  set e2 := arriving.interaction.shading.dpdv with he2
  have comm : ∀ u v : Vec3 ℝ, Dot u v = Dot v u := fun u v => by simp only [Dot]; ring
  have hab : ¬ (Dot e1 arriving.geometry.direction = 0 ∧ Dot e2 arriving.geometry.direction = 0) := by
    rintro ⟨h1, h2⟩
    have := frame_sq hf arriving.geometry.direction
    rw [Dot_self_of_norm hd, comm _ e1, comm _ e2, h1, h2] at this
    nlinarith
  refine lt_of_lt_of_le (negative_draws (Dot e1 arriving.geometry.direction) (Dot e2 arriving.geometry.direction) (-Dot arriving.geometry.direction n) (clampRoughness r) (clampRoughness_pos r) (by linarith) hab) ?_
  refine measure_mono ?_
  rintro d ⟨hd2, h1, h2⟩
  refine ⟨hd2, ?_⟩
  obtain ⟨direct, weight, v, e, hp, hw, hv⟩ := glossy_negative fuel n e1 e2 arriving.interaction.point s r hf arriving hd hin hs q hq d rest h1 (by rw [neg_neg] at h2; exact h2) hoff
  have hdif : 0 ≤ (1 - s) / Real.pi := div_nonneg (by linarith) Real.pi_pos.le
  have hcos : 0 < |Dot n v| := abs_pos.2 hv.ne
  have fin : ∀ b : Spectrum ℝ, 0 < b.c0 ∧ 0 < b.c1 ∧ 0 < b.c2 → m.sampleBsdf (fuel + 1) n e1 e2 arriving.interaction.point arriving (Rng.cons q (Rng.cons2 d rest)) = .ok ((b, weight), { arriving with geometry := ⟨arriving.interaction.point + n.scale (1 / 10 ^ 5), v⟩ }, rest) →
      ∃ v rng', refAmbient self m arriving (fuel + 2) 1 (Rng.cons q (Rng.cons2 d rest)) = .ok (v, rng') ∧ v.c0 < 0 ∧ v.c1 < 0 ∧ v.c2 < 0 := by
    intro b hb eb
    obtain ⟨rng', e'⟩ := hself rest { arriving with geometry := ⟨arriving.interaction.point + n.scale (1 / 10 ^ 5), v⟩, depth := arriving.depth + 1, value := arriving.value * (b.radiance * |n.dot v| / weight) }
    refine ⟨((light * b).scale |n.dot v|).divBy weight + Spectrum.black, rng', ?_, ?_⟩
    · simp only [refAmbient]
      rw [← hn, ← he1, ← he2, eb]
      simp only [Res.bind_ok]
      rw [e']
      simp
    · rw [Vec3.dot_eq]
      simp only [Spectrum.black, Spectrum.gray, Spectrum.scale, Spectrum.divBy, Spectrum.add_c0, Spectrum.add_c1, Spectrum.add_c2, Spectrum.mul_c0, Spectrum.mul_c1, Spectrum.mul_c2, add_zero]
      obtain ⟨l0, l1, l2⟩ := hl
      obtain ⟨b0, b1, b2⟩ := hb
      exact ⟨div_neg_of_pos_of_neg (by positivity) hw, div_neg_of_pos_of_neg (by positivity) hw, div_neg_of_pos_of_neg (by positivity) hw⟩
  obtain ⟨c0, c1, c2⟩ := hc
  simp only [List.mem_cons, List.not_mem_nil, or_false] at hm
  rcases hm with rfl | rfl
  · refine fin (plasticBsdf c direct ((1 - s) / Real.pi)) ?_ (by simp only [Material.sampleBsdf, e, Res.bind_ok])
    simp only [plasticBsdf, Spectrum.gray, Spectrum.scale, Spectrum.add_c0, Spectrum.add_c1, Spectrum.add_c2]
    refine ⟨?_, ?_, ?_⟩ <;> positivity
  · refine fin (metalBsdf c direct ((1 - s) / Real.pi)) ?_ (by simp only [Material.sampleBsdf, e, Res.bind_ok])
    simp only [metalBsdf, Spectrum.scale, Spectrum.add_c0, Spectrum.add_c1, Spectrum.add_c2]
    refine ⟨?_, ?_, ?_⟩ <;> positivity

/-- C93: a surface under an oblique ray, half of whose light is reflected specularly, and an environment that sends light from everywhere. -/
example : ∃ arriving : TRay, ∀ fuel, 0 < Probability fun d => ∃ v rng', refAmbient (fun rng _ => .ok ((Spectrum.gray 1, 0), rng)) (.plastic (Spectrum.gray (1 / 2)) (1 / 2) (1 / 10)) arriving (fuel + 2) 1 (Rng.cons 0 (Rng.cons2 d fun _ => 0)) = .ok (v, rng') ∧ v.c0 < 0 := by
  let arriving : TRay := { landed with geometry := ⟨⟨0, 0, 1⟩, ⟨3 / 5, 0, -4 / 5⟩⟩, interaction := { landed.interaction with shading := { landed.interaction.shading with normal := ⟨0, 0, 1⟩, dpdu := ⟨1, 0, 0⟩, dpdv := ⟨0, 1, 0⟩ } } }
  refine ⟨arriving, fun fuel => ?_⟩
  have hf : Frame (⟨1, 0, 0⟩ : Vec3 ℝ) ⟨0, 1, 0⟩ ⟨0, 0, 1⟩ := by
    constructor <;> first | exact Norm_eq_one (by norm_num [Dot]) | norm_num [Dot]
  refine lt_of_lt_of_le (C93_violation_glossy (fun rng _ => .ok ((Spectrum.gray 1, 0), rng)) (Spectrum.gray 1) (by norm_num [Spectrum.gray]) (fun rng _ => ⟨rng, rfl⟩) arriving hf (Norm_eq_one (by norm_num [Dot, arriving])) (by norm_num [Dot, arriving]) (by norm_num [Dot, arriving])
    (Spectrum.gray (1 / 2)) (by norm_num [Spectrum.gray]) (1 / 2) (1 / 10) (by norm_num) (by norm_num) 0 (by norm_num) (fun _ => 0) fuel _ (List.mem_cons_self ..)) ?_
  refine measure_mono ?_
  rintro d ⟨hd, v, rng', e, h, _⟩
  exact ⟨hd, v, rng', e, h⟩

end Rendering
