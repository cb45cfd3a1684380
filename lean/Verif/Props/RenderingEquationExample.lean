import Verif.Props.ExactLight
import Verif.Lemmas.MeasurableBox

/-!
# A court with a floor and a wall under the sun: the hypotheses of C119 are met and the mean is not zero
-/

set_option linter.unusedSectionVars false
namespace Rendering

open MeasureTheory Set

/-- A wall beside the floor. -/
def courtWall : Tri ℝ := ⟨⟨10, -10, 0⟩, ⟨10, 10, 0⟩, ⟨10, 0, 5⟩⟩

theorem courtWall_normal : (geometricNormal courtWall).normalized = ⟨1, 0, 0⟩ := by
  have e : geometricNormal courtWall = ⟨100, 0, 0⟩ := by
    unfold geometricNormal Cross courtWall
    ext <;> norm_num
  have hn : Norm (⟨100, 0, 0⟩ : Vec3 ℝ) = 100 := by
    unfold Norm
    rw [show ((100 : ℝ) ^ 2 + 0 ^ 2 + 0 ^ 2) = 100 ^ 2 by norm_num]
    exact Real.sqrt_sq (by norm_num)
  rw [e, normalized_eq, hn]
  ext <;> norm_num [Vec3.scale]

/-- The floor, and a wall of which material number `k` is the surface. -/
noncomputable def courtOf (k : Nat) (wall : Material ℝ) : Scene ℝ :=
  { triangles := [plane 0, courtWall], normals := [(⟨0, 0, 1⟩, ⟨0, 0, 1⟩, ⟨0, 0, 1⟩), (⟨1, 0, 0⟩, ⟨1, 0, 0⟩, ⟨1, 0, 0⟩)], front := [0, k], back := [0, k], materials := [.plastic (Spectrum.gray (1 / 2)) 0 0, .light (Spectrum.gray 5), wall],
    distantLights := [{ front := 1, back := 1, primitive := .source ⟨0, 0, 1⟩ (1 / 100) }] }

/-- Floor and wall are of the same matt material. -/
noncomputable def court : Scene ℝ := courtOf 0 (.plastic (Spectrum.gray (1 / 2)) 0 0)

theorem small_steep {x y z t : ℝ} (hu : x * x + y * y + z * z = 1) (hz : 99 / 100 < z) (ht : 0 < t) (h : t * z ≤ 6) : t * x < 9 := by
  have hx : x * x < 2 / 100 := by nlinarith [mul_self_nonneg y]
  have hx1 : x < 1 := by nlinarith
  have ht1 : t < 7 := by nlinarith
  nlinarith

theorem courtOf_world_env (k : Nat) (hk : k < 3) (wall : Material ℝ) : ∃ w : World, w.env = realEnv ∧ w.Sunlit (courtOf k wall) ∧ ∃ i hit, w.cast downRay = .ok (some (i, hit)) ∧ hit.depth = 0 ∧ w.materialAt hit.interaction.shading.side i = .ok (.plastic (Spectrum.gray (1 / 2)) 0 0) ∧
    0 < sunlightAt w (.plastic (Spectrum.gray (1 / 2)) 0 0) hit Spectrum.c0 := by
  obtain ⟨ext, hext⟩ := perpSpec_exists
  have hal : (courtOf k wall).Aligned := ⟨rfl, rfl, rfl⟩
  obtain ⟨s1, bvh, e, _⟩ := rebuild_spec realEnv refEnv_lawful (courtOf k wall) hal
  let dt : DirTests := ⟨fun _ _ => false, fun _ _ => false⟩
  let ext' : GeoExt := ⟨ext.perp, fun _ r => some ⟨r.origin + r.direction.scale 1000, ⟨0, 0, 1⟩, ⟨1, 0, 0⟩, ⟨0, 1, 0⟩, .Front, 0, 0⟩⟩
  let w : World := ⟨s1, realEnv, ext', dt, none, none⟩
  have hR : w.Renders (courtOf k wall) := ⟨refEnv_lawful, refEnv_conservative, hal, fits_of_small _ (by simp [courtOf]), Or.inr e⟩
  have hup : (⟨0, 0, 1⟩ : Vec3 ℝ).normalized = ⟨0, 0, 1⟩ := by
    rw [normalized_eq, show Norm (⟨0, 0, 1⟩ : Vec3 ℝ) = 1 from Norm_eq_one (by simp [Dot])]
    ext <;> simp
  have hS : w.IsSun (courtOf k wall) { front := 1, back := 1, primitive := .source ⟨0, 0, 1⟩ (1 / 100) } ⟨0, 0, 1⟩ (1 / 100) (Spectrum.gray 5) 1000000 := by
    refine ⟨rfl, by simp [Dot], by norm_num, by linarith [Real.two_le_pi], fun pt v hv _ => ⟨_, rfl, ?_, rfl⟩⟩
    have := Dot_self_of_norm hv
    simp only [Dot] at this
    simp only [distSq, Vec3.add_x, Vec3.add_y, Vec3.add_z, Vec3.scale_x, Vec3.scale_y, Vec3.scale_z]
    linear_combination 1000000 * this
  have hW : w.Sunlit (courtOf k wall) := by
    refine ⟨hR, ⟨by simp [courtOf]; omega, by simp [courtOf]; omega, by simp [courtOf], by simp [courtOf]⟩, hext, realEnv_measurable, ?_, rfl, rfl, ?_⟩
    · intro j tri hj
      match j with
      | 0 =>
        simp only [courtOf, List.getElem?_cons_zero, Option.some.injEq] at hj
        subst hj
        rw [show (geometricNormal (plane 0)).normalized = ⟨0, 0, 1⟩ from plane_normal 0]
        rfl
      | 1 =>
        simp only [courtOf, List.getElem?_cons_succ, List.getElem?_cons_zero, Option.some.injEq] at hj
        subst hj
        rw [courtWall_normal]
        rfl
      | j + 2 => simp [courtOf] at hj
    · intro sun hs
      simp only [courtOf, List.mem_singleton] at hs
      subst hs
      exact ⟨_, _, _, _, hS, by norm_num [Spectrum.Nonneg, Spectrum.gray]⟩
  refine ⟨w, rfl, hW, ?_⟩
  have hd : Norm downRay.geometry.direction = 1 := Norm_eq_one (by norm_num [Dot, downRay])
  rcases hR.cast_cases downRay with ⟨_, hno⟩ | ⟨i, tri, b, j, hc, hj, hb, _, _, hfr, hbk, _, _⟩
  · exact absurd downRay_inRange (hno (plane 0) (by simp [courtOf]) _ downRay_visible)
  obtain ⟨rfl, rfl⟩ : j = 0 ∧ tri = plane 0 := by
    match j with
    | 0 =>
      simp only [courtOf, List.getElem?_cons_zero, Option.some.injEq] at hj
      exact ⟨rfl, hj.symm⟩
    | 1 =>
      exfalso
      simp only [courtOf, List.getElem?_cons_succ, List.getElem?_cons_zero, Option.some.injEq] at hj
      subst hj
      obtain ⟨hp, _, hp2, _⟩ := (baricentric_sound _ _ _ hb).1
      have e1 := congrArg Vec3.x hp
      have e2 := congrArg Vec3.x hp2
      simp [downRay, Vec3.scale] at e1
      simp [courtWall, Vec3.scale] at e2
      rw [e1] at e2
      linarith
    | j + 2 => simp [courtOf] at hj
  obtain ⟨k1, k2, k5, k3, k4⟩ := recorded_frame (plane 0) downRay.geometry b hb
  have hmat : w.materialAt (recordedInteraction (plane 0) downRay.geometry b).shading.side i = .ok (.plastic (Spectrum.gray (1 / 2)) 0 0) := by
    unfold World.materialAt
    cases hside : (recordedInteraction (plane 0) downRay.geometry b).shading.side with
    | NonApplicable => exact absurd hside k5
    | Front => simp only [hfr, hR.same.1]; rfl
    | Back => simp only [hbk, hR.same.1]; rfl
  obtain ⟨hpt, _, hside, hdn, _⟩ := recorded_spec (plane 0) downRay.geometry b hd hb
  have hN : (recordedInteraction (plane 0) downRay.geometry b).shading.normal = ⟨0, 0, 1⟩ := by
    have hgn : (geometricNormal (plane 0)).normalized = ⟨0, 0, 1⟩ := plane_normal 0
    rcases hside with h | h
    · rw [h.2, hgn]
    · exfalso
      rw [h.2, hgn] at hdn
      simp [Dot, downRay] at hdn
      linarith
  refine ⟨i, _, hc, rfl, hmat, ?_⟩
  -- every shadow ray brings light
  obtain ⟨f1, f2, hf, hloop⟩ := sun_loop_gives hR hext hS (.plastic (Spectrum.gray (1 / 2)) 0 0) (Spectrum.gray (1 / 2)) 0 (List.mem_cons_self ..) Spectrum.c0 (by simp) (by norm_num [Spectrum.gray]) (by norm_num [Spectrum.gray]) ⟨0, 0, 1⟩
  have hcos : 99 / 100 < Real.cos (1 / 100 / 2) := by
    have := Real.one_sub_sq_div_two_le_cos (x := 1 / 100 / 2)
    norm_num at this ⊢
    linarith
  have hcos1 : Real.cos (1 / 100 / 2) < 1 := by
    have hsin0 : 0 < Real.sin (1 / 100 / 2) := Real.sin_pos_of_pos_of_lt_pi (by norm_num) (by linarith [Real.two_le_pi])
    nlinarith [Real.sin_sq_add_cos_sq (1 / 100 / 2), Real.cos_le_one (1 / 100 / 2)]
  set c := Real.cos (1 / 100 / 2) with hcdef
  have hpi := Real.pi_pos
  set K := (Spectrum.gray (1 / 2 : ℝ)).c0 / Real.pi * (Spectrum.gray (5 : ℝ)).c0 * (2 * Real.pi * (1 - c)) / ((1 : Nat) : ℝ) with hK
  have hK0 : 0 < K := by
    have : 0 < 1 - c := by linarith
    simp only [hK, Spectrum.gray]
    push_cast
    positivity
  have hbp : b.p.x = 0 ∧ b.p.z = 0 := by
    obtain ⟨hp, _, hp2, _⟩ := (baricentric_sound _ _ _ hb).1
    have e1 := congrArg Vec3.x hp
    have e2 := congrArg Vec3.z hp2
    exact ⟨by simpa [downRay, Vec3.scale] using e1, by simpa [Vec3.scale, plane] using e2⟩
  have hlow : ∀ r : Rng, r.Valid → ENNReal.ofReal (K * (99 / 100)) ≤ brought (w.localIllumination 2 (.plastic (Spectrum.gray (1 / 2)) 0 0) { downRay with interaction := recordedInteraction (plane 0) downRay.geometry b } r 1) Spectrum.c0 := by
    intro r hr
    obtain ⟨v, x, h1, h2, h3, h4⟩ := hloop 1 one_pos b.p { downRay with interaction := recordedInteraction (plane 0) downRay.geometry b } (recordedInteraction (plane 0) downRay.geometry b).shading.dpdu (recordedInteraction (plane 0) downRay.geometry b).shading.dpdv
      1 2 Spectrum.black r le_rfl (by norm_num) hr
    have hill : w.localIllumination 2 (.plastic (Spectrum.gray (1 / 2)) 0 0) { downRay with interaction := recordedInteraction (plane 0) downRay.geometry b } r 1 = .ok (v, repeatRest (fun (_ : Vec3 ℝ) (r : Rng) => r.drop 2) 1 b.p r) := by
      unfold World.localIllumination
      rw [hR.same.2.1, hR.same.2.2]
      simp only [courtOf, World.sampleLightArray, World.lightsLoop, TRay.getTriad, Res.bind_ok, hN, hpt]
      simp only [Nat.sub_self] at h1
      rw [h1]
      simp only [Res.bind_ok]
      have hb : Spectrum.black + v = v := by ext <;> simp [Spectrum.black, Spectrum.gray]
      rw [hb]
    rw [hill]
    change _ ≤ ENNReal.ofReal v.c0
    have hv : v.c0 = x := by rw [h3]; simp [Spectrum.black, Spectrum.gray]
    rw [hv, h4]
    simp only [repeatVal, add_zero]
    refine ENNReal.ofReal_le_ofReal ?_
    have h0 : (r 0, r 1) ∈ unitSquare := ⟨⟨(hr 0).1, (hr 0).2⟩, ⟨(hr 1).1, (hr 1).2⟩⟩
    have hcap := towards_in_cap hf (1 / 100 / 2) (by norm_num) (by linarith [Real.two_le_pi]) _ h0
    have hunit := towards_unit hf (Real.tan (1 / 100 / 2)) (r 0, r 1)
    set l := towards f1 f2 (⟨0, 0, 1⟩ : Vec3 ℝ).normalized (Real.tan (1 / 100 / 2)) (r 0, r 1) with hl
    rw [hup] at hcap
    simp only [Dot, mul_zero, mul_one, zero_add] at hcap
    have hlz : 99 / 100 < l.z := lt_trans hcos hcap
    have hl2 := Dot_self_of_norm hunit
    simp only [Dot] at hl2
    have hfree : w.scene.unobstructedDistance w.env ⟨b.p + (⟨0, 0, 1⟩ : Vec3 ℝ).scale (1 / 1000), l⟩ 1000000 [] = .ok true := by
      obtain ⟨free, e, _, h⟩ := C03_unobstructed w.env hR.lawful hR.box (courtOf k wall) w.scene hR.aligned hR.fits hR.built ⟨b.p + (⟨0, 0, 1⟩ : Vec3 ℝ).scale (1 / 1000), l⟩ 1000000 []
      cases free with
      | true => exact e
      | false =>
        exfalso
        obtain ⟨tri, htri, t, p, u, v, ⟨hp, ht, hp2, hu1, _, hv1, huv⟩, _⟩ := h rfl
        have ht0 : 0 < t := lt_trans (by norm_num) ht
        have ez : p.z = 1 / 1000 + t * l.z := by rw [hp]; simp [Vec3.scale, hbp.2]; ring
        have ex : p.x = t * l.x := by rw [hp]; simp [Vec3.scale, hbp.1]; ring
        simp only [courtOf, List.mem_cons, List.not_mem_nil, or_false] at htri
        rcases htri with rfl | rfl
        · have e2 : p.z = 0 := by rw [hp2]; simp [Vec3.scale, plane]
          have := mul_pos ht0 (lt_trans (by norm_num) hlz)
          linarith
        · have e2 : p.z = 5 * v := by rw [hp2]; simp [Vec3.scale, courtWall]
          have e3 : p.x = 10 := by rw [hp2]; simp [Vec3.scale, courtWall]; ring
          have hz6 : t * l.z ≤ 6 := by
            have : v ≤ 11 / 10 := by norm_num at hu1 hv1 huv; linarith
            linarith
          have := small_steep (x := l.x) (y := l.y) hl2 hlz ht0 hz6
          linarith
    simp only [sunSample, ← hl, hfree, if_true, Dot, zero_mul, zero_add, one_mul]
    rw [abs_of_pos (by linarith)]
    exact mul_le_mul_of_nonneg_left hlz.le hK0.le
  refine lt_of_lt_of_le (b := ENNReal.ofReal (K * (99 / 100))) (by rw [ENNReal.ofReal_pos]; positivity) ?_
  rw [← avg_const (ENNReal.ofReal (K * (99 / 100)))]
  refine lintegral_mono_ae ?_
  have : ∀ᵐ r ∂randomNumbers, Rng.Valid r := valid_almost_surely
  filter_upwards [this] with r hr
  exact hlow r hr

theorem courtOf_world (k : Nat) (hk : k < 3) (wall : Material ℝ) : ∃ w : World, w.Sunlit (courtOf k wall) ∧ ∃ i hit, w.cast downRay = .ok (some (i, hit)) ∧ hit.depth = 0 ∧ w.materialAt hit.interaction.shading.side i = .ok (.plastic (Spectrum.gray (1 / 2)) 0 0) ∧
    0 < sunlightAt w (.plastic (Spectrum.gray (1 / 2)) 0 0) hit Spectrum.c0 := by
  obtain ⟨w, -, h⟩ := courtOf_world_env k hk wall
  exact ⟨w, h⟩

theorem court_world_env : ∃ w : World, w.env = realEnv ∧ w.SunlitMatt court ∧ ∃ i hit, w.cast downRay = .ok (some (i, hit)) ∧ hit.depth = 0 ∧ w.materialAt hit.interaction.shading.side i = .ok (.plastic (Spectrum.gray (1 / 2)) 0 0) ∧
    0 < sunlightAt w (.plastic (Spectrum.gray (1 / 2)) 0 0) hit Spectrum.c0 := by
  obtain ⟨w, henv, hW, h⟩ := courtOf_world_env 0 (by norm_num) (.plastic (Spectrum.gray (1 / 2)) 0 0)
  refine ⟨w, henv, ⟨hW, fun k m hk hmem => ?_⟩, h⟩
  simp only [court, courtOf, List.cons_append, List.nil_append, List.mem_cons, List.not_mem_nil, or_false, or_self] at hmem
  subst hmem
  simp only [court, courtOf, List.getElem?_cons_zero, Option.some.injEq] at hk
  exact ⟨Spectrum.gray (1 / 2), 0, by simp [← hk], by norm_num [Spectrum.Nonneg, Spectrum.gray]⟩

theorem court_world : ∃ w : World, w.SunlitMatt court ∧ ∃ i hit, w.cast downRay = .ok (some (i, hit)) ∧ hit.depth = 0 ∧ w.materialAt hit.interaction.shading.side i = .ok (.plastic (Spectrum.gray (1 / 2)) 0 0) ∧
    0 < sunlightAt w (.plastic (Spectrum.gray (1 / 2)) 0 0) hit Spectrum.c0 := by
  obtain ⟨w, -, h⟩ := court_world_env
  exact ⟨w, h⟩

/-- C119: a court with default settings; the mean is the light of the equation, positive, the same with other numbers of samples, not larger with Russian roulette, and larger `max_depth` does not remove light. -/
example : ∃ w : World, w.SunlitMatt court ∧ court.triangles.length = 2 ∧
    let mean := fun rt => ∫⁻ r, seenLight (traceRay w rt 100 ⟨r, defaultRays⟩ downRay) Spectrum.c0 ∂randomNumbers
    mean ⟨3, 10, 70, 1 / 1000, 3 / 10⟩ = reflectedLight w ⟨3, 10, 70, 1 / 1000, 3 / 10⟩ Spectrum.c0 4 downRay ∧ 0 < mean ⟨3, 10, 70, 1 / 1000, 3 / 10⟩ ∧ mean ⟨3, 10, 70, 1 / 1000, 3 / 10⟩ = mean ⟨3, 1, 1, 1 / 1000, 3 / 10⟩ ∧
    mean ⟨3, 10, 70, 1 / 1000, 3 / 10⟩ ≤ mean ⟨3, 10, 70, 0, 3 / 10⟩ ∧ mean ⟨3, 10, 70, 1 / 1000, 3 / 10⟩ ≤ mean ⟨5, 10, 70, 1 / 1000, 3 / 10⟩ ∧
    ∃ D : ℝ, mean ⟨3, 10, 70, 1 / 1000, 3 / 10⟩ ≤ ∑ j ∈ Finset.range 4, ENNReal.ofReal D * (1 / 2) ^ j := by
  obtain ⟨w, hW, i, hit, hc, hdep, hmat, hpos⟩ := court_world
  have hu : Norm downRay.geometry.direction = 1 := Norm_eq_one (by norm_num [Dot, downRay])
  have hv : 0 ≤ downRay.value := by simp [downRay, TRay.default]
  have hlen : defaultRays.length = 15 := by simp [defaultRays]
  have e := C119_mean_light hW ⟨3, 10, 70, 1 / 1000, 3 / 10⟩ (by norm_num) Spectrum.c0 (by simp) defaultRays (by rw [hlen]; decide) downRay hu hv (Nat.zero_le _) 100 (by norm_num)
  refine ⟨w, hW, rfl, e, ?_, ?_, ?_, ?_, ?_⟩
  · beta_reduce
    rw [e]
    change 0 < reflectedLight w _ Spectrum.c0 (3 + 1) downRay
    unfold reflectedLight
    simp only [hc, hmat]
    exact lt_of_lt_of_le hpos le_self_add
  · exact C119_sample_counts hW ⟨3, 10, 70, 1 / 1000, 3 / 10⟩ ⟨3, 1, 1, 1 / 1000, 3 / 10⟩ (by norm_num) (by norm_num) (by norm_num) (by norm_num) rfl rfl Spectrum.c0 (by simp) defaultRays (by rw [hlen]; decide) downRay hu hv (Nat.zero_le _) 100 (by norm_num) (by norm_num)
  · exact C119_roulette hW ⟨3, 10, 70, 1 / 1000, 3 / 10⟩ (by norm_num) Spectrum.c0 (by simp) defaultRays (by rw [hlen]; decide) downRay hu hv (Nat.zero_le _) 100 (by norm_num)
  · exact C119_more_reflections hW ⟨3, 10, 70, 1 / 1000, 3 / 10⟩ (by norm_num) 2 Spectrum.c0 (by simp) defaultRays (by rw [hlen]; decide) downRay hu hv (Nat.zero_le _) 100 (by norm_num)
  · have hm0 : ∀ (k : Nat) m, court.materials[k]? = some m → k ∈ court.front ++ court.back → m = .plastic (Spectrum.gray (1 / 2)) 0 0 := by
      intro k m hk hmem
      simp only [court, courtOf, List.cons_append, List.nil_append, List.mem_cons, List.not_mem_nil, or_false, or_self] at hmem
      subst hmem
      simp only [court, courtOf, List.getElem?_cons_zero, Option.some.injEq] at hk
      exact hk.symm
    have hhalf : ∀ (k : Nat) m, court.materials[k]? = some m → k ∈ court.front ++ court.back → ENNReal.ofReal m.colour.c0 ≤ 1 / 2 := by
      intro k m hk hmem
      rw [hm0 k m hk hmem]
      simp only [Material.colour, Spectrum.gray]
      rw [ENNReal.ofReal_div_of_pos (by norm_num)]
      simp
    obtain ⟨E, hE, hD⟩ := sunlight_bounded hW Spectrum.c0 (by simp)
    refine ⟨E, C119_energy hW ⟨3, 10, 70, 1 / 1000, 3 / 10⟩ (by norm_num) Spectrum.c0 (by simp) _ _ hhalf (fun ray i arrived m hu hc hm => ?_) defaultRays (by rw [hlen]; decide) downRay hu hv (Nat.zero_le _) 100 (by norm_num)⟩
    obtain ⟨k, hk, hmem⟩ := material_from hW.renders hm
    refine (hD ray i arrived m hu hc hm).trans ?_
    calc _ ≤ 1 * ENNReal.ofReal E := mul_le_mul' ((hhalf k m hk hmem).trans (by simp)) le_rfl
      _ = _ := one_mul _

/-- C122: the court: a solution of the equation exists, and with `max_depth` 9 and `limit_weight` 0 the mean picture misses less than a thousandth of a bound of the light. -/
example : ∃ w : World, w.SunlitMatt court ∧ ∃ L : Ray3 ℝ → ENNReal, ∃ B : ℝ, w.SolvesRenderingEquation Spectrum.c0 L ∧ (∀ g : Ray3 ℝ, Norm g.direction = 1 → L g ≤ ENNReal.ofReal B) ∧
    let mean := fun rt => ∫⁻ r, seenLight (traceRay w rt 100 ⟨r, defaultRays⟩ downRay) Spectrum.c0 ∂randomNumbers
    0 < mean ⟨9, 10, 70, 0, 3 / 10⟩ ∧ mean ⟨9, 10, 70, 0, 3 / 10⟩ ≤ L downRay.geometry ∧ L downRay.geometry ≤ mean ⟨9, 10, 70, 0, 3 / 10⟩ + ENNReal.ofReal (B / 1000) := by
  obtain ⟨w, hW, i, hit, hc, hdep, hmat, hpos⟩ := court_world
  have hu : Norm downRay.geometry.direction = 1 := Norm_eq_one (by norm_num [Dot, downRay])
  have hv : 0 ≤ downRay.value := by simp [downRay, TRay.default]
  have hlen : defaultRays.length = 15 := by simp [defaultRays]
  have hhalf : ∀ (k : Nat) m, court.materials[k]? = some m → k ∈ court.front ++ court.back → ENNReal.ofReal m.colour.c0 ≤ 1 / 2 := by
    intro k m hk hmem
    simp only [court, courtOf, List.cons_append, List.nil_append, List.mem_cons, List.not_mem_nil, or_false, or_self] at hmem
    subst hmem
    simp only [court, courtOf, List.getElem?_cons_zero, Option.some.injEq] at hk
    rw [← hk]
    simp only [Material.colour, Spectrum.gray]
    rw [ENNReal.ofReal_div_of_pos (by norm_num)]
    simp
  obtain ⟨L, B, hB, h1, h2, -, h3⟩ := C122_error hW Spectrum.c0 (by simp) (1 / 2) (by norm_num) hhalf
  obtain ⟨k1, k2⟩ := h3 ⟨9, 10, 70, 0, 3 / 10⟩ defaultRays downRay 100 (by norm_num) (by rw [hlen]; norm_num) hu hv rfl (by norm_num)
  refine ⟨w, hW, L, B.toReal, h1, fun g hg => by rw [ENNReal.ofReal_toReal hB]; exact h2 g hg, ?_, k1, (k2 (by norm_num) rfl).trans (add_le_add le_rfl ?_)⟩
  · beta_reduce
    rw [C119_mean_light hW ⟨9, 10, 70, 0, 3 / 10⟩ (by norm_num) Spectrum.c0 (by simp) defaultRays (by rw [hlen]; decide) downRay hu hv (Nat.zero_le _) 100 (by norm_num)]
    change 0 < reflectedLight w _ Spectrum.c0 (9 + 1) downRay
    unfold reflectedLight
    simp only [hc, hmat]
    exact lt_of_lt_of_le hpos le_self_add
  · have e : ENNReal.ofReal (B.toReal / 1000) = ENNReal.ofReal (1 / 1000) * B := by
      rw [div_eq_mul_one_div, mul_comm, ENNReal.ofReal_mul (by norm_num), ENNReal.ofReal_toReal hB]
    rw [e]
    refine mul_le_mul' ?_ le_rfl
    have e2 : (1 / 2 : ENNReal) = ENNReal.ofReal (1 / 2) := by rw [ENNReal.ofReal_div_of_pos (by norm_num)]; simp
    rw [e2, ← ENNReal.ofReal_pow (by norm_num)]
    exact ENNReal.ofReal_le_ofReal (by norm_num)

end Rendering
