import Verif.Props.DaylightScenes

/-!
# C73, C76: dielectric interfaces
-/

set_option linter.unusedSectionVars false
namespace Rendering

open Classical

/-- What the n² law says a ray of index `n1` sees through an interface of transmittance `T`: the radiance behind it, in a medium of index `n2`, times `T (n1/n2)²`. -/
noncomputable def radianceLaw (n1 n2 T : ℝ) : ℝ := T * (n1 / n2) ^ 2

/-- **C76, violation.** The transmitted path of a dielectric has the weight `colour · T · (n2/n1)²`, where the law is `colour · T · (n1/n2)²`: it is off by `(n2/n1)⁴`. -/
theorem C76_violation_inverted (colour : Spectrum ℝ) (r : ℝ) (n pt : Vec3 ℝ) (ray : TRay) (hn : Norm n = 1) (hv : Norm ray.geometry.direction = 1) (hside : Dot ray.geometry.direction n < 0) (hn1 : 0 < ray.refractionIndex) (hr : 0 < r)
    (hcrit : ray.refractionIndex / farIndex ray.refractionIndex r * Real.sqrt (1 - Dot ray.geometry.direction n ^ 2) < 1) :
    let n1 := ray.refractionIndex
    let n2 := farIndex n1 r
    let T := 1 - FresnelR n1 |Dot ray.geometry.direction n| n2 (Real.sqrt (1 - (n1 / n2 * Real.sqrt (1 - Dot ray.geometry.direction n ^ 2)) ^ 2))
    ∃ out w, (dielectricPaths colour r n pt ray).2 = some (out, w) ∧ w = (colour.scale (radianceLaw n1 n2 T)).scale ((n2 / n1) ^ 4) := by
  intro n1 n2 T
  have hn2 : 0 < n2 := farIndex_pos hr
  obtain ⟨R, hR, _, _, _, h2⟩ := (C47_dielectric_energy colour r n pt ray hn hv hside hn1 hr).2 hcrit
  obtain ⟨⟨out, w⟩, hp, hw⟩ := Option.map_eq_some_iff.1 h2
  refine ⟨out, w, hp, ?_⟩
  simp only at hw
  rw [hw, show 1 - R = T by rw [hR]]
  have hn1' : n1 ≠ 0 := hn1.ne'
  change colour.scale (T * (n2 / n1) ^ 2) = _
  unfold radianceLaw
  ext <;> simp only [Spectrum.scale] <;> field_simp

/-- C76: straight into glass of index 3/2 from air, the weight is 2.16, though nothing transmits more than 1; the law gives 0.4267. -/
theorem C76_violation_glass (pt : Vec3 ℝ) (ray : TRay) (hray : ray.geometry.direction = ⟨0, 0, -1⟩) (hair : ray.refractionIndex = 1) :
    ∃ out, (dielectricPaths Spectrum.one (3 / 2) ⟨0, 0, 1⟩ pt ray).2 = some (out, Spectrum.gray (216 / 100)) ∧ radianceLaw 1 (3 / 2) (1 - FresnelR 1 1 (3 / 2) 1) = 32 / 75 := by
  have hfar : farIndex (1 : ℝ) (3 / 2) = 3 / 2 := by unfold farIndex; rw [if_neg (by norm_num [abs_of_neg])]
  have hd : Dot ray.geometry.direction ⟨0, 0, 1⟩ = -1 := by rw [hray]; norm_num [Dot]
  obtain ⟨out, w, h1, h2⟩ := C76_violation_inverted Spectrum.one (3 / 2) ⟨0, 0, 1⟩ pt ray (Norm_eq_one (by norm_num [Dot])) (by rw [hray]; exact Norm_eq_one (by norm_num [Dot])) (by rw [hd]; norm_num) (by rw [hair]; norm_num)
    (by norm_num) (by rw [hd, hair, hfar]; norm_num)
  refine ⟨out, ?_, by norm_num [radianceLaw, FresnelR]⟩
  rw [h1, h2, hair, hfar, hd]
  norm_num [radianceLaw, FresnelR, Spectrum.scale, Spectrum.one, Spectrum.gray]

/-! ### C73 -/

/-- Rays that cross a hit triangle do not hit it again. -/
theorem crosses (tri : Tri ℝ) (ray : Ray3 ℝ) (b : Bary ℝ) (hd : Norm ray.direction = 1) (h : triangleIntersect tri ray = some b) (d : Vec3 ℝ)
    (hdown : Dot d (recordedInteraction tri ray b).shading.normal ≤ 0) (t : ℝ) (p : Vec3 ℝ) (u v : ℝ) :
    ¬ TolerantHit ⟨(recordedInteraction tri ray b).point - (recordedInteraction tri ray b).shading.normal.scale (1 / 10 ^ 5), d⟩ tri t p u v := by
  obtain ⟨hp, hf, hside, _, hpos, _⟩ := recorded_spec tri ray b hd h
  set n := (recordedInteraction tri ray b).shading.normal with hn
  have hperp : Dot (geometricNormal tri) (tri.b - tri.a) = 0 ∧ Dot (geometricNormal tri) (tri.c - tri.a) = 0 := by
    constructor <;> simp only [geometricNormal, Cross, Dot] <;> ring
  have hnp : ∀ x, Dot (geometricNormal tri) x = 0 → Dot (n.scale (-1)) x = 0 := by
    intro x hx
    have : Dot n x = 0 := by
      rcases hside with ⟨_, he⟩ | ⟨_, he⟩
      · rw [he, ← Vec3.dot_eq, Vec3.normalized, Vec3.dot_scale, Vec3.dot_eq, hx, mul_zero]
      · rw [he, ← Vec3.dot_eq, Vec3.dot_neg', Vec3.normalized, Vec3.dot_scale, Vec3.dot_eq, hx, mul_zero, neg_zero]
    have e : Dot (n.scale (-1)) x = -Dot n x := by simp only [Dot, Vec3.scale_x, Vec3.scale_y, Vec3.scale_z]; ring
    rw [e, this, neg_zero]
  refine not_hit_leaving tri (n.scale (-1)) _ d (hnp _ hperp.1) (hnp _ hperp.2) ?_ ?_ t p u v
  · obtain ⟨⟨_, _, h3, _⟩, _⟩ := baricentric_sound ray tri b h
    have e1 : Dot (n.scale (-1)) (b.p - n.scale (1 / 10 ^ 5) - tri.a) = b.u * Dot (n.scale (-1)) (tri.b - tri.a) + b.v * Dot (n.scale (-1)) (tri.c - tri.a) + 1 / 10 ^ 5 * Dot n n := by
      rw [h3]; simp only [Dot, Vec3.add_x, Vec3.add_y, Vec3.add_z, Vec3.sub_x, Vec3.sub_y, Vec3.sub_z, Vec3.scale_x, Vec3.scale_y, Vec3.scale_z]; ring
    rw [hp, e1, hnp _ hperp.1, hnp _ hperp.2, Dot_self_of_norm hf.n3]
    norm_num
  · have e : Dot (n.scale (-1)) d = -Dot d n := by simp only [Dot, Vec3.scale_x, Vec3.scale_y, Vec3.scale_z]; ring
    rw [e]; linarith

/-- **C73, violation.** A ray carrying `colour` arrives at a dielectric triangle with nothing else in the scene. The reflected part brings `colour · R`; the transmitted part brings `colour · tint² · (1 − R)(n2/n1)²`: the tint
is applied twice at one crossing. -/
theorem C73_violation_tint_squared (w : World) (tint : Spectrum ℝ) (r : ℝ) (hr : 0 < r) (tri : Tri ℝ) (hw : w.Shows (.dielectric tint r) [tri]) (dc : DcFactory) (hbin : ∀ d, Norm d = 1 → dc.dirToBin d < dc.nBins)
    (ray : TRay) (hd : Norm ray.geometry.direction = 1) (hdep : ray.depth ≤ dc.maxDepth) (hn1 : 0 < ray.refractionIndex) (d2 : ℝ) (hv : VisibleHit ray.geometry tri d2) (hin : InRange d2)
    (hcrit : ray.refractionIndex / farIndex ray.refractionIndex r * Real.sqrt (1 - Dot ray.geometry.direction (unitNormal tri) ^ 2) < 1)
    (st : DState) (hrow : st.contribution.IsRow dc.nBins) (fuel : Nat) :
    let n1 := ray.refractionIndex
    let n2 := farIndex n1 r
    let R := FresnelR n1 |Dot ray.geometry.direction (unitNormal tri)| n2 (Real.sqrt (1 - (n1 / n2 * Real.sqrt (1 - Dot ray.geometry.direction (unitNormal tri) ^ 2)) ^ 2))
    ∃ ray' st', dcTraceRay w dc (fuel + 2) st ray = .ok (ray', st') ∧
      st'.contribution.total = st.contribution.total + (ray.colour.scale R).divBy dc.nAmbientSamples + (ray.colour * (tint * tint).scale ((1 - R) * (n2 / n1) ^ 2)).divBy dc.nAmbientSamples := by
  intro n1 n2 R
  have hR := hw.renders (m := .dielectric tint r) rfl (by norm_num)
  obtain ⟨tri', htri, b, hb, _, _, ⟨i, hcast, hmat, hnor⟩, _⟩ := hw.step (m := .dielectric tint r) rfl (by norm_num) ray hd ⟨tri, by simp, d2, hv, hin⟩
  rw [List.mem_singleton] at htri
  subst htri
  obtain ⟨_, hframe, hside, hneg, _⟩ := recorded_spec tri' ray.geometry b hd hb
  set n := (recordedInteraction tri' ray.geometry b).shading.normal with hn
  set pt := (recordedInteraction tri' ray.geometry b).point with hpt
  have hdot : Dot ray.geometry.direction n < 0 := by rw [Dot_comm]; exact hneg
  have hsq : Dot ray.geometry.direction n ^ 2 = Dot ray.geometry.direction (unitNormal tri') ^ 2 ∧ |Dot ray.geometry.direction n| = |Dot ray.geometry.direction (unitNormal tri')| := by
    rcases hside with ⟨_, he⟩ | ⟨_, he⟩
    · rw [he]; exact ⟨rfl, rfl⟩
    · have : Dot ray.geometry.direction n = -Dot ray.geometry.direction (unitNormal tri') := by
        rw [he]; simp only [Dot, unitNormal, Vec3.neg_x, Vec3.neg_y, Vec3.neg_z]; ring
      rw [this]; exact ⟨by ring, abs_neg _⟩
  have hgeo : (ray.arrived tri' b).geometry = ray.geometry := rfl
  have hcr : (ray.arrived tri' b).refractionIndex / farIndex (ray.arrived tri' b).refractionIndex r * Real.sqrt (1 - Dot (ray.arrived tri' b).geometry.direction n ^ 2) < 1 := by
    rw [hgeo, hsq.1]; exact hcrit
  obtain ⟨R', hR', _, _, h1, h2⟩ := (C47_dielectric_energy tint r n pt (ray.arrived tri' b) hframe.n3 hd hdot hn1 hr).2 hcr
  have hRR : R' = R := by
    rw [hR', hgeo, hsq.1, hsq.2]; rfl
  rw [hRR] at h1 h2
  obtain ⟨⟨ray1, w1⟩, hp1, hw1⟩ := Option.map_eq_some_iff.1 h1
  obtain ⟨⟨ray2, w2⟩, hp2, hw2⟩ := Option.map_eq_some_iff.1 h2
  simp only at hw1 hw2
  have hg1 : ray1.geometry = ⟨pt + n.scale (1 / 10 ^ 5), mirrorDirection ray.geometry.direction n⟩ ∧ ray1.colour = ray.colour := by
    unfold dielectricPaths at hp1
    simp only [Option.some.injEq, Prod.mk.injEq] at hp1
    rw [← hp1.1]
    exact ⟨rfl, rfl⟩
  have hg2 : ray2.geometry.origin = pt - n.scale (1 / 10 ^ 5) ∧ ray2.colour = ray.colour * tint := by
    unfold dielectricPaths at hp2
    simp only at hp2
    cases hc : (cosAndN (ray.arrived tri' b) n r).2.2.2 with
    | none => rw [hc] at hp2; simp at hp2
    | some cos2 =>
      rw [hc] at hp2
      simp only [Option.some.injEq, Prod.mk.injEq] at hp2
      rw [← hp2.1]
      exact ⟨rfl, rfl⟩
  obtain ⟨t1, t2, _⟩ := C45_transmitted_path tint r n pt (ray.arrived tri' b) hframe.n3 hd hdot hn1 hr ray2 w2 hp2
  obtain ⟨m1, m2, _⟩ := C43_mirror_direction ray.geometry.direction n hframe.n3 hd
  have hmiss : ∀ (s' : DState) (q : TRay), (∀ t p u v, ¬ TolerantHit q.geometry tri' t p u v) → dcTraceRay w dc (fuel + 1) s' q = dcMissStep dc q s' := by
    intro s' q hq
    have : w.cast q = .ok none := by
      refine hR.cast_none q ?_
      intro t ht tt p u v hth
      simp only [List.mem_singleton] at ht
      subst ht
      exact absurd hth (hq tt p u v)
    rw [dcTraceRay]
    simp only [this, Res.bind_ok]
  have hmiss1 : ∀ t p u v, ¬ TolerantHit ray1.geometry tri' t p u v := by
    intro t p u v
    rw [hg1.1]
    exact leaves tri' ray.geometry b hd hb _ (by rw [← hn, m2]; linarith) t p u v
  have hmiss2 : ∀ t p u v, ¬ TolerantHit ray2.geometry tri' t p u v := by
    intro t p u v
    have e : ray2.geometry = ⟨pt - n.scale (1 / 10 ^ 5), ray2.geometry.direction⟩ := by rw [← hg2.1]
    rw [e]
    exact crosses tri' ray.geometry b hd hb _ t2 t p u v
  -- the two children
  have hchild : ∀ (q : TRay) (wt : Spectrum ℝ) (s' : DState) (rest : List (TRay × Spectrum ℝ)), s'.contribution.IsRow dc.nBins → Norm q.geometry.direction = 1 → (∀ t p u v, ¬ TolerantHit q.geometry tri' t p u v) →
      ∃ s'', dcSpecularLoop (dcTraceRay w dc (fuel + 1)) dc.countSpecularBounce ((q, wt) :: rest) s' = dcSpecularLoop (dcTraceRay w dc (fuel + 1)) dc.countSpecularBounce rest s'' ∧ s''.contribution.IsRow dc.nBins ∧
        s''.contribution.total = s'.contribution.total + (q.colour * wt).divBy dc.nAmbientSamples := by
    intro q wt s' rest hs' hq1 hq2
    rw [dcSpecularLoop]
    simp only [Rng.gen]
    have hcase : ∀ q' : TRay, q'.geometry = q.geometry → q'.colour = q.colour * wt → ∃ s'', ((dcTraceRay w dc (fuel + 1) { s' with rng := fun k => s'.rng (k + 1) } q').bind fun x => dcSpecularLoop (dcTraceRay w dc (fuel + 1)) dc.countSpecularBounce rest x.2) =
        dcSpecularLoop (dcTraceRay w dc (fuel + 1)) dc.countSpecularBounce rest s'' ∧ s''.contribution.IsRow dc.nBins ∧ s''.contribution.total = s'.contribution.total + (q.colour * wt).divBy dc.nAmbientSamples := by
      intro q' hg hc
      rw [hmiss _ _ (by rw [hg]; exact hq2)]
      obtain ⟨c, hc1, hc2, hc3⟩ := dcMiss_total dc q' { s' with rng := fun k => s'.rng (k + 1) } hs' (by rw [hg]; exact hbin _ hq1)
      rw [hc1, Res.bind_ok]
      exact ⟨_, rfl, hc2, by rw [hc3, hc]⟩
    by_cases hq : s'.rng 0 < dc.countSpecularBounce
    · simp only [hq, if_true]
      exact hcase _ rfl rfl
    · simp only [hq, if_false]
      exact hcase _ rfl rfl
  obtain ⟨s1, l1, l2, l3⟩ := hchild ray1 w1 st [(ray2, w2)] hrow (by rw [hg1.1]; exact m1) hmiss1
  obtain ⟨s2, k1, k2, k3⟩ := hchild ray2 w2 s1 [] l2 t1 hmiss2
  refine ⟨ray.arrived tri' b, s2, ?_, ?_⟩
  · rw [dcTraceRay]
    simp only [hcast, Res.bind_ok]
    have hnd : ¬ (ray.arrived tri' b).depth > dc.maxDepth := by
      change ¬ ray.depth > dc.maxDepth
      omega
    rw [if_neg hnd]
    unfold dcSurfaceStep
    have hna : (ray.arrived tri' b).interaction.shading.side ≠ .NonApplicable := by
      rcases hside with ⟨hs, _⟩ | ⟨hs, _⟩
      · show (recordedInteraction tri' ray.geometry b).shading.side ≠ _; rw [hs]; decide
      · show (recordedInteraction tri' ray.geometry b).shading.side ≠ _; rw [hs]; decide
    rw [if_neg hna, hmat, Res.bind_ok]
    simp only [hnd, Material.emitsDirectLight, Material.specularOnly, Bool.false_eq_true, or_self, if_false, if_true, hnor, Res.ofOption_some, Res.bind_ok]
    have hit := interp_recorded tri' ray.geometry b hd hb
    have harr : ({ geometry := (ray.arrived tri' b).geometry, refractionIndex := (ray.arrived tri' b).refractionIndex, interaction := (ray.arrived tri' b).interaction.interpolateNormal (unitNormal tri') (unitNormal tri') (unitNormal tri'), depth := (ray.arrived tri' b).depth, value := (ray.arrived tri' b).value, colour := (ray.arrived tri' b).colour } : TRay) = ray.arrived tri' b := by
      simp only [TRay.arrived, hit]
    rw [harr]
    have hpaths : Material.getPossiblePaths (.dielectric tint r) (ray.arrived tri' b).getTriad.2.1 (ray.arrived tri' b).getTriad.1 (ray.arrived tri' b) = .ok (some (ray1, w1), some (ray2, w2)) := by
      change Res.ok (dielectricPaths tint r n pt (ray.arrived tri' b)) = _
      rw [← hp1, ← hp2]
    rw [hpaths, Res.bind_ok]
    have hl : Paths.toList (some (ray1, w1), some (ray2, w2)) = [(ray1, w1), (ray2, w2)] := rfl
    rw [hl, l1, k1]
    rfl
  · rw [k3, l3, hw1, hw2, hg1.2, hg2.2]
    change st.contribution.total + (ray.colour * Spectrum.gray R).divBy dc.nAmbientSamples + (ray.colour * tint * tint.scale ((1 - R) * (n2 / n1) ^ 2)).divBy dc.nAmbientSamples = _
    generalize (1 - R) * (n2 / n1) ^ 2 = x
    ext <;> simp [Spectrum.scale, Spectrum.divBy, Spectrum.gray] <;> ring

/-- C73: the hypotheses are met by a ray straight down onto a floor of index 3/2 with a red tint. -/
example (dc : DcFactory) (hbin : ∀ d, Norm d = 1 → dc.dirToBin d < dc.nBins) (rng : Rng) : ∃ w : World, ∃ ray' st', dcTraceRay w dc 2 ⟨rng, defaultRays, dc.blank⟩ downRay = .ok (ray', st') ∧
    st'.contribution.total = (⟨1 / 25 + 27 / 50, 1 / 25, 1 / 25⟩ : Spectrum ℝ).divBy dc.nAmbientSamples := by
  obtain ⟨w, hw, _⟩ := shows_exists (.dielectric ⟨1 / 2, 0, 0⟩ (3 / 2)) rfl [plane 0] none
  have hfar : farIndex (1 : ℝ) (3 / 2) = 3 / 2 := by unfold farIndex; rw [if_neg (by norm_num [abs_of_neg])]
  have hdot : Dot downRay.geometry.direction (unitNormal (plane 0)) = -1 := by rw [plane_normal]; norm_num [Dot, downRay]
  have hidx : downRay.refractionIndex = 1 := rfl
  obtain ⟨ray', st', h1, h2⟩ := C73_violation_tint_squared w ⟨1 / 2, 0, 0⟩ (3 / 2) (by norm_num) (plane 0) hw dc hbin downRay (Norm_eq_one (by norm_num [Dot, downRay])) (Nat.zero_le _) (by rw [hidx]; norm_num) _ downRay_visible
    downRay_inRange (by rw [hdot, hidx, hfar]; norm_num) ⟨rng, defaultRays, dc.blank⟩ dc.blank_isRow 0
  refine ⟨w, ray', st', h1, ?_⟩
  rw [h2, hdot, hidx, hfar, dc.blank_total, spectrum_black_add]
  ext <;> norm_num [FresnelR, Spectrum.scale, Spectrum.divBy, downRay, TRay.default, Spectrum.one, Spectrum.gray, ← add_div] <;> ring

/-- C76: the sloping ray enters glass. -/
theorem slopingRay_enters : slopingRay.refractionIndex / farIndex slopingRay.refractionIndex (3 / 2) * Real.sqrt (1 - Dot slopingRay.geometry.direction ⟨0, 0, 1⟩ ^ 2) < 1 := by
  have hfar : farIndex slopingRay.refractionIndex (3 / 2) = 3 / 2 := by norm_num [farIndex, slopingRay]
  have hdot : Dot slopingRay.geometry.direction ⟨0, 0, 1⟩ = -(4 / 5) := by norm_num [Dot, slopingRay]
  have hs : Real.sqrt (1 - (-(4 / 5 : ℝ)) ^ 2) = 3 / 5 := by
    rw [show (1 - (-(4 / 5 : ℝ)) ^ 2) = (3 / 5) ^ 2 by norm_num]; exact Real.sqrt_sq (by norm_num)
  rw [hfar, hdot, hs, slopingRay_air]
  norm_num

example := C76_violation_inverted Spectrum.one (3 / 2) ⟨0, 0, 1⟩ 0 slopingRay up_unit slopingRay_unit slopingRay_down (by norm_num [slopingRay]) (by norm_num) slopingRay_enters

example := C76_violation_glass 0 { TRay.default with geometry := ⟨0, ⟨0, 0, -1⟩⟩, refractionIndex := 1 } rfl rfl

end Rendering
