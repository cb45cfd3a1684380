import Verif.Props.Uniformity
import Verif.Props.Ward

/-!
# C97: sampling a reflecting surface estimates the light it reflects

The tracers multiply the light found along a sampled direction by `bsdf * cos / pdf`.  The mean of that product over the random draws should be the reflected radiance, the integral of
incoming radiance times BSDF times cosine over the hemisphere.
-/

set_option linter.unusedSectionVars false
namespace Rendering

open MeasureTheory Set

/-- The direction with coordinates `l` in the basis of the surface. -/
def worldOf (e1 e2 n l : Vec3 ℝ) : Vec3 ℝ := e1.scale l.x + e2.scale l.y + n.scale l.z

/-- What one sample contributes when the light arriving along direction `v` is `L v` (/repo/src/ray_tracer.rs:322-349, /repo/src/daylight_coefficients.rs:255-266): one channel of `L * bsdf * |cos| / pdf`. -/
noncomputable def sampleEstimate (m : Material ℝ) (fuel : Nat) (n e1 e2 pt : Vec3 ℝ) (ray : TRay) (ch : Spectrum ℝ → ℝ) (L : Vec3 ℝ → ENNReal) (rng : Rng) : ENNReal :=
  match m.sampleBsdf fuel n e1 e2 pt ray rng with
  | .ok ((bsdf, pdf), ray', _) => L ray'.geometry.direction * ENNReal.ofReal (ch ((bsdf.scale |Dot n ray'.geometry.direction|).divBy pdf))
  | _ => 0

/-- The reflected radiance: the integral of incoming radiance times BSDF times cosine. -/
noncomputable def reflectedRadiance (dt : DirTests) (m : Material ℝ) (n e1 e2 : Vec3 ℝ) (ray : TRay) (ch : Spectrum ℝ → ℝ) (L : Vec3 ℝ → ENNReal) : ENNReal :=
  irradiance fun l => L (worldOf e1 e2 n l) * (match m.evalBsdf dt n e1 e2 ray (worldOf e1 e2 n l) with | .ok b => ENNReal.ofReal (ch b) | _ => 0)

theorem world_eq (e1 e2 n : Vec3 ℝ) (x y z : ℝ) : localToWorld e1 e2 n 0 x y z = worldOf e1 e2 n ⟨x, y, z⟩ := by
  ext <;> simp [localToWorld, worldOf, Vec3.scale] <;> ring

theorem measurable_world {L : Vec3 ℝ → ENNReal} (hL : MeasurableFn3 L) (e1 e2 n : Vec3 ℝ) : MeasurableFn3 fun l => L (worldOf e1 e2 n l) := by
  have hm : Measurable fun p : ℝ × ℝ × ℝ => (e1.x * p.1 + e2.x * p.2.1 + n.x * p.2.2, e1.y * p.1 + e2.y * p.2.1 + n.y * p.2.2, e1.z * p.1 + e2.z * p.2.1 + n.z * p.2.2) := by fun_prop
  exact Measurable.comp (g := fun p : ℝ × ℝ × ℝ => L ⟨p.1, p.2.1, p.2.2⟩) hL hm

/-- The generator whose next draws are `q`, `d.1`, `d.2`. -/
def Rng.cons3 (q : ℝ) (d : ℝ × ℝ) (rest : Rng) : Rng := (rest.cons2 d).cons q

theorem sampleWard_matt (fuel : Nat) (s r : ℝ) (n e1 e2 pt : Vec3 ℝ) (hf : Frame e1 e2 n) (ray : TRay) (rng : Rng) (hv : rng.Valid) (hs : s ≤ rng 0) :
    ∃ rng' z, 0 < z ∧ Dot n (worldOf e1 e2 n (sampleCosineHemisphere (fun k => rng (k + 1))).1) = z ∧
    sampleWard fuel n e1 e2 pt s r r ray rng = .ok ((0, (1 - s) / Real.pi, z / Real.pi),
      { ray with geometry := ⟨pt + n.scale (1 / 10 ^ 5), worldOf e1 e2 n (sampleCosineHemisphere (fun k => rng (k + 1))).1⟩ }, rng') := by
  obtain ⟨g1, g2, -⟩ := C55_cosine_hemisphere (fun k => rng (k + 1)) (fun k => hv (k + 1))
  set d := (sampleCosineHemisphere (fun k => rng (k + 1))).1 with hd
  have hd2 : d.x ^ 2 + d.y ^ 2 + d.z ^ 2 = 1 := by
    have := Dot_self_of_norm g1; simp only [Dot] at this; nlinarith
  obtain ⟨w1, w2⟩ := world_unit hf hd2
  have hw : localToWorld e1 e2 n 0 d.x d.y d.z = worldOf e1 e2 n d := world_eq e1 e2 n d.x d.y d.z
  rw [hw] at w1 w2
  have hnorm : (worldOf e1 e2 n d).normalized = worldOf e1 e2 n d := by
    rw [normalized_eq, w1]; ext <;> simp
  have hcos : Dot n (worldOf e1 e2 n d) = d.z := by rw [Dot_comm]; exact w2
  refine ⟨fun k => rng (k + 3), d.z, g2, hcos, ?_⟩
  unfold sampleWard
  simp only [Rng.gen]
  have hns : ¬ rng 0 < s := not_lt.2 hs
  simp only [hns, if_false, ← hd, hw, hnorm, Vec3.dot_eq, hcos]
  rfl

theorem cons3_valid {q : ℝ} {d : ℝ × ℝ} {rest : Rng} (hr : rest.Valid) (hq : q ∈ Ico (0 : ℝ) 1) (hd : d ∈ openSquare) : (rest.cons3 q d).Valid := by
  intro k
  match k with
  | 0 => exact ⟨hq.1, hq.2⟩
  | 1 => exact ⟨hd.1.1.le, hd.1.2⟩
  | 2 => exact ⟨hd.2.1.le, hd.2.2⟩
  | k + 3 => exact hr k

/-- With the first draw at least the specularity the sampler's mean is `1 - s` times the matt reflection. -/
theorem matt_mean (fuel : Nat) (c : Spectrum ℝ) (s r : ℝ) (n e1 e2 pt : Vec3 ℝ) (hf : Frame e1 e2 n) (ray : TRay) (rest : Rng) (hr : rest.Valid)
    (L : Vec3 ℝ → ENNReal) (hL : MeasurableFn3 L) (q : ℝ) (hq : q ∈ Ico (0 : ℝ) 1) (hs : s ≤ q) :
    ∀ m ∈ [Material.plastic c s r, Material.metal c s r], ∀ ch ∈ [Spectrum.c0, Spectrum.c1, Spectrum.c2],
      Mean (fun d => sampleEstimate m fuel n e1 e2 pt ray ch L (rest.cons3 q d)) = irradiance (fun l => L (worldOf e1 e2 n l)) / ENNReal.ofReal Real.pi * ENNReal.ofReal (ch c * (1 - s)) := by
  intro m hm ch hch
  have hmean := C78_cosine_mean rest (fun l => L (worldOf e1 e2 n l)) (measurable_world hL e1 e2 n)
  rw [← hmean]
  refine Eq.trans ?_ (lintegral_mul_const' _ _ ENNReal.ofReal_ne_top)
  refine mean_congr fun d hd => ?_
  obtain ⟨rng', z, hz, hcos, hw⟩ := sampleWard_matt fuel s r n e1 e2 pt hf ray (rest.cons3 q d) (cons3_valid hr hq hd) hs
  have e : (fun k => rest.cons3 q d (k + 1)) = rest.cons2 d := by funext k; rfl
  rw [e] at hcos hw
  have hpi := Real.pi_pos
  simp only [List.mem_cons, List.not_mem_nil, or_false] at hm hch
  unfold sampleEstimate
  rcases hm with rfl | rfl
  · simp only [Material.sampleBsdf, hw, Res.bind_ok, hcos, abs_of_pos hz]
    congr 2
    rcases hch with rfl | rfl | rfl <;> simp [plasticBsdf, Spectrum.scale, Spectrum.divBy, Spectrum.gray] <;> field_simp
  · simp only [Material.sampleBsdf, hw, Res.bind_ok, hcos, abs_of_pos hz]
    congr 2
    rcases hch with rfl | rfl | rfl <;> simp [metalBsdf, Spectrum.scale, Spectrum.divBy] <;> field_simp

theorem eval_ge (dt : DirTests) (c : Spectrum ℝ) (s r : ℝ) (n e1 e2 v : Vec3 ℝ) (ray : TRay) (hs : 0 ≤ s) (hside : Dot ray.geometry.direction n ≤ 0) :
    ∃ p, 0 ≤ p ∧ (s = 0 → p = 0) ∧ (Material.plastic c s r).evalBsdf dt n e1 e2 ray v = .ok (plasticBsdf c p ((1 - s) / Real.pi)) ∧
      (Material.metal c s r).evalBsdf dt n e1 e2 ray v = .ok (metalBsdf c p ((1 - s) / Real.pi)) := by
  by_cases h5 : s > 1 / 10 ^ 5
  · set α := clampRoughness r with hα
    have hαpos : 0 < α := clampRoughness_pos r
    refine ⟨s * (v.scale (-1) - ray.geometry.direction).dot (v.scale (-1) - ray.geometry.direction) / (Real.pi * α * α * (v.scale (-1) - ray.geometry.direction).dot n ^ 4) *
      Real.exp (-(((v.scale (-1) - ray.geometry.direction).dot e1 / α) ^ 2 + ((v.scale (-1) - ray.geometry.direction).dot e2 / α) ^ 2) / (v.scale (-1) - ray.geometry.direction).dot n ^ 2), ?_, ?_, ?_⟩
    · have := Real.pi_pos
      have hq : 0 ≤ (v.scale (-1) - ray.geometry.direction).dot (v.scale (-1) - ray.geometry.direction) := by
        simp only [Vec3.dot_eq, Dot]; nlinarith [sq_nonneg (v.scale (-1) - ray.geometry.direction).x, sq_nonneg (v.scale (-1) - ray.geometry.direction).y, sq_nonneg (v.scale (-1) - ray.geometry.direction).z]
      positivity
    · intro h0; rw [h0] at h5; norm_num at h5
    · have hside' : ¬ ray.geometry.direction.dot n > 0 := by rw [Vec3.dot_eq]; exact not_lt.2 hside
      simp only [Material.evalBsdf, evaluateWard, h5, if_true, hside', if_false, ← hα, and_self]
  · refine ⟨0, le_refl _, fun _ => rfl, ?_⟩
    simp only [Material.evalBsdf, evaluateWard, h5, if_false, and_self]

/-- **C97, matt surfaces.** For a surface without specular part, and whatever light `L` falls on it, the mean of the estimate over the random draws is exactly the reflected radiance. -/
theorem C97_matt_unbiased (dt : DirTests) (fuel : Nat) (c : Spectrum ℝ) (r : ℝ) (n e1 e2 pt : Vec3 ℝ) (hf : Frame e1 e2 n) (ray : TRay) (hside : Dot ray.geometry.direction n ≤ 0) (rest : Rng) (hr : rest.Valid)
    (L : Vec3 ℝ → ENNReal) (hL : MeasurableFn3 L) :
    ∀ m ∈ [Material.plastic c 0 r, Material.metal c 0 r], ∀ ch ∈ [Spectrum.c0, Spectrum.c1, Spectrum.c2],
      Mean3 (fun q d => sampleEstimate m fuel n e1 e2 pt ray ch L (rest.cons3 q d)) = reflectedRadiance dt m n e1 e2 ray ch L := by
  intro m hm ch hch
  have h1 : Mean3 (fun q d => sampleEstimate m fuel n e1 e2 pt ray ch L (rest.cons3 q d)) = irradiance (fun l => L (worldOf e1 e2 n l)) / ENNReal.ofReal Real.pi * ENNReal.ofReal (ch c * (1 - 0)) := by
    unfold Mean3
    rw [setLIntegral_congr_fun measurableSet_Ico (fun q hq => matt_mean fuel c 0 r n e1 e2 pt hf ray rest hr L hL q hq hq.1 m hm ch hch), setLIntegral_const, Real.volume_Ico]
    norm_num
  rw [h1]
  have hb : ∀ v, m.evalBsdf dt n e1 e2 ray v = .ok (c.scale (1 / Real.pi)) := by
    intro v
    obtain ⟨p, -, hp0, hp1, hp2⟩ := eval_ge dt c 0 r n e1 e2 v ray le_rfl hside
    rw [hp0 rfl] at hp1 hp2
    simp only [List.mem_cons, List.not_mem_nil, or_false] at hm
    rcases hm with rfl | rfl
    · rw [hp1]; congr 1; ext <;> simp [plasticBsdf, Spectrum.scale, Spectrum.gray]
    · rw [hp2]; congr 1; ext <;> simp [metalBsdf, Spectrum.scale]
  unfold reflectedRadiance
  simp only [hb]
  have hc : ch (c.scale (1 / Real.pi)) = ch c * (1 / Real.pi) := by
    simp only [List.mem_cons, List.not_mem_nil, or_false] at hch
    rcases hch with rfl | rfl | rfl <;> simp [Spectrum.scale]
  rw [hc]
  unfold irradiance
  have hpi := Real.pi_pos
  rw [sub_zero, mul_one, ENNReal.ofReal_mul' (by positivity), div_eq_mul_inv, mul_assoc, ← ENNReal.ofReal_inv_of_pos hpi, one_div, mul_comm (ENNReal.ofReal (ch c)), ← lintegral_mul_const' _ _ (ENNReal.mul_ne_top ENNReal.ofReal_ne_top ENNReal.ofReal_ne_top)]
  refine lintegral_congr fun p => ?_
  ring

/-- The specular branch never leaves the plane of incidence. -/
theorem wardLoop_plane (n e1 e2 : Vec3 ℝ) (s α β : ℝ) (ray : TRay) (fuel : Nat) : ∀ (rng : Rng) x ray' rng', wardLoop n e1 e2 s α β ray fuel rng = .ok (x, ray', rng') →
    Dot ray'.geometry.direction (Cross n ray.geometry.direction) = 0 := by
  induction fuel with
  | zero => intro rng x ray' rng' h; simp [wardLoop] at h
  | succ fuel ih =>
    intro rng x ray' rng' h
    unfold wardLoop at h
    simp only [Rng.gen2] at h
    have e : ∃ k, (wardHalf n e1 e2 (ray.geometry.direction.scale (-1)) α β (rng 0) (rng 1)) = ray.geometry.direction.scale (-1) + n.scale k := ⟨_, rfl⟩
    obtain ⟨k, hk⟩ := e
    by_cases h1 : (wardHalf n e1 e2 (ray.geometry.direction.scale (-1)) α β (rng 0) (rng 1)).normalized.dot n > 0 ∨ (ray.geometry.direction.scale (-1)).dot n > 0
    · simp only [h1, if_true] at h
      by_cases h2 : wardIsNaN n s ray.geometry.direction ((wardHalf n e1 e2 (ray.geometry.direction.scale (-1)) α β (rng 0) (rng 1)).normalized.scale (-1)) ∨ (wardHalf n e1 e2 (ray.geometry.direction.scale (-1)) α β (rng 0) (rng 1)) = 0
      · simp only [h2, if_true] at h; cases h
      · simp only [h2, if_false] at h
        cases h
        change Dot (wardHalf n e1 e2 (ray.geometry.direction.scale (-1)) α β (rng 0) (rng 1)).normalized (Cross n ray.geometry.direction) = 0
        rw [normalized_eq, hk]
        simp only [Dot, Cross, Vec3.scale_x, Vec3.scale_y, Vec3.scale_z, Vec3.add_x, Vec3.add_y, Vec3.add_z]
        ring
    · simp only [h1, if_false] at h
      exact ih _ _ _ _ h

/-- For light that does not come from within the plane of incidence (a null set of directions), samples of the specular branch contribute nothing. -/
theorem specular_zero (fuel : Nat) (c : Spectrum ℝ) (s r : ℝ) (n e1 e2 pt : Vec3 ℝ) (ray : TRay) (ch : Spectrum ℝ → ℝ)
    (L : Vec3 ℝ → ENNReal) (hplane : ∀ v, Dot v (Cross n ray.geometry.direction) = 0 → L v = 0) (rng : Rng) (hq : rng 0 < s) :
    ∀ m ∈ [Material.plastic c s r, Material.metal c s r], sampleEstimate m fuel n e1 e2 pt ray ch L rng = 0 := by
  have key : ∀ x ray' rng', sampleWard fuel n e1 e2 pt s r r ray rng = .ok (x, ray', rng') → L ray'.geometry.direction = 0 := by
    intro x ray' rng' h
    unfold sampleWard at h
    simp only [Rng.gen, hq, if_true] at h
    exact hplane _ (wardLoop_plane _ _ _ _ _ _ { ray with geometry := { ray.geometry with origin := pt + n.scale (1 / 10 ^ 5) } } _ _ _ _ _ h)
  intro m hm
  simp only [List.mem_cons, List.not_mem_nil, or_false] at hm
  unfold sampleEstimate
  rcases hw : sampleWard fuel n e1 e2 pt s r r ray rng with ⟨⟨⟨a, b, w⟩, ray', rng'⟩⟩ | _ | _
  · rcases hm with rfl | rfl <;> simp [Material.sampleBsdf, hw, key _ _ _ hw]
  · rcases hm with rfl | rfl <;> simp [Material.sampleBsdf, hw, Res.bind]
  · rcases hm with rfl | rfl <;> simp [Material.sampleBsdf, hw, Res.bind]

/-- The mean estimate of a surface with specularity `s`, for light from outside the plane of incidence: `(1 - s)²` of the full matt reflection; the specular part contributes nothing. -/
theorem C97_glossy_mean_partial (fuel : Nat) (c : Spectrum ℝ) (s r : ℝ) (hs0 : 0 ≤ s) (hs1 : s ≤ 1) (n e1 e2 pt : Vec3 ℝ) (hf : Frame e1 e2 n) (ray : TRay) (rest : Rng) (hr : rest.Valid)
    (L : Vec3 ℝ → ENNReal) (hL : MeasurableFn3 L) (hplane : ∀ v, Dot v (Cross n ray.geometry.direction) = 0 → L v = 0) :
    ∀ m ∈ [Material.plastic c s r, Material.metal c s r], ∀ ch ∈ [Spectrum.c0, Spectrum.c1, Spectrum.c2],
      Mean3 (fun q d => sampleEstimate m fuel n e1 e2 pt ray ch L (rest.cons3 q d)) = irradiance (fun l => L (worldOf e1 e2 n l)) / ENNReal.ofReal Real.pi * ENNReal.ofReal (ch c * (1 - s) ^ 2) := by
  intro m hm ch hch
  unfold Mean3
  have hsplit : Ico (0 : ℝ) 1 = Ico 0 s ∪ Ico s 1 := (Ico_union_Ico_eq_Ico hs0 hs1).symm
  rw [hsplit, lintegral_union measurableSet_Ico (Ico_disjoint_Ico_same)]
  rw [setLIntegral_congr_fun (s := Ico s 1) measurableSet_Ico (fun q hq => matt_mean fuel c s r n e1 e2 pt hf ray rest hr L hL q ⟨hs0.trans hq.1, hq.2⟩ hq.1 m hm ch hch), setLIntegral_const, Real.volume_Ico]
  have hz : ∫⁻ q in Ico (0 : ℝ) s, Mean (fun d => sampleEstimate m fuel n e1 e2 pt ray ch L (rest.cons3 q d)) = ∫⁻ q in Ico (0 : ℝ) s, 0 := by
    refine setLIntegral_congr_fun measurableSet_Ico fun q hq => ?_
    have : ∀ d ∈ openSquare, sampleEstimate m fuel n e1 e2 pt ray ch L (rest.cons3 q d) = (fun _ => (0 : ENNReal)) d :=
      fun d _ => specular_zero fuel c s r n e1 e2 pt ray ch L hplane _ hq.2 m hm
    rw [mean_congr this]
    unfold Mean
    exact lintegral_zero
  rw [hz, lintegral_zero, zero_add, mul_assoc, ← ENNReal.ofReal_mul' (by linarith)]
  congr 2
  ring

/-- **C97, violated: glossy surfaces are too dark.** Whatever the light (outside the plane of incidence) that falls on a surface with specularity strictly between 0 and 1, the mean estimate is less than the reflected radiance:
the sampler chooses between its branches at random but does not divide by the probability of its choice, and the samples of the specular branch all lie in the plane of incidence. -/
theorem C97_violation_glossy (dt : DirTests) (fuel : Nat) (c : Spectrum ℝ) (s r : ℝ) (hs0 : 0 < s) (hs1 : s < 1) (n e1 e2 pt : Vec3 ℝ) (hf : Frame e1 e2 n) (ray : TRay) (hside : Dot ray.geometry.direction n ≤ 0) (rest : Rng) (hr : rest.Valid)
    (L : Vec3 ℝ → ENNReal) (hL : MeasurableFn3 L) (hplane : ∀ v, Dot v (Cross n ray.geometry.direction) = 0 → L v = 0)
    (hpos : irradiance (fun l => L (worldOf e1 e2 n l)) ≠ 0) (hfin : irradiance (fun l => L (worldOf e1 e2 n l)) ≠ ⊤) :
    ∀ m ∈ [Material.plastic c s r, Material.metal c s r], ∀ ch ∈ [Spectrum.c0, Spectrum.c1, Spectrum.c2], 0 < ch c →
      Mean3 (fun q d => sampleEstimate m fuel n e1 e2 pt ray ch L (rest.cons3 q d)) < reflectedRadiance dt m n e1 e2 ray ch L := by
  intro m hm ch hch hc
  have hpi := Real.pi_pos
  rw [C97_glossy_mean_partial fuel c s r hs0.le hs1.le n e1 e2 pt hf ray rest hr L hL hplane m hm ch hch]
  have hb : ∀ v, ∃ b, m.evalBsdf dt n e1 e2 ray v = .ok b ∧ ch c * ((1 - s) / Real.pi) ≤ ch b := by
    intro v
    obtain ⟨p, hp, -, hp1, hp2⟩ := eval_ge dt c s r n e1 e2 v ray hs0.le hside
    simp only [List.mem_cons, List.not_mem_nil, or_false] at hm hch
    rcases hm with rfl | rfl
    · refine ⟨_, hp1, ?_⟩
      rcases hch with rfl | rfl | rfl <;> simp [plasticBsdf, Spectrum.scale, Spectrum.gray] <;> linarith
    · refine ⟨_, hp2, ?_⟩
      rcases hch with rfl | rfl | rfl <;> simp [metalBsdf, Spectrum.scale] <;> nlinarith [mul_nonneg hc.le hp]
  calc irradiance (fun l => L (worldOf e1 e2 n l)) / ENNReal.ofReal Real.pi * ENNReal.ofReal (ch c * (1 - s) ^ 2)
      = irradiance (fun l => L (worldOf e1 e2 n l)) * ENNReal.ofReal (ch c * (1 - s) ^ 2 / Real.pi) := by
        rw [ENNReal.ofReal_div_of_pos hpi, div_eq_mul_inv, div_eq_mul_inv, mul_assoc, mul_comm (ENNReal.ofReal Real.pi)⁻¹]
    _ < irradiance (fun l => L (worldOf e1 e2 n l)) * ENNReal.ofReal (ch c * ((1 - s) / Real.pi)) := by
        refine (ENNReal.mul_lt_mul_iff_right hpos hfin).2 ((ENNReal.ofReal_lt_ofReal_iff (by have : 0 < 1 - s := by linarith
                                                                                             positivity)).2 ?_)
        rw [mul_div_assoc]
        have : (1 - s) ^ 2 < 1 - s := by nlinarith
        have : (1 - s) ^ 2 / Real.pi < (1 - s) / Real.pi := by gcongr
        nlinarith
    _ ≤ reflectedRadiance dt m n e1 e2 ray ch L := by
        unfold irradiance reflectedRadiance irradiance
        rw [← lintegral_mul_const' _ _ ENNReal.ofReal_ne_top]
        refine lintegral_mono fun p => ?_
        obtain ⟨b, hb1, hb2⟩ := hb (worldOf e1 e2 n (directionAt p.1 p.2))
        simp only [hb1]
        rw [mul_right_comm]
        gcongr

open Classical in
/-- Light of radiance one from one side of the plane `y = 0`. -/
noncomputable def sideLight (v : Vec3 ℝ) : ENNReal := if 0 < v.y then 1 else 0

/-- C97: light of radiance one from one side of the plane of incidence meets the hypotheses: it is measurable, vanishes in the plane, and its irradiance is positive and finite. -/
theorem sideLight_shines : MeasurableFn3 sideLight ∧ (∀ v, Dot v (Cross (⟨0, 0, 1⟩ : Vec3 ℝ) ⟨3 / 5, 0, -4 / 5⟩) = 0 → sideLight v = 0) ∧
    irradiance (fun l => sideLight (worldOf ⟨1, 0, 0⟩ ⟨0, 1, 0⟩ ⟨0, 0, 1⟩ l)) ≠ 0 ∧ irradiance (fun l => sideLight (worldOf ⟨1, 0, 0⟩ ⟨0, 1, 0⟩ ⟨0, 0, 1⟩ l)) ≠ ⊤ := by
  have hL1 : ∀ v, sideLight v ≤ 1 := by
    intro v
    unfold sideLight
    split_ifs
    · exact le_refl _
    · exact bot_le
  have hy : ∀ p : ℝ × ℝ, sideLight (worldOf ⟨1, 0, 0⟩ ⟨0, 1, 0⟩ ⟨0, 0, 1⟩ (directionAt p.1 p.2)) = sideLight (directionAt p.1 p.2) := by
    intro p
    congr 1
    ext <;> simp [worldOf, Vec3.scale]
  refine ⟨?_, ?_, ?_, ?_⟩
  · exact Measurable.ite (measurableSet_lt measurable_const (measurable_fst.comp measurable_snd)) measurable_const measurable_const
  · intro v hv
    have : v.y * (3 / 5) = 0 := by simpa [Dot, Cross] using hv
    exact if_neg (by linarith)
  · refine (lt_of_lt_of_le (b := ENNReal.ofReal (1 / 2) * volume (Ioo (1 / 2 : ℝ) 1 ×ˢ Ioo 0 Real.pi : Set (ℝ × ℝ))) ?_ ?_).ne'
    · rw [volume_box, ← ENNReal.ofReal_mul (by norm_num), ← ENNReal.ofReal_mul (by norm_num)]
      exact ENNReal.ofReal_pos.2 (by have := Real.pi_pos; rw [sub_zero]; positivity)
    · have hsub : (Ioo (1 / 2 : ℝ) 1 ×ˢ Ioo 0 Real.pi : Set (ℝ × ℝ)) ⊆ Ioo (0 : ℝ) 1 ×ˢ Ioo 0 (2 * Real.pi) := by
        rintro ⟨x, y⟩ ⟨hx, hy⟩
        exact ⟨⟨lt_trans (by norm_num) hx.1, hx.2⟩, ⟨hy.1, lt_trans hy.2 (by linarith [Real.pi_pos])⟩⟩
      unfold irradiance
      simp only [hy]
      rw [← setLIntegral_const]
      have h2 := lintegral_mono_set (μ := volume) (f := fun p : ℝ × ℝ => sideLight (directionAt p.1 p.2) * ENNReal.ofReal p.1) hsub
      refine le_trans ?_ h2
      refine setLIntegral_mono' (measurableSet_Ioo.prod measurableSet_Ioo) fun p hp => ?_
      have hz : 0 < 1 - p.1 ^ 2 := by nlinarith [hp.1.1, hp.1.2]
      have h1 : sideLight (directionAt p.1 p.2) = 1 := if_pos (mul_pos (Real.sqrt_pos.2 hz) (Real.sin_pos_of_mem_Ioo hp.2))
      rw [h1, one_mul]
      exact ENNReal.ofReal_le_ofReal hp.1.1.le
  · refine ne_top_of_le_ne_top (b := ENNReal.ofReal Real.pi) ENNReal.ofReal_ne_top ?_
    rw [← upperBox_cos]
    unfold irradiance upperBox
    simp only [hy]
    refine lintegral_mono fun p => ?_
    calc _ ≤ 1 * ENNReal.ofReal p.1 := by gcongr; exact hL1 _
      _ = _ := one_mul _

/-- The ray of the cases below. -/
noncomputable def slopingDown : TRay := { TRay.default with geometry := ⟨0, ⟨3 / 5, 0, -4 / 5⟩⟩ }

theorem slopingDown_side : Dot slopingDown.geometry.direction ⟨0, 0, 1⟩ ≤ 0 := by norm_num [Dot, slopingDown]

example := fun dt fuel => C97_matt_unbiased dt fuel ⟨1 / 2, 1 / 3, 0⟩ (1 / 10) ⟨0, 0, 1⟩ ⟨1, 0, 0⟩ ⟨0, 1, 0⟩ 0 axes_frame slopingDown slopingDown_side (fun _ => 1 / 2) (fun _ => by norm_num) sideLight sideLight_shines.1

example := fun fuel => C97_glossy_mean_partial fuel ⟨1 / 2, 1 / 3, 0⟩ (1 / 10) (1 / 10) (by norm_num) (by norm_num) ⟨0, 0, 1⟩ ⟨1, 0, 0⟩ ⟨0, 1, 0⟩ 0 axes_frame slopingDown (fun _ => 1 / 2) (fun _ => by norm_num) sideLight sideLight_shines.1 sideLight_shines.2.1

example := fun dt fuel => C97_violation_glossy dt fuel ⟨1 / 2, 1 / 3, 0⟩ (1 / 10) (1 / 10) (by norm_num) (by norm_num) ⟨0, 0, 1⟩ ⟨1, 0, 0⟩ ⟨0, 1, 0⟩ 0 axes_frame slopingDown slopingDown_side (fun _ => 1 / 2) (fun _ => by norm_num) sideLight sideLight_shines.1 sideLight_shines.2.1 sideLight_shines.2.2.1 sideLight_shines.2.2.2

end Rendering
