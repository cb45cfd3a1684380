import Verif.Model.Ward
import Verif.Props.Samplers
import Verif.Props.Specular
import Mathlib.Analysis.Complex.ExponentialBounds

/-!
# C51 and C74: the Ward BSDF and its sampler
-/

set_option linter.unusedSectionVars false
namespace Rendering

open Classical

/-! ### C51 -/

theorem clampRoughness_pos (a : ℝ) : 0 < clampRoughness a := by
  unfold clampRoughness; split_ifs with h
  · norm_num
  · have : (0 : ℝ) < 1 / 10 ^ 3 := by norm_num
    linarith

/-- **C51, non-negative.** For a specularity in `[0, 1]` both parts are non-negative, for all directions, normals and roughnesses. -/
theorem C51_nonneg (n e1 e2 i l : Vec3 ℝ) (s α β : ℝ) (h0 : 0 ≤ s) (h1 : s ≤ 1) :
    0 ≤ (evaluateWard n e1 e2 s α β i l).1 ∧ 0 ≤ (evaluateWard n e1 e2 s α β i l).2 := by
  have hpi := Real.pi_pos
  have hd : 0 ≤ (1 - s) / Real.pi := div_nonneg (by linarith) hpi.le
  unfold evaluateWard
  simp only
  split_ifs
  · simp
  · have ha := clampRoughness_pos α
    have hb := clampRoughness_pos β
    have hh : 0 ≤ (l - i).dot (l - i) := by
      rw [Vec3.dot_eq]; simp only [Dot]; nlinarith [sq_nonneg (l - i).x, sq_nonneg (l - i).y, sq_nonneg (l - i).z]
    exact ⟨by positivity, hd⟩
  · exact ⟨le_refl _, hd⟩

/-- The colours a material returns are non-negative: **C51** for `Plastic` and `Metal` through the public `eval_bsdf`. -/
theorem C51_materials_nonneg (dt : DirTests) (c : Spectrum ℝ) (hc : 0 ≤ c.c0 ∧ 0 ≤ c.c1 ∧ 0 ≤ c.c2) (s r : ℝ) (h0 : 0 ≤ s) (h1 : s ≤ 1) (n e1 e2 vout : Vec3 ℝ) (ray : TRay) :
    ∃ b b' : Spectrum ℝ, (Material.plastic c s r).evalBsdf dt n e1 e2 ray vout = .ok b ∧ (Material.metal c s r).evalBsdf dt n e1 e2 ray vout = .ok b' ∧
      (0 ≤ b.c0 ∧ 0 ≤ b.c1 ∧ 0 ≤ b.c2) ∧ (0 ≤ b'.c0 ∧ 0 ≤ b'.c1 ∧ 0 ≤ b'.c2) := by
  obtain ⟨g1, g2⟩ := C51_nonneg n e1 e2 ray.geometry.direction (vout.scale (-1)) s r r h0 h1
  obtain ⟨p0, p1, p2⟩ := hc
  refine ⟨_, _, rfl, rfl, ?_, ?_⟩ <;>
    simp only [plasticBsdf, metalBsdf, Spectrum.gray, Spectrum.scale, Spectrum.add_c0, Spectrum.add_c1, Spectrum.add_c2] <;>
    refine ⟨?_, ?_, ?_⟩ <;> positivity

/-- **C51, smoothest finish.** A roughness below 1/1000 (a roughness of 0 included) is treated as 1/1000: plastics and metals that smooth reflect and scatter exactly as with roughness 1/1000. -/
theorem C51_roughness_floor (dt : DirTests) (fuel : Nat) (c : Spectrum ℝ) (s r : ℝ) (hr : r ≤ 1 / 1000) (n e1 e2 pt vout : Vec3 ℝ) (ray : TRay) (rng : Rng) :
    (Material.plastic c s r).evalBsdf dt n e1 e2 ray vout = (Material.plastic c s (1 / 1000)).evalBsdf dt n e1 e2 ray vout ∧
    (Material.metal c s r).evalBsdf dt n e1 e2 ray vout = (Material.metal c s (1 / 1000)).evalBsdf dt n e1 e2 ray vout ∧
    (Material.plastic c s r).sampleBsdf fuel n e1 e2 pt ray rng = (Material.plastic c s (1 / 1000)).sampleBsdf fuel n e1 e2 pt ray rng ∧
    (Material.metal c s r).sampleBsdf fuel n e1 e2 pt ray rng = (Material.metal c s (1 / 1000)).sampleBsdf fuel n e1 e2 pt ray rng := by
  have e0 : clampRoughness (1 / 1000) = 1 / 1000 := by unfold clampRoughness; norm_num
  have e : clampRoughness r = clampRoughness (1 / 1000) := by
    rw [e0]
    unfold clampRoughness
    split_ifs with h
    · norm_num
    · have h' : ¬ r < 1 / 1000 := by norm_num at h ⊢; linarith
      linarith [not_lt.1 h']
  simp only [Material.evalBsdf, Material.sampleBsdf, evaluateWard, sampleWard, e, and_self]

/-- C51: a perfectly smooth red plastic. -/
example (dt : DirTests) (n e1 e2 vout : Vec3 ℝ) (ray : TRay) : (Material.plastic ⟨1, 0, 0⟩ (1 / 20) 0).evalBsdf dt n e1 e2 ray vout = (Material.plastic ⟨1, 0, 0⟩ (1 / 20) (1 / 1000)).evalBsdf dt n e1 e2 ray vout :=
  (C51_roughness_floor dt 0 _ _ 0 (by norm_num) n e1 e2 0 vout ray fun _ => 0).1

/-- **C51, reciprocity.** Light arriving along `vout` and leaving along the ray backwards is scattered as much as light going the other way: exchanging the direction of the ray and `vout` does not
change `eval_bsdf` of `Plastic` and `Metal`, as long as both arrive on the normal's side. -/
theorem C51_reciprocity (dt : DirTests) (c : Spectrum ℝ) (s r : ℝ) (n e1 e2 : Vec3 ℝ) (ray ray' : TRay)
    (h : Dot ray.geometry.direction n ≤ 0) (h' : Dot ray'.geometry.direction n ≤ 0) :
    (Material.plastic c s r).evalBsdf dt n e1 e2 ray ray'.geometry.direction = (Material.plastic c s r).evalBsdf dt n e1 e2 ray' ray.geometry.direction ∧
    (Material.metal c s r).evalBsdf dt n e1 e2 ray ray'.geometry.direction = (Material.metal c s r).evalBsdf dt n e1 e2 ray' ray.geometry.direction := by
  have key : evaluateWard n e1 e2 s r r ray.geometry.direction (ray'.geometry.direction.scale (-1)) = evaluateWard n e1 e2 s r r ray'.geometry.direction (ray.geometry.direction.scale (-1)) := by
    have hh : ray'.geometry.direction.scale (-1) - ray.geometry.direction = ray.geometry.direction.scale (-1) - ray'.geometry.direction := by
      ext <;> simp <;> ring
    unfold evaluateWard
    simp only [hh, Vec3.dot_eq]
    simp only [gt_iff_lt, not_lt.2 h, not_lt.2 h', if_false]
  simp only [Material.evalBsdf, key, and_self]

/-- **C51, matt materials.** With specularity zero the BSDF of `Plastic` and `Metal` is the colour divided by π, in every direction. -/
theorem C51_diffuse (dt : DirTests) (c : Spectrum ℝ) (r : ℝ) (n e1 e2 vout : Vec3 ℝ) (ray : TRay) :
    (Material.plastic c 0 r).evalBsdf dt n e1 e2 ray vout = .ok (c.divBy Real.pi) ∧ (Material.metal c 0 r).evalBsdf dt n e1 e2 ray vout = .ok (c.divBy Real.pi) := by
  have : ¬ (0 : ℝ) > 1 / 10 ^ 5 := by norm_num
  simp only [Material.evalBsdf, evaluateWard, if_neg this, plasticBsdf, metalBsdf, Spectrum.gray, Spectrum.scale, Spectrum.divBy]
  constructor <;> congr 1 <;> ext <;> simp <;> ring

/-- **C51, the specular peak.** For roughness at least `1e-3` and specularity `s` above `1e-5`, the specular part in the mirrored direction is Ward's `s / (4 π α β cos²)`. -/
theorem C51_mirror_peak (n e1 e2 i : Vec3 ℝ) (s α β : ℝ) (hf : Frame e1 e2 n) (hs : 1 / 10 ^ 5 < s) (hα : 1 / 10 ^ 3 ≤ α) (hβ : 1 / 10 ^ 3 ≤ β)
    (hi : Norm i = 1) (hside : Dot i n < 0) :
    (evaluateWard n e1 e2 s α β i (mirrorDirection i n)).1 = s / (4 * Real.pi * α * β * Dot i n ^ 2) := by
  have h3 := Dot_self_of_norm hf.n3
  have hh : mirrorDirection i n - i = n.scale (-(2 * Dot i n)) := by
    rw [mirror_raw hf.n3 hi]; ext <;> simp
  have ha : clampRoughness α = α := by unfold clampRoughness; rw [if_neg (not_lt.2 hα)]
  have hb : clampRoughness β = β := by unfold clampRoughness; rw [if_neg (not_lt.2 hβ)]
  have d1 : Dot n e1 = 0 := by rw [Dot_comm]; exact hf.d13
  have d2 : Dot n e2 = 0 := by rw [Dot_comm]; exact hf.d23
  have e : ∀ w, Dot (n.scale (-(2 * Dot i n))) w = -(2 * Dot i n) * Dot n w := by
    intro w; simp only [Dot, Vec3.scale_x, Vec3.scale_y, Vec3.scale_z]; ring
  have e' : Dot (n.scale (-(2 * Dot i n))) (n.scale (-(2 * Dot i n))) = 4 * Dot i n ^ 2 := by
    rw [e, Dot_comm n, e, h3]; ring
  unfold evaluateWard
  simp only [hh, Vec3.dot_eq, ha, hb, e', e, h3, d1, d2]
  rw [if_pos hs, if_neg (by linarith)]
  have hα0 : 0 < α := lt_of_lt_of_le (by norm_num) hα
  have hβ0 : 0 < β := lt_of_lt_of_le (by norm_num) hβ
  have hpi := Real.pi_pos
  have hne := hside.ne
  simp only [mul_zero, zero_div, ne_eq, OfNat.ofNat_ne_zero, not_false_eq_true, zero_pow, add_zero, neg_zero, Real.exp_zero, mul_one]
  field_simp
  norm_num

/-- The hypotheses are met: a ray at 45° (3-4-5) onto a horizontal surface. -/
example : Frame (⟨1, 0, 0⟩ : Vec3 ℝ) ⟨0, 1, 0⟩ ⟨0, 0, 1⟩ ∧ Norm (⟨3 / 5, 0, -4 / 5⟩ : Vec3 ℝ) = 1 ∧ Dot (⟨3 / 5, 0, -4 / 5⟩ : Vec3 ℝ) ⟨0, 0, 1⟩ < 0 := by
  refine ⟨⟨Norm_eq_one (by norm_num [Dot]), Norm_eq_one (by norm_num [Dot]), Norm_eq_one (by norm_num [Dot]), by norm_num [Dot], by norm_num [Dot], by norm_num [Dot]⟩,
    Norm_eq_one (by norm_num [Dot]), by norm_num [Dot]⟩

/-! ### C74 Sampled directions -/

/-- **C74, matt branch.** When the first draw selects the diffuse branch, the sampler succeeds; the new ray starts `1e-5` off the surface on the normal's side and goes, as a unit vector, to that side; its probability is
positive, and `bsdf * cos / pdf` is exactly `1 - s` times the colour. -/
theorem C74_diffuse_branch_partial (fuel : Nat) (c : Spectrum ℝ) (s r : ℝ) (n e1 e2 pt : Vec3 ℝ) (hf : Frame e1 e2 n) (ray : TRay) (rng : Rng) (hv : rng.Valid) (hs : s ≤ rng 0) :
    ∀ m ∈ [Material.plastic c s r, Material.metal c s r], ∃ bsdf pdf ray' rng', m.sampleBsdf fuel n e1 e2 pt ray rng = .ok ((bsdf, pdf), ray', rng') ∧
      Norm ray'.geometry.direction = 1 ∧ 0 < Dot ray'.geometry.direction n ∧ ray'.geometry.origin = pt + n.scale (1 / 10 ^ 5) ∧
      pdf = Dot ray'.geometry.direction n / Real.pi ∧ 0 < pdf ∧
      (bsdf.scale |Dot n ray'.geometry.direction|).divBy pdf = c.scale (1 - s) ∧
      ray' = { ray with geometry := ray'.geometry } ∧ ∀ k, rng' k = rng (k + 3) := by
  obtain ⟨g1, g2, -⟩ := C55_cosine_hemisphere (fun k => rng (k + 1)) (fun k => hv (k + 1))
  set d := (sampleCosineHemisphere (fun k => rng (k + 1))).1 with hd
  have hd2 : d.x ^ 2 + d.y ^ 2 + d.z ^ 2 = 1 := by
    have := Dot_self_of_norm g1; simp only [Dot] at this; nlinarith
  obtain ⟨w1, w2⟩ := world_unit hf hd2
  have hnorm : (localToWorld e1 e2 n 0 d.x d.y d.z).normalized = localToWorld e1 e2 n 0 d.x d.y d.z := by
    rw [normalized_eq, w1]; ext <;> simp
  have hpi := Real.pi_pos
  have hcos : Dot n (localToWorld e1 e2 n 0 d.x d.y d.z) = d.z := by rw [Dot_comm]; exact w2
  have hsw : sampleWard fuel n e1 e2 pt s r r ray rng = .ok ((0, (1 - s) / Real.pi, d.z / Real.pi),
      { ray with geometry := ⟨pt + n.scale (1 / 10 ^ 5), localToWorld e1 e2 n 0 d.x d.y d.z⟩ }, fun k => rng (k + 3)) := by
    unfold sampleWard
    simp only [Rng.gen]
    have hns : ¬ rng 0 < s := not_lt.2 hs
    simp only [hns, if_false, ← hd, hnorm, Vec3.dot_eq, hcos]
    rfl
  intro m hm
  simp only [List.mem_cons, List.not_mem_nil, or_false] at hm
  rcases hm with rfl | rfl
  · refine ⟨plasticBsdf c 0 ((1 - s) / Real.pi), d.z / Real.pi, { ray with geometry := ⟨pt + n.scale (1 / 10 ^ 5), localToWorld e1 e2 n 0 d.x d.y d.z⟩ }, fun k => rng (k + 3), by simp only [Material.sampleBsdf, hsw, Res.bind_ok], w1, by simp only [w2]; exact g2, rfl, by simp only [w2], by positivity, ?_, rfl, fun k => rfl⟩
    simp only [plasticBsdf, hcos, abs_of_pos g2, Spectrum.scale, Spectrum.divBy, Spectrum.gray]
    ext <;> simp <;> field_simp
  · refine ⟨metalBsdf c 0 ((1 - s) / Real.pi), d.z / Real.pi, { ray with geometry := ⟨pt + n.scale (1 / 10 ^ 5), localToWorld e1 e2 n 0 d.x d.y d.z⟩ }, fun k => rng (k + 3), by simp only [Material.sampleBsdf, hsw, Res.bind_ok], w1, by simp only [w2]; exact g2, rfl, by simp only [w2], by positivity, ?_, rfl, fun k => rfl⟩
    simp only [metalBsdf, hcos, abs_of_pos g2, Spectrum.scale, Spectrum.divBy]
    ext <;> simp <;> field_simp

/-- What one pass of the specular branch computes for a ray along the normal: a multiple of the normal. -/
theorem wardHalf_normal (n e1 e2 : Vec3 ℝ) (hf : Frame e1 e2 n) (α xi1 xi2 : ℝ) (hα : 0 < α) (h0 : 1 / 10 ^ 9 ≤ xi2) (h1 : xi2 < 1) :
    wardHalf n e1 e2 n α α xi1 xi2 = n.scale (1 - 2 / (1 + α ^ 2 * -Real.log xi2)) := by
  set φ := 2 * Real.pi * xi1 with hφ
  have htrig := Real.sin_sq_add_cos_sq φ
  have hxi : 0 < xi2 := lt_of_lt_of_le (by norm_num) h0
  have hlog : Real.log xi2 < 0 := Real.log_neg hxi h1
  have hsq : Real.sqrt ((Real.cos φ * α) ^ 2 + (Real.sin φ * α) ^ 2) = α := by
    have : (Real.cos φ * α) ^ 2 + (Real.sin φ * α) ^ 2 = α ^ 2 := by
      calc _ = (Real.sin φ ^ 2 + Real.cos φ ^ 2) * α ^ 2 := by ring
        _ = α ^ 2 := by rw [htrig, one_mul]
    rw [this, Real.sqrt_sq hα.le]
  have hden : (Real.cos φ * α * (1 / α) / α) ^ 2 + (Real.sin φ * α * (1 / α) / α) ^ 2 = 1 / α ^ 2 := by
    calc _ = (Real.sin φ ^ 2 + Real.cos φ ^ 2) / α ^ 2 := by field_simp; ring
      _ = 1 / α ^ 2 := by rw [htrig]
  have hd2 : Real.sqrt (-Real.log xi2 / (1 / α ^ 2)) ^ 2 = α ^ 2 * -Real.log xi2 := by
    rw [Real.sq_sqrt (div_nonneg (by linarith) (by positivity))]
    field_simp
  have h3 := Dot_self_of_norm hf.n3
  have hdot : ∀ p q : ℝ, ∀ t : ℝ, Dot (n + (e1.scale p).scale t + (e2.scale q).scale t) n = 1 := by
    intro p q t
    have : Dot (n + (e1.scale p).scale t + (e2.scale q).scale t) n = Dot n n + p * t * Dot e1 n + q * t * Dot e2 n := by
      simp only [Dot, Vec3.add_x, Vec3.add_y, Vec3.add_z, Vec3.scale_x, Vec3.scale_y, Vec3.scale_z]; ring
    rw [this, h3, hf.d13, hf.d23]; ring
  unfold wardHalf
  simp only [← hφ, hsq, hden, if_neg (not_lt.2 h0), Vec3.dot_eq, hdot, hd2]
  ext <;> simp <;> ring

/-- **C74, violated: into the surface.** A ray that meets a plastic or metal of specularity `s` at right angles, sampled with a first draw below `s` (so that the specular branch is taken), and a third draw `ξ` with `α² ln(1/ξ) < 1`
(α is the roughness, at least `1e-3`), continues *against* the normal, into the surface, instead of being reflected. -/
theorem C74_violation_into_surface (fuel : Nat) (c : Spectrum ℝ) (s r : ℝ) (n e1 e2 pt : Vec3 ℝ) (hf : Frame e1 e2 n) (ray : TRay) (rng : Rng) (hs : rng 0 < s)
    (hdir : ray.geometry.direction = n.scale (-1)) (h0 : 1 / 10 ^ 9 ≤ rng 2) (h1 : rng 2 < 1) (hsmall : clampRoughness r ^ 2 * -Real.log (rng 2) < 1) :
    ∀ m ∈ [Material.plastic c s r, Material.metal c s r], ∃ bsdf pdf ray' rng', m.sampleBsdf (fuel + 1) n e1 e2 pt ray rng = .ok ((bsdf, pdf), ray', rng') ∧
      ray'.geometry.direction = n.scale (-1) ∧ Dot ray'.geometry.direction n = -1 := by
  have hα := clampRoughness_pos r
  have hxi : 0 < rng 2 := lt_of_lt_of_le (by norm_num) h0
  have hlog : Real.log (rng 2) < 0 := Real.log_neg hxi h1
  have h3 := Dot_self_of_norm hf.n3
  have hl : (ray.geometry.direction).scale (-1) = n := by rw [hdir]; ext <;> simp
  set k := 1 - 2 / (1 + clampRoughness r ^ 2 * -Real.log (rng 2)) with hk
  have hpos : 0 < clampRoughness r ^ 2 * -Real.log (rng 2) := mul_pos (by positivity) (by linarith)
  have hk0 : k < 0 := by
    rw [hk, sub_neg, lt_div_iff₀ (by linarith)]; linarith
  have hraw := wardHalf_normal n e1 e2 hf (clampRoughness r) (rng 1) (rng 2) hα h0 h1
  rw [← hk] at hraw
  have hv : (n.scale k).normalized = n.scale (-1) := by
    have : Norm (n.scale k) = -k := by
      rw [← Real.sqrt_sq (Norm_nonneg _), Norm_sq]
      have : Dot (n.scale k) (n.scale k) = (-k) ^ 2 * Dot n n := by simp only [Dot, Vec3.scale_x, Vec3.scale_y, Vec3.scale_z]; ring
      rw [this, h3, mul_one, Real.sqrt_sq (by linarith)]
    rw [normalized_eq, this]
    have hkne : k ≠ 0 := hk0.ne
    ext <;> simp <;> field_simp
  have hvv : (n.scale (-1)).scale (-1) = n := by ext <;> simp
  have hnan : ¬ (wardIsNaN n s ray.geometry.direction n ∨ n.scale k = 0) := by
    rintro (⟨-, -, h⟩ | h)
    · rw [hdir, Vec3.dot_eq] at h
      have : Dot (n - n.scale (-1)) n = 2 * Dot n n := by simp only [Dot, Vec3.sub_x, Vec3.sub_y, Vec3.sub_z, Vec3.scale_x, Vec3.scale_y, Vec3.scale_z]; ring
      rw [this, h3] at h; norm_num at h
    · have : Dot (n.scale k) n = k * Dot n n := by simp only [Dot, Vec3.scale_x, Vec3.scale_y, Vec3.scale_z]; ring
      rw [h, h3] at this
      simp [Dot] at this
      exact hk0.ne this.symm
  have hll : n.dot n > 0 := by rw [Vec3.dot_eq, h3]; norm_num
  have hd1 : Dot (n.scale (-1)) n = -1 := by
    have : Dot (n.scale (-1)) n = -Dot n n := by simp only [Dot, Vec3.scale_x, Vec3.scale_y, Vec3.scale_z]; ring
    rw [this, h3]
  obtain ⟨a, b, w, rng', hsw⟩ : ∃ a b w rng', sampleWard (fuel + 1) n e1 e2 pt s r r ray rng =
      .ok ((a, b, w), { ray with geometry := ⟨pt + n.scale (1 / 10 ^ 5), n.scale (-1)⟩ }, rng') := by
    refine ⟨(evaluateWard n e1 e2 s (clampRoughness r) (clampRoughness r) ray.geometry.direction n).1, (evaluateWard n e1 e2 s (clampRoughness r) (clampRoughness r) ray.geometry.direction n).2,
      2 / (1 + (n.scale (-1)).dot n / n.dot n), fun j => rng (j + 2 + 1), ?_⟩
    unfold sampleWard
    simp only [Rng.gen, hs, if_true]
    unfold wardLoop
    simp only [Rng.gen2, hl, Nat.reduceAdd, hraw, hv, hvv, hll, or_true, if_true, hnan, if_false]
  intro m hm
  simp only [List.mem_cons, List.not_mem_nil, or_false] at hm
  rcases hm with rfl | rfl
  · exact ⟨plasticBsdf c a b, w, { ray with geometry := ⟨pt + n.scale (1 / 10 ^ 5), n.scale (-1)⟩ }, rng', by simp only [Material.sampleBsdf, hsw, Res.bind_ok], rfl, hd1⟩
  · exact ⟨metalBsdf c a b, w, { ray with geometry := ⟨pt + n.scale (1 / 10 ^ 5), n.scale (-1)⟩ }, rng', by simp only [Material.sampleBsdf, hsw, Res.bind_ok], rfl, hd1⟩

/-- **C74, violated: panic.** If instead `α² ln(1/ξ) ≥ 1` (rough materials: for roughness one, more than a third of the draws), the sampler panics: the sampled direction is the normal itself (or no direction at all), the half vector is zero and the value is NaN. -/
theorem C74_violation_panic (fuel : Nat) (c : Spectrum ℝ) (s r : ℝ) (n e1 e2 pt : Vec3 ℝ) (hf : Frame e1 e2 n) (ray : TRay) (rng : Rng) (hs : rng 0 < s) (hs5 : 1 / 10 ^ 5 < s)
    (hdir : ray.geometry.direction = n.scale (-1)) (h0 : 1 / 10 ^ 9 ≤ rng 2) (h1 : rng 2 < 1) (hbig : 1 ≤ clampRoughness r ^ 2 * -Real.log (rng 2)) :
    ∀ m ∈ [Material.plastic c s r, Material.metal c s r], m.sampleBsdf (fuel + 1) n e1 e2 pt ray rng = .panic := by
  have hα := clampRoughness_pos r
  have h3 := Dot_self_of_norm hf.n3
  have hl : (ray.geometry.direction).scale (-1) = n := by rw [hdir]; ext <;> simp
  set k := 1 - 2 / (1 + clampRoughness r ^ 2 * -Real.log (rng 2)) with hk
  have hk0 : 0 ≤ k := by
    rw [hk, sub_nonneg, div_le_iff₀ (by linarith)]; linarith
  have hraw := wardHalf_normal n e1 e2 hf (clampRoughness r) (rng 1) (rng 2) hα h0 h1
  rw [← hk] at hraw
  have hll : n.dot n > 0 := by rw [Vec3.dot_eq, h3]; norm_num
  have hnan : wardIsNaN n s ray.geometry.direction ((n.scale k).normalized.scale (-1)) ∨ n.scale k = 0 := by
    rcases hk0.eq_or_lt with he | hlt
    · right; rw [← he]; ext <;> simp
    · left
      have hv : (n.scale k).normalized = n := by
        have : Norm (n.scale k) = k := by
          rw [← Real.sqrt_sq (Norm_nonneg _), Norm_sq]
          have : Dot (n.scale k) (n.scale k) = k ^ 2 * Dot n n := by simp only [Dot, Vec3.scale_x, Vec3.scale_y, Vec3.scale_z]; ring
          rw [this, h3, mul_one, Real.sqrt_sq hlt.le]
        rw [normalized_eq, this]
        have hkne : k ≠ 0 := hlt.ne'
        ext <;> simp <;> field_simp
      refine ⟨hs5, ?_, ?_⟩
      · rw [hdir, Vec3.dot_eq]
        have : Dot (n.scale (-1)) n = -Dot n n := by simp only [Dot, Vec3.scale_x, Vec3.scale_y, Vec3.scale_z]; ring
        rw [this, h3]; norm_num
      · rw [hv, hdir, Vec3.dot_eq]
        simp [Dot]
  have hsw : sampleWard (fuel + 1) n e1 e2 pt s r r ray rng = .panic := by
    unfold sampleWard
    simp only [Rng.gen, hs, if_true]
    unfold wardLoop
    simp only [Rng.gen2, hl, Nat.reduceAdd, hraw, hll, or_true, if_true, hnan]
  intro m hm
  simp only [List.mem_cons, List.not_mem_nil, or_false] at hm
  rcases hm with rfl | rfl <;> simp only [Material.sampleBsdf, hsw, Res.bind_panic]

/-- Both cases occur: draws `(0, 0, 1/2)` with roughness `1/10`, and draws `(0, 0, e⁻²)` with roughness one. -/
example : clampRoughness (1 / 10) ^ 2 * -Real.log (1 / 2) < 1 ∧ 1 ≤ clampRoughness 1 ^ 2 * -Real.log (Real.exp (-2)) ∧ (1 / 10 ^ 9 : ℝ) ≤ Real.exp (-2) ∧ Real.exp (-2) < 1 := by
  refine ⟨?_, ?_, ?_, ?_⟩
  · have h1 : clampRoughness (1 / 10) = 1 / 10 := by unfold clampRoughness; rw [if_neg (by norm_num)]
    have h2 := Real.log_two_lt_d9
    rw [h1, one_div (2 : ℝ), Real.log_inv]; norm_num; linarith
  · have h1 : clampRoughness 1 = 1 := by unfold clampRoughness; rw [if_neg (by norm_num)]
    rw [h1, Real.log_exp]; norm_num
  · have := Real.add_one_le_exp (2 : ℝ)
    have h3 : Real.exp 2 < 10 ^ 9 := by
      have h : Real.exp 1 < 3 := by linarith [Real.exp_one_lt_d9]
      have h2 : Real.exp 2 = Real.exp 1 * Real.exp 1 := by rw [← Real.exp_add]; norm_num
      have := Real.exp_pos 1
      rw [h2]; nlinarith
    rw [Real.exp_neg, one_div]
    exact inv_anti₀ (Real.exp_pos 2) h3.le
  · rw [Real.exp_lt_one_iff]; norm_num

/-! ### Concrete cases of the theorems above -/

/-- The usual axes are a frame. -/
theorem axes_frame : Frame (⟨1, 0, 0⟩ : Vec3 ℝ) ⟨0, 1, 0⟩ ⟨0, 0, 1⟩ := by constructor <;> first | (apply Norm_eq_one; norm_num [Dot]) | norm_num [Dot]

example := C51_nonneg ⟨0, 0, 1⟩ ⟨1, 0, 0⟩ ⟨0, 1, 0⟩ ⟨3 / 5, 0, -(4 / 5)⟩ ⟨0, 3 / 5, 4 / 5⟩ (1 / 10) (1 / 10) (1 / 10) (by norm_num) (by norm_num)

example := fun dt => C51_materials_nonneg dt ⟨1 / 2, 1 / 3, 0⟩ (by norm_num) (1 / 10) (1 / 10) (by norm_num) (by norm_num) ⟨0, 0, 1⟩ ⟨1, 0, 0⟩ ⟨0, 1, 0⟩ ⟨0, 3 / 5, 4 / 5⟩ TRay.default

example := fun dt => C51_reciprocity dt ⟨1 / 2, 1 / 3, 0⟩ (1 / 10) (1 / 10) ⟨0, 0, 1⟩ ⟨1, 0, 0⟩ ⟨0, 1, 0⟩ { TRay.default with geometry := ⟨0, ⟨3 / 5, 0, -(4 / 5)⟩⟩ } { TRay.default with geometry := ⟨0, ⟨0, 3 / 5, -(4 / 5)⟩⟩ } (by norm_num [Dot]) (by norm_num [Dot])

example := C51_mirror_peak ⟨0, 0, 1⟩ ⟨1, 0, 0⟩ ⟨0, 1, 0⟩ ⟨3 / 5, 0, -(4 / 5)⟩ (1 / 10) (1 / 10) (1 / 5) axes_frame (by norm_num) (by norm_num) (by norm_num) (Norm_eq_one (by norm_num [Dot])) (by norm_num [Dot])

example := fun fuel => C74_diffuse_branch_partial fuel ⟨1 / 2, 1 / 3, 0⟩ (1 / 10) (1 / 10) ⟨0, 0, 1⟩ ⟨1, 0, 0⟩ ⟨0, 1, 0⟩ 0 axes_frame { TRay.default with geometry := ⟨0, ⟨3 / 5, 0, -(4 / 5)⟩⟩ } (fun _ => 1 / 2) (fun _ => by norm_num) (by norm_num)

/-- C74: head-on, a smooth surface is entered and a rough one crashes the program. -/
example := fun fuel c => C74_violation_into_surface fuel c (1 / 10) (1 / 10) ⟨0, 0, 1⟩ ⟨1, 0, 0⟩ ⟨0, 1, 0⟩ 0 axes_frame { TRay.default with geometry := ⟨0, ⟨0, 0, -1⟩⟩ } (fun k => if k = 0 then 0 else 1 / 2) (by norm_num) (by ext <;> simp) (by norm_num) (by norm_num) (by
  have h : clampRoughness (1 / 10) = 1 / 10 := by norm_num [clampRoughness]
  have hl := Real.log_two_lt_d9
  have h2 : Real.log (1 / 2) = -Real.log 2 := by rw [one_div, Real.log_inv]
  simp only [h]
  norm_num
  have h3 : Real.log (1 / 2) = -Real.log 2 := h2
  linarith)

example := fun fuel c => C74_violation_panic fuel c (1 / 10) 1 ⟨0, 0, 1⟩ ⟨1, 0, 0⟩ ⟨0, 1, 0⟩ 0 axes_frame { TRay.default with geometry := ⟨0, ⟨0, 0, -1⟩⟩ } (fun k => if k = 0 then 0 else Real.exp (-2)) (by norm_num) (by norm_num) (by ext <;> simp) (by
  have : (1 / 10 ^ 9 : ℝ) ≤ 1 - 2 / 3 := by norm_num
  have h2 : Real.exp (-2) = (Real.exp 1)⁻¹ ^ 2 := by rw [← Real.exp_neg, ← Real.exp_nat_mul]; norm_num
  have h3 := Real.exp_one_lt_d9
  have h4 : (1 / 3 : ℝ) ≤ (Real.exp 1)⁻¹ := by rw [one_div]; exact inv_anti₀ (Real.exp_pos 1) (by linarith)
  simp only [if_neg (show ¬ (2 : Nat) = 0 by norm_num)]
  rw [h2]; nlinarith) (by simp) (by
  have h : clampRoughness 1 = 1 := by norm_num [clampRoughness]
  simp [h])

end Rendering
