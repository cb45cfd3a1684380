import Verif.Props.Glass

/-!
# C99: evaluating mirrors and dielectrics in the directions of the paths they offer, and elsewhere
-/

set_option linter.unusedSectionVars false
namespace Rendering

/-- **C99, elsewhere.** In every direction that is not that of a path they offer, mirrors and dielectrics reflect nothing. -/
theorem C99_elsewhere_nothing (dt : DirTests) (colour : Spectrum ℝ) (r : ℝ) (n pt : Vec3 ℝ) (ray : TRay) (v : Vec3 ℝ) :
    ((∀ out w, (mirrorPaths colour n pt ray).1 = some (out, w) → dt.isParallel v out.geometry.direction = false) → mirrorEval dt colour n ray v = Spectrum.black) ∧
    ((∀ out w, (dielectricPaths colour r n pt ray).1 = some (out, w) ∨ (dielectricPaths colour r n pt ray).2 = some (out, w) → dt.isSameDirection v out.geometry.direction = false) →
      dielectricEval dt colour r n ray v = Spectrum.black) := by
  constructor
  · intro h
    have h1 : dt.isParallel v (mirrorDirection ray.geometry.direction n) = false := h _ _ rfl
    unfold mirrorEval evalMirrorBsdf
    simp only [h1, Bool.false_eq_true, if_false]
    ext <;> simp [Spectrum.scale, Spectrum.black, Spectrum.gray]
  · intro h
    have h1 : dt.isSameDirection v (mirrorDirection ray.geometry.direction n) = false := h _ _ (Or.inl rfl)
    unfold dielectricEval
    simp only [h1, Bool.false_eq_true, if_false]
    cases hc : (cosAndN ray n r).2.2.2 with
    | none => rfl
    | some cos2 =>
      simp only
      have h2 := h { ray with geometry := ⟨pt - n.scale (1 / 10 ^ 5), fresnelTransmissionDir ray.geometry.direction n (cosAndN ray n r).1 (cosAndN ray n r).2.1 (cosAndN ray n r).2.2.1 cos2⟩, refractionIndex := (cosAndN ray n r).2.2.1, colour := ray.colour * colour }
        ((dielectricReflTrans colour (cosAndN ray n r).1 (cosAndN ray n r).2.1 (cosAndN ray n r).2.2.1 (cosAndN ray n r).2.2.2).2.scale cos2) (Or.inr (by unfold dielectricPaths; simp only [hc]))
      simp only at h2
      simp only [h2, Bool.false_eq_true, if_false]

/-- **C99, partial: in the directions of its paths.** What a dielectric reflects or transmits in the direction of a path it offers, times the cosine of the direction with the normal, is the weight of the path times the colour of the dielectric
once more; so the two agree for colourless dielectrics. -/
theorem C99_dielectric_paths_partial (dt : DirTests) (colour : Spectrum ℝ) (r : ℝ) (n pt : Vec3 ℝ) (ray : TRay) (hn : Norm n = 1) (hv : Norm ray.geometry.direction = 1) (hside : Dot ray.geometry.direction n < 0)
    (hn1 : 0 < ray.refractionIndex) (hr : 0 < r) (hdt : ∀ v, dt.isSameDirection v v = true) :
    (∃ out w, (dielectricPaths colour r n pt ray).1 = some (out, w) ∧ (dielectricEval dt colour r n ray out.geometry.direction).scale |Dot out.geometry.direction n| = colour * w) ∧
    (∀ out w, (dielectricPaths colour r n pt ray).2 = some (out, w) → dt.isSameDirection out.geometry.direction (mirrorDirection ray.geometry.direction n) = false → Dot out.geometry.direction n ≠ 0 →
      (dielectricEval dt colour r n ray out.geometry.direction).scale |Dot out.geometry.direction n| = colour * w) := by
  have hsn := C44_snell ray n r hn hv hn1 hr
  have hn2 := farIndex_pos (n1 := ray.refractionIndex) hr
  simp only at hsn
  obtain ⟨e1, e2, e3, _, hcos⟩ := hsn
  obtain ⟨_, hm, _, _⟩ := C43_mirror_direction ray.geometry.direction n hn hv
  constructor
  · refine ⟨_, _, rfl, ?_⟩
    unfold dielectricEval
    simp only [hdt, if_true, hm, abs_neg, e2]
    ext <;> simp [Spectrum.scale] <;> ring
  · intro out w hp hne hz
    unfold dielectricPaths at hp
    simp only at hp
    cases hc : (cosAndN ray n r).2.2.2 with
    | none => rw [hc] at hp; simp at hp
    | some cos2 =>
      rw [hc] at hp
      simp only [Option.some.injEq, Prod.mk.injEq] at hp
      obtain ⟨rfl, rfl⟩ := hp
      obtain ⟨k0, k1, ks⟩ := hcos cos2 hc
      simp only at hne hz ⊢
      have hsnell : ray.refractionIndex ^ 2 * (1 - Dot ray.geometry.direction n ^ 2) = farIndex ray.refractionIndex r ^ 2 * (1 - cos2 ^ 2) := by
        have hle := dot_abs_le_one hv hn
        have s1 : 0 ≤ 1 - Dot ray.geometry.direction n ^ 2 := by linarith
        have s2 : 0 ≤ 1 - cos2 ^ 2 := by nlinarith
        have := congrArg (fun x => x ^ 2) ks
        simp only [mul_pow, Real.sq_sqrt s1, Real.sq_sqrt s2] at this
        exact this
      have hd := (C45_refraction ray.geometry.direction n ray.refractionIndex (farIndex ray.refractionIndex r) cos2 hn hv hside hn1 hn2 hsnell).2.1
      rw [e1, e2, e3] at hne hz ⊢
      rw [hd, abs_neg, abs_of_nonneg k0]
      unfold dielectricEval
      simp only [e1, e2, e3, hc, hne, hdt, if_true, Bool.false_eq_true, if_false]
      ext <;> simp [Spectrum.scale] <;> ring

/-- **C99, violation.** For every coloured dielectric (with an index other than the one the ray comes from, met head on) reflection is tinted when evaluated, though the path it offers is white. -/
theorem C99_violation_dielectric_colour (dt : DirTests) (colour : Spectrum ℝ) (hcol : colour ≠ Spectrum.one) (r : ℝ) (n pt : Vec3 ℝ) (ray : TRay) (hn : Norm n = 1) (hdir : ray.geometry.direction = n.scale (-1)) (hn1 : 0 < ray.refractionIndex)
    (hr : 0 < r) (hdt : ∀ v, dt.isSameDirection v v = true) (hidx : farIndex ray.refractionIndex r ≠ ray.refractionIndex) :
    ∃ out w, (dielectricPaths colour r n pt ray).1 = some (out, w) ∧ (dielectricEval dt colour r n ray out.geometry.direction).scale |Dot out.geometry.direction n| ≠ w := by
  have hdd : Dot ray.geometry.direction n = -1 := by
    rw [hdir]
    have := Dot_self_of_norm hn
    simp only [Dot, Vec3.scale_x, Vec3.scale_y, Vec3.scale_z] at this ⊢
    linarith
  have hv : Norm ray.geometry.direction = 1 := by
    apply Norm_eq_one
    rw [hdir]
    have := Dot_self_of_norm hn
    simp only [Dot, Vec3.scale_x, Vec3.scale_y, Vec3.scale_z] at this ⊢
    linarith
  obtain ⟨⟨out, w, h1, h2⟩, _⟩ := C99_dielectric_paths_partial dt colour r n pt ray hn hv (by rw [hdd]; norm_num) hn1 hr hdt
  have hn2 := farIndex_pos (n1 := ray.refractionIndex) hr
  have hE := C47_dielectric_energy colour r n pt ray hn hv (by rw [hdd]; norm_num) hn1 hr
  simp only [hdd] at hE
  have hz : Real.sqrt (1 - (-1 : ℝ) ^ 2) = 0 := by norm_num
  rw [hz, mul_zero] at hE
  obtain ⟨R, hR, _, _, hw, _⟩ := hE.2 (by norm_num)
  have hRv : R ≠ 0 := by
    have : R = ((ray.refractionIndex - farIndex ray.refractionIndex r) / (ray.refractionIndex + farIndex ray.refractionIndex r)) ^ 2 := by
      rw [hR]; unfold FresnelR; norm_num; try ring
    rw [this]
    have hs : ray.refractionIndex + farIndex ray.refractionIndex r ≠ 0 := by positivity
    exact pow_ne_zero _ (div_ne_zero (sub_ne_zero.2 hidx.symm) hs)
  rw [h1, Option.map_some, Option.some.injEq] at hw
  simp only at hw
  refine ⟨out, w, h1, ?_⟩
  rw [h2, hw]
  intro h
  apply hcol
  have g0 := congrArg Spectrum.c0 h
  have g1 := congrArg Spectrum.c1 h
  have g2 := congrArg Spectrum.c2 h
  simp only [Spectrum.gray, Spectrum.mul_c0, Spectrum.mul_c1, Spectrum.mul_c2] at g0 g1 g2
  ext
  · simpa [Spectrum.one, Spectrum.gray, hRv] using g0
  · simpa [Spectrum.one, Spectrum.gray, hRv] using g1
  · simpa [Spectrum.one, Spectrum.gray, hRv] using g2

/-- Green glass block of index 3/2 met head on from the air: the hypotheses of both theorems hold, and the reflection evaluated is tinted. -/
example : ∃ out w, (dielectricPaths ⟨0, 1, 0⟩ (3 / 2) ⟨0, 0, 1⟩ 0 { TRay.default with geometry := ⟨0, ⟨0, 0, -1⟩⟩, refractionIndex := 1 }).1 = some (out, w) ∧
    (dielectricEval ⟨fun v w => @decide (v = w) (Classical.dec _), fun v w => @decide (v = w) (Classical.dec _)⟩ ⟨0, 1, 0⟩ (3 / 2) ⟨0, 0, 1⟩
      { TRay.default with geometry := ⟨0, ⟨0, 0, -1⟩⟩, refractionIndex := 1 } out.geometry.direction).scale |Dot out.geometry.direction ⟨0, 0, 1⟩| ≠ w := by
  refine C99_violation_dielectric_colour _ _ ?_ _ _ _ _ (Norm_eq_one (by norm_num [Dot])) ?_ (by norm_num) (by norm_num) (fun v => by simp) ?_
  · intro h
    have := congrArg Spectrum.c0 h
    norm_num [Spectrum.one, Spectrum.gray] at this
  · ext <;> simp
  · unfold farIndex
    norm_num

example := fun colour => C99_dielectric_paths_partial exactTests colour (3 / 2) ⟨0, 0, 1⟩ 0 slopingRay up_unit slopingRay_unit slopingRay_down (by norm_num [slopingRay]) (by norm_num) (fun v => by simp [exactTests])

end Rendering
