import Verif.Props.Ambient
import Verif.Props.Unbiased
import Verif.Props.Sunlight
import Mathlib.MeasureTheory.Measure.Prod
import Mathlib.MeasureTheory.Constructions.BorelSpace.Real

/-!
# C74: what the specular branch of the glossy materials does, from every direction
-/

set_option linter.unusedSectionVars false
namespace Rendering

open MeasureTheory Set
open Classical

/-- The tangent of the angle between the sampled half vector and the normal, for roughness `α` and third draw `ξ`. -/
noncomputable def halfTangent (α ξ : ℝ) : ℝ := if ξ < 1 / 10 ^ 9 then 1 else Real.sqrt (-Real.log ξ / (1 / α ^ 2))

theorem halfTangent_nonneg (α ξ : ℝ) : 0 ≤ halfTangent α ξ := by
  unfold halfTangent
  split_ifs
  · norm_num
  · exact Real.sqrt_nonneg _

theorem wardHalf_iso (n e1 e2 l : Vec3 ℝ) (α xi1 xi2 : ℝ) (hα : 0 < α) :
    wardHalf n e1 e2 l α α xi1 xi2 = l + n.scale ((Dot n l + halfTangent α xi2 * (Real.cos (2 * Real.pi * xi1) * Dot e1 l + Real.sin (2 * Real.pi * xi1) * Dot e2 l)) * (-2) / (1 + halfTangent α xi2 ^ 2)) := by
  set φ := 2 * Real.pi * xi1 with hφ
  have htrig := Real.sin_sq_add_cos_sq φ
  have hsq : Real.sqrt ((Real.cos φ * α) ^ 2 + (Real.sin φ * α) ^ 2) = α := by
    have : (Real.cos φ * α) ^ 2 + (Real.sin φ * α) ^ 2 = α ^ 2 := by
      calc _ = (Real.sin φ ^ 2 + Real.cos φ ^ 2) * α ^ 2 := by ring
        _ = α ^ 2 := by rw [htrig, one_mul]
    rw [this, Real.sqrt_sq hα.le]
  have hden : (Real.cos φ * α * (1 / α) / α) ^ 2 + (Real.sin φ * α * (1 / α) / α) ^ 2 = 1 / α ^ 2 := by
    calc _ = (Real.sin φ ^ 2 + Real.cos φ ^ 2) / α ^ 2 := by field_simp; ring
      _ = 1 / α ^ 2 := by rw [htrig]
  have hc : ∀ x, x * α * (1 / α) = x := fun x => by field_simp
  unfold wardHalf
  simp only [← hφ, hsq, hden, Vec3.dot_eq]
  rw [← halfTangent]
  have hdot : ∀ p q t : ℝ, Dot (n + (e1.scale p).scale t + (e2.scale q).scale t) l = Dot n l + t * (p * Dot e1 l + q * Dot e2 l) := by
    intro p q t
    simp only [Dot, Vec3.add_x, Vec3.add_y, Vec3.add_z, Vec3.scale_x, Vec3.scale_y, Vec3.scale_z]; ring
  rw [hdot, hc, hc]

/-- The reflected vector before normalisation, for a ray coming from `l`. -/
noncomputable def glossyRaw (n e1 e2 l : Vec3 ℝ) (α : ℝ) (d : ℝ × ℝ) : Vec3 ℝ :=
  l + n.scale ((Dot n l + halfTangent α d.2 * (Real.cos (2 * Real.pi * d.1) * Dot e1 l + Real.sin (2 * Real.pi * d.1) * Dot e2 l)) * (-2) / (1 + halfTangent α d.2 ^ 2))

/-- For a ray that comes from outside the surface the loop ends in its first pass. -/
theorem sampleWard_outside (fuel : Nat) (n e1 e2 pt : Vec3 ℝ) (s r : ℝ) (ray : TRay) (hin : Dot ray.geometry.direction n < 0) (q : ℝ) (d : ℝ × ℝ) (rest : Rng) (hq : q < s) :
    sampleWard (fuel + 1) n e1 e2 pt s r r ray (Rng.cons q (Rng.cons2 d rest)) =
      if wardIsNaN n s ray.geometry.direction ((glossyRaw n e1 e2 (ray.geometry.direction.scale (-1)) (clampRoughness r) d).normalized.scale (-1)) ∨ glossyRaw n e1 e2 (ray.geometry.direction.scale (-1)) (clampRoughness r) d = 0 then .panic
      else .ok (((evaluateWard n e1 e2 s (clampRoughness r) (clampRoughness r) ray.geometry.direction ((glossyRaw n e1 e2 (ray.geometry.direction.scale (-1)) (clampRoughness r) d).normalized.scale (-1))).1,
        (evaluateWard n e1 e2 s (clampRoughness r) (clampRoughness r) ray.geometry.direction ((glossyRaw n e1 e2 (ray.geometry.direction.scale (-1)) (clampRoughness r) d).normalized.scale (-1))).2,
        2 / (1 + Dot (glossyRaw n e1 e2 (ray.geometry.direction.scale (-1)) (clampRoughness r) d).normalized n / Dot (ray.geometry.direction.scale (-1)) n)),
        { ray with geometry := ⟨pt + n.scale (1 / 10 ^ 5), (glossyRaw n e1 e2 (ray.geometry.direction.scale (-1)) (clampRoughness r) d).normalized⟩ }, rest) := by
  have hl : (ray.geometry.direction.scale (-1)).dot n > 0 := by
    rw [Vec3.dot_eq]
    have : Dot (ray.geometry.direction.scale (-1)) n = -Dot ray.geometry.direction n := by simp only [Dot, Vec3.scale_x, Vec3.scale_y, Vec3.scale_z]; ring
    rw [this]; linarith
  have hw : wardHalf n e1 e2 (ray.geometry.direction.scale (-1)) (clampRoughness r) (clampRoughness r) d.1 d.2 = glossyRaw n e1 e2 (ray.geometry.direction.scale (-1)) (clampRoughness r) d :=
    wardHalf_iso n e1 e2 _ _ _ _ (clampRoughness_pos r)
  unfold sampleWard
  simp only [Rng.gen, Rng.cons, hq, if_true]
  unfold wardLoop
  simp only [Rng.gen2, Rng.cons2, hl, or_true, if_true, hw]
  rfl

/-- The length of the reflected vector, and its height above the surface. -/
theorem along_normal (n l : Vec3 ℝ) (hn : Dot n n = 1) (hl : Dot l l = 1) (D : ℝ) :
    Dot (l + n.scale D) n = Dot n l + D ∧ Dot (l + n.scale D) (l + n.scale D) = 1 + 2 * D * Dot n l + D ^ 2 := by
  constructor
  · have : Dot (l + n.scale D) n = Dot n l + D * Dot n n := by simp only [Dot, Vec3.add_x, Vec3.add_y, Vec3.add_z, Vec3.scale_x, Vec3.scale_y, Vec3.scale_z]; ring
    rw [this, hn]; ring
  · have : Dot (l + n.scale D) (l + n.scale D) = Dot l l + 2 * D * Dot n l + D ^ 2 * Dot n n := by simp only [Dot, Vec3.add_x, Vec3.add_y, Vec3.add_z, Vec3.scale_x, Vec3.scale_y, Vec3.scale_z]; ring
    rw [this, hn, hl]; ring

/-- Off the normal, the sampler panics only when the half vector is at right angles to the ray. -/
theorem panics_only_if (n e1 e2 i : Vec3 ℝ) (s α : ℝ) (hn : Norm n = 1) (hd : Norm i = 1) (hin : Dot i n < 0) (hoff : i ≠ n.scale (-1)) (d : ℝ × ℝ)
    (h : wardIsNaN n s i ((glossyRaw n e1 e2 (i.scale (-1)) α d).normalized.scale (-1)) ∨ glossyRaw n e1 e2 (i.scale (-1)) α d = 0) :
    Dot n (i.scale (-1)) + halfTangent α d.2 * (Real.cos (2 * Real.pi * d.1) * Dot e1 (i.scale (-1)) + Real.sin (2 * Real.pi * d.1) * Dot e2 (i.scale (-1))) = 0 := by
  set l := i.scale (-1) with hl
  have hil : i = l.scale (-1) := by rw [hl]; ext <;> simp
  set g := Dot n l + halfTangent α d.2 * (Real.cos (2 * Real.pi * d.1) * Dot e1 l + Real.sin (2 * Real.pi * d.1) * Dot e2 l) with hg
  have hll : Dot l l = 1 := by
    have : Dot l l = Dot i i := by rw [hl]; simp only [Dot, Vec3.scale_x, Vec3.scale_y, Vec3.scale_z]; ring
    rw [this, Dot_self_of_norm hd]
  have hnn := Dot_self_of_norm hn
  have hc : 0 < Dot n l := by
    have : Dot n l = -Dot i n := by rw [hl]; simp only [Dot, Vec3.scale_x, Vec3.scale_y, Vec3.scale_z]; ring
    rw [this]; linarith
  have hsub : Dot (l - n.scale (Dot n l)) (l - n.scale (Dot n l)) = 1 - Dot n l ^ 2 := by
    have : Dot (l - n.scale (Dot n l)) (l - n.scale (Dot n l)) = Dot l l - 2 * Dot n l * Dot n l + Dot n l ^ 2 * Dot n n := by
      simp only [Dot, Vec3.sub_x, Vec3.sub_y, Vec3.sub_z, Vec3.scale_x, Vec3.scale_y, Vec3.scale_z]; ring
    rw [this, hll, hnn]; ring
  have hc1 : Dot n l ^ 2 ≠ 1 := by
    intro h1
    rw [h1, sub_self] at hsub
    have hone : Dot n l = 1 := by nlinarith
    rw [hone] at hsub
    apply hoff
    rw [hil]
    have hz : l - n.scale 1 = 0 := by
      simp only [Dot] at hsub
      ext
      · show (l - n.scale 1).x = 0; nlinarith [sq_nonneg (l - n.scale 1).x, sq_nonneg (l - n.scale 1).y, sq_nonneg (l - n.scale 1).z]
      · show (l - n.scale 1).y = 0; nlinarith [sq_nonneg (l - n.scale 1).x, sq_nonneg (l - n.scale 1).y, sq_nonneg (l - n.scale 1).z]
      · show (l - n.scale 1).z = 0; nlinarith [sq_nonneg (l - n.scale 1).x, sq_nonneg (l - n.scale 1).y, sq_nonneg (l - n.scale 1).z]
    have hx := congrArg Vec3.x hz
    have hy := congrArg Vec3.y hz
    have hz' := congrArg Vec3.z hz
    simp at hx hy hz'
    ext <;> simp <;> linarith
  set D := g * (-2) / (1 + halfTangent α d.2 ^ 2) with hD
  have hraw : glossyRaw n e1 e2 l α d = l + n.scale D := rfl
  rw [hraw] at h
  obtain ⟨a1, a2⟩ := along_normal n l hnn hll D
  have hlen : 0 < 1 + 2 * D * Dot n l + D ^ 2 := by
    have hlt : Dot n l ^ 2 < 1 := by
      have : 0 ≤ Dot (l - n.scale (Dot n l)) (l - n.scale (Dot n l)) := by simp only [Dot]; nlinarith [sq_nonneg (l - n.scale (Dot n l)).x, sq_nonneg (l - n.scale (Dot n l)).y, sq_nonneg (l - n.scale (Dot n l)).z]
      exact lt_of_le_of_ne (by linarith) hc1
    nlinarith [sq_nonneg (D + Dot n l)]
  have hDz : D = 0 := by
    rcases h with ⟨_, _, h⟩ | h
    · rw [Vec3.dot_eq, hil] at h
      have e : Dot ((l + n.scale D).normalized.scale (-1) - l.scale (-1)) n = Dot n l - Dot (l + n.scale D).normalized n := by
        simp only [Dot, Vec3.sub_x, Vec3.sub_y, Vec3.sub_z, Vec3.scale_x, Vec3.scale_y, Vec3.scale_z]; ring
      rw [e, sub_eq_zero] at h
      have hN : 0 < Norm (l + n.scale D) := by
        have hsq : Norm (l + n.scale D) ^ 2 = 1 + 2 * D * Dot n l + D ^ 2 := by rw [Norm_sq, a2]
        rcases (Norm_nonneg (l + n.scale D)).eq_or_lt with h0 | h0
        · rw [← h0] at hsq; norm_num at hsq; linarith
        · exact h0
      have e2 : Dot (l + n.scale D).normalized n = Dot (l + n.scale D) n / Norm (l + n.scale D) := by
        rw [normalized_eq]; simp only [Dot, Vec3.scale_x, Vec3.scale_y, Vec3.scale_z]; field_simp
      rw [e2, a1, eq_div_iff hN.ne'] at h
      have hpos : 0 < Dot n l + D := by rw [← h]; positivity
      have hsq : Norm (l + n.scale D) ^ 2 = 1 + 2 * D * Dot n l + D ^ 2 := by rw [Norm_sq, a2]
      have h2 : Dot n l ^ 2 * (1 + 2 * D * Dot n l + D ^ 2) = (Dot n l + D) ^ 2 := by rw [← hsq, ← mul_pow, h]
      have h3 : D * ((Dot n l ^ 2 - 1) * (2 * Dot n l + D)) = 0 := by linear_combination h2
      rcases mul_eq_zero.1 h3 with h3 | h3
      · exact h3
      · rcases mul_eq_zero.1 h3 with h3 | h3
        · exact absurd (by linarith) hc1
        · linarith
    · have z : Dot (0 : Vec3 ℝ) 0 = 0 := by simp [Dot]
      rw [h, z] at a2
      linarith
  have hden : (0 : ℝ) < 1 + halfTangent α d.2 ^ 2 := by positivity
  rw [hD, div_eq_zero_iff] at hDz
  rcases hDz with h | h
  · linarith
  · linarith

/-! ### Off the normal: almost never -/

/-- Angles at which a wave takes a given value, other than none or all of them, are countable. -/
theorem wave_countable (a b c : ℝ) (hab : ¬ (a = 0 ∧ b = 0)) : {φ : ℝ | c + (Real.cos φ * a + Real.sin φ * b) = 0}.Countable := by
  by_cases hne : ∃ φ0 : ℝ, c + (Real.cos φ0 * a + Real.sin φ0 * b) = 0
  · obtain ⟨φ0, h0⟩ := hne
    have hR : 0 < a ^ 2 + b ^ 2 := by
      rcases not_and_or.1 hab with h | h
      · have := sq_pos_of_ne_zero h; nlinarith [sq_nonneg b]
      · have := sq_pos_of_ne_zero h; nlinarith [sq_nonneg a]
    set R := Real.sqrt (a ^ 2 + b ^ 2) with hRdef
    have hR0 : 0 < R := Real.sqrt_pos.2 hR
    have hR2 : R ^ 2 = a ^ 2 + b ^ 2 := Real.sq_sqrt hR.le
    obtain ⟨θ, hθ1, hθ2⟩ : ∃ θ, a = R * Real.cos θ ∧ b = R * Real.sin θ := by
      refine ⟨Complex.arg ⟨a, b⟩, ?_, ?_⟩
      · have hn : ‖(⟨a, b⟩ : ℂ)‖ = R := by rw [Complex.norm_eq_sqrt_sq_add_sq]
        rw [← hn, Complex.norm_mul_cos_arg]
      · have hn : ‖(⟨a, b⟩ : ℂ)‖ = R := by rw [Complex.norm_eq_sqrt_sq_add_sq]
        rw [← hn, Complex.norm_mul_sin_arg]
    have hform : ∀ φ, Real.cos φ * a + Real.sin φ * b = R * Real.cos (φ - θ) := by
      intro φ
      rw [Real.cos_sub, hθ1, hθ2]; ring
    rw [hform] at h0
    refine Set.Countable.mono (s₂ := (Set.range fun k : ℤ => 2 * k * Real.pi + (φ0 - θ) + θ) ∪ Set.range fun k : ℤ => 2 * k * Real.pi - (φ0 - θ) + θ) ?_ ((Set.countable_range _).union (Set.countable_range _))
    intro φ hφ
    rw [mem_setOf_eq, hform] at hφ
    have : Real.cos (φ0 - θ) = Real.cos (φ - θ) := by
      have := mul_left_cancel₀ hR0.ne' (show R * Real.cos (φ0 - θ) = R * Real.cos (φ - θ) by linarith)
      exact this
    obtain ⟨k, hk | hk⟩ := Real.cos_eq_cos_iff.1 this
    · exact Or.inl ⟨k, by simp only; linarith⟩
    · exact Or.inr ⟨k, by simp only; linarith⟩
  · convert Set.countable_empty
    ext φ
    simp only [mem_setOf_eq, mem_empty_iff_false, iff_false]
    exact fun h => hne ⟨φ, h⟩

theorem halfTangent_measurable (α : ℝ) : Measurable (halfTangent α) := by
  unfold halfTangent
  refine Measurable.ite measurableSet_Iio measurable_const ?_
  exact ((Real.measurable_log.neg).div_const _).sqrt

/-- The draws for which the half vector is at right angles to the ray have probability zero. -/
theorem right_angle_null (a b c α : ℝ) (hα : 0 < α) (hc : 0 < c) (hab : ¬ (a = 0 ∧ b = 0)) :
    Probability (fun d => c + halfTangent α d.2 * (Real.cos (2 * Real.pi * d.1) * a + Real.sin (2 * Real.pi * d.1) * b) = 0) = 0 := by
  unfold Probability
  have hmeas : MeasurableSet {d : ℝ × ℝ | d ∈ unitSquare ∧ c + halfTangent α d.2 * (Real.cos (2 * Real.pi * d.1) * a + Real.sin (2 * Real.pi * d.1) * b) = 0} := by
    refine (measurableSet_Ico.prod measurableSet_Ico).inter ?_
    refine measurableSet_eq_fun (f := fun d : ℝ × ℝ => c + halfTangent α d.2 * (Real.cos (2 * Real.pi * d.1) * a + Real.sin (2 * Real.pi * d.1) * b)) ?_ measurable_const
    have h1 := (halfTangent_measurable α).comp (measurable_snd : Measurable (Prod.snd : ℝ × ℝ → ℝ))
    have h2 : Measurable fun d : ℝ × ℝ => 2 * Real.pi * d.1 := measurable_fst.const_mul _
    exact measurable_const.add (h1.mul ((h2.cos.mul_const _).add (h2.sin.mul_const _)))
  rw [show (volume : Measure (ℝ × ℝ)) = (volume : Measure ℝ).prod volume from rfl, Measure.measure_prod_null hmeas]
  have hZ : {x : ℝ | c + (Real.cos (2 * Real.pi * x) * a + Real.sin (2 * Real.pi * x) * b) = 0}.Countable := by
    refine (wave_countable a b c hab).preimage_of_injOn (f := fun x : ℝ => 2 * Real.pi * x) ?_
    intro x _ y _ h
    exact mul_left_cancel₀ (by have := Real.pi_pos; positivity) h
  filter_upwards [hZ.ae_notMem volume] with x hx
  simp only [Pi.zero_apply]
  refine Set.Subsingleton.measure_zero ?_ _
  rintro y ⟨⟨_, hy0, hy1⟩, hy⟩ z ⟨⟨_, hz0, hz1⟩, hz⟩
  simp only at hy hz hy0 hy1 hz0 hz1
  have side : ∀ y : ℝ, c + halfTangent α y * (Real.cos (2 * Real.pi * x) * a + Real.sin (2 * Real.pi * x) * b) = 0 → 1 / 10 ^ 9 ≤ y := by
    intro y hy
    by_contra hlt
    rw [halfTangent, if_pos (not_le.1 hlt), one_mul] at hy
    exact hx hy
  have hk : Real.cos (2 * Real.pi * x) * a + Real.sin (2 * Real.pi * x) * b ≠ 0 := by
    intro h0
    rw [h0, mul_zero] at hy
    linarith
  have heq : halfTangent α y = halfTangent α z := mul_right_cancel₀ hk (by linarith)
  have hy' := side y hy
  have hz' := side z hz
  have p : ∀ y : ℝ, 1 / 10 ^ 9 ≤ y → y < 1 → 0 < y ∧ 0 ≤ -Real.log y / (1 / α ^ 2) := by
    intro y h h1
    have h0 : 0 < y := lt_of_lt_of_le (by norm_num) h
    exact ⟨h0, div_nonneg (by linarith [Real.log_neg h0 h1]) (by positivity)⟩
  obtain ⟨y0, yl⟩ := p y hy' hy1
  obtain ⟨z0, zl⟩ := p z hz' hz1
  rw [halfTangent, halfTangent, if_neg (not_lt.2 hy'), if_neg (not_lt.2 hz'), Real.sqrt_inj yl zl] at heq
  have : Real.log y = Real.log z := by
    have hα2 : (1 / α ^ 2 : ℝ) ≠ 0 := by positivity
    have := (div_left_inj' hα2).1 heq
    linarith
  exact Real.log_injOn_pos y0 z0 this

/-- **C74 (partial): no panics off the normal.** A ray that comes from outside the surface, not exactly head-on, and is sampled by a plastic or metal of any specularity and roughness: whatever the draw that chooses the branch, the sampler panics with probability zero,
and it never loops. (Missing: head-on rays, see `C74_violation_panic_probability`.) -/
theorem C74_almost_never_panics_partial (fuel : Nat) (c : Spectrum ℝ) (s r : ℝ) (n e1 e2 pt : Vec3 ℝ) (hf : Frame e1 e2 n) (ray : TRay) (hd : Norm ray.geometry.direction = 1) (hin : Dot ray.geometry.direction n < 0)
    (hoff : ray.geometry.direction ≠ n.scale (-1)) (q : ℝ) (rest : Rng) : ∀ m ∈ [Material.plastic c s r, Material.metal c s r],
    Probability (fun d => m.sampleBsdf (fuel + 1) n e1 e2 pt ray (Rng.cons q (Rng.cons2 d rest)) = .panic) = 0 ∧
    ∀ d, m.sampleBsdf (fuel + 1) n e1 e2 pt ray (Rng.cons q (Rng.cons2 d rest)) ≠ .diverge := by
  set l := ray.geometry.direction.scale (-1) with hl
  have hc : 0 < Dot n l := by
    have : Dot n l = -Dot ray.geometry.direction n := by rw [hl]; simp only [Dot, Vec3.scale_x, Vec3.scale_y, Vec3.scale_z]; ring
    rw [this]; linarith
  have hll : Dot l l = 1 := by
    have : Dot l l = Dot ray.geometry.direction ray.geometry.direction := by rw [hl]; simp only [Dot, Vec3.scale_x, Vec3.scale_y, Vec3.scale_z]; ring
    rw [this, Dot_self_of_norm hd]
  have hab : ¬ (Dot e1 l = 0 ∧ Dot e2 l = 0) := by
    rintro ⟨h1, h2⟩
    have comm : ∀ u v : Vec3 ℝ, Dot u v = Dot v u := fun u v => by simp only [Dot]; ring
    have h := frame_complete hf l
    rw [comm l e1, comm l e2, h1, h2] at h
    have h3 := frame_sq hf l
    rw [comm l e1, comm l e2, h1, h2, hll] at h3
    have hone : Dot l n = 1 := by
      rw [comm] at hc
      nlinarith
    rw [hone] at h
    apply hoff
    have hx := congrArg Vec3.x h
    have hy := congrArg Vec3.y h
    have hz := congrArg Vec3.z h
    simp [hl] at hx hy hz
    ext <;> simp <;> linarith
  have hzero := right_angle_null (Dot e1 l) (Dot e2 l) (Dot n l) (clampRoughness r) (clampRoughness_pos r) hc hab
  have main : ∀ d, sampleWard (fuel + 1) n e1 e2 pt s r r ray (Rng.cons q (Rng.cons2 d rest)) ≠ .diverge ∧ (sampleWard (fuel + 1) n e1 e2 pt s r r ray (Rng.cons q (Rng.cons2 d rest)) = .panic →
      Dot n l + halfTangent (clampRoughness r) d.2 * (Real.cos (2 * Real.pi * d.1) * Dot e1 l + Real.sin (2 * Real.pi * d.1) * Dot e2 l) = 0) := by
    intro d
    by_cases hq : q < s
    · rw [sampleWard_outside fuel n e1 e2 pt s r ray hin q d rest hq]
      split_ifs with h
      · exact ⟨by simp, fun _ => panics_only_if n e1 e2 _ s _ hf.n3 hd hin hoff d h⟩
      · exact ⟨by simp, fun h => by cases h⟩
    · unfold sampleWard
      simp only [Rng.gen, Rng.cons, hq, if_false]
      exact ⟨by simp, fun h => by cases h⟩
  intro m hm
  simp only [List.mem_cons, List.not_mem_nil, or_false] at hm
  have hP : ∀ d, (m.sampleBsdf (fuel + 1) n e1 e2 pt ray (Rng.cons q (Rng.cons2 d rest)) = .panic → sampleWard (fuel + 1) n e1 e2 pt s r r ray (Rng.cons q (Rng.cons2 d rest)) = .panic) ∧
      (m.sampleBsdf (fuel + 1) n e1 e2 pt ray (Rng.cons q (Rng.cons2 d rest)) = .diverge → sampleWard (fuel + 1) n e1 e2 pt s r r ray (Rng.cons q (Rng.cons2 d rest)) = .diverge) := by
    intro d
    rcases hm with rfl | rfl <;> simp only [Material.sampleBsdf] <;> cases sampleWard (fuel + 1) n e1 e2 pt s r r ray (Rng.cons q (Rng.cons2 d rest)) <;> simp [Res.bind]
  refine ⟨?_, fun d h => (main d).1 ((hP d).2 h)⟩
  refine measure_mono_null ?_ hzero
  rintro d ⟨h1, h2⟩
  exact ⟨h1, (main d).2 ((hP d).1 h2)⟩

/-! ### Head-on: the probability of a panic -/

theorem halfTangent_sq (α ξ : ℝ) (hα : 0 < α) (h0 : 1 / 10 ^ 9 ≤ ξ) (h1 : ξ < 1) : halfTangent α ξ ^ 2 = α ^ 2 * -Real.log ξ := by
  have hξ : 0 < ξ := lt_of_lt_of_le (by norm_num) h0
  rw [halfTangent, if_neg (not_lt.2 h0), Real.sq_sqrt (div_nonneg (by linarith [Real.log_neg hξ h1]) (by positivity))]
  field_simp

/-- Small draws make wide half vectors. -/
theorem halfTangent_ge (α ξ t : ℝ) (hα : 0 < α) (h0 : 0 ≤ ξ) (h1 : ξ < 1) (hlow : 1 / 10 ^ 9 ≤ ξ) : t ≤ halfTangent α ξ ^ 2 ↔ ξ ≤ Real.exp (-t / α ^ 2) := by
  have hξ : 0 < ξ := lt_of_lt_of_le (by norm_num) hlow
  rw [halfTangent_sq α ξ hα hlow h1, ← Real.log_le_iff_le_exp hξ, le_div_iff₀ (by positivity)]
  constructor <;> intro h <;> nlinarith

/-- **C74, violated: the probability of a panic.** A ray that meets a plastic or metal head-on, and for which the specular branch has been drawn, makes the sampler panic with probability `exp(-1/α²)`, where α is the roughness, and never less than `1e-9`. -/
theorem C74_violation_panic_probability (fuel : Nat) (c : Spectrum ℝ) (s r : ℝ) (n e1 e2 pt : Vec3 ℝ) (hf : Frame e1 e2 n) (ray : TRay) (hdir : ray.geometry.direction = n.scale (-1)) (hs : 1 / 10 ^ 5 < s) (q : ℝ) (hq : q < s) (rest : Rng) :
    ∀ m ∈ [Material.plastic c s r, Material.metal c s r], Probability (fun d => m.sampleBsdf (fuel + 1) n e1 e2 pt ray (Rng.cons q (Rng.cons2 d rest)) = .panic) =
      ENNReal.ofReal (max (Real.exp (-1 / clampRoughness r ^ 2)) (1 / 10 ^ 9)) := by
  have hα := clampRoughness_pos r
  have hnn := Dot_self_of_norm hf.n3
  have hl : ray.geometry.direction.scale (-1) = n := by rw [hdir]; ext <;> simp
  have hin : Dot ray.geometry.direction n < 0 := by
    have : Dot ray.geometry.direction n = -Dot n n := by rw [hdir]; simp only [Dot, Vec3.scale_x, Vec3.scale_y, Vec3.scale_z]; ring
    rw [this, hnn]; norm_num
  have hraw : ∀ d, glossyRaw n e1 e2 n (clampRoughness r) d = n.scale (1 - 2 / (1 + halfTangent (clampRoughness r) d.2 ^ 2)) := by
    intro d
    unfold glossyRaw
    rw [hnn, hf.d13, hf.d23]
    ext <;> simp <;> ring
  have hiff : ∀ d, sampleWard (fuel + 1) n e1 e2 pt s r r ray (Rng.cons q (Rng.cons2 d rest)) = .panic ↔ 1 ≤ halfTangent (clampRoughness r) d.2 ^ 2 := by
    intro d
    rw [sampleWard_outside fuel n e1 e2 pt s r ray hin q d rest hq, hl, hraw]
    set δ := halfTangent (clampRoughness r) d.2 with hδ
    have hden : 0 < 1 + δ ^ 2 := by positivity
    set k := 1 - 2 / (1 + δ ^ 2) with hk
    have hscale : Dot (n.scale k) n = k := by
      have : Dot (n.scale k) n = k * Dot n n := by simp only [Dot, Vec3.scale_x, Vec3.scale_y, Vec3.scale_z]; ring
      rw [this, hnn, mul_one]
    have hNk : Norm (n.scale k) = |k| := by
      rw [← Real.sqrt_sq (Norm_nonneg _), Norm_sq]
      have : Dot (n.scale k) (n.scale k) = k ^ 2 * Dot n n := by simp only [Dot, Vec3.scale_x, Vec3.scale_y, Vec3.scale_z]; ring
      rw [this, hnn, mul_one, Real.sqrt_sq_eq_abs]
    have hvN : Dot (n.scale k).normalized n = k / |k| := by
      rw [normalized_eq, hNk]
      have : ∀ t : ℝ, Dot ((n.scale k).scale t) n = t * Dot (n.scale k) n := fun t => by simp only [Dot, Vec3.scale_x, Vec3.scale_y, Vec3.scale_z]; ring
      rw [this, hscale]; ring
    have hnan : wardIsNaN n s ray.geometry.direction ((n.scale k).normalized.scale (-1)) ↔ k / |k| = 1 := by
      unfold wardIsNaN
      rw [Vec3.dot_eq, Vec3.dot_eq]
      have e : Dot ((n.scale k).normalized.scale (-1) - ray.geometry.direction) n = Dot n n - Dot (n.scale k).normalized n := by
        rw [hdir]; simp only [Dot, Vec3.sub_x, Vec3.sub_y, Vec3.sub_z, Vec3.scale_x, Vec3.scale_y, Vec3.scale_z]; ring
      rw [e, hnn, hvN]
      constructor
      · rintro ⟨_, _, h⟩; linarith
      · intro h; exact ⟨hs, by linarith, by linarith⟩
    have hkpos : 0 ≤ k ↔ 1 ≤ δ ^ 2 := by
      rw [hk, sub_nonneg, div_le_iff₀ hden]
      constructor <;> intro h <;> linarith
    rw [← hkpos]
    constructor
    · intro h
      split_ifs at h with hc
      rcases hc with hc | hc
      · rw [hnan] at hc
        by_contra hneg
        rw [abs_of_neg (not_le.1 hneg), div_neg, div_self (not_le.1 hneg).ne] at hc
        norm_num at hc
      · rw [hc] at hscale
        simp [Dot] at hscale
        exact hscale.le
    · intro h
      rw [if_pos]
      rcases h.eq_or_lt with h0 | h0
      · right; rw [← h0]; ext <;> simp
      · left; rw [hnan, abs_of_pos h0, div_self h0.ne']
  have hset : {d : ℝ × ℝ | d ∈ unitSquare ∧ 1 ≤ halfTangent (clampRoughness r) d.2 ^ 2} = Ico (0 : ℝ) 1 ×ˢ {ξ : ℝ | ξ ∈ Ico (0 : ℝ) 1 ∧ 1 ≤ halfTangent (clampRoughness r) ξ ^ 2} := by
    ext d
    simp only [unitSquare, mem_setOf_eq, mem_prod]
    tauto
  set M := max (Real.exp (-1 / clampRoughness r ^ 2)) (1 / 10 ^ 9) with hM
  have hexp : Real.exp (-1 / clampRoughness r ^ 2) < 1 := by
    rw [Real.exp_lt_one_iff]
    exact div_neg_of_neg_of_pos (by norm_num) (by positivity)
  have hvol : volume {ξ : ℝ | ξ ∈ Ico (0 : ℝ) 1 ∧ 1 ≤ halfTangent (clampRoughness r) ξ ^ 2} = ENNReal.ofReal M := by
    apply le_antisymm
    · calc _ ≤ volume (Icc (0 : ℝ) M) := measure_mono (by
              rintro ξ ⟨⟨h0, h1⟩, h⟩
              refine ⟨h0, ?_⟩
              by_cases hlow : 1 / 10 ^ 9 ≤ ξ
              · exact le_max_of_le_left ((halfTangent_ge _ ξ 1 hα h0 h1 hlow).1 h)
              · exact le_max_of_le_right (not_le.1 hlow).le)
        _ = ENNReal.ofReal M := by rw [Real.volume_Icc, sub_zero]
    · calc ENNReal.ofReal M = volume (Ico (0 : ℝ) M) := by rw [Real.volume_Ico, sub_zero]
        _ ≤ _ := measure_mono (by
              rintro ξ ⟨h0, h1⟩
              have h1' : ξ < 1 := lt_of_lt_of_le h1 (max_le hexp.le (by norm_num))
              refine ⟨⟨h0, h1'⟩, ?_⟩
              by_cases hlow : 1 / 10 ^ 9 ≤ ξ
              · refine (halfTangent_ge _ ξ 1 hα h0 h1' hlow).2 ?_
                rcases lt_max_iff.1 h1 with h | h
                · exact h.le
                · exact absurd h (not_lt.2 hlow)
              · rw [halfTangent, if_pos (not_le.1 hlow)]; norm_num)
  intro m hm
  simp only [List.mem_cons, List.not_mem_nil, or_false] at hm
  have hP : ∀ d, m.sampleBsdf (fuel + 1) n e1 e2 pt ray (Rng.cons q (Rng.cons2 d rest)) = .panic ↔ sampleWard (fuel + 1) n e1 e2 pt s r r ray (Rng.cons q (Rng.cons2 d rest)) = .panic := by
    intro d
    rcases hm with rfl | rfl <;> simp only [Material.sampleBsdf] <;> cases sampleWard (fuel + 1) n e1 e2 pt s r r ray (Rng.cons q (Rng.cons2 d rest)) <;> simp [Res.bind]
  unfold Probability
  simp only [hP, hiff]
  rw [hset, show (volume : Measure (ℝ × ℝ)) = (volume : Measure ℝ).prod volume from rfl, Measure.prod_prod, hvol, Real.volume_Ico]
  norm_num

/-! ### Into the surface, from every direction -/

theorem len_pos (μ D : ℝ) (hμ : μ ^ 2 ≤ 1) (h : μ + D < 0) : 0 < 1 + 2 * D * μ + D ^ 2 := by
  have h2 : 0 < (μ + D) ^ 2 := sq_pos_of_neg h
  linarith [show 1 + 2 * D * μ + D ^ 2 = (μ + D) ^ 2 + (1 - μ ^ 2) by ring]

/-- **C74, violated: into the surface, from every direction.** A ray that comes from outside a plastic or metal, at cosine `μ` to the normal, and for which the specular branch has been drawn: whenever `δ(2√(1-μ²) + μδ) ≤ μ`, the probability that it continues *into* the surface
is at least `1 - exp(-δ²/α²)` (or `1 - 1e-9`), where α is the roughness. It should be zero. -/
theorem C74_violation_into_surface_probability (fuel : Nat) (c : Spectrum ℝ) (s r : ℝ) (n e1 e2 pt : Vec3 ℝ) (hf : Frame e1 e2 n) (ray : TRay) (hd : Norm ray.geometry.direction = 1) (hin : Dot ray.geometry.direction n < 0) (q : ℝ) (hq : q < s) (rest : Rng)
    (δ0 : ℝ) (hδ0 : 0 ≤ δ0) (hμ : δ0 * (2 * Real.sqrt (1 - Dot ray.geometry.direction n ^ 2) + -Dot ray.geometry.direction n * δ0) ≤ -Dot ray.geometry.direction n) :
    ∀ m ∈ [Material.plastic c s r, Material.metal c s r], ENNReal.ofReal (1 - max (Real.exp (-δ0 ^ 2 / clampRoughness r ^ 2)) (1 / 10 ^ 9)) ≤
      Probability (fun d => ∃ bsdf pdf ray' rng', m.sampleBsdf (fuel + 1) n e1 e2 pt ray (Rng.cons q (Rng.cons2 d rest)) = .ok ((bsdf, pdf), ray', rng') ∧ Dot ray'.geometry.direction n < 0) := by
  have hα := clampRoughness_pos r
  set l := ray.geometry.direction.scale (-1) with hl
  set μ := -Dot ray.geometry.direction n with hμdef
  have hc : Dot n l = μ := by rw [hl, hμdef]; simp only [Dot, Vec3.scale_x, Vec3.scale_y, Vec3.scale_z]; ring
  have hμ0 : 0 < μ := by rw [hμdef]; linarith
  have hll : Dot l l = 1 := by
    have : Dot l l = Dot ray.geometry.direction ray.geometry.direction := by rw [hl]; simp only [Dot, Vec3.scale_x, Vec3.scale_y, Vec3.scale_z]; ring
    rw [this, Dot_self_of_norm hd]
  have hnn := Dot_self_of_norm hf.n3
  have hsq : Dot ray.geometry.direction n ^ 2 = μ ^ 2 := by rw [hμdef]; ring
  rw [hsq] at hμ
  have comm : ∀ u v : Vec3 ℝ, Dot u v = Dot v u := fun u v => by simp only [Dot]; ring
  have hparts : Dot e1 l ^ 2 + Dot e2 l ^ 2 = 1 - μ ^ 2 := by
    have := frame_sq hf l
    rw [hll, comm l n, comm l e1, comm l e2, hc] at this
    linarith
  have hk : ∀ φ, -Real.sqrt (1 - μ ^ 2) ≤ Real.cos φ * Dot e1 l + Real.sin φ * Dot e2 l := by
    intro φ
    have htrig := Real.sin_sq_add_cos_sq φ
    have hle : (Real.cos φ * Dot e1 l + Real.sin φ * Dot e2 l) ^ 2 ≤ 1 - μ ^ 2 := by
      rw [← hparts]
      nlinarith [sq_nonneg (Real.cos φ * Dot e2 l - Real.sin φ * Dot e1 l)]
    exact (abs_le.1 (Real.abs_le_sqrt hle)).1
  have key : ∀ d : ℝ × ℝ, halfTangent (clampRoughness r) d.2 < δ0 → ∀ m ∈ [Material.plastic c s r, Material.metal c s r],
      ∃ bsdf pdf ray' rng', m.sampleBsdf (fuel + 1) n e1 e2 pt ray (Rng.cons q (Rng.cons2 d rest)) = .ok ((bsdf, pdf), ray', rng') ∧ Dot ray'.geometry.direction n < 0 := by
    intro d hδ m hm
    set δ := halfTangent (clampRoughness r) d.2 with hδdef
    have hδn : 0 ≤ δ := halfTangent_nonneg _ _
    set κ := Real.cos (2 * Real.pi * d.1) * Dot e1 l + Real.sin (2 * Real.pi * d.1) * Dot e2 l with hκ
    have hκl := hk (2 * Real.pi * d.1)
    rw [← hκ] at hκl
    have hs0 := Real.sqrt_nonneg (1 - μ ^ 2)
    set σ := Real.sqrt (1 - μ ^ 2) with hσ
    set D := (Dot n l + δ * κ) * (-2) / (1 + δ ^ 2) with hD
    have hden : 0 < 1 + δ ^ 2 := by positivity
    have hlow : Dot n l + D < 0 := by
      have h1 : D < -μ := by
        rw [hD, div_lt_iff₀ hden, hc]
        have h2 : δ * (2 * σ + μ * δ) < μ := by
          rcases eq_or_lt_of_le (show δ * (2 * σ + μ * δ) ≤ δ0 * (2 * σ + μ * δ0) from mul_le_mul hδ.le (by nlinarith) (by positivity) hδ0) with h | h
          · have h3 : δ * (2 * σ + μ * δ) < δ0 * (2 * σ + μ * δ0) := by
              have : δ * δ < δ0 * δ0 := by nlinarith
              nlinarith
            linarith
          · linarith
        nlinarith [mul_le_mul_of_nonneg_left hκl hδn]
      rw [hc]; linarith
    have hraw : glossyRaw n e1 e2 l (clampRoughness r) d = l + n.scale D := rfl
    obtain ⟨a1, a2⟩ := along_normal n l hnn hll D
    have hne : l + n.scale D ≠ 0 := by
      intro h
      rw [h] at a1
      simp [Dot] at a1
      simp only [Dot] at hlow
      linarith
    have hN : 0 < Norm (l + n.scale D) := by
      rcases (Norm_nonneg (l + n.scale D)).eq_or_lt with h0 | h0
      · exfalso
        have h2 := Norm_sq (l + n.scale D)
        rw [← h0, a2, hc] at h2
        have hm1 : μ ^ 2 ≤ 1 := by linarith [sq_nonneg (Dot e1 l), sq_nonneg (Dot e2 l)]
        have := len_pos μ D hm1 (by rw [← hc]; exact hlow)
        linarith [h2]
      · exact h0
    have hv : Dot (l + n.scale D).normalized n < 0 := by
      have e2 : Dot (l + n.scale D).normalized n = Dot (l + n.scale D) n / Norm (l + n.scale D) := by
        rw [normalized_eq]; simp only [Dot, Vec3.scale_x, Vec3.scale_y, Vec3.scale_z]; field_simp
      rw [e2, a1]
      exact div_neg_of_neg_of_pos hlow hN
    have hnan : ¬ (wardIsNaN n s ray.geometry.direction ((l + n.scale D).normalized.scale (-1)) ∨ l + n.scale D = 0) := by
      rintro (⟨_, _, h⟩ | h)
      · rw [Vec3.dot_eq] at h
        have e : Dot ((l + n.scale D).normalized.scale (-1) - ray.geometry.direction) n = μ - Dot (l + n.scale D).normalized n := by
          rw [hμdef]; simp only [Dot, Vec3.sub_x, Vec3.sub_y, Vec3.sub_z, Vec3.scale_x, Vec3.scale_y, Vec3.scale_z]; ring
        rw [e] at h
        linarith
      · exact hne h
    have hsw := sampleWard_outside fuel n e1 e2 pt s r ray hin q d rest hq
    rw [← hl, hraw, if_neg hnan] at hsw
    simp only [List.mem_cons, List.not_mem_nil, or_false] at hm
    rcases hm with rfl | rfl
    · exact ⟨_, _, _, _, by simp only [Material.sampleBsdf, hsw, Res.bind_ok]; rfl, hv⟩
    · exact ⟨_, _, _, _, by simp only [Material.sampleBsdf, hsw, Res.bind_ok]; rfl, hv⟩
  intro m hm
  set M := max (Real.exp (-δ0 ^ 2 / clampRoughness r ^ 2)) (1 / 10 ^ 9) with hM
  have hM0 : 0 < M := lt_max_of_lt_left (Real.exp_pos _)
  calc ENNReal.ofReal (1 - M) = volume (Ico (0 : ℝ) 1 ×ˢ Ioo M 1) := by
        rw [show (volume : Measure (ℝ × ℝ)) = (volume : Measure ℝ).prod volume from rfl, Measure.prod_prod, Real.volume_Ico, Real.volume_Ioo]
        norm_num
    _ ≤ _ := by
        refine measure_mono ?_
        rintro d ⟨h1, h2, h3⟩
        refine ⟨⟨h1, by linarith, h3⟩, key d ?_ m hm⟩
        have hlow : 1 / 10 ^ 9 ≤ d.2 := (le_max_right _ _).trans h2.le
        by_contra hge
        have hge' : δ0 ^ 2 ≤ halfTangent (clampRoughness r) d.2 ^ 2 := by
          have := not_lt.1 hge
          nlinarith
        have := (halfTangent_ge _ d.2 (δ0 ^ 2) hα (by linarith) h3 hlow).1 hge'
        linarith [le_max_left (Real.exp (-δ0 ^ 2 / clampRoughness r ^ 2)) (1 / 10 ^ 9)]

/-- At 45° to a plastic of roughness 0.1 the hypotheses hold with `δ = 2/5`: more than 99% of the specular samples go into the surface. -/
example : ∃ (ray : TRay) (n e1 e2 : Vec3 ℝ), Frame e1 e2 n ∧ Norm ray.geometry.direction = 1 ∧ Dot ray.geometry.direction n < 0 ∧ ray.geometry.direction ≠ n.scale (-1) ∧
    (2 / 5) * (2 * Real.sqrt (1 - Dot ray.geometry.direction n ^ 2) + -Dot ray.geometry.direction n * (2 / 5)) ≤ -Dot ray.geometry.direction n ∧
    max (Real.exp (-(2 / 5) ^ 2 / clampRoughness (1 / 10) ^ 2)) (1 / 10 ^ 9) ≤ 1 / 100 := by
  have h2 : Real.sqrt 2 ^ 2 = 2 := Real.sq_sqrt (by norm_num)
  have hp : 0 < Real.sqrt 2 := Real.sqrt_pos.2 (by norm_num)
  have hsq : (-(1 / Real.sqrt 2)) ^ 2 = (1 / 2 : ℝ) := by rw [neg_sq, div_pow, h2]; norm_num
  have hroot : Real.sqrt (1 - 1 / 2) = 1 / Real.sqrt 2 := by
    rw [show (1 - 1 / 2 : ℝ) = 1 / 2 by norm_num, Real.sqrt_div (by norm_num), Real.sqrt_one]
  have hdot : Dot (⟨1 / Real.sqrt 2, 0, -(1 / Real.sqrt 2)⟩ : Vec3 ℝ) ⟨0, 0, 1⟩ = -(1 / Real.sqrt 2) := by simp [Dot]
  refine ⟨{ TRay.default with geometry := ⟨⟨0, 0, 1⟩, ⟨1 / Real.sqrt 2, 0, -(1 / Real.sqrt 2)⟩⟩ }, ⟨0, 0, 1⟩, ⟨1, 0, 0⟩, ⟨0, 1, 0⟩, ?_, ?_, ?_, ?_, ?_, ?_⟩
  · exact ⟨Norm_eq_one (by simp [Dot]), Norm_eq_one (by simp [Dot]), Norm_eq_one (by simp [Dot]), by simp [Dot], by simp [Dot], by simp [Dot]⟩
  · refine Norm_eq_one ?_
    show 1 / Real.sqrt 2 * (1 / Real.sqrt 2) + 0 * 0 + -(1 / Real.sqrt 2) * -(1 / Real.sqrt 2) = 1
    nlinarith [hsq]
  · show Dot (⟨1 / Real.sqrt 2, 0, -(1 / Real.sqrt 2)⟩ : Vec3 ℝ) ⟨0, 0, 1⟩ < 0
    rw [hdot]
    have : 0 < 1 / Real.sqrt 2 := by positivity
    linarith
  · intro h
    have := congrArg Vec3.x h
    simp at this
  · show 2 / 5 * (2 * Real.sqrt (1 - Dot (⟨1 / Real.sqrt 2, 0, -(1 / Real.sqrt 2)⟩ : Vec3 ℝ) ⟨0, 0, 1⟩ ^ 2) + -Dot (⟨1 / Real.sqrt 2, 0, -(1 / Real.sqrt 2)⟩ : Vec3 ℝ) ⟨0, 0, 1⟩ * (2 / 5)) ≤ -Dot (⟨1 / Real.sqrt 2, 0, -(1 / Real.sqrt 2)⟩ : Vec3 ℝ) ⟨0, 0, 1⟩
    rw [hdot, hsq, hroot]
    have : 0 < 1 / Real.sqrt 2 := by positivity
    linarith
  · have hcl : clampRoughness (1 / 10) = 1 / 10 := by unfold clampRoughness; rw [if_neg (by norm_num)]
    rw [hcl]
    refine max_le ?_ (by norm_num)
    rw [show (-(2 / 5) ^ 2 / (1 / 10) ^ 2 : ℝ) = -(16 : ℕ) * 1 by norm_num, neg_mul, Real.exp_neg, Real.exp_nat_mul]
    have h1 : (2 : ℝ) ≤ Real.exp 1 := by have := Real.add_one_le_exp (1 : ℝ); linarith
    have h16 : (100 : ℝ) ≤ Real.exp 1 ^ 16 := le_trans (by norm_num) (pow_le_pow_left₀ (by norm_num) h1 16)
    rw [show (1 / 100 : ℝ) = (100 : ℝ)⁻¹ by norm_num]
    exact inv_anti₀ (by norm_num) h16

example := fun fuel c q rest => C74_almost_never_panics_partial fuel c (1 / 10) (1 / 10) ⟨0, 0, 1⟩ ⟨1, 0, 0⟩ ⟨0, 1, 0⟩ 0 axes_frame { TRay.default with geometry := ⟨0, ⟨3 / 5, 0, -(4 / 5)⟩⟩ } (Norm_eq_one (by norm_num [Dot])) (by norm_num [Dot]) (by
  intro h
  have := congrArg Vec3.x h
  norm_num at this) q rest

example := fun fuel c rest => C74_violation_panic_probability fuel c (1 / 10) 1 ⟨0, 0, 1⟩ ⟨1, 0, 0⟩ ⟨0, 1, 0⟩ 0 axes_frame { TRay.default with geometry := ⟨0, ⟨0, 0, -1⟩⟩ } (by ext <;> simp) (by norm_num) (1 / 20) (by norm_num) rest

example := fun fuel c rest => C74_violation_into_surface_probability fuel c (1 / 10) (1 / 10) ⟨0, 0, 1⟩ ⟨1, 0, 0⟩ ⟨0, 1, 0⟩ 0 axes_frame { TRay.default with geometry := ⟨0, ⟨3 / 5, 0, -(4 / 5)⟩⟩ } (Norm_eq_one (by norm_num [Dot])) (by norm_num [Dot]) (1 / 20) (by norm_num) rest (2 / 5) (by norm_num) (by
  have hdot : Dot (⟨3 / 5, 0, -(4 / 5)⟩ : Vec3 ℝ) ⟨0, 0, 1⟩ = -(4 / 5) := by norm_num [Dot]
  have hs : Real.sqrt (1 - (-(4 / 5 : ℝ)) ^ 2) = 3 / 5 := by
    rw [show (1 - (-(4 / 5 : ℝ)) ^ 2) = (3 / 5) ^ 2 by norm_num]; exact Real.sqrt_sq (by norm_num)
  simp only [hdot, hs]
  norm_num)

end Rendering
