import Verif.Props.Sunlight

/-!
# C100: direct sunlight on matt surfaces, with shadows
-/

set_option linter.unusedSectionVars false
namespace Rendering

open MeasureTheory Set

/-! ### Frames -/

theorem frame_dot {f1 f2 a : Vec3 ℝ} (hf : Frame f1 f2 a) (u v : Vec3 ℝ) : Dot u v = Dot u a * Dot v a + Dot u f1 * Dot v f1 + Dot u f2 * Dot v f2 := by
  have h := frame_complete hf v
  have lin : ∀ p q r, Dot u (a.scale p + f1.scale q + f2.scale r) = p * Dot u a + q * Dot u f1 + r * Dot u f2 := by
    intro p q r
    simp only [Dot, Vec3.add_x, Vec3.add_y, Vec3.add_z, Vec3.scale_x, Vec3.scale_y, Vec3.scale_z]
    ring
  calc Dot u v = Dot u (a.scale (Dot v a) + f1.scale (Dot v f1) + f2.scale (Dot v f2)) := by rw [h]
    _ = _ := by rw [lin]; ring

/-- The cross product of the first two vectors of a frame is the third, up to sign. -/
theorem frame_cross {e1 e2 n : Vec3 ℝ} (hf : Frame e1 e2 n) : ∃ σ : ℝ, σ ^ 2 = 1 ∧ e1.y * e2.z - e1.z * e2.y = σ * n.x ∧ e1.z * e2.x - e1.x * e2.z = σ * n.y ∧ e1.x * e2.y - e1.y * e2.x = σ * n.z := by
  set c : Vec3 ℝ := ⟨e1.y * e2.z - e1.z * e2.y, e1.z * e2.x - e1.x * e2.z, e1.x * e2.y - e1.y * e2.x⟩ with hc
  have h1 := Dot_self_of_norm hf.n1
  have h2 := Dot_self_of_norm hf.n2
  have d1 := hf.d12
  have k1 : Dot c e1 = 0 := by simp only [Dot, hc]; ring
  have k2 : Dot c e2 = 0 := by simp only [Dot, hc]; ring
  have k3 : Dot c c = 1 := by
    have : Dot c c = Dot e1 e1 * Dot e2 e2 - Dot e1 e2 ^ 2 := by simp only [Dot, hc]; ring
    rw [this, h1, h2, d1]; ring
  have hF := frame_complete hf c
  have hS := frame_sq hf c
  rw [k1, k2] at hF hS
  rw [k3] at hS
  refine ⟨Dot c n, by linarith, ?_, ?_, ?_⟩
  · have := congrArg Vec3.x hF; simp only [Vec3.add_x, Vec3.scale_x] at this; simp only [hc] at this ⊢; linarith
  · have := congrArg Vec3.y hF; simp only [Vec3.add_y, Vec3.scale_y] at this; simp only [hc] at this ⊢; linarith
  · have := congrArg Vec3.z hF; simp only [Vec3.add_z, Vec3.scale_z] at this; simp only [hc] at this ⊢; linarith

/-! ### From the tangent disc to directions -/

/-- The direction of the point `p` of the plane that touches the unit sphere at `a`. -/
noncomputable def dirTo (f1 f2 a : Vec3 ℝ) (p : ℝ × ℝ) : Vec3 ℝ := (a + f1.scale p.1 + f2.scale p.2).normalized

theorem dirTo_dot {f1 f2 a : Vec3 ℝ} (hf : Frame f1 f2 a) (p : ℝ × ℝ) (w : Vec3 ℝ) :
    Dot (dirTo f1 f2 a p) w = (Dot a w + p.1 * Dot f1 w + p.2 * Dot f2 w) / Real.sqrt (1 + (p.1 ^ 2 + p.2 ^ 2)) := by
  unfold dirTo
  rw [normalized_eq]
  have : Norm (a + f1.scale p.1 + f2.scale p.2) = Real.sqrt (1 + (p.1 ^ 2 + p.2 ^ 2)) := by
    rw [← offset_sq hf, ← Norm_sq, Real.sqrt_sq (Norm_nonneg _)]
  rw [this]
  simp only [Dot, Vec3.add_x, Vec3.add_y, Vec3.add_z, Vec3.scale_x, Vec3.scale_y, Vec3.scale_z]
  ring

theorem dirTo_unit {f1 f2 a : Vec3 ℝ} (hf : Frame f1 f2 a) (p : ℝ × ℝ) : Norm (dirTo f1 f2 a p) = 1 := by
  refine Norm_eq_one (normalized_dot_self ?_)
  rw [offset_sq hf]
  positivity

theorem dirTo_axis {f1 f2 a : Vec3 ℝ} (hf : Frame f1 f2 a) (p : ℝ × ℝ) : Dot (dirTo f1 f2 a p) a = 1 / Real.sqrt (1 + (p.1 ^ 2 + p.2 ^ 2)) := by
  have c1 := hf.d13
  have c2 := hf.d23
  rw [dirTo_dot hf, c1, c2, Dot_self_of_norm hf.n3]
  ring

theorem quotient_deriv (α β γ : ℝ) (p : ℝ × ℝ) :
    HasFDerivAt (fun p : ℝ × ℝ => (α + p.1 * β + p.2 * γ) / Real.sqrt (1 + (p.1 ^ 2 + p.2 ^ 2)))
      ((β / Real.sqrt (1 + (p.1 ^ 2 + p.2 ^ 2)) - (α + p.1 * β + p.2 * γ) * p.1 / Real.sqrt (1 + (p.1 ^ 2 + p.2 ^ 2)) ^ 3) • ContinuousLinearMap.fst ℝ ℝ ℝ +
        (γ / Real.sqrt (1 + (p.1 ^ 2 + p.2 ^ 2)) - (α + p.1 * β + p.2 * γ) * p.2 / Real.sqrt (1 + (p.1 ^ 2 + p.2 ^ 2)) ^ 3) • ContinuousLinearMap.snd ℝ ℝ ℝ) p := by
  have hpos : 0 < 1 + (p.1 ^ 2 + p.2 ^ 2) := by positivity
  have hs := Real.sqrt_pos.2 hpos
  have h1 : HasFDerivAt (fun p : ℝ × ℝ => p.1) (ContinuousLinearMap.fst ℝ ℝ ℝ) p := hasFDerivAt_fst
  have h2 : HasFDerivAt (fun p : ℝ × ℝ => p.2) (ContinuousLinearMap.snd ℝ ℝ ℝ) p := hasFDerivAt_snd
  have hN : HasFDerivAt (fun p : ℝ × ℝ => α + p.1 * β + p.2 * γ) (β • ContinuousLinearMap.fst ℝ ℝ ℝ + γ • ContinuousLinearMap.snd ℝ ℝ ℝ) p :=
    ((h1.mul_const β).const_add α).add (h2.mul_const γ)
  have hR : HasFDerivAt (fun p : ℝ × ℝ => 1 + (p.1 ^ 2 + p.2 ^ 2)) ((2 * p.1) • ContinuousLinearMap.fst ℝ ℝ ℝ + (2 * p.2) • ContinuousLinearMap.snd ℝ ℝ ℝ) p := by
    have := ((h1.pow 2).add (h2.pow 2)).const_add 1
    refine this.congr_fderiv ?_
    ext <;> simp
  have hI : HasDerivAt (fun t : ℝ => (Real.sqrt t)⁻¹) (-(1 / (2 * Real.sqrt (1 + (p.1 ^ 2 + p.2 ^ 2)))) / Real.sqrt (1 + (p.1 ^ 2 + p.2 ^ 2)) ^ 2) (1 + (p.1 ^ 2 + p.2 ^ 2)) := (Real.hasDerivAt_sqrt hpos.ne').inv hs.ne'
  have h := hN.mul (hI.comp_hasFDerivAt p hR)
  have e : (fun p : ℝ × ℝ => (α + p.1 * β + p.2 * γ) / Real.sqrt (1 + (p.1 ^ 2 + p.2 ^ 2))) = (fun p : ℝ × ℝ => α + p.1 * β + p.2 * γ) * ((fun t : ℝ => (Real.sqrt t)⁻¹) ∘ fun p : ℝ × ℝ => 1 + (p.1 ^ 2 + p.2 ^ 2)) := by
    funext q
    simp [div_eq_mul_inv]
  rw [e]
  refine h.congr_fderiv ?_
  ext <;> simp <;> field_simp <;> ring

/-- The horizontal coordinates, in the frame `e1 e2 n`, of the directions of the points of the tangent plane at `a`: the area is scaled by the cosine with `n` times the cube of the cosine with `a`. -/
theorem tangent_det {f1 f2 a e1 e2 n : Vec3 ℝ} (hf : Frame f1 f2 a) (he : Frame e1 e2 n) (p : ℝ × ℝ) :
    ∃ F', HasFDerivAt (fun p => (Dot (dirTo f1 f2 a p) e1, Dot (dirTo f1 f2 a p) e2)) F' p ∧ |F'.det| = |Dot (dirTo f1 f2 a p) n| / Real.sqrt (1 + (p.1 ^ 2 + p.2 ^ 2)) ^ 3 := by
  have hd := hasFDeriv_plane (quotient_deriv (Dot a e1) (Dot f1 e1) (Dot f2 e1) p) (quotient_deriv (Dot a e2) (Dot f1 e2) (Dot f2 e2) p)
  have heq : (fun p => (Dot (dirTo f1 f2 a p) e1, Dot (dirTo f1 f2 a p) e2)) = fun p : ℝ × ℝ => ((Dot a e1 + p.1 * Dot f1 e1 + p.2 * Dot f2 e1) / Real.sqrt (1 + (p.1 ^ 2 + p.2 ^ 2)), (Dot a e2 + p.1 * Dot f1 e2 + p.2 * Dot f2 e2) / Real.sqrt (1 + (p.1 ^ 2 + p.2 ^ 2))) := by
    funext q
    rw [dirTo_dot hf, dirTo_dot hf]
  refine ⟨_, heq ▸ hd, ?_⟩
  rw [planeDeriv_det, dirTo_dot hf]
  have hpos : 0 < 1 + (p.1 ^ 2 + p.2 ^ 2) := by positivity
  have hs := Real.sqrt_pos.2 hpos
  have hs2 := Real.sq_sqrt hpos.le
  set s := Real.sqrt (1 + (p.1 ^ 2 + p.2 ^ 2))
  have hm : Frame (⟨Dot a e1, Dot f1 e1, Dot f2 e1⟩ : Vec3 ℝ) ⟨Dot a e2, Dot f1 e2, Dot f2 e2⟩ ⟨Dot a n, Dot f1 n, Dot f2 n⟩ := by
    have key : ∀ u v : Vec3 ℝ, Dot (⟨Dot a u, Dot f1 u, Dot f2 u⟩ : Vec3 ℝ) ⟨Dot a v, Dot f1 v, Dot f2 v⟩ = Dot u v := by
      intro u v
      rw [frame_dot hf u v]
      simp only [Dot]
      ring
    refine ⟨Norm_eq_one ?_, Norm_eq_one ?_, Norm_eq_one ?_, ?_, ?_, ?_⟩
    · rw [key, Dot_self_of_norm he.n1]
    · rw [key, Dot_self_of_norm he.n2]
    · rw [key, Dot_self_of_norm he.n3]
    · rw [key, he.d12]
    · rw [key, he.d13]
    · rw [key, he.d23]
  obtain ⟨σ, hσ, c1, c2, c3⟩ := frame_cross hm
  simp only at c1 c2 c3
  have hσ' : |σ| = 1 := by rw [← sq_eq_sq₀ (abs_nonneg _) zero_le_one, sq_abs, hσ, one_pow]
  have hdet : ∀ α1 β1 γ1 α2 β2 γ2 U1 U2 x y : ℝ, U1 = α1 + x * β1 + y * γ1 → U2 = α2 + x * β2 + y * γ2 → s ^ 2 = 1 + (x ^ 2 + y ^ 2) →
      (β1 / s - U1 * x / s ^ 3) * (γ2 / s - U2 * y / s ^ 3) - (γ1 / s - U1 * y / s ^ 3) * (β2 / s - U2 * x / s ^ 3) =
        ((β1 * γ2 - γ1 * β2) + x * (γ1 * α2 - α1 * γ2) + y * (α1 * β2 - β1 * α2)) / s ^ 4 := by
    intro α1 β1 γ1 α2 β2 γ2 U1 U2 x y h1 h2 h3
    have : (β1 / s - U1 * x / s ^ 3) * (γ2 / s - U2 * y / s ^ 3) - (γ1 / s - U1 * y / s ^ 3) * (β2 / s - U2 * x / s ^ 3) =
        (s ^ 2 * (β1 * γ2 - γ1 * β2) - (y * (β1 * U2 - β2 * U1) + x * (γ2 * U1 - γ1 * U2))) / s ^ 4 := by
      field_simp
      ring
    rw [this, h3, h1, h2]
    congr 1
    ring
  rw [hdet _ _ _ _ _ _ _ _ p.1 p.2 rfl rfl hs2, c1, c2, c3, show σ * Dot a n + p.1 * (σ * Dot f1 n) + p.2 * (σ * Dot f2 n) = σ * (Dot a n + p.1 * Dot f1 n + p.2 * Dot f2 n) by ring, abs_div, abs_mul, hσ', one_mul, abs_div,
    abs_of_pos hs, abs_of_pos (pow_pos hs 4)]
  field_simp

theorem dirTo_measurable {f1 f2 a : Vec3 ℝ} (hf : Frame f1 f2 a) (w : Vec3 ℝ) : Measurable fun p => Dot (dirTo f1 f2 a p) w := by
  simp only [dirTo_dot hf]
  fun_prop

theorem dirTo_preimage {f1 f2 a : Vec3 ℝ} (hf : Frame f1 f2 a) {S : Set (Vec3 ℝ)} (hS : Measurable3 S) : MeasurableSet {p | dirTo f1 f2 a p ∈ S} := by
  have hx := dirTo_measurable hf ⟨1, 0, 0⟩
  have hy := dirTo_measurable hf ⟨0, 1, 0⟩
  have hz := dirTo_measurable hf ⟨0, 0, 1⟩
  simp only [Dot, mul_one, mul_zero, add_zero, zero_add] at hx hy hz
  exact hS.preimage hx hy hz

/-- The cosine-weighted solid angle is the area of the horizontal projection. -/
theorem projected_area {S : Set (Vec3 ℝ)} (hS : Measurable3 S) : projectedSolidAngle S = volume (discOf 1 ∩ {q | (⟨q.1, q.2, Real.sqrt (1 - (q.1 ^ 2 + q.2 ^ 2))⟩ : Vec3 ℝ) ∈ S}) := by
  have hE : MeasurableSet {q : ℝ × ℝ | (⟨q.1, q.2, Real.sqrt (1 - (q.1 ^ 2 + q.2 ^ 2))⟩ : Vec3 ℝ) ∈ S} :=
    hS.preimage (f := fun q => q.1) (g := fun q => q.2) (h := fun q => Real.sqrt (1 - (q.1 ^ 2 + q.2 ^ 2))) (by fun_prop) (by fun_prop) (by fun_prop)
  rw [← horiz_measure hE]
  unfold projectedSolidAngle
  congr 2
  ext p
  simp only [mem_setOf_eq, mem_inter_iff, mem_preimage]
  change p ∈ upperBox ∧ _ ↔ p ∈ upperBox ∧ _
  refine and_congr_right fun hp => ?_
  have hn := horizMap_norm p hp
  rw [hn, sub_sub_cancel, Real.sqrt_sq hp.1.1.le]
  rfl

theorem worldOf_measurable {S : Set (Vec3 ℝ)} (hS : Measurable3 S) (e1 e2 n : Vec3 ℝ) : Measurable3 {l | worldOf e1 e2 n l ∈ S} := by
  have hm : Measurable fun p : ℝ × ℝ × ℝ => (e1.x * p.1 + e2.x * p.2.1 + n.x * p.2.2, e1.y * p.1 + e2.y * p.2.1 + n.y * p.2.2, e1.z * p.1 + e2.z * p.2.1 + n.z * p.2.2) := by fun_prop
  exact hm hS

/-- A direction above the horizon of `n` is the lift of its horizontal coordinates. -/
theorem worldOf_lift {e1 e2 n : Vec3 ℝ} (he : Frame e1 e2 n) (v : Vec3 ℝ) (hv : Norm v = 1) (h : 0 < Dot v n) :
    worldOf e1 e2 n ⟨Dot v e1, Dot v e2, Real.sqrt (1 - (Dot v e1 ^ 2 + Dot v e2 ^ 2))⟩ = v := by
  have hs := frame_sq he v
  rw [Dot_self_of_norm hv] at hs
  rw [show 1 - (Dot v e1 ^ 2 + Dot v e2 ^ 2) = Dot v n ^ 2 by linarith, Real.sqrt_sq h.le]
  have hc := frame_complete he v
  have hx := congrArg Vec3.x hc
  have hy := congrArg Vec3.y hc
  have hz := congrArg Vec3.z hc
  simp only [Vec3.add_x, Vec3.add_y, Vec3.add_z, Vec3.scale_x, Vec3.scale_y, Vec3.scale_z] at hx hy hz
  unfold worldOf
  ext
  · simp only [Vec3.add_x, Vec3.scale_x]; linarith
  · simp only [Vec3.add_y, Vec3.scale_y]; linarith
  · simp only [Vec3.add_z, Vec3.scale_z]; linarith

theorem worldOf_coords {e1 e2 n : Vec3 ℝ} (he : Frame e1 e2 n) (l : Vec3 ℝ) : Dot (worldOf e1 e2 n l) e1 = l.x ∧ Dot (worldOf e1 e2 n l) e2 = l.y ∧ Dot (worldOf e1 e2 n l) n = l.z := by
  have h1 := Dot_self_of_norm he.n1
  have h2 := Dot_self_of_norm he.n2
  have h3 := Dot_self_of_norm he.n3
  have d1 := he.d12
  have d2 := he.d13
  have d3 := he.d23
  unfold worldOf
  simp only [Dot, Vec3.add_x, Vec3.add_y, Vec3.add_z, Vec3.scale_x, Vec3.scale_y, Vec3.scale_z] at *
  refine ⟨?_, ?_, ?_⟩
  · linear_combination l.x * h1 + l.y * d1 + l.z * d2
  · linear_combination l.x * d1 + l.y * h2 + l.z * d3
  · linear_combination l.x * d2 + l.y * d3 + l.z * h3

/-- The irradiance from the directions of `S` within a cap: an integral over the disc that touches the sphere at the middle of the cap. -/
theorem cap_projected {f1 f2 a e1 e2 n : Vec3 ℝ} (hf : Frame f1 f2 a) (he : Frame e1 e2 n) (c R : ℝ) (hc0 : 0 < c) (hR : 0 < R) (hRc : (1 + R ^ 2) * c ^ 2 = 1) {S : Set (Vec3 ℝ)} (hS : Measurable3 S) :
    projectedSolidAngle {l | worldOf e1 e2 n l ∈ S ∧ c < Dot (worldOf e1 e2 n l) a} =
      ∫⁻ p in {p | p ∈ discOf R ∧ 0 < Dot (dirTo f1 f2 a p) n ∧ dirTo f1 f2 a p ∈ S}, ENNReal.ofReal (Dot (dirTo f1 f2 a p) n / Real.sqrt (1 + (p.1 ^ 2 + p.2 ^ 2)) ^ 3) := by
  have hcap : Measurable3 {v : Vec3 ℝ | c < Dot v a} := by
    have hm : Measurable fun p : ℝ × ℝ × ℝ => Dot (⟨p.1, p.2.1, p.2.2⟩ : Vec3 ℝ) a := by simp only [Dot]; fun_prop
    exact measurableSet_lt measurable_const hm
  have hS2 : Measurable3 {v | v ∈ S ∧ c < Dot v a} := MeasurableSet.inter hS hcap
  have hS' : Measurable3 {l | worldOf e1 e2 n l ∈ S ∧ c < Dot (worldOf e1 e2 n l) a} := worldOf_measurable hS2 e1 e2 n
  rw [projected_area hS']
  set E := {q : ℝ × ℝ | (⟨q.1, q.2, Real.sqrt (1 - (q.1 ^ 2 + q.2 ^ 2))⟩ : Vec3 ℝ) ∈ {l | worldOf e1 e2 n l ∈ S ∧ c < Dot (worldOf e1 e2 n l) a}} with hE
  have hEm : MeasurableSet E := hS'.preimage (f := fun q => q.1) (g := fun q => q.2) (h := fun q => Real.sqrt (1 - (q.1 ^ 2 + q.2 ^ 2))) (by fun_prop) (by fun_prop) (by fun_prop)
  set Q : ℝ × ℝ → ℝ × ℝ := fun p => (Dot (dirTo f1 f2 a p) e1, Dot (dirTo f1 f2 a p) e2) with hQ
  have hQm : Measurable Q := (dirTo_measurable hf e1).prodMk (dirTo_measurable hf e2)
  set D := {p : ℝ × ℝ | p ∈ discOf R ∧ 0 < Dot (dirTo f1 f2 a p) n} with hD
  have hDm : MeasurableSet D := (discOf_measurable R).inter (measurableSet_lt measurable_const (dirTo_measurable hf n))
  choose F' hF' hdet using fun p => tangent_det hf he p
  -- where a direction lies in the cap
  have hincap : ∀ p ∈ discOf R, c < Dot (dirTo f1 f2 a p) a := by
    intro p hp
    rw [dirTo_axis hf]
    have hlt : 1 + (p.1 ^ 2 + p.2 ^ 2) < 1 + R ^ 2 := by simp only [discOf, mem_setOf_eq] at hp; linarith
    have hpos : 0 < Real.sqrt (1 + (p.1 ^ 2 + p.2 ^ 2)) := Real.sqrt_pos.2 (by positivity)
    rw [lt_div_iff₀ hpos]
    have h1 : Real.sqrt (1 + (p.1 ^ 2 + p.2 ^ 2)) < Real.sqrt (1 + R ^ 2) := Real.sqrt_lt_sqrt (by positivity) hlt
    have h2 : c * Real.sqrt (1 + R ^ 2) = 1 := by
      rw [← Real.sqrt_sq hc0.le, ← Real.sqrt_mul (sq_nonneg c), mul_comm, hRc, Real.sqrt_one]
    calc c * _ < c * Real.sqrt (1 + R ^ 2) := mul_lt_mul_of_pos_left h1 hc0
      _ = 1 := h2
  have hlift : ∀ p ∈ D, worldOf e1 e2 n ⟨(Q p).1, (Q p).2, Real.sqrt (1 - ((Q p).1 ^ 2 + (Q p).2 ^ 2))⟩ = dirTo f1 f2 a p := fun p hp => worldOf_lift he _ (dirTo_unit hf p) hp.2
  -- the same direction from the same coordinates
  have hinj : InjOn Q D := by
    intro p hp p' hp' h
    have e : dirTo f1 f2 a p = dirTo f1 f2 a p' := by rw [← hlift p hp, ← hlift p' hp', h]
    have k : Dot (dirTo f1 f2 a p) a = Dot (dirTo f1 f2 a p') a := by rw [e]
    have k1 : Dot (dirTo f1 f2 a p) f1 = Dot (dirTo f1 f2 a p') f1 := by rw [e]
    have k2 : Dot (dirTo f1 f2 a p) f2 = Dot (dirTo f1 f2 a p') f2 := by rw [e]
    have c1 : Dot a f1 = 0 := by have := hf.d13; simp only [Dot] at this ⊢; linarith
    have c2 : Dot a f2 = 0 := by have := hf.d23; simp only [Dot] at this ⊢; linarith
    have c3 : Dot f2 f1 = 0 := by have := hf.d12; simp only [Dot] at this ⊢; linarith
    rw [dirTo_axis hf, dirTo_axis hf] at k
    rw [dirTo_dot hf, dirTo_dot hf, c1, c3, Dot_self_of_norm hf.n1] at k1
    rw [dirTo_dot hf, dirTo_dot hf, c2, hf.d12, Dot_self_of_norm hf.n2] at k2
    have hs : Real.sqrt (1 + (p.1 ^ 2 + p.2 ^ 2)) = Real.sqrt (1 + (p'.1 ^ 2 + p'.2 ^ 2)) := by
      rw [one_div, one_div] at k
      exact inv_injective k
    have hpos : 0 < Real.sqrt (1 + (p'.1 ^ 2 + p'.2 ^ 2)) := Real.sqrt_pos.2 (by positivity)
    rw [hs] at k1 k2
    have j1 := (div_left_inj' hpos.ne').1 k1
    have j2 := (div_left_inj' hpos.ne').1 k2
    ext <;> linarith
  have himg : Q '' D ∩ E = discOf 1 ∩ E := by
    ext q
    constructor
    · rintro ⟨⟨p, hp, rfl⟩, hq⟩
      refine ⟨?_, hq⟩
      have hs := frame_sq he (dirTo f1 f2 a p)
      rw [Dot_self_of_norm (dirTo_unit hf p)] at hs
      have := pow_pos hp.2 2
      simp only [discOf, mem_setOf_eq, hQ]
      linarith
    · rintro ⟨hq, hqE⟩
      refine ⟨?_, hqE⟩
      have hq1 : 0 < 1 - (q.1 ^ 2 + q.2 ^ 2) := by simp only [discOf, mem_setOf_eq] at hq; linarith
      set l : Vec3 ℝ := ⟨q.1, q.2, Real.sqrt (1 - (q.1 ^ 2 + q.2 ^ 2))⟩ with hl
      set v := worldOf e1 e2 n l with hv
      obtain ⟨w1, w2, w3⟩ := worldOf_coords he l
      rw [← hv] at w1 w2 w3
      have hva : c < Dot v a := hqE.2
      have hva0 : 0 < Dot v a := hc0.trans hva
      have hvn : 0 < Dot v n := by rw [w3]; exact Real.sqrt_pos.2 hq1
      have hvv : Dot v v = 1 := by
        rw [frame_sq he, w1, w2, w3]
        simp only [hl]
        rw [Real.sq_sqrt hq1.le]
        ring
      have hsq := frame_sq hf v
      rw [hvv] at hsq
      set p : ℝ × ℝ := (Dot v f1 / Dot v a, Dot v f2 / Dot v a) with hp
      have hp2 : 1 + (p.1 ^ 2 + p.2 ^ 2) = (1 / Dot v a) ^ 2 := by
        simp only [hp]
        field_simp
        linarith
      have hroot : Real.sqrt (1 + (p.1 ^ 2 + p.2 ^ 2)) = 1 / Dot v a := by rw [hp2, Real.sqrt_sq (by positivity)]
      have hdot : ∀ w, Dot (dirTo f1 f2 a p) w = Dot v w := by
        intro w
        rw [dirTo_dot hf, hroot, frame_dot hf v w]
        have : ∀ u, Dot u w = Dot w u := fun u => by simp only [Dot]; ring
        rw [this a, this f1, this f2]
        simp only [hp]
        field_simp
      refine ⟨p, ⟨?_, ?_⟩, ?_⟩
      · simp only [discOf, mem_setOf_eq]
        have h1 : (1 / Dot v a) ^ 2 < 1 + R ^ 2 := by
          rw [one_div, inv_pow, inv_lt_comm₀ (by positivity) (by positivity)]
          have : (1 + R ^ 2)⁻¹ = c ^ 2 := by field_simp; linarith
          rw [this]
          nlinarith
        linarith
      · rw [hdot]; exact hvn
      · simp only [hQ, hdot, w1, w2]
        rfl
  rw [← himg, ← change_of_variables hDm (fun p _ => hF' p) hQm hinj hEm]
  have hset : D ∩ Q ⁻¹' E = {p | p ∈ discOf R ∧ 0 < Dot (dirTo f1 f2 a p) n ∧ dirTo f1 f2 a p ∈ S} := by
    ext p
    constructor
    · rintro ⟨hp, hq⟩
      refine ⟨hp.1, hp.2, ?_⟩
      have := hq.1
      rwa [hlift p hp] at this
    · rintro ⟨h1, h2, h3⟩
      refine ⟨⟨h1, h2⟩, ?_, ?_⟩
      · show worldOf e1 e2 n _ ∈ S
        rw [hlift p ⟨h1, h2⟩]; exact h3
      · show c < Dot (worldOf e1 e2 n _) a
        rw [hlift p ⟨h1, h2⟩]; exact hincap p h1
  rw [hset]
  refine setLIntegral_congr_fun (s := {p | p ∈ discOf R ∧ 0 < Dot (dirTo f1 f2 a p) n ∧ dirTo f1 f2 a p ∈ S}) ((discOf_measurable R).inter ((measurableSet_lt measurable_const (dirTo_measurable hf n)).inter (dirTo_preimage hf hS))) fun p hp => ?_
  simp only [hdet, abs_of_pos hp.2.1]

/-! ### Means -/

theorem disc_mean {R : ℝ} (hR : 0 < R) {g : ℝ × ℝ → ENNReal} (hg : Measurable g) : ENNReal.ofReal (Real.pi * R ^ 2) * Mean (fun d => g (discMap R d)) = ∫⁻ p in discOf R, g p := by
  have hpush : ENNReal.ofReal (Real.pi * R ^ 2) • Measure.map (discMap R) (volume.restrict openSquare) = volume.restrict (discOf R) := by
    ext E hE
    rw [Measure.smul_apply, smul_eq_mul, Measure.map_apply (discMap_measurable R) hE, Measure.restrict_apply (discMap_measurable R hE), Measure.restrict_apply hE, inter_comm, disc_measure hR hE, inter_comm]
  unfold Mean
  rw [← hpush, lintegral_smul_measure, smul_eq_mul, lintegral_map hg (discMap_measurable R), setLIntegral_congr unitSquare_ae]

/-- The mean of a sum over samples, each with its own pair of draws. -/
theorem meanN_total (n : Nat) {f : ℝ × ℝ → ENNReal} (hf : Measurable f) : MeanN n (fun ω => ∑ k, f (ω k)) = n * Mean f := by
  have := unitSquare_prob
  unfold MeanN
  rw [volume_pi, Measure.restrict_pi_pi, lintegral_finset_sum (f := fun (k : Fin n) (ω : Fin n → ℝ × ℝ) => f (ω k)) _ fun k _ => hf.comp (measurable_pi_apply k)]
  have h : ∀ k : Fin n, ∫⁻ ω, f (ω k) ∂(Measure.pi fun _ : Fin n => (volume : Measure (ℝ × ℝ)).restrict unitSquare) = Mean f := by
    intro k
    rw [(measurePreserving_eval (fun _ : Fin n => (volume : Measure (ℝ × ℝ)).restrict unitSquare) k).lintegral_comp hf]
    rfl
  simp only [h, Finset.sum_const, Finset.card_univ, Fintype.card_fin, nsmul_eq_mul]

open Classical in
/-- The mean of the cosines of the drawn directions of `S` against the irradiance from `S`. -/
theorem sun_mean {f1 f2 a e1 e2 n : Vec3 ℝ} (hf : Frame f1 f2 a) (he : Frame e1 e2 n) (h : ℝ) (h0 : 0 < h) (h1 : h < Real.pi / 2) (hup : Real.sin h < Dot n a) {S : Set (Vec3 ℝ)} (hS : Measurable3 S) :
    Measurable (fun d => if towards f1 f2 a (Real.tan h) d ∈ S then ENNReal.ofReal (Dot n (towards f1 f2 a (Real.tan h) d)) else 0) ∧
    projectedSolidAngle {l | worldOf e1 e2 n l ∈ S ∧ Real.cos h < Dot (worldOf e1 e2 n l) a} ≤
      ENNReal.ofReal (Real.pi * Real.tan h ^ 2) * Mean (fun d => if towards f1 f2 a (Real.tan h) d ∈ S then ENNReal.ofReal (Dot n (towards f1 f2 a (Real.tan h) d)) else 0) ∧
    ENNReal.ofReal (Real.cos h ^ 3) * (ENNReal.ofReal (Real.pi * Real.tan h ^ 2) * Mean (fun d => if towards f1 f2 a (Real.tan h) d ∈ S then ENNReal.ofReal (Dot n (towards f1 f2 a (Real.tan h) d)) else 0)) ≤
      projectedSolidAngle {l | worldOf e1 e2 n l ∈ S ∧ Real.cos h < Dot (worldOf e1 e2 n l) a} := by
  have hc : 0 < Real.cos h := Real.cos_pos_of_mem_Ioo ⟨by linarith, h1⟩
  have hs : 0 < Real.sin h := Real.sin_pos_of_pos_of_lt_pi h0 (by linarith)
  have ht : 0 < Real.tan h := Real.tan_pos_of_pos_of_lt_pi_div_two h0 h1
  have hRc : (1 + Real.tan h ^ 2) * Real.cos h ^ 2 = 1 := by rw [tan_sq_eq hc]; field_simp; ring
  set R := Real.tan h with hR
  have hcomm : ∀ u, Dot n u = Dot u n := fun u => by simp only [Dot]; ring
  have hdom : MeasurableSet {p | p ∈ discOf R ∧ dirTo f1 f2 a p ∈ S} := (discOf_measurable R).inter (dirTo_preimage hf hS)
  set g : ℝ × ℝ → ENNReal := fun p => if dirTo f1 f2 a p ∈ S then ENNReal.ofReal (Dot n (dirTo f1 f2 a p)) else 0 with hg
  have hgm : Measurable g := by
    refine Measurable.ite (dirTo_preimage hf hS) ?_ measurable_const
    simp only [hcomm]
    exact (dirTo_measurable hf n).ennreal_ofReal
  have hgi : ∫⁻ p in discOf R, g p = ∫⁻ p in {p | p ∈ discOf R ∧ dirTo f1 f2 a p ∈ S}, ENNReal.ofReal (Dot (dirTo f1 f2 a p) n) := by
    have e : g = {p | dirTo f1 f2 a p ∈ S}.indicator fun p => ENNReal.ofReal (Dot (dirTo f1 f2 a p) n) := by
      funext p
      simp only [hg, indicator, mem_setOf_eq, hcomm]
    rw [e, lintegral_indicator (dirTo_preimage hf hS), Measure.restrict_restrict (dirTo_preimage hf hS), inter_comm]
    rfl
  have hpos : ∀ p ∈ discOf R, 0 < Dot (dirTo f1 f2 a p) n := by
    intro p hp
    rw [dirTo_dot hf]
    refine div_pos ?_ (Real.sqrt_pos.2 (by positivity))
    have hsc := Real.sin_sq_add_cos_sq h
    have hF := frame_sq hf n
    rw [Dot_self_of_norm he.n3] at hF
    rw [← hcomm, ← hcomm, ← hcomm]
    have hp2 : p.1 ^ 2 + p.2 ^ 2 < R ^ 2 := hp
    have cs : (p.1 * Dot n f1 + p.2 * Dot n f2) ^ 2 ≤ (p.1 ^ 2 + p.2 ^ 2) * (Dot n f1 ^ 2 + Dot n f2 ^ 2) := by nlinarith [sq_nonneg (p.1 * Dot n f2 - p.2 * Dot n f1)]
    have hA : 0 < Dot n a := hs.trans hup
    have hA2 : Real.sin h ^ 2 < Dot n a ^ 2 := by nlinarith
    have hBC : Dot n f1 ^ 2 + Dot n f2 ^ 2 = 1 - Dot n a ^ 2 := by linarith
    have hBC0 : 0 ≤ 1 - Dot n a ^ 2 := by rw [← hBC]; positivity
    have h3 : (p.1 ^ 2 + p.2 ^ 2) * (Dot n f1 ^ 2 + Dot n f2 ^ 2) ≤ R ^ 2 * (1 - Dot n a ^ 2) := by rw [hBC]; exact mul_le_mul_of_nonneg_right hp2.le hBC0
    have h4 : R ^ 2 * (1 - Dot n a ^ 2) * Real.cos h ^ 2 < Dot n a ^ 2 * Real.cos h ^ 2 := by
      have ht' : R * Real.cos h = Real.sin h := Real.tan_mul_cos hc.ne'
      have : R ^ 2 * (1 - Dot n a ^ 2) * Real.cos h ^ 2 = Real.sin h ^ 2 * (1 - Dot n a ^ 2) := by rw [← ht']; ring
      rw [this]
      nlinarith
    have h5 := lt_of_mul_lt_mul_right h4 (by positivity)
    have h6 := (abs_lt.1 (abs_lt_of_sq_lt_sq (a := p.1 * Dot n f1 + p.2 * Dot n f2) (b := Dot n a) (by linarith) hA.le)).1
    linarith
  have hset : {p | p ∈ discOf R ∧ 0 < Dot (dirTo f1 f2 a p) n ∧ dirTo f1 f2 a p ∈ S} = {p | p ∈ discOf R ∧ dirTo f1 f2 a p ∈ S} := by
    ext p
    exact ⟨fun hp => ⟨hp.1, hp.2.2⟩, fun hp => ⟨hp.1, hpos p hp.1, hp.2⟩⟩
  have hpsa := cap_projected hf he (Real.cos h) R hc ht hRc hS
  rw [hset] at hpsa
  have hmean : ENNReal.ofReal (Real.pi * R ^ 2) * Mean (fun d => if towards f1 f2 a R d ∈ S then ENNReal.ofReal (Dot n (towards f1 f2 a R d)) else 0) = ∫⁻ p in {p | p ∈ discOf R ∧ dirTo f1 f2 a p ∈ S}, ENNReal.ofReal (Dot (dirTo f1 f2 a p) n) := by
    rw [← hgi, ← disc_mean ht hgm]
    rfl
  refine ⟨hgm.comp (discMap_measurable R), ?_, ?_⟩
  · rw [hmean, hpsa]
    refine setLIntegral_mono' hdom fun p hp => ENNReal.ofReal_le_ofReal ?_
    have h1 : 1 ≤ Real.sqrt (1 + (p.1 ^ 2 + p.2 ^ 2)) := Real.one_le_sqrt.2 (by nlinarith [sq_nonneg p.1, sq_nonneg p.2])
    exact div_le_self (hpos p hp.1).le (one_le_pow₀ h1)
  · rw [hmean, hpsa, ← lintegral_const_mul' _ _ ENNReal.ofReal_ne_top]
    refine setLIntegral_mono' hdom fun p hp => ?_
    rw [← ENNReal.ofReal_mul (by positivity)]
    refine ENNReal.ofReal_le_ofReal ?_
    have hp2 : p.1 ^ 2 + p.2 ^ 2 < R ^ 2 := hp.1
    have hsq : 0 < Real.sqrt (1 + (p.1 ^ 2 + p.2 ^ 2)) := Real.sqrt_pos.2 (by positivity)
    have hle : Real.cos h * Real.sqrt (1 + (p.1 ^ 2 + p.2 ^ 2)) ≤ 1 := by
      refine abs_le_of_sq_le_sq' ?_ zero_le_one |>.2
      rw [mul_pow, Real.sq_sqrt (by positivity)]
      nlinarith [pow_pos hc 2]
    rw [le_div_iff₀ (by positivity)]
    have h3 : (Real.cos h * Real.sqrt (1 + (p.1 ^ 2 + p.2 ^ 2))) ^ 3 ≤ 1 := pow_le_one₀ (by positivity) hle
    have := mul_le_mul_of_nonneg_left h3 (hpos p hp.1).le
    nlinarith

/-! ### The statement -/

/-- Nothing stands between `pt` and a sun at squared distance `D` in direction `v`, not even within the tolerance at the edges of triangles. -/
def SunSurelySeen (s : Scene ℝ) (pt : Vec3 ℝ) (D : ℝ) (v : Vec3 ℝ) : Prop := ∀ tri ∈ s.triangles, ∀ t p u w, TolerantHit ⟨pt, v⟩ tri t p u w → ¬ Blocking (distSq p pt) D

/-- No triangle stands between `pt` and a sun at squared distance `D` in direction `v` (other than at grazing angles). -/
def SunMaybeSeen (s : Scene ℝ) (pt : Vec3 ℝ) (D : ℝ) (v : Vec3 ℝ) : Prop := ∀ tri ∈ s.triangles, ∀ d2, VisibleHit ⟨pt, v⟩ tri d2 → ¬ Blocking d2 D

/-- The distant source `sun` is a disc of radiance `L` around its direction: every ray within half the angle of the direction meets it, at squared distance `D`. -/
structure World.IsSun (w : World) (s : Scene ℝ) (sun : Object ℝ) (direction : Vec3 ℝ) (angle : ℝ) (L : Spectrum ℝ) (D : ℝ) : Prop where
  primitive : sun.primitive = .source direction angle
  direction_ne : 0 < Dot direction direction
  angle_pos : 0 < angle
  angle_lt : angle < Real.pi
  met : ∀ pt v, Norm v = 1 → Real.cos (angle / 2) < Dot v direction.normalized → ∃ info, w.ext.primIntersect sun.primitive ⟨pt, v⟩ = some info ∧ distSq pt info.p = D ∧ lightColour s sun info.side = some L

/-- One channel of the light that is returned; nothing if there is no result. -/
noncomputable def brought (r : Res (Spectrum ℝ × Rng)) (ch : Spectrum ℝ → ℝ) : ENNReal :=
  match r with
  | .ok (v, _) => ENNReal.ofReal (ch v)
  | _ => 0

variable {w : World} {s : Scene ℝ}

theorem measurable_sunSurely (s : Scene ℝ) (pt : Vec3 ℝ) (D : ℝ) : Measurable3 {v | SunSurelySeen s pt D v} := by
  apply measurable_forall_mem
  intro tri _
  have h := measurable_projection
    {q | 1 / 10 ^ 5 < q.2.1 ∧ 1 / 10 ^ 6 < q.2.1 ^ 2 * (q.1.1 ^ 2 + q.1.2.1 ^ 2 + q.1.2.2 ^ 2) ∧ q.2.1 ^ 2 * (q.1.1 ^ 2 + q.1.2.1 ^ 2 + q.1.2.2 ^ 2) + 1 / 10 ^ 6 < D ∧
      1 / 10 ^ 4 < |D - q.2.1 ^ 2 * (q.1.1 ^ 2 + q.1.2.1 ^ 2 + q.1.2.2 ^ 2)|}
    {q | pt.x + q.1.1 * q.2.1 = tri.a.x * (1 - q.2.2.1 - q.2.2.2) + tri.b.x * q.2.2.1 + tri.c.x * q.2.2.2 ∧
      pt.y + q.1.2.1 * q.2.1 = tri.a.y * (1 - q.2.2.1 - q.2.2.2) + tri.b.y * q.2.2.1 + tri.c.y * q.2.2.2 ∧
      pt.z + q.1.2.2 * q.2.1 = tri.a.z * (1 - q.2.2.1 - q.2.2.2) + tri.b.z * q.2.2.1 + tri.c.z * q.2.2.2 ∧
      -(1 / 2 ^ 52) ≤ q.2.2.1 ∧ q.2.2.1 ≤ 1 + 1 / 2 ^ 52 ∧ -(1 / 2 ^ 52) ≤ q.2.2.2 ∧ q.2.2.1 + q.2.2.2 ≤ 1 + 1 / 2 ^ 52}
    (by
      simp only [setOf_and]
      refine IsOpen.inter ?_ (IsOpen.inter ?_ (IsOpen.inter ?_ ?_)) <;> exact isOpen_lt (by fun_prop) (by fun_prop))
    (by
      simp only [setOf_and]
      refine IsClosed.inter ?_ (IsClosed.inter ?_ (IsClosed.inter ?_ (IsClosed.inter ?_ (IsClosed.inter ?_ (IsClosed.inter ?_ ?_))))) <;> first | exact isClosed_eq (by fun_prop) (by fun_prop) | exact isClosed_le (by fun_prop) (by fun_prop))
  unfold Measurable3
  convert h.compl using 1
  ext v
  have hd : ∀ t : ℝ, distSq (pt + (⟨v.1, v.2.1, v.2.2⟩ : Vec3 ℝ).scale t) pt = t ^ 2 * (v.1 ^ 2 + v.2.1 ^ 2 + v.2.2 ^ 2) := by
    intro t
    simp [distSq, Vec3.scale]
    ring
  simp only [mem_setOf_eq, mem_compl_iff, not_exists]
  constructor
  · rintro h ⟨t, u, w⟩ ⟨⟨h1, h2, h3, h4⟩, k1, k2, k3, k4, k5, k6, k7⟩
    refine h t (pt + (⟨v.1, v.2.1, v.2.2⟩ : Vec3 ℝ).scale t) u w ⟨rfl, h1, ?_, k4, k5, k6, k7⟩ ?_
    · ext
      · simpa [Vec3.scale] using k1
      · simpa [Vec3.scale] using k2
      · simpa [Vec3.scale] using k3
    · rw [hd]; exact ⟨h2, h3, h4⟩
  · rintro h t q u w ⟨rfl, h1, h2, k4, k5, k6, k7⟩ hr
    rw [hd] at hr
    have hx := congrArg Vec3.x h2
    have hy := congrArg Vec3.y h2
    have hz := congrArg Vec3.z h2
    simp [Vec3.scale] at hx hy hz
    exact h (t, u, w) ⟨⟨h1, hr.1, hr.2.1, hr.2.2⟩, hx, hy, hz, k4, k5, k6, k7⟩

theorem measurable_sunMaybe (s : Scene ℝ) (pt : Vec3 ℝ) (D : ℝ) : Measurable3 {v | SunMaybeSeen s pt D v} := by
  apply measurable_forall_mem
  intro tri _
  have h := measurable_projection
    {q | 1 / 10 ^ 5 < q.2.1 ∧ 1 / 10 ^ 6 < q.2.1 ^ 2 * (q.1.1 ^ 2 + q.1.2.1 ^ 2 + q.1.2.2 ^ 2) ∧ q.2.1 ^ 2 * (q.1.1 ^ 2 + q.1.2.1 ^ 2 + q.1.2.2 ^ 2) + 1 / 10 ^ 6 < D ∧
      1 / 10 ^ 4 < |D - q.2.1 ^ 2 * (q.1.1 ^ 2 + q.1.2.1 ^ 2 + q.1.2.2 ^ 2)|}
    {q | pt.x + q.1.1 * q.2.1 = tri.a.x * (1 - q.2.2.1 - q.2.2.2) + tri.b.x * q.2.2.1 + tri.c.x * q.2.2.2 ∧
      pt.y + q.1.2.1 * q.2.1 = tri.a.y * (1 - q.2.2.1 - q.2.2.2) + tri.b.y * q.2.2.1 + tri.c.y * q.2.2.2 ∧
      pt.z + q.1.2.2 * q.2.1 = tri.a.z * (1 - q.2.2.1 - q.2.2.2) + tri.b.z * q.2.2.1 + tri.c.z * q.2.2.2 ∧
      0 ≤ q.2.2.1 ∧ 0 ≤ q.2.2.2 ∧ q.2.2.1 + q.2.2.2 ≤ 1 ∧
      1 / 10 ^ 5 ≤ |(tri.b - tri.a).x * (q.1.2.1 * (tri.c - tri.a).z - q.1.2.2 * (tri.c - tri.a).y) + (tri.b - tri.a).y * (q.1.2.2 * (tri.c - tri.a).x - q.1.1 * (tri.c - tri.a).z) +
        (tri.b - tri.a).z * (q.1.1 * (tri.c - tri.a).y - q.1.2.1 * (tri.c - tri.a).x)|}
    (by
      simp only [setOf_and]
      refine IsOpen.inter ?_ (IsOpen.inter ?_ (IsOpen.inter ?_ ?_)) <;> exact isOpen_lt (by fun_prop) (by fun_prop))
    (by
      simp only [setOf_and]
      refine IsClosed.inter ?_ (IsClosed.inter ?_ (IsClosed.inter ?_ (IsClosed.inter ?_ (IsClosed.inter ?_ (IsClosed.inter ?_ ?_))))) <;> first | exact isClosed_eq (by fun_prop) (by fun_prop) | exact isClosed_le (by fun_prop) (by fun_prop))
  unfold Measurable3
  convert h.compl using 1
  ext v
  have hd : ∀ t : ℝ, distSq (pt + (⟨v.1, v.2.1, v.2.2⟩ : Vec3 ℝ).scale t) pt = t ^ 2 * (v.1 ^ 2 + v.2.1 ^ 2 + v.2.2 ^ 2) := by
    intro t
    simp [distSq, Vec3.scale]
    ring
  simp only [mem_setOf_eq, mem_compl_iff, not_exists]
  constructor
  · rintro h ⟨t, u, w⟩ ⟨⟨h1, h2, h3, h4⟩, k1, k2, k3, k4, k5, k6, k7⟩
    refine h _ ⟨t, pt + (⟨v.1, v.2.1, v.2.2⟩ : Vec3 ℝ).scale t, ⟨rfl, u, w, k4, k5, k6, ?_⟩, h1, k7, hd t⟩ ⟨h2, h3, h4⟩
    ext
    · simpa [Vec3.scale] using k1
    · simpa [Vec3.scale] using k2
    · simpa [Vec3.scale] using k3
  · rintro h d2 ⟨t, q, ⟨rfl, u, w, k4, k5, k6, h2⟩, h1, k7, rfl⟩ hr
    dsimp only at hr
    rw [hd] at hr
    have hx := congrArg Vec3.x h2
    have hy := congrArg Vec3.y h2
    have hz := congrArg Vec3.z h2
    simp [Vec3.scale] at hx hy hz
    exact h (t, u, w) ⟨⟨h1, hr.1, hr.2.1, hr.2.2⟩, hx, hy, hz, k4, k5, k6, k7⟩

/-! ### The samples of the sun -/

theorem towards_in_cap {f1 f2 a : Vec3 ℝ} (hf : Frame f1 f2 a) (h : ℝ) (h0 : 0 < h) (h1 : h < Real.pi / 2) (d : ℝ × ℝ) (hd : d ∈ unitSquare) : Real.cos h < Dot (towards f1 f2 a (Real.tan h) d) a := by
  have hc : 0 < Real.cos h := Real.cos_pos_of_mem_Ioo ⟨by linarith, h1⟩
  have ht : 0 < Real.tan h := Real.tan_pos_of_pos_of_lt_pi_div_two h0 h1
  rw [towards_axis hf _ _ hd.1.1, lt_div_iff₀ (Real.sqrt_pos.2 (by have := mul_nonneg (sq_nonneg (Real.tan h)) hd.1.1; linarith))]
  have h2 : 1 + Real.tan h ^ 2 * d.1 < 1 + Real.tan h ^ 2 := by nlinarith [hd.1.2, pow_pos ht 2]
  have h3 : Real.cos h * Real.sqrt (1 + Real.tan h ^ 2) = 1 := by
    rw [tan_sq_eq hc, add_sub_cancel, show 1 / Real.cos h ^ 2 = (1 / Real.cos h) ^ 2 by ring, Real.sqrt_sq (by positivity)]
    field_simp
  calc _ < Real.cos h * Real.sqrt (1 + Real.tan h ^ 2) := mul_lt_mul_of_pos_left (Real.sqrt_lt_sqrt (by have := mul_nonneg (sq_nonneg (Real.tan h)) hd.1.1; linarith) h2) hc
    _ = 1 := h3

/-- One shadow ray to the sun. -/
theorem intersect_sun (hR : w.Renders s) {sun : Object ℝ} {direction : Vec3 ℝ} {angle : ℝ} {L : Spectrum ℝ} {D : ℝ} (hS : w.IsSun s sun direction angle L D) (pt v : Vec3 ℝ) (hv : Norm v = 1)
    (hc : Real.cos (angle / 2) < Dot v direction.normalized) :
    (w.intersectLight sun ⟨pt, v⟩ = .ok (some (Spectrum.black, 0)) ∧ ¬ SunSurelySeen s pt D v) ∨ (w.intersectLight sun ⟨pt, v⟩ = .ok (some (L, sourceSolidAnglePdf angle)) ∧ SunMaybeSeen s pt D v) := by
  obtain ⟨info, hi, hD, hL⟩ := hS.met pt v hv hc
  have hside : info.side ≠ .NonApplicable := by
    intro h; rw [h] at hL; simp [lightColour] at hL
  have hpdf : sun.primitive.solidAnglePdf info ⟨pt, v⟩ = .ok (sourceSolidAnglePdf angle) := by rw [hS.primitive]; rfl
  unfold World.intersectLight
  rw [hi]
  simp only [distSq_eq, hD]
  obtain ⟨free, e, c1, c2⟩ := C03_unobstructed w.env hR.lawful hR.box s w.scene hR.aligned hR.fits hR.built ⟨pt, v⟩ D []
  rw [e, Res.bind_ok]
  cases free with
  | false =>
    left
    simp only [Bool.not_false, if_true, true_and]
    intro hsee
    obtain ⟨tri, ht, t, p, u, x, h1, h2⟩ := c2 rfl
    exact hsee tri ht t p u x h1 h2
  | true =>
    right
    simp only [Bool.not_true, Bool.false_eq_true, if_false]
    refine ⟨?_, fun tri ht d2 h1 h2 => by simpa using c1 ⟨tri, ht, d2, h1, h2⟩⟩
    cases hs : info.side with
    | NonApplicable => exact absurd hs hside
    | Front =>
      rw [hs] at hL
      simp only [lightColour, Option.map_eq_some_iff] at hL
      obtain ⟨m, hm, rfl⟩ := hL
      simp only [hR.same.1, hm, Res.ofOption_some, Res.bind_ok, hpdf]
    | Back =>
      rw [hs] at hL
      simp only [lightColour, Option.map_eq_some_iff] at hL
      obtain ⟨m, hm, rfl⟩ := hL
      simp only [hR.same.1, hm, Res.ofOption_some, Res.bind_ok, hpdf]

theorem matt_eval (dt : DirTests) (m : Material ℝ) (col : Spectrum ℝ) (r : ℝ) (hm : m ∈ [Material.plastic col 0 r, Material.metal col 0 r]) (normal e1 e2 v : Vec3 ℝ) (ray : TRay) :
    m.evalBsdf dt normal e1 e2 ray v = .ok (col.scale (1 / Real.pi)) := by
  simp only [List.mem_cons, List.not_mem_nil, or_false] at hm
  have h0 : ¬ ((0 : ℝ) > 1 / 10 ^ 5) := by norm_num
  rcases hm with rfl | rfl
  · simp only [Material.evalBsdf, evaluateWard, h0, if_false, plasticBsdf]
    congr 1
    ext <;> simp [Spectrum.gray, Spectrum.scale]
  · simp only [Material.evalBsdf, evaluateWard, h0, if_false, metalBsdf]
    congr 1
    ext <;> simp [Spectrum.scale]

theorem ofPairs_even {n : Nat} (ω : Fin n → ℝ × ℝ) (rest : Rng) (j : Nat) (hj : j < n) : Rng.ofPairs ω rest (2 * j) = (ω ⟨j, hj⟩).1 := by
  have h1 : 2 * j / 2 = j := by omega
  have h2 : 2 * j % 2 = 0 := by omega
  simp only [Rng.ofPairs, h1, h2, hj, dif_pos, if_true]

theorem ofPairs_odd {n : Nat} (ω : Fin n → ℝ × ℝ) (rest : Rng) (j : Nat) (hj : j < n) : Rng.ofPairs ω rest (2 * j + 1) = (ω ⟨j, hj⟩).2 := by
  have h1 : (2 * j + 1) / 2 = j := by omega
  have h2 : (2 * j + 1) % 2 = 1 := by omega
  simp only [Rng.ofPairs, h1, h2, hj, dif_pos, one_ne_zero, if_false]

/-- The loop over the samples of the sun: `n` samples, each from its own pair of draws. -/
theorem sun_loop {light : Object ℝ} (m : Material ℝ) (ray : TRay) (n : Nat) (pt normal e1 e2 : Vec3 ℝ) (dir : ℝ × ℝ → Vec3 ℝ) (val : ℝ × ℝ → Spectrum ℝ)
    (hdir : ∀ rng : Rng, light.primitive.sampleDirection w.ext rng pt = .ok (dir (rng 0, rng 1), fun k => rng (k + 2)))
    (hval : ∀ d ∈ unitSquare, ∃ c pdf, w.intersectLight light ⟨pt, dir d⟩ = .ok (some (c, pdf)) ∧ (pdf < 1 / 10 ^ 18 ∧ val d = Spectrum.black ∨ ¬ pdf < 1 / 10 ^ 18 ∧ w.lightTerm m ray n normal e1 e2 (dir d) c pdf = .ok (val d)))
    (ch : Spectrum ℝ → ℝ) (hch : ch ∈ [Spectrum.c0, Spectrum.c1, Spectrum.c2]) :
    ∀ (k fuel : Nat) (acc : Spectrum ℝ) (rng : Rng), k ≤ n → k < fuel → (∀ j < k, (rng (2 * j), rng (2 * j + 1)) ∈ unitSquare) →
      ∃ v rng', w.lightLoop m ray n pt normal e1 e2 light fuel (n - k) acc rng = .ok (v, rng') ∧ ch v = ch acc + ∑ j ∈ Finset.range k, ch (val (rng (2 * j), rng (2 * j + 1))) := by
  have hadd : ∀ u v : Spectrum ℝ, ch (u + v) = ch u + ch v := by
    simp only [List.mem_cons, List.not_mem_nil, or_false] at hch
    rcases hch with rfl | rfl | rfl <;> intro u v <;> rfl
  have hblack : ch Spectrum.black = 0 := by
    simp only [List.mem_cons, List.not_mem_nil, or_false] at hch
    rcases hch with rfl | rfl | rfl <;> rfl
  intro k
  induction k with
  | zero =>
    intro fuel acc rng _ hfu _
    obtain ⟨fuel, rfl⟩ := Nat.exists_eq_succ_of_ne_zero (Nat.pos_iff_ne_zero.1 hfu)
    unfold World.lightLoop
    rw [if_neg (by omega)]
    exact ⟨_, _, rfl, by simp⟩
  | succ k ih =>
    intro fuel acc rng hk hfu hsq
    obtain ⟨fuel, rfl⟩ := Nat.exists_eq_succ_of_ne_zero (Nat.pos_iff_ne_zero.1 (lt_of_le_of_lt (Nat.zero_le _) hfu))
    unfold World.lightLoop
    rw [if_pos (by omega)]
    have hstep : n - (k + 1) + 1 = n - k := by omega
    have h0 : (rng 0, rng 1) ∈ unitSquare := by simpa using hsq 0 (by omega)
    obtain ⟨c, pdf, hI, hcase⟩ := hval _ h0
    have hrest : ∀ acc', ∃ v rng', w.lightLoop m ray n pt normal e1 e2 light fuel (n - k) acc' (fun k => rng (k + 2)) = .ok (v, rng') ∧ ch v = ch acc' + ∑ j ∈ Finset.range k, ch (val (rng (2 * (j + 1)), rng (2 * (j + 1) + 1))) := by
      intro acc'
      obtain ⟨v, rng', hv, hs⟩ := ih fuel acc' (fun k => rng (k + 2)) (by omega) (by omega) (fun j hj => by
        have := hsq (j + 1) (by omega)
        rw [show 2 * (j + 1) = 2 * j + 2 by ring] at this
        exact this)
      refine ⟨v, rng', hv, ?_⟩
      rw [hs]
      rfl
    rw [hdir, Res.bind_ok]
    simp only [hI, Res.bind_ok]
    rw [Finset.sum_range_succ']
    simp only [mul_zero, zero_add]
    rcases hcase with ⟨hlow, hb⟩ | ⟨hlow, ht⟩
    · simp only [hlow, if_true, hstep]
      obtain ⟨v, rng', hv, hs⟩ := hrest acc
      refine ⟨v, rng', hv, ?_⟩
      rw [hs, hb, hblack, add_zero]
    · simp only [hlow, if_false, ht, Res.bind_ok, hstep]
      obtain ⟨v, rng', hv, hs⟩ := hrest (acc + val (rng 0, rng 1))
      refine ⟨v, rng', hv, ?_⟩
      rw [hs, hadd]
      ring

/-- The direct light at a matt point lit by one sun, sample by sample. -/
theorem sun_samples (hR : w.Renders s) (hext : w.ext.PerpSpec) {sun : Object ℝ} {direction : Vec3 ℝ} {angle : ℝ} {L : Spectrum ℝ} {D : ℝ} (hS : w.IsSun s sun direction angle L D)
    (hl : s.lights = []) (hd : s.distantLights = [sun]) (m : Material ℝ) (col : Spectrum ℝ) (r : ℝ) (hm : m ∈ [Material.plastic col 0 r, Material.metal col 0 r]) (ray : TRay)
    (n : Nat) (hn : 0 < n) (fuel : Nat) (hfuel : n < fuel) (rest : Rng) (ch : Spectrum ℝ → ℝ) (hch : ch ∈ [Spectrum.c0, Spectrum.c1, Spectrum.c2]) (hcol : 0 ≤ ch col) (hL : 0 ≤ ch L) :
    ∃ f1 f2, Frame f1 f2 direction.normalized ∧ ∃ lit : ℝ × ℝ → Prop,
      (∀ d ∈ unitSquare, SunSurelySeen s (ray.interaction.point + ray.interaction.shading.normal.scale (1 / 1000)) D (towards f1 f2 direction.normalized (Real.tan (angle / 2)) d) → lit d) ∧
      (∀ d ∈ unitSquare, lit d → SunMaybeSeen s (ray.interaction.point + ray.interaction.shading.normal.scale (1 / 1000)) D (towards f1 f2 direction.normalized (Real.tan (angle / 2)) d)) ∧
      ∀ ω : Fin n → ℝ × ℝ, (∀ k, ω k ∈ unitSquare) → brought (w.localIllumination fuel m ray (Rng.ofPairs ω rest) n) ch =
        ENNReal.ofReal (ch col / Real.pi * ch L * (2 * Real.pi * (1 - Real.cos (angle / 2))) / n) * ∑ k, open Classical in if lit (ω k) then ENNReal.ofReal |Dot ray.interaction.shading.normal (towards f1 f2 direction.normalized (Real.tan (angle / 2)) (ω k))| else 0 := by
  classical
  obtain ⟨f1, f2, hf, hdir⟩ := source_sample w.ext hext direction angle hS.direction_ne
  refine ⟨f1, f2, hf, ?_⟩
  set pt := ray.interaction.point + ray.interaction.shading.normal.scale (1 / 1000) with hpt
  set N := ray.interaction.shading.normal with hN
  set dir := towards f1 f2 direction.normalized (Real.tan (angle / 2)) with hdirdef
  have ha0 : 0 < angle / 2 := by linarith [hS.angle_pos]
  have ha1 : angle / 2 < Real.pi / 2 := by linarith [hS.angle_lt]
  have hs0 : 0 < Real.sin (angle / 2) := Real.sin_pos_of_pos_of_lt_pi ha0 (by linarith [Real.pi_pos])
  have hc : 0 < Real.cos (angle / 2) := Real.cos_pos_of_mem_Ioo ⟨by linarith, ha1⟩
  have hc1 : Real.cos (angle / 2) < 1 := by nlinarith [Real.sin_sq_add_cos_sq (angle / 2), Real.cos_le_one (angle / 2)]
  have hpi := Real.pi_pos
  have hpdf : ¬ sourceSolidAnglePdf angle < 1 / 10 ^ 18 := by
    unfold sourceSolidAnglePdf uniformConePdf
    rw [not_lt]
    refine one_div_le_one_div_of_le (by nlinarith) ?_
    nlinarith [Real.pi_le_four]
  set lit : ℝ × ℝ → Prop := fun d => w.intersectLight sun ⟨pt, dir d⟩ = .ok (some (L, sourceSolidAnglePdf angle)) with hlit
  have hall := fun d (hd : d ∈ unitSquare) => intersect_sun hR hS pt (dir d) (towards_unit hf _ _) (towards_in_cap hf (angle / 2) ha0 ha1 d hd)
  refine ⟨lit, fun d hd hsee => ?_, fun d hd hh => ?_, fun ω hω => ?_⟩
  · rcases hall d hd with h | h
    · exact absurd hsee h.2
    · exact h.1
  · rcases hall d hd with h | h
    · exfalso
      rw [hlit] at hh
      rw [h.1] at hh
      simp only [Res.ok.injEq, Option.some.injEq, Prod.mk.injEq] at hh
      rw [← hh.2] at hpdf
      exact hpdf (by norm_num)
    · exact h.2
  · set val : ℝ × ℝ → Spectrum ℝ := fun d => if lit d then ((L.scale |N.dot (dir d)|) * (col.scale (1 / Real.pi))).divBy ((n : ℝ) * sourceSolidAnglePdf angle) else Spectrum.black with hvaldef
    have hval : ∀ d ∈ unitSquare, ∃ c pdf, w.intersectLight sun ⟨pt, dir d⟩ = .ok (some (c, pdf)) ∧
        (pdf < 1 / 10 ^ 18 ∧ val d = Spectrum.black ∨ ¬ pdf < 1 / 10 ^ 18 ∧ w.lightTerm m ray n N ray.interaction.shading.dpdu ray.interaction.shading.dpdv (dir d) c pdf = .ok (val d)) := by
      intro d hd
      by_cases hld : lit d
      · refine ⟨L, _, hld, Or.inr ⟨hpdf, ?_⟩⟩
        simp only [World.lightTerm, matt_eval w.dt m col r hm, Res.bind_ok, hvaldef, hld, if_true]
      · rcases hall d hd with h | h
        · exact ⟨_, _, h.1, Or.inl ⟨by norm_num, by simp only [hvaldef, hld, if_false]⟩⟩
        · exact absurd h.1 hld
    obtain ⟨v, rng', hv, hsum⟩ := sun_loop (w := w) m ray n pt N ray.interaction.shading.dpdu ray.interaction.shading.dpdv dir val (fun rng => by rw [hS.primitive, hdir]) hval ch hch n fuel Spectrum.black (Rng.ofPairs ω rest) le_rfl hfuel
      (fun j hj => by rw [ofPairs_even ω rest j hj, ofPairs_odd ω rest j hj]; exact hω ⟨j, hj⟩)
    rw [Nat.sub_self] at hv
    have hloc : w.localIllumination fuel m ray (Rng.ofPairs ω rest) n = .ok (v, rng') := by
      unfold World.localIllumination World.sampleLightArray
      rw [hR.same.2.1, hR.same.2.2, hl, hd]
      simp only [World.lightsLoop, Res.bind_ok, TRay.getTriad, ← hN, ← hpt, hv, spectrum_black_add]
    rw [hloc]
    unfold brought
    simp only
    rw [hsum]
    have hblack : ch Spectrum.black = 0 := by
      simp only [List.mem_cons, List.not_mem_nil, or_false] at hch
      rcases hch with rfl | rfl | rfl <;> rfl
    have hK : 0 ≤ ch col / Real.pi * ch L * (2 * Real.pi * (1 - Real.cos (angle / 2))) / n := by
      have : 0 ≤ 1 - Real.cos (angle / 2) := by linarith
      positivity
    have hvch : ∀ d, ch (val d) = ch col / Real.pi * ch L * (2 * Real.pi * (1 - Real.cos (angle / 2))) / n * if lit d then |Dot N (dir d)| else 0 := by
      intro d
      simp only [hvaldef]
      by_cases hld : lit d
      · simp only [hld, if_true]
        have hp : sourceSolidAnglePdf angle = 1 / (2 * Real.pi * (1 - Real.cos (angle / 2))) := rfl
        have hne : 2 * Real.pi * (1 - Real.cos (angle / 2)) ≠ 0 := by
          have : 0 < 1 - Real.cos (angle / 2) := by linarith
          positivity
        have hdot : N.dot (dir d) = Dot N (dir d) := rfl
        have hn' : (n : ℝ) ≠ 0 := by positivity
        simp only [List.mem_cons, List.not_mem_nil, or_false] at hch
        rcases hch with rfl | rfl | rfl <;> simp only [Spectrum.divBy, Spectrum.mul_c0, Spectrum.mul_c1, Spectrum.mul_c2, Spectrum.scale, hdot, hp] <;> field_simp
      · simp only [hld, if_false, mul_zero, hblack]
    rw [hblack, zero_add, Finset.mul_sum, Finset.sum_range]
    simp only [hvch]
    rw [ENNReal.ofReal_sum_of_nonneg (fun k _ => mul_nonneg hK (by split_ifs <;> [exact abs_nonneg _; exact le_rfl]))]
    refine Finset.sum_congr rfl fun k _ => ?_
    rw [ofPairs_even ω rest k k.isLt, ofPairs_odd ω rest k k.isLt, ENNReal.ofReal_mul hK]
    congr 1
    simp only [Fin.eta, Prod.mk.eta]
    split_ifs <;> simp

/-- **C100.** A matt surface lit by one sun, all of it above the horizon of the surface (its shadows arbitrary): on average over the draws, the direct light is the integral over the part of the sun that is seen of
`colour / π · L · cos`, up to factors `2 c² / (1 + c)` and `2 / (c (1 + c))` for `c` the cosine of half the sun's angle; at least over the directions in which the sun is certainly seen, at most over those in which no triangle
stands between. (`projectedSolidAngle` is taken in the frame `e1 e2` of the surface's normal.) -/
theorem C100_sunlight (hR : w.Renders s) (hext : w.ext.PerpSpec) {sun : Object ℝ} {direction : Vec3 ℝ} {angle : ℝ} {L : Spectrum ℝ} {D : ℝ} (hS : w.IsSun s sun direction angle L D)
    (hl : s.lights = []) (hd : s.distantLights = [sun]) (m : Material ℝ) (col : Spectrum ℝ) (r : ℝ) (hm : m ∈ [Material.plastic col 0 r, Material.metal col 0 r]) (ray : TRay)
    (e1 e2 : Vec3 ℝ) (he : Frame e1 e2 ray.interaction.shading.normal) (hup : Real.sin (angle / 2) < Dot ray.interaction.shading.normal direction.normalized)
    (n : Nat) (hn : 0 < n) (fuel : Nat) (hfuel : n < fuel) (rest : Rng) (ch : Spectrum ℝ → ℝ) (hch : ch ∈ [Spectrum.c0, Spectrum.c1, Spectrum.c2]) (hcol : 0 ≤ ch col) (hL : 0 ≤ ch L) :
    let N := ray.interaction.shading.normal
    let pt := ray.interaction.point + N.scale (1 / 1000)
    let c := Real.cos (angle / 2)
    ENNReal.ofReal (2 * c ^ 2 / (1 + c)) * (ENNReal.ofReal (ch col / Real.pi * ch L) * projectedSolidAngle {l | SunSurelySeen s pt D (worldOf e1 e2 N l) ∧ c < Dot (worldOf e1 e2 N l) direction.normalized}) ≤
      MeanN n (fun ω => brought (w.localIllumination fuel m ray (Rng.ofPairs ω rest) n) ch) ∧
    MeanN n (fun ω => brought (w.localIllumination fuel m ray (Rng.ofPairs ω rest) n) ch) ≤
      ENNReal.ofReal (2 / (c * (1 + c))) * (ENNReal.ofReal (ch col / Real.pi * ch L) * projectedSolidAngle {l | SunMaybeSeen s pt D (worldOf e1 e2 N l) ∧ c < Dot (worldOf e1 e2 N l) direction.normalized}) := by
  classical
  intro N pt c
  have ha0 : 0 < angle / 2 := by linarith [hS.angle_pos]
  have ha1 : angle / 2 < Real.pi / 2 := by linarith [hS.angle_lt]
  have hc : 0 < c := Real.cos_pos_of_mem_Ioo ⟨by linarith, ha1⟩
  have hs0 : 0 < Real.sin (angle / 2) := Real.sin_pos_of_pos_of_lt_pi ha0 (by linarith [Real.pi_pos])
  have hc1 : c < 1 := by
    have := Real.sin_sq_add_cos_sq (angle / 2)
    have := Real.cos_le_one (angle / 2)
    show Real.cos (angle / 2) < 1
    nlinarith
  have hpi := Real.pi_pos
  have hcpos : 0 < 1 - c := by linarith
  have ht2 : Real.tan (angle / 2) ^ 2 = (1 - c ^ 2) / c ^ 2 := by
    rw [tan_sq_eq hc]
    change 1 / c ^ 2 - 1 = _
    field_simp
  obtain ⟨f1, f2, hf, lit, hlo, hhi, hval⟩ := sun_samples hR hext hS hl hd m col r hm ray n hn fuel hfuel rest ch hch hcol hL
  set a := direction.normalized
  set dir := towards f1 f2 a (Real.tan (angle / 2)) with hdir
  set K := ch col / Real.pi * ch L * (2 * Real.pi * (1 - c)) with hK
  have hK0 : 0 ≤ K := by positivity
  have hms : MeasurableSet (Set.univ.pi fun _ : Fin n => unitSquare) := MeasurableSet.univ_pi fun _ => measurableSet_Ico.prod measurableSet_Ico
  have hpi' : ∀ ω ∈ (Set.univ.pi fun _ : Fin n => unitSquare), ∀ k, ω k ∈ unitSquare := fun ω hω k => hω k (mem_univ _)
  have habs : ∀ d ∈ unitSquare, |Dot N (dir d)| = Dot N (dir d) := by
    intro d hd
    rw [hdir, towards_dot hf _ _ hd.1.1]
    exact abs_of_nonneg (div_nonneg (towards_pos hf he.n3 (angle / 2) ha0 ha1 hup d hd).le (Real.sqrt_nonneg _))
  have hmean : ∀ f : ℝ × ℝ → ENNReal, Measurable f → MeanN n (fun ω => ENNReal.ofReal (K / n) * ∑ k, f (ω k)) = ENNReal.ofReal K * Mean f := by
    intro f hf
    have : MeanN n (fun ω => ENNReal.ofReal (K / n) * ∑ k, f (ω k)) = ENNReal.ofReal (K / n) * MeanN n (fun ω => ∑ k, f (ω k)) := by
      unfold MeanN
      rw [lintegral_const_mul' _ _ ENNReal.ofReal_ne_top]
    rw [this, meanN_total n hf, ← mul_assoc, ← ENNReal.ofReal_natCast, ← ENNReal.ofReal_mul (by positivity), div_mul_cancel₀ _ (by positivity)]
  obtain ⟨a1, a2, -⟩ := sun_mean hf he (angle / 2) ha0 ha1 hup (measurable_sunSurely s pt D)
  obtain ⟨b1, -, b3⟩ := sun_mean hf he (angle / 2) ha0 ha1 hup (measurable_sunMaybe s pt D)
  rw [ht2] at a2 b3
  constructor
  · calc _ ≤ ENNReal.ofReal (2 * c ^ 2 / (1 + c)) * (ENNReal.ofReal (ch col / Real.pi * ch L) * (ENNReal.ofReal (Real.pi * ((1 - c ^ 2) / c ^ 2)) *
          Mean (fun d => if dir d ∈ {v | SunSurelySeen s pt D v} then ENNReal.ofReal (Dot N (dir d)) else 0))) := mul_le_mul_right (mul_le_mul_right a2 _) _
      _ = ENNReal.ofReal K * Mean (fun d => if dir d ∈ {v | SunSurelySeen s pt D v} then ENNReal.ofReal (Dot N (dir d)) else 0) := by
        rw [← mul_assoc, ← mul_assoc, ← ENNReal.ofReal_mul (by positivity), ← ENNReal.ofReal_mul (by positivity)]
        congr 2
        rw [hK]
        field_simp
        ring
      _ = MeanN n (fun ω => ENNReal.ofReal (K / n) * ∑ k, if dir (ω k) ∈ {v | SunSurelySeen s pt D v} then ENNReal.ofReal (Dot N (dir (ω k))) else 0) := (hmean _ a1).symm
      _ ≤ _ := by
        refine setLIntegral_mono' hms fun ω hω => ?_
        rw [hval ω (hpi' ω hω)]
        gcongr with k
        by_cases hsee : dir (ω k) ∈ {v | SunSurelySeen s pt D v}
        · rw [if_pos hsee, if_pos (hlo _ (hpi' ω hω k) hsee), habs _ (hpi' ω hω k)]
        · rw [if_neg hsee]
          exact bot_le
  · calc
      _ ≤ MeanN n (fun ω => ENNReal.ofReal (K / n) * ∑ k, if dir (ω k) ∈ {v | SunMaybeSeen s pt D v} then ENNReal.ofReal (Dot N (dir (ω k))) else 0) := by
        refine setLIntegral_mono' hms fun ω hω => ?_
        rw [hval ω (hpi' ω hω)]
        gcongr with k
        by_cases hld : lit (ω k)
        · have hsee : dir (ω k) ∈ {v | SunMaybeSeen s pt D v} := hhi _ (hpi' ω hω k) hld
          rw [if_pos hld, if_pos hsee, habs _ (hpi' ω hω k)]
        · rw [if_neg hld]
          exact bot_le
      _ = ENNReal.ofReal K * Mean (fun d => if dir d ∈ {v | SunMaybeSeen s pt D v} then ENNReal.ofReal (Dot N (dir d)) else 0) := hmean _ b1
      _ = ENNReal.ofReal (2 / (c * (1 + c))) * (ENNReal.ofReal (ch col / Real.pi * ch L) * (ENNReal.ofReal (c ^ 3) * (ENNReal.ofReal (Real.pi * ((1 - c ^ 2) / c ^ 2)) *
          Mean (fun d => if dir d ∈ {v | SunMaybeSeen s pt D v} then ENNReal.ofReal (Dot N (dir d)) else 0)))) := by
        rw [← mul_assoc, ← mul_assoc, ← mul_assoc, ← ENNReal.ofReal_mul (by positivity), ← ENNReal.ofReal_mul (by positivity), ← ENNReal.ofReal_mul (by positivity)]
        congr 2
        rw [hK]
        field_simp
        ring
      _ ≤ _ := mul_le_mul_right (mul_le_mul_right b3 _) _

/-- **C100, size of the error.** For sources of up to a hundredth of a radian (the sun is 0.0093) both factors are within one fifty-thousandth of one. -/
theorem C100_error (angle : ℝ) (h0 : 0 < angle) (h1 : angle ≤ 1 / 100) :
    1 - 1 / 50000 ≤ 2 * Real.cos (angle / 2) ^ 2 / (1 + Real.cos (angle / 2)) ∧ 2 / (Real.cos (angle / 2) * (1 + Real.cos (angle / 2))) ≤ 1 + 1 / 50000 := by
  have hlow := Real.one_sub_sq_div_two_le_cos (x := angle / 2)
  have hle := Real.cos_le_one (angle / 2)
  set c := Real.cos (angle / 2)
  have hc : 1 - 1 / 80000 ≤ c := by nlinarith
  have hc0 : 0 < c := by linarith
  constructor
  · rw [le_div_iff₀ (by linarith)]
    nlinarith
  · rw [div_le_iff₀ (by positivity)]
    nlinarith

/-- **C100, in the open.** If nothing can hide the sun, the mean is the integral over the whole sun times `4 c / (1 + c)²`: for a sun of half a degree it is too dark by three parts in a hundred thousand million. -/
theorem C100_open_sunlight (hR : w.Renders s) (hext : w.ext.PerpSpec) {sun : Object ℝ} {direction : Vec3 ℝ} {angle : ℝ} {L : Spectrum ℝ} {D : ℝ} (hS : w.IsSun s sun direction angle L D)
    (hl : s.lights = []) (hd : s.distantLights = [sun]) (m : Material ℝ) (col : Spectrum ℝ) (r : ℝ) (hm : m ∈ [Material.plastic col 0 r, Material.metal col 0 r]) (ray : TRay)
    (e1 e2 : Vec3 ℝ) (he : Frame e1 e2 ray.interaction.shading.normal) (hup : Real.sin (angle / 2) < Dot ray.interaction.shading.normal direction.normalized)
    (hopen : ∀ v, Norm v = 1 → Real.cos (angle / 2) < Dot v direction.normalized → SunSurelySeen s (ray.interaction.point + ray.interaction.shading.normal.scale (1 / 1000)) D v)
    (n : Nat) (hn : 0 < n) (fuel : Nat) (hfuel : n < fuel) (rest : Rng) (ch : Spectrum ℝ → ℝ) (hch : ch ∈ [Spectrum.c0, Spectrum.c1, Spectrum.c2]) (hcol : 0 ≤ ch col) (hL : 0 ≤ ch L) :
    let N := ray.interaction.shading.normal
    let c := Real.cos (angle / 2)
    MeanN n (fun ω => brought (w.localIllumination fuel m ray (Rng.ofPairs ω rest) n) ch) =
      ENNReal.ofReal (4 * c / (1 + c) ^ 2) * (ENNReal.ofReal (ch col / Real.pi * ch L) * projectedSolidAngle {l | c < Dot (worldOf e1 e2 N l) direction.normalized}) := by
  classical
  intro N c
  have ha0 : 0 < angle / 2 := by linarith [hS.angle_pos]
  have ha1 : angle / 2 < Real.pi / 2 := by linarith [hS.angle_lt]
  have hc : 0 < c := Real.cos_pos_of_mem_Ioo ⟨by linarith, ha1⟩
  have hs0 : 0 < Real.sin (angle / 2) := Real.sin_pos_of_pos_of_lt_pi ha0 (by linarith [Real.pi_pos])
  have hsc : Real.sin (angle / 2) ^ 2 + c ^ 2 = 1 := Real.sin_sq_add_cos_sq (angle / 2)
  have hc1 : c < 1 := by nlinarith
  have hpi := Real.pi_pos
  have hcpos : 0 < 1 - c := by linarith
  obtain ⟨f1, f2, hf, lit, hlo, hhi, hval⟩ := sun_samples hR hext hS hl hd m col r hm ray n hn fuel hfuel rest ch hch hcol hL
  set a := direction.normalized with ha
  set dir := towards f1 f2 a (Real.tan (angle / 2)) with hdir
  set K := ch col / Real.pi * ch L * (2 * Real.pi * (1 - c)) with hK
  have hK0 : 0 ≤ K := by positivity
  have hA : 0 < Dot N a := hs0.trans hup
  have hms : MeasurableSet (Set.univ.pi fun _ : Fin n => unitSquare) := MeasurableSet.univ_pi fun _ => measurableSet_Ico.prod measurableSet_Ico
  have hpi' : ∀ ω ∈ (Set.univ.pi fun _ : Fin n => unitSquare), ∀ k, ω k ∈ unitSquare := fun ω hω k => hω k (mem_univ _)
  have habs : ∀ d ∈ unitSquare, |Dot N (dir d)| = Dot N (dir d) := by
    intro d hd
    rw [hdir, towards_dot hf _ _ hd.1.1]
    exact abs_of_nonneg (div_nonneg (towards_pos hf he.n3 (angle / 2) ha0 ha1 hup d hd).le (Real.sqrt_nonneg _))
  have hm' : Measurable fun d => ENNReal.ofReal (Dot N (dir d)) := by
    have e : (fun d => ENNReal.ofReal (Dot N (dir d))) = fun d => ENNReal.ofReal (Dot (dirTo f1 f2 a (discMap (Real.tan (angle / 2)) d)) N) := by
      funext d
      congr 1
      rw [show Dot N (dir d) = Dot (dir d) N by simp only [Dot]; ring]
      rfl
    rw [e]
    exact ((dirTo_measurable hf N).comp (discMap_measurable _)).ennreal_ofReal
  have h1 : MeanN n (fun ω => brought (w.localIllumination fuel m ray (Rng.ofPairs ω rest) n) ch) = MeanN n (fun ω => ENNReal.ofReal (K / n) * ∑ k, ENNReal.ofReal (Dot N (dir (ω k)))) := by
    refine setLIntegral_congr_fun hms fun ω hω => ?_
    rw [hval ω (hpi' ω hω)]
    congr 1
    refine Finset.sum_congr rfl fun k _ => ?_
    rw [if_pos (hlo _ (hpi' ω hω k) (hopen _ (towards_unit hf _ _) (towards_in_cap hf (angle / 2) ha0 ha1 _ (hpi' ω hω k)))), habs _ (hpi' ω hω k)]
  have h2 : MeanN n (fun ω => ENNReal.ofReal (K / n) * ∑ k, ENNReal.ofReal (Dot N (dir (ω k)))) = ENNReal.ofReal (K / n) * MeanN n (fun ω => ∑ k, ENNReal.ofReal (Dot N (dir (ω k)))) := by
    unfold MeanN
    rw [lintegral_const_mul' _ _ ENNReal.ofReal_ne_top]
  have h3 := mean_cosine hf he.n3 (angle / 2) ha0 ha1 hup
  have hAn : Norm (⟨Dot a e1, Dot a e2, Dot a N⟩ : Vec3 ℝ) = 1 := by
    refine Norm_eq_one ?_
    have h := frame_sq he a
    rw [Dot_self_of_norm hf.n3] at h
    simp only [Dot] at h ⊢
    linarith
  have h4 := cap_irradiance ⟨Dot a e1, Dot a e2, Dot a N⟩ hAn c hc hc1 (by
    rw [show 1 - c ^ 2 = Real.sin (angle / 2) ^ 2 by linarith, Real.sqrt_sq hs0.le]
    rw [show Dot a N = Dot N a by simp only [Dot]; ring]
    exact hup)
  have h5 : {l : Vec3 ℝ | c < Dot (worldOf e1 e2 N l) a} = {l | c < Dot l ⟨Dot a e1, Dot a e2, Dot a N⟩} := by
    ext l
    rw [mem_setOf_eq, mem_setOf_eq]
    have : Dot (worldOf e1 e2 N l) a = Dot l ⟨Dot a e1, Dot a e2, Dot a N⟩ := by
      unfold worldOf
      simp only [Dot, Vec3.add_x, Vec3.add_y, Vec3.add_z, Vec3.scale_x, Vec3.scale_y, Vec3.scale_z]
      ring
    rw [this]
  rw [h1, h2, meanN_total n hm', h3, h5, h4, ← ENNReal.ofReal_natCast, ← ENNReal.ofReal_mul (by positivity), ← ENNReal.ofReal_mul (by positivity), ← ENNReal.ofReal_mul (by positivity), ← ENNReal.ofReal_mul (by positivity)]
  congr 1
  rw [show (⟨Dot a e1, Dot a e2, Dot a N⟩ : Vec3 ℝ).z = Dot N a by simp only [Dot]; ring, hK]
  simp only [show Real.cos (angle / 2) = c from rfl]
  have hn' : (n : ℝ) ≠ 0 := by positivity
  field_simp
  ring

/-- One channel of the light seen along a ray; nothing if there is no result. -/
noncomputable def seenLight (r : Res ((Spectrum ℝ × ℝ) × TRay × TState)) (ch : Spectrum ℝ → ℝ) : ENNReal :=
  match r with
  | .ok ((v, _), _, _) => ENNReal.ofReal (ch v)
  | _ => 0

/-- Without ambient samples, the light seen along a primary ray that meets a matt surface is its direct light. -/
theorem traced_direct (rt : RayTracer) (hamb : rt.maxDepth = 0 ∨ rt.nAmbientSamples = 0) (fuel : Nat) (st : TState) (ray : TRay) (i : Nat) (hit : TRay) (hcast : w.cast ray = .ok (some (i, hit))) (hdep : hit.depth = 0)
    (hside : hit.interaction.shading.side ≠ .NonApplicable) (m : Material ℝ) (col : Spectrum ℝ) (r : ℝ) (hm : m ∈ [Material.plastic col 0 r, Material.metal col 0 r]) (hmat : w.materialAt hit.interaction.shading.side i = .ok m)
    (n0 n1 n2 : Vec3 ℝ) (hn : w.scene.normals[i]? = some (n0, n1, n2)) (ch : Spectrum ℝ → ℝ) :
    seenLight (traceRay w rt (fuel + 1) st ray) ch = brought (w.localIllumination fuel m { hit with interaction := hit.interaction.interpolateNormal n0 n1 n2 } st.rng rt.nShadowSamples) ch := by
  have h1 : m.emitsLight = false ∧ m.specularOnly = false := by
    simp only [List.mem_cons, List.not_mem_nil, or_false] at hm
    rcases hm with rfl | rfl <;> exact ⟨rfl, rfl⟩
  obtain ⟨g, ri, it, dep, vl, cl⟩ := hit
  simp only at hdep hside hmat ⊢
  subst hdep
  simp only [traceRay, traceStep, hcast, Res.bind_ok, hside, if_false, hmat]
  unfold surfaceStep
  simp only [h1.1, h1.2, Bool.false_eq_true, if_false, hn, Res.ofOption_some, Res.bind_ok, TRay.getNAmbientSamples, hamb, if_true, gt_iff_lt, Nat.not_lt_zero]
  cases hl : w.localIllumination fuel m ⟨g, ri, it.interpolateNormal n0 n1 n2, 0, vl, cl⟩ st.rng rt.nShadowSamples with
  | panic => rfl
  | diverge => rfl
  | ok x =>
    obtain ⟨v, rng'⟩ := x
    simp only [Res.bind_ok, globalIllumination, if_true, spectrum_add_black]
    rfl

theorem flat_normal (hflat : ∀ (j : Nat) (tri : Tri ℝ), s.triangles[j]? = some tri → s.normals[j]? = some ((geometricNormal tri).normalized, (geometricNormal tri).normalized, (geometricNormal tri).normalized))
    (g : Ray3 ℝ) (tri : Tri ℝ) (b : Bary ℝ) (j : Nat) (hb : triangleIntersect tri g = some b) (hj : s.triangles[j]? = some tri) (n0 n1 n2 : Vec3 ℝ) (hn2 : s.normals[j]? = some (n0, n1, n2)) :
    ((recordedInteraction tri g b).interpolateNormal n0 n1 n2).shading.normal = (recordedInteraction tri g b).shading.normal := by
  obtain ⟨k1, k2, _, k3, k4⟩ := recorded_frame tri g b hb
  have := hflat j tri hj
  rw [hn2] at this
  simp only [Option.some.injEq, Prod.mk.injEq] at this
  obtain ⟨rfl, rfl, rfl⟩ := this
  have hint := (C21_interpolated_normal_partial (recordedInteraction tri g b) (geometricNormal tri).normalized).2.1 (normalized_unit k2)
  rw [hint]
  split_ifs with hside
  · rw [k3 hside]
  · rw [k4 hside]

/-- **C100, traced.** The light seen along a primary ray that meets a matt surface under the sun, without ambient samples. -/
theorem C100_traced (hR : w.Renders s) (hext : w.ext.PerpSpec)
    (hflat : ∀ (j : Nat) (tri : Tri ℝ), s.triangles[j]? = some tri → s.normals[j]? = some ((geometricNormal tri).normalized, (geometricNormal tri).normalized, (geometricNormal tri).normalized))
    {sun : Object ℝ} {direction : Vec3 ℝ} {angle : ℝ} {L : Spectrum ℝ} {D : ℝ} (hS : w.IsSun s sun direction angle L D) (hl : s.lights = []) (hd : s.distantLights = [sun])
    (rt : RayTracer) (hamb : rt.maxDepth = 0 ∨ rt.nAmbientSamples = 0) (hn : 0 < rt.nShadowSamples) (fuel : Nat) (hfuel : rt.nShadowSamples < fuel) (rays : List TRay) (ray : TRay) (hdep : ray.depth = 0)
    (i : Nat) (hit : TRay) (hcast : w.cast ray = .ok (some (i, hit))) (m : Material ℝ) (col : Spectrum ℝ) (r : ℝ) (hm : m ∈ [Material.plastic col 0 r, Material.metal col 0 r])
    (hmat : w.materialAt hit.interaction.shading.side i = .ok m) (e1 e2 : Vec3 ℝ) (he : Frame e1 e2 hit.interaction.shading.normal) (hup : Real.sin (angle / 2) < Dot hit.interaction.shading.normal direction.normalized)
    (rest : Rng) (ch : Spectrum ℝ → ℝ) (hch : ch ∈ [Spectrum.c0, Spectrum.c1, Spectrum.c2]) (hcol : 0 ≤ ch col) (hL : 0 ≤ ch L) :
    let N := hit.interaction.shading.normal
    let pt := hit.interaction.point + N.scale (1 / 1000)
    let c := Real.cos (angle / 2)
    let seen := MeanN rt.nShadowSamples (fun ω => seenLight (traceRay w rt (fuel + 1) ⟨Rng.ofPairs ω rest, rays⟩ ray) ch)
    ENNReal.ofReal (2 * c ^ 2 / (1 + c)) * (ENNReal.ofReal (ch col / Real.pi * ch L) * projectedSolidAngle {l | SunSurelySeen s pt D (worldOf e1 e2 N l) ∧ c < Dot (worldOf e1 e2 N l) direction.normalized}) ≤ seen ∧
    seen ≤ ENNReal.ofReal (2 / (c * (1 + c))) * (ENNReal.ofReal (ch col / Real.pi * ch L) * projectedSolidAngle {l | SunMaybeSeen s pt D (worldOf e1 e2 N l) ∧ c < Dot (worldOf e1 e2 N l) direction.normalized}) := by
  intro N pt c seen
  rcases hR.cast_cases ray with ⟨hc, _⟩ | ⟨i', tri, b, j, hc, hj, hb, _, _, _, _, hno, _⟩
  · rw [hc] at hcast
    simp at hcast
  · rw [hc] at hcast
    simp only [Res.ok.injEq, Option.some.injEq, Prod.mk.injEq] at hcast
    obtain ⟨rfl, rfl⟩ := hcast
    have hside : (recordedInteraction tri ray.geometry b).shading.side ≠ .NonApplicable := by
      intro h
      simp only [h, World.materialAt] at hmat
      simp at hmat
    have hjl : j < s.normals.length := by rw [hR.aligned.1]; exact (List.getElem?_eq_some_iff.1 hj).1
    obtain ⟨⟨n0, n1, n2⟩, hnn⟩ : ∃ x, s.normals[j]? = some x := ⟨_, List.getElem?_eq_getElem hjl⟩
    have hsame := flat_normal hflat ray.geometry tri b j hb hj n0 n1 n2 hnn
    have hrw : ∀ ω : Fin rt.nShadowSamples → ℝ × ℝ, seenLight (traceRay w rt (fuel + 1) ⟨Rng.ofPairs ω rest, rays⟩ ray) ch =
        brought (w.localIllumination fuel m { ray with interaction := (recordedInteraction tri ray.geometry b).interpolateNormal n0 n1 n2 } (Rng.ofPairs ω rest) rt.nShadowSamples) ch := fun ω =>
      traced_direct rt hamb fuel ⟨Rng.ofPairs ω rest, rays⟩ ray i' _ hc hdep hside m col r hm hmat n0 n1 n2 (by rw [hno, hnn]) ch
    have h := C100_sunlight hR hext hS hl hd m col r hm { ray with interaction := (recordedInteraction tri ray.geometry b).interpolateNormal n0 n1 n2 } e1 e2 (by rw [hsame]; exact he) (by rw [hsame]; exact hup)
      rt.nShadowSamples hn fuel hfuel rest ch hch hcol hL
    simp only [hsame] at h
    simp only [seen, hrw]
    exact h

/-- A grey floor under a sun overhead, seen from above: the hypotheses of C100 are met, all of the sun is seen from the floor, and the floor is not black. -/
theorem sunlit_floor : ∃ (w : World) (s : Scene ℝ) (sun : Object ℝ) (i : Nat) (hit : TRay), w.Renders s ∧ w.ext.PerpSpec ∧ s.triangles ≠ [] ∧
    (∀ (j : Nat) (tri : Tri ℝ), s.triangles[j]? = some tri → s.normals[j]? = some ((geometricNormal tri).normalized, (geometricNormal tri).normalized, (geometricNormal tri).normalized)) ∧
    w.IsSun s sun ⟨0, 0, 1⟩ (1 / 100) (Spectrum.gray 5) 1000000 ∧ s.lights = [] ∧ s.distantLights = [sun] ∧ w.cast downRay = .ok (some (i, hit)) ∧ w.materialAt hit.interaction.shading.side i = .ok (.plastic (Spectrum.gray (1 / 2)) 0 0) ∧
    hit.interaction.shading.normal = ⟨0, 0, 1⟩ ∧ Frame (⟨1, 0, 0⟩ : Vec3 ℝ) ⟨0, 1, 0⟩ hit.interaction.shading.normal ∧ Real.sin (1 / 100 / 2) < Dot hit.interaction.shading.normal (⟨0, 0, 1⟩ : Vec3 ℝ).normalized ∧
    ∀ n, 0 < n → ∀ rest, 0 < MeanN n (fun ω => seenLight (traceRay w ⟨0, n, 70, 1 / 1000, 3 / 10⟩ (n + 2) ⟨Rng.ofPairs ω rest, defaultRays⟩ downRay) Spectrum.c0) := by
  let sun : Object ℝ := { front := 1, back := 1, primitive := .source ⟨0, 0, 1⟩ (1 / 100) }
  let s : Scene ℝ := { triangles := [plane 0], normals := [(⟨0, 0, 1⟩, ⟨0, 0, 1⟩, ⟨0, 0, 1⟩)], front := [0], back := [0], materials := [.plastic (Spectrum.gray (1 / 2)) 0 0, .light (Spectrum.gray 5)], distantLights := [sun] }
  obtain ⟨ext, hext⟩ := perpSpec_exists
  obtain ⟨w, hR, he, _⟩ := renders_exists s ⟨rfl, rfl, rfl⟩ (fits_of_small _ (by simp [s])) ⟨ext.perp, fun _ r => some ⟨r.origin + r.direction.scale 1000, ⟨0, 0, 1⟩, ⟨1, 0, 0⟩, ⟨0, 1, 0⟩, .Front, 0, 0⟩⟩
    ⟨fun _ _ => false, fun _ _ => false⟩ none none
  have hext' : w.ext.PerpSpec := by rw [he]; exact hext
  have hup : (⟨0, 0, 1⟩ : Vec3 ℝ).normalized = ⟨0, 0, 1⟩ := by
    rw [normalized_eq, show Norm (⟨0, 0, 1⟩ : Vec3 ℝ) = 1 from Norm_eq_one (by simp [Dot])]
    ext <;> simp
  have hgn : (geometricNormal (plane 0)).normalized = ⟨0, 0, 1⟩ := plane_normal 0
  have hflat : ∀ (j : Nat) (tri : Tri ℝ), s.triangles[j]? = some tri → s.normals[j]? = some ((geometricNormal tri).normalized, (geometricNormal tri).normalized, (geometricNormal tri).normalized) := by
    intro j tri hj
    cases j with
    | succ j => simp [s] at hj
    | zero =>
      simp only [s, List.getElem?_cons_zero, Option.some.injEq] at hj
      subst hj
      rw [hgn]
      rfl
  have hS : w.IsSun s sun ⟨0, 0, 1⟩ (1 / 100) (Spectrum.gray 5) 1000000 := by
    refine ⟨rfl, by simp [Dot], by norm_num, by linarith [Real.two_le_pi], fun pt v hv _ => ?_⟩
    rw [he]
    refine ⟨_, rfl, ?_, rfl⟩
    have := Dot_self_of_norm hv
    simp only [Dot] at this
    simp only [distSq, Vec3.add_x, Vec3.add_y, Vec3.add_z, Vec3.scale_x, Vec3.scale_y, Vec3.scale_z]
    linear_combination 1000000 * this
  have hd : Norm downRay.geometry.direction = 1 := Norm_eq_one (by norm_num [Dot, downRay])
  rcases hR.cast_cases downRay with ⟨_, hno⟩ | ⟨i, tri, b, j, hc, hj, hb, _, _, hfr, hbk, _, _⟩
  · exact absurd downRay_inRange (hno (plane 0) (by simp [s]) _ downRay_visible)
  · have hj0 : j = 0 ∧ tri = plane 0 := by
      cases j with
      | succ j => simp [s] at hj
      | zero =>
        simp only [s, List.getElem?_cons_zero, Option.some.injEq] at hj
        exact ⟨rfl, hj.symm⟩
    obtain ⟨rfl, rfl⟩ := hj0
    obtain ⟨k1, k2, k5, k3, k4⟩ := recorded_frame (plane 0) downRay.geometry b hb
    have hmat : w.materialAt (recordedInteraction (plane 0) downRay.geometry b).shading.side i = .ok (.plastic (Spectrum.gray (1 / 2)) 0 0) := by
      unfold World.materialAt
      cases hside : (recordedInteraction (plane 0) downRay.geometry b).shading.side with
      | NonApplicable => exact absurd hside k5
      | Front => simp only [hfr, hR.same.1]; rfl
      | Back => simp only [hbk, hR.same.1]; rfl
    -- the ray comes from above, so the normal on its side points up
    have hN : (recordedInteraction (plane 0) downRay.geometry b).shading.normal = ⟨0, 0, 1⟩ := by
      obtain ⟨_, _, hside, hdn, _⟩ := recorded_spec (plane 0) downRay.geometry b hd hb
      rcases hside with h | h
      · rw [h.2, hgn]
      · exfalso
        rw [h.2, hgn] at hdn
        simp [Dot, downRay] at hdn
        linarith
    have hframe : Frame (⟨1, 0, 0⟩ : Vec3 ℝ) ⟨0, 1, 0⟩ ⟨0, 0, 1⟩ := ⟨Norm_eq_one (by simp [Dot]), Norm_eq_one (by simp [Dot]), Norm_eq_one (by simp [Dot]), by simp [Dot], by simp [Dot], by simp [Dot]⟩
    have hframe' : Frame (⟨1, 0, 0⟩ : Vec3 ℝ) ⟨0, 1, 0⟩ (recordedInteraction (plane 0) downRay.geometry b).shading.normal := by rw [hN]; exact hframe
    have hsin0 : 0 < Real.sin (1 / 100 / 2) := Real.sin_pos_of_pos_of_lt_pi (by norm_num) (by linarith [Real.two_le_pi])
    have hsin : Real.sin (1 / 100 / 2) < 1 := by
      have := Real.sin_lt (x := 1 / 100 / 2) (by norm_num)
      linarith
    have hup' : Real.sin (1 / 100 / 2) < Dot (recordedInteraction (plane 0) downRay.geometry b).shading.normal (⟨0, 0, 1⟩ : Vec3 ℝ).normalized := by
      rw [hN, hup]
      simpa [Dot] using hsin
    refine ⟨w, s, sun, i, _, hR, hext', by simp [s], hflat, hS, rfl, rfl, hc, hmat, hN, hframe', hup', fun n hn rest => ?_⟩
    have h := (C100_traced hR hext' hflat hS rfl rfl ⟨0, n, 70, 1 / 1000, 3 / 10⟩ (Or.inl rfl) hn (n + 1) (by show n < n + 1; omega) defaultRays downRay rfl i _ hc _ _ _ (List.mem_cons_self ..) hmat _ _ hframe' hup' rest Spectrum.c0 (by simp)
      (by norm_num [Spectrum.gray]) (by norm_num [Spectrum.gray])).1
    refine lt_of_lt_of_le ?_ h
    have hcos : 0 < Real.cos (1 / 100 / 2) := Real.cos_pos_of_mem_Ioo ⟨by linarith [Real.two_le_pi], by linarith [Real.two_le_pi]⟩
    have hsc := Real.sin_sq_add_cos_sq (1 / 100 / 2)
    have hcos1 : Real.cos (1 / 100 / 2) < 1 := by nlinarith [Real.cos_le_one (1 / 100 / 2)]
    obtain ⟨hpt, -⟩ := recorded_spec (plane 0) downRay.geometry b hd hb
    have hz : b.p.z = 0 := by
      have := (baricentric_sound _ _ _ hb).1
      have e := congrArg Vec3.z this.2.2.1
      simpa [Vec3.scale, plane] using e
    have hset : {l | SunSurelySeen s ((recordedInteraction (plane 0) downRay.geometry b).point + (recordedInteraction (plane 0) downRay.geometry b).shading.normal.scale (1 / 1000)) 1000000
        (worldOf ⟨1, 0, 0⟩ ⟨0, 1, 0⟩ (recordedInteraction (plane 0) downRay.geometry b).shading.normal l) ∧ Real.cos (1 / 100 / 2) < Dot (worldOf ⟨1, 0, 0⟩ ⟨0, 1, 0⟩ (recordedInteraction (plane 0) downRay.geometry b).shading.normal l)
          (⟨0, 0, 1⟩ : Vec3 ℝ).normalized} = {l | Real.cos (1 / 100 / 2) < Dot l ⟨0, 0, 1⟩} := by
      ext l
      rw [hN, hup, hpt]
      have hw : worldOf ⟨1, 0, 0⟩ ⟨0, 1, 0⟩ ⟨0, 0, 1⟩ l = l := by ext <;> simp [worldOf, Vec3.scale]
      simp only [mem_setOf_eq, hw]
      refine ⟨fun h => h.2, fun h => ⟨?_, h⟩⟩
      intro tri ht t p u v hh
      simp only [s, List.mem_singleton] at ht
      subst ht
      obtain ⟨hp, ht, hp2, _⟩ := hh
      have e1 : p.z = 1 / 1000 + t * l.z := by rw [hp]; simp [Vec3.scale, hz]; ring
      have e2 : p.z = 0 := by rw [hp2]; simp [Vec3.scale, plane]
      simp only [Dot, mul_zero, mul_one, zero_add] at h
      have ht0 : 0 < t := lt_trans (by norm_num) ht
      have := mul_pos ht0 (hcos.trans h)
      linarith
    have hcap := cap_irradiance ⟨0, 0, 1⟩ (Norm_eq_one (by simp [Dot])) (Real.cos (1 / 100 / 2)) hcos hcos1 (by
      rw [show 1 - Real.cos (1 / 100 / 2) ^ 2 = Real.sin (1 / 100 / 2) ^ 2 by linarith, Real.sqrt_sq hsin0.le]
      exact hsin)
    rw [hset, hcap]
    simp only [Spectrum.gray]
    rw [← ENNReal.ofReal_mul (by positivity), ← ENNReal.ofReal_mul (by positivity), ENNReal.ofReal_pos]
    have h1 : 0 < 1 - Real.cos (1 / 100 / 2) ^ 2 := by nlinarith
    have := Real.pi_pos
    positivity

end Rendering
