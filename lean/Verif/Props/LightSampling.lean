import Verif.Props.Ambient
import Verif.Props.Samplers

/-!
# C79: the directions drawn towards a distant light, and the density reported for them
-/

set_option linter.unusedSectionVars false
namespace Rendering

open MeasureTheory

/-- The cosine of a sampled direction with the axis of the source: `1 / √(1 + u tan²(α/2))`, `u` the first draw. -/
theorem source_cosine (ext : GeoExt) (hext : ext.PerpSpec) (rng : Rng) (h : rng.Valid) (direction point : Vec3 ℝ) (angle : ℝ) (hd : 0 < Dot direction direction) (ha : 0 ≤ angle) (hpi : angle < Real.pi) :
    ∃ v rng', (Primitive.source direction angle).sampleDirection ext rng point = .ok (v, rng') ∧ Dot v direction.normalized = 1 / Real.sqrt (1 + rng 0 * Real.tan (angle / 2) ^ 2) := by
  have hnn : Norm direction.normalized = 1 := Norm_eq_one (normalized_dot_self hd)
  have hnd := normalized_dot_self hd
  have htan : 0 ≤ Real.tan (angle / 2) := Real.tan_nonneg_of_nonneg_of_le_pi_div_two (by linarith) (by linarith)
  obtain ⟨p, rng', hp, g1, g2, g3⟩ := C56_disc ext hext rng h (Real.tan (angle / 2)) htan (point + direction.normalized) direction.normalized hnn
  set n := direction.normalized with hndef
  set o := p - (point + n) with ho
  have hpo : p - point = o + n := by rw [ho]; ext <;> simp <;> ring
  have hdd : Dot (p - point) (p - point) = 1 + rng 0 * Real.tan (angle / 2) ^ 2 := by
    rw [hpo]
    have : Dot (o + n) (o + n) = Dot o o + 2 * Dot o n + Dot n n := by simp only [Dot, Vec3.add_x, Vec3.add_y, Vec3.add_z]; ring
    rw [this, g1, hnd, ← Norm_sq, g3]; ring
  refine ⟨(p - point).normalized, rng', ?_, ?_⟩
  · unfold Primitive.sampleDirection Primitive.sampleSurface
    simp only [← hndef]
    rw [hp]; rfl
  · rw [normalized_eq]
    have : Dot ((p - point).scale (1 / Norm (p - point))) n = 1 / Norm (p - point) * Dot (p - point) n := by
      simp only [Dot, Vec3.scale_x, Vec3.scale_y, Vec3.scale_z]; ring
    rw [this, hpo]
    have h2 : Dot (o + n) n = Dot o n + Dot n n := by simp only [Dot, Vec3.add_x, Vec3.add_y, Vec3.add_z]; ring
    rw [h2, g1, hnd, zero_add, mul_one, ← hpo, ← hdd, ← Norm_sq, Real.sqrt_sq (Norm_nonneg _)]

/-- The direction drawn towards the source, when the first draw is `u`, is within the cap of directions whose cosine with the axis is at least `x`. -/
def InCap (ext : GeoExt) (rest : Rng) (direction point : Vec3 ℝ) (angle x u : ℝ) : Prop :=
  ∃ v rng', (Primitive.source direction angle).sampleDirection ext (rest.cons u) point = .ok (v, rng') ∧ x ≤ Dot v direction.normalized

/-- The probability of the cap according to the density that is reported: density times solid angle. -/
noncomputable def reportedCapProbability (angle x : ℝ) : ℝ := sourceSolidAnglePdf angle * (2 * Real.pi * (1 - x))

/-- The probability with which directions in the cap are drawn, for a uniform first draw and any others. -/
theorem sampled_cap (ext : GeoExt) (hext : ext.PerpSpec) (rest : Rng) (hr : rest.Valid) (direction point : Vec3 ℝ) (angle : ℝ) (hd : 0 < Dot direction direction) (ha : 0 < angle) (hpi : angle < Real.pi)
    (x : ℝ) (hx : Real.cos (angle / 2) < x) (hx1 : x ≤ 1) :
    volume {u : ℝ | u ∈ Set.Ico 0 1 ∧ InCap ext rest direction point angle x u} = ENNReal.ofReal ((1 / x ^ 2 - 1) / Real.tan (angle / 2) ^ 2) := by
  have hc : 0 < Real.cos (angle / 2) := Real.cos_pos_of_mem_Ioo ⟨by linarith [Real.pi_pos], by linarith⟩
  have hx0 : 0 < x := hc.trans hx
  have htan : 0 < Real.tan (angle / 2) := Real.tan_pos_of_pos_of_lt_pi_div_two (by linarith) (by linarith)
  have ht2 : 0 < Real.tan (angle / 2) ^ 2 := by positivity
  have hb : (1 / x ^ 2 - 1) / Real.tan (angle / 2) ^ 2 < 1 := by
    rw [div_lt_one ht2]
    have e : Real.tan (angle / 2) ^ 2 = 1 / Real.cos (angle / 2) ^ 2 - 1 := by
      rw [Real.tan_eq_sin_div_cos]
      have := Real.sin_sq_add_cos_sq (angle / 2)
      field_simp
      linarith
    rw [e]
    have : 1 / x ^ 2 < 1 / Real.cos (angle / 2) ^ 2 := one_div_lt_one_div_of_lt (by positivity) (pow_lt_pow_left₀ hx hc.le (by norm_num))
    linarith
  have hval : ∀ u, u ∈ Set.Ico (0 : ℝ) 1 → Rng.Valid (rest.cons u) := by
    intro u hu n
    cases n with
    | zero => exact hu
    | succ n => exact hr n
  have hs : {u : ℝ | u ∈ Set.Ico 0 1 ∧ InCap ext rest direction point angle x u} = Set.Icc 0 ((1 / x ^ 2 - 1) / Real.tan (angle / 2) ^ 2) := by
    ext u
    simp only [Set.mem_setOf_eq, Set.mem_Icc]
    have key : ∀ hu : u ∈ Set.Ico (0 : ℝ) 1, InCap ext rest direction point angle x u ↔ u ≤ (1 / x ^ 2 - 1) / Real.tan (angle / 2) ^ 2 := by
      intro hu
      obtain ⟨v, rng', h1, h2⟩ := source_cosine ext hext (rest.cons u) (hval u hu) direction point angle hd ha.le hpi
      have hcap : InCap ext rest direction point angle x u ↔ x ≤ 1 / Real.sqrt (1 + u * Real.tan (angle / 2) ^ 2) := by
        constructor
        · rintro ⟨v', r', h1', h3⟩
          rw [h1] at h1'
          have := congrArg (fun x => x.1) (Res.ok.inj h1')
          simp only at this
          rw [← this, h2] at h3
          exact h3
        · intro h3
          exact ⟨v, rng', h1, by rw [h2]; exact h3⟩
      rw [hcap, le_div_iff₀ ht2]
      have hp : 0 < 1 + u * Real.tan (angle / 2) ^ 2 := by have := mul_nonneg hu.1 ht2.le; linarith
      rw [le_div_iff₀ (Real.sqrt_pos.2 hp)]
      constructor
      · intro h
        have h' : (x * Real.sqrt (1 + u * Real.tan (angle / 2) ^ 2)) ^ 2 ≤ 1 := by
          have := mul_nonneg hx0.le (Real.sqrt_nonneg (1 + u * Real.tan (angle / 2) ^ 2))
          nlinarith
        rw [mul_pow, Real.sq_sqrt hp.le] at h'
        have : 1 + u * Real.tan (angle / 2) ^ 2 ≤ 1 / x ^ 2 := by rw [le_div_iff₀ (by positivity)]; linarith
        linarith
      · intro h
        have : 1 + u * Real.tan (angle / 2) ^ 2 ≤ 1 / x ^ 2 := by linarith
        have h3 := Real.sqrt_le_sqrt this
        rw [show (1 : ℝ) / x ^ 2 = (1 / x) ^ 2 by ring, Real.sqrt_sq (by positivity)] at h3
        calc _ ≤ x * (1 / x) := by gcongr
          _ = 1 := by field_simp
    constructor
    · rintro ⟨hu, hcap⟩
      exact ⟨hu.1, (key hu).1 hcap⟩
    · rintro ⟨h0, h1⟩
      have hu : u ∈ Set.Ico (0 : ℝ) 1 := ⟨h0, by linarith⟩
      exact ⟨hu, (key hu).2 h1⟩
  rw [hs, Real.volume_Icc, sub_zero]

theorem cap_ratio {c x : ℝ} (hc : 0 < c) (hx : c < x) (hx1 : x < 1) :
    (1 / x ^ 2 - 1) / (1 / c ^ 2 - 1) < (1 - x) / (1 - c) ∧ (1 - x) / (1 - c) * (2 * c ^ 2 / (1 + c)) ≤ (1 / x ^ 2 - 1) / (1 / c ^ 2 - 1) := by
  have hx0 : 0 < x := hc.trans hx
  have h1 : 0 < 1 - x := by linarith
  have h2 : 0 < 1 - c := by linarith
  have h3 : 0 < 1 + c := by linarith
  have e : (1 / x ^ 2 - 1) / (1 / c ^ 2 - 1) = (1 - x) / (1 - c) * ((1 + x) / x ^ 2 * (c ^ 2 / (1 + c))) := by
    have : 1 / c ^ 2 - 1 ≠ 0 := by
      have : 1 < 1 / c ^ 2 := by rw [lt_div_iff₀ (by positivity)]; nlinarith
      linarith
    rw [div_eq_iff this]
    field_simp
    ring
  rw [e]
  have hq : 0 < (1 - x) / (1 - c) := by positivity
  constructor
  · have : (1 + x) / x ^ 2 * (c ^ 2 / (1 + c)) < 1 := by
      rw [div_mul_div_comm, div_lt_one (by positivity)]
      nlinarith [mul_pos hc hx0, mul_pos (mul_pos hc hx0) (sub_pos.2 hx)]
    nlinarith
  · apply mul_le_mul_of_nonneg_left _ hq.le
    have : 2 ≤ (1 + x) / x ^ 2 := by rw [le_div_iff₀ (by positivity)]; nlinarith
    calc 2 * c ^ 2 / (1 + c) = 2 * (c ^ 2 / (1 + c)) := by ring
      _ ≤ _ := by apply mul_le_mul_of_nonneg_right this; positivity

theorem reported_eq (angle x : ℝ) : reportedCapProbability angle x = (1 - x) / (1 - Real.cos (angle / 2)) := by
  unfold reportedCapProbability sourceSolidAnglePdf uniformConePdf
  have := Real.pi_pos
  rw [div_mul_eq_mul_div, one_mul, mul_div_mul_left _ _ (by positivity)]

theorem tan_sq_eq {a : ℝ} (h : 0 < Real.cos a) : Real.tan a ^ 2 = 1 / Real.cos a ^ 2 - 1 := by
  rw [Real.tan_eq_sin_div_cos]
  have := Real.sin_sq_add_cos_sq a
  field_simp
  linarith

/-- **C79, violation.** Whatever the angle of the source, directions in any cap around its axis (smaller than the source) are drawn less often than the reported density says. -/
theorem C79_violation_source (ext : GeoExt) (hext : ext.PerpSpec) (rest : Rng) (hr : rest.Valid) (direction point : Vec3 ℝ) (angle : ℝ) (hd : 0 < Dot direction direction) (ha : 0 < angle) (hpi : angle < Real.pi)
    (x : ℝ) (hx : Real.cos (angle / 2) < x) (hx1 : x < 1) :
    volume {u : ℝ | u ∈ Set.Ico 0 1 ∧ InCap ext rest direction point angle x u} < ENNReal.ofReal (reportedCapProbability angle x) := by
  have hc : 0 < Real.cos (angle / 2) := Real.cos_pos_of_mem_Ioo ⟨by linarith [Real.pi_pos], by linarith⟩
  rw [sampled_cap ext hext rest hr direction point angle hd ha hpi x hx hx1.le, reported_eq, tan_sq_eq hc]
  apply (ENNReal.ofReal_lt_ofReal_iff (div_pos (by linarith) (by linarith))).2
  exact (cap_ratio hc hx hx1).1

/-- **C79, partial: how far off.** The share of a cap is at least `2 c² / (1 + c)` of what the density says, `c` the cosine of half the angle: for a narrow source (the sun) the two nearly agree. -/
theorem C79_source_nearly_uniform_partial (ext : GeoExt) (hext : ext.PerpSpec) (rest : Rng) (hr : rest.Valid) (direction point : Vec3 ℝ) (angle : ℝ) (hd : 0 < Dot direction direction) (ha : 0 < angle) (hpi : angle < Real.pi)
    (x : ℝ) (hx : Real.cos (angle / 2) < x) (hx1 : x < 1) :
    ENNReal.ofReal (reportedCapProbability angle x * (2 * Real.cos (angle / 2) ^ 2 / (1 + Real.cos (angle / 2)))) ≤ volume {u : ℝ | u ∈ Set.Ico 0 1 ∧ InCap ext rest direction point angle x u} := by
  have hc : 0 < Real.cos (angle / 2) := Real.cos_pos_of_mem_Ioo ⟨by linarith [Real.pi_pos], by linarith⟩
  rw [sampled_cap ext hext rest hr direction point angle hd ha hpi x hx hx1.le, reported_eq, tan_sq_eq hc]
  exact ENNReal.ofReal_le_ofReal (cap_ratio hc hx hx1).2

/-- C79: a source of 120 degrees; the cap of 45 degrees gets a third of the directions; the density says `2 - √2`, more than half. -/
example : ∃ ext : GeoExt, volume {u : ℝ | u ∈ Set.Ico 0 1 ∧ InCap ext (fun _ => 0) ⟨0, 0, 2⟩ ⟨0, 0, 0⟩ (2 * Real.pi / 3) (Real.sqrt 2 / 2) u} = ENNReal.ofReal (1 / 3) ∧
    reportedCapProbability (2 * Real.pi / 3) (Real.sqrt 2 / 2) = 2 - Real.sqrt 2 := by
  obtain ⟨ext, hext⟩ := perpSpec_exists
  have e : 2 * Real.pi / 3 / 2 = Real.pi / 3 := by ring
  have hs := Real.sq_sqrt (show (0 : ℝ) ≤ 2 by norm_num)
  have hs1 : (1 : ℝ) < Real.sqrt 2 := by
    rw [show (1 : ℝ) = Real.sqrt 1 by simp]
    exact Real.sqrt_lt_sqrt (by norm_num) (by norm_num)
  have hs2 : Real.sqrt 2 < 2 := by nlinarith
  refine ⟨ext, ?_, ?_⟩
  · rw [sampled_cap ext hext (fun _ => 0) (fun _ => by norm_num) ⟨0, 0, 2⟩ ⟨0, 0, 0⟩ (2 * Real.pi / 3) (by norm_num [Dot]) (by linarith [Real.pi_pos]) (by linarith [Real.pi_pos]) (Real.sqrt 2 / 2)
      (by rw [e, Real.cos_pi_div_three]; linarith) (by linarith), tan_sq_eq (by rw [e, Real.cos_pi_div_three]; norm_num), e, Real.cos_pi_div_three, div_pow, hs]
    norm_num
  · rw [reported_eq, e, Real.cos_pi_div_three]
    ring

/-- C79: the sun, as wide as the program makes it, straight above. -/
example := fun ext (hext : ext.PerpSpec) => C79_violation_source ext hext (fun _ => 0) (fun _ => by norm_num) ⟨0, 0, 2⟩ 0 (2 * Real.pi / 3) (by norm_num [Dot]) (by positivity) (by linarith [Real.pi_pos]) (3 / 4) (by
  rw [show 2 * Real.pi / 3 / 2 = Real.pi / 3 by ring, Real.cos_pi_div_three]; norm_num) (by norm_num)

example := fun ext (hext : ext.PerpSpec) => C79_source_nearly_uniform_partial ext hext (fun _ => 0) (fun _ => by norm_num) ⟨0, 0, 2⟩ 0 (2 * Real.pi / 3) (by norm_num [Dot]) (by positivity) (by linarith [Real.pi_pos]) (3 / 4) (by
  rw [show 2 * Real.pi / 3 / 2 = Real.pi / 3 by ring, Real.cos_pi_div_three]; norm_num) (by norm_num)

end Rendering
