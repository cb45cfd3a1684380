import Verif.Spec.ExactLight

/-!
# Integrals over directions do not depend on the axes chosen
-/

set_option linter.unusedSectionVars false
namespace Rendering

open MeasureTheory Set

theorem shift_integral (I : Set ℝ) (a b β : ℝ) (F : ℝ → ℝ → ENNReal) : ∫⁻ p in I ×ˢ Ioo (a - β) (b - β), F p.1 (p.2 + β) = ∫⁻ p in I ×ˢ Ioo a b, F p.1 p.2 := by
  have hP : MeasurePreserving (fun p : ℝ × ℝ => p + (0, β)) volume volume := measurePreserving_add_right volume (0, β)
  have hE : MeasurableEmbedding (fun p : ℝ × ℝ => p + (0, β)) := measurableEmbedding_addRight _
  have h := hP.setLIntegral_comp_preimage_emb hE (fun p : ℝ × ℝ => F p.1 p.2) (I ×ˢ Ioo a b)
  have hs : (fun p : ℝ × ℝ => p + (0, β)) ⁻¹' (I ×ˢ Ioo a b) = I ×ˢ Ioo (a - β) (b - β) := by
    ext ⟨x, y⟩
    simp only [mem_preimage, mem_prod, Prod.mk_add_mk, add_zero, mem_Ioo]
    constructor
    · rintro ⟨h1, h2, h3⟩; exact ⟨h1, by linarith, by linarith⟩
    · rintro ⟨h1, h2, h3⟩; exact ⟨h1, by linarith, by linarith⟩
  rw [hs] at h
  simpa using h

theorem split_integral (I : Set ℝ) (hI : MeasurableSet I) {a b c : ℝ} (h1 : a ≤ b) (h2 : b ≤ c) (F : ℝ × ℝ → ENNReal) : ∫⁻ p in I ×ˢ Ioo a c, F p = (∫⁻ p in I ×ˢ Ioo a b, F p) + ∫⁻ p in I ×ˢ Ioo b c, F p := by
  have hd : Disjoint (I ×ˢ Ioo a b) (I ×ˢ Ioo b c) := by
    rw [Set.disjoint_left]
    rintro ⟨x, y⟩ ⟨_, h⟩ ⟨_, h'⟩
    exact absurd h.2 (not_lt.2 h'.1.le)
  rw [← lintegral_union (hI.prod measurableSet_Ioo) hd, ← Set.prod_union]
  refine setLIntegral_congr (Measure.set_prod_ae_eq (ae_eq_refl I) ?_)
  have e : (Ioo a b ∪ Ioo b c : Set ℝ) =ᵐ[volume] (Ioc a b ∪ Ioo b c : Set ℝ) := (Ioo_ae_eq_Ioc).union (ae_eq_refl _)
  refine (e.trans ?_).symm
  rcases h2.eq_or_lt with rfl | h2
  · rw [Ioo_self, union_empty]; exact Ioo_ae_eq_Ioc.symm
  · rw [Ioc_union_Ioo_eq_Ioo h1 h2]; exact ae_eq_refl _

theorem turn_integral (I : Set ℝ) (hI : MeasurableSet I) (α : ℝ) (F : ℝ → ℝ → ENNReal) (hF : ∀ z, Function.Periodic (F z) (2 * Real.pi)) :
    ∫⁻ p in I ×ˢ Ioo 0 (2 * Real.pi), F p.1 (p.2 + α) = ∫⁻ p in I ×ˢ Ioo 0 (2 * Real.pi), F p.1 p.2 := by
  have hT : 0 < 2 * Real.pi := Real.two_pi_pos
  obtain ⟨k, β, hβ, rfl⟩ : ∃ (k : ℤ) (β : ℝ), β ∈ Ico 0 (2 * Real.pi) ∧ α = β + k • (2 * Real.pi) :=
    ⟨toIcoDiv hT 0 α, toIcoMod hT 0 α, by simpa using toIcoMod_mem_Ico hT 0 α, (toIcoMod_add_toIcoDiv_zsmul hT 0 α).symm⟩
  have e : ∀ p : ℝ × ℝ, F p.1 (p.2 + (β + k • (2 * Real.pi))) = F p.1 (p.2 + β) := fun p => by rw [← add_assoc]; exact (hF p.1).zsmul k _
  simp only [e]
  rw [split_integral I hI (b := 2 * Real.pi - β) (by linarith [hβ.2]) (by linarith [hβ.1]) (fun p => F p.1 (p.2 + β)), split_integral I hI hβ.1 hβ.2.le (fun p => F p.1 p.2)]
  have h1 := shift_integral I β (2 * Real.pi) β F
  rw [sub_self] at h1
  have h2 := shift_integral I 0 β (β - 2 * Real.pi) F
  rw [show 0 - (β - 2 * Real.pi) = 2 * Real.pi - β by ring, show β - (β - 2 * Real.pi) = 2 * Real.pi by ring] at h2
  have e2 : ∀ p : ℝ × ℝ, F p.1 (p.2 + (β - 2 * Real.pi)) = F p.1 (p.2 + β) := fun p => by rw [← add_sub_assoc]; exact (hF p.1).sub_eq _
  simp only [e2] at h2
  rw [h1, h2, add_comm]

theorem mirror_integral (I : Set ℝ) (F : ℝ → ℝ → ENNReal) : ∫⁻ p in I ×ˢ Ioo 0 (2 * Real.pi), F p.1 (2 * Real.pi - p.2) = ∫⁻ p in I ×ˢ Ioo 0 (2 * Real.pi), F p.1 p.2 := by
  have hP : MeasurePreserving (fun p : ℝ × ℝ => (p.1, 2 * Real.pi - p.2)) volume volume :=
    (MeasurePreserving.id (volume : Measure ℝ)).prod (Measure.measurePreserving_sub_left volume (2 * Real.pi))
  have hE : MeasurableEmbedding (fun p : ℝ × ℝ => (p.1, 2 * Real.pi - p.2)) :=
    ((MeasurableEquiv.refl ℝ).prodCongr (MeasurableEquiv.subLeft (2 * Real.pi))).measurableEmbedding
  have h := hP.setLIntegral_comp_preimage_emb hE (fun p : ℝ × ℝ => F p.1 p.2) (I ×ˢ Ioo 0 (2 * Real.pi))
  have hs : (fun p : ℝ × ℝ => (p.1, 2 * Real.pi - p.2)) ⁻¹' (I ×ˢ Ioo 0 (2 * Real.pi)) = I ×ˢ Ioo 0 (2 * Real.pi) := by
    ext ⟨x, y⟩
    simp only [mem_preimage, mem_prod, mem_Ioo]
    constructor
    · rintro ⟨h1, h2, h3⟩; exact ⟨h1, by linarith, by linarith⟩
    · rintro ⟨h1, h2, h3⟩; exact ⟨h1, by linarith, by linarith⟩
  rw [hs] at h
  exact h

theorem directionAt_turn (z φ : ℝ) : directionAt z (φ + 2 * Real.pi) = directionAt z φ := by
  unfold directionAt
  rw [Real.cos_add_two_pi, Real.sin_add_two_pi]

/-- Two frames around the same vector differ by a turn, and perhaps a reflection. -/
theorem frames_turn {e1 e2 f1 f2 n : Vec3 ℝ} (he : Frame e1 e2 n) (hf : Frame f1 f2 n) : ∃ α : ℝ,
    (∀ z φ, worldOf f1 f2 n (directionAt z φ) = worldOf e1 e2 n (directionAt z (φ + α))) ∨ (∀ z φ, worldOf f1 f2 n (directionAt z φ) = worldOf e1 e2 n (directionAt z ((2 * Real.pi - φ) + α))) := by
  have c1 := frame_complete he f1
  have c2 := frame_complete he f2
  have q1 := frame_sq he f1
  have q2 := frame_sq he f2
  have q3 := frame_dot he f1 f2
  rw [hf.d13, Dot_self_of_norm hf.n1] at q1
  rw [hf.d23, Dot_self_of_norm hf.n2] at q2
  rw [hf.d12, hf.d13, hf.d23] at q3
  rw [hf.d13] at c1
  rw [hf.d23] at c2
  set x := Dot f1 e1
  set y := Dot f1 e2
  set x' := Dot f2 e1
  set y' := Dot f2 e2
  have hn : ‖(⟨x, y⟩ : ℂ)‖ = 1 := by rw [Complex.norm_def, Complex.normSq_mk, show x * x + y * y = 1 by linarith, Real.sqrt_one]
  have h0 : (⟨x, y⟩ : ℂ) ≠ 0 := by intro h; rw [h, norm_zero] at hn; norm_num at hn
  obtain ⟨α, hx, hy⟩ : ∃ α : ℝ, x = Real.cos α ∧ y = Real.sin α := ⟨Complex.arg ⟨x, y⟩, by rw [Complex.cos_arg h0, hn, div_one], by rw [Complex.sin_arg, hn, div_one]⟩
  refine ⟨α, ?_⟩
  have hsc := Real.sin_sq_add_cos_sq α
  -- the second axis
  have hσ : (x' = -Real.sin α ∧ y' = Real.cos α) ∨ (x' = Real.sin α ∧ y' = -Real.cos α) := by
    have k1 : x' * Real.cos α + y' * Real.sin α = 0 := by rw [← hx, ← hy]; linarith
    have k2 : x' = -Real.sin α * (y' * Real.cos α - x' * Real.sin α) := by linear_combination Real.cos α * k1 - x' * hsc
    have k3 : y' = Real.cos α * (y' * Real.cos α - x' * Real.sin α) := by linear_combination Real.sin α * k1 - y' * hsc
    set σ := y' * Real.cos α - x' * Real.sin α with hσdef
    have k4 : σ ^ 2 = 1 := by
      have : x' ^ 2 + y' ^ 2 = 1 := by linarith
      rw [k2, k3] at this
      calc σ ^ 2 = (-Real.sin α * σ) ^ 2 + (Real.cos α * σ) ^ 2 := by linear_combination -σ ^ 2 * hsc
        _ = 1 := this
    rcases (sq_eq_sq_iff_eq_or_eq_neg (a := σ) (b := 1)).1 (by rw [k4, one_pow]) with h | h
    · left; rw [h] at k2 k3; exact ⟨by linarith, by linarith⟩
    · right; rw [h] at k2 k3; exact ⟨by linarith, by linarith⟩
  have hF1 : f1 = e1.scale (Real.cos α) + e2.scale (Real.sin α) := by rw [← c1, hx, hy]; ext <;> simp
  rcases hσ with ⟨hx', hy'⟩ | ⟨hx', hy'⟩
  · left
    have hF2 : f2 = e1.scale (-Real.sin α) + e2.scale (Real.cos α) := by rw [← c2, hx', hy']; ext <;> simp
    intro z φ
    rw [hF1, hF2]
    unfold worldOf directionAt
    rw [Real.cos_add, Real.sin_add]
    ext <;> simp <;> ring
  · right
    have hF2 : f2 = e1.scale (Real.sin α) + e2.scale (-Real.cos α) := by rw [← c2, hx', hy']; ext <;> simp
    intro z φ
    rw [hF1, hF2]
    unfold worldOf directionAt
    rw [Real.cos_add, Real.sin_add, Real.cos_two_pi_sub, Real.sin_two_pi_sub]
    ext <;> simp <;> ring

/-- An integral over directions around `n`, in the coordinates of a frame, is the same for every frame. -/
theorem frame_free {e1 e2 f1 f2 n : Vec3 ℝ} (he : Frame e1 e2 n) (hf : Frame f1 f2 n) (I : Set ℝ) (hI : MeasurableSet I) (G : ℝ → Vec3 ℝ → ENNReal) :
    ∫⁻ p in I ×ˢ Ioo 0 (2 * Real.pi), G p.1 (worldOf f1 f2 n (directionAt p.1 p.2)) = ∫⁻ p in I ×ˢ Ioo 0 (2 * Real.pi), G p.1 (worldOf e1 e2 n (directionAt p.1 p.2)) := by
  have hper : ∀ z, Function.Periodic (fun φ => G z (worldOf e1 e2 n (directionAt z φ))) (2 * Real.pi) := fun z φ => by simp only [directionAt_turn]
  obtain ⟨α, h | h⟩ := frames_turn he hf
  · simp only [h]
    exact turn_integral I hI α (fun z φ => G z (worldOf e1 e2 n (directionAt z φ))) hper
  · simp only [h]
    rw [mirror_integral I (fun z φ => G z (worldOf e1 e2 n (directionAt z (φ + α))))]
    exact turn_integral I hI α (fun z φ => G z (worldOf e1 e2 n (directionAt z φ))) hper

end Rendering
