import Verif.Lemmas.Fresh

/-!
# Second moments of random experiments
-/

set_option linter.unusedSectionVars false
namespace Rendering

open MeasureTheory Set

variable {X : Type} [MeasurableSpace X]

/-- The mean square exceeds the square of the mean by `A`. -/
def Noisy (f : Rng → ENNReal) (A : ENNReal) : Prop := avg (fun r => f r ^ 2) = avg f ^ 2 + A

theorem Noisy.const (c : ENNReal) : Noisy (fun _ => c) 0 := by
  unfold Noisy
  rw [avg_const, avg_const, add_zero]

theorem Noisy.mul {f : Rng → ENNReal} {A : ENNReal} (hf : Measurable f) (h : Noisy f A) (k : ENNReal) : Noisy (fun r => k * f r) (k ^ 2 * A) := by
  unfold Noisy at *
  simp only [mul_pow]
  unfold avg at *
  rw [lintegral_const_mul _ (hf.pow_const 2), lintegral_const_mul _ hf, h]
  ring

theorem Noisy.add {a b : X → Rng → ENNReal} {ra rb : X → Rng → Rng} (ha : Fresh a ra) (hb : Fresh b rb) {x : X} {A B : ENNReal} (hA : Noisy (a x) A) (hB : Noisy (b x) B) : Noisy (fun r => a x r + b x (ra x r)) (A + B) := by
  unfold Noisy at *
  have h1 := ha.mean_add hb x
  have h2 := ha.indep x (b x) (hb.mval_at x)
  have h3 := ha.keep x (fun r => b x r ^ 2) ((hb.mval_at x).pow_const 2)
  have e : ∀ r, (a x r + b x (ra x r)) ^ 2 = a x r ^ 2 + (2 * (a x r * b x (ra x r)) + b x (ra x r) ^ 2) := fun r => by ring
  rw [h1]
  simp only [e]
  have hba : Measurable fun r => b x (ra x r) := (hb.mval_at x).comp (ha.mrest_at x)
  have hab : Measurable fun r => a x r * b x (ra x r) := (ha.mval_at x).mul hba
  unfold avg at *
  rw [lintegral_add_left ((ha.mval_at x).pow_const 2), lintegral_add_left (hab.const_mul 2), lintegral_const_mul _ hab, hA, h2, h3, hB]
  ring

theorem Noisy.iterate {val : X → Rng → ENNReal} {rest : X → Rng → Rng} (h : Fresh val rest) {x : X} {A : ENNReal} (hA : Noisy (val x) A) (n : Nat) : Noisy (repeatVal val rest n x) (n * A) := by
  induction n with
  | zero =>
    have := Noisy.const 0
    simpa [repeatVal] using this
  | succ n ih =>
    have := Noisy.add h (h.iterate n) hA ih
    have e : ((n + 1 : Nat) : ENNReal) * A = A + n * A := by push_cast; ring
    rw [e]
    exact this

theorem two_products (a b : ENNReal) : 2 * (a * b) ≤ a ^ 2 + b ^ 2 := by
  wlog h : a ≤ b generalizing a b
  · rw [mul_comm a b, add_comm]
    exact this b a (le_of_not_ge h)
  obtain ⟨c, rfl⟩ := le_iff_exists_add.1 h
  calc 2 * (a * (a + c)) ≤ 2 * (a * (a + c)) + c ^ 2 := le_self_add
    _ = _ := by ring

theorem noisy_exists {f : Rng → ENNReal} (hf : Measurable f) : ∃ A, Noisy f A := by
  suffices h : avg f ^ 2 ≤ avg (fun r => f r ^ 2) from ⟨_, (add_tsub_cancel_of_le h).symm⟩
  have hj : avg (fun r => avg fun r' => f r * f r') = avg f ^ 2 := by
    unfold avg
    have : ∀ r, ∫⁻ r', f r * f r' ∂randomNumbers = f r * ∫⁻ r', f r' ∂randomNumbers := fun r => lintegral_const_mul _ hf
    simp only [this]
    rw [lintegral_mul_const _ hf, sq]
  have hk : avg (fun r => avg fun r' => f r ^ 2 + f r' ^ 2) = 2 * avg (fun r => f r ^ 2) := by
    have h2 := hf.pow_const 2
    have : ∀ r, avg (fun r' => f r ^ 2 + f r' ^ 2) = f r ^ 2 + avg fun r' => f r' ^ 2 := fun r => by
      have := lintegral_add_left (μ := randomNumbers) (f := fun _ : Rng => f r ^ 2) measurable_const fun r' => f r' ^ 2
      unfold avg
      rw [this]
      congr 1
      exact avg_const _
    simp only [this]
    unfold avg
    rw [lintegral_add_left h2]
    have := avg_const (∫⁻ r, f r ^ 2 ∂randomNumbers)
    unfold avg at this
    rw [this, two_mul]
  have hle : 2 * avg f ^ 2 ≤ 2 * avg fun r => f r ^ 2 := by
    rw [← hj, ← hk]
    have hm : Measurable fun r => avg fun r' => f r * f r' := by
      have : ∀ r, avg (fun r' => f r * f r') = f r * avg f := fun r => lintegral_const_mul _ hf
      simp only [this]
      exact hf.mul_const _
    have : 2 * avg (fun r => avg fun r' => f r * f r') = avg (fun r => avg fun r' => 2 * (f r * f r')) := by
      unfold avg at *
      rw [← lintegral_const_mul _ hm]
      refine lintegral_congr fun r => ?_
      exact (lintegral_const_mul _ (hf.const_mul _)).symm
    rw [this]
    refine lintegral_mono fun r => lintegral_mono fun r' => ?_
    exact two_products _ _
  exact (ENNReal.mul_le_mul_iff_right (by norm_num) (by norm_num)).1 hle

end Rendering
