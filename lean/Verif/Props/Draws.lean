import Verif.Spec.Randomness
import Verif.Props.Ambient

/-!
# Endless sequences of random numbers: the first one and the others are independent
-/

set_option linter.unusedSectionVars false
namespace Rendering

open MeasureTheory Set

/-- The law of one random number. -/
noncomputable def uniformDraw : Measure ℝ := volume.restrict (Ico (0 : ℝ) 1)

instance : IsProbabilityMeasure uniformDraw := ⟨by simp [uniformDraw]⟩

theorem randomNumbers_eq : randomNumbers = Measure.infinitePi fun _ : ℕ => uniformDraw := rfl

instance : IsProbabilityMeasure randomNumbers := by rw [randomNumbers_eq]; infer_instance

/-- The numbers after the first. -/
def Rng.tail (r : Rng) : Rng := fun n => r (n + 1)

theorem measurable_tail : Measurable Rng.tail := measurable_pi_lambda _ fun n => measurable_pi_apply (n + 1)

theorem measurable_cons : Measurable fun p : ℝ × Rng => Rng.cons p.1 p.2 := by
  refine measurable_pi_lambda _ fun n => ?_
  cases n with
  | zero => exact measurable_fst
  | succ n => exact (measurable_pi_apply n).comp measurable_snd

theorem randomNumbers_cons : (uniformDraw.prod randomNumbers).map (fun p : ℝ × Rng => Rng.cons p.1 p.2) = randomNumbers := by
  rw [randomNumbers_eq]
  refine Measure.eq_infinitePi _ fun s t ht => ?_
  classical
  obtain ⟨n, hn⟩ : ∃ n, s ⊆ Finset.range (n + 1) := ⟨s.sup id, fun i hi => by
    have : i ≤ s.sup id := Finset.le_sup (f := id) hi
    simp; omega⟩
  set u : ℕ → Set ℝ := fun i => if i ∈ s then t i else univ with hu
  have hum : ∀ i, MeasurableSet (u i) := fun i => by
    simp only [hu]; split_ifs
    · exact ht i
    · exact MeasurableSet.univ
  have hset : Set.pi (s : Set ℕ) t = {r : ℕ → ℝ | ∀ i ∈ Finset.range (n + 1), r i ∈ u i} := by
    ext r
    simp only [Set.mem_pi, Finset.mem_coe, mem_setOf_eq, hu]
    constructor
    · intro h i _
      split_ifs with his
      · exact h i his
      · trivial
    · intro h i hi
      have := h i (hn hi)
      rwa [if_pos hi] at this
  have hprod : ∏ i ∈ s, uniformDraw (t i) = ∏ i ∈ Finset.range (n + 1), uniformDraw (u i) := by
    rw [← Finset.prod_subset hn (f := fun i => uniformDraw (u i))]
    · exact Finset.prod_congr rfl fun i hi => by simp [hu, hi]
    · intro i _ hi; simp [hu, hi]
  have hm : MeasurableSet (Set.pi (s : Set ℕ) t) := MeasurableSet.pi s.countable_toSet fun i _ => ht i
  rw [Measure.map_apply measurable_cons hm, hset, hprod, Finset.prod_range_succ']
  have hpre : (fun p : ℝ × Rng => Rng.cons p.1 p.2) ⁻¹' {r : ℕ → ℝ | ∀ i ∈ Finset.range (n + 1), r i ∈ u i} = u 0 ×ˢ Set.pi (Finset.range n : Set ℕ) fun i => u (i + 1) := by
    ext ⟨x, r⟩
    simp only [mem_preimage, mem_setOf_eq, mem_prod, Set.mem_pi, Finset.mem_coe, Finset.mem_range]
    constructor
    · intro h
      exact ⟨h 0 (by omega), fun i hi => h (i + 1) (by omega)⟩
    · rintro ⟨h0, h⟩ i hi
      cases i with
      | zero => exact h0
      | succ i => exact h i (by omega)
  rw [hpre, Measure.prod_prod, Measure.infinitePi_pi _ fun i _ => hum (i + 1), mul_comm]

theorem draw_measurable (I : Set ℝ) (S : Set Rng) (hI : MeasurableSet I) (hS : MeasurableSet S) : MeasurableSet {r : Rng | r 0 ∈ I ∧ r.tail ∈ S} := (measurable_pi_apply 0 hI).inter (measurable_tail hS)

/-- The first number and those after it are independent, and those after it have the law of the whole sequence. -/
theorem draw_then (I : Set ℝ) (S : Set Rng) (hI : MeasurableSet I) (hS : MeasurableSet S) : randomNumbers {r : Rng | r 0 ∈ I ∧ r.tail ∈ S} = uniformDraw I * randomNumbers S := by
  have hm := draw_measurable I S hI hS
  conv_lhs => rw [← randomNumbers_cons]
  rw [Measure.map_apply measurable_cons hm, ← Measure.prod_prod]
  rfl

/-- A random number is less than `c` with probability `c` (between 0 and 1). -/
theorem uniformDraw_lt (c : ℝ) (h1 : c ≤ 1) : uniformDraw {x | x < c} = ENNReal.ofReal c := by
  unfold uniformDraw
  rw [Measure.restrict_apply (show MeasurableSet {x | x < c} from measurableSet_Iio)]
  have : {x | x < c} ∩ Ico (0 : ℝ) 1 = Ico 0 c := by
    ext x
    simp only [mem_inter_iff, mem_setOf_eq, mem_Ico]
    exact ⟨fun h => ⟨h.2.1, h.1⟩, fun h => ⟨h.2, h.1, by linarith⟩⟩
  rw [this, Real.volume_Ico, sub_zero]

theorem uniformDraw_ge (c : ℝ) (h0 : 0 ≤ c) : uniformDraw {x | ¬ x < c} = ENNReal.ofReal (1 - c) := by
  unfold uniformDraw
  rw [Measure.restrict_apply (show MeasurableSet {x | ¬ x < c} from measurableSet_Iio.compl)]
  have : {x | ¬ x < c} ∩ Ico (0 : ℝ) 1 = Ico c 1 := by
    ext x
    simp only [mem_inter_iff, mem_setOf_eq, mem_Ico, not_lt]
    exact ⟨fun h => ⟨h.1, h.2.2⟩, fun h => ⟨h.1, by linarith, h.2⟩⟩
  rw [this, Real.volume_Ico]

/-! ### Exploring a tree of rays, one draw for each branch -/

/-- The numbers after the first `n`. -/
def Rng.drop (n : Nat) (r : Rng) : Rng := fun k => r (k + n)

theorem measurable_drop (n : Nat) : Measurable (Rng.drop n) := measurable_pi_lambda _ fun k => measurable_pi_apply (k + n)

theorem randomNumbers_drop (n : Nat) (S : Set Rng) (hS : MeasurableSet S) : randomNumbers {r : Rng | r.drop n ∈ S} = randomNumbers S := by
  induction n with
  | zero => rfl
  | succ n ih =>
    have h := draw_then univ {r : Rng | r.drop n ∈ S} MeasurableSet.univ (measurable_drop n hS)
    rw [measure_univ, one_mul, ih] at h
    rw [← h]
    congr 1
    ext r
    simp only [mem_setOf_eq, mem_univ, true_and]
    have : Rng.drop n (Rng.tail r) = Rng.drop (n + 1) r := by
      funext k; simp [Rng.tail, Rng.drop, add_assoc]
    rw [this]

section
variable {σ : Type} (c : ℝ) (skip : σ → Nat) (kids : σ → List (σ × σ))

/-- Explore branches in order: each draws a number, which decides between two variants of it. -/
noncomputable def followAll (f : σ → Rng → Option Rng) : List (σ × σ) → Rng → Option Rng
  | [], r => some r
  | (a, b) :: rest, r => (f (if r 0 < c then a else b) r.tail).bind (followAll f rest)

/-- Explore the tree below `s`, at most `k` levels of it: the numbers left over, if that suffices. -/
noncomputable def explore : Nat → σ → Rng → Option Rng
  | 0, _, _ => none
  | k + 1, s, r => followAll c (explore k) (kids s) (r.drop (skip s))

/-- The probability that `k` levels suffice. -/
noncomputable def endChance : Nat → σ → ENNReal
  | 0, _ => 0
  | k + 1, s => ((kids s).map fun p => uniformDraw {x | x < c} * endChance k p.1 + uniformDraw {x | ¬ x < c} * endChance k p.2).prod

theorem followAll_chance (f : σ → Rng → Option Rng) (p : σ → ENNReal)
    (hf : ∀ s (B : Set Rng), MeasurableSet B → MeasurableSet {r : Rng | ∃ r' ∈ B, f s r = some r'} ∧ randomNumbers {r : Rng | ∃ r' ∈ B, f s r = some r'} = p s * randomNumbers B) (l : List (σ × σ)) (B : Set Rng) (hB : MeasurableSet B) :
    MeasurableSet {r : Rng | ∃ r' ∈ B, followAll c f l r = some r'} ∧
    randomNumbers {r : Rng | ∃ r' ∈ B, followAll c f l r = some r'} = (l.map fun q => uniformDraw {x | x < c} * p q.1 + uniformDraw {x | ¬ x < c} * p q.2).prod * randomNumbers B := by
  induction l with
  | nil => simp [followAll, hB]
  | cons q rest ih =>
    obtain ⟨a, b⟩ := q
    obtain ⟨hm, hv⟩ := ih
    set R := {r : Rng | ∃ r' ∈ B, followAll c f rest r = some r'} with hR
    have hset : {r : Rng | ∃ r' ∈ B, followAll c f ((a, b) :: rest) r = some r'} =
        {r : Rng | r 0 ∈ {x | x < c} ∧ r.tail ∈ {r : Rng | ∃ r' ∈ R, f a r = some r'}} ∪ {r : Rng | r 0 ∈ {x | ¬ x < c} ∧ r.tail ∈ {r : Rng | ∃ r' ∈ R, f b r = some r'}} := by
      ext r
      simp only [followAll, mem_union, mem_setOf_eq, hR, Option.bind_eq_some_iff]
      by_cases h : r 0 < c
      · simp only [h, if_true, true_and, not_true, false_and, or_false]
        constructor
        · rintro ⟨r', hr', y, hy, h2⟩; exact ⟨y, ⟨r', hr', h2⟩, hy⟩
        · rintro ⟨y, ⟨r', hr', h2⟩, hy⟩; exact ⟨r', hr', y, hy, h2⟩
      · simp only [h, if_false, false_and, not_false_iff, true_and, false_or]
        constructor
        · rintro ⟨r', hr', y, hy, h2⟩; exact ⟨y, ⟨r', hr', h2⟩, hy⟩
        · rintro ⟨y, ⟨r', hr', h2⟩, hy⟩; exact ⟨r', hr', y, hy, h2⟩
    have m1 : MeasurableSet {x : ℝ | x < c} := measurableSet_Iio
    have m2 : MeasurableSet {x : ℝ | ¬ x < c} := measurableSet_Iio.compl
    obtain ⟨ma, va⟩ := hf a R hm
    obtain ⟨mb, vb⟩ := hf b R hm
    have k1 : MeasurableSet {r : Rng | r 0 ∈ {x | x < c} ∧ r.tail ∈ {r : Rng | ∃ r' ∈ R, f a r = some r'}} := draw_measurable _ _ m1 ma
    have k2 : MeasurableSet {r : Rng | r 0 ∈ {x | ¬ x < c} ∧ r.tail ∈ {r : Rng | ∃ r' ∈ R, f b r = some r'}} := draw_measurable _ _ m2 mb
    rw [hset]
    refine ⟨k1.union k2, ?_⟩
    rw [measure_union _ k2, draw_then _ _ m1 ma, draw_then _ _ m2 mb, va, vb, hv, List.map_cons, List.prod_cons]
    · ring
    · rw [Set.disjoint_left]
      rintro r ⟨h1, _⟩ ⟨h2, _⟩
      exact h2 h1

theorem explore_chance (k : Nat) (s : σ) (B : Set Rng) (hB : MeasurableSet B) :
    MeasurableSet {r : Rng | ∃ r' ∈ B, explore c skip kids k s r = some r'} ∧ randomNumbers {r : Rng | ∃ r' ∈ B, explore c skip kids k s r = some r'} = endChance c kids k s * randomNumbers B := by
  induction k generalizing s B with
  | zero => simp [explore, endChance]
  | succ k ih =>
    obtain ⟨hm, hv⟩ := followAll_chance c (explore c skip kids k) (endChance c kids k) (fun s B hB => ih s B hB) (kids s) B hB
    have e : {r : Rng | ∃ r' ∈ B, explore c skip kids (k + 1) s r = some r'} = {r : Rng | r.drop (skip s) ∈ {r : Rng | ∃ r' ∈ B, followAll c (explore c skip kids k) (kids s) r = some r'}} := rfl
    rw [e]
    exact ⟨measurable_drop _ hm, by rw [randomNumbers_drop _ _ hm, hv]; rfl⟩

/-- The probability that the exploration ends within `k` levels. -/
theorem explore_ends (k : Nat) (s : σ) : MeasurableSet {r : Rng | (explore c skip kids k s r).isSome} ∧ randomNumbers {r : Rng | (explore c skip kids k s r).isSome} = endChance c kids k s := by
  have h := explore_chance c skip kids k s univ MeasurableSet.univ
  rw [measure_univ, mul_one] at h
  have e : {r : Rng | ∃ r' ∈ (univ : Set Rng), explore c skip kids k s r = some r'} = {r : Rng | (explore c skip kids k s r).isSome} := by
    ext r; simp [Option.isSome_iff_exists]
  rwa [e] at h

theorem endChance_le_one (k : Nat) (s : σ) : endChance c kids k s ≤ 1 := by
  rw [← (explore_ends c (fun _ => 0) kids k s).2]; exact prob_le_one

end

end Rendering
