import Verif.Props.SpecularTrees

/-!
# Trees of specular bounces: when exploring them ends with probability one
-/

set_option linter.unusedSectionVars false
namespace Rendering

open MeasureTheory Set

section
variable {σ : Type} (c : ℝ) (skip : σ → Nat) (kids : σ → List (σ × σ))

/-- The probability that a draw is less than `c`, as a real number. -/
noncomputable def below (c : ℝ) : ℝ := (uniformDraw {x | x < c}).toReal

theorem below_nonneg : 0 ≤ below c := ENNReal.toReal_nonneg

theorem below_le_one : below c ≤ 1 := by
  unfold below
  exact ENNReal.toReal_le_of_le_ofReal zero_le_one (by rw [ENNReal.ofReal_one]; exact prob_le_one)

theorem above_eq : (uniformDraw {x | ¬ x < c}).toReal = 1 - below c := by
  have h : uniformDraw {x | ¬ x < c} = 1 - uniformDraw {x | x < c} := prob_compl_eq_one_sub (μ := uniformDraw) (s := {x : ℝ | x < c}) measurableSet_Iio
  rw [h, ENNReal.toReal_sub_of_le prob_le_one ENNReal.one_ne_top]; rfl

theorem below_eq (h0 : 0 ≤ c) (h1 : c ≤ 1) : below c = c := by
  unfold below; rw [uniformDraw_lt c h1, ENNReal.toReal_ofReal h0]

theorem below_one (h1 : 1 ≤ c) : below c = 1 := by
  refine le_antisymm (below_le_one c) ?_
  rw [← below_eq 1 zero_le_one le_rfl]
  exact ENNReal.toReal_mono (measure_ne_top _ _) (measure_mono fun x (hx : x < 1) => lt_of_lt_of_le hx h1)

/-- The probability that `k` levels suffice, as a real number. -/
noncomputable def ends (k : Nat) (s : σ) : ℝ := (endChance c kids k s).toReal

theorem ends_nonneg (k : Nat) (s : σ) : 0 ≤ ends c kids k s := ENNReal.toReal_nonneg

theorem ends_le_one (k : Nat) (s : σ) : ends c kids k s ≤ 1 :=
  ENNReal.toReal_le_of_le_ofReal zero_le_one (by rw [ENNReal.ofReal_one]; exact endChance_le_one c kids k s)

theorem endChance_ne_top (k : Nat) (s : σ) : endChance c kids k s ≠ ⊤ := ne_top_of_le_ne_top ENNReal.one_ne_top (endChance_le_one c kids k s)

theorem ends_zero (s : σ) : ends c kids 0 s = 0 := rfl

theorem ends_succ (k : Nat) (s : σ) : ends c kids (k + 1) s = ((kids s).map fun p => below c * ends c kids k p.1 + (1 - below c) * ends c kids k p.2).prod := by
  have key : ∀ l : List (σ × σ), (l.map fun p => uniformDraw {x | x < c} * endChance c kids k p.1 + uniformDraw {x | ¬ x < c} * endChance c kids k p.2).prod.toReal = (l.map fun p => below c * ends c kids k p.1 + (1 - below c) * ends c kids k p.2).prod := by
    intro l
    induction l with
    | nil => simp
    | cons p l ih =>
      rw [List.map_cons, List.map_cons, List.prod_cons, List.prod_cons, ENNReal.toReal_mul, ih]
      congr 1
      have h1 := ENNReal.mul_ne_top (measure_ne_top uniformDraw {x | x < c}) (endChance_ne_top c kids k p.1)
      have h2 := ENNReal.mul_ne_top (measure_ne_top uniformDraw {x | ¬ x < c}) (endChance_ne_top c kids k p.2)
      rw [ENNReal.toReal_add h1 h2, ENNReal.toReal_mul, ENNReal.toReal_mul, above_eq]
      rfl
  exact key (kids s)

theorem one_sub_prod_le (l : List ℝ) (h : ∀ x ∈ l, 0 ≤ x ∧ x ≤ 1) : 1 - l.prod ≤ (l.map fun x => 1 - x).sum ∧ 0 ≤ l.prod ∧ l.prod ≤ 1 := by
  induction l with
  | nil => simp
  | cons x l ih =>
    obtain ⟨h1, h2⟩ := h x List.mem_cons_self
    obtain ⟨h3, h4, h5⟩ := ih fun y hy => h y (List.mem_cons_of_mem _ hy)
    rw [List.prod_cons, List.map_cons, List.sum_cons]
    refine ⟨by nlinarith, mul_nonneg h1 h4, by nlinarith⟩

theorem sum_le_length (l : List ℝ) (M : ℝ) (h : ∀ x ∈ l, x ≤ M) : l.sum ≤ l.length * M := by
  induction l with
  | nil => simp
  | cons x l ih =>
    have h1 := h x List.mem_cons_self
    have h2 := ih fun y hy => h y (List.mem_cons_of_mem _ hy)
    rw [List.sum_cons, List.length_cons]; push_cast; linarith

/-- One level: if the branches that count fail with probability at most `δ`, and the others at most `ε`. -/
theorem fail_step (b : Nat) (k : Nat) (s : σ) (δ ε : ℝ) (hδ : 0 ≤ δ) (hε : 0 ≤ ε) (hb : (kids s).length ≤ b) (h1 : ∀ p ∈ kids s, 1 - ends c kids k p.1 ≤ δ) (h2 : ∀ p ∈ kids s, 1 - ends c kids k p.2 ≤ ε) :
    1 - ends c kids (k + 1) s ≤ b * (below c * δ + (1 - below c) * ε) := by
  have c0 := below_nonneg c
  have c1 := below_le_one c
  rw [ends_succ]
  refine le_trans (one_sub_prod_le _ ?_).1 ?_
  · intro x hx
    obtain ⟨p, _, rfl⟩ := List.mem_map.1 hx
    have a0 := ends_nonneg c kids k p.1
    have a1 := ends_le_one c kids k p.1
    have b0 := ends_nonneg c kids k p.2
    have b1 := ends_le_one c kids k p.2
    exact ⟨by nlinarith [mul_nonneg c0 a0, mul_nonneg (sub_nonneg.2 c1) b0], by nlinarith [mul_nonneg c0 (sub_nonneg.2 a1), mul_nonneg (sub_nonneg.2 c1) (sub_nonneg.2 b1)]⟩
  · have hM : 0 ≤ below c * δ + (1 - below c) * ε := by nlinarith [mul_nonneg c0 hδ, mul_nonneg (sub_nonneg.2 c1) hε]
    refine le_trans (sum_le_length _ (below c * δ + (1 - below c) * ε) ?_) ?_
    · intro x hx
      obtain ⟨y, hy, rfl⟩ := List.mem_map.1 hx
      obtain ⟨p, hp, rfl⟩ := List.mem_map.1 hy
      have e1 := mul_le_mul_of_nonneg_left (h1 p hp) c0
      have e2 := mul_le_mul_of_nonneg_left (h2 p hp) (sub_nonneg.2 c1)
      linarith
    · rw [List.length_map, List.length_map]
      exact mul_le_mul_of_nonneg_right (by exact_mod_cast hb) hM

/-- If there are at most `b` branches everywhere, fewer than one of which does not count on average, exploring ends with probability one: within enough levels it does up to any `ε`. -/
theorem ends_tend (left : σ → Nat) (b : Nat) (hb : ∀ s, (kids s).length ≤ b) (hleaf : ∀ s, left s = 0 → kids s = []) (hcount : ∀ s, ∀ p ∈ kids s, left p.1 < left s) (hfree : ∀ s, ∀ p ∈ kids s, left p.2 ≤ left s)
    (hρ : (b : ℝ) * (1 - below c) < 1) (n : Nat) (ε : ℝ) (hε : 0 < ε) : ∃ K : Nat, ∀ k ≥ K, ∀ s, left s ≤ n → 1 - ends c kids k s ≤ ε := by
  induction n generalizing ε with
  | zero =>
    refine ⟨1, fun k hk s hs => ?_⟩
    obtain ⟨k, rfl⟩ := Nat.exists_eq_succ_of_ne_zero (show k ≠ 0 by omega)
    rw [Nat.succ_eq_add_one, ends_succ, hleaf s (by omega)]
    simp [hε.le]
  | succ n ih =>
    set ρ := (b : ℝ) * (1 - below c) with hρdef
    have c0 := below_nonneg c
    have c1 := below_le_one c
    have hρ0 : 0 ≤ ρ := mul_nonneg (Nat.cast_nonneg b) (sub_nonneg.2 c1)
    have hb1 : (0 : ℝ) < b + 1 := by positivity
    have hδ : 0 < ε * (1 - ρ) / (2 * (b + 1)) := div_pos (mul_pos hε (sub_pos.2 hρ)) (by positivity)
    obtain ⟨K, hK⟩ := ih _ hδ
    set δ := ε * (1 - ρ) / (2 * (b + 1)) with hδdef
    set M := (b : ℝ) * δ / (1 - ρ) with hM
    have hbM : (b : ℝ) * δ = (1 - ρ) * M := by rw [hM]; field_simp [(sub_pos.2 hρ).ne']
    have hM0 : 0 ≤ M := div_nonneg (mul_nonneg (Nat.cast_nonneg b) hδ.le) (sub_pos.2 hρ).le
    have hMε : M ≤ ε / 2 := by
      have h1 : δ * (2 * (b + 1)) = ε * (1 - ρ) := by rw [hδdef]; field_simp
      rw [hM, div_le_iff₀ (sub_pos.2 hρ)]
      nlinarith [hδ]
    have key : ∀ j : Nat, ∀ i ≥ K + j, ∀ s, left s ≤ n + 1 → 1 - ends c kids i s ≤ ρ ^ j + M := by
      intro j
      induction j with
      | zero =>
        intro i _ s _
        have := ends_nonneg c kids i s
        simp only [pow_zero]; linarith
      | succ j ihj =>
        intro i hi s hs
        obtain ⟨i, rfl⟩ := Nat.exists_eq_succ_of_ne_zero (show i ≠ 0 by omega)
        have hP : 0 ≤ ρ ^ j + M := add_nonneg (pow_nonneg hρ0 j) hM0
        have h := fail_step c kids b i s δ (ρ ^ j + M) hδ.le hP (hb s) (fun p hp => hK i (by omega) p.1 (by have := hcount s p hp; omega)) (fun p hp => ihj i (by omega) p.2 (by have := hfree s p hp; omega))
        refine le_trans h ?_
        have e1 : (b : ℝ) * (below c * δ) ≤ b * δ := mul_le_mul_of_nonneg_left (by nlinarith [hδ]) (Nat.cast_nonneg b)
        rw [mul_add, ← mul_assoc (b : ℝ) (1 - below c), ← hρdef, pow_succ']
        rw [hbM] at e1
        linarith
    obtain ⟨j, hj⟩ := exists_pow_lt_of_lt_one (half_pos hε) hρ
    exact ⟨K + j, fun k hk s hs => le_trans (key j k hk s hs) (by linarith)⟩

/-- One level with at most two branches, exactly. -/
theorem fail_step_two (k : Nat) (s : σ) (x : ℝ) (hx0 : 0 ≤ x) (hx1 : x ≤ 1) (hb : (kids s).length ≤ 2) (h : ∀ p ∈ kids s, 1 - (below c * ends c kids k p.1 + (1 - below c) * ends c kids k p.2) ≤ x) :
    1 - ends c kids (k + 1) s ≤ 2 * x - x ^ 2 := by
  rw [ends_succ]
  match hk : kids s, hb, h with
  | [], _, _ => simp; nlinarith
  | [p], _, h =>
    have := h p (by simp)
    simp only [List.map_cons, List.map_nil, List.prod_cons, List.prod_nil, mul_one]
    nlinarith
  | [p, q], _, h =>
    have h1 := h p (by simp)
    have h2 := h q (by simp)
    simp only [List.map_cons, List.map_nil, List.prod_cons, List.prod_nil, mul_one]
    have := mul_le_mul (sub_le_comm.1 h1) (sub_le_comm.1 h2) (by linarith) (by linarith)
    nlinarith
  | _ :: _ :: _ :: _, hb, _ => simp at hb

theorem half_mix (p e1 e2 δ F : ℝ) (hp : 1 / 2 ≤ p) (hp1 : p ≤ 1) (h1 : 1 - e1 ≤ δ) (h2 : 1 - e2 ≤ F) (hδ : δ ≤ F) : 1 - (p * e1 + (1 - p) * e2) ≤ (δ + F) / 2 := by
  have a := mul_le_mul_of_nonneg_left h1 (show (0 : ℝ) ≤ p by linarith)
  have b := mul_le_mul_of_nonneg_left h2 (show (0 : ℝ) ≤ 1 - p by linarith)
  nlinarith

/-- The same for at most two branches, one of which does not count on average: also then exploring ends with probability one. -/
theorem ends_tend_critical (left : σ → Nat) (hb : ∀ s, (kids s).length ≤ 2) (hleaf : ∀ s, left s = 0 → kids s = []) (hcount : ∀ s, ∀ p ∈ kids s, left p.1 < left s) (hfree : ∀ s, ∀ p ∈ kids s, left p.2 ≤ left s)
    (hc : 1 / 2 ≤ below c) (n : Nat) (ε : ℝ) (hε : 0 < ε) : ∃ K : Nat, ∀ k ≥ K, ∀ s, left s ≤ n → 1 - ends c kids k s ≤ ε := by
  induction n generalizing ε with
  | zero =>
    refine ⟨1, fun k hk s hs => ?_⟩
    obtain ⟨k, rfl⟩ := Nat.exists_eq_succ_of_ne_zero (show k ≠ 0 by omega)
    rw [Nat.succ_eq_add_one, ends_succ, hleaf s (by omega)]
    simp [hε.le]
  | succ n ih =>
    wlog hε1 : ε ≤ 1 with H
    · refine ⟨0, fun k _ s _ => ?_⟩
      have := ends_nonneg c kids k s
      linarith
    obtain ⟨K, hK⟩ := ih (ε ^ 2 / 8) (by positivity)
    have hδε : ε ^ 2 / 8 ≤ ε := by nlinarith
    have key : ∀ j : Nat, ∀ i ≥ K + j, ∀ s, left s ≤ n + 1 → 1 - ends c kids i s ≤ max ε (1 - j * (ε ^ 2 / 8)) := by
      intro j
      induction j with
      | zero =>
        intro i _ s _
        have := ends_nonneg c kids i s
        refine le_trans ?_ (le_max_right _ _)
        push_cast; linarith
      | succ j ihj =>
        intro i hi s hs
        obtain ⟨i, rfl⟩ := Nat.exists_eq_succ_of_ne_zero (show i ≠ 0 by omega)
        set F := max ε (1 - j * (ε ^ 2 / 8)) with hF
        have hF0 : ε ≤ F := le_max_left _ _
        have hF1 : F ≤ 1 := max_le hε1 (by have : 0 ≤ (j : ℝ) * (ε ^ 2 / 8) := by positivity
                                           linarith)
        have h := fail_step_two c kids i s ((ε ^ 2 / 8 + F) / 2) (by positivity) (by nlinarith) (hb s) fun p hp =>
          half_mix (below c) _ _ _ _ hc (below_le_one c) (hK i (by omega) p.1 (by have := hcount s p hp; omega)) (ihj i (by omega) p.2 (by have := hfree s p hp; omega)) (by linarith)
        refine le_trans h ?_
        have e1 : 2 * ((ε ^ 2 / 8 + F) / 2) - ((ε ^ 2 / 8 + F) / 2) ^ 2 ≤ F - ε ^ 2 / 8 := by
          have : ε ^ 2 ≤ (ε ^ 2 / 8 + F) ^ 2 := pow_le_pow_left₀ hε.le (by have : 0 ≤ ε ^ 2 := sq_nonneg ε; linarith) 2
          nlinarith
        refine le_trans e1 ?_
        rcases le_total ε (1 - j * (ε ^ 2 / 8)) with h' | h'
        · rw [hF, max_eq_right h']
          refine le_trans (le_of_eq ?_) (le_max_right _ _)
          push_cast; ring
        · rw [hF, max_eq_left h']
          exact le_trans (by nlinarith) (le_max_left _ _)
    obtain ⟨j, hj⟩ := exists_nat_gt (8 / ε ^ 2)
    refine ⟨K + j, fun k hk s hs => le_trans (key j k hk s hs) (max_le le_rfl ?_)⟩
    rw [div_lt_iff₀ (by positivity)] at hj
    linarith

/-- Exploring ends with probability one. -/
theorem explore_almost_surely (left : σ → Nat) (b : Nat) (hb : ∀ s, (kids s).length ≤ b) (hleaf : ∀ s, left s = 0 → kids s = []) (hcount : ∀ s, ∀ p ∈ kids s, left p.1 < left s) (hfree : ∀ s, ∀ p ∈ kids s, left p.2 ≤ left s)
    (hρ : (b : ℝ) * (1 - below c) < 1 ∨ (b = 2 ∧ 1 / 2 ≤ below c)) (s : σ) : randomNumbers {r : Rng | ∀ k, explore c skip kids k s r = none} = 0 := by
  refine le_antisymm (ENNReal.le_of_forall_pos_le_add fun ε hε _ => ?_) zero_le
  have htend : ∃ K : Nat, ∀ k ≥ K, ∀ s', left s' ≤ left s → 1 - ends c kids k s' ≤ ε := by
    rcases hρ with hρ | ⟨rfl, hρ⟩
    · exact ends_tend c kids left b hb hleaf hcount hfree hρ (left s) ε hε
    · exact ends_tend_critical c kids left hb hleaf hcount hfree hρ (left s) ε hε
  obtain ⟨K, hK⟩ := htend
  have h := hK K le_rfl s le_rfl
  obtain ⟨hm, hv⟩ := explore_ends c skip kids K s
  have hsub : {r : Rng | ∀ k, explore c skip kids k s r = none} ⊆ {r : Rng | (explore c skip kids K s r).isSome}ᶜ := fun r hr => by
    simp only [mem_compl_iff, mem_setOf_eq, hr K, Option.isSome_none]; decide
  refine le_trans (measure_mono hsub) ?_
  rw [prob_compl_eq_one_sub hm, hv, zero_add, tsub_le_iff_left]
  have e : endChance c kids K s = ENNReal.ofReal (ends c kids K s) := (ENNReal.ofReal_toReal (endChance_ne_top c kids K s)).symm
  rw [e, ← ENNReal.ofReal_coe_nnreal, ← ENNReal.ofReal_add (ends_nonneg c kids K s) ε.coe_nonneg, ← ENNReal.ofReal_one]
  exact ENNReal.ofReal_le_ofReal (by linarith)

/-- A function that one level brings down bounds the probability that exploring ends. -/
theorem ends_le_of_super (u : σ → ℝ) (h0 : ∀ s, 0 ≤ u s) (hu : ∀ s, ((kids s).map fun p => below c * u p.1 + (1 - below c) * u p.2).prod ≤ u s) (k : Nat) (s : σ) : ends c kids k s ≤ u s := by
  induction k generalizing s with
  | zero => rw [ends_zero]; exact h0 s
  | succ k ih =>
    refine le_trans ?_ (hu s)
    rw [ends_succ]
    have c0 := below_nonneg c
    have c1 := sub_nonneg.2 (below_le_one c)
    have key : ∀ l : List (σ × σ), 0 ≤ (l.map fun p => below c * ends c kids k p.1 + (1 - below c) * ends c kids k p.2).prod ∧
        (l.map fun p => below c * ends c kids k p.1 + (1 - below c) * ends c kids k p.2).prod ≤ (l.map fun p => below c * u p.1 + (1 - below c) * u p.2).prod := by
      intro l
      induction l with
      | nil => simp
      | cons p l ihl =>
        have a := add_nonneg (mul_nonneg c0 (ends_nonneg c kids k p.1)) (mul_nonneg c1 (ends_nonneg c kids k p.2))
        have a' := add_nonneg (mul_nonneg c0 (h0 p.1)) (mul_nonneg c1 (h0 p.2))
        have e := add_le_add (mul_le_mul_of_nonneg_left (ih p.1) c0) (mul_le_mul_of_nonneg_left (ih p.2) c1)
        simp only [List.map_cons, List.prod_cons]
        exact ⟨mul_nonneg a ihl.1, mul_le_mul e ihl.2 ihl.1 a'⟩
    exact (key (kids s)).2

end

/-- With probability one all numbers are at least 0 and less than 1. -/
theorem valid_almost_surely : randomNumbers {r : Rng | ¬ r.Valid} = 0 := by
  have h : {r : Rng | ¬ r.Valid} ⊆ ⋃ n : ℕ, {r : Rng | r n ∈ (Ico (0 : ℝ) 1)ᶜ} := by
    intro r hr
    simp only [mem_setOf_eq, Rng.Valid] at hr
    push Not at hr
    obtain ⟨n, hn⟩ := hr
    refine mem_iUnion.2 ⟨n, ?_⟩
    simp only [mem_setOf_eq, mem_compl_iff, mem_Ico, not_and, not_lt]
    exact hn
  refine measure_mono_null h (measure_iUnion_null fun n => ?_)
  have e : {r : Rng | r n ∈ (Ico (0 : ℝ) 1)ᶜ} = {r : Rng | r.drop n ∈ {r : Rng | r 0 ∈ (Ico (0 : ℝ) 1)ᶜ ∧ r.tail ∈ (univ : Set Rng)}} := by
    ext r; simp [Rng.drop]
  rw [e, randomNumbers_drop n _ (draw_measurable _ _ measurableSet_Ico.compl MeasurableSet.univ), draw_then _ _ measurableSet_Ico.compl MeasurableSet.univ]
  have : uniformDraw (Ico (0 : ℝ) 1)ᶜ = 0 := by
    unfold uniformDraw; rw [Measure.restrict_apply measurableSet_Ico.compl]; simp
  rw [this, zero_mul]

end Rendering
