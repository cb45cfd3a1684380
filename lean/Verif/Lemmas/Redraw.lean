import Verif.Lemmas.Fresh

/-!
# Trials that are repeated until one succeeds

A trial that fails uses three random numbers; the first that succeeds gives the quantity.
-/

set_option linter.unusedSectionVars false
namespace Rendering

open MeasureTheory Set Classical

variable {X : Type} [MeasurableSpace X]

/-- How many trials fail before one succeeds. -/
noncomputable def tries (ok : X → Rng → Prop) (x : X) (r : Rng) : Option Nat := if h : ∃ j, ok x (r.drop (3 * j)) then some (Nat.find h) else none

theorem drop_drop' (r : Rng) (a b : Nat) : (r.drop a).drop b = r.drop (a + b) := by
  funext k; simp only [Rng.drop]; congr 1; omega

theorem tries_ok {ok : X → Rng → Prop} {x : X} {r : Rng} (h : ok x r) : tries ok x r = some 0 := by
  have hex : ∃ j, ok x (r.drop (3 * j)) := ⟨0, h⟩
  unfold tries
  rw [dif_pos hex]
  congr 1
  exact (Nat.find_eq_zero hex).2 h

theorem tries_fail {ok : X → Rng → Prop} {x : X} {r : Rng} (h : ¬ ok x r) : tries ok x r = (tries ok x (r.drop 3)).map (· + 1) := by
  unfold tries
  by_cases hex : ∃ j, ok x ((r.drop 3).drop (3 * j))
  · have hex' : ∃ j, ok x (r.drop (3 * j)) := by
      obtain ⟨j, hj⟩ := hex
      refine ⟨j + 1, ?_⟩
      rw [drop_drop'] at hj
      rwa [show 3 * (j + 1) = 3 + 3 * j by omega]
    rw [dif_pos hex, dif_pos hex', Option.map_some]
    congr 1
    refine (Nat.find_eq_iff hex').2 ⟨?_, fun n hn => ?_⟩
    · have := Nat.find_spec hex
      rw [drop_drop'] at this
      rwa [show 3 * (Nat.find hex + 1) = 3 + 3 * Nat.find hex by omega]
    · cases n with
      | zero => exact h
      | succ n =>
        have := Nat.find_min hex (m := n) (by omega)
        rw [drop_drop'] at this
        rwa [show 3 * (n + 1) = 3 + 3 * n by omega]
  · have hex' : ¬ ∃ j, ok x (r.drop (3 * j)) := by
      rintro ⟨j, hj⟩
      cases j with
      | zero => exact h hj
      | succ j =>
        refine hex ⟨j, ?_⟩
        rw [drop_drop']
        rwa [show 3 * (j + 1) = 3 + 3 * j by omega] at hj
    rw [dif_neg hex, dif_neg hex']
    rfl

theorem tries_some {ok : X → Rng → Prop} {x : X} {r : Rng} {j : Nat} : tries ok x r = some j ↔ (∀ i < j, ¬ ok x (r.drop (3 * i))) ∧ ok x (r.drop (3 * j)) := by
  unfold tries
  by_cases hex : ∃ j, ok x (r.drop (3 * j))
  · rw [dif_pos hex, Option.some.injEq, Nat.find_eq_iff]
    exact and_comm
  · rw [dif_neg hex]
    simp only [reduceCtorEq, false_iff, not_and]
    exact fun _ h => hex ⟨j, h⟩

theorem tries_none {ok : X → Rng → Prop} {x : X} {r : Rng} : tries ok x r = none ↔ ∀ j, ¬ ok x (r.drop (3 * j)) := by
  unfold tries
  by_cases hex : ∃ j, ok x (r.drop (3 * j))
  · rw [dif_pos hex]
    simp only [reduceCtorEq, false_iff]
    push Not
    exact hex
  · rw [dif_neg hex]
    simpa using hex

theorem measurable_dropN (n : Nat) : Measurable fun r : Rng => r.drop n := measurable_pi_lambda _ fun k => measurable_pi_apply _

theorem tries_disc {ok : X → Rng → Prop} (hok : MeasurableSet {p : X × Rng | ok p.1 p.2}) : Disc fun p : X × Rng => tries ok p.1 p.2 := by
  have hj : ∀ j, MeasurableSet {p : X × Rng | ok p.1 (p.2.drop (3 * j))} := fun j => (measurable_fst.prodMk ((measurable_dropN _).comp measurable_snd)) hok
  intro d
  cases d with
  | none =>
    have : {p : X × Rng | tries ok p.1 p.2 = none} = ⋂ j, {p : X × Rng | ok p.1 (p.2.drop (3 * j))}ᶜ := by
      ext p; simp [tries_none]
    rw [this]
    exact MeasurableSet.iInter fun j => (hj j).compl
  | some j =>
    have : {p : X × Rng | tries ok p.1 p.2 = some j} = (⋂ i ∈ Finset.range j, {p : X × Rng | ok p.1 (p.2.drop (3 * i))}ᶜ) ∩ {p : X × Rng | ok p.1 (p.2.drop (3 * j))} := by
      ext p; simp [tries_some]
    rw [this]
    exact (Finset.measurableSet_biInter _ fun i _ => (hj i).compl).inter (hj j)

/-- The quantity given by the first trial that succeeds; `c` if none does. -/
noncomputable def redrawVal (ok : X → Rng → Prop) (c : ENNReal) (v : X → Rng → ENNReal) (x : X) (r : Rng) : ENNReal :=
  match tries ok x r with
  | none => c
  | some j => v x (r.drop (3 * j))

noncomputable def redrawRest (ok : X → Rng → Prop) (rest : X → Rng → Rng) (x : X) (r : Rng) : Rng :=
  match tries ok x r with
  | none => r
  | some j => rest x (r.drop (3 * j))

/-- Whether a trial fails is decided by the numbers that it uses then. -/
structure Redraws (ok : X → Rng → Prop) (q : X → ENNReal) : Prop where
  meas : MeasurableSet {p : X × Rng | ok p.1 p.2}
  fails : ∀ x (Φ : Rng → ENNReal), Measurable Φ → avg (fun r => if ok x r then 0 else Φ (r.drop 3)) = q x * avg Φ

variable {ok : X → Rng → Prop} {q : X → ENNReal}

theorem Redraws.meas_at (h : Redraws ok q) (x : X) : MeasurableSet {r | ok x r} := measurable_prodMk_left (x := x) h.meas

theorem Redraws.meas_tries (h : Redraws ok q) (x : X) (d : Option Nat) : MeasurableSet {r | tries ok x r = d} := measurable_prodMk_left (x := x) (tries_disc h.meas d)

theorem avg_total (f : Rng → ENNReal) (hf : Measurable f) (hs : MeasurableSet {r : Rng | ok x r}) : avg f = avg (fun r => if ok x r then f r else 0) + avg (fun r => if ok x r then 0 else f r) := by
  have h1 : Measurable fun r => if ok x r then f r else 0 := Measurable.ite hs hf measurable_const
  unfold avg
  rw [← lintegral_add_left h1]
  refine lintegral_congr fun r => ?_
  split_ifs <;> simp

theorem Redraws.chance (h : Redraws ok q) (x : X) : avg (fun r => if ok x r then 1 else 0) + q x = 1 := by
  have h1 := avg_total (ok := ok) (x := x) (fun _ => 1) measurable_const (h.meas_at x)
  have h2 := h.fails x (fun _ => 1) measurable_const
  rw [avg_const, mul_one] at h2
  rw [avg_const, h2] at h1
  exact h1.symm

theorem Redraws.le_one (h : Redraws ok q) (x : X) : q x ≤ 1 := by
  rw [← h.chance x]; exact le_add_self

theorem Redraws.stage (h : Redraws ok q) (x : X) (H : Rng → ENNReal) (hH : Measurable H) (j : Nat) :
    avg (fun r => if tries ok x r = some j then H (r.drop (3 * j)) else 0) = q x ^ j * avg (fun r => if ok x r then H r else 0) := by
  induction j with
  | zero =>
    rw [pow_zero, one_mul]
    unfold avg
    refine lintegral_congr fun r => ?_
    by_cases hr : ok x r
    · simp only [tries_ok hr, if_true, hr]; rfl
    · have : tries ok x r ≠ some 0 := by
        intro h0
        exact hr (tries_some.1 h0).2
      simp only [this, if_false, hr]
  | succ j ih =>
    have hm : Measurable fun r : Rng => if tries ok x r = some j then H (r.drop (3 * j)) else 0 := Measurable.ite (h.meas_tries x _) (hH.comp (measurable_dropN _)) measurable_const
    have := h.fails x _ hm
    rw [ih] at this
    rw [pow_succ', mul_assoc, ← this]
    unfold avg
    refine lintegral_congr fun r => ?_
    by_cases hr : ok x r
    · simp only [tries_ok hr, hr, if_true, Option.some.injEq, show ¬ 0 = j + 1 by omega, if_false]
    · simp only [tries_fail hr, hr, if_false, drop_drop', show 3 * (j + 1) = 3 + 3 * j by omega]
      cases ht : tries ok x (Rng.drop 3 r) with
      | none => simp
      | some i => simp

theorem Redraws.never (h : Redraws ok q) (x : X) (hq : q x < 1) : avg (fun r => if tries ok x r = none then 1 else 0) = 0 := by
  have hm : Measurable fun r : Rng => if tries ok x r = none then (1 : ENNReal) else 0 := Measurable.ite (h.meas_tries x _) measurable_const measurable_const
  have := h.fails x _ hm
  have e : avg (fun r : Rng => if ok x r then (0 : ENNReal) else if tries ok x (r.drop 3) = none then 1 else 0) = avg (fun r => if tries ok x r = none then 1 else 0) := by
    unfold avg
    refine lintegral_congr fun r => ?_
    by_cases hr : ok x r
    · simp [tries_ok hr, hr]
    · simp [tries_fail hr, hr]
  rw [e] at this
  have hfin : avg (fun r => if tries ok x r = none then (1 : ENNReal) else 0) ≤ 1 := by
    calc _ ≤ avg (fun _ => 1) := lintegral_mono fun r => by split_ifs <;> simp
      _ = 1 := avg_const 1
  by_contra hne
  have hlt : q x * avg (fun r => if tries ok x r = none then (1 : ENNReal) else 0) < 1 * avg (fun r => if tries ok x r = none then (1 : ENNReal) else 0) :=
    ENNReal.mul_lt_mul_left hne (hfin.trans_lt ENNReal.one_lt_top).ne hq
  rw [one_mul, ← this] at hlt
  exact lt_irrefl _ hlt

theorem Redraws.split (h : Redraws ok q) (x : X) (a H : Rng → ENNReal) (ha : Measurable a) (hH : Measurable H) :
    avg (fun r => match tries ok x r with | none => a r | some j => H (r.drop (3 * j))) = avg (fun r => if tries ok x r = none then a r else 0) + ∑' j, q x ^ j * avg (fun r => if ok x r then H r else 0) := by
  have h0 : Measurable fun r => if tries ok x r = none then a r else 0 := Measurable.ite (h.meas_tries x _) ha measurable_const
  have hj : ∀ j, Measurable fun r : Rng => if tries ok x r = some j then H (r.drop (3 * j)) else 0 := fun j => Measurable.ite (h.meas_tries x _) (hH.comp (measurable_dropN _)) measurable_const
  have e : ∑' j, q x ^ j * avg (fun r => if ok x r then H r else 0) = avg (fun r => ∑' j, if tries ok x r = some j then H (r.drop (3 * j)) else 0) := by
    unfold avg
    rw [lintegral_tsum fun j => (hj j).aemeasurable]
    exact tsum_congr fun j => (h.stage x H hH j).symm
  rw [e]
  unfold avg
  rw [← lintegral_add_left h0]
  refine lintegral_congr fun r => ?_
  cases ht : tries ok x r with
  | none => simp
  | some i =>
    simp only [reduceCtorEq, if_false, zero_add, Option.some.injEq]
    rw [tsum_eq_single i]
    · simp
    · intro j hj
      simp [hj.symm]

theorem Redraws.mean (h : Redraws ok q) (x : X) (a H : Rng → ENNReal) (ha : Measurable a) (hH : Measurable H) :
    (q x < 1 → avg (fun r => match tries ok x r with | none => a r | some j => H (r.drop (3 * j))) = (1 - q x)⁻¹ * avg (fun r => if ok x r then H r else 0)) ∧
    (q x = 1 → avg (fun r => match tries ok x r with | none => a r | some j => H (r.drop (3 * j))) = avg a) := by
  refine ⟨fun hq => ?_, fun hq => ?_⟩
  · rw [h.split x a H ha hH, ENNReal.tsum_mul_right, ENNReal.tsum_geometric]
    have h0 := h.never x hq
    have hm : Measurable fun r : Rng => if tries ok x r = none then (1 : ENNReal) else 0 := Measurable.ite (h.meas_tries x _) measurable_const measurable_const
    unfold avg at h0
    rw [lintegral_eq_zero_iff hm] at h0
    have : avg (fun r => if tries ok x r = none then a r else 0) = 0 := by
      unfold avg
      rw [lintegral_congr_ae (g := fun _ => 0) ?_, lintegral_zero]
      filter_upwards [h0] with r hr
      by_cases hn : tries ok x r = none
      · simp [hn] at hr
      · simp [hn]
    rw [this, zero_add]
  · have hc := h.chance x
    rw [hq] at hc
    have hz : avg (fun r => if ok x r then (1 : ENNReal) else 0) = 0 := by
      have : avg (fun r => if ok x r then (1 : ENNReal) else 0) + 1 = 0 + 1 := by rw [hc, zero_add]
      exact (ENNReal.add_left_inj ENNReal.one_ne_top).1 this
    have hst : ∀ j, avg (fun r => if tries ok x r = some j then (1 : ENNReal) else 0) = 0 := by
      intro j
      have := h.stage x (fun _ => 1) measurable_const j
      rw [this, hz, mul_zero]
    have hae : ∀ᵐ r ∂randomNumbers, ∀ j, tries ok x r ≠ some j := by
      rw [ae_all_iff]
      intro j
      have hm : Measurable fun r : Rng => if tries ok x r = some j then (1 : ENNReal) else 0 := Measurable.ite (h.meas_tries x _) measurable_const measurable_const
      have h0 := hst j
      unfold avg at h0
      rw [lintegral_eq_zero_iff hm] at h0
      filter_upwards [h0] with r hr hn
      simp [hn] at hr
    unfold avg
    refine lintegral_congr_ae ?_
    filter_upwards [hae] with r hr
    cases ht : tries ok x r with
    | none => rfl
    | some j => exact absurd ht (hr j)

variable {v : X → Rng → ENNReal} {rest : X → Rng → Rng}

/-- Trials repeated until one succeeds are again a random experiment. -/
theorem Fresh.redraw (h : Redraws ok q) (hone : Fresh (fun x r => if ok x r then 1 else 0) rest) (hv : Measurable fun p : X × Rng => v p.1 p.2) (hval : Fresh (fun x r => if ok x r then v x r else 0) rest) (c : ENNReal) :
    Fresh (redrawVal ok c v) (redrawRest ok rest) := by
  have hd := tries_disc h.meas
  have hdrop : ∀ j, Measurable fun p : X × Rng => (p.1, p.2.drop (3 * j)) := fun j => measurable_fst.prodMk ((measurable_dropN _).comp measurable_snd)
  have mv : Measurable fun p : X × Rng => redrawVal ok c v p.1 p.2 := by
    refine hd.measurable (f := fun d (p : X × Rng) => match d with | none => c | some j => v p.1 (p.2.drop (3 * j))) fun d => ?_
    cases d with
    | none => exact measurable_const
    | some j => exact hv.comp (hdrop j)
  have mr : Measurable fun p : X × Rng => redrawRest ok rest p.1 p.2 := by
    refine hd.measurable (f := fun d (p : X × Rng) => match d with | none => p.2 | some j => rest p.1 (p.2.drop (3 * j))) fun d => ?_
    cases d with
    | none => exact measurable_snd
    | some j => exact hone.mrest.comp (hdrop j)
  have hsub : ∀ x, avg (fun r => if ok x r then 1 else 0) = 1 - q x := fun x => by
    have := h.chance x
    exact ENNReal.eq_sub_of_add_eq (ne_top_of_le_ne_top ENNReal.one_ne_top (h.le_one x)) this
  have hinv : ∀ x, q x < 1 → (1 - q x)⁻¹ * (1 - q x) = 1 := fun x hq => ENNReal.inv_mul_cancel (tsub_pos_of_lt hq).ne' (ne_top_of_le_ne_top ENNReal.one_ne_top tsub_le_self)
  have hvx : ∀ x, Measurable (v x) := fun x => hv.comp measurable_prodMk_left
  refine ⟨mv, mr, fun x Φ hΦ => ?_, fun x Φ hΦ => ?_⟩
  · have e : (fun r => Φ (redrawRest ok rest x r)) = fun r => match tries ok x r with | none => Φ r | some j => (fun r => Φ (rest x r)) (r.drop (3 * j)) := by
      funext r; unfold redrawRest; cases tries ok x r <;> rfl
    rw [e]
    obtain ⟨h1, h2⟩ := h.mean x Φ (fun r => Φ (rest x r)) hΦ (hΦ.comp (hone.mrest_at x))
    rcases (h.le_one x).lt_or_eq with hq | hq
    · rw [h1 hq]
      have := hone.indep x Φ hΦ
      have e2 : (fun r => (if ok x r then (1 : ENNReal) else 0) * Φ (rest x r)) = fun r => if ok x r then Φ (rest x r) else 0 := by
        funext r; split_ifs <;> simp
      rw [e2, hsub] at this
      rw [this, ← mul_assoc, hinv x hq, one_mul]
    · exact h2 hq
  · have e : (fun r => redrawVal ok c v x r * Φ (redrawRest ok rest x r)) = fun r => match tries ok x r with | none => c * Φ r | some j => (fun r => v x r * Φ (rest x r)) (r.drop (3 * j)) := by
      funext r; unfold redrawRest redrawVal; cases tries ok x r <;> rfl
    have e' : redrawVal ok c v x = fun r => match tries ok x r with | none => (fun _ => c) r | some j => v x (r.drop (3 * j)) := rfl
    rw [e, e']
    obtain ⟨h1, h2⟩ := h.mean x (fun r => c * Φ r) (fun r => v x r * Φ (rest x r)) (hΦ.const_mul c) ((hvx x).mul (hΦ.comp (hone.mrest_at x)))
    obtain ⟨k1, k2⟩ := h.mean x (fun _ => c) (v x) measurable_const (hvx x)
    rcases (h.le_one x).lt_or_eq with hq | hq
    · rw [h1 hq, k1 hq]
      have := hval.indep x Φ hΦ
      have e2 : (fun r => (if ok x r then v x r else 0) * Φ (rest x r)) = fun r => if ok x r then v x r * Φ (rest x r) else 0 := by
        funext r; split_ifs <;> simp
      rw [e2] at this
      rw [this, mul_assoc]
    · rw [h2 hq, k2 hq, avg_const]
      exact lintegral_const_mul _ hΦ

theorem Fresh.mean_redraw (h : Redraws ok q) (hv : Measurable fun p : X × Rng => v p.1 p.2) (c : ENNReal) (x : X) (hq : q x < 1) : avg (redrawVal ok c v x) = (1 - q x)⁻¹ * avg (fun r => if ok x r then v x r else 0) :=
  (h.mean x (fun _ => c) (v x) measurable_const (hv.comp measurable_prodMk_left)).1 hq

end Rendering
