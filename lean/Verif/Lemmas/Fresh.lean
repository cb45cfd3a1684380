import Verif.Props.Draws
import Mathlib.MeasureTheory.Measure.Prod

/-!
# Random experiments that use some of the random numbers and leave the others

`Fresh val rest`: with parameter `x` and random numbers `r`, an experiment gives the quantity `val x r` and leaves the numbers `rest x r`; what it leaves is again an endless sequence of independent uniform numbers, independent of
the quantity.
-/

set_option linter.unusedSectionVars false
namespace Rendering

open MeasureTheory Set

variable {X Y : Type} [MeasurableSpace X] [MeasurableSpace Y]

/-- The mean of a quantity that depends on random numbers. -/
noncomputable abbrev avg (f : Rng → ENNReal) : ENNReal := ∫⁻ r, f r ∂randomNumbers

structure Fresh (val : X → Rng → ENNReal) (rest : X → Rng → Rng) : Prop where
  mval : Measurable fun p : X × Rng => val p.1 p.2
  mrest : Measurable fun p : X × Rng => rest p.1 p.2
  keep : ∀ x (Φ : Rng → ENNReal), Measurable Φ → avg (fun r => Φ (rest x r)) = avg Φ
  indep : ∀ x (Φ : Rng → ENNReal), Measurable Φ → avg (fun r => val x r * Φ (rest x r)) = avg (val x) * avg Φ

theorem Fresh.mval_at {val : X → Rng → ENNReal} {rest : X → Rng → Rng} (h : Fresh val rest) (x : X) : Measurable (val x) := h.mval.comp measurable_prodMk_left

theorem Fresh.mrest_at {val : X → Rng → ENNReal} {rest : X → Rng → Rng} (h : Fresh val rest) (x : X) : Measurable (rest x) := h.mrest.comp measurable_prodMk_left

/-- The mean as a function of the parameter. -/
theorem Fresh.measurable_mean {val : X → Rng → ENNReal} {rest : X → Rng → Rng} (h : Fresh val rest) : Measurable fun x => avg (val x) := h.mval.lintegral_prod_right'

theorem avg_const (c : ENNReal) : avg (fun _ => c) = c := by simp [avg]

/-- Nothing is drawn. -/
theorem Fresh.const {k : X → ENNReal} (hk : Measurable k) : Fresh (fun x _ => k x) (fun _ r => r) where
  mval := hk.comp measurable_fst
  mrest := measurable_snd
  keep := fun _ _ _ => rfl
  indep := fun x Φ hΦ => by rw [avg_const]; exact lintegral_const_mul _ hΦ

theorem Fresh.comp {val : X → Rng → ENNReal} {rest : X → Rng → Rng} (h : Fresh val rest) {f : Y → X} (hf : Measurable f) : Fresh (fun y => val (f y)) (fun y => rest (f y)) where
  mval := h.mval.comp ((hf.comp measurable_fst).prodMk measurable_snd)
  mrest := h.mrest.comp ((hf.comp measurable_fst).prodMk measurable_snd)
  keep := fun y => h.keep (f y)
  indep := fun y => h.indep (f y)

theorem Fresh.mul {val : X → Rng → ENNReal} {rest : X → Rng → Rng} (h : Fresh val rest) {k : X → ENNReal} (hk : Measurable k) : Fresh (fun x r => k x * val x r) rest where
  mval := (hk.comp measurable_fst).mul h.mval
  mrest := h.mrest
  keep := h.keep
  indep := fun x Φ hΦ => by
    have e : ∀ r, k x * val x r * Φ (rest x r) = k x * (val x r * Φ (rest x r)) := fun r => mul_assoc _ _ _
    simp only [avg, e]
    have hm : Measurable fun r => val x r * Φ (rest x r) := (h.mval_at x).mul (hΦ.comp (h.mrest_at x))
    rw [lintegral_const_mul _ hm, lintegral_const_mul _ (h.mval_at x)]
    have := h.indep x Φ hΦ
    simp only [avg] at this
    rw [this, mul_assoc]

theorem Fresh.mean_mul {val : X → Rng → ENNReal} {rest : X → Rng → Rng} (h : Fresh val rest) (k : X → ENNReal) (x : X) : avg (fun r => k x * val x r) = k x * avg (val x) := lintegral_const_mul _ (h.mval_at x)

/-- One experiment, then another with the numbers that are left. -/
theorem Fresh.add {a b : X → Rng → ENNReal} {ra rb : X → Rng → Rng} (ha : Fresh a ra) (hb : Fresh b rb) : Fresh (fun x r => a x r + b x (ra x r)) (fun x r => rb x (ra x r)) where
  mval := ha.mval.add (hb.mval.comp (measurable_fst.prodMk ha.mrest))
  mrest := hb.mrest.comp (measurable_fst.prodMk ha.mrest)
  keep := fun x Φ hΦ => by
    rw [ha.keep x (fun r => Φ (rb x r)) (hΦ.comp (hb.mrest_at x)), hb.keep x Φ hΦ]
  indep := fun x Φ hΦ => by
    have hΨ : Measurable fun r => Φ (rb x r) := hΦ.comp (hb.mrest_at x)
    have hm : Measurable fun r => a x r * Φ (rb x (ra x r)) := (ha.mval_at x).mul (hΨ.comp (ha.mrest_at x))
    have h1 := ha.indep x (fun r => Φ (rb x r)) hΨ
    have h2 := ha.keep x (fun r => b x r * Φ (rb x r)) ((hb.mval_at x).mul hΨ)
    have h3 := ha.keep x (b x) (hb.mval_at x)
    simp only [avg] at h1 h2 h3 ⊢
    simp only [add_mul]
    rw [lintegral_add_left hm, h1, h2, lintegral_add_left (ha.mval_at x), h3]
    have h4 := hb.indep x Φ hΦ
    have h5 := hb.keep x Φ hΦ
    simp only [avg] at h4 h5
    rw [h4, h5, add_mul]

theorem Fresh.mean_add {a b : X → Rng → ENNReal} {ra rb : X → Rng → Rng} (ha : Fresh a ra) (hb : Fresh b rb) (x : X) : avg (fun r => a x r + b x (ra x r)) = avg (a x) + avg (b x) := by
  have h3 := ha.keep x (b x) (hb.mval_at x)
  simp only [avg] at h3 ⊢
  rw [lintegral_add_left (ha.mval_at x), h3]

/-- Mean of a function of the first number and the others. -/
theorem avg_draw {f : ℝ × Rng → ENNReal} (hf : Measurable f) : avg (fun r => f (r 0, r.tail)) = ∫⁻ u in Ico (0 : ℝ) 1, avg (fun r => f (u, r)) := by
  have hm : Measurable fun r : Rng => f (r 0, r.tail) := hf.comp ((measurable_pi_apply 0).prodMk measurable_tail)
  unfold avg
  conv_lhs => rw [← randomNumbers_cons]
  rw [lintegral_map hm measurable_cons]
  have e : (fun p : ℝ × Rng => f ((Rng.cons p.1 p.2) 0, (Rng.cons p.1 p.2).tail)) = f := by funext p; rfl
  rw [e, lintegral_prod _ hf.aemeasurable]
  rfl

/-- One number is drawn, and the experiment that follows may depend on it. -/
theorem Fresh.draw {val : X × ℝ → Rng → ENNReal} {rest : X × ℝ → Rng → Rng} (h : Fresh val rest) : Fresh (fun x (r : Rng) => val (x, r 0) r.tail) (fun x (r : Rng) => rest (x, r 0) r.tail) := by
  have hm : Measurable fun p : X × Rng => ((p.1, p.2 0), p.2.tail) := (measurable_fst.prodMk ((measurable_pi_apply 0).comp measurable_snd)).prodMk (measurable_tail.comp measurable_snd)
  have hx : ∀ x : X, Measurable fun q : ℝ × Rng => ((x, q.1), q.2) := fun x => (measurable_const.prodMk measurable_fst).prodMk measurable_snd
  have hprob : ∫⁻ _ in Ico (0 : ℝ) 1, (1 : ENNReal) = 1 := by simp
  refine ⟨h.mval.comp hm, h.mrest.comp hm, fun x Φ hΦ => ?_, fun x Φ hΦ => ?_⟩
  · have := avg_draw (f := fun q => Φ (rest (x, q.1) q.2)) (hΦ.comp (h.mrest.comp (hx x)))
    rw [this]
    simp only [h.keep _ Φ hΦ]
    rw [setLIntegral_const]
    simp
  · have h1 := avg_draw (f := fun q => val (x, q.1) q.2 * Φ (rest (x, q.1) q.2)) ((h.mval.comp (hx x)).mul (hΦ.comp (h.mrest.comp (hx x))))
    have h2 := avg_draw (f := fun q => val (x, q.1) q.2) (h.mval.comp (hx x))
    rw [h1, h2]
    simp only [h.indep _ Φ hΦ]
    exact lintegral_mul_const _ (h.measurable_mean.comp (measurable_const.prodMk measurable_id))

theorem Fresh.mean_draw {val : X × ℝ → Rng → ENNReal} {rest : X × ℝ → Rng → Rng} (h : Fresh val rest) (x : X) : avg (fun r => val (x, r 0) r.tail) = ∫⁻ u in Ico (0 : ℝ) 1, avg (val (x, u)) := by
  have hx : Measurable fun q : ℝ × Rng => ((x, q.1), q.2) := (measurable_const.prodMk measurable_fst).prodMk measurable_snd
  exact avg_draw (f := fun q => val (x, q.1) q.2) (h.mval.comp hx)

theorem tail_drop (r : Rng) (n : Nat) : (r.tail).drop n = r.drop (n + 1) := by
  funext k; simp [Rng.tail, Rng.drop, add_assoc]

theorem drop_zero (r : Rng) : r.drop 0 = r := rfl

/-- Two numbers are drawn, and the experiment that follows may depend on them. -/
theorem Fresh.draw2 {val : X × (ℝ × ℝ) → Rng → ENNReal} {rest : X × (ℝ × ℝ) → Rng → Rng} (h : Fresh val rest) : Fresh (fun x (r : Rng) => val (x, (r 0, r 1)) (r.drop 2)) (fun x (r : Rng) => rest (x, (r 0, r 1)) (r.drop 2)) := by
  have hm : Measurable fun q : (X × ℝ) × ℝ => (q.1.1, (q.1.2, q.2)) := by fun_prop
  have h2 := (h.comp hm).draw.draw
  exact h2

theorem Fresh.mean_draw2 {val : X × (ℝ × ℝ) → Rng → ENNReal} {rest : X × (ℝ × ℝ) → Rng → Rng} (h : Fresh val rest) (x : X) : avg (fun r => val (x, (r 0, r 1)) (r.drop 2)) = ∫⁻ d in Ico (0 : ℝ) 1 ×ˢ Ico (0 : ℝ) 1, avg (val (x, d)) := by
  have hm : Measurable fun q : (X × ℝ) × ℝ => (q.1.1, (q.1.2, q.2)) := by fun_prop
  have e1 := (h.comp hm).draw.mean_draw x
  have hme : Measurable fun d : ℝ × ℝ => avg (val (x, d)) := h.measurable_mean.comp measurable_prodMk_left
  have e2 : ∫⁻ d in Ico (0 : ℝ) 1 ×ˢ Ico (0 : ℝ) 1, avg (val (x, d)) = ∫⁻ u in Ico (0 : ℝ) 1, ∫⁻ v in Ico (0 : ℝ) 1, avg (val (x, (u, v))) := by
    rw [Measure.volume_eq_prod, ← Measure.prod_restrict, lintegral_prod _ hme.aemeasurable]
  rw [e2]
  refine Eq.trans e1 (lintegral_congr fun u => ?_)
  exact (h.comp hm).mean_draw (x, u)

/-! ### Repetition -/

/-- `n` times the same experiment. -/
def repeatVal (val : X → Rng → ENNReal) (rest : X → Rng → Rng) : Nat → X → Rng → ENNReal
  | 0 => fun _ _ => 0
  | n + 1 => fun x r => val x r + repeatVal val rest n x (rest x r)

def repeatRest (rest : X → Rng → Rng) : Nat → X → Rng → Rng
  | 0 => fun _ r => r
  | n + 1 => fun x r => repeatRest rest n x (rest x r)

theorem Fresh.iterate {val : X → Rng → ENNReal} {rest : X → Rng → Rng} (h : Fresh val rest) (n : Nat) : Fresh (repeatVal val rest n) (repeatRest rest n) := by
  induction n with
  | zero => exact Fresh.const measurable_const
  | succ n ih => exact h.add ih

theorem Fresh.mean_iterate {val : X → Rng → ENNReal} {rest : X → Rng → Rng} (h : Fresh val rest) (n : Nat) (x : X) : avg (repeatVal val rest n x) = n * avg (val x) := by
  induction n with
  | zero => simp [repeatVal, avg]
  | succ n ih =>
    have := h.mean_add (h.iterate n) x
    simp only [repeatVal]
    rw [this, ih]
    push_cast
    ring

/-! ### Choices among countably many cases -/

/-- A choice that depends measurably on the parameter. -/
def Disc {D : Type} (c : X → D) : Prop := ∀ d, MeasurableSet {x | c x = d}

theorem Disc.const {D : Type} (d : D) : Disc fun _ : X => d := fun d' => by
  by_cases h : d = d'
  · simp [h]
  · simp [h]

theorem Disc.ite {D : Type} {p : X → Prop} [∀ x, Decidable (p x)] (hp : MeasurableSet {x | p x}) {a b : X → D} (ha : Disc a) (hb : Disc b) : Disc fun x => if p x then a x else b x := by
  intro d
  have : {x | (if p x then a x else b x) = d} = ({x | p x} ∩ {x | a x = d}) ∪ ({x | p x}ᶜ ∩ {x | b x = d}) := by
    ext x
    by_cases h : p x <;> simp [h]
  rw [this]
  exact (hp.inter (ha d)).union (hp.compl.inter (hb d))

theorem Disc.setOf {D : Type} [Countable D] {c : X → D} (hc : Disc c) {p : D → X → Prop} (hp : ∀ d, MeasurableSet {x | p d x}) : MeasurableSet {x | p (c x) x} := by
  have : {x | p (c x) x} = ⋃ d, {x | c x = d} ∩ {x | p d x} := by
    ext x
    simp
  rw [this]
  exact MeasurableSet.iUnion fun d => (hc d).inter (hp d)

theorem Disc.bind {D E : Type} [Countable D] {c : X → D} (hc : Disc c) {f : D → X → E} (hf : ∀ d, Disc (f d)) : Disc fun x => f (c x) x := fun e => hc.setOf (p := fun d x => f d x = e) fun d => hf d e

theorem Disc.map {D E : Type} [Countable D] {c : X → D} (hc : Disc c) (f : D → E) : Disc fun x => f (c x) := hc.bind fun d => Disc.const (f d)

theorem Disc.measurable {D : Type} [Countable D] {c : X → D} (hc : Disc c) {f : D → X → Y} (hf : ∀ d, Measurable (f d)) : Measurable fun x => f (c x) x := fun _ hS => hc.setOf (p := fun d x => f d x ∈ _) fun d => hf d hS

theorem Disc.comp {D : Type} {c : X → D} (hc : Disc c) {f : Y → X} (hf : Measurable f) : Disc fun y => c (f y) := fun d => hf (hc d)

theorem Fresh.choose {D : Type} [Countable D] {c : X → D} (hc : Disc c) {val : D → X → Rng → ENNReal} {rest : D → X → Rng → Rng} (h : ∀ d, Fresh (val d) (rest d)) : Fresh (fun x => val (c x) x) (fun x => rest (c x) x) where
  mval := (hc.comp measurable_fst).measurable (f := fun d (p : X × Rng) => val d p.1 p.2) fun d => (h d).mval
  mrest := (hc.comp measurable_fst).measurable (f := fun d (p : X × Rng) => rest d p.1 p.2) fun d => (h d).mrest
  keep := fun x => (h (c x)).keep x
  indep := fun x => (h (c x)).indep x

end Rendering
