import Verif.Lemmas.MeasurableCast
import Verif.Props.Direct

/-!
# The reference box test is measurable
-/

set_option linter.unusedSectionVars false
namespace Rendering

open MeasureTheory Set

variable {X : Type} [MeasurableSpace X]

def slabOf (c : Option Bool) (f g : ℝ) : Option (ℝ × Option ℝ) :=
  match c with
  | none => none
  | some false => some (f, none)
  | some true => some (f, some g)

/-- A parameter interval that depends measurably on `x`. -/
def SlabRep (σ : X → Option (ℝ × Option ℝ)) : Prop := ∃ (c : X → Option Bool) (f g : X → ℝ), Disc c ∧ Measurable f ∧ Measurable g ∧ ∀ x, σ x = slabOf (c x) (f x) (g x)

open Classical in
theorem SlabRep.step {σ : X → Option (ℝ × Option ℝ)} (h : SlabRep σ) (lo hi : ℝ) {o d : X → ℝ} (ho : Measurable o) (hd : Measurable d) : SlabRep fun x => slabStep lo hi (o x) (d x) (σ x) := by
  obtain ⟨c, f, g, hc, hf, hg, e⟩ := h
  have h0 : MeasurableSet {x | d x = 0} := measurableSet_eq_fun hd measurable_const
  have h1 : MeasurableSet {x | lo ≤ o x ∧ o x ≤ hi} := (measurableSet_le measurable_const ho).inter (measurableSet_le ho measurable_const)
  have hn : Measurable fun x => min ((lo - o x) / d x) ((hi - o x) / d x) := ((measurable_const.sub ho).div hd).min ((measurable_const.sub ho).div hd)
  have hm : Measurable fun x => max ((lo - o x) / d x) ((hi - o x) / d x) := ((measurable_const.sub ho).div hd).max ((measurable_const.sub ho).div hd)
  refine ⟨fun x => if c x = none then none else if d x = 0 then (if lo ≤ o x ∧ o x ≤ hi then c x else none) else some true,
    fun x => if d x = 0 then f x else max (f x) (min ((lo - o x) / d x) ((hi - o x) / d x)),
    fun x => if d x = 0 then g x else if c x = some true then min (g x) (max ((lo - o x) / d x) ((hi - o x) / d x)) else max ((lo - o x) / d x) ((hi - o x) / d x), ?_, ?_, ?_, ?_⟩
  · exact Disc.ite (hc none) (Disc.const _) (Disc.ite h0 (Disc.ite h1 hc (Disc.const _)) (Disc.const _))
  · exact Measurable.ite h0 hf (hf.max hn)
  · exact Measurable.ite h0 hg (Measurable.ite (hc (some true)) (hg.min hm) hm)
  · intro x
    simp only
    rw [e x]
    rcases hcx : c x with _ | _ | _
    · simp [slabOf, slabStep]
    · by_cases hd0 : d x = 0
      · by_cases hl : lo ≤ o x ∧ o x ≤ hi <;> simp [slabOf, slabStep, hd0, hl]
      · simp [slabOf, slabStep, hd0]
    · by_cases hd0 : d x = 0
      · by_cases hl : lo ≤ o x ∧ o x ≤ hi <;> simp [slabOf, slabStep, hd0, hl]
      · simp [slabOf, slabStep, hd0]

theorem realEnv_measurable : realEnv.bvh.MeasurableBoxTest := by
  intro b
  have h0 : SlabRep fun _ : Ray3 ℝ => (some (0, none) : Option (ℝ × Option ℝ)) := ⟨fun _ => some false, fun _ => 0, fun _ => 0, Disc.const _, measurable_const, measurable_const, fun _ => rfl⟩
  obtain ⟨c, f, g, hc, hf, hg, e⟩ := ((h0.step b.min.x b.max.x (o := fun r : Ray3 ℝ => r.origin.x) (d := fun r => r.direction.x) (by fun_prop) (by fun_prop)).step b.min.y b.max.y (o := fun r : Ray3 ℝ => r.origin.y) (d := fun r => r.direction.y)
    (by fun_prop) (by fun_prop)).step b.min.z b.max.z (o := fun r : Ray3 ℝ => r.origin.z) (d := fun r => r.direction.z) (by fun_prop) (by fun_prop)
  have : {ray : Ray3 ℝ | realEnv.bvh.boxHit b ray = true} = {ray | c ray = some false} ∪ ({ray | c ray = some true} ∩ {ray | f ray ≤ g ray}) := by
    ext ray
    have he := e ray
    simp only at he
    simp only [mem_setOf_eq, mem_union, mem_inter_iff]
    change slabTest b ray = true ↔ _
    unfold slabTest
    rw [he]
    rcases c ray with _ | _ | _ <;> simp [slabOf]
  rw [this]
  exact (hc _).union ((hc _).inter (measurableSet_le hf hg))

end Rendering
