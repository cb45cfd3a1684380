import Verif.Model.Tracer

/-!
# Tracing: more fuel never changes an answer
-/

set_option linter.unusedSectionVars false
namespace Rendering

open Classical

/-- `a` is `b`, or still running. -/
def Res.Le {α : Type} (a b : Res α) : Prop := a = .diverge ∨ a = b

namespace Res.Le
variable {α β : Type}

theorem refl (a : Res α) : a.Le a := Or.inr rfl
theorem bot (a : Res α) : (Res.diverge : Res α).Le a := Or.inl rfl
theorem trans {a b c : Res α} (h : a.Le b) (h' : b.Le c) : a.Le c := by
  rcases h with rfl | rfl
  · exact Or.inl rfl
  · exact h'
theorem bind {a b : Res α} {f g : α → Res β} (h : a.Le b) (hf : ∀ x, (f x).Le (g x)) : (a.bind f).Le (b.bind g) := by
  rcases h with rfl | rfl
  · exact Or.inl rfl
  · cases a with
    | ok x => exact hf x
    | panic => exact Or.inr rfl
    | diverge => exact Or.inl rfl
theorem ite {p : Prop} [Decidable p] {a b c d : Res α} (h : a.Le b) (h' : c.Le d) : (if p then a else c).Le (if p then b else d) := by
  split_ifs
  · exact h
  · exact h'
theorem eq_of_ne {a b : Res α} (h : a.Le b) (hne : a ≠ .diverge) : b = a := by
  rcases h with h | h
  · exact absurd h hne
  · exact h.symm
end Res.Le

theorem wardLoop_mono (n e1 e2 : Vec3 ℝ) (s α β : ℝ) (ray : TRay) {f f' : Nat} (h : f ≤ f') (rng : Rng) :
    (wardLoop n e1 e2 s α β ray f rng).Le (wardLoop n e1 e2 s α β ray f' rng) := by
  induction f generalizing f' rng with
  | zero => exact Res.Le.bot _
  | succ f ih =>
    obtain ⟨g, rfl⟩ : ∃ g, f' = g + 1 := ⟨f' - 1, by omega⟩
    unfold wardLoop
    exact Res.Le.ite (Res.Le.refl _) (ih (by omega) _)

theorem sampleWard_mono (n e1 e2 pt : Vec3 ℝ) (s α β : ℝ) (ray : TRay) {f f' : Nat} (h : f ≤ f') (rng : Rng) :
    (sampleWard f n e1 e2 pt s α β ray rng).Le (sampleWard f' n e1 e2 pt s α β ray rng) := by
  unfold sampleWard
  exact Res.Le.ite (wardLoop_mono _ _ _ _ _ _ _ h _) (Res.Le.refl _)

theorem sampleBsdf_mono (m : Material ℝ) (n e1 e2 pt : Vec3 ℝ) (ray : TRay) {f f' : Nat} (h : f ≤ f') (rng : Rng) :
    (m.sampleBsdf f n e1 e2 pt ray rng).Le (m.sampleBsdf f' n e1 e2 pt ray rng) := by
  cases m <;> unfold Material.sampleBsdf
  case plastic => exact Res.Le.bind (sampleWard_mono _ _ _ _ _ _ _ _ h _) (fun _ => Res.Le.refl _)
  case metal => exact Res.Le.bind (sampleWard_mono _ _ _ _ _ _ _ _ h _) (fun _ => Res.Le.refl _)
  all_goals exact Res.Le.refl _

theorem lightLoop_mono (w : World) (m : Material ℝ) (ray : TRay) (n : Nat) (pt normal e1 e2 : Vec3 ℝ) (light : Object ℝ) {f f' : Nat} (h : f ≤ f') (i : Nat) (acc : Spectrum ℝ) (rng : Rng) :
    (w.lightLoop m ray n pt normal e1 e2 light f i acc rng).Le (w.lightLoop m ray n pt normal e1 e2 light f' i acc rng) := by
  induction f generalizing f' i acc rng with
  | zero => exact Res.Le.bot _
  | succ f ih =>
    obtain ⟨g, rfl⟩ : ∃ g, f' = g + 1 := ⟨f' - 1, by omega⟩
    unfold World.lightLoop
    refine Res.Le.ite ?_ (Res.Le.refl _)
    refine Res.Le.bind (Res.Le.refl _) (fun x => ?_)
    refine Res.Le.bind (Res.Le.refl _) (fun r => ?_)
    cases r with
    | none => exact ih (by omega) _ _ _
    | some cp => exact Res.Le.ite (ih (by omega) _ _ _) (Res.Le.bind (Res.Le.refl _) (fun t => ih (by omega) _ _ _))

theorem lightsLoop_mono (w : World) (m : Material ℝ) (ray : TRay) (n : Nat) (pt normal e1 e2 : Vec3 ℝ) (lights : List (Object ℝ)) {f f' : Nat} (h : f ≤ f') (acc : Spectrum ℝ) (rng : Rng) :
    (w.lightsLoop f m ray n pt normal e1 e2 lights acc rng).Le (w.lightsLoop f' m ray n pt normal e1 e2 lights acc rng) := by
  induction lights generalizing acc rng with
  | nil => exact Res.Le.refl _
  | cons l ls ih =>
    unfold World.lightsLoop
    exact Res.Le.bind (lightLoop_mono _ _ _ _ _ _ _ _ _ h _ _ _) (fun _ => ih _ _)

theorem localIllumination_mono (w : World) (m : Material ℝ) (ray : TRay) (rng : Rng) (n : Nat) {f f' : Nat} (h : f ≤ f') :
    (w.localIllumination f m ray rng n).Le (w.localIllumination f' m ray rng n) := by
  unfold World.localIllumination World.sampleLightArray
  exact Res.Le.bind (lightsLoop_mono _ _ _ _ _ _ _ _ _ h _ _) (fun _ => Res.Le.bind (lightsLoop_mono _ _ _ _ _ _ _ _ _ h _ _) (fun _ => Res.Le.refl _))

/-- One tracing function knows at most as much as another. -/
def TraceFn.Le (s s' : TraceFn) : Prop := ∀ st ray, (s st ray).Le (s' st ray)

theorem specularLoop_mono {s s' : TraceFn} (hs : s.Le s') (csb : ℝ) (paths : List (TRay × Spectrum ℝ)) (ray : TRay) (li : Spectrum ℝ) (st : TState) :
    (specularLoop s csb paths ray li st).Le (specularLoop s' csb paths ray li st) := by
  induction paths generalizing ray li st with
  | nil => exact Res.Le.refl _
  | cons p ps ih =>
    obtain ⟨r, b⟩ := p
    unfold specularLoop
    exact Res.Le.bind (hs _ _) (fun _ => ih _ _ _)

theorem globalLoop_mono {s s' : TraceFn} (hs : s.Le s') (m : Material ℝ) (n d : Nat) (pt normal e1 e2 : Vec3 ℝ) {f f' : Nat} (h : f ≤ f') (count : Nat) (g : Spectrum ℝ) (ray : TRay) (st : TState) :
    (globalLoop s m n d pt normal e1 e2 f count g ray st).Le (globalLoop s' m n d pt normal e1 e2 f' count g ray st) := by
  induction f generalizing f' count g ray st with
  | zero => exact Res.Le.bot _
  | succ f ih =>
    obtain ⟨k, rfl⟩ : ∃ g, f' = g + 1 := ⟨f' - 1, by omega⟩
    unfold globalLoop
    refine Res.Le.ite ?_ (Res.Le.refl _)
    refine Res.Le.bind (sampleBsdf_mono _ _ _ _ _ _ (by omega) _) (fun x => ?_)
    refine Res.Le.bind (hs _ _) (fun y => ?_)
    refine Res.Le.bind (Res.Le.refl _) (fun z => ?_)
    exact Res.Le.ite (ih (by omega) _ _ _ _) (ih (by omega) _ _ _ _)

theorem globalIllumination_mono {s s' : TraceFn} (hs : s.Le s') {f f' : Nat} (h : f ≤ f') (m : Material ℝ) (n : Nat) (ray : TRay) (st : TState) :
    (globalIllumination s f m n ray st).Le (globalIllumination s' f' m n ray st) := by
  unfold globalIllumination
  refine Res.Le.ite (Res.Le.refl _) ?_
  exact Res.Le.ite (Res.Le.bind (globalLoop_mono hs _ _ _ _ _ _ _ h _ _ _ _) (fun _ => Res.Le.refl _)) (Res.Le.refl _)

theorem surfaceStep_mono (w : World) (rt : RayTracer) {s s' : TraceFn} (hs : s.Le s') {f f' : Nat} (h : f ≤ f') (i : Nat) (m : Material ℝ) (ray : TRay) (st : TState) :
    (surfaceStep w rt f s i m ray st).Le (surfaceStep w rt f' s' i m ray st) := by
  unfold surfaceStep
  refine Res.Le.ite (Res.Le.refl _) (Res.Le.ite (Res.Le.refl _) ?_)
  refine Res.Le.bind (Res.Le.refl _) (fun x => ?_)
  refine Res.Le.ite ?_ ?_
  · exact Res.Le.bind (Res.Le.refl _) (fun p => Res.Le.bind (specularLoop_mono hs _ _ _ _ _) (fun _ => Res.Le.refl _))
  · exact Res.Le.bind (localIllumination_mono _ _ _ _ _ h) (fun y => Res.Le.bind (globalIllumination_mono hs h _ _ _ _) (fun _ => Res.Le.refl _))

theorem traceStep_mono (w : World) (rt : RayTracer) {s s' : TraceFn} (hs : s.Le s') {f f' : Nat} (h : f ≤ f') : TraceFn.Le (traceStep w rt f s) (traceStep w rt f' s') := by
  intro st ray
  unfold traceStep
  refine Res.Le.bind (Res.Le.refl _) (fun x => ?_)
  cases x with
  | none => exact Res.Le.refl _
  | some p => exact Res.Le.ite (Res.Le.refl _) (Res.Le.bind (Res.Le.refl _) (fun m => surfaceStep_mono w rt hs h _ _ _ _))

theorem traceRay_mono (w : World) (rt : RayTracer) {f f' : Nat} (h : f ≤ f') : TraceFn.Le (traceRay w rt f) (traceRay w rt f') := by
  induction f generalizing f' with
  | zero => intro st ray; exact Res.Le.bot _
  | succ f ih =>
    obtain ⟨g, rfl⟩ : ∃ g, f' = g + 1 := ⟨f' - 1, by omega⟩
    exact traceStep_mono w rt (ih (by omega)) (by omega)

/-- The answer of a computation that ends does not depend on the fuel. -/
theorem traceRay_fuel (w : World) (rt : RayTracer) (f f' : Nat) (st : TState) (ray : TRay) (h : traceRay w rt f st ray ≠ .diverge) (h' : traceRay w rt f' st ray ≠ .diverge) :
    traceRay w rt f st ray = traceRay w rt f' st ray := by
  rcases Nat.le_total f f' with hl | hl
  · exact ((traceRay_mono w rt hl st ray).eq_of_ne h).symm
  · exact (traceRay_mono w rt hl st ray).eq_of_ne h'

end Rendering
