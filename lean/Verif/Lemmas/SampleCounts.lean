import Verif.Lemmas.TracerRef
import Verif.Props.Tracer

/-!
# The numbers of samples matter at the first surface only
-/

set_option linter.unusedSectionVars false
namespace Rendering

/-- Two settings that differ only in the numbers of samples (and both or neither take ambient samples). -/
structure RayTracer.SameButCounts (rt rt' : RayTracer) : Prop where
  depth : rt.maxDepth = rt'.maxDepth
  limit : rt.limitWeight = rt'.limitWeight
  specular : rt.countSpecularBounce = rt'.countSpecularBounce
  ambient : rt.nAmbientSamples = 0 ↔ rt'.nAmbientSamples = 0

theorem refSpecular_counts {self self' : RefTrace} (h : ∀ rng ray, ray.depth ≠ 0 → self rng ray = self' rng ray) (csb : ℝ) (l : List (TRay × Spectrum ℝ)) (hl : ∀ p ∈ l, p.1.depth ≠ 0) : ∀ rng : Rng, refSpecular self csb l rng = refSpecular self' csb l rng := by
  induction l with
  | nil => exact fun _ => rfl
  | cons p rest ih =>
    intro rng
    obtain ⟨path, weight⟩ := p
    have hp := hl _ (List.mem_cons_self ..)
    unfold refSpecular
    have e : ∀ g : Rng, self g (if rng 0 < csb then { path with depth := path.depth + 1 } else path) = self' g (if rng 0 < csb then { path with depth := path.depth + 1 } else path) := by
      intro g
      refine h _ _ ?_
      by_cases hq : rng 0 < csb
      · simp only [hq, if_true]; exact Nat.succ_ne_zero _
      · simp only [hq, if_false]; exact hp
    simp only [e, ih fun q hq => hl q (List.mem_cons_of_mem _ hq)]

theorem refAmbient_counts {self self' : RefTrace} (h : ∀ rng ray, ray.depth ≠ 0 → self rng ray = self' rng ray) (m : Material ℝ) (ray : TRay) (fuel : Nat) : ∀ (n : Nat) (rng : Rng), refAmbient self m ray fuel n rng = refAmbient self' m ray fuel n rng := by
  induction fuel with
  | zero => exact fun _ _ => rfl
  | succ fuel ih =>
    intro n rng
    cases n with
    | zero => rfl
    | succ n =>
      unfold refAmbient
      have e : ∀ (g : Rng) (geo : Ray3 ℝ) (v : ℝ), self g { ray with geometry := geo, depth := ray.depth + 1, value := v } = self' g { ray with geometry := geo, depth := ray.depth + 1, value := v } := fun g geo v => h _ _ (Nat.succ_ne_zero _)
      simp only [e, ih]

theorem refTrace_counts (w : World) {rt rt' : RayTracer} (hrt : rt.SameButCounts rt') (fuel : Nat) : ∀ (rng : Rng) (ray : TRay), ray.depth ≠ 0 → refTrace w rt fuel rng ray = refTrace w rt' fuel rng ray := by
  induction fuel with
  | zero => exact fun _ _ _ => rfl
  | succ fuel ih =>
    intro rng ray hd
    unfold refTrace
    refine bind_congr' _ fun hit hc => ?_
    cases hit with
    | none => rfl
    | some x =>
      obtain ⟨i, ray'⟩ := x
      have hd' : ray'.depth ≠ 0 := by rw [w.cast_keeps ray i ray' hc]; exact hd
      simp only
      split
      · rfl
      refine bind_congr' _ fun m _ => ?_
      unfold refSurface
      rw [hrt.depth]
      split
      · rfl
      split
      · rfl
      refine bind_congr' _ fun nn _ => ?_
      obtain ⟨n0, n1, n2⟩ := nn
      dsimp only
      split
      · rw [hrt.specular]
        refine bind_congr' _ fun ps hps => ?_
        rw [refSpecular_counts ih]
        intro p hp
        rw [paths_depth m _ _ _ ps hps p hp]
        exact hd'
      · have ha : ∀ r : TRay, r.depth ≠ 0 → TRay.getNAmbientSamples r rt.nAmbientSamples rt'.maxDepth rt.limitWeight rng = TRay.getNAmbientSamples r rt'.nAmbientSamples rt'.maxDepth rt'.limitWeight rng := by
          intro r hr
          rw [hrt.limit]
          unfold TRay.getNAmbientSamples
          simp only [hrt.ambient, hr, if_false]
        rw [ha _ (by exact hd')]
        have hk : (TRay.getNAmbientSamples { ray' with interaction := ray'.interaction.interpolateNormal n0 n1 n2 } rt'.nAmbientSamples rt'.maxDepth rt'.limitWeight rng).2.1.depth ≠ 0 := by
          unfold TRay.getNAmbientSamples
          dsimp only
          split_ifs <;> exact hd'
        generalize TRay.getNAmbientSamples { ray' with interaction := ray'.interaction.interpolateNormal n0 n1 n2 } rt'.nAmbientSamples rt'.maxDepth rt'.limitWeight rng = q at hk
        obtain ⟨n, ray2, rng2⟩ := q
        simp only at hk
        simp only [hk, if_false, refAmbient_counts ih]

end Rendering
