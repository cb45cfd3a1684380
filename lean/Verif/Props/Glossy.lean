import Verif.Props.TracerExamples
import Verif.Props.TracerScenes
import Verif.Props.Ward

/-!
# C92: glossy materials can stop a rendering
-/

set_option linter.unusedSectionVars false
namespace Rendering

open Classical

/-- **C92, violated by glossy materials.** A single triangle of plastic or metal with specularity `s`, seen head-on by a camera ray: if the first random number is below `s` and the third is `ξ` with `α² ln(1/ξ) ≥ 1` (α is the roughness), tracing the ray panics.
For roughness one that happens with probability `s/e`. -/
theorem C92_violation_glossy (w : World) (c : Spectrum ℝ) (s r : ℝ) (m : Material ℝ) (hm : m ∈ [Material.plastic c s r, Material.metal c s r]) (tri : Tri ℝ) (hw : w.Shows m [tri]) (hs : 1 / 10 ^ 5 < s)
    (rt : RayTracer) (hD : 0 < rt.maxDepth) (hn : 0 < rt.nAmbientSamples) (ray : TRay) (hd : Norm ray.geometry.direction = 1) (hdep : ray.depth = 0)
    (hon : ray.geometry.direction = unitNormal tri ∨ ray.geometry.direction = -unitNormal tri) (d2 : ℝ) (hv : VisibleHit ray.geometry tri d2) (hin : InRange d2)
    (rng : Rng) (h0 : rng 0 < s) (h2 : 1 / 10 ^ 9 ≤ rng 2) (h1 : rng 2 < 1) (hbig : 1 ≤ clampRoughness r ^ 2 * -Real.log (rng 2)) (rays : List TRay) (hrays : rays ≠ []) (fuel : Nat) :
    traceRay w rt (fuel + 3) ⟨rng, rays⟩ ray = .panic := by
  have hml : m.emitsDirectLight = false ∧ m.specularOnly = false := by
    simp only [List.mem_cons, List.not_mem_nil, or_false] at hm
    rcases hm with rfl | rfl <;> exact ⟨rfl, rfl⟩
  obtain ⟨tri', htri, b, hb, _, _, _, hstep⟩ := hw.step hml.1 (by norm_num) ray hd ⟨tri, by simp, d2, hv, hin⟩
  rw [List.mem_singleton] at htri
  subst htri
  obtain ⟨_, hframe, hside, hdn, _⟩ := recorded_spec tri' ray.geometry b hd hb
  have hdd := Dot_self_of_norm hd
  have hdir : ray.geometry.direction = (recordedInteraction tri' ray.geometry b).shading.normal.scale (-1) := by
    have key : ∀ u v : Vec3 ℝ, Dot u u = 1 → (v = u ∨ v = -u) → Dot v u < 0 → u = v.scale (-1) := by
      rintro u v hu (rfl | rfl) hneg
      · linarith
      · ext <;> simp
    refine key _ _ hdd ?_ hdn
    rcases hside with ⟨_, e⟩ | ⟨_, e⟩ <;> rw [e] <;> rcases hon with hon | hon <;> rw [hon] <;> first
      | (left; rfl)
      | (right; ext <;> simp [unitNormal])
  have hpan := C74_violation_panic fuel c s r _ _ _ (ray.arrived tri' b).interaction.point hframe (ray.arrived tri' b) rng h0 hs hdir h2 h1 hbig m hm
  rw [traceRay, hstep]
  have hd1 : ¬ ray.depth > rt.maxDepth := by omega
  have hna : (ray.arrived tri' b).getNAmbientSamples rt.nAmbientSamples rt.maxDepth rt.limitWeight rng = (rt.nAmbientSamples, ray.arrived tri' b, rng) := by
    unfold TRay.getNAmbientSamples
    rw [if_neg (by omega), if_pos (by exact hdep)]
  have hdep' : (ray.arrived tri' b).depth = 0 := hdep
  have hlen : 0 < rays.length := List.length_pos_of_ne_nil hrays
  simp only [hd1, if_false, hml.2, Bool.false_eq_true, hna]
  unfold globalIllumination
  rw [if_neg (by omega)]
  simp only [TRay.getTriad, hdep', hlen, if_true]
  unfold globalLoop
  rw [if_pos hn]
  simp only [TRay.arrived] at hpan ⊢
  rw [hpan]
  rfl

/-- Half-glossy plastic of roughness one, seen from straight above. -/
example : ∃ (w : World) (rng : Rng), rng.Valid ∧ w.Shows (.plastic (Spectrum.gray (1 / 2)) (1 / 2) 1) [plane 0] ∧ traceRay w ⟨3, 10, 70, 1 / 1000, 3 / 10⟩ 5 ⟨rng, defaultRays⟩ downRay = .panic := by
  obtain ⟨w, hw, _⟩ := shows_exists (.plastic (Spectrum.gray (1 / 2)) (1 / 2) 1) rfl [plane 0] none
  have hlow : (1 / 10 ^ 9 : ℝ) ≤ Real.exp (-2) := by
    have h : Real.exp 2 < 10 ^ 9 := by
      have h1 := Real.exp_one_lt_d9
      have : Real.exp 2 = Real.exp 1 * Real.exp 1 := by rw [← Real.exp_add]; norm_num
      rw [this]
      nlinarith [Real.exp_pos 1]
    rw [Real.exp_neg, one_div]
    exact inv_anti₀ (Real.exp_pos 2) h.le
  have h1 : Real.exp (-2) < 1 / 2 := by
    rw [Real.exp_neg, one_div]
    refine inv_strictAnti₀ (by norm_num) ?_
    have := Real.add_one_lt_exp (x := 2) (by norm_num)
    linarith
  refine ⟨w, fun _ => Real.exp (-2), fun _ => ⟨(Real.exp_pos _).le, by linarith⟩, hw, ?_⟩
  refine C92_violation_glossy w (Spectrum.gray (1 / 2)) (1 / 2) 1 _ (by simp) (plane 0) hw (by norm_num) _ (by norm_num) (by norm_num) downRay (Norm_eq_one (by norm_num [Dot, downRay])) rfl (Or.inr ?_) _ downRay_visible downRay_inRange _ h1 hlow
    (by linarith) ?_ _ (by simp [defaultRays]) 2
  · rw [plane_normal]; ext <;> simp [downRay]
  · simp only [Real.log_exp, clampRoughness]; norm_num

end Rendering
