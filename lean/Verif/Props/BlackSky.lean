import Verif.Props.Termination
import Verif.Props.TracerExamples
import Verif.Props.Ambient

/-!
# C120: a sky without brightness
-/

set_option linter.unusedSectionVars false
namespace Rendering

open Classical

variable {w : World}

/-- The light and the generator of an outcome, without the probability. -/
def lightAndNumbers (r : Res ((Spectrum ℝ × ℝ) × Rng)) : Res (Spectrum ℝ × Rng) := r.bind fun x => .ok (x.1.1, x.2)

theorem lightAndNumbers_cases {a b : Res ((Spectrum ℝ × ℝ) × Rng)} (h : lightAndNumbers a = lightAndNumbers b) : a = b ∨ ∃ x p q rng, a = .ok ((x, p), rng) ∧ b = .ok ((x, q), rng) := by
  rcases a with ⟨⟨x, p⟩, r⟩ | _ | _ <;> rcases b with ⟨⟨y, q⟩, r'⟩ | _ | _ <;> simp [lightAndNumbers] at h <;> try exact Or.inl rfl
  obtain ⟨rfl, rfl⟩ := h
  exact Or.inr ⟨x, p, q, r, rfl, rfl⟩

theorem refSpecular_dark {s s' : RefTrace} (hs : ∀ rng ray, lightAndNumbers (s rng ray) = lightAndNumbers (s' rng ray)) (csb : ℝ) (paths : List (TRay × Spectrum ℝ)) (rng : Rng) : refSpecular s csb paths rng = refSpecular s' csb paths rng := by
  induction paths generalizing rng with
  | nil => rfl
  | cons p rest ih =>
    obtain ⟨path, weight⟩ := p
    unfold refSpecular
    simp only
    generalize (if rng 0 < csb then { path with depth := path.depth + 1 } else path) = path'
    rcases lightAndNumbers_cases (hs rng.gen.2 path') with h | ⟨x, p, q, r, h1, h2⟩
    · rw [h]
      refine bind_congr' _ fun x _ => ?_
      obtain ⟨⟨l, p⟩, r⟩ := x
      simp only
      rw [ih]
    · rw [h1, h2]
      simp only [Res.bind_ok]
      rw [ih]

/-- Direct light does not depend on the sky. -/
theorem local_withSky (w : World) (sky : Vec3 ℝ → ℝ) (c : Option (Spectrum ℝ)) (f : Nat) (m : Material ℝ) (r : TRay) (rng : Rng) (n : Nat) : (w.withSky sky c).localIllumination f m r rng n = w.localIllumination f m r rng n := by
  unfold World.localIllumination World.sampleLightArray
  have hl : ∀ (l : Object ℝ) k i acc rng pt nn e1 e2, (w.withSky sky c).lightLoop m r n pt nn e1 e2 l k i acc rng = w.lightLoop m r n pt nn e1 e2 l k i acc rng := by
    intro l k
    induction k with
    | zero => intros; rfl
    | succ k ih =>
      intro i acc rng pt nn e1 e2
      unfold World.lightLoop
      split_ifs
      · refine bind_congr' _ fun x _ => ?_
        obtain ⟨d, r1⟩ := x
        simp only
        refine bind_congr' _ fun y _ => ?_
        cases y with
        | none => exact ih _ _ _ _ _ _ _
        | some cp =>
          simp only
          split_ifs
          · exact ih _ _ _ _ _ _ _
          · exact bind_congr' _ fun t _ => ih _ _ _ _ _ _ _
      · rfl
  have hls : ∀ (ls : List (Object ℝ)) acc rng pt nn e1 e2, (w.withSky sky c).lightsLoop f m r n pt nn e1 e2 ls acc rng = w.lightsLoop f m r n pt nn e1 e2 ls acc rng := by
    intro ls
    induction ls with
    | nil => intros; rfl
    | cons l ls ih =>
      intro acc rng pt nn e1 e2
      unfold World.lightsLoop
      rw [hl]
      refine bind_congr' _ fun x _ => ?_
      obtain ⟨a, r1⟩ := x
      exact ih _ _ _ _ _ _
  simp only
  rw [hls]
  refine bind_congr' _ fun x _ => ?_
  obtain ⟨a, r1⟩ := x
  simp only
  rw [hls]
  rfl

theorem refTrace_dark (hsky : w.sky = none) (rt : RayTracer) (hA : rt.DirectOnly) (c : Option (Spectrum ℝ)) (fuel : Nat) (rng : Rng) (ray : TRay) :
    lightAndNumbers (refTrace (w.withSky (fun _ => 0) c) rt fuel rng ray) = lightAndNumbers (refTrace w rt fuel rng ray) := by
  induction fuel generalizing rng ray with
  | zero => rfl
  | succ fuel ih =>
    unfold refTrace
    change lightAndNumbers ((w.cast ray).bind _) = lightAndNumbers ((w.cast ray).bind _)
    rcases w.cast ray with (_ | ⟨i, ray'⟩) | _ | _
    · simp only [Res.bind_ok, hsky, World.withSky, lightAndNumbers]
      congr 2
      ext <;> simp [Spectrum.scale, Spectrum.black, Spectrum.gray]
    · simp only [Res.bind_ok]
      split_ifs
      · rfl
      · change lightAndNumbers ((w.materialAt _ _).bind _) = lightAndNumbers ((w.materialAt _ _).bind _)
        congr 1
        refine bind_congr' _ fun m _ => ?_
        unfold refSurface
        simp only
        split_ifs
        · rfl
        · rfl
        · refine bind_congr' _ fun x _ => ?_
          obtain ⟨n0, n1, n2⟩ := x
          exact bind_congr' _ fun paths _ => by rw [refSpecular_dark ih]
        · refine bind_congr' _ fun x _ => ?_
          obtain ⟨n0, n1, n2⟩ := x
          simp only [(C64_counts _ rt.nAmbientSamples rt.maxDepth rt.limitWeight rng).1 hA, local_withSky, if_true]
    · rfl
    · rfl

/-- **C120 (partial).** Where no ambient sample is taken (`max_depth` or `n_ambient_samples` is 0), a sky without brightness, whatever its colour, changes nothing about the light of any ray, or the random numbers it uses: in every scene, for every material,
mirrors and glass included. (Missing: ambient samples, `C120_violation_black_sky`.) -/
theorem C120_direct_light_partial (hsky : w.sky = none) (rt : RayTracer) (hA : rt.DirectOnly) (c : Option (Spectrum ℝ)) (fuel : Nat) (rng : Rng) (rays : List TRay) (hr : rt.maxDepth < rays.length) (ray : TRay) :
    lightAndNumbers (outcome (traceRay (w.withSky (fun _ => 0) c) rt fuel ⟨rng, rays⟩ ray)) = lightAndNumbers (outcome (traceRay w rt fuel ⟨rng, rays⟩ ray)) := by
  rw [C75_is_reference_tracer _ rt fuel rng rays ray hr, C75_is_reference_tracer _ rt fuel rng rays ray hr]
  exact refTrace_dark hsky rt hA c fuel rng ray

/-- **C120, violation.** A matt triangle with nothing else: without a sky, tracing a ray that hits it ends; with a sky without brightness it never does, whatever the random numbers. (Samples that miss everything count if there is no sky; samples that reach a sky are drawn again.) -/
theorem C120_violation_black_sky (m : Material ℝ) (col : Spectrum ℝ) (hm : m.Matt col) (tri : Tri ℝ) (hw : w.Shows m [tri]) (hp : w.ext.PerpSpec) (hsky : w.sky = none) (c : Option (Spectrum ℝ)) (rt : RayTracer) (hD : 0 < rt.maxDepth)
    (hn : 0 < rt.nAmbientSamples) (ray : TRay) (hd : Norm ray.geometry.direction = 1) (hdep : ray.depth = 0) (d2 : ℝ) (hv : VisibleHit ray.geometry tri d2) (hin : InRange d2) (rng : Rng) (hr : rng.Valid) (rays : List TRay) (hrays : rt.maxDepth < rays.length) :
    (∀ fuel, max rt.nAmbientSamples rt.nShadowSamples + rt.maxDepth + 3 < fuel → ∃ x, traceRay w rt fuel ⟨rng, rays⟩ ray = .ok x) ∧
    ∀ fuel, traceRay (w.withSky (fun _ => 0) c) rt fuel ⟨rng, rays⟩ ray = .diverge := by
  have hR := hw.renders hm.notLight.1 (by norm_num)
  have hS : w.Sound _ := ⟨⟨hR, ⟨by simp, by simp, by simp, by simp⟩, hp, by simp⟩, by
    intro m' hm'
    simp only [List.mem_singleton] at hm'
    subst hm'
    obtain ⟨r, h | h⟩ := hm <;> subst h <;> simp [Material.NotGlossy]⟩
  refine ⟨fun fuel hf => ?_, fun fuel => ?_⟩
  · refine C60_ends_partial hS.toSolid ?_ rt (Or.inr hS.matt) (Or.inr ?_) (Or.inr ⟨hsky, ?_⟩) rng hr rays ray hrays fuel hf
    · intro o ho
      rw [hR.same.2.1, hR.same.2.2] at ho
      simp at ho
    · intro m' hm'
      simp only [List.mem_singleton] at hm'
      subst hm'
      exact hm.notLight.2
    · intro m' hm'
      simp only [List.mem_singleton] at hm'
      subst hm'
      obtain ⟨r, h | h⟩ := hm <;> subst h <;> rfl
  · exact C60_violation_never_ends (w.withSky (fun _ => 0) c) m col hm tri ⟨hw.lawful, hw.box, hw.normalized, hw.run⟩ _ rfl rt hD hn ray hd hdep d2 hv hin rng hr rays (by rintro rfl; simp at hrays) fuel

/-- C120: a grey floor. -/
example (rng : Rng) (hr : rng.Valid) : ∃ w : World, w.sky = none ∧ (∃ x, traceRay w ⟨2, 10, 70, 1 / 1000, 3 / 10⟩ 100 ⟨rng, defaultRays⟩ downRay = .ok x) ∧
    (∀ fuel, traceRay (w.withSky (fun _ => 0) none) ⟨2, 10, 70, 1 / 1000, 3 / 10⟩ fuel ⟨rng, defaultRays⟩ downRay = .diverge) ∧
    ∀ fuel, lightAndNumbers (outcome (traceRay (w.withSky (fun _ => 0) none) ⟨0, 10, 70, 1 / 1000, 3 / 10⟩ fuel ⟨rng, defaultRays⟩ downRay)) = lightAndNumbers (outcome (traceRay w ⟨0, 10, 70, 1 / 1000, 3 / 10⟩ fuel ⟨rng, defaultRays⟩ downRay)) := by
  obtain ⟨ext, hext⟩ := perpSpec_exists
  obtain ⟨w', hw', hs'⟩ := shows_exists (.plastic (Spectrum.gray (1 / 2)) 0 0) rfl [plane 0] none
  let w : World := { w' with ext := ext }
  have hw : w.Shows (.plastic (Spectrum.gray (1 / 2)) 0 0) [plane 0] := ⟨hw'.lawful, hw'.box, hw'.normalized, hw'.run⟩
  obtain ⟨h1, h2⟩ := C120_violation_black_sky (w := w) _ (Spectrum.gray (1 / 2)) ⟨0, Or.inl rfl⟩ (plane 0) hw hext hs' none ⟨2, 10, 70, 1 / 1000, 3 / 10⟩ (by norm_num) (by norm_num) downRay (Norm_eq_one (by norm_num [Dot, downRay])) rfl _ downRay_visible downRay_inRange
    rng hr defaultRays (by simp [defaultRays])
  exact ⟨w, hs', h1 100 (by norm_num), h2, fun fuel => C120_direct_light_partial (w := w) hs' ⟨0, 10, 70, 1 / 1000, 3 / 10⟩ (Or.inl rfl) none fuel rng defaultRays (by simp [defaultRays]) downRay⟩

end Rendering
