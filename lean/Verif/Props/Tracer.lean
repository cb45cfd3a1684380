import Verif.Lemmas.World
import Verif.Props.Ward
import Verif.Props.Specular

/-!
# C57, C60, C62, C75, C77: `RayTracer::trace_ray`
-/

set_option linter.unusedSectionVars false
namespace Rendering

open Classical

/-! ### C75 and C57: scratch memory -/

theorem outcome_of_agrees {rays : List TRay} {d : Nat} {a : Res ((Spectrum ℝ × ℝ) × TRay × TState)} {b : Res ((Spectrum ℝ × ℝ) × Rng)} (h : Agrees rays d a b) : outcome a = b := by
  cases a with
  | ok x =>
    obtain ⟨x, ray, st⟩ := x
    cases b with
    | ok y => obtain ⟨y, rng⟩ := y; obtain ⟨rfl, rfl, _⟩ := h; rfl
    | panic => exact h.elim
    | diverge => exact h.elim
  | panic => cases b with
    | panic => rfl
    | ok _ => exact h.elim
    | diverge => exact h.elim
  | diverge => cases b with
    | diverge => rfl
    | ok _ => exact h.elim
    | panic => exact h.elim

/-- **C75.** With scratch memory for more than `max_depth` rays, `trace_ray` is the tracer of `Spec/Tracer.lean`, which has no scratch memory and draws every ambient sample for the ray that arrived: same
light, same probability, same random numbers consumed, same panics, and it ends when the other ends. -/
theorem C75_is_reference_tracer (w : World) (rt : RayTracer) (fuel : Nat) (rng : Rng) (rays : List TRay) (ray : TRay) (h : rt.maxDepth < rays.length) :
    outcome (traceRay w rt fuel ⟨rng, rays⟩ ray) = refTrace w rt fuel rng ray :=
  outcome_of_agrees (traceRay_refines w rt fuel ⟨rng, rays⟩ ray h)

/-- **C75.** What earlier traces left in the scratch memory does not matter. -/
theorem C75_scratch_irrelevant (w : World) (rt : RayTracer) (fuel : Nat) (rng : Rng) (rays rays' : List TRay) (ray : TRay) (h : rt.maxDepth < rays.length) (h' : rt.maxDepth < rays'.length) :
    outcome (traceRay w rt fuel ⟨rng, rays⟩ ray) = outcome (traceRay w rt fuel ⟨rng, rays'⟩ ray) := by
  rw [C75_is_reference_tracer w rt fuel rng rays ray h, C75_is_reference_tracer w rt fuel rng rays' ray h']

/-- **C75, the slots of outer levels.** A trace that ends leaves the size of the scratch memory and all slots below the ray's depth as they were. -/
theorem C75_outer_slots_kept (w : World) (rt : RayTracer) (fuel : Nat) (st st' : TState) (ray ray' : TRay) (x : Spectrum ℝ × ℝ) (h : rt.maxDepth < st.rays.length)
    (ht : traceRay w rt fuel st ray = .ok (x, ray', st')) : st'.rays.length = st.rays.length ∧ ∀ k < ray.depth, st'.rays[k]? = st.rays[k]? := by
  have := traceRay_refines w rt fuel st ray h
  rw [ht] at this
  cases hr : refTrace w rt fuel st.rng ray with
  | ok y => obtain ⟨y, r⟩ := y; rw [hr] at this; exact ⟨this.2.2.1, this.2.2.2⟩
  | panic => rw [hr] at this; exact this.elim
  | diverge => rw [hr] at this; exact this.elim

/-- **C57 (partial), scratch memory.** With the fifteen scratch rays the renderer allocates and `max_depth` at most 14, `trace_ray` behaves like the tracer that has no scratch memory, so no access to it panics. (Missing:
larger depths panic, `C57_violation_max_depth_15`.) -/
theorem C57_scratch_suffices_partial (w : World) (rt : RayTracer) (fuel : Nat) (rng : Rng) (ray : TRay) (h : rt.maxDepth ≤ 14) :
    outcome (traceRay w rt fuel ⟨rng, defaultRays⟩ ray) = refTrace w rt fuel rng ray :=
  C75_is_reference_tracer w rt fuel rng defaultRays ray (by simp [defaultRays]; omega)

/-- The reference tracer with the same assertion. -/
noncomputable def refTraceAsserting (w : World) (rt : RayTracer) (limit : Nat) : Nat → RefTrace
  | 0 => fun _ ray => if ray.depth ≤ limit then .diverge else .panic
  | fuel + 1 => fun rng ray => if ray.depth ≤ limit then
      (w.cast ray).bind fun hit =>
        match hit with
        | some (i, ray) =>
          if ray.interaction.shading.side = .NonApplicable then .ok ((Spectrum.black, 0), rng)
          else (w.materialAt ray.interaction.shading.side i).bind fun m => refSurface w rt fuel (refTraceAsserting w rt limit fuel) i m ray rng
        | none =>
          match w.sky with
          | some sky => .ok (((w.skyColour.getD (Spectrum.gray 1)).scale (sky ray.geometry.direction), 1 / 2 / Real.pi), rng)
          | none => .ok ((Spectrum.black, 0), rng)
      else .panic

theorem asserting_refines (w : World) (rt : RayTracer) (limit fuel : Nat) : (traceRayAsserting w rt limit fuel).Refines (refTraceAsserting w rt limit fuel) rt.maxDepth := by
  induction fuel with
  | zero =>
    intro st ray _
    unfold traceRayAsserting refTraceAsserting
    exact Agrees.ite (fun _ => trivial) (fun _ => trivial)
  | succ fuel ih =>
    intro st ray hD
    unfold traceRayAsserting traceStep refTraceAsserting
    refine Agrees.ite (fun _ => ?_) (fun _ => trivial)
    refine Agrees.bind_same _ fun hit hc => ?_
    cases hit with
    | none =>
      simp only [missStep]
      cases w.sky with
      | none => exact ⟨rfl, rfl, rfl, fun _ _ => rfl⟩
      | some sky => exact ⟨rfl, rfl, rfl, fun _ _ => rfl⟩
    | some p =>
      obtain ⟨i, ray'⟩ := p
      simp only
      have hdep : ray'.depth = ray.depth := by rw [w.cast_keeps ray i ray' hc]
      rw [← hdep]
      exact Agrees.ite (fun _ => ⟨rfl, rfl, rfl, fun _ _ => rfl⟩) fun _ => Agrees.bind_same _ fun m _ => surfaceStep_refines w rt fuel ih i m ray' st hD

theorem bind_congr' {α β : Type} (a : Res α) {f g : α → Res β} (h : ∀ x, a = .ok x → f x = g x) : a.bind f = a.bind g := by
  cases a with
  | ok x => exact h x rfl
  | panic => rfl
  | diverge => rfl

theorem refSpecular_congr {s s' : RefTrace} (D : Nat) (hs : ∀ rng ray, ray.depth ≤ D + 1 → s rng ray = s' rng ray) (csb : ℝ) (paths : List (TRay × Spectrum ℝ)) (hp : ∀ p ∈ paths, p.1.depth ≤ D) (rng : Rng) :
    refSpecular s csb paths rng = refSpecular s' csb paths rng := by
  induction paths generalizing rng with
  | nil => rfl
  | cons p ps ih =>
    obtain ⟨pr, wgt⟩ := p
    unfold refSpecular
    simp only
    have hd := hp (pr, wgt) List.mem_cons_self
    simp only at hd
    rw [hs _ _ (by split_ifs <;> first | (simp only; omega) | omega)]
    refine bind_congr' _ fun x _ => ?_
    obtain ⟨⟨l, q⟩, r⟩ := x
    simp only
    rw [ih (fun p hp' => hp p (List.mem_cons_of_mem _ hp'))]

theorem refAmbient_congr {s s' : RefTrace} (arriving : TRay) (hs : ∀ rng ray, ray.depth = arriving.depth + 1 → s rng ray = s' rng ray) (m : Material ℝ) (fuel n : Nat) (rng : Rng) :
    refAmbient s m arriving fuel n rng = refAmbient s' m arriving fuel n rng := by
  induction fuel generalizing n rng with
  | zero => rfl
  | succ fuel ih =>
    cases n with
    | zero => rfl
    | succ n =>
      unfold refAmbient
      refine bind_congr' _ fun x _ => ?_
      obtain ⟨⟨bsdf, pdf⟩, out, r⟩ := x
      simp only
      rw [hs _ _ rfl]
      refine bind_congr' _ fun y _ => ?_
      obtain ⟨⟨li, lp⟩, r'⟩ := y
      simp only
      rw [ih (n + 1), ih n]

theorem refSurface_congr (w : World) (rt : RayTracer) (fuel : Nat) {s s' : RefTrace} (hs : ∀ rng ray, ray.depth ≤ rt.maxDepth + 1 → s rng ray = s' rng ray) (i : Nat) (m : Material ℝ) (ray : TRay) (rng : Rng) :
    refSurface w rt fuel s i m ray rng = refSurface w rt fuel s' i m ray rng := by
  unfold refSurface
  simp only
  split_ifs with h1 h2 h3
  · rfl
  · rfl
  · refine bind_congr' _ fun x _ => ?_
    obtain ⟨n0, n1, n2⟩ := x
    simp only
    refine bind_congr' _ fun ps hps => ?_
    rw [refSpecular_congr rt.maxDepth hs]
    intro p hp
    rw [paths_depth _ _ _ _ _ hps p hp]
    simp only
    omega
  · refine bind_congr' _ fun x _ => ?_
    obtain ⟨n0, n1, n2⟩ := x
    simp only
    have hdepth := getNAmbientSamples_depth { ray with interaction := ray.interaction.interpolateNormal n0 n1 n2 } rt.nAmbientSamples rt.maxDepth rt.limitWeight rng
    refine bind_congr' _ fun y _ => ?_
    obtain ⟨d, r⟩ := y
    simp only
    split_ifs
    · rfl
    · rw [refAmbient_congr _ (fun rng ray hr => hs rng ray (by rw [hr, hdepth]; simp only; omega))]

theorem asserting_eq (w : World) (rt : RayTracer) (fuel : Nat) (rng : Rng) (ray : TRay) (h : ray.depth ≤ rt.maxDepth + 1) :
    refTraceAsserting w rt (rt.maxDepth + 1) fuel rng ray = refTrace w rt fuel rng ray := by
  induction fuel generalizing rng ray with
  | zero => simp only [refTraceAsserting, refTrace, h, if_true]
  | succ fuel ih =>
    simp only [refTraceAsserting, refTrace, h, if_true]
    refine bind_congr' _ fun hit _ => ?_
    cases hit with
    | none => rfl
    | some p =>
      obtain ⟨i, ray'⟩ := p
      simp only
      split_ifs
      · rfl
      · exact bind_congr' _ fun m _ => refSurface_congr w rt fuel ih i m ray' rng

/-- **C57 (partial), depth.** No ray deeper than `max_depth + 1` is ever traced: asserting it at the start of every recursive call changes nothing. (Missing: specular bounces need not count, so the recursion itself is
not bounded, `C57_violation_mirrors`.) -/
theorem C57_depth_bounded_partial (w : World) (rt : RayTracer) (fuel : Nat) (rng : Rng) (rays : List TRay) (ray : TRay) (hs : rt.maxDepth < rays.length) (h : ray.depth ≤ rt.maxDepth + 1) :
    outcome (traceRayAsserting w rt (rt.maxDepth + 1) fuel ⟨rng, rays⟩ ray) = outcome (traceRay w rt fuel ⟨rng, rays⟩ ray) := by
  rw [C75_is_reference_tracer w rt fuel rng rays ray hs, outcome_of_agrees (asserting_refines w rt (rt.maxDepth + 1) fuel ⟨rng, rays⟩ ray hs)]
  exact asserting_eq w rt fuel rng ray h

/-! ### C62: lights and sky seen directly -/

/-- The material of the side of triangle `j` that faces against direction `d`. -/
noncomputable def Scene.facingMaterial (s : Scene ℝ) (j : Nat) (tri : Tri ℝ) (d : Vec3 ℝ) : Option (Material ℝ) :=
  (if Dot (geometricNormal tri) d < 0 then s.front[j]? else s.back[j]?).bind fun k => s.materials[k]?

/-- **C62, lights.** If the ray goes through some triangle in range, and every triangle that can be the first one it meets shows it a light of colour `c`, then `trace_ray` returns exactly `c`, whatever the depth of the ray, the
settings, the random numbers and the scratch memory, and uses no random number. -/
theorem C62_lights_seen_directly (w : World) (s : Scene ℝ) (hR : w.Renders s) (ray : TRay) (hd : Norm ray.geometry.direction = 1) (c : Spectrum ℝ)
    (hhit : ∃ tri ∈ s.triangles, ∃ d2, VisibleHit ray.geometry tri d2 ∧ InRange d2)
    (hfirst : ∀ (j : Nat) tri t p u v, s.triangles[j]? = some tri → TolerantHit ray.geometry tri t p u v →
      (∀ tri' ∈ s.triangles, ∀ d2, VisibleHit ray.geometry tri' d2 → 1 / 10 ^ 7 < d2 → distSq p ray.geometry.origin ≤ d2) →
      s.facingMaterial j tri ray.geometry.direction = some (.light c))
    (rt : RayTracer) (fuel : Nat) (st : TState) :
    ∃ pdf ray', traceRay w rt (fuel + 1) st ray = .ok ((c, pdf), ray', st) := by
  rcases hR.cast_cases ray with ⟨_, hno⟩ | ⟨i, tri, b, j, hc, hj, hb, hin, ht, hf, hbk, hn, hnear⟩
  · obtain ⟨tri, htri, d2, hv, hi⟩ := hhit
    exact absurd hi (hno tri htri d2 hv)
  · have hmat := hfirst j tri _ _ _ _ hj (baricentric_sound ray.geometry tri b hb).1 hnear
    obtain ⟨_, _, hside, hneg, hpos, _⟩ := recorded_spec tri ray.geometry b hd hb
    have hlen : 0 < (geometricNormal tri).length := Vec3.length_pos hpos
    have hm : w.materialAt (recordedInteraction tri ray.geometry b).shading.side i = .ok (.light c) ∧ (recordedInteraction tri ray.geometry b).shading.side ≠ .NonApplicable := by
      rcases hside with ⟨hs, hn'⟩ | ⟨hs, hn'⟩
      · rw [hs]
        refine ⟨?_, by decide⟩
        have hlt : Dot (geometricNormal tri) ray.geometry.direction < 0 := by
          rw [hn', ← Vec3.dot_eq, Vec3.normalized, Vec3.dot_scale] at hneg
          rw [← Vec3.dot_eq]
          have : 0 < 1 / (geometricNormal tri).length := by positivity
          by_contra h0
          push Not at h0
          have := mul_nonneg this.le h0
          linarith
        unfold Scene.facingMaterial at hmat
        rw [if_pos hlt] at hmat
        unfold World.materialAt
        simp only
        rw [hf, hR.same.1]
        cases hk : s.front[j]? with
        | none => rw [hk] at hmat; simp at hmat
        | some k => rw [hk, Option.bind_some] at hmat; simp only [Res.ofOption_some, Res.bind_ok, hmat]
      · rw [hs]
        refine ⟨?_, by decide⟩
        have hlt : ¬ Dot (geometricNormal tri) ray.geometry.direction < 0 := by
          rw [hn', ← Vec3.dot_eq, Vec3.dot_neg', Vec3.normalized, Vec3.dot_scale] at hneg
          rw [← Vec3.dot_eq]
          have : 0 < 1 / (geometricNormal tri).length := by positivity
          intro h0
          nlinarith
        unfold Scene.facingMaterial at hmat
        rw [if_neg hlt] at hmat
        unfold World.materialAt
        simp only
        rw [hbk, hR.same.1]
        cases hk : s.back[j]? with
        | none => rw [hk] at hmat; simp at hmat
        | some k => rw [hk, Option.bind_some] at hmat; simp only [Res.ofOption_some, Res.bind_ok, hmat]
    unfold traceRay traceStep
    rw [hc, Res.bind_ok]
    simp only [hm.2, if_false, hm.1, Res.bind_ok]
    unfold surfaceStep
    simp only [Material.emitsLight, if_true, ht, Res.ofOption_some, Res.bind_ok, Material.colour]
    exact ⟨_, _, rfl⟩

/-- **C62, sky.** A ray that goes through no triangle (not even its tolerance band) returns the sky's colour times its brightness in the ray's direction, or black without a sky; it uses no random number. -/
theorem C62_sky_seen_directly (w : World) (s : Scene ℝ) (hR : w.Renders s) (ray : TRay)
    (hno : ∀ tri ∈ s.triangles, ∀ t p u v, TolerantHit ray.geometry tri t p u v → ¬ InRange (distSq p ray.geometry.origin)) (rt : RayTracer) (fuel : Nat) (st : TState) :
    ∃ pdf ray', traceRay w rt (fuel + 1) st ray =
      .ok ((match w.sky with | some sky => (w.skyColour.getD (Spectrum.gray 1)).scale (sky ray.geometry.direction) | none => Spectrum.black, pdf), ray', st) := by
  unfold traceRay traceStep
  rw [hR.cast_none ray hno, Res.bind_ok]
  simp only [missStep]
  cases w.sky with
  | none => exact ⟨_, _, rfl⟩
  | some sky => exact ⟨_, _, rfl⟩

/-! ### C77: the sky does not light diffuse surfaces -/

/-- Equal, or both light with positive probability (which the caller discards) and the same generator. -/
def SkyRel (a b : Res ((Spectrum ℝ × ℝ) × Rng)) : Prop :=
  a = b ∨ ∃ x y p q rng, a = .ok ((x, p), rng) ∧ b = .ok ((y, q), rng) ∧ 0 < p ∧ 0 < q

theorem refAmbient_sky {s s' : RefTrace} (hs : ∀ rng ray, SkyRel (s rng ray) (s' rng ray)) (m : Material ℝ) (arriving : TRay) (fuel n : Nat) (rng : Rng) :
    refAmbient s m arriving fuel n rng = refAmbient s' m arriving fuel n rng := by
  induction fuel generalizing n rng with
  | zero => rfl
  | succ fuel ih =>
    cases n with
    | zero => rfl
    | succ n =>
      unfold refAmbient
      refine bind_congr' _ fun x _ => ?_
      obtain ⟨⟨bsdf, pdf⟩, out, r⟩ := x
      simp only
      rcases hs r { arriving with geometry := out.geometry, depth := arriving.depth + 1, value := arriving.value * (bsdf.radiance * |arriving.interaction.shading.normal.dot out.geometry.direction| / pdf) } with he | ⟨x, y, p, q, r', h1, h2, hp, hq⟩
      · rw [he]
        refine bind_congr' _ fun y _ => ?_
        obtain ⟨⟨li, lp⟩, r'⟩ := y
        simp only
        rw [ih (n + 1), ih n]
      · rw [h1, h2]
        simp only [Res.bind_ok, gt_iff_lt, hp, hq, if_true]
        exact ih _ _

/-- The world under another sky. -/
def World.withSky (w : World) (sky : Vec3 ℝ → ℝ) (colour : Option (Spectrum ℝ)) : World := { w with sky := some sky, skyColour := colour }

theorem refSurface_sky (w : World) (hm : ∀ m ∈ w.scene.materials, m.specularOnly = false) (rt : RayTracer) (fuel : Nat) (sky sky' : Vec3 ℝ → ℝ) (c c' : Option (Spectrum ℝ))
    {s s' : RefTrace} (hs : ∀ rng ray, SkyRel (s rng ray) (s' rng ray)) (i : Nat) (m : Material ℝ) (hmm : m ∈ w.scene.materials) (ray : TRay) (rng : Rng) :
    refSurface (w.withSky sky c) rt fuel s i m ray rng = refSurface (w.withSky sky' c') rt fuel s' i m ray rng := by
  unfold refSurface
  simp only [hm m hmm, Bool.false_eq_true, if_false]
  split_ifs with h1 h2
  · rfl
  · rfl
  · refine bind_congr' _ fun x _ => ?_
    obtain ⟨n0, n1, n2⟩ := x
    simp only
    have : ∀ (sky : Vec3 ℝ → ℝ) c f m r rng n, (w.withSky sky c).localIllumination f m r rng n = w.localIllumination f m r rng n := by
      intro sky c f m r rng n
      unfold World.localIllumination World.sampleLightArray
      have hl : ∀ (l : Object ℝ) k i acc rng pt nn e1 e2, (w.withSky sky c).lightLoop m r n pt nn e1 e2 l k i acc rng = w.lightLoop m r n pt nn e1 e2 l k i acc rng := by
        intro l k
        induction k with
        | zero => intros; rfl
        | succ k ih =>
          intro i acc rng pt nn e1 e2
          unfold World.lightLoop
          split_ifs
          · refine bind_congr' _ fun x _ => ?_
            obtain ⟨d, r1⟩ := x
            simp only
            refine bind_congr' _ fun y _ => ?_
            cases y with
            | none => exact ih _ _ _ _ _ _ _
            | some cp =>
              simp only
              split_ifs
              · exact ih _ _ _ _ _ _ _
              · exact bind_congr' _ fun t _ => ih _ _ _ _ _ _ _
          · rfl
      have hls : ∀ (ls : List (Object ℝ)) acc rng pt nn e1 e2, (w.withSky sky c).lightsLoop f m r n pt nn e1 e2 ls acc rng = w.lightsLoop f m r n pt nn e1 e2 ls acc rng := by
        intro ls
        induction ls with
        | nil => intros; rfl
        | cons l ls ih =>
          intro acc rng pt nn e1 e2
          unfold World.lightsLoop
          rw [hl]
          refine bind_congr' _ fun x _ => ?_
          obtain ⟨a, r1⟩ := x
          exact ih _ _ _ _ _ _
      simp only
      rw [hls]
      refine bind_congr' _ fun x _ => ?_
      obtain ⟨a, r1⟩ := x
      simp only
      rw [hls]
      rfl
    rw [this, this]
    refine bind_congr' _ fun y _ => ?_
    obtain ⟨d, r⟩ := y
    simp only
    split_ifs
    · rfl
    · rw [refAmbient_sky hs]

theorem refTrace_sky (w : World) (hm : ∀ m ∈ w.scene.materials, m.specularOnly = false) (rt : RayTracer) (fuel : Nat) (sky sky' : Vec3 ℝ → ℝ) (c c' : Option (Spectrum ℝ)) (rng : Rng) (ray : TRay) :
    SkyRel (refTrace (w.withSky sky c) rt fuel rng ray) (refTrace (w.withSky sky' c') rt fuel rng ray) ∧
    (w.cast ray ≠ .ok none → refTrace (w.withSky sky c) rt fuel rng ray = refTrace (w.withSky sky' c') rt fuel rng ray) := by
  induction fuel generalizing rng ray with
  | zero => exact ⟨Or.inl rfl, fun _ => rfl⟩
  | succ fuel ih =>
    have key : w.cast ray ≠ .ok none → refTrace (w.withSky sky c) rt (fuel + 1) rng ray = refTrace (w.withSky sky' c') rt (fuel + 1) rng ray := by
      intro hne
      unfold refTrace
      change (w.cast ray).bind _ = (w.cast ray).bind _
      refine bind_congr' _ fun hit hc => ?_
      cases hit with
      | none => exact absurd hc hne
      | some p =>
        obtain ⟨i, ray'⟩ := p
        simp only
        split_ifs
        · rfl
        · change (w.materialAt _ _).bind _ = (w.materialAt _ _).bind _
          refine bind_congr' _ fun m hmat => ?_
          refine refSurface_sky w hm rt fuel sky sky' c c' (fun r t => (ih r t).1) i m ?_ ray' rng
          unfold World.materialAt at hmat
          cases hsd : ray'.interaction.shading.side with
          | Front =>
            rw [hsd] at hmat
            cases hk : w.scene.front[i]? with
            | none => rw [hk] at hmat; simp at hmat
            | some k =>
              rw [hk] at hmat
              simp only [Res.ofOption_some, Res.bind_ok] at hmat
              cases hkm : w.scene.materials[k]? with
              | none => rw [hkm] at hmat; simp at hmat
              | some m' => rw [hkm] at hmat; injection hmat with hmat; rw [← hmat]; exact List.mem_of_getElem? hkm
          | Back =>
            rw [hsd] at hmat
            cases hk : w.scene.back[i]? with
            | none => rw [hk] at hmat; simp at hmat
            | some k =>
              rw [hk] at hmat
              simp only [Res.ofOption_some, Res.bind_ok] at hmat
              cases hkm : w.scene.materials[k]? with
              | none => rw [hkm] at hmat; simp at hmat
              | some m' => rw [hkm] at hmat; injection hmat with hmat; rw [← hmat]; exact List.mem_of_getElem? hkm
          | NonApplicable => rw [hsd] at hmat; simp at hmat
    refine ⟨?_, key⟩
    by_cases hne : w.cast ray = .ok none
    · right
      unfold refTrace
      change ∃ x y p q rng', (w.cast ray).bind _ = _ ∧ (w.cast ray).bind _ = _ ∧ _
      rw [hne]
      have := Real.pi_pos
      exact ⟨_, _, 1 / 2 / Real.pi, 1 / 2 / Real.pi, rng, rfl, rfl, by positivity, by positivity⟩
    · exact Or.inl (key hne)

/-- **C77, violation.** In a scene without mirrors, glass and dielectrics the sky lights nothing: for every ray that hits a triangle, `trace_ray` gives the same answer under any two skies, with any random numbers. (Rays from diffuse
surfaces that reach the sky come back with positive probability, and `get_global_illumination` discards them as if they had met a light that is sampled separately, but the sky is not.) -/
theorem C77_violation_sky_lights_nothing (w : World) (hm : ∀ m ∈ w.scene.materials, m.specularOnly = false) (rt : RayTracer) (fuel : Nat) (sky sky' : Vec3 ℝ → ℝ) (c c' : Option (Spectrum ℝ)) (rng : Rng) (rays : List TRay) (ray : TRay)
    (hr : rt.maxDepth < rays.length) (hit : Nat × TRay) (hhit : w.cast ray = .ok (some hit)) :
    outcome (traceRay (w.withSky sky c) rt fuel ⟨rng, rays⟩ ray) = outcome (traceRay (w.withSky sky' c') rt fuel ⟨rng, rays⟩ ray) := by
  rw [C75_is_reference_tracer _ rt fuel rng rays ray hr, C75_is_reference_tracer _ rt fuel rng rays ray hr]
  exact (refTrace_sky w hm rt fuel sky sky' c c' rng ray).2 (by rw [hhit]; simp)

end Rendering
