import Verif.Lemmas.Shows
import Verif.Props.Tracer

/-!
# C57, C60: scenes in which tracing goes wrong
-/

set_option linter.unusedSectionVars false
namespace Rendering

open Classical

/-- A diffuse material without specularity. -/
def Material.Matt (m : Material ℝ) (c : Spectrum ℝ) : Prop := ∃ r, m = .plastic c 0 r ∨ m = .metal c 0 r

theorem Material.Matt.notLight {m : Material ℝ} {c : Spectrum ℝ} (h : m.Matt c) : m.emitsDirectLight = false ∧ m.specularOnly = false := by
  obtain ⟨r, rfl | rfl⟩ := h <;> exact ⟨rfl, rfl⟩

/-- Sampling a matt material (`C74_diffuse_branch_partial`). -/
theorem Material.Matt.sample {m : Material ℝ} {c : Spectrum ℝ} (h : m.Matt c) (fuel : Nat) (n e1 e2 pt : Vec3 ℝ) (hf : Frame e1 e2 n) (ray : TRay) (rng : Rng) (hv : rng.Valid) :
    ∃ bsdf pdf g, m.sampleBsdf fuel n e1 e2 pt ray rng = .ok ((bsdf, pdf), { ray with geometry := ⟨pt + n.scale (1 / 10 ^ 5), g⟩ }, fun k => rng (k + 3)) ∧
      Norm g = 1 ∧ 0 < Dot g n ∧ 0 < pdf ∧ (bsdf.scale |Dot n g|).divBy pdf = c := by
  obtain ⟨r, hm⟩ := h
  obtain ⟨bsdf, pdf, ray', rng', h1, h2, h3, h4, h5, h6, h7, h8, h9⟩ := C74_diffuse_branch_partial fuel c 0 r n e1 e2 pt hf ray rng hv (hv 0).1 m (by rcases hm with rfl | rfl <;> simp)
  refine ⟨bsdf, pdf, ray'.geometry.direction, ?_, h2, h3, h6, ?_⟩
  · rw [h1, show rng' = fun k => rng (k + 3) from funext h9, ← h4]
    congr 3
  · rw [h7]; ext <;> simp [Spectrum.scale]

theorem Rng.Valid.shift {rng : Rng} (h : rng.Valid) (k : Nat) : Rng.Valid (fun n => rng (n + k)) := fun n => h (n + k)

/-! ### C60 -/

/-- **C60, violation.** A single matt triangle under a sky: tracing a camera ray that hits it never ends, whatever the random numbers. (All ambient samples reach the sky, and samples that reach the sky are not counted.) -/
theorem C60_violation_never_ends (w : World) (m : Material ℝ) (c : Spectrum ℝ) (hm : m.Matt c) (tri : Tri ℝ) (hw : w.Shows m [tri]) (sky : Vec3 ℝ → ℝ) (hsky : w.sky = some sky)
    (rt : RayTracer) (hD : 0 < rt.maxDepth) (hn : 0 < rt.nAmbientSamples) (ray : TRay) (hd : Norm ray.geometry.direction = 1) (hdep : ray.depth = 0)
    (d2 : ℝ) (hv : VisibleHit ray.geometry tri d2) (hin : InRange d2) (rng : Rng) (hr : rng.Valid) (rays : List TRay) (hrays : rays ≠ []) (fuel : Nat) :
    traceRay w rt fuel ⟨rng, rays⟩ ray = .diverge := by
  cases fuel with
  | zero => rfl
  | succ fuel =>
    have hR := hw.renders hm.notLight.1 (by norm_num)
    obtain ⟨tri', htri, b, hb, _, _, _, hstep⟩ := hw.step hm.notLight.1 (by norm_num) ray hd ⟨tri, by simp, d2, hv, hin⟩
    rw [List.mem_singleton] at htri
    subst htri
    have hloop : ∀ F k count acc st, count < rt.nAmbientSamples → st.rng.Valid → st.rays[(0 : Nat)]? = some (ray.arrived tri' b) →
        globalLoop (traceRay w rt F) m rt.nAmbientSamples 0 (ray.arrived tri' b).interaction.point (ray.arrived tri' b).interaction.shading.normal (ray.arrived tri' b).interaction.shading.dpdu
          (ray.arrived tri' b).interaction.shading.dpdv k count acc (ray.arrived tri' b) st = .diverge := by
      intro F k
      induction k with
      | zero => intros; rfl
      | succ k ih =>
        intro count acc st hcount hvalid hsave
        unfold globalLoop
        rw [if_pos hcount]
        obtain ⟨_, hframe, _⟩ := recorded_spec tri' ray.geometry b hd hb
        obtain ⟨bsdf, pdf, g, hs, hg1, hg2, _⟩ := hm.sample k (ray.arrived tri' b).interaction.shading.normal (ray.arrived tri' b).interaction.shading.dpdu (ray.arrived tri' b).interaction.shading.dpdv
          (ray.arrived tri' b).interaction.point hframe (ray.arrived tri' b) st.rng hvalid
        rw [hs, Res.bind_ok]
        simp only
        cases F with
        | zero => rfl
        | succ F =>
          have hmiss : ∀ r : TRay, r.geometry = ⟨(ray.arrived tri' b).interaction.point + (ray.arrived tri' b).interaction.shading.normal.scale (1 / 10 ^ 5), g⟩ → w.cast r = .ok none := by
            intro r hr
            refine hR.cast_none r ?_
            intro t ht tt p u v hth
            simp only [List.mem_singleton] at ht
            subst ht
            rw [hr] at hth
            exact absurd hth (leaves t ray.geometry b hd hb g hg2.le tt p u v)
          have hself : ∀ (s' : TState) (r : TRay), r.geometry = ⟨(ray.arrived tri' b).interaction.point + (ray.arrived tri' b).interaction.shading.normal.scale (1 / 10 ^ 5), g⟩ →
              traceRay w rt (F + 1) s' r = .ok (((w.skyColour.getD (Spectrum.gray 1)).scale (sky r.geometry.direction), 1 / 2 / Real.pi), { r with colour := r.colour * (w.skyColour.getD (Spectrum.gray 1)).scale (sky r.geometry.direction) }, s') := by
            intro s' r hr
            rw [traceRay, traceStep]
            simp only [hmiss r hr, Res.bind_ok, missStep, hsky]
          rw [hself]
          swap
          · rfl
          simp only [Res.bind_ok, hsave, Res.ofOption_some]
          have hpi : (0 : ℝ) < 1 / 2 / Real.pi := by have := Real.pi_pos; positivity
          rw [if_pos hpi]
          exact ih count acc _ hcount (hvalid.shift 3) hsave
    rw [traceRay, hstep]
    have hns : m.specularOnly = false := hm.notLight.2
    have h1 : ¬ ray.depth > rt.maxDepth := by omega
    simp only [h1, if_false, hns, Bool.false_eq_true]
    have hna : (ray.arrived tri' b).getNAmbientSamples rt.nAmbientSamples rt.maxDepth rt.limitWeight rng = (rt.nAmbientSamples, ray.arrived tri' b, rng) := by
      unfold TRay.getNAmbientSamples
      rw [if_neg (by omega), if_pos (by exact hdep)]
    simp only [hna]
    unfold globalIllumination
    have hdep' : (ray.arrived tri' b).depth = 0 := hdep
    have hlen : 0 < rays.length := List.length_pos_of_ne_nil hrays
    rw [if_neg (by omega)]
    simp only [TRay.getTriad, hdep', hlen, if_true]
    rw [hloop fuel fuel 0 _ _ hn hr (by simp [List.getElem?_set, hlen])]
    rfl

/-! ### Two parallel planes -/

/-- A triangle of the plane `z = h` around the z-axis. -/
def plane (h : ℝ) : Tri ℝ := ⟨⟨-1, -1, h⟩, ⟨2, -1, h⟩, ⟨-1, 2, h⟩⟩

theorem plane_normal (h : ℝ) : unitNormal (plane h) = ⟨0, 0, 1⟩ := by
  have e : geometricNormal (plane h) = ⟨0, 0, 9⟩ := by
    unfold geometricNormal Cross plane
    ext <;> simp <;> norm_num
  have hl : Norm (⟨0, 0, 9⟩ : Vec3 ℝ) = 9 := by
    unfold Norm
    rw [show ((0 : ℝ) ^ 2 + 0 ^ 2 + 9 ^ 2) = 9 ^ 2 by norm_num, Real.sqrt_sq (by norm_num)]
  unfold unitNormal
  rw [e, normalized_eq, hl]
  ext <;> simp

theorem plane_visible (h z t dz : ℝ) (ht : 1 / 10 ^ 5 < t) (hz : z + dz * t = h) (hdz : |dz| = 1) : VisibleHit ⟨⟨0, 0, z⟩, ⟨0, 0, dz⟩⟩ (plane h) (t ^ 2) := by
  refine ⟨t, ⟨0, 0, h⟩, ⟨?_, 1 / 3, 1 / 3, by norm_num, by norm_num, by norm_num, ?_⟩, ht, ?_, ?_⟩
  · ext <;> simp; linarith
  · ext <;> simp [plane] <;> ring
  · have : tripleProduct ⟨⟨0, 0, z⟩, ⟨0, 0, dz⟩⟩ (plane h) = -9 * dz := by
      simp only [tripleProduct, plane, Vec3.sub_x, Vec3.sub_y, Vec3.sub_z]; ring
    rw [this, abs_mul, hdz]; norm_num
  · simp only [distSq]
    have : h - z = dz * t := by linarith
    rw [this, mul_pow, ← sq_abs dz, hdz]; ring

/-- The ray shuttles between the planes `z = 0` and `z = 1` along the z-axis: it will arrive at `q`, where the surface faces it with normal `n`. -/
def Shuttle (g : Ray3 ℝ) (q n : Vec3 ℝ) : Prop :=
  (∃ h, 0 < h ∧ h ≤ 1 / 2 ∧ g = ⟨⟨0, 0, h⟩, ⟨0, 0, 1⟩⟩ ∧ q = ⟨0, 0, 1⟩ ∧ n = ⟨0, 0, -1⟩) ∨
  (∃ h, 1 / 2 ≤ h ∧ h < 1 ∧ g = ⟨⟨0, 0, h⟩, ⟨0, 0, -1⟩⟩ ∧ q = ⟨0, 0, 0⟩ ∧ n = ⟨0, 0, 1⟩)

theorem Shuttle.back {g : Ray3 ℝ} {q n : Vec3 ℝ} (h : Shuttle g q n) : ∃ q' n', Shuttle ⟨q + n.scale (1 / 10 ^ 5), n⟩ q' n' := by
  rcases h with ⟨h, h1, h2, rfl, rfl, rfl⟩ | ⟨h, h1, h2, rfl, rfl, rfl⟩
  · refine ⟨_, _, Or.inr ⟨1 - 1 / 10 ^ 5, by norm_num, by norm_num, ?_, rfl, rfl⟩⟩
    congr 1
    ext <;> simp <;> norm_num
  · refine ⟨_, _, Or.inl ⟨1 / 10 ^ 5, by norm_num, by norm_num, ?_, rfl, rfl⟩⟩
    congr 1
    ext <;> simp

theorem Shuttle.dir {g : Ray3 ℝ} {q n : Vec3 ℝ} (h : Shuttle g q n) : Norm g.direction = 1 ∧ Norm n = 1 ∧ g.direction = n.scale (-1) := by
  rcases h with ⟨h, h1, h2, rfl, rfl, rfl⟩ | ⟨h, h1, h2, rfl, rfl, rfl⟩
  · exact ⟨Norm_eq_one (by norm_num [Dot]), Norm_eq_one (by norm_num [Dot]), by ext <;> simp⟩
  · exact ⟨Norm_eq_one (by norm_num [Dot]), Norm_eq_one (by norm_num [Dot]), by ext <;> simp⟩

theorem floatMax_gt_one : (1 : ℝ) < floatMax ℝ := by
  unfold floatMax
  have h : (1 : ℝ) ≤ 2 ^ 971 := one_le_pow₀ (by norm_num)
  generalize (2 : ℝ) ^ 971 = x at h ⊢
  norm_num
  linarith

/-- In the world of the two planes a shuttling ray arrives where it should. -/
theorem Shuttle.arrives {w : World} {m : Material ℝ} (hw : w.Shows m [plane 0, plane 1]) (hm : m.emitsDirectLight = false) (ray : TRay) (q n : Vec3 ℝ) (h : Shuttle ray.geometry q n) :
    ∃ tri b, triangleIntersect tri ray.geometry = some b ∧ (ray.arrived tri b).interaction.point = q ∧ (ray.arrived tri b).interaction.shading.normal = n ∧
      Frame (ray.arrived tri b).interaction.shading.dpdu (ray.arrived tri b).interaction.shading.dpdv n ∧
      (∃ i, w.cast ray = .ok (some (i, ray.arrived tri b)) ∧ w.materialAt (ray.arrived tri b).interaction.shading.side i = .ok m ∧ w.scene.normals[i]? = some (unitNormal tri, unitNormal tri, unitNormal tri)) ∧
      ∀ rt fuel self st, traceStep w rt fuel self st ray =
        (if ray.depth > rt.maxDepth then .ok ((Spectrum.black, 0), ray.arrived tri b, st)
        else if m.specularOnly then
          (m.getPossiblePaths (ray.arrived tri b).interaction.shading.normal (ray.arrived tri b).interaction.point (ray.arrived tri b)).bind fun paths =>
            (specularLoop self rt.countSpecularBounce paths.toList (ray.arrived tri b) Spectrum.black st).bind fun (li, ray, st) =>
              .ok ((li, 0), { ray with colour := ray.colour * li }, st)
        else
          let (nAmbient, ray, rng) := (ray.arrived tri b).getNAmbientSamples rt.nAmbientSamples rt.maxDepth rt.limitWeight st.rng
          (globalIllumination self fuel m nAmbient ray { st with rng := rng }).bind fun (global, ray, st) => .ok ((global, 0), ray, st) : Res ((Spectrum ℝ × ℝ) × TRay × TState)) := by
  have hd := h.dir.1
  have hvis : ∃ tri ∈ [plane 0, plane 1], ∃ d2, VisibleHit ray.geometry tri d2 ∧ InRange d2 := by
    rcases h with ⟨h, h1, h2, hg, rfl, rfl⟩ | ⟨h, h1, h2, hg, rfl, rfl⟩
    · refine ⟨plane 1, by simp, (1 - h) ^ 2, ?_, ?_, ?_⟩
      · rw [hg]; exact plane_visible 1 h (1 - h) 1 (by linarith) (by ring) (by norm_num)
      · nlinarith
      · refine lt_trans ?_ floatMax_gt_one; nlinarith
    · refine ⟨plane 0, by simp, h ^ 2, ?_, ?_, ?_⟩
      · rw [hg]; exact plane_visible 0 h h (-1) (by linarith) (by ring) (by norm_num)
      · nlinarith
      · refine lt_trans ?_ floatMax_gt_one; nlinarith
  obtain ⟨tri, htri, b, hb, _, _, hcast, hstep⟩ := hw.step hm (by norm_num) ray hd hvis
  refine ⟨tri, b, hb, ?_, ?_, ?_, hcast, hstep⟩
  all_goals obtain ⟨hp, hf, hside, hneg, _⟩ := recorded_spec tri ray.geometry b hd hb
  all_goals obtain ⟨⟨hp1, hp2, hp3, _⟩, _⟩ := baricentric_sound ray.geometry tri b hb
  · change (recordedInteraction tri ray.geometry b).point = q
    rw [hp]
    rcases h with ⟨h, h1, h2, hg, rfl, rfl⟩ | ⟨h, h1, h2, hg, rfl, rfl⟩
    · have htri1 : tri = plane 1 := by
        simp only [List.mem_cons, List.not_mem_nil, or_false] at htri
        rcases htri with rfl | rfl
        · exfalso
          have hb' := (baricentric_sound ray.geometry _ b hb).1
          rw [hg] at hb'
          refine not_hit_leaving (plane 0) ⟨0, 0, 1⟩ _ _ (by simp [Dot, plane]) (by simp [Dot, plane]) ?_ (by simp [Dot]) _ _ _ _ hb'
          simp [Dot, plane, h1]
        · rfl
      subst htri1
      have hz := congrArg Vec3.z hp3
      simp [plane] at hz
      rw [hg] at hp1
      rw [hp1] at hz ⊢
      simp at hz
      ext <;> simp
      nlinarith
    · have htri1 : tri = plane 0 := by
        simp only [List.mem_cons, List.not_mem_nil, or_false] at htri
        rcases htri with rfl | rfl
        · rfl
        · exfalso
          have hb' := (baricentric_sound ray.geometry _ b hb).1
          rw [hg] at hb'
          refine not_hit_leaving (plane 1) ⟨0, 0, -1⟩ _ _ (by simp [Dot, plane]) (by simp [Dot, plane]) ?_ (by simp [Dot]) _ _ _ _ hb'
          simp [Dot, plane, h2]
      subst htri1
      have hz := congrArg Vec3.z hp3
      simp [plane] at hz
      rw [hg] at hp1
      rw [hp1] at hz ⊢
      simp at hz
      ext <;> simp
      nlinarith
  all_goals
    have hn : (recordedInteraction tri ray.geometry b).shading.normal = n := by
      have hu : unitNormal tri = ⟨0, 0, 1⟩ := by
        simp only [List.mem_cons, List.not_mem_nil, or_false] at htri
        rcases htri with rfl | rfl <;> exact plane_normal _
      change _ = _ at hu
      unfold unitNormal at hu
      rw [hu] at hside
      rcases h with ⟨h, h1, h2, hg, rfl, rfl⟩ | ⟨h, h1, h2, hg, rfl, rfl⟩
      · rcases hside with ⟨_, hs⟩ | ⟨_, hs⟩
        · rw [hs, hg] at hneg; simp [Dot] at hneg; linarith
        · rw [hs]; ext <;> simp
      · rcases hside with ⟨_, hs⟩ | ⟨_, hs⟩
        · rw [hs]
        · rw [hs, hg] at hneg; simp [Dot] at hneg; linarith
  · exact hn
  · rw [← hn]; exact hf

/-- In the world of the two planes a shuttling ray arrives where it should. -/
theorem Shuttle.step {w : World} {m : Material ℝ} (hw : w.Shows m [plane 0, plane 1]) (hm : m.emitsDirectLight = false) (ray : TRay) (q n : Vec3 ℝ) (h : Shuttle ray.geometry q n) :
    ∃ tri b, triangleIntersect tri ray.geometry = some b ∧ (ray.arrived tri b).interaction.point = q ∧ (ray.arrived tri b).interaction.shading.normal = n ∧
      Frame (ray.arrived tri b).interaction.shading.dpdu (ray.arrived tri b).interaction.shading.dpdv n ∧
      ∀ rt fuel self st, traceStep w rt fuel self st ray =
        (if ray.depth > rt.maxDepth then .ok ((Spectrum.black, 0), ray.arrived tri b, st)
        else if m.specularOnly then
          (m.getPossiblePaths (ray.arrived tri b).interaction.shading.normal (ray.arrived tri b).interaction.point (ray.arrived tri b)).bind fun paths =>
            (specularLoop self rt.countSpecularBounce paths.toList (ray.arrived tri b) Spectrum.black st).bind fun (li, ray, st) =>
              .ok ((li, 0), { ray with colour := ray.colour * li }, st)
        else
          let (nAmbient, ray, rng) := (ray.arrived tri b).getNAmbientSamples rt.nAmbientSamples rt.maxDepth rt.limitWeight st.rng
          (globalIllumination self fuel m nAmbient ray { st with rng := rng }).bind fun (global, ray, st) => .ok ((global, 0), ray, st) : Res ((Spectrum ℝ × ℝ) × TRay × TState)) := by
  obtain ⟨tri, b, h1, h2, h3, h4, _, h5⟩ := Shuttle.arrives hw hm ray q n h
  exact ⟨tri, b, h1, h2, h3, h4, h5⟩

/-! ### C57 -/

/-- **C57, violation.** Two facing mirrors: with draws that are never below `count_specular_bounce` (any setting below 1 admits some) the recursion never ends, although the depth of the ray stays 0. -/
theorem C57_violation_mirrors (w : World) (c : Spectrum ℝ) (hw : w.Shows (.mirror c) [plane 0, plane 1]) (rt : RayTracer) (rng : Rng) (hq : ∀ k, rt.countSpecularBounce ≤ rng k) (ray : TRay) (q n : Vec3 ℝ)
    (h : Shuttle ray.geometry q n) (hdep : ray.depth ≤ rt.maxDepth) (rays : List TRay) (fuel : Nat) : traceRay w rt fuel ⟨rng, rays⟩ ray = .diverge := by
  induction fuel generalizing rng ray q n with
  | zero => rfl
  | succ fuel ih =>
    obtain ⟨tri, b, hb, hp, hn, _, hstep⟩ := h.step hw rfl
    rw [traceRay, hstep]
    have h1 : ¬ ray.depth > rt.maxDepth := by omega
    simp only [h1, if_false, Material.specularOnly, if_true, Material.getPossiblePaths, Res.bind_ok, Paths.toList, mirrorPaths, Option.toList, List.append_nil, specularLoop, Rng.gen]
    have hq0 : ¬ rng 0 < rt.countSpecularBounce := not_lt.2 (hq 0)
    simp only [hq0, if_false]
    obtain ⟨q', n', hback⟩ := h.back
    have hm : mirrorDirection ray.geometry.direction n = n := by
      rw [mirror_raw h.dir.2.1 h.dir.1, h.dir.2.2]
      have h1 := Dot_self_of_norm h.dir.2.1
      have : Dot (n.scale (-1)) n = -1 := by rw [← Vec3.dot_eq, Vec3.dot_scale, Vec3.dot_eq, h1]; ring
      rw [this]
      ext <;> simp <;> ring
    rw [ih (fun k => rng (k + 1)) (fun k => hq (k + 1)) _ q' n']
    · rfl
    · simp only [mirrorBsdf, hn, hp]
      have hg : (ray.arrived tri b).geometry = ray.geometry := rfl
      rw [hg, hm]
      exact hback
    · exact hdep

/-- Sampling a matt material with draws that are all zero: straight away from the surface. -/
theorem Material.Matt.sample_zero {m : Material ℝ} {c : Spectrum ℝ} (h : m.Matt c) (fuel : Nat) (n e1 e2 pt : Vec3 ℝ) (hf : Frame e1 e2 n) (ray : TRay) :
    ∃ bsdf pdf, m.sampleBsdf fuel n e1 e2 pt ray (fun _ => 0) = .ok ((bsdf, pdf), { ray with geometry := ⟨pt + n.scale (1 / 10 ^ 5), n⟩ }, fun _ => 0) ∧ (bsdf.scale |Dot n n|).divBy pdf = c := by
  have hv : Rng.Valid (fun _ => 0) := fun _ => ⟨le_rfl, one_pos⟩
  have hs : (sampleCosineHemisphere (fun _ => 0)).1 = ⟨0, 0, 1⟩ := by
    unfold sampleCosineHemisphere uniformSampleHorizontalDisc Rng.gen2
    simp [clampR]
  have hw : ∀ s r, s ≤ 0 → sampleWard fuel n e1 e2 pt s r r ray (fun _ => 0) = .ok ((0, (1 - s) / Real.pi, 1 / Real.pi), { ray with geometry := ⟨pt + n.scale (1 / 10 ^ 5), n⟩ }, fun _ => 0) := by
    intro s r hs0
    unfold sampleWard
    simp only [Rng.gen]
    have h0 : ¬ (0 : ℝ) < s := not_lt.2 hs0
    simp only [h0, if_false, hs]
    have hl : localToWorld e1 e2 n 0 0 0 1 = n := by unfold localToWorld; ext <;> simp
    have hn : n.normalized = n := by rw [normalized_eq, hf.n3]; ext <;> simp
    rw [hl, hn, Vec3.dot_eq, Dot_self_of_norm hf.n3]
    rfl
  have hpi := Real.pi_ne_zero
  have hnn : Dot n n = 1 := Dot_self_of_norm hf.n3
  obtain ⟨r, rfl | rfl⟩ := h
  · refine ⟨plasticBsdf c 0 ((1 - 0) / Real.pi), 1 / Real.pi, by simp only [Material.sampleBsdf, hw 0 r le_rfl, Res.bind_ok], ?_⟩
    rw [hnn]
    ext <;> simp [plasticBsdf, Spectrum.scale, Spectrum.divBy, Spectrum.gray] <;> field_simp
  · refine ⟨metalBsdf c 0 ((1 - 0) / Real.pi), 1 / Real.pi, by simp only [Material.sampleBsdf, hw 0 r le_rfl, Res.bind_ok], ?_⟩
    rw [hnn]
    ext <;> simp [metalBsdf, Spectrum.scale, Spectrum.divBy] <;> field_simp

theorem radiance_scale (c : Spectrum ℝ) (k p : ℝ) : ((c.scale k).divBy p).radiance = c.radiance * k / p := by
  simp only [Spectrum.radiance, Spectrum.channels, Spectrum.radianceCoefficients, Spectrum.scale, Spectrum.divBy, List.zipWith_cons_cons, List.zipWith_nil_left, List.sum_cons, List.sum_nil]
  ring

/-- **C57, violation.** With `max_depth` 15 (or more) a ray bouncing between two matt planes runs out of the fifteen scratch rays: `trace_ray` panics. -/
theorem C57_violation_max_depth_15 (w : World) (m : Material ℝ) (c : Spectrum ℝ) (hm : m.Matt c) (hc : 0 ≤ c.radiance) (hw : w.Shows m [plane 0, plane 1]) (rt : RayTracer) (hD : 15 ≤ rt.maxDepth) (hn : 0 < rt.nAmbientSamples)
    (hlw : 0 ≤ rt.limitWeight) (k : Nat) (ray : TRay) (q n : Vec3 ℝ) (h : Shuttle ray.geometry q n) (hdep : ray.depth + k = 15) (hval : 0 ≤ ray.value) (rays : List TRay) (hrays : rays.length = 15) (extra : Nat) :
    traceRay w rt (k + 1 + extra) ⟨fun _ => 0, rays⟩ ray = .panic := by
  induction k generalizing ray q n rays with
  | zero =>
    obtain ⟨tri, b, hb, hp, hnn, hf, hstep⟩ := h.step hw hm.notLight.1
    rw [show 0 + 1 + extra = extra + 1 by omega, traceRay, hstep]
    have h1 : ¬ ray.depth > rt.maxDepth := by omega
    simp only [h1, if_false, hm.notLight.2, Bool.false_eq_true]
    have hna : (ray.arrived tri b).getNAmbientSamples rt.nAmbientSamples rt.maxDepth rt.limitWeight (fun _ => 0) = (1, ray.arrived tri b, fun _ => 0) := by
      unfold TRay.getNAmbientSamples
      have h0 : ¬ (ray.arrived tri b).depth = 0 := by change ¬ ray.depth = 0; omega
      have h2 : ¬ ExceedsQuotient 0 (ray.arrived tri b).value rt.limitWeight := by
        rintro (⟨_, h⟩ | ⟨_, h⟩)
        · exact absurd h (not_lt.2 (div_nonneg hval hlw))
        · exact absurd h (not_lt.2 hval)
      rw [if_neg (by omega), if_neg h0]
      simp only [Rng.gen, h2, if_false]
    simp only [hna]
    unfold globalIllumination
    have h3 : ¬ (ray.arrived tri b).depth < rays.length := by change ¬ ray.depth < _; omega
    simp only [one_ne_zero, if_false, TRay.getTriad, h3, Res.bind_panic]
  | succ k ih =>
    obtain ⟨tri, b, hb, hp, hnn, hf, hstep⟩ := h.step hw hm.notLight.1
    rw [show k + 1 + 1 + extra = (k + 1 + extra) + 1 by omega, traceRay, hstep]
    have h1 : ¬ ray.depth > rt.maxDepth := by omega
    simp only [h1, if_false, hm.notLight.2, Bool.false_eq_true]
    obtain ⟨N, hN, hna⟩ : ∃ N, 0 < N ∧ (ray.arrived tri b).getNAmbientSamples rt.nAmbientSamples rt.maxDepth rt.limitWeight (fun _ => 0) = (N, ray.arrived tri b, fun _ => 0) := by
      unfold TRay.getNAmbientSamples
      have h2 : ¬ ExceedsQuotient 0 (ray.arrived tri b).value rt.limitWeight := by
        rintro (⟨_, h⟩ | ⟨_, h⟩)
        · exact absurd h (not_lt.2 (div_nonneg hval hlw))
        · exact absurd h (not_lt.2 hval)
      by_cases h0 : (ray.arrived tri b).depth = 0
      · exact ⟨rt.nAmbientSamples, hn, by rw [if_neg (by omega), if_pos h0]⟩
      · refine ⟨1, one_pos, ?_⟩
        rw [if_neg (by omega), if_neg h0]
        simp only [Rng.gen, h2, if_false]
    simp only [hna]
    unfold globalIllumination
    have h3 : (ray.arrived tri b).depth < rays.length := by change ray.depth < _; omega
    have hN0 : ¬ N = 0 := by omega
    simp only [hN0, if_false, TRay.getTriad, h3, if_true]
    rw [show k + 1 + extra = (k + extra) + 1 by omega, globalLoop]
    simp only [hN, if_true]
    obtain ⟨bsdf, pdf, hs, hbp⟩ := hm.sample_zero (k + extra) (ray.arrived tri b).interaction.shading.normal (ray.arrived tri b).interaction.shading.dpdu (ray.arrived tri b).interaction.shading.dpdv (ray.arrived tri b).interaction.point (by rw [hnn]; exact hf) (ray.arrived tri b)
    rw [hs, Res.bind_ok]
    simp only
    obtain ⟨q', n', hback⟩ := h.back
    rw [show (k + extra) + 1 = k + 1 + extra by omega, ih _ q' n']
    · rfl
    · simp only [hnn, hp]; exact hback
    · change ray.depth + 1 + k = 15; omega
    · change 0 ≤ ray.value * (bsdf.radiance * |Dot (ray.arrived tri b).interaction.shading.normal (ray.arrived tri b).interaction.shading.normal| / pdf)
      rw [← radiance_scale, hbp]
      exact mul_nonneg hval hc
    · simp [hrays]

/-! ### Such worlds exist -/

/-- Reference environment over ℝ with the true normalisation. -/
noncomputable def realEnv : SceneEnv ℝ := { refSceneEnv ℝ with normalized := Vec3.normalized }

/-- For any triangles and any material that is not a light there is a world that shows them, under any sky. -/
theorem shows_exists (m : Material ℝ) (hm : m.emitsDirectLight = false) (tris : List (Tri ℝ)) (sky : Option (Vec3 ℝ → ℝ)) : ∃ w : World, w.Shows m tris ∧ w.sky = sky := by
  obtain ⟨r, hr⟩ := C04_build_succeeds realEnv.bvh refEnv_lawful tris (List.replicate tris.length 0) (List.replicate tris.length 0) (tris.map (fun t => (unitNormal t, unitNormal t, unitNormal t))) (by simp) (by simp) (by simp)
  obtain ⟨bvh, t', f', b', n'⟩ := r
  refine ⟨⟨{ triangles := t', normals := n', front := f', back := b', materials := [m], accelerator := some bvh }, realEnv, ⟨fun _ => none, fun _ _ => none⟩, ⟨fun _ _ => false, fun _ _ => false⟩, sky, none⟩, ⟨refEnv_lawful, refEnv_conservative, rfl, ?_⟩, rfl⟩
  change Scene.run realEnv {} (showing m tris) = _
  unfold showing
  rw [List.cons_append, Scene.run, Scene.step, Res.bind_ok, run_pushes realEnv rfl m hm tris _ _ (by simp [Scene.pushMaterial])]
  simp only [Scene.pushMaterial, List.nil_append, Scene.run, Scene.step, Scene.buildAccelerator, Option.isSome_none, Bool.false_eq_true, if_false, Scene.rebuildAccelerator, hr, Res.bind_ok]

/-- A ray straight down onto the floor from half a unit above it. -/
noncomputable def downRay : TRay := { TRay.default with geometry := ⟨⟨0, 0, 1 / 2⟩, ⟨0, 0, -1⟩⟩ }

theorem downRay_shuttle : Shuttle downRay.geometry ⟨0, 0, 0⟩ ⟨0, 0, 1⟩ := Or.inr ⟨1 / 2, le_rfl, by norm_num, rfl, rfl, rfl⟩

/-- C60: a grey floor under a uniform sky, default settings. -/
example : ∃ w : World, ∀ rng : Rng, rng.Valid → ∀ fuel, traceRay w ⟨2, 10, 70, 1 / 1000, 3 / 10⟩ fuel ⟨rng, defaultRays⟩ downRay = .diverge := by
  obtain ⟨w, hw, hsky⟩ := shows_exists (.plastic (Spectrum.gray (1 / 2)) 0 0) rfl [plane 0] (some fun _ => 1)
  refine ⟨w, fun rng hr fuel => ?_⟩
  exact C60_violation_never_ends w _ _ ⟨0, Or.inl rfl⟩ (plane 0) hw _ hsky _ (by norm_num) (by norm_num) downRay (Norm_eq_one (by norm_num [Dot, downRay])) rfl ((1 / 2) ^ 2)
    (plane_visible 0 (1 / 2) (1 / 2) (-1) (by norm_num) (by norm_num) (by norm_num)) ⟨by norm_num, lt_trans (by norm_num) floatMax_gt_one⟩ rng hr defaultRays (by simp [defaultRays]) fuel

/-- C57: mirrors, default settings, all draws 1/2. -/
example : ∃ w : World, ∀ fuel, traceRay w ⟨2, 10, 70, 1 / 1000, 3 / 10⟩ fuel ⟨fun _ => 1 / 2, defaultRays⟩ downRay = .diverge := by
  obtain ⟨w, hw, _⟩ := shows_exists (.mirror (Spectrum.gray (1 / 2))) rfl [plane 0, plane 1] none
  exact ⟨w, fun fuel => C57_violation_mirrors w _ hw _ _ (fun _ => by norm_num) downRay _ _ downRay_shuttle (by simp [downRay, TRay.default]) defaultRays fuel⟩

/-- C57: two grey planes and `max_depth = 15`. -/
example : ∃ w : World, traceRay w ⟨15, 10, 70, 1 / 1000, 3 / 10⟩ 16 ⟨fun _ => 0, defaultRays⟩ downRay = .panic := by
  obtain ⟨w, hw, _⟩ := shows_exists (.plastic (Spectrum.gray (1 / 2)) 0 0) rfl [plane 0, plane 1] none
  exact ⟨w, C57_violation_max_depth_15 w _ _ ⟨0, Or.inl rfl⟩ (by norm_num [Spectrum.radiance, Spectrum.gray, Spectrum.channels, Spectrum.radianceCoefficients]) hw _ (by norm_num) (by norm_num) (by norm_num) 15 downRay _ _ downRay_shuttle rfl
    (by simp [downRay, TRay.default]) defaultRays (by simp [defaultRays]) 0⟩

/-- C57 and C75, positive part: the same two planes with `max_depth = 14` meet the hypothesis, and so does the default `max_depth = 2`. -/
example (w : World) (fuel : Nat) (rng : Rng) (ray : TRay) : outcome (traceRay w ⟨14, 10, 70, 1 / 1000, 3 / 10⟩ fuel ⟨rng, defaultRays⟩ ray) = refTrace w ⟨14, 10, 70, 1 / 1000, 3 / 10⟩ fuel rng ray :=
  C57_scratch_suffices_partial w _ fuel rng ray (by norm_num)

end Rendering
