import Verif.Props.SpecularEnds
import Verif.Props.TracerScenes
import Verif.Props.SafetyScenes
import Mathlib.Analysis.SpecialFunctions.Trigonometric.Bounds
import Mathlib.Analysis.Real.Pi.Bounds

/-!
# C104: with probability one, tracing ends (or not)
-/

set_option linter.unusedSectionVars false
namespace Rendering

open MeasureTheory Set Classical

variable {w : World} {s : Scene ℝ}

theorem paths_shape (m : Material ℝ) (normal pt : Vec3 ℝ) (ray : TRay) (p : Paths) (h : m.getPossiblePaths normal pt ray = .ok p) :
    p.toList.length ≤ 2 ∧ (∀ c, m = .mirror c → p.toList.length = 1) ∧ ∀ x ∈ p.toList, x.1.depth = ray.depth := by
  obtain ⟨p1, p2⟩ := p
  cases m with
  | plastic c s r => cases h
  | metal c s r => cases h
  | light c => cases h
  | mirror c =>
    simp only [Material.getPossiblePaths, Res.ok.injEq, mirrorPaths, Prod.mk.injEq] at h
    obtain ⟨rfl, rfl⟩ := h
    refine ⟨by simp [Paths.toList], fun _ _ => by simp [Paths.toList], ?_⟩
    intro x hx
    simp [Paths.toList] at hx
    subst hx; rfl
  | dielectric c n =>
    simp only [Material.getPossiblePaths, Res.ok.injEq, dielectricPaths, Prod.mk.injEq] at h
    obtain ⟨rfl, h2⟩ := h
    refine ⟨?_, by simp, ?_⟩
    · cases p2 <;> simp [Paths.toList]
    · intro x hx
      simp only [Paths.toList, Option.toList_some, List.mem_append, List.mem_singleton, Option.mem_toList] at hx
      rcases hx with rfl | hx
      · rfl
      · rw [hx] at h2
        split at h2
        · cases h2; rfl
        · cases h2
  | glass c n =>
    simp only [Material.getPossiblePaths, Res.ok.injEq, glassPaths, Prod.mk.injEq] at h
    obtain ⟨rfl, h2⟩ := h
    refine ⟨?_, by simp, ?_⟩
    · cases p2 <;> simp [Paths.toList]
    · intro x hx
      simp only [Paths.toList, Option.toList_some, List.mem_append, List.mem_singleton, Option.mem_toList] at hx
      rcases hx with rfl | hx
      · rfl
      · rw [hx] at h2
        split at h2
        · cases h2; rfl
        · cases h2

/-- Branches keep the depth of the ray, there are none beyond the maximum depth, at most two in all cases and at most one at mirrors. -/
theorem branches_shape (hS : w.Solid s) (rt : RayTracer) (ray : TRay) :
    (w.branches rt ray).length ≤ 2 ∧ ((∀ m ∈ s.materials, m.specularOnly = true → ∃ c, m = .mirror c) → (w.branches rt ray).length ≤ 1) ∧ (rt.maxDepth < ray.depth → w.branches rt ray = []) ∧ ∀ p ∈ w.branches rt ray, p.depth = ray.depth := by
  have hnil : w.branches rt ray = [] → (w.branches rt ray).length ≤ 2 ∧ ((∀ m ∈ s.materials, m.specularOnly = true → ∃ c, m = .mirror c) → (w.branches rt ray).length ≤ 1) ∧ (rt.maxDepth < ray.depth → w.branches rt ray = []) ∧ ∀ p ∈ w.branches rt ray, p.depth = ray.depth := by
    intro h; rw [h]; simp
  rcases tree_cases hS rt ray with ⟨_, hb, _⟩ | ⟨i, tri, b, _, _, ⟨_, hb, _⟩ | ⟨_, m, hmem, _, n0, n1, n2, _, ⟨_, hb, _⟩ | ⟨_, _, hb, _⟩ | ⟨_, hle, hspec, _, p, hp, hb⟩ | ⟨_, _, _, hb, _⟩⟩⟩
  · exact hnil hb
  · exact hnil hb
  · exact hnil hb
  · exact hnil hb
  · obtain ⟨h1, h2, h3⟩ := paths_shape m _ _ _ p hp
    rw [hb]
    refine ⟨by rw [List.length_map]; exact h1, fun hm => ?_, fun h => by omega, ?_⟩
    · obtain ⟨c, hc⟩ := hm m hmem hspec
      rw [List.length_map, h2 c hc]
    · intro q hq
      obtain ⟨x, hx, rfl⟩ := List.mem_map.1 hq
      rw [h3 x hx]
  · exact hnil hb

/-- **C104 (partial).** Tracing ends with probability one, for every ray, when specular bounces count with positive probability (at least a half, if there is glass or a dielectric): in scenes that have been built, whose lights can be sampled and are met by directions drawn towards them, when no
ambient sample is taken (by the settings, or because no surface is matt). (Missing: glass with a probability of less than a half, for which it is false, see `C104_violation_panes` and `C104_violation_threshold`; ambient samples, for which it is false, see `C60_violation_never_ends`.) -/
theorem C104_ends_almost_surely_partial (hS : w.Solid s) (hM : w.LightsMet) (rt : RayTracer) (hD : rt.DirectOnly ∨ ∀ m ∈ s.materials, m.emitsLight = true ∨ m.specularOnly = true) (hB : BouncesCountOften s rt.countSpecularBounce) (rays : List TRay) (h : rt.maxDepth < rays.length) (ray : TRay) :
    AlmostSurely fun r => ∃ fuel x, traceRay w rt fuel ⟨r, rays⟩ ray = .ok x := by
  obtain ⟨hc0, hB⟩ := hB
  set c := rt.countSpecularBounce with hc
  have hbelow : 0 < below c ∧ (1 / 2 ≤ c → 1 / 2 ≤ below c) := by
    rcases le_total c 1 with h1 | h1
    · rw [below_eq c hc0.le h1]; exact ⟨hc0, id⟩
    · rw [below_one c h1]; norm_num
  have hend : randomNumbers {r : Rng | ∀ k, w.explore rt k ray r = none} = 0 := by
    have main : ∀ b : Nat, (∀ ray, (w.branches rt ray).length ≤ b) → ((b : ℝ) * (1 - below c) < 1 ∨ (b = 2 ∧ 1 / 2 ≤ below c)) → randomNumbers {r : Rng | ∀ k, w.explore rt k ray r = none} = 0 := by
      intro b hb hρ
      refine explore_almost_surely c (w.drawsAt rt) (w.kids rt) (fun ray => rt.maxDepth + 1 - ray.depth) b ?_ ?_ ?_ ?_ hρ ray
      · intro ray; unfold World.kids; rw [List.length_map]; exact hb ray
      · intro ray h
        unfold World.kids
        rw [(branches_shape hS rt ray).2.2.1 (by omega)]; rfl
      · intro ray p hp
        obtain ⟨q, hq, rfl⟩ := List.mem_map.1 hp
        have h1 := (branches_shape hS rt ray).2.2.2 q hq
        have h2 : ¬ rt.maxDepth < ray.depth := fun h => by rw [(branches_shape hS rt ray).2.2.1 h] at hq; cases hq
        simp only; omega
      · intro ray p hp
        obtain ⟨q, hq, rfl⟩ := List.mem_map.1 hp
        have h1 := (branches_shape hS rt ray).2.2.2 q hq
        simp only; omega
    rcases hB with hB | hB
    · exact main 2 (fun ray => (branches_shape hS rt ray).1) (Or.inr ⟨rfl, hbelow.2 hB⟩)
    · exact main 1 (fun ray => (branches_shape hS rt ray).2.1 hB) (Or.inl (by have := hbelow.1; push_cast; linarith))
  refine measure_mono_null ?_ (measure_union_null hend valid_almost_surely)
  intro r hr
  by_contra hcon
  simp only [mem_union, mem_setOf_eq, not_or, not_forall, not_not] at hcon hr
  obtain ⟨⟨k, hk⟩, hv⟩ := hcon
  obtain ⟨r', hr'⟩ := Option.ne_none_iff_exists'.1 hk
  obtain ⟨x, hx, _⟩ := (refTrace_explores hS hM rt hD k ray r r' hv hr').ok
  have key := C75_is_reference_tracer w rt (k + (rt.nShadowSamples + 2)) r rays ray h
  rw [hx] at key
  cases ht : traceRay w rt (k + (rt.nShadowSamples + 2)) ⟨r, rays⟩ ray with
  | ok y => exact hr ⟨_, y, ht⟩
  | panic => rw [ht] at key; cases key
  | diverge => rw [ht] at key; cases key

/-! ### Four panes -/

theorem showing_solid {m : Material ℝ} {tris : List (Tri ℝ)} (hw : w.Shows m tris) (hm : m.emitsDirectLight = false) (hl : tris.length < 2 ^ 15) (hperp : w.ext.PerpSpec) :
    w.Solid { triangles := tris, normals := tris.map (fun t => (unitNormal t, unitNormal t, unitNormal t)), front := List.replicate tris.length 0, back := List.replicate tris.length 0, materials := [m] } := by
  refine ⟨hw.renders hm hl, ⟨fun i hi => ?_, fun i hi => ?_, by simp, by simp⟩, hperp, by simp⟩
  · rw [(List.mem_replicate.1 hi).2]; simp
  · rw [(List.mem_replicate.1 hi).2]; simp

/-- The scene of `N` parallel panes. -/
noncomputable def panes (N : ℕ) : List (Tri ℝ) := (List.range N).map fun i : ℕ => plane i

/-- The ray is on the axis, between two panes or outside, and goes up (or down) to the pane at height `i`. -/
def Arriving (N : ℕ) (g : Ray3 ℝ) (i : ℕ) (dz : ℝ) : Prop :=
  i < N ∧ (dz = 1 ∨ dz = -1) ∧ ∃ t : ℝ, 1 / 2 ≤ t ∧ t < 1 ∧ g = ⟨⟨0, 0, i - dz * t⟩, ⟨0, 0, dz⟩⟩

theorem mem_panes (N : ℕ) (tri : Tri ℝ) (h : tri ∈ panes N) : ∃ j : ℕ, j < N ∧ tri = plane j := by
  obtain ⟨j, hj, rfl⟩ := List.mem_map.1 h
  exact ⟨j, List.mem_range.1 hj, rfl⟩

theorem panes_mem (N j : ℕ) (h : j < N) : plane j ∈ panes N := List.mem_map.2 ⟨j, List.mem_range.2 h, rfl⟩

theorem panes_length (N : ℕ) : (panes N).length = N := by simp [panes]

/-- The nearest of integer heights ahead. -/
theorem nearest_height (i j : ℕ) (dz t t' : ℝ) (hdz : dz = 1 ∨ dz = -1) (h1 : t < 1) (h0 : 0 < t') (h2 : (j : ℝ) = i - dz * t + dz * t') (h3 : t' ≤ t) (h4 : 0 < t) : j = i ∧ t' = t := by
  have key : j = i := by
    rcases hdz with rfl | rfl
    · have e1 : (j : ℝ) < i + 1 := by linarith
      have e2 : (i : ℝ) < j + 1 := by linarith
      have e1' : j < i + 1 := by exact_mod_cast e1
      have e2' : i < j + 1 := by exact_mod_cast e2
      omega
    · have e1 : (j : ℝ) < i + 1 := by linarith
      have e2 : (i : ℝ) < j + 1 := by linarith
      have e1' : j < i + 1 := by exact_mod_cast e1
      have e2' : i < j + 1 := by exact_mod_cast e2
      omega
  refine ⟨key, ?_⟩
  rw [key] at h2
  rcases hdz with rfl | rfl <;> linarith

theorem arriving_hits {m : Material ℝ} (N : ℕ) (hN : N < 2 ^ 15) (hw : w.Shows m (panes N)) (hm : m.emitsDirectLight = false) (ray : TRay) (i : ℕ) (dz : ℝ) (h : Arriving N ray.geometry i dz) :
    ∃ tri b k, w.cast ray = .ok (some (k, ray.arrived tri b)) ∧ (ray.arrived tri b).interaction.shading.side ≠ .NonApplicable ∧ w.materialAt (ray.arrived tri b).interaction.shading.side k = .ok m ∧
      w.scene.normals[k]? = some (unitNormal tri, unitNormal tri, unitNormal tri) ∧ (ray.arrived tri b).interaction.interpolateNormal (unitNormal tri) (unitNormal tri) (unitNormal tri) = (ray.arrived tri b).interaction ∧
      (ray.arrived tri b).interaction.point = ⟨0, 0, i⟩ ∧ (ray.arrived tri b).interaction.shading.normal = ⟨0, 0, -dz⟩ := by
  obtain ⟨hi, hdz, t, ht0, ht1, hg⟩ := h
  have habs : |dz| = 1 := by rcases hdz with rfl | rfl <;> norm_num
  have hsq : dz * dz = 1 := by rcases hdz with rfl | rfl <;> norm_num
  have hd : Norm ray.geometry.direction = 1 := by rw [hg]; exact Norm_eq_one (by simp [Dot, hsq])
  have hvis : VisibleHit ray.geometry (plane i) (t ^ 2) := by
    rw [hg]; exact plane_visible i _ t dz (by linarith) (by ring) habs
  have hin : InRange (t ^ 2) := ⟨by nlinarith, lt_trans (by nlinarith) floatMax_gt_one⟩
  obtain ⟨tri, htri, b, hb, hr, hnear, ⟨k, hcast, hmat, hnor⟩, _⟩ := hw.step hm (by rw [panes_length]; exact hN) ray hd ⟨plane i, panes_mem N i hi, t ^ 2, hvis, hin⟩
  obtain ⟨hp, hf, hside, hneg, _⟩ := recorded_spec tri ray.geometry b hd hb
  obtain ⟨⟨hp1, hp2, hp3, _⟩, _⟩ := baricentric_sound ray.geometry tri b hb
  obtain ⟨j, hj, rfl⟩ := mem_panes N tri htri
  refine ⟨plane j, b, k, hcast, ?_, hmat, hnor, interp_recorded (plane j) ray.geometry b hd hb, ?_, ?_⟩
  · rcases hside with ⟨e, _⟩ | ⟨e, _⟩ <;> (change (recordedInteraction (plane j) ray.geometry b).shading.side ≠ _; rw [e]; decide)
  · change (recordedInteraction (plane j) ray.geometry b).point = _
    rw [hp]
    have hle := hnear (plane i) (panes_mem N i hi) (t ^ 2) hvis hin.1
    have hz := congrArg Vec3.z hp3
    simp [plane] at hz
    rw [hg] at hp1 hle
    rw [hp1] at hz hle ⊢
    simp [distSq] at hz hle
    have h5 : (dz * b.t) ^ 2 = b.t ^ 2 := by rw [mul_pow, pow_two dz, hsq, one_mul]
    have hbt : 0 < b.t := lt_trans (by norm_num) hp2
    have h6 : b.t ≤ t := by
      have : b.t ^ 2 ≤ t ^ 2 := by nlinarith
      nlinarith
    obtain ⟨rfl, h7⟩ := nearest_height i j dz t b.t hdz ht1 hbt (by linarith) h6 (by linarith)
    ext
    · simp
    · simp
    · simp; rw [h7]; ring
  · change (recordedInteraction (plane j) ray.geometry b).shading.normal = _
    have hu : unitNormal (plane j) = ⟨0, 0, 1⟩ := plane_normal _
    unfold unitNormal at hu
    rw [hu] at hside
    rcases hside with ⟨_, hs⟩ | ⟨_, hs⟩
    · rw [hs, hg] at hneg
      rw [hs]
      simp [Dot] at hneg
      rcases hdz with rfl | rfl
      · linarith
      · simp
    · rw [hs, hg] at hneg
      simp [Dot] at hneg
      rw [hs]
      rcases hdz with rfl | rfl
      · ext <;> simp
      · linarith

/-- Straight onto a pane of glass that is not black, something is transmitted. -/
theorem glass_transmits (v n : ℝ) (hv0 : 1 / 1000 ≤ v) (hv1 : v ≤ 1) (hn : 0 < n) (normal dir : Vec3 ℝ) (h : |normal.dot dir| = 1) : 0 < (glassReflTrans (Spectrum.gray v) n normal dir).2.radiance := by
  have hany : (anyTransmission (Spectrum.gray v)).2 = true := by
    unfold anyTransmission
    rw [if_neg]
    have : (Spectrum.gray v).maxChannel = v := by simp [Spectrum.maxChannel, Spectrum.gray, Spectrum.channels]
    rw [this]; unfold minColour; push Not
    exact le_trans (by norm_num) hv0
  have hcos : Real.sqrt ((1 - 1 / n ^ 2) + (1 / n) ^ 2) = 1 := by
    rw [show (1 - 1 / n ^ 2) + (1 / n) ^ 2 = 1 by rw [div_pow, one_pow]; ring, Real.sqrt_one]
  have hr : ∃ r, 0 ≤ r ∧ r < 1 ∧ r = (1 - n) / (1 + n) * ((1 - n) / (1 + n)) := by
    refine ⟨_, mul_self_nonneg _, ?_, rfl⟩
    rw [div_mul_div_comm, div_lt_one (by positivity)]
    nlinarith
  obtain ⟨r, hr0, hr1, hr⟩ := hr
  have key : (glassReflTrans (Spectrum.gray v) n normal dir).2 = ((Spectrum.gray v).scale (1 / 2)) * (glassT (Spectrum.gray v) r + glassT (Spectrum.gray v) r) := by
    unfold glassReflTrans
    simp only [hany, h, if_true, hcos, mul_one, div_one]
    rw [← hr]
    simp [Spectrum.powf, Spectrum.gray]
  have hT : 0 < (1 - r) ^ 2 / (1 - (v * r) ^ 2) := by
    have : v * r < 1 := by nlinarith
    have h0 : 0 ≤ v * r := mul_nonneg (by linarith) hr0
    refine div_pos (pow_pos (sub_pos.2 hr1) 2) ?_
    nlinarith
  have hpos : 0 < v * (1 / 2) * ((1 - r) ^ 2 / (1 - (v * r) ^ 2) + (1 - r) ^ 2 / (1 - (v * r) ^ 2)) := by
    have : 0 < v := by linarith
    positivity
  rw [key]
  have e : (Spectrum.gray v).scale (1 / 2) * (glassT (Spectrum.gray v) r + glassT (Spectrum.gray v) r) = Spectrum.gray (v * (1 / 2) * ((1 - r) ^ 2 / (1 - (v * r) ^ 2) + (1 - r) ^ 2 / (1 - (v * r) ^ 2))) := by
    ext <;> simp [glassT, Spectrum.gray, Spectrum.scale, Spectrum.scalarDiv, Spectrum.scalarSub, Spectrum.powi]
  rw [e]
  generalize v * (1 / 2) * ((1 - r) ^ 2 / (1 - (v * r) ^ 2) + (1 - r) ^ 2 / (1 - (v * r) ^ 2)) = x at hpos
  simp [Spectrum.radiance, Spectrum.gray, Spectrum.channels, Spectrum.radianceCoefficients]
  linarith

/-- What becomes of a ray that arrives at a pane: a part goes back and a part goes through. -/
theorem arriving_branches (v n : ℝ) (hv0 : 1 / 1000 ≤ v) (hv1 : v ≤ 1) (hn : 0 < n) (N : ℕ) (hN : N < 2 ^ 15) (hw : w.Shows (.glass (Spectrum.gray v) n) (panes N)) (rt : RayTracer) (ray : TRay) (hdep : ray.depth ≤ rt.maxDepth) (i : ℕ) (dz : ℝ) (h : Arriving N ray.geometry i dz) :
    ∃ r1 r2 : TRay, w.branches rt ray = [r1, r2] ∧ r1.depth = ray.depth ∧ r2.depth = ray.depth ∧ r1.geometry = ⟨⟨0, 0, i - dz * (1 / 10 ^ 5)⟩, ⟨0, 0, -dz⟩⟩ ∧ r2.geometry = ⟨⟨0, 0, i + dz * (1 / 10 ^ 5)⟩, ⟨0, 0, dz⟩⟩ := by
  obtain ⟨tri, b, k, hcast, hside, hmat, hnor, hint, hpt, hnorm⟩ := arriving_hits N hN hw rfl ray i dz h
  obtain ⟨_, hdz, t, _, _, hg⟩ := h
  have hsq : dz * dz = 1 := by rcases hdz with rfl | rfl <;> norm_num
  have hdir : (ray.arrived tri b).geometry.direction = ⟨0, 0, dz⟩ := by
    change ray.geometry.direction = _
    rw [hg]
  have hd : ¬ rt.maxDepth < (ray.arrived tri b).depth := not_lt.2 hdep
  have hmirror : mirrorDirection (⟨0, 0, dz⟩ : Vec3 ℝ) ⟨0, 0, -dz⟩ = ⟨0, 0, -dz⟩ := by
    rw [mirror_raw (Norm_eq_one (by simp [Dot, hsq])) (Norm_eq_one (by simp [Dot, hsq]))]
    ext
    · simp
    · simp
    · simp [Dot]; linear_combination (-2 * dz) * hsq
  have htr := glass_transmits v n hv0 hv1 hn ⟨0, 0, -dz⟩ ⟨0, 0, dz⟩ (by simp [Vec3.dot, hsq])
  refine ⟨{ ray.arrived tri b with geometry := ⟨⟨0, 0, i - dz * (1 / 10 ^ 5)⟩, ⟨0, 0, -dz⟩⟩ }, { ray.arrived tri b with geometry := ⟨⟨0, 0, i + dz * (1 / 10 ^ 5)⟩, ⟨0, 0, dz⟩⟩ }, ?_, rfl, rfl, rfl, rfl⟩
  unfold World.branches
  rw [hcast]
  simp only [hside, if_false, hmat, Material.emitsLight, Material.specularOnly, gt_iff_lt, hd, hnor, hint, or_self, Bool.false_eq_true, Bool.true_eq_false, if_false, Material.getPossiblePaths, glassPaths, hpt, hnorm, hdir, hmirror, htr, if_true, Paths.toList, Option.toList_some, List.singleton_append, List.map_cons, List.map_nil]
  have e1 : (⟨0, 0, (i : ℝ)⟩ : Vec3 ℝ) + (⟨0, 0, -dz⟩ : Vec3 ℝ).scale (1 / 10 ^ 5) = ⟨0, 0, i - dz * (1 / 10 ^ 5)⟩ := by
    ext <;> simp; ring
  have e2 : (⟨0, 0, (i : ℝ)⟩ : Vec3 ℝ) - (⟨0, 0, -dz⟩ : Vec3 ℝ).scale (1 / 10 ^ 5) = ⟨0, 0, i + dz * (1 / 10 ^ 5)⟩ := by
    ext <;> simp
  rw [e1, e2]

/-- Bounds on the probability that exploring ends, by the number of panes that the ray has passed. -/
noncomputable def paneBound : ℕ → ℝ
  | 1 => 153 / 343
  | 2 => 153 / 343
  | _ => 30 / 49

theorem mix_le (c e1 e2 x : ℝ) (c0 : 0 ≤ c) (c1 : c ≤ 3 / 10) (h1 : e1 ≤ 1) (h2 : e2 ≤ x) (hx : x ≤ 1) : c * e1 + (1 - c) * e2 ≤ 3 / 10 + 7 / 10 * x := by
  have a := mul_le_mul_of_nonneg_left h1 c0
  have b := mul_le_mul_of_nonneg_left h2 (show (0 : ℝ) ≤ 1 - c by linarith)
  nlinarith

theorem panes_end (v n : ℝ) (hv0 : 1 / 1000 ≤ v) (hv1 : v ≤ 1) (hn : 0 < n) (hw : w.Shows (.glass (Spectrum.gray v) n) (panes 4)) (rt : RayTracer) (hc : rt.countSpecularBounce ≤ 3 / 10) (k : Nat) (ray : TRay) (hdep : ray.depth ≤ rt.maxDepth)
    (i p : ℕ) (dz : ℝ) (h : Arriving 4 ray.geometry i dz) (hp : (dz = 1 ∧ p = i) ∨ (dz = -1 ∧ p + i = 3)) : ends rt.countSpecularBounce (w.kids rt) k ray ≤ paneBound p := by
  induction k generalizing ray i p dz with
  | zero =>
    rw [ends_zero]; unfold paneBound; split <;> norm_num
  | succ k ih =>
    obtain ⟨r1, r2, hb, d1, d2, g1, g2⟩ := arriving_branches v n hv0 hv1 hn 4 (by norm_num) hw rt ray hdep i dz h
    set c := rt.countSpecularBounce
    have c0 := below_nonneg c
    have c1 : below c ≤ 3 / 10 := by
      rcases le_total 0 c with h0 | h0
      · rw [below_eq c h0 (by linarith)]; exact hc
      · have : below c ≤ below 0 := ENNReal.toReal_mono (measure_ne_top _ _) (measure_mono fun x (hx : x < c) => lt_of_lt_of_le hx h0)
        rw [below_eq 0 le_rfl zero_le_one] at this
        linarith
    have hi := h.1
    have key : ∀ (q : TRay) (i' p' : ℕ) (dz' : ℝ), q.depth = ray.depth → q.geometry = ⟨⟨0, 0, i' - dz' * (1 - 1 / 10 ^ 5)⟩, ⟨0, 0, dz'⟩⟩ → i' < 4 → ((dz' = 1 ∧ p' = i') ∨ (dz' = -1 ∧ p' + i' = 3)) → ends c (w.kids rt) k q ≤ paneBound p' := by
      intro q i' p' dz' hq hqg hi' hp'
      refine ih q (by omega) i' p' dz' ⟨hi', ?_, 1 - 1 / 10 ^ 5, by norm_num, by norm_num, hqg⟩ hp'
      rcases hp' with ⟨h, _⟩ | ⟨h, _⟩
      · exact Or.inl h
      · exact Or.inr h
    have back : ends c (w.kids rt) k r1 ≤ if p = 0 then 1 else paneBound (4 - p) := by
      split_ifs with h0
      · exact ends_le_one _ _ _ _
      · rcases hp with ⟨rfl, rfl⟩ | ⟨rfl, hpi⟩
        · obtain ⟨j, rfl⟩ := Nat.exists_eq_succ_of_ne_zero h0
          refine key r1 j _ (-1) d1 ?_ (by omega) (Or.inr ⟨rfl, by omega⟩)
          rw [g1]; push_cast; congr 2; ring
        · refine key r1 (i + 1) _ 1 d1 ?_ (by omega) (Or.inl ⟨rfl, by omega⟩)
          rw [g1]; push_cast; simp only [neg_neg]; congr 2; ring
    have through : ends c (w.kids rt) k r2 ≤ if p = 3 then 1 else paneBound (p + 1) := by
      split_ifs with h0
      · exact ends_le_one _ _ _ _
      · rcases hp with ⟨rfl, rfl⟩ | ⟨rfl, hpi⟩
        · refine key r2 (p + 1) _ 1 d2 ?_ (by omega) (Or.inl ⟨rfl, by omega⟩)
          rw [g2]; push_cast; congr 2; ring
        · obtain ⟨j, rfl⟩ := Nat.exists_eq_succ_of_ne_zero (show i ≠ 0 by omega)
          refine key r2 j _ (-1) d2 ?_ (by omega) (Or.inr ⟨rfl, by omega⟩)
          rw [g2]; push_cast; congr 2; ring
    rw [ends_succ]
    unfold World.kids
    rw [hb]
    simp only [List.map_cons, List.map_nil, List.prod_cons, List.prod_nil, mul_one]
    set x1 := if p = 0 then 1 else paneBound (4 - p) with hx1
    set x2 := if p = 3 then 1 else paneBound (p + 1) with hx2
    have hp4 : p < 4 := by rcases hp with ⟨_, rfl⟩ | ⟨_, hpi⟩ <;> omega
    have hb1 : x1 ≤ 1 ∧ x2 ≤ 1 := by
      rw [hx1, hx2]
      interval_cases p <;> norm_num [paneBound]
    have m1 := mix_le (below c) (ends c (w.kids rt) k { r1 with depth := r1.depth + 1 }) _ x1 c0 c1 (ends_le_one _ _ _ _) back hb1.1
    have m2 := mix_le (below c) (ends c (w.kids rt) k { r2 with depth := r2.depth + 1 }) _ x2 c0 c1 (ends_le_one _ _ _ _) through hb1.2
    have n2 : 0 ≤ below c * ends c (w.kids rt) k { r2 with depth := r2.depth + 1 } + (1 - below c) * ends c (w.kids rt) k r2 :=
      add_nonneg (mul_nonneg c0 (ends_nonneg _ _ _ _)) (mul_nonneg (by linarith) (ends_nonneg _ _ _ _))
    have n1 : 0 ≤ 3 / 10 + 7 / 10 * x1 := by
      rw [hx1]; interval_cases p <;> norm_num [paneBound]
    refine le_trans (mul_le_mul m1 m2 n2 n1) ?_
    rw [hx1, hx2]
    interval_cases p <;> norm_num [paneBound]

theorem explore_mono {σ : Type} (c : ℝ) (skip : σ → Nat) (kids : σ → List (σ × σ)) (k : Nat) (s : σ) (r r' : Rng) (h : explore c skip kids k s r = some r') : explore c skip kids (k + 1) s r = some r' := by
  induction k generalizing s r r' with
  | zero => cases h
  | succ k ih =>
    have key : ∀ (l : List (σ × σ)) (r r' : Rng), followAll c (explore c skip kids k) l r = some r' → followAll c (explore c skip kids (k + 1)) l r = some r' := by
      intro l
      induction l with
      | nil => intro r r' h; exact h
      | cons p l ihl =>
        intro r r' h
        simp only [followAll, Option.bind_eq_some_iff] at h ⊢
        obtain ⟨y, h1, h2⟩ := h
        exact ⟨y, ih _ _ _ h1, ihl _ _ h2⟩
    exact key _ _ _ h

/-- If no number of levels suffices with a probability greater than `x`, exploring never ends with a probability of at least `1 - x`. -/
theorem explore_never {σ : Type} (c : ℝ) (skip : σ → Nat) (kids : σ → List (σ × σ)) (s : σ) (x : ℝ) (hx0 : 0 ≤ x) (hx : ∀ k, ends c kids k s ≤ x) : ENNReal.ofReal (1 - x) ≤ randomNumbers {r : Rng | ∀ k, explore c skip kids k s r = none} := by
  have hm := fun k => (explore_ends c skip kids k s).1
  have hmono : Monotone fun k => {r : Rng | (explore c skip kids k s r).isSome} := monotone_nat_of_le_succ fun k r hr => by
    obtain ⟨r', hr'⟩ := Option.isSome_iff_exists.1 hr
    exact Option.isSome_iff_exists.2 ⟨r', explore_mono c skip kids k s r r' hr'⟩
  have hU : randomNumbers (⋃ k, {r : Rng | (explore c skip kids k s r).isSome}) ≤ ENNReal.ofReal x := by
    rw [hmono.measure_iUnion]
    refine iSup_le fun k => ?_
    rw [(explore_ends c skip kids k s).2, ← ENNReal.ofReal_toReal (endChance_ne_top c kids k s)]
    exact ENNReal.ofReal_le_ofReal (hx k)
  have e : {r : Rng | ∀ k, explore c skip kids k s r = none} = (⋃ k, {r : Rng | (explore c skip kids k s r).isSome})ᶜ := by
    ext r
    simp [Option.isSome_iff_ne_none]
  rw [e, prob_compl_eq_one_sub (MeasurableSet.iUnion hm), ENNReal.ofReal_sub _ hx0, ENNReal.ofReal_one]
  exact tsub_le_tsub_left hU 1

/-- When exploring never ends, nor does tracing, in scenes of nothing but glass. -/
theorem panes_never (v n : ℝ) (N : ℕ) (hN : N < 2 ^ 15) (hw : w.Shows (.glass (Spectrum.gray v) n) (panes N)) (hperp : w.ext.PerpSpec) (rt : RayTracer) (rays : List TRay) (hrays : rt.maxDepth < rays.length) (ray : TRay) :
    randomNumbers {r : Rng | ∀ k, explore rt.countSpecularBounce (w.drawsAt rt) (w.kids rt) k ray r = none} ≤ Chance fun r => ∀ fuel, traceRay w rt fuel ⟨r, rays⟩ ray = .diverge := by
  have hsol := showing_solid hw rfl (by rw [panes_length]; exact hN) hperp
  have hsound : w.Sound _ := ⟨hsol, by simp [Material.NotGlossy]⟩
  unfold Chance
  rw [← measure_diff_null (s := {r : Rng | ∀ k, explore rt.countSpecularBounce (w.drawsAt rt) (w.kids rt) k ray r = none}) valid_almost_surely]
  refine measure_mono ?_
  rintro r ⟨hr, hval⟩ fuel
  simp only [mem_setOf_eq, not_not] at hr hval
  cases ht : traceRay w rt fuel ⟨r, rays⟩ ray with
  | ok x =>
    exfalso
    have key := C75_is_reference_tracer w rt fuel r rays ray hrays
    rw [ht] at key
    have := refTrace_explored hsol rt (by simp [Material.specularOnly]) fuel ray r _ key.symm
    unfold World.explore at this
    rw [hr fuel] at this
    cases this
  | panic => exact absurd ht (C92_never_panics_partial hsound rt fuel r hval rays ray hrays)
  | diverge => rfl

/-- **C104, violation.** Four parallel panes of glass (two double-glazed windows in a row) and a ray straight at them: at the default setting of 0.3 (or less), whatever the other settings, tracing never ends with a probability of at least 19/49, nearly two in five: each pane splits the ray in two,
and bounces are counted too rarely to stop them all. -/
theorem C104_violation_panes (v n : ℝ) (hv0 : 1 / 1000 ≤ v) (hv1 : v ≤ 1) (hn : 0 < n) (hw : w.Shows (.glass (Spectrum.gray v) n) (panes 4)) (hperp : w.ext.PerpSpec) (rt : RayTracer) (hc : rt.countSpecularBounce ≤ 3 / 10) (rays : List TRay) (hrays : rt.maxDepth < rays.length)
    (ray : TRay) (hdep : ray.depth ≤ rt.maxDepth) (hray : ray.geometry = ⟨⟨0, 0, 15 / 4⟩, ⟨0, 0, -1⟩⟩) : ENNReal.ofReal (19 / 49) ≤ Chance fun r => ∀ fuel, traceRay w rt fuel ⟨r, rays⟩ ray = .diverge := by
  have h1 := explore_never rt.countSpecularBounce (w.drawsAt rt) (w.kids rt) ray (30 / 49) (by norm_num)
    (fun k => panes_end v n hv0 hv1 hn hw rt hc k ray hdep 3 0 (-1) ⟨by norm_num, Or.inr rfl, 3 / 4, by norm_num, by norm_num, by rw [hray]; norm_num⟩ (Or.inr ⟨rfl, rfl⟩))
  rw [show (1 : ℝ) - 30 / 49 = 19 / 49 by norm_num] at h1
  exact le_trans h1 (panes_never v n 4 (by norm_num) hw hperp rt rays hrays ray)

/-! ### Many panes -/

theorem sin_neighbours (a θ : ℝ) : Real.sin (a - θ) + Real.sin (a + θ) = 2 * Real.cos θ * Real.sin a ∧ Real.sin (a - θ) * Real.sin (a + θ) ≤ Real.sin a ^ 2 := by
  rw [Real.sin_sub, Real.sin_add]
  refine ⟨by ring, ?_⟩
  have h1 := Real.sin_sq_add_cos_sq a
  have h2 := Real.sin_sq_add_cos_sq θ
  have e : (Real.sin a * Real.cos θ - Real.cos a * Real.sin θ) * (Real.sin a * Real.cos θ + Real.cos a * Real.sin θ) = Real.sin a ^ 2 - Real.sin θ ^ 2 := by
    linear_combination (-Real.sin a ^ 2) * (-h2) - Real.sin θ ^ 2 * h1
  rw [e]; nlinarith [sq_nonneg (Real.sin θ)]

/-- Sines survive one level: `q` is the probability that a bounce does not count. -/
theorem survive_step (q C ε sm s sp : ℝ) (hq : 0 < q) (hε : ε = (2 * q * C - 1) / q ^ 2) (hε0 : 0 ≤ ε) (h0 : 0 ≤ s) (h1 : s ≤ 1) (hsum : sm + sp = 2 * C * s) (hprod : sm * sp ≤ s ^ 2) :
    (1 - q * (ε * sm)) * (1 - q * (ε * sp)) ≤ 1 - ε * s := by
  have hq2 : q ^ 2 * ε = 2 * q * C - 1 := by rw [hε]; field_simp
  have e : (1 - q * (ε * sm)) * (1 - q * (ε * sp)) = 1 - q * ε * (sm + sp) + q ^ 2 * ε * (ε * (sm * sp)) := by ring
  rw [e, hsum]
  have hA : 0 ≤ q ^ 2 * ε := by positivity
  have h2 : q ^ 2 * ε * (ε * (sm * sp)) ≤ q ^ 2 * ε * (ε * s) := by
    refine mul_le_mul_of_nonneg_left (mul_le_mul_of_nonneg_left ?_ hε0) hA
    nlinarith
  have h3 : q ^ 2 * ε * (ε * s) = (2 * q * C - 1) * (ε * s) := by rw [hq2]
  rw [h3] at h2
  nlinarith

theorem mix_one (c e1 e2 x : ℝ) (c0 : 0 ≤ c) (c1 : c ≤ 1) (h1 : e1 ≤ 1) (h2 : e2 ≤ 1 - x) : c * e1 + (1 - c) * e2 ≤ 1 - (1 - c) * x := by
  have a := mul_le_mul_of_nonneg_left h1 c0
  have b := mul_le_mul_of_nonneg_left h2 (show (0 : ℝ) ≤ 1 - c by linarith)
  nlinarith

theorem panes_survive (v n : ℝ) (hv0 : 1 / 1000 ≤ v) (hv1 : v ≤ 1) (hn : 0 < n) (N : ℕ) (hN : N < 2 ^ 15) (hw : w.Shows (.glass (Spectrum.gray v) n) (panes N)) (rt : RayTracer) (q ε θ : ℝ) (hq : q = 1 - below rt.countSpecularBounce) (hq0 : 0 < q) (hθ : (N + 1) * θ = Real.pi)
    (hε : ε = (2 * q * Real.cos θ - 1) / q ^ 2) (hε0 : 0 ≤ ε) (hε1 : ε ≤ 1) (k : Nat) (ray : TRay) (hdep : ray.depth ≤ rt.maxDepth)
    (i p : ℕ) (dz : ℝ) (h : Arriving N ray.geometry i dz) (hp : (dz = 1 ∧ p = i) ∨ (dz = -1 ∧ p + i + 1 = N)) : ends rt.countSpecularBounce (w.kids rt) k ray ≤ 1 - ε * Real.sin ((p + 1) * θ) := by
  have hθ0 : 0 < θ := by
    by_contra hcon
    have := Real.pi_pos
    have : ((N : ℝ) + 1) * θ ≤ 0 := mul_nonpos_of_nonneg_of_nonpos (by positivity) (not_lt.1 hcon)
    linarith
  have hsin : ∀ j : ℕ, j ≤ N + 1 → 0 ≤ Real.sin (j * θ) := by
    intro j hj
    refine Real.sin_nonneg_of_nonneg_of_le_pi (by positivity) ?_
    rw [← hθ]
    exact mul_le_mul_of_nonneg_right (by exact_mod_cast hj) hθ0.le
  induction k generalizing ray i p dz with
  | zero =>
    rw [ends_zero]
    nlinarith [Real.sin_le_one ((p + 1) * θ), Real.neg_one_le_sin ((p + 1) * θ)]
  | succ k ih =>
    obtain ⟨r1, r2, hb, d1, d2, g1, g2⟩ := arriving_branches v n hv0 hv1 hn N hN hw rt ray hdep i dz h
    set c := rt.countSpecularBounce
    have c0 := below_nonneg c
    have c1 := below_le_one c
    have hi := h.1
    have hpN : p < N := by rcases hp with ⟨_, rfl⟩ | ⟨_, hpi⟩ <;> omega
    have key : ∀ (q : TRay) (i' p' : ℕ) (dz' : ℝ), q.depth = ray.depth → q.geometry = ⟨⟨0, 0, i' - dz' * (1 - 1 / 10 ^ 5)⟩, ⟨0, 0, dz'⟩⟩ → i' < N → ((dz' = 1 ∧ p' = i') ∨ (dz' = -1 ∧ p' + i' + 1 = N)) → ends c (w.kids rt) k q ≤ 1 - ε * Real.sin ((p' + 1) * θ) := by
      intro q i' p' dz' hq hqg hi' hp'
      refine ih q (by omega) i' p' dz' ⟨hi', ?_, 1 - 1 / 10 ^ 5, by norm_num, by norm_num, hqg⟩ hp'
      rcases hp' with ⟨h, _⟩ | ⟨h, _⟩
      · exact Or.inl h
      · exact Or.inr h
    have back : ends c (w.kids rt) k r1 ≤ 1 - ε * Real.sin ((p + 1) * θ - θ) := by
      by_cases h0 : p = 0
      · subst h0
        have : ((0 : ℕ) + 1 : ℝ) * θ - θ = 0 := by push_cast; ring
        rw [this, Real.sin_zero, mul_zero, sub_zero]
        exact ends_le_one _ _ _ _
      · have e : Real.sin ((p + 1) * θ - θ) = Real.sin (((N - p : ℕ) + 1) * θ) := by
          rw [← Real.sin_pi_sub, ← hθ, Nat.cast_sub hpN.le]; congr 1; ring
        rw [e]
        rcases hp with ⟨rfl, rfl⟩ | ⟨rfl, hpi⟩
        · obtain ⟨j, rfl⟩ := Nat.exists_eq_succ_of_ne_zero h0
          refine key r1 j _ (-1) d1 ?_ (by omega) (Or.inr ⟨rfl, by omega⟩)
          rw [g1]; push_cast; congr 2; ring
        · refine key r1 (i + 1) _ 1 d1 ?_ (by omega) (Or.inl ⟨rfl, by omega⟩)
          rw [g1]; push_cast; simp only [neg_neg]; congr 2; ring
    have through : ends c (w.kids rt) k r2 ≤ 1 - ε * Real.sin ((p + 1) * θ + θ) := by
      by_cases h0 : p + 1 = N
      · have e : ((p : ℝ) + 1) * θ + θ = Real.pi := by rw [← hθ, ← h0]; push_cast; ring
        rw [e, Real.sin_pi, mul_zero, sub_zero]
        exact ends_le_one _ _ _ _
      · have e : Real.sin ((p + 1) * θ + θ) = Real.sin (((p + 1 : ℕ) + 1) * θ) := by
          congr 1; push_cast; ring
        rw [e]
        rcases hp with ⟨rfl, rfl⟩ | ⟨rfl, hpi⟩
        · refine key r2 (p + 1) _ 1 d2 ?_ (by omega) (Or.inl ⟨rfl, by omega⟩)
          rw [g2]; push_cast; congr 2; ring
        · obtain ⟨j, rfl⟩ := Nat.exists_eq_succ_of_ne_zero (show i ≠ 0 by omega)
          refine key r2 j _ (-1) d2 ?_ (by omega) (Or.inr ⟨rfl, by omega⟩)
          rw [g2]; push_cast; congr 2; ring
    rw [ends_succ]
    unfold World.kids
    rw [hb]
    simp only [List.map_cons, List.map_nil, List.prod_cons, List.prod_nil, mul_one]
    have m1 := mix_one (below c) (ends c (w.kids rt) k { r1 with depth := r1.depth + 1 }) _ _ c0 c1 (ends_le_one _ _ _ _) back
    have m2 := mix_one (below c) (ends c (w.kids rt) k { r2 with depth := r2.depth + 1 }) _ _ c0 c1 (ends_le_one _ _ _ _) through
    have nn : ∀ r r' : TRay, 0 ≤ below c * ends c (w.kids rt) k r + (1 - below c) * ends c (w.kids rt) k r' := fun r r' =>
      add_nonneg (mul_nonneg c0 (ends_nonneg _ _ _ _)) (mul_nonneg (by linarith) (ends_nonneg _ _ _ _))
    refine le_trans (mul_le_mul m1 m2 (nn _ _) (le_trans (nn _ _) m1)) ?_
    rw [← hq]
    obtain ⟨hs1, hs2⟩ := sin_neighbours ((p + 1) * θ) θ
    refine survive_step q (Real.cos θ) ε _ _ _ hq0 hε hε0 ?_ (Real.sin_le_one _) hs1 hs2
    have := hsin (p + 1) (by omega)
    push_cast at this; exact this

/-- **C104, violation: the threshold.** One half is the least probability with which tracing ends: for every smaller one, `N` parallel panes of glass, with `(1 - c) cos (π / (N + 1)) > 1/2`, make tracing a ray straight at them endless with a positive probability, whatever the other settings.
(Fewer than 2^15 panes, so that they surely fit the accelerator. Where the probability is at least one half, see `C104_ends_almost_surely_partial`.) -/
theorem C104_violation_threshold (v n : ℝ) (hv0 : 1 / 1000 ≤ v) (hv1 : v ≤ 1) (hn : 0 < n) (N : ℕ) (hN0 : 0 < N) (hN : N < 2 ^ 15) (hw : w.Shows (.glass (Spectrum.gray v) n) (panes N)) (hperp : w.ext.PerpSpec) (rt : RayTracer) (hc0 : 0 ≤ rt.countSpecularBounce)
    (hc : 1 / 2 < (1 - rt.countSpecularBounce) * Real.cos (Real.pi / (N + 1))) (rays : List TRay) (hrays : rt.maxDepth < rays.length) (ray : TRay) (hdep : ray.depth ≤ rt.maxDepth) (hray : ray.geometry = ⟨⟨0, 0, N - 1 / 4⟩, ⟨0, 0, -1⟩⟩) :
    0 < Chance fun r => ∀ fuel, traceRay w rt fuel ⟨r, rays⟩ ray = .diverge := by
  set θ := Real.pi / (N + 1) with hθ
  set c := rt.countSpecularBounce with hcdef
  have hN1 : (1 : ℝ) ≤ N := by exact_mod_cast hN0
  have hpi := Real.pi_pos
  have hθ0 : 0 < θ := by positivity
  have hθ1 : θ ≤ Real.pi / 2 := div_le_div_of_nonneg_left hpi.le (by norm_num) (by linarith)
  have hcos0 : 0 ≤ Real.cos θ := Real.cos_nonneg_of_neg_pi_div_two_le_of_le (by linarith) hθ1
  have hc1 : c < 1 := by
    by_contra hcon
    have : (1 - c) * Real.cos θ ≤ 0 := mul_nonpos_of_nonpos_of_nonneg (by linarith) hcos0
    linarith
  have hbelow := below_eq c hc0 hc1.le
  set q := 1 - c with hq
  have hq0 : 0 < q := by linarith
  set ε := (2 * q * Real.cos θ - 1) / q ^ 2 with hε
  have hε0 : 0 < ε := div_pos (by nlinarith) (by positivity)
  have hε1 : ε ≤ 1 := by
    rw [hε, div_le_one (by positivity)]
    nlinarith [Real.cos_le_one θ, sq_nonneg (q - 1)]
  have hsin : 0 < Real.sin θ := Real.sin_pos_of_pos_of_lt_pi hθ0 (by linarith)
  have hprod : 0 < ε * Real.sin θ := mul_pos hε0 hsin
  have hprod1 : ε * Real.sin θ ≤ 1 := by nlinarith [Real.sin_le_one θ]
  have h1 := explore_never rt.countSpecularBounce (w.drawsAt rt) (w.kids rt) ray (1 - ε * Real.sin θ) (by linarith) fun k => by
    have := panes_survive v n hv0 hv1 hn N hN hw rt q ε θ (by rw [← hcdef, hbelow]) hq0 (by rw [hθ]; field_simp) hε hε0.le hε1 k ray hdep (N - 1) 0 (-1) ⟨by omega, Or.inr rfl, 3 / 4, by norm_num, by norm_num, by
      rw [hray, Nat.cast_sub (by omega)]; push_cast; congr 2; ring⟩ (Or.inr ⟨rfl, by omega⟩)
    simpa using this
  refine lt_of_lt_of_le ?_ (le_trans h1 (panes_never v n N hN hw hperp rt rays hrays ray))
  rw [ENNReal.ofReal_pos]; linarith

/-! ### The hypotheses can be met -/

theorem showing_exists (m : Material ℝ) (hm : m.emitsDirectLight = false) (tris : List (Tri ℝ)) (hl : tris.length < 2 ^ 15) : ∃ w : World, w.Shows m tris ∧ w.ext.PerpSpec ∧ w.LightsMet := by
  obtain ⟨w, hw, _⟩ := shows_exists m hm tris none
  obtain ⟨ext, hext⟩ := perpSpec_exists
  refine ⟨{ w with ext := ext }, ⟨hw.lawful, hw.box, hw.normalized, hw.run⟩, hext, ?_⟩
  obtain ⟨_, h1, h2⟩ := (hw.renders hm hl).same
  intro o ho
  simp only [h1, h2] at ho
  cases ho

/-- C104: at the default settings, tracing between two facing mirrors ends with probability one (although there are draws with which it does not, `C57_violation_mirrors`), and between panes when bounces count every other time; but it may go on for ever between panes at the default settings. -/
example : (∃ w : World, w.Shows (.mirror Spectrum.one) [plane 0, plane 1] ∧ ∀ ray, AlmostSurely fun r => ∃ fuel x, traceRay w ⟨2, 10, 70, 1 / 1000, 3 / 10⟩ fuel ⟨r, defaultRays⟩ ray = .ok x) ∧
    (∃ w : World, w.Shows (.glass (Spectrum.gray (96 / 100)) (152 / 100)) (panes 4) ∧ (∀ ray, AlmostSurely fun r => ∃ fuel x, traceRay w ⟨2, 10, 70, 1 / 1000, 1 / 2⟩ fuel ⟨r, defaultRays⟩ ray = .ok x) ∧
      ENNReal.ofReal (19 / 49) ≤ Chance fun r => ∀ fuel, traceRay w ⟨2, 10, 70, 1 / 1000, 3 / 10⟩ fuel ⟨r, defaultRays⟩ { downRay with geometry := ⟨⟨0, 0, 15 / 4⟩, ⟨0, 0, -1⟩⟩ } = .diverge) := by
  constructor
  · obtain ⟨w, hw, hp, hL⟩ := showing_exists (.mirror Spectrum.one) rfl [plane 0, plane 1] (by simp)
    exact ⟨w, hw, fun ray => C104_ends_almost_surely_partial (showing_solid hw rfl (by simp) hp) hL _ (Or.inr (by simp [Material.specularOnly])) ⟨by norm_num, Or.inr (by simp)⟩ _ (by simp [defaultRays]) ray⟩
  · obtain ⟨w, hw, hp, hL⟩ := showing_exists (.glass (Spectrum.gray (96 / 100)) (152 / 100)) rfl (panes 4) (by rw [panes_length]; norm_num)
    refine ⟨w, hw, fun ray => C104_ends_almost_surely_partial (showing_solid hw rfl (by rw [panes_length]; norm_num) hp) hL _ (Or.inr (by simp [Material.specularOnly])) ⟨by norm_num, Or.inl (by norm_num)⟩ _ (by simp [defaultRays]) ray, ?_⟩
    exact C104_violation_panes (96 / 100) (152 / 100) (by norm_num) (by norm_num) (by norm_num) hw hp _ (by norm_num) _ (by simp [defaultRays]) _ (by simp [downRay, TRay.default]) rfl

/-- C104: for every setting up to one half less a hundred-millionth there are scenes that are traced for ever with a positive probability. -/
example (c : ℝ) (h0 : 0 ≤ c) (h1 : c ≤ 1 / 2 - 1 / 10 ^ 8) : ∃ (N : ℕ) (w : World), w.Shows (.glass (Spectrum.gray (96 / 100)) (152 / 100)) (panes N) ∧
    0 < Chance fun r => ∀ fuel, traceRay w ⟨2, 10, 70, 1 / 1000, c⟩ fuel ⟨r, defaultRays⟩ { downRay with geometry := ⟨⟨0, 0, N - 1 / 4⟩, ⟨0, 0, -1⟩⟩ } = .diverge := by
  obtain ⟨w, hw, hp, _⟩ := showing_exists (.glass (Spectrum.gray (96 / 100)) (152 / 100)) rfl (panes (2 ^ 15 - 1)) (by rw [panes_length]; norm_num)
  refine ⟨2 ^ 15 - 1, w, hw, C104_violation_threshold (96 / 100) (152 / 100) (by norm_num) (by norm_num) (by norm_num) _ (by norm_num) (by norm_num) hw hp _ h0 ?_ _ (by simp [defaultRays]) _ (by simp [downRay, TRay.default]) rfl⟩
  have e : Real.pi / (((2 ^ 15 - 1 : ℕ) : ℝ) + 1) = Real.pi / 32768 := by norm_num
  rw [e]
  have h2 := Real.one_sub_sq_div_two_le_cos (x := Real.pi / 32768)
  have h3 := Real.pi_lt_d2
  have h4 := Real.pi_pos
  have h5 : (Real.pi / 32768) ^ 2 ≤ 1 / 10 ^ 8 := by
    rw [div_pow]
    have : Real.pi ^ 2 ≤ 3.15 ^ 2 := pow_le_pow_left₀ h4.le h3.le 2
    rw [div_le_iff₀ (by norm_num)]
    refine le_trans this ?_
    norm_num
  simp only
  have h6 : (1 - c) * (1 - (Real.pi / 32768) ^ 2 / 2) ≤ (1 - c) * Real.cos (Real.pi / 32768) := mul_le_mul_of_nonneg_left h2 (by linarith)
  nlinarith

end Rendering
