import Verif.Lemmas.GeometricLight
import Verif.Props.MeanPicture

/-!
# C130: on average, tracing gives the light of the scene's geometry
-/

set_option linter.unusedSectionVars false
namespace Rendering

open MeasureTheory Set

variable {w : World} {s : Scene ℝ}

/-- What the program sees of a ray. -/
structure Met (w : World) (s : Scene ℝ) (g : Ray3 ℝ) (j : Nat) (p : Vec3 ℝ) (i : Nat) (tri : Tri ℝ) (b : Bary ℝ) : Prop where
  cast : w.cast { TRay.default with geometry := g } = .ok (some (i, { TRay.default with geometry := g, interaction := recordedInteraction tri g b }))
  point : p = b.p
  triangle : s.triangles[j]? = some tri
  hit : triangleIntersect tri g = some b
  range : InRange (distSq b.p g.origin)
  front : w.scene.front[i]? = s.front[j]?
  back : w.scene.back[i]? = s.back[j]?
  nearest : ∀ other ∈ s.triangles, ∀ d2, VisibleHit g other d2 → 1 / 10 ^ 7 < d2 → distSq b.p g.origin ≤ d2

/-- How the program sees the scene. -/
theorem sight_exists (hR : w.Renders s) : ∃ S : Sight, S.Faithful s ∧ (∀ p v D, S.free p v D ↔ w.scene.unobstructedDistance w.env ⟨p, v⟩ D [] = .ok true) ∧
    ∀ g : Ray3 ℝ, (S.meets g = none ∧ w.cast { TRay.default with geometry := g } = .ok none) ∨ ∃ j p i tri b, S.meets g = some (j, p) ∧ Met w s g j p i tri b := by
  have hall : ∀ g : Ray3 ℝ, ∃ o : Option (Nat × Vec3 ℝ), (o = none ∧ w.cast { TRay.default with geometry := g } = .ok none ∧ ∀ tri ∈ s.triangles, ∀ d2, VisibleHit g tri d2 → ¬ InRange d2) ∨
      ∃ j p i tri b, o = some (j, p) ∧ Met w s g j p i tri b := by
    intro g
    rcases hR.cast_cases { TRay.default with geometry := g } with ⟨h1, h2⟩ | ⟨i, tri, b, j, hc, hj, hb, hin, ht, hf, hbk, hn, hnear⟩
    · exact ⟨none, Or.inl ⟨rfl, h1, h2⟩⟩
    · exact ⟨some (j, b.p), Or.inr ⟨j, b.p, i, tri, b, rfl, ⟨hc, rfl, hj, hb, hin, hf, hbk, hnear⟩⟩⟩
  choose meets hmeets using hall
  have hfree := fun p v D => C03_unobstructed w.env hR.lawful hR.box s w.scene hR.aligned hR.fits hR.built ⟨p, v⟩ D []
  refine ⟨⟨meets, fun p v D => w.scene.unobstructedDistance w.env ⟨p, v⟩ D [] = .ok true⟩, ⟨?_, ?_, ?_, ?_⟩, fun _ _ _ => Iff.rfl, ?_⟩
  · intro g j p h
    rcases hmeets g with ⟨h1, -, -⟩ | ⟨j', p', i, tri, b, h1, h2⟩
    · rw [show meets g = some (j, p) from h] at h1; cases h1
    · rw [show meets g = some (j, p) from h] at h1
      cases h1
      have hp := h2.point
      subst hp
      exact ⟨tri, h2.triangle, ⟨_, _, _, (baricentric_sound g tri b h2.hit).1⟩, h2.range, h2.nearest⟩
  · intro g h
    rcases hmeets g with ⟨-, -, h2⟩ | ⟨j', p', i, tri, b, h1, -⟩
    · exact h2
    · rw [show meets g = none from h] at h1; cases h1
  · intro p v D h
    obtain ⟨r, e, -, h2⟩ := hfree p v D
    cases r with
    | true => exact e
    | false =>
      obtain ⟨tri, ht, t, q, a, b, k1, k2⟩ := h2 rfl
      exact absurd k2 (h tri ht t q a b k1)
  · intro p v D h tri ht d2 k1 k2
    obtain ⟨r, e, h1, -⟩ := hfree p v D
    have := h1 ⟨tri, ht, d2, k1, k2⟩
    rw [this] at e
    rw [show w.scene.unobstructedDistance w.env ⟨p, v⟩ D [] = .ok true from h] at e
    cases e
  · intro g
    rcases hmeets g with ⟨h1, h2, -⟩ | h
    · exact Or.inl ⟨h1, h2⟩
    · exact Or.inr h

/-- The side that is seen. -/
theorem side_seen (hW : w.SunlitMatt s) {g : Ray3 ℝ} (hg : Norm g.direction = 1) {j : Nat} {p : Vec3 ℝ} {i : Nat} {tri : Tri ℝ} {b : Bary ℝ} (h : Met w s g j p i tri b) :
    ∃ m col r, m ∈ [Material.plastic col 0 r, Material.metal col 0 r] ∧ col.Nonneg ∧ w.materialAt (recordedInteraction tri g b).shading.side i = .ok m ∧ s.sideSeen j g.direction = some ((recordedInteraction tri g b).shading.normal, col) := by
  obtain ⟨-, -, hside, hdot, hpos, -, -⟩ := recorded_spec tri g b hg h.hit
  have hnorm : 0 < Norm (geometricNormal tri) := Norm_pos hpos
  have hinv : Dot (geometricNormal tri).normalized g.direction = Dot (geometricNormal tri) g.direction / Norm (geometricNormal tri) := by
    rw [normalized_eq]; simp only [Dot, Vec3.scale]; ring
  have hjl : j < s.triangles.length := (List.getElem?_eq_some_iff.1 h.triangle).1
  have hal := hW.renders.aligned
  rcases hside with ⟨h3, h4⟩ | ⟨h3, h4⟩
  · have hneg : Dot (geometricNormal tri) g.direction < 0 := by
      rw [h4, hinv] at hdot
      by_contra hc
      have := div_nonneg (not_lt.1 hc) hnorm.le
      linarith
    have hfl : j < s.front.length := by rw [hal.2.1]; exact hjl
    have hk : s.front[j] ∈ s.front := List.getElem_mem _
    have hlt : s.front[j] < s.materials.length := hW.indices.1 _ hk
    have hm : s.materials[s.front[j]]? = some s.materials[s.front[j]] := List.getElem?_eq_getElem hlt
    obtain ⟨col, r, hmat, hnn⟩ := hW.matt _ _ hm (List.mem_append_left _ hk)
    obtain ⟨-, -, hcc⟩ := matt_only_flags hmat
    refine ⟨_, col, r, hmat, hnn, ?_, ?_⟩
    · rw [h3]
      simp only [World.materialAt, h.front, List.getElem?_eq_getElem hfl, Res.ofOption_some, Res.bind_ok, hW.renders.same.1, hm]
    · simp only [Scene.sideSeen, h.triangle, Option.bind_some, hneg, if_true, List.getElem?_eq_getElem hfl, hm, Option.map_some, h4, hcc]
  · have hneg : ¬ Dot (geometricNormal tri) g.direction < 0 := by
      intro hc
      rw [h4] at hdot
      have e : Dot (-(geometricNormal tri).normalized) g.direction = -(Dot (geometricNormal tri) g.direction / Norm (geometricNormal tri)) := by
        rw [← hinv]; simp only [Dot, Vec3.neg_x, Vec3.neg_y, Vec3.neg_z]; ring
      rw [e] at hdot
      have := div_neg_of_neg_of_pos hc hnorm
      linarith
    have hbl : j < s.back.length := by rw [hal.2.2]; exact hjl
    have hk : s.back[j] ∈ s.back := List.getElem_mem _
    have hlt : s.back[j] < s.materials.length := hW.indices.2.1 _ hk
    have hm : s.materials[s.back[j]]? = some s.materials[s.back[j]] := List.getElem?_eq_getElem hlt
    obtain ⟨col, r, hmat, hnn⟩ := hW.matt _ _ hm (List.mem_append_right _ hk)
    obtain ⟨-, -, hcc⟩ := matt_only_flags hmat
    refine ⟨_, col, r, hmat, hnn, ?_, ?_⟩
    · rw [h3]
      simp only [World.materialAt, h.back, List.getElem?_eq_getElem hbl, Res.ofOption_some, Res.bind_ok, hW.renders.same.1, hm]
    · simp only [Scene.sideSeen, h.triangle, Option.bind_some, hneg, if_false, List.getElem?_eq_getElem hbl, hm, Option.map_some, h4, hcc]

/-- The light that comes back is that of the geometry. -/
theorem lightBack_geometric (hW : w.SunlitMatt s) (suns : List SunDisc) (hsuns : w.HasSuns s suns) : ∃ S : Sight, S.Faithful s ∧
    ∀ (axes : Axes) (ch : Spectrum ℝ → ℝ), ch ∈ [Spectrum.c0, Spectrum.c1, Spectrum.c2] → ∀ (L : Ray3 ℝ → ENNReal) (view : Ray3 ℝ), Norm view.direction = 1 → w.lightBack ch L view = s.radiance suns S axes ch L view := by
  obtain ⟨S, hS, hfree, hmeets⟩ := sight_exists hW.renders
  refine ⟨S, hS, fun axes ch hch L view hv => ?_⟩
  rcases hmeets view with ⟨h1, h2⟩ | ⟨j, p, i, tri, b, h1, h2⟩
  · unfold World.lightBack Scene.radiance
    rw [h1, h2]
  · obtain ⟨m, col, r, hm, hnn, hmat, hseen⟩ := side_seen hW hv h2
    obtain ⟨-, -, hcc⟩ := matt_only_flags hm
    obtain ⟨hp, hframe, -, -, -, -, -⟩ := recorded_spec tri view b hv h2.hit
    have hpp : (recordedInteraction tri view b).point = p := by rw [hp, h2.point]
    unfold World.lightBack Scene.radiance
    rw [h2.cast, h1]
    simp only [hmat, hseen]
    rw [sunlight_exact hW.toSunlit suns hsuns m col r hm hnn ch hch S hfree axes _, mul_add, hcc]
    simp only [hpp]
    congr 2
    have hN := hframe.n3
    have e := frame_free (axes.frame _ hN) hframe (Ioo 0 1) measurableSet_Ioo (fun z v => L ⟨p + (recordedInteraction tri view b).shading.normal.scale (1 / 10 ^ 5), v⟩ * ENNReal.ofReal z)
    unfold irradiance
    simp only [TRay.onward, hpp, Axes.around]
    exact e

theorem axes_exist : Nonempty Axes := by
  have h : ∀ n : Vec3 ℝ, ∃ e : Vec3 ℝ × Vec3 ℝ, Norm n = 1 → Frame e.1 e.2 n := by
    intro n
    by_cases hn : Norm n = 1
    · have hd := Dot_self_of_norm hn
      by_cases hxy : n.x ^ 2 + n.y ^ 2 = 0
      · have hx : n.x = 0 := by nlinarith [sq_nonneg n.x, sq_nonneg n.y]
        have hy : n.y = 0 := by nlinarith [sq_nonneg n.x, sq_nonneg n.y]
        refine ⟨((⟨0, 1, 0⟩ : Vec3 ℝ).cross n, ⟨0, 1, 0⟩), fun _ => frame_of_perp hn (Norm_eq_one (by simp [Dot])) (by simp [Dot, hy])⟩
      · have hpos : 0 < n.x ^ 2 + n.y ^ 2 := lt_of_le_of_ne (by positivity) (Ne.symm hxy)
        have hv : 0 < Dot (⟨-n.y, n.x, 0⟩ : Vec3 ℝ) ⟨-n.y, n.x, 0⟩ := by simp only [Dot]; nlinarith
        refine ⟨((⟨-n.y, n.x, 0⟩ : Vec3 ℝ).normalized.cross n, (⟨-n.y, n.x, 0⟩ : Vec3 ℝ).normalized), fun _ => frame_of_perp hn (Norm_eq_one (normalized_dot_self hv)) ?_⟩
        rw [normalized_eq]
        simp only [Dot, Vec3.scale]
        ring
    · exact ⟨(0, 0), fun h => absurd h hn⟩
  choose f hf using h
  exact ⟨⟨fun n => (f n).1, fun n => (f n).2, hf⟩⟩

/-- A scene lit by suns has suns. -/
theorem suns_exist (hW : w.Sunlit s) : ∃ suns, w.HasSuns s suns := by
  have h := hW.suns
  unfold World.HasSuns
  generalize s.distantLights = sources at h
  induction sources with
  | nil => exact ⟨[], .nil⟩
  | cons a rest ih =>
    obtain ⟨suns, h1⟩ := ih fun x hx => h x (List.mem_cons_of_mem _ hx)
    obtain ⟨direction, angle, L, D, h2, h3⟩ := h a (List.mem_cons_self ..)
    exact ⟨⟨direction, angle, L, D⟩ :: suns, .cons ⟨h2, h3⟩ h1⟩

theorem lightBack_congr (hW : w.SunlitMatt s) (ch : Spectrum ℝ → ℝ) {L L' : Ray3 ℝ → ENNReal} (h : ∀ g : Ray3 ℝ, Norm g.direction = 1 → L g = L' g) (g : Ray3 ℝ) (hg : Norm g.direction = 1) : w.lightBack ch L g = w.lightBack ch L' g := by
  unfold World.lightBack
  rcases hc : w.cast { TRay.default with geometry := g } with (_ | ⟨i, arrived⟩) | _ | _
  · rfl
  · simp only
    rcases w.materialAt arrived.interaction.shading.side i with m | _ | _
    · simp only
      rw [irradiance_congr fun l hl => h _ (onward_unit hW hg hc m hl)]
    · rfl
    · rfl
  · rfl
  · rfl

/-- The program sees the scene as `S` does: the light it reckons with is that of the geometry. -/
def World.SeenThrough (w : World) (s : Scene ℝ) (suns : List SunDisc) (S : Sight) : Prop :=
  ∀ (axes : Axes) (ch : Spectrum ℝ → ℝ), ch ∈ [Spectrum.c0, Spectrum.c1, Spectrum.c2] → ∀ (L : Ray3 ℝ → ENNReal) (view : Ray3 ℝ), Norm view.direction = 1 → w.lightBack ch L view = s.radiance suns S axes ch L view

theorem steps_after (hW : w.SunlitMatt s) {suns : List SunDisc} {S : Sight} (hS : w.SeenThrough s suns S) (axes : Axes) (ch : Spectrum ℝ → ℝ) (hch : ch ∈ [Spectrum.c0, Spectrum.c1, Spectrum.c2]) (k : Nat) (g : Ray3 ℝ) (hg : Norm g.direction = 1) :
    stepsLight w ch k g = s.lightAfter suns S axes ch k g := by
  induction k generalizing g with
  | zero => rfl
  | succ k ih =>
    unfold stepsLight Scene.lightAfter
    rw [← hS axes ch hch _ g hg]
    exact lightBack_congr hW ch (fun g hg => ih g hg) g hg

theorem solves_iff {suns : List SunDisc} {S : Sight} (hS : w.SeenThrough s suns S) (axes : Axes) (ch : Spectrum ℝ → ℝ) (hch : ch ∈ [Spectrum.c0, Spectrum.c1, Spectrum.c2]) (L : Ray3 ℝ → ENNReal) :
    w.SolvesRenderingEquation ch L ↔ s.InBalance suns S axes ch L := by
  constructor
  · intro h g hg
    rw [← hS axes ch hch L g hg]
    exact h g hg
  · intro h g hg
    rw [hS axes ch hch L g hg]
    exact h g hg

/-- **C130, finitely many reflections.** There is a way of seeing that agrees with the triangles of the scene, such that for every setting with `limit_weight` 0, along every ray, the mean of what `trace_ray` returns is the light
of the scene's geometry after at most `max_depth + 1` reflections: integrals of radiance times cosine over the discs of the suns and over hemispheres, whichever axes are chosen for them. -/
theorem C130_mean_light (hW : w.SunlitMatt s) (suns : List SunDisc) (hsuns : w.HasSuns s suns) : ∃ S : Sight, S.Faithful s ∧ ∀ (axes : Axes) (ch : Spectrum ℝ → ℝ), ch ∈ [Spectrum.c0, Spectrum.c1, Spectrum.c2] →
    ∀ (rt : RayTracer) (rays : List TRay) (ray : TRay) (fuel : Nat), 0 < rt.nShadowSamples → 0 < rt.nAmbientSamples → rt.limitWeight = 0 → rt.maxDepth < rays.length → Norm ray.geometry.direction = 1 → 0 ≤ ray.value → ray.depth = 0 →
      rt.maxDepth + rt.nShadowSamples + rt.nAmbientSamples + 3 ≤ fuel →
      ∫⁻ r, seenLight (traceRay w rt fuel ⟨r, rays⟩ ray) ch ∂randomNumbers = s.lightAfter suns S axes ch (rt.maxDepth + 1) ray.geometry := by
  obtain ⟨S, hS, hb⟩ := lightBack_geometric hW suns hsuns
  refine ⟨S, hS, fun axes ch hch rt rays ray fuel hsh hA hlim hlen hu hv hd hfuel => ?_⟩
  rw [mean_eq_steps hW rt hsh hA hlim ch hch rays hlen ray hu hv hd fuel hfuel, steps_after hW hb axes ch hch _ _ hu]

/-- **C130, any number of reflections.** There is a way of seeing that agrees with the triangles of the scene, such that as `max_depth` grows the mean of what `trace_ray` returns tends to a light that is in balance with the scene's geometry, the least such light. -/
theorem C130_limit (hW : w.SunlitMatt s) (suns : List SunDisc) (hsuns : w.HasSuns s suns) : ∃ S : Sight, S.Faithful s ∧ ∀ (axes : Axes) (ch : Spectrum ℝ → ℝ), ch ∈ [Spectrum.c0, Spectrum.c1, Spectrum.c2] →
    ∃ L : Ray3 ℝ → ENNReal, s.InBalance suns S axes ch L ∧ (∀ L', s.InBalance suns S axes ch L' → ∀ g : Ray3 ℝ, Norm g.direction = 1 → L g ≤ L' g) ∧
    ∀ (rt : RayTracer) (ray : TRay), 0 < rt.nShadowSamples → 0 < rt.nAmbientSamples → rt.limitWeight = 0 → Norm ray.geometry.direction = 1 → 0 ≤ ray.value → ray.depth = 0 →
      Filter.Tendsto (fun depth => ∫⁻ r, seenLight (traceRay w { rt with maxDepth := depth } (depth + rt.nShadowSamples + rt.nAmbientSamples + 3) ⟨r, List.replicate (depth + 1) TRay.default⟩ ray) ch ∂randomNumbers) Filter.atTop (nhds (L ray.geometry)) := by
  obtain ⟨S, hS, hb⟩ := lightBack_geometric hW suns hsuns
  refine ⟨S, hS, fun axes ch hch => ?_⟩
  obtain ⟨L, h1, h2, h3⟩ := C122_limit hW ch hch
  exact ⟨L, (solves_iff hb axes ch hch L).1 h1, fun L' hL' => h2 L' ((solves_iff hb axes ch hch L').2 hL'), h3⟩

/-- **C130, the error.** If every surface reflects at most the share `ρ < 1`, exactly one bounded light is in balance with the scene's geometry; the mean of what `trace_ray` returns is never more,
and with `limit_weight` 0 it misses at most `ρ^(max_depth + 1)` times a constant of the scene. -/
theorem C130_error (hW : w.SunlitMatt s) (suns : List SunDisc) (hsuns : w.HasSuns s suns) : ∃ S : Sight, S.Faithful s ∧ ∀ (axes : Axes) (ch : Spectrum ℝ → ℝ), ch ∈ [Spectrum.c0, Spectrum.c1, Spectrum.c2] →
    ∀ ρ : ENNReal, ρ < 1 → (∀ (k : Nat) m, s.materials[k]? = some m → k ∈ s.front ++ s.back → ENNReal.ofReal (ch m.colour) ≤ ρ) →
    ∃ (L : Ray3 ℝ → ENNReal) (B : ENNReal), B ≠ ⊤ ∧ s.InBalance suns S axes ch L ∧ (∀ g : Ray3 ℝ, Norm g.direction = 1 → L g ≤ B) ∧
      (∀ L' C, C ≠ ⊤ → s.InBalance suns S axes ch L' → (∀ g : Ray3 ℝ, Norm g.direction = 1 → L' g ≤ C) → ∀ g : Ray3 ℝ, Norm g.direction = 1 → L' g = L g) ∧
      ∀ (rt : RayTracer) (rays : List TRay) (ray : TRay) (fuel : Nat), 0 < rt.nShadowSamples → rt.maxDepth < rays.length → Norm ray.geometry.direction = 1 → 0 ≤ ray.value → ray.depth = 0 → rt.maxDepth + rt.nShadowSamples + rt.nAmbientSamples + 3 ≤ fuel →
        ∫⁻ r, seenLight (traceRay w rt fuel ⟨r, rays⟩ ray) ch ∂randomNumbers ≤ L ray.geometry ∧
        (0 < rt.nAmbientSamples → rt.limitWeight = 0 → L ray.geometry ≤ ∫⁻ r, seenLight (traceRay w rt fuel ⟨r, rays⟩ ray) ch ∂randomNumbers + ρ ^ (rt.maxDepth + 1) * B) := by
  obtain ⟨S, hS, hb⟩ := lightBack_geometric hW suns hsuns
  refine ⟨S, hS, fun axes ch hch ρ hρ1 hρ => ?_⟩
  obtain ⟨L, B, hB, h1, h2, h3, h4⟩ := C122_error hW ch hch ρ hρ1 hρ
  exact ⟨L, B, hB, (solves_iff hb axes ch hch L).1 h1, h2, fun L' C hC hL' => h3 L' C hC ((solves_iff hb axes ch hch L').2 hL'), h4⟩

/-- **C130, pictures.** With `limit_weight` 0 the mean of each channel of each pixel is the light of the scene's geometry, after at most `max_depth + 1` reflections, along the camera's ray through that pixel, whatever the schedule of the workers. -/
theorem C130_picture (hW : w.SunlitMatt s) (suns : List SunDisc) (hsuns : w.HasSuns s suns) : ∃ S : Sight, S.Faithful s ∧ ∀ (axes : Axes) (ch : Spectrum ℝ → ℝ), ch ∈ [Spectrum.c0, Spectrum.c1, Spectrum.c2] →
    ∀ (o : SpictOptions), o.Sized → o.camera.view.Proper → 0 < o.rt.nShadowSamples → 0 < o.rt.nAmbientSamples → o.rt.limitWeight = 0 → o.rt.maxDepth < 15 → ∀ fuel, o.rt.maxDepth + o.rt.nShadowSamples + o.rt.nAmbientSamples + 3 ≤ fuel →
    ∀ {Ω : Type} [MeasurableSpace Ω] (μ : Measure Ω) (gen : Ω → Nat → Rng), (∀ k, MeasurePreserving (fun ω => gen ω k) μ randomNumbers) → ∀ state : Ω → RState TState (Spectrum ℝ), (∀ ω, o.Rendered w fuel (gen ω) (state ω)) →
    ∀ x y, x < o.width → y < o.height →
      ∫⁻ ω, ENNReal.ofReal (ch (pixelOf o.width o.height (state ω) x y)) ∂μ = s.lightAfter suns S axes ch (o.rt.maxDepth + 1) (o.camera.traceableRay (x, y)).geometry := by
  obtain ⟨S, hS, hb⟩ := lightBack_geometric hW suns hsuns
  refine ⟨S, hS, fun axes ch hch o ho hv hsh hA hlim hD fuel hfuel Ω _ μ gen hgen state hs x y hx hy => ?_⟩
  rw [C119_mean_picture hW o ho hv hsh hD fuel hfuel μ gen hgen state hs ch hch x y hx hy, reflected_eq_steps hW o.rt hA hlim ch hch _ le_rfl _ (traceable_unit o hv _), steps_after hW hb axes ch hch _ _ (traceable_unit o hv _)]

/-- **C130, the disc of a sun.** The brightness with which the disc is taken is one on average over its solid angle, and differs from one, for suns of up to a hundredth of a radian, by less than one fifty-thousandth. -/
theorem C130_weight (angle : ℝ) (h0 : 0 < angle) (h1 : angle < Real.pi) :
    (∫⁻ q in Ioo (Real.cos (angle / 2)) 1 ×ˢ Ioo 0 (2 * Real.pi), ENNReal.ofReal (discWeight (Real.cos (angle / 2)) q.1)) = volume (Ioo (Real.cos (angle / 2)) 1 ×ˢ Ioo 0 (2 * Real.pi)) ∧
    (angle ≤ 1 / 100 → ∀ z, Real.cos (angle / 2) ≤ z → z ≤ 1 → |discWeight (Real.cos (angle / 2)) z - 1| ≤ 1 / 50000) := by
  have hc0 : 0 < Real.cos (angle / 2) := Real.cos_pos_of_mem_Ioo ⟨by linarith, by linarith⟩
  have hc1 : Real.cos (angle / 2) < 1 := by
    have hsin0 : 0 < Real.sin (angle / 2) := Real.sin_pos_of_pos_of_lt_pi (by linarith) (by linarith)
    nlinarith [Real.sin_sq_add_cos_sq (angle / 2), Real.cos_le_one (angle / 2)]
  constructor
  · have hf : Frame (⟨1, 0, 0⟩ : Vec3 ℝ) ⟨0, 1, 0⟩ ⟨0, 0, 1⟩ := ⟨Norm_eq_one (by simp [Dot]), Norm_eq_one (by simp [Dot]), Norm_eq_one (by simp [Dot]), by simp [Dot], by simp [Dot], by simp [Dot]⟩
    have h := cone_integral hf (angle / 2) (by linarith) (by linarith) (fun _ => 1)
    simp only [mul_one] at h
    have hsq : volume unitSquare = 1 := by
      unfold unitSquare
      rw [Measure.volume_eq_prod, Measure.prod_prod]
      simp
    rw [← h, Mean, setLIntegral_const, hsq, one_mul, mul_one, Measure.volume_eq_prod, Measure.prod_prod, Real.volume_Ioo, Real.volume_Ioo, ← ENNReal.ofReal_mul (by linarith)]
    congr 1
    ring
  · intro h z hz hz1
    obtain ⟨k1, k2⟩ := C100_error angle h0 h
    generalize Real.cos (angle / 2) = c at hc0 hc1 hz k1 k2
    have hzp : 0 < z := lt_of_lt_of_le hc0 hz
    have b1 : 2 * c ^ 2 / (1 + c) ≤ discWeight c z := by
      unfold discWeight
      rw [div_le_div_iff₀ (by positivity) (by positivity)]
      have : z ^ 3 ≤ 1 := pow_le_one₀ hzp.le hz1
      have h' : 0 ≤ 2 * c ^ 2 * (1 + c) := by positivity
      nlinarith
    have b2 : discWeight c z ≤ 2 / (c * (1 + c)) := by
      unfold discWeight
      rw [div_le_div_iff₀ (by positivity) (by positivity)]
      have : c ^ 3 ≤ z ^ 3 := pow_le_pow_left₀ hc0.le hz 3
      have h' : 0 ≤ 2 * (1 + c) := by positivity
      nlinarith
    rw [abs_le]
    constructor <;> linarith

/-- C130: the court of two triangles under a sun: there is a way of seeing that agrees with its triangles, the light of its geometry after at most three reflections is the mean along a ray that looks down, and is not zero;
with `max_depth` 9 at most `2^-10` of a bound is missing. -/
example : ∃ w : World, w.SunlitMatt court ∧ ∃ suns, w.HasSuns court suns ∧ suns.length = 1 ∧ ∃ S : Sight, S.Faithful court ∧ ∀ axes : Axes,
    (∫⁻ r, seenLight (traceRay w ⟨2, 10, 70, 0, 3 / 10⟩ 100 ⟨r, defaultRays⟩ downRay) Spectrum.c0 ∂randomNumbers = court.lightAfter suns S axes Spectrum.c0 3 downRay.geometry) ∧
    0 < court.lightAfter suns S axes Spectrum.c0 3 downRay.geometry := by
  obtain ⟨w, hW, i, hit, hc, hdep, hmat, hpos⟩ := court_world
  have hu : Norm downRay.geometry.direction = 1 := Norm_eq_one (by norm_num [Dot, downRay])
  have hv : 0 ≤ downRay.value := by simp [downRay, TRay.default]
  have hlen : defaultRays.length = 15 := by simp [defaultRays]
  obtain ⟨suns, hsuns⟩ := suns_exist hW.toSunlit
  obtain ⟨S, hS, h⟩ := C130_mean_light hW suns hsuns
  refine ⟨w, hW, suns, hsuns, hsuns.length_eq.symm, S, hS, fun axes => ?_⟩
  have e := h axes Spectrum.c0 (by simp) ⟨2, 10, 70, 0, 3 / 10⟩ defaultRays downRay 100 (by norm_num) (by norm_num) rfl (by rw [hlen]; norm_num) hu hv rfl (by norm_num)
  refine ⟨e, ?_⟩
  rw [← e, C119_mean_light hW ⟨2, 10, 70, 0, 3 / 10⟩ (by norm_num) Spectrum.c0 (by simp) defaultRays (by rw [hlen]; decide) downRay hu hv (Nat.zero_le _) 100 (by norm_num)]
  change 0 < reflectedLight w _ Spectrum.c0 (2 + 1) downRay
  unfold reflectedLight
  simp only [hc, hmat]
  exact lt_of_lt_of_le hpos le_self_add

/-- C130: the court reflects half of the light in each channel, so the error theorem applies: one bounded light is in balance with its geometry. -/
example : ∃ w : World, w.SunlitMatt court ∧ ∃ suns, w.HasSuns court suns ∧ ∃ S : Sight, S.Faithful court ∧ ∀ axes : Axes, ∃ (L : Ray3 ℝ → ENNReal) (B : ENNReal), B ≠ ⊤ ∧ court.InBalance suns S axes Spectrum.c0 L ∧ (∀ g : Ray3 ℝ, Norm g.direction = 1 → L g ≤ B) ∧
    L downRay.geometry ≤ ∫⁻ r, seenLight (traceRay w ⟨9, 10, 70, 0, 3 / 10⟩ 100 ⟨r, defaultRays⟩ downRay) Spectrum.c0 ∂randomNumbers + (1 / 2) ^ 10 * B := by
  obtain ⟨w, hW, -⟩ := court_world
  have hu : Norm downRay.geometry.direction = 1 := Norm_eq_one (by norm_num [Dot, downRay])
  have hv : 0 ≤ downRay.value := by simp [downRay, TRay.default]
  have hlen : defaultRays.length = 15 := by simp [defaultRays]
  have hhalf : ∀ (k : Nat) m, court.materials[k]? = some m → k ∈ court.front ++ court.back → ENNReal.ofReal m.colour.c0 ≤ 1 / 2 := by
    intro k m hk hmem
    simp only [court, courtOf, List.cons_append, List.nil_append, List.mem_cons, List.not_mem_nil, or_false, or_self] at hmem
    subst hmem
    simp only [court, courtOf, List.getElem?_cons_zero, Option.some.injEq] at hk
    rw [← hk]
    simp only [Material.colour, Spectrum.gray]
    rw [ENNReal.ofReal_div_of_pos (by norm_num)]
    simp
  obtain ⟨suns, hsuns⟩ := suns_exist hW.toSunlit
  obtain ⟨S, hS, h⟩ := C130_error hW suns hsuns
  refine ⟨w, hW, suns, hsuns, S, hS, fun axes => ?_⟩
  obtain ⟨L, B, hB, h1, h2, -, h4⟩ := h axes Spectrum.c0 (by simp) (1 / 2) (by norm_num) hhalf
  exact ⟨L, B, hB, h1, h2, (h4 ⟨9, 10, 70, 0, 3 / 10⟩ defaultRays downRay 100 (by norm_num) (by rw [hlen]; norm_num) hu hv rfl (by norm_num)).2 (by norm_num) rfl⟩

/-- C130: the sun, of half a degree. -/
example : |discWeight (Real.cos ((93 / 10000) / 2)) 1 - 1| ≤ 1 / 50000 := (C130_weight (93 / 10000) (by norm_num) (by linarith [Real.two_le_pi])).2 (by norm_num) 1 (Real.cos_le_one _) le_rfl

end Rendering
