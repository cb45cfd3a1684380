import Verif.Props.DaylightScenes
import Verif.Props.TracerScenes
import Verif.Props.Glossy
import Verif.Props.Termination

/-!
# C94, C96: daylight coefficients that crash, or are never finished
-/

set_option linter.unusedSectionVars false
namespace Rendering

open Classical

/-- Tracing a ray for daylight coefficients that arrives at a surface that is no light. -/
theorem dcTrace_arrived {w : World} {m : Material ℝ} (hm : m.emitsDirectLight = false) (dc : DcFactory) (ray : TRay) (hd : Norm ray.geometry.direction = 1) (hdep : ray.depth ≤ dc.maxDepth) (tri : Tri ℝ) (b : Bary ℝ) (hb : triangleIntersect tri ray.geometry = some b) (i : Nat)
    (hcast : w.cast ray = .ok (some (i, ray.arrived tri b))) (hmat : w.materialAt (ray.arrived tri b).interaction.shading.side i = .ok m) (hnor : w.scene.normals[i]? = some (unitNormal tri, unitNormal tri, unitNormal tri)) (fuel : Nat) (st : DState) :
    dcTraceRay w dc (fuel + 1) st ray = (if m.specularOnly then
        (m.getPossiblePaths (ray.arrived tri b).interaction.shading.normal (ray.arrived tri b).interaction.point (ray.arrived tri b)).bind fun paths =>
          (dcSpecularLoop (dcTraceRay w dc fuel) dc.countSpecularBounce paths.toList st).bind fun st => .ok (ray.arrived tri b, st)
      else
        let (n, ray', rng) := (ray.arrived tri b).getNAmbientSamples dc.nAmbientSamples dc.maxDepth dc.limitWeight st.rng
        if ray'.depth < st.rays.length then
          let (_, normal, e1, e2) := ray'.getTriad
          dcAmbientLoop (dcTraceRay w dc fuel) m fuel (ray.arrived tri b).interaction.point normal e1 e2 n ray' { st with rng := rng, rays := st.rays.set ray'.depth ray' }
        else .panic : Res (TRay × DState)) := by
  obtain ⟨_, hframe, hside, _⟩ := recorded_spec tri ray.geometry b hd hb
  rw [dcTraceRay]
  simp only [hcast, Res.bind_ok]
  have hnd : ¬ (ray.arrived tri b).depth > dc.maxDepth := not_lt.2 hdep
  simp only [hnd, if_false]
  unfold dcSurfaceStep
  have hna : (ray.arrived tri b).interaction.shading.side ≠ .NonApplicable := by
    rcases hside with ⟨hs, _⟩ | ⟨hs, _⟩
    · show (recordedInteraction tri ray.geometry b).shading.side ≠ _; rw [hs]; decide
    · show (recordedInteraction tri ray.geometry b).shading.side ≠ _; rw [hs]; decide
  rw [if_neg hna, hmat, Res.bind_ok]
  simp only [hnd, hm, Bool.false_eq_true, or_self, if_false, hnor, Res.ofOption_some, Res.bind_ok]
  have hit := interp_recorded tri ray.geometry b hd hb
  have harr : ({ geometry := (ray.arrived tri b).geometry, refractionIndex := (ray.arrived tri b).refractionIndex, interaction := (ray.arrived tri b).interaction.interpolateNormal (unitNormal tri) (unitNormal tri) (unitNormal tri), depth := (ray.arrived tri b).depth, value := (ray.arrived tri b).value, colour := (ray.arrived tri b).colour } : TRay) = ray.arrived tri b := by
    simp only [TRay.arrived, hit]
  rw [harr]
  rfl

/-- The first sample of the first sensor decides: with draws of zero it goes straight ahead. -/
theorem calcDc_first (w : World) (dc : DcFactory) (hn : 0 < dc.nAmbientSamples) (fuel : Nat) (sensor : Ray3 ℝ) (rest : List (Ray3 ℝ)) (e2 : Vec3 ℝ) (he : w.ext.perp sensor.direction = some e2) (primary : Nat → Rng) (h0 : primary 0 0 = 0) (secondary : Nat → Nat → Rng) (bad : Res (Mat (Spectrum ℝ)))
    (hbad : bad = .panic ∨ bad = .diverge)
    (h : (dcTraceRay w dc fuel ⟨secondary 0 0, defaultRays, dc.blank⟩ { TRay.default with geometry := sensor, colour := Spectrum.gray Real.pi }).bind (fun (_, st) => .ok st.contribution) = bad) :
    calcDc w dc fuel (sensor :: rest) primary secondary = bad := by
  obtain ⟨n, hn'⟩ := Nat.exists_eq_succ_of_ne_zero hn.ne'
  have hs : (sampleCosineHemisphere (primary 0)).1 = ⟨0, 0, 1⟩ := by
    unfold sampleCosineHemisphere uniformSampleHorizontalDisc Rng.gen2
    simp [clampR, h0]
  have hl : localToWorld (e2.cross sensor.direction) e2 sensor.direction 0 0 0 1 = sensor.direction := by unfold localToWorld; ext <;> simp
  have hrow : dcRow w dc fuel sensor (primary 0) (secondary 0) = bad := by
    unfold dcRow
    simp only [he, hn', Nat.succ_eq_add_one, Res.ofOption_some, Res.bind_ok, dcDirections, List.zipIdx_cons, List.map_cons, mapRes, Prod.swap, hs]
    unfold dcSample
    simp only [hl]
    have e : (⟨sensor.origin, sensor.direction⟩ : Ray3 ℝ) = sensor := rfl
    simp only at h
    rw [h]
    rcases hbad with rfl | rfl <;> rfl
  unfold calcDc
  simp only [List.zipIdx_cons, List.map_cons, mapRes, Prod.swap, hrow]
  rcases hbad with rfl | rfl <;> rfl

/-- **C94, violated by glossy materials.** A sensor that faces a triangle of plastic or metal with specularity `s` head-on: if its first sample goes straight ahead, the first random number drawn there is below `s` and the third is `ξ` with `α² ln(1/ξ) ≥ 1` (α is the roughness), computing the coefficients
panics. -/
theorem C94_violation_glossy (w : World) (c : Spectrum ℝ) (s r : ℝ) (m : Material ℝ) (hm : m ∈ [Material.plastic c s r, Material.metal c s r]) (tri : Tri ℝ) (hw : w.Shows m [tri]) (hs : 1 / 10 ^ 5 < s)
    (dc : DcFactory) (hD : 0 < dc.maxDepth) (hn : 0 < dc.nAmbientSamples) (sensor : Ray3 ℝ) (hd : Norm sensor.direction = 1) (e2 : Vec3 ℝ) (he : w.ext.perp sensor.direction = some e2)
    (hon : sensor.direction = unitNormal tri ∨ sensor.direction = -unitNormal tri) (d2 : ℝ) (hv : VisibleHit sensor tri d2) (hin : InRange d2)
    (primary : Nat → Rng) (hp : primary 0 0 = 0) (secondary : Nat → Nat → Rng) (h0 : secondary 0 0 0 < s) (h2 : 1 / 10 ^ 9 ≤ secondary 0 0 2) (h1 : secondary 0 0 2 < 1) (hbig : 1 ≤ clampRoughness r ^ 2 * -Real.log (secondary 0 0 2)) (rest : List (Ray3 ℝ)) (fuel : Nat) :
    calcDc w dc (fuel + 2) (sensor :: rest) primary secondary = .panic := by
  have hml : m.emitsDirectLight = false ∧ m.specularOnly = false := by
    simp only [List.mem_cons, List.not_mem_nil, or_false] at hm
    rcases hm with rfl | rfl <;> exact ⟨rfl, rfl⟩
  refine calcDc_first w dc hn (fuel + 2) sensor rest e2 he primary hp secondary .panic (Or.inl rfl) ?_
  set ray : TRay := { TRay.default with geometry := sensor, colour := Spectrum.gray Real.pi } with hray
  have hg : ray.geometry = sensor := rfl
  obtain ⟨tri', htri, b, hb, _, _, ⟨i, hcast, hmat, hnor⟩, _⟩ := hw.step hml.1 (by norm_num) ray hd ⟨tri, by simp, d2, hv, hin⟩
  rw [List.mem_singleton] at htri
  subst htri
  obtain ⟨_, hframe, hside, hdn, _⟩ := recorded_spec tri' ray.geometry b hd hb
  have hdd := Dot_self_of_norm hd
  have hdir : ray.geometry.direction = (recordedInteraction tri' ray.geometry b).shading.normal.scale (-1) := by
    have key : ∀ u v : Vec3 ℝ, Dot u u = 1 → (v = u ∨ v = -u) → Dot v u < 0 → u = v.scale (-1) := by
      rintro u v hu (rfl | rfl) hneg
      · linarith
      · ext <;> simp
    refine key _ _ hdd ?_ hdn
    rw [hg]
    rcases hside with ⟨_, e⟩ | ⟨_, e⟩ <;> rw [hg] at e <;> rw [e] <;> rcases hon with hon | hon <;> rw [hon] <;> first
      | (left; rfl)
      | (right; ext <;> simp [unitNormal])
  have hpan := C74_violation_panic fuel c s r _ _ _ (ray.arrived tri' b).interaction.point hframe (ray.arrived tri' b) (secondary 0 0) h0 hs hdir h2 h1 hbig m hm
  rw [dcTrace_arrived hml.1 dc ray hd (Nat.zero_le _) tri' b hb i hcast hmat hnor]
  have hna : (ray.arrived tri' b).getNAmbientSamples dc.nAmbientSamples dc.maxDepth dc.limitWeight (secondary 0 0) = (dc.nAmbientSamples, ray.arrived tri' b, secondary 0 0) := by
    unfold TRay.getNAmbientSamples
    rw [if_neg (by omega), if_pos (by rfl)]
  have hdep' : (ray.arrived tri' b).depth = 0 := rfl
  have hlen : 0 < defaultRays.length := by simp [defaultRays]
  obtain ⟨n, hn'⟩ := Nat.exists_eq_succ_of_ne_zero hn.ne'
  simp only [hml.2, Bool.false_eq_true, if_false, hna, hdep', hlen, if_true, TRay.getTriad]
  rw [hn']
  unfold dcAmbientLoop
  simp only [TRay.arrived] at hpan ⊢
  rw [hpan]
  rfl

/-- Tracing between facing mirrors for daylight coefficients. -/
theorem dcShuttle (w : World) (c : Spectrum ℝ) (hw : w.Shows (.mirror c) [plane 0, plane 1]) (dc : DcFactory) (rng : Rng) (hq : ∀ k, dc.countSpecularBounce ≤ rng k) (ray : TRay) (q n : Vec3 ℝ)
    (h : Shuttle ray.geometry q n) (hdep : ray.depth ≤ dc.maxDepth) (rays : List TRay) (contribution : Mat (Spectrum ℝ)) (fuel : Nat) : dcTraceRay w dc fuel ⟨rng, rays, contribution⟩ ray = .diverge := by
  induction fuel generalizing rng ray q n with
  | zero => rfl
  | succ fuel ih =>
    obtain ⟨tri, b, hb, hp, hn, _, ⟨i, hcast, hmat, hnor⟩, _⟩ := h.arrives hw rfl
    rw [dcTrace_arrived (m := .mirror c) rfl dc ray h.dir.1 hdep tri b hb i hcast hmat hnor]
    simp only [Material.specularOnly, if_true, Material.getPossiblePaths, Res.bind_ok, Paths.toList, mirrorPaths, Option.toList, List.append_nil, dcSpecularLoop, Rng.gen]
    have hq0 : ¬ rng 0 < dc.countSpecularBounce := not_lt.2 (hq 0)
    simp only [hq0, if_false]
    obtain ⟨q', n', hback⟩ := h.back
    have hm : mirrorDirection ray.geometry.direction n = n := by
      rw [mirror_raw h.dir.2.1 h.dir.1, h.dir.2.2]
      have h1 := Dot_self_of_norm h.dir.2.1
      have : Dot (n.scale (-1)) n = -1 := by rw [← Vec3.dot_eq, Vec3.dot_scale, Vec3.dot_eq, h1]; ring
      rw [this]
      ext <;> simp <;> ring
    rw [ih (fun k => rng (k + 1)) (fun k => hq (k + 1)) _ q' n']
    · rfl
    · simp only [mirrorBsdf, hn, hp]
      have hg : (ray.arrived tri b).geometry = ray.geometry := rfl
      rw [hg, hm]
      exact hback
    · exact hdep

/-- **C96, violated between mirrors.** A sensor between two facing mirrors: with draws that are never below `count_specular_bounce` (any setting below 1 admits some) `calc_dc` never returns, whatever `max_depth`. -/
theorem C96_violation_mirrors (w : World) (c : Spectrum ℝ) (hw : w.Shows (.mirror c) [plane 0, plane 1]) (dc : DcFactory) (hn : 0 < dc.nAmbientSamples) (sensor : Ray3 ℝ) (q n : Vec3 ℝ) (h : Shuttle sensor q n) (e2 : Vec3 ℝ) (he : w.ext.perp sensor.direction = some e2)
    (primary : Nat → Rng) (hp : primary 0 0 = 0) (secondary : Nat → Nat → Rng) (hq : ∀ k, dc.countSpecularBounce ≤ secondary 0 0 k) (rest : List (Ray3 ℝ)) (fuel : Nat) :
    calcDc w dc fuel (sensor :: rest) primary secondary = .diverge := by
  refine calcDc_first w dc hn fuel sensor rest e2 he primary hp secondary .diverge (Or.inr rfl) ?_
  rw [dcShuttle w c hw dc (secondary 0 0) hq _ q n h (Nat.zero_le _)]
  rfl

/-- C94, C96: worlds and draws as in the violations, with the settings `sfluxmtx` uses by default. -/
example (nBins : Nat) (dirToBin : Vec3 ℝ → Nat) : ∃ (w : World) (primary : Nat → Rng) (secondary : Nat → Nat → Rng), (∀ i, (primary i).Valid) ∧ (∀ i k, (secondary i k).Valid) ∧ w.Shows (.mirror Spectrum.one) [plane 0, plane 1] ∧
    ∀ fuel, calcDc w { nBins := nBins, dirToBin := dirToBin, maxDepth := 2, nAmbientSamples := 100, limitWeight := 1 / 1000, countSpecularBounce := 3 / 10 } fuel [⟨⟨0, 0, 1 / 2⟩, ⟨0, 0, -1⟩⟩] primary secondary = .diverge := by
  obtain ⟨w, hw, he⟩ : ∃ w : World, w.Shows (.mirror Spectrum.one) [plane 0, plane 1] ∧ w.ext.perp ⟨0, 0, -1⟩ = some ⟨1, 0, 0⟩ := by
    obtain ⟨w, hw, hs⟩ := shows_exists (.mirror Spectrum.one) rfl [plane 0, plane 1] none
    exact ⟨{ w with ext := ⟨fun _ => some ⟨1, 0, 0⟩, fun _ _ => none⟩ }, ⟨hw.lawful, hw.box, hw.normalized, hw.run⟩, rfl⟩
  refine ⟨w, fun _ _ => 0, fun _ _ _ => 1 / 2, fun _ _ => ⟨le_rfl, one_pos⟩, fun _ _ _ => ⟨by norm_num, by norm_num⟩, hw, fun fuel => ?_⟩
  exact C96_violation_mirrors w _ hw _ (by norm_num) _ ⟨0, 0, 0⟩ ⟨0, 0, 1⟩ (Or.inr ⟨1 / 2, le_rfl, by norm_num, rfl, rfl, rfl⟩) ⟨1, 0, 0⟩ he _ rfl _ (fun _ => by norm_num) [] fuel

end Rendering
