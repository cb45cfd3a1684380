import Verif.Spec.Direct
import Verif.Props.TracerScenes

/-!
# C63: shadow rays and direct light
-/

set_option linter.unusedSectionVars false
namespace Rendering

open Classical

theorem Res.bind_eq_ok {A B : Type} {x : Res A} {f : A → Res B} {b : B} (h : x.bind f = .ok b) : ∃ a, x = .ok a ∧ f a = .ok b := by
  cases x with
  | ok a => exact ⟨a, rfl, h⟩
  | panic => simp [Res.bind] at h
  | diverge => simp [Res.bind] at h

theorem Res.ofOption_eq_ok {A : Type} {x : Option A} {a : A} (h : Res.ofOption x = .ok a) : x = some a := by
  cases x with
  | none => simp [Res.ofOption] at h
  | some b => simp [Res.ofOption] at h; rw [h]

theorem distSq_eq (p q : Vec3 ℝ) : (p - q).lengthSq = distSq p q := by
  simp [Vec3.lengthSq, Vec3.dot, distSq]; ring

/-- **C63, one shadow ray.** `intersect_light` answers `none` exactly when the ray misses the light; black with density zero when something stands between or the light is met edge-on; else the colour of the side met and
the density of the light's sampler. -/
theorem C63_intersect_light (w : World) (s : Scene ℝ) (hR : w.Renders s) (light : Object ℝ) (ray : Ray3 ℝ) (r : Option (Spectrum ℝ × ℝ)) (h : w.intersectLight light ray = .ok r) :
    (r = none ↔ w.ext.primIntersect light.primitive ray = none) ∧
    ∀ info, w.ext.primIntersect light.primitive ray = some info →
      ((Shadowed s ray.origin ray.direction info.p ∨ info.side = .NonApplicable) → r = some (Spectrum.black, 0)) ∧
      (¬ PossiblyShadowed s ray.origin ray.direction info.p → info.side ≠ .NonApplicable →
        ∃ colour pdf, r = some (colour, pdf) ∧ lightColour s light info.side = some colour ∧ light.primitive.solidAnglePdf info ray = .ok pdf) ∧
      (PossiblyShadowed s ray.origin ray.direction info.p ∧ r = some (Spectrum.black, 0) ∨ info.side = .NonApplicable ∧ r = some (Spectrum.black, 0) ∨ ¬ Shadowed s ray.origin ray.direction info.p ∧
        ∃ colour pdf, r = some (colour, pdf) ∧ lightColour s light info.side = some colour ∧ light.primitive.solidAnglePdf info ray = .ok pdf) := by
  unfold World.intersectLight at h
  cases hi : w.ext.primIntersect light.primitive ray with
  | none =>
    rw [hi] at h
    simp only [Res.ok.injEq] at h
    exact ⟨by simp [← h], by simp⟩
  | some info =>
    rw [hi] at h
    simp only [distSq_eq] at h
    obtain ⟨free, e, c1, c2⟩ := C03_unobstructed w.env hR.lawful hR.box s w.scene hR.aligned hR.fits hR.built ray (distSq ray.origin info.p) []
    rw [e, Res.bind_ok] at h
    have hsame := hR.same
    have hS : Shadowed s ray.origin ray.direction info.p → free = false := c1
    have hP : free = false → PossiblyShadowed s ray.origin ray.direction info.p := c2
    cases free with
    | false =>
      simp only [Bool.not_false, if_true, Res.ok.injEq] at h
      refine ⟨by simp [← h], ?_⟩
      rintro _ ⟨⟩
      exact ⟨fun _ => h.symm, fun hn => absurd (hP rfl) hn, Or.inl ⟨hP rfl, h.symm⟩⟩
    | true =>
      have hns : ¬ Shadowed s ray.origin ray.direction info.p := fun hh => by simpa using hS hh
      simp only [Bool.not_true, Bool.false_eq_true, if_false] at h
      have lit : ∀ k : Nat, lightColour s light info.side = (s.materials[k]?).map Material.colour → info.side ≠ .NonApplicable →
          ((Res.ofOption w.scene.materials[k]?).bind fun (m : Material ℝ) => (light.primitive.solidAnglePdf info ray).bind fun pdf => .ok (some (m.colour, pdf))) = Res.ok r →
          ∃ colour pdf, r = some (colour, pdf) ∧ lightColour s light info.side = some colour ∧ light.primitive.solidAnglePdf info ray = .ok pdf := by
        intro k hk _ hh
        obtain ⟨m, hm, hh⟩ := Res.bind_eq_ok hh
        obtain ⟨pdf, hp, hh⟩ := Res.bind_eq_ok hh
        refine ⟨m.colour, pdf, (Res.ok.inj hh).symm, ?_, hp⟩
        have := Res.ofOption_eq_ok hm
        rw [hsame.1] at this
        rw [hk, this]; rfl
      cases hside : info.side with
      | NonApplicable =>
        rw [hside] at h
        simp only [Res.ok.injEq] at h
        refine ⟨by simp [← h], ?_⟩
        rintro _ ⟨⟩
        exact ⟨fun _ => h.symm, fun _ hn => absurd hside hn, Or.inr (Or.inl ⟨hside, h.symm⟩)⟩
      | Front =>
        rw [hside] at h
        have hl := lit light.front (by rw [hside]; rfl) (by simp [hside]) h
        refine ⟨by obtain ⟨c, p, hr, _⟩ := hl; simp [hr], ?_⟩
        rintro _ ⟨⟩
        exact ⟨fun hh => by rcases hh with hh | hh; exact absurd hh hns; simp [hside] at hh, fun _ _ => hl, Or.inr (Or.inr ⟨hns, hl⟩)⟩
      | Back =>
        rw [hside] at h
        have hl := lit light.back (by rw [hside]; rfl) (by simp [hside]) h
        refine ⟨by obtain ⟨c, p, hr, _⟩ := hl; simp [hr], ?_⟩
        rintro _ ⟨⟩
        exact ⟨fun hh => by rcases hh with hh | hh; exact absurd hh hns; simp [hside] at hh, fun _ _ => hl, Or.inr (Or.inr ⟨hns, hl⟩)⟩

/-- How a surface of material `m` answers light from direction `d`. -/
noncomputable def World.response (w : World) (m : Material ℝ) (ray : TRay) (normal e1 e2 d : Vec3 ℝ) : Res (Spectrum ℝ) := m.evalBsdf w.dt normal e1 e2 ray (d.scale (-1))

theorem divBy_mul (v : Spectrum ℝ) (a b : ℝ) : v.divBy (a * b) = (v.divBy b).divBy a := by
  ext <;> simp only [Spectrum.divBy] <;> rw [div_div, mul_comm b a]

theorem divBy_add (u v : Spectrum ℝ) (a : ℝ) : (u + v).divBy a = u.divBy a + v.divBy a := by
  ext
  · exact add_div _ _ _
  · exact add_div _ _ _
  · exact add_div _ _ _

theorem black_divBy (a : ℝ) : (Spectrum.black : Spectrum ℝ).divBy a = Spectrum.black := by
  ext <;> exact zero_div a

/-- The loop over the samples of one light, from sample `i` on. -/
theorem lightLoop_spec (w : World) (s : Scene ℝ) (hR : w.Renders s) (m : Material ℝ) (ray : TRay) (n : Nat) (pt normal e1 e2 : Vec3 ℝ) (light : Object ℝ) :
    ∀ (fuel i : Nat) (acc : Spectrum ℝ) (rng : Rng) (v : Spectrum ℝ) (rng' : Rng), i ≤ n → w.lightLoop m ray n pt normal e1 e2 light fuel i acc rng = .ok (v, rng') →
      ∃ draws values, Draws w.ext light pt rng draws rng' ∧ i + draws.length = n ∧ List.Forall₂ (Brings w s light pt normal (w.response m ray normal e1 e2)) draws values ∧
        v = acc + (spectrumSum values).divBy (n : ℝ) := by
  intro fuel
  induction fuel with
  | zero => intro i acc rng v rng' _ h; simp [World.lightLoop] at h
  | succ fuel ih =>
    intro i acc rng v rng' hin h
    unfold World.lightLoop at h
    by_cases hi : i < n
    · rw [if_pos hi] at h
      obtain ⟨⟨d, rng1⟩, hd, h⟩ := Res.bind_eq_ok h
      simp only at h
      obtain ⟨r, hr, h⟩ := Res.bind_eq_ok h
      obtain ⟨hnone, hsome⟩ := C63_intersect_light w s hR light ⟨pt, d⟩ r hr
      cases hinfo : w.ext.primIntersect light.primitive ⟨pt, d⟩ with
      | none =>
        rw [hnone.2 hinfo] at h
        simp only at h
        obtain ⟨draws, values, g1, g2, g3, g4⟩ := ih i acc rng1 v rng' hin h
        exact ⟨draws, values, .miss hd hinfo (by rintro rfl; simp at g2; omega) g1, g2, g3, g4⟩
      | some info =>
        obtain ⟨h1, h2, h3⟩ := hsome info hinfo
        -- a dark sample counts but adds nothing
        have dark : w.lightLoop m ray n pt normal e1 e2 light fuel (i + 1) acc rng1 = .ok (v, rng') → Brings w s light pt normal (w.response m ray normal e1 e2) (d, info) Spectrum.black →
            ∃ draws values, Draws w.ext light pt rng draws rng' ∧ i + draws.length = n ∧ List.Forall₂ (Brings w s light pt normal (w.response m ray normal e1 e2)) draws values ∧
              v = acc + (spectrumSum values).divBy (n : ℝ) := by
          intro hk hb
          obtain ⟨draws, values, g1, g2, g3, g4⟩ := ih (i + 1) acc rng1 v rng' hi hk
          refine ⟨(d, info) :: draws, Spectrum.black :: values, .meet hd hinfo g1, by simp only [List.length_cons]; omega, .cons hb g3, ?_⟩
          rw [g4, spectrumSum, spectrum_black_add]
        have tiny : (0 : ℝ) < 1 / 10 ^ 18 := by norm_num
        rcases h3 with ⟨hp, rfl⟩ | ⟨hs, rfl⟩ | ⟨hns, colour, pdf, rfl, hc, hpdf⟩
        · simp only [tiny, if_true] at h
          exact dark h (.shadow d info hp)
        · simp only [tiny, if_true] at h
          exact dark h (.grazing d info (Or.inl hs))
        · simp only at h
          by_cases hlow : pdf < 1 / 10 ^ 18
          · rw [if_pos hlow] at h
            exact dark h (.grazing d info (Or.inr ⟨pdf, hpdf, hlow⟩))
          · rw [if_neg hlow] at h
            obtain ⟨t, ht, h⟩ := Res.bind_eq_ok h
            unfold World.lightTerm at ht
            simp only at ht
            obtain ⟨f, hf, ht⟩ := Res.bind_eq_ok ht
            obtain ⟨draws, values, g1, g2, g3, g4⟩ := ih (i + 1) (acc + t) rng1 v rng' hi h
            refine ⟨(d, info) :: draws, ((colour.scale |normal.dot d|) * f).divBy pdf :: values, .meet hd hinfo g1, by simp only [List.length_cons]; omega,
              .cons (.lit d info colour f pdf hns hc hpdf (not_lt.1 hlow) hf) g3, ?_⟩
            rw [g4, spectrumSum, divBy_add, ← Res.ok.inj ht, divBy_mul, spectrum_add_assoc]
    · rw [if_neg hi] at h
      simp only [Res.ok.injEq, Prod.mk.injEq] at h
      refine ⟨[], [], ?_, by simp only [List.length_nil]; omega, .nil, ?_⟩
      · rw [h.2]; exact .done _
      · rw [spectrumSum, black_divBy, spectrum_add_black]; exact h.1.symm

theorem lightsLoop_spec (w : World) (s : Scene ℝ) (hR : w.Renders s) (fuel : Nat) (m : Material ℝ) (ray : TRay) (n : Nat) (pt normal e1 e2 : Vec3 ℝ) :
    ∀ (lights : List (Object ℝ)) (acc : Spectrum ℝ) (rng : Rng) (v : Spectrum ℝ) (rng' : Rng), w.lightsLoop fuel m ray n pt normal e1 e2 lights acc rng = .ok (v, rng') →
      ∃ sum, DirectLight w s n pt normal (w.response m ray normal e1 e2) lights rng sum rng' ∧ v = acc + sum := by
  intro lights
  induction lights with
  | nil =>
    intro acc rng v rng' h
    simp only [World.lightsLoop, Res.ok.injEq, Prod.mk.injEq] at h
    refine ⟨Spectrum.black, ?_, ?_⟩
    · rw [h.2]; exact .none _
    · rw [spectrum_add_black]; exact h.1.symm
  | cons light others ih =>
    intro acc rng v rng' h
    unfold World.lightsLoop at h
    obtain ⟨⟨a, rng1⟩, h1, h⟩ := Res.bind_eq_ok h
    obtain ⟨draws, values, g1, g2, g3, g4⟩ := lightLoop_spec w s hR m ray n pt normal e1 e2 light fuel 0 acc rng a rng1 (Nat.zero_le _) h1
    obtain ⟨sum, k1, k2⟩ := ih a rng1 v rng' h
    exact ⟨_, .light g1 (by omega) g3 k1, by rw [k2, g4, spectrum_add_assoc]⟩

/-- **C63.** Whatever the scene, the material, the ray that arrived and the draws: the direct light that is added is, for each light of the scene, near or distant, the mean over `n` directions that meet the
light of what each brings; a direction brings light only if no triangle stands between. The point from which the light is sampled is a thousandth of a unit off the surface. -/
theorem C63_direct_light_is_mean (w : World) (s : Scene ℝ) (hR : w.Renders s) (fuel : Nat) (m : Material ℝ) (ray : TRay) (n : Nat) (rng : Rng) (v : Spectrum ℝ) (rng' : Rng)
    (h : w.localIllumination fuel m ray rng n = .ok (v, rng')) :
    let shading := ray.interaction.shading
    let pt := ray.interaction.point + shading.normal.scale (1 / 1000)
    let bsdf := w.response m ray shading.normal shading.dpdu shading.dpdv
    ∃ near distant rng1, DirectLight w s n pt shading.normal bsdf s.lights rng near rng1 ∧ DirectLight w s n pt shading.normal bsdf s.distantLights rng1 distant rng' ∧ v = near + distant := by
  intro shading pt bsdf
  unfold World.localIllumination at h
  obtain ⟨⟨a, rng1⟩, h1, h⟩ := Res.bind_eq_ok h
  simp only at h
  obtain ⟨⟨b, rng2⟩, h2, h⟩ := Res.bind_eq_ok h
  simp only [Res.ok.injEq, Prod.mk.injEq] at h
  obtain ⟨near, k1, k2⟩ := lightsLoop_spec w s hR fuel m ray n _ _ _ _ _ _ rng a rng1 h1
  obtain ⟨distant, k3, k4⟩ := lightsLoop_spec w s hR fuel m ray n _ _ _ _ _ _ rng1 b rng2 h2
  rw [hR.same.2.1] at k1
  rw [hR.same.2.2] at k3
  refine ⟨near, distant, rng1, k1, ?_, ?_⟩
  · rw [← h.2]; exact k3
  · rw [← h.1, k2, k4, spectrum_black_add, spectrum_black_add]

/-- **C63, shadows.** If every direction from the point is shadowed, whatever is met of the lights, the direct light is black. -/
theorem C63_in_shadow (w : World) (s : Scene ℝ) (n : Nat) (pt normal : Vec3 ℝ) (bsdf : Vec3 ℝ → Res (Spectrum ℝ)) (lights : List (Object ℝ)) (rng rng' : Rng) (sum : Spectrum ℝ)
    (h : DirectLight w s n pt normal bsdf lights rng sum rng') (hs : ∀ light ∈ lights, ∀ d info, w.ext.primIntersect light.primitive ⟨pt, d⟩ = some info → Shadowed s pt d info.p) :
    sum = Spectrum.black := by
  have hdraw : ∀ (light : Object ℝ) rng draws rng', Draws w.ext light pt rng draws rng' → ∀ x ∈ draws, w.ext.primIntersect light.primitive ⟨pt, x.1⟩ = some x.2 := by
    intro light rng draws rng' h
    induction h with
    | done => simp
    | miss _ _ _ _ ih => exact ih
    | meet hd hm _ ih =>
      intro x hx
      rcases List.mem_cons.1 hx with rfl | hx
      · exact hm
      · exact ih x hx
  induction h with
  | none => rfl
  | @light light others _ _ _ draws values sum hd hn hv _ ih =>
    rw [ih fun l hl => hs l (List.mem_cons_of_mem _ hl), spectrum_add_black]
    have hb : spectrumSum values = Spectrum.black := by
      have hall := hdraw light _ _ _ hd
      clear hd hn
      induction hv with
      | nil => rfl
      | @cons x v l vs hx _ ihv =>
        rw [spectrumSum, ihv fun y hy => hall y (List.mem_cons_of_mem _ hy), spectrum_add_black]
        obtain ⟨d, info⟩ := x
        have hsh := hs light List.mem_cons_self d info (hall (d, info) List.mem_cons_self)
        cases hx with
        | shadow => rfl
        | grazing => rfl
        | lit _ _ _ _ _ hn => exact absurd hsh hn
    rw [hb, black_divBy]

/-- Any aligned scene that fits the accelerator is rendered by some world, whatever the external functions of the samplers, the sky and the sky's colour. -/
theorem renders_exists (s : Scene ℝ) (hs : s.Aligned) (hf : FitsAccelerator s.triangles) (ext : GeoExt) (dt : DirTests) (sky : Option (Vec3 ℝ → ℝ)) (c : Option (Spectrum ℝ)) :
    ∃ w : World, w.Renders s ∧ w.ext = ext ∧ w.dt = dt ∧ w.sky = sky ∧ w.skyColour = c := by
  obtain ⟨s1, bvh, e, _⟩ := rebuild_spec realEnv refEnv_lawful s hs
  exact ⟨⟨s1, realEnv, ext, dt, sky, c⟩, ⟨refEnv_lawful, refEnv_conservative, hs, hf, Or.inr e⟩, rfl, rfl, rfl, rfl⟩

/-- **C63, progress.** If every direction drawn towards the light meets it, on a side whose material is in range, then `n` samples are enough, and the loop ends. -/
theorem C63_samples_end (w : World) (s : Scene ℝ) (hR : w.Renders s) (m : Material ℝ) (ray : TRay) (n : Nat) (pt normal e1 e2 : Vec3 ℝ) (light : Object ℝ)
    (hdir : ∀ rng, ∃ d rng', light.primitive.sampleDirection w.ext rng pt = .ok (d, rng'))
    (hmeet : ∀ d, ∃ info pdf, w.ext.primIntersect light.primitive ⟨pt, d⟩ = some info ∧ light.primitive.solidAnglePdf info ⟨pt, d⟩ = .ok pdf)
    (hf : light.front < s.materials.length) (hb : light.back < s.materials.length) (hbsdf : ∀ d, ∃ f, w.response m ray normal e1 e2 d = .ok f) :
    ∀ (k fuel : Nat) (acc : Spectrum ℝ) (rng : Rng), k ≤ n → k < fuel → ∃ v rng', w.lightLoop m ray n pt normal e1 e2 light fuel (n - k) acc rng = .ok (v, rng') := by
  intro k
  induction k with
  | zero =>
    intro fuel acc rng _ hfu
    obtain ⟨fuel, rfl⟩ := Nat.exists_eq_succ_of_ne_zero (Nat.pos_iff_ne_zero.1 hfu)
    unfold World.lightLoop
    rw [if_neg (by omega)]
    exact ⟨_, _, rfl⟩
  | succ k ih =>
    intro fuel acc rng hk hfu
    obtain ⟨fuel, rfl⟩ := Nat.exists_eq_succ_of_ne_zero (Nat.pos_iff_ne_zero.1 (lt_of_le_of_lt (Nat.zero_le _) hfu))
    unfold World.lightLoop
    rw [if_pos (by omega)]
    obtain ⟨d, rng1, hd⟩ := hdir rng
    obtain ⟨info, pdf, hi, hp⟩ := hmeet d
    have hstep : n - (k + 1) + 1 = n - k := by omega
    have hI : ∃ x, w.intersectLight light ⟨pt, d⟩ = .ok (some x) := by
      unfold World.intersectLight
      rw [hi]
      simp only [distSq_eq]
      obtain ⟨free, e, _⟩ := C03_unobstructed w.env hR.lawful hR.box s w.scene hR.aligned hR.fits hR.built ⟨pt, d⟩ (distSq pt info.p) []
      rw [e, Res.bind_ok]
      cases free with
      | false => exact ⟨_, rfl⟩
      | true =>
        simp only [Bool.not_true, Bool.false_eq_true, if_false]
        cases info.side with
        | NonApplicable => exact ⟨_, rfl⟩
        | Front =>
          simp only [hR.same.1, List.getElem?_eq_getElem hf, Res.ofOption_some, Res.bind_ok, hp]
          exact ⟨_, rfl⟩
        | Back =>
          simp only [hR.same.1, List.getElem?_eq_getElem hb, Res.ofOption_some, Res.bind_ok, hp]
          exact ⟨_, rfl⟩
    obtain ⟨⟨colour, pdf'⟩, hI⟩ := hI
    rw [hd, Res.bind_ok]
    simp only [hI, Res.bind_ok]
    by_cases hlow : pdf' < 1 / 10 ^ 18
    · rw [if_pos hlow, hstep]
      exact ih fuel acc rng1 (by omega) (by omega)
    · rw [if_neg hlow]
      obtain ⟨f, hf'⟩ := hbsdf d
      unfold World.response at hf'
      unfold World.lightTerm
      simp only [hf', Res.bind_ok]
      rw [hstep]
      exact ih fuel _ rng1 (by omega) (by omega)

/-- A floor under a sun: the hypotheses of C63 are met, and the loop takes its ten samples. -/
example : ∃ (w : World) (s : Scene ℝ), w.Renders s ∧ s.distantLights ≠ [] ∧ s.triangles ≠ [] ∧ ∀ rng, ∃ v rng', w.localIllumination 11 (.plastic (Spectrum.gray (1 / 2)) 0 0) downRay rng 10 = .ok (v, rng') := by
  let sun : Object ℝ := { front := 1, back := 1, primitive := .source ⟨0, 0, 1⟩ 1 }
  let s : Scene ℝ := { triangles := [plane 0], normals := [(⟨0, 0, 1⟩, ⟨0, 0, 1⟩, ⟨0, 0, 1⟩)], front := [0], back := [0], materials := [.plastic (Spectrum.gray (1 / 2)) 0 0, .light (Spectrum.gray 5)], distantLights := [sun] }
  obtain ⟨w, hR, he, _⟩ := renders_exists s ⟨rfl, rfl, rfl⟩ (fits_of_small _ (by simp [s])) ⟨fun _ => some ⟨1, 0, 0⟩, fun _ _ => some ⟨⟨0, 0, 1000⟩, ⟨0, 0, 1⟩, ⟨1, 0, 0⟩, ⟨0, 1, 0⟩, .Front, 0, 0⟩⟩
    ⟨fun _ _ => false, fun _ _ => false⟩ none none
  refine ⟨w, s, hR, by simp [s], by simp [s], fun rng => ?_⟩
  unfold World.localIllumination World.sampleLightArray
  rw [hR.same.2.1, hR.same.2.2]
  simp only [s, World.lightsLoop, Res.bind_ok]
  obtain ⟨v, rng', hv⟩ := C63_samples_end w s hR (.plastic (Spectrum.gray (1 / 2)) 0 0) downRay 10 (downRay.getTriad.1 + downRay.getTriad.2.1.scale (1 / 1000)) downRay.getTriad.2.1 downRay.getTriad.2.2.1 downRay.getTriad.2.2.2 sun
    (fun rng => by rw [he]; exact ⟨_, _, rfl⟩) (fun d => by rw [he]; exact ⟨_, _, rfl, rfl⟩) (by simp [s, sun]) (by simp [s, sun]) (fun d => ⟨_, rfl⟩) 10 11 Spectrum.black rng le_rfl (by norm_num)
  simp only [Nat.sub_self] at hv
  rw [hv]
  exact ⟨_, _, rfl⟩

end Rendering
