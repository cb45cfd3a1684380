import Verif.Spec.Obstacles
import Verif.Props.Superposition
import Verif.Props.SkyView
import Verif.Props.Noise
import Verif.Props.SpecularTrees

/-!
# C115: obstacles only take light away
-/

set_option linter.unusedSectionVars false
namespace Rendering

section
variable {K : Type} [Field K] [LinearOrder K] [IsStrictOrderedRing K] [FloorRing K]

theorem obstacle_step (env : SceneEnv K) (hM : env.MeshAligned) {s s' : Scene K} {op : SceneOp K} (ho : op.Obstacle s.materials) (ha : s.Aligned) (h : s.step env op = .ok s') :
    s'.materials = s.materials ∧ s'.lights = s.lights ∧ s'.distantLights = s.distantLights ∧ s.triangles.Sublist s'.triangles ∧ s'.Aligned := by
  obtain ⟨f, b, p, rfl, hf, hb⟩ := ho
  have h : s.pushObject env f b p = .ok s' := h
  obtain ⟨_, e1, e2, _, e4, e5, e6, e7, _, e9⟩ := pushObject_ok env s s' f b p h
  obtain ⟨l1, l2⟩ := e9 (by tauto)
  have hml : (env.meshPair p).2.length = (env.meshPair p).1.length := by
    cases p with
    | sphere c r => exact hM c r
    | _ => rfl
  refine ⟨e1, l1, l2, by rw [e4]; exact List.sublist_append_left _ _, ?_⟩
  obtain ⟨a1, a2, a3⟩ := ha
  refine ⟨?_, ?_, ?_⟩ <;> simp only [e4, e5, e6, e7, List.length_append, List.length_replicate] <;> omega

theorem obstacle_run (env : SceneEnv K) (hM : env.MeshAligned) (ops : List (SceneOp K)) {s s' : Scene K} (ho : ∀ op ∈ ops, op.Obstacle s.materials) (ha : s.Aligned) (h : s.run env ops = .ok s') :
    s'.materials = s.materials ∧ s'.lights = s.lights ∧ s'.distantLights = s.distantLights ∧ s.triangles.Sublist s'.triangles ∧ s'.Aligned := by
  induction ops generalizing s with
  | nil => cases h; exact ⟨rfl, rfl, rfl, List.Sublist.refl _, ha⟩
  | cons op ops ih =>
    obtain ⟨s1, h1, h2⟩ := Res.bind_eq_ok h
    obtain ⟨a1, a2, a3, a4, a5⟩ := obstacle_step env hM (ho op (by simp)) ha h1
    obtain ⟨b1, b2, b3, b4, b5⟩ := ih (fun o hm => by rw [a1]; exact ho o (by simp [hm])) a5 h2
    exact ⟨b1.trans a1, b2.trans a2, b3.trans a3, a4.trans b4, b5⟩

theorem fits_of_sublist {l l' : List (Tri K)} (h : l.Sublist l') (hf : FitsAccelerator l') : FitsAccelerator l :=
  ⟨h.length_le.trans_lt hf.1, fun x hx => hf.2 x (hx.trans h.subperm)⟩

/-- **C115.** Push further objects onto a scene, and build the accelerator of both. Any ray that hits the scene hits the extended one, and no farther away. (For rays clear of the tolerance band around the edges of the first scene's triangles.) -/
theorem C115_no_farther (env : SceneEnv K) (hE : env.bvh.Lawful) (hB : env.bvh.BoxTestConservative) (hM : env.MeshAligned) (s s' b b' : Scene K) (hs : s.Aligned) (ops : List (SceneOp K)) (ho : ∀ op ∈ ops, op.Obstacle s.materials)
    (hrun : s.run env ops = .ok s') (hfit : FitsAccelerator s'.triangles) (hb : s.BuiltFrom env b) (hb' : s'.BuiltFrom env b') (ray : Ray3 K) (hclear : ∀ tri ∈ s.triangles, ClearOfEdges ray tri) (scratch scratch' : List Nat)
    (i : Nat) (x : Bary K) (h : b.castRay env ray scratch = .ok (some (i, x))) :
    ∃ i' x', b'.castRay env ray scratch' = .ok (some (i', x')) ∧ distSq x'.p ray.origin ≤ distSq x.p ray.origin := by
  obtain ⟨_, _, _, hsub, hs'⟩ := obstacle_run env hM ops ho hs hrun
  obtain ⟨_, _, hp, bvh, hacc, hA⟩ := builtFrom_spec env hE hs hb
  have hf := fits_of_sublist hsub hfit
  have hlen : b.triangles.length < 2 ^ 30 := by rw [hp.length_eq]; exact hf.1
  obtain ⟨r, e, h1, _⟩ := intersect_spec env.bvh bvh b.triangles (hA hf) hlen ray scratch _ (boxHit_of_reached env.bvh hB ray)
  have hc : b.castRay env ray scratch = .ok r := by unfold Scene.castRay; rw [hacc]; exact e
  rw [hc] at h
  obtain ⟨tri, g1, g2, g3, _⟩ := h1 i x (Res.ok.inj h)
  have hm := hp.mem_iff.1 (List.mem_of_getElem? g1)
  obtain ⟨hs1, hs2⟩ := baricentric_sound ray tri x g2
  obtain ⟨c1, c2, c3⟩ := hclear tri hm _ _ _ _ hs1
  have hv : VisibleHit ray tri (distSq x.p ray.origin) := ⟨x.t, x.p, ⟨hs1.1, x.u, x.v, c1, c2, c3, hs1.2.2.1⟩, hs1.2.1, hs2, rfl⟩
  obtain ⟨r', k1, k2, _⟩ := C02_cast_ray_misses_nothing env hE hB s' b' hs' hfit hb' ray scratch'
  cases r' with
  | none => exact absurd g3 (k2 rfl tri (hsub.subset hm) _ hv)
  | some y =>
    obtain ⟨i', x'⟩ := y
    refine ⟨i', x', k1, ?_⟩
    obtain ⟨_, _, _, _, _, k4⟩ := C01_cast_ray_nearest env hE hB s' b' hs' hfit hb' ray scratch' i' x' k1
    exact k4 tri (hsub.subset hm) _ hv g3.1

/-- **C115.** And a point that is in view in the extended scene was in view before. -/
theorem C115_still_in_view (env : SceneEnv K) (hE : env.bvh.Lawful) (hB : env.bvh.BoxTestConservative) (hM : env.MeshAligned) (s s' b b' : Scene K) (hs : s.Aligned) (ops : List (SceneOp K)) (ho : ∀ op ∈ ops, op.Obstacle s.materials)
    (hrun : s.run env ops = .ok s') (hfit : FitsAccelerator s'.triangles) (hb : s.BuiltFrom env b) (hb' : s'.BuiltFrom env b') (ray : Ray3 K) (hclear : ∀ tri ∈ s.triangles, ClearOfEdges ray tri) (D : K) (scratch scratch' : List Nat)
    (h : b'.unobstructedDistance env ray D scratch' = .ok true) : b.unobstructedDistance env ray D scratch = .ok true := by
  obtain ⟨_, _, _, hsub, hs'⟩ := obstacle_run env hM ops ho hs hrun
  obtain ⟨r, k1, _, _⟩ := C03_unobstructed env hE hB s b hs (fits_of_sublist hsub hfit) hb ray D scratch
  cases r with
  | true => exact k1
  | false =>
    obtain ⟨tri, ht, d2, hv, hbl⟩ := (C03_unobstructed_iff env hE hB s b hs (fits_of_sublist hsub hfit) hb ray D hclear scratch).1 k1
    obtain ⟨r', q1, q2, _⟩ := C03_unobstructed env hE hB s' b' hs' hfit hb' ray D scratch'
    rw [h] at q1
    have := q2 ⟨tri, hsub.subset ht, d2, hv, hbl⟩
    rw [this] at q1
    cases q1

end

open Classical

section
variable {w w' : World} {s s' : Scene ℝ}

/-- The two worlds: the second has further objects in it. -/
structure World.Crowded (w w' : World) (s s' : Scene ℝ) : Prop where
  env : w'.env = w.env
  ext : w'.ext = w.ext
  dt : w'.dt = w.dt
  mesh : w.env.MeshAligned
  renders : w.Renders s
  renders' : w'.Renders s'
  pushed : ∃ ops, (∀ op ∈ ops, op.Obstacle s.materials) ∧ s.run w.env ops = .ok s'

theorem World.Crowded.same (h : w.Crowded w' s s') : w'.scene.materials = w.scene.materials ∧ w'.scene.lights = w.scene.lights ∧ w'.scene.distantLights = w.scene.distantLights := by
  obtain ⟨ops, ho, hr⟩ := h.pushed
  obtain ⟨a1, a2, a3, _, _⟩ := obstacle_run w.env h.mesh ops ho h.renders.aligned hr
  obtain ⟨b1, b2, b3⟩ := h.renders.same
  obtain ⟨c1, c2, c3⟩ := h.renders'.same
  exact ⟨by rw [c1, a1, b1], by rw [c2, a2, b2], by rw [c3, a3, b3]⟩

theorem World.Crowded.view (h : w.Crowded w' s s') (ray : Ray3 ℝ) (hclear : ∀ tri ∈ s.triangles, ClearOfEdges ray tri) (D : ℝ) :
    (w.scene.unobstructedDistance w.env ray D [] = w'.scene.unobstructedDistance w'.env ray D []) ∨
    (w.scene.unobstructedDistance w.env ray D [] = .ok true ∧ w'.scene.unobstructedDistance w'.env ray D [] = .ok false) := by
  obtain ⟨ops, ho, hr⟩ := h.pushed
  have hb' := h.renders'.built
  rw [h.env] at hb'
  obtain ⟨_, _, _, _, hs'⟩ := obstacle_run w.env h.mesh ops ho h.renders.aligned hr
  have key := C115_still_in_view w.env h.renders.lawful h.renders.box h.mesh s s' w.scene w'.scene h.renders.aligned ops ho hr h.renders'.fits h.renders.built hb' ray hclear D [] []
  obtain ⟨r, e, _⟩ := C03_unobstructed w.env h.renders.lawful h.renders.box s w.scene h.renders.aligned h.renders.fits h.renders.built ray D []
  obtain ⟨r', e', _⟩ := C03_unobstructed w.env h.renders.lawful h.renders.box s' w'.scene hs' h.renders'.fits hb' ray D []
  rw [e, e'] at key
  rw [h.env, e, e']
  cases r <;> cases r' <;> first | exact Or.inl rfl | exact Or.inr ⟨rfl, rfl⟩ | exact absurd (key rfl) (by simp)

theorem Spectrum.AtMost.refl (a : Spectrum ℝ) : a.AtMost a := ⟨le_rfl, le_rfl, le_rfl⟩

theorem Spectrum.AtMost.add {a b c d : Spectrum ℝ} (h : a.AtMost b) (h' : c.AtMost d) : (a + c).AtMost (b + d) := by
  obtain ⟨h1, h2, h3⟩ := h
  obtain ⟨k1, k2, k3⟩ := h'
  refine ⟨?_, ?_, ?_⟩ <;> simp only [Spectrum.add_c0, Spectrum.add_c1, Spectrum.add_c2] <;> linarith

theorem Spectrum.AtMost.add_right {a b c : Spectrum ℝ} (h : a.AtMost b) (h' : c.Nonneg) : a.AtMost (b + c) := by
  obtain ⟨h1, h2, h3⟩ := h
  obtain ⟨k1, k2, k3⟩ := h'
  refine ⟨?_, ?_, ?_⟩ <;> simp only [Spectrum.add_c0, Spectrum.add_c1, Spectrum.add_c2] <;> linarith

/-- A surface that scatters: plastic or metal. -/
def Material.Scatters (m : Material ℝ) : Prop := ∃ c s r, m = .plastic c s r ∨ m = .metal c s r

theorem scatters_bsdf {m : Material ℝ} (hm : m.Scatters) (hp : m.Physical) (dt : DirTests) (n e1 e2 vout : Vec3 ℝ) (ray : TRay) : ∃ b, m.evalBsdf dt n e1 e2 ray vout = .ok b ∧ b.Nonneg := by
  obtain ⟨c, s, r, rfl | rfl⟩ := hm
  · obtain ⟨b, b', h1, h2, h3, h4⟩ := C51_materials_nonneg dt c hp.1 s r hp.2.1 hp.2.2 n e1 e2 vout ray
    exact ⟨b, h1, h3⟩
  · obtain ⟨b, b', h1, h2, h3, h4⟩ := C51_materials_nonneg dt c hp.1 s r hp.2.1 hp.2.2 n e1 e2 vout ray
    exact ⟨b', h2, h4⟩

theorem lightTerm_nonneg {m : Material ℝ} (hm : m.Scatters) (hp : m.Physical) (w : World) (ray : TRay) (n : Nat) (normal e1 e2 d : Vec3 ℝ) (c : Spectrum ℝ) (hc : c.Nonneg) (pdf : ℝ) (hpdf : 0 ≤ pdf) :
    ∃ t, w.lightTerm m ray n normal e1 e2 d c pdf = .ok t ∧ t.Nonneg := by
  obtain ⟨b, hb, b0, b1, b2⟩ := scatters_bsdf hm hp w.dt normal e1 e2 (d.scale (-1)) ray
  obtain ⟨c0, c1, c2⟩ := hc
  refine ⟨_, by unfold World.lightTerm; simp only [hb, Res.bind_ok]; rfl, ?_⟩
  have := abs_nonneg (normal.dot d)
  refine ⟨?_, ?_, ?_⟩ <;> simp only [Spectrum.divBy, Spectrum.scale, Spectrum.mul_c0, Spectrum.mul_c1, Spectrum.mul_c2] <;> positivity

/-- What a shadow ray may bring in the two worlds. -/
theorem intersectLight_crowded (h : w.Crowded w' s s') (light : Object ℝ) (ray : Ray3 ℝ)
    (hclear : ∀ tri ∈ s.triangles, ClearOfEdges ray tri) :
    w'.intersectLight light ray = w.intersectLight light ray ∨ (w'.intersectLight light ray = .ok (some (Spectrum.black, 0)) ∧ w.intersectLight light ray ≠ .ok none) := by
  obtain ⟨e1, _, _⟩ := h.same
  unfold World.intersectLight
  rw [h.ext, e1]
  cases w.ext.primIntersect light.primitive ray with
  | none => left; rfl
  | some info =>
    simp only
    rcases h.view ray hclear (ray.origin - info.p).lengthSq with hv | ⟨h1, h2⟩
    · left; rw [hv]
    · right
      rw [h1, h2]
      simp only [Res.bind_ok, Bool.not_false, if_true, Bool.not_true, Bool.false_eq_true, if_false]
      refine ⟨trivial, ?_⟩
      cases info.side <;> simp only [ne_eq] <;> intro hx
      · obtain ⟨_, _, hx⟩ := Res.bind_eq_ok hx
        obtain ⟨_, _, hx⟩ := Res.bind_eq_ok hx
        cases hx
      · obtain ⟨_, _, hx⟩ := Res.bind_eq_ok hx
        obtain ⟨_, _, hx⟩ := Res.bind_eq_ok hx
        cases hx
      · cases hx

/-- The colour of what a shadow ray meets is not negative. -/
theorem intersectLight_colour (hmat : ∀ m ∈ w.scene.materials, m.colour.Nonneg) (light : Object ℝ) (ray : Ray3 ℝ) (c : Spectrum ℝ) (pdf : ℝ) (h : w.intersectLight light ray = .ok (some (c, pdf))) : c.Nonneg := by
  have hblack : (Spectrum.black : Spectrum ℝ).Nonneg := by simp [Spectrum.Nonneg, Spectrum.black, Spectrum.gray]
  unfold World.intersectLight at h
  cases hi : w.ext.primIntersect light.primitive ray with
  | none => rw [hi] at h; cases h
  | some info =>
    rw [hi] at h
    simp only at h
    obtain ⟨free, _, h⟩ := Res.bind_eq_ok h
    cases free with
    | false => simp at h; rw [← h.1]; exact hblack
    | true =>
      simp only [Bool.not_true, Bool.false_eq_true, if_false] at h
      cases hs : info.side with
      | NonApplicable => rw [hs] at h; simp at h; rw [← h.1]; exact hblack
      | Front =>
        rw [hs] at h
        obtain ⟨m, hm, h⟩ := Res.bind_eq_ok h
        obtain ⟨_, _, h⟩ := Res.bind_eq_ok h
        simp at h
        rw [← h.1]
        exact hmat m (List.mem_of_getElem? (Res.ofOption_eq_ok hm))
      | Back =>
        rw [hs] at h
        obtain ⟨m, hm, h⟩ := Res.bind_eq_ok h
        obtain ⟨_, _, h⟩ := Res.bind_eq_ok h
        simp at h
        rw [← h.1]
        exact hmat m (List.mem_of_getElem? (Res.ofOption_eq_ok hm))

theorem lightLoop_crowded (h : w.Crowded w' s s') (hmat : ∀ m ∈ w.scene.materials, m.colour.Nonneg) {m : Material ℝ} (hm : m.Scatters) (hp : m.Physical) (ray : TRay) (n : Nat) (pt normal e1 e2 : Vec3 ℝ) (light : Object ℝ) (rng0 : Rng)
    (hclear : SamplesClear w.ext [light] s.triangles pt rng0) (fuel i k : Nat) (acc acc' v : Spectrum ℝ) (rng1 : Rng) (ha : acc'.AtMost acc) (hv : w.lightLoop m ray n pt normal e1 e2 light fuel i acc (fun j => rng0 (j + k)) = .ok (v, rng1)) :
    ∃ v' k', w'.lightLoop m ray n pt normal e1 e2 light fuel i acc' (fun j => rng0 (j + k)) = .ok (v', rng1) ∧ v'.AtMost v ∧ rng1 = fun j => rng0 (j + k') := by
  induction fuel generalizing i k acc acc' with
  | zero => cases hv
  | succ fuel ih =>
    unfold World.lightLoop at hv ⊢
    by_cases hi : i < n
    · rw [if_pos hi] at hv
      rw [if_pos hi, h.ext]
      obtain ⟨⟨d, r⟩, hd, hv⟩ := Res.bind_eq_ok hv
      rw [hd, Res.bind_ok]
      have hr := sampleDirection_draws _ _ _ _ _ _ hd
      have hr : r = fun j => rng0 (j + (k + 2)) := by
        rw [hr]; funext j; show rng0 (j + 2 + k) = _; congr 1; omega
      subst hr
      obtain ⟨x, hx, hv⟩ := Res.bind_eq_ok hv
      simp only at hx hv ⊢
      have hcl := hclear light (by simp) k d _ hd
      rcases intersectLight_crowded h light ⟨pt, d⟩ hcl with he | ⟨he, hne⟩
      · rw [he, hx, Res.bind_ok]
        cases x with
        | none => exact ih _ _ _ _ ha hv
        | some x =>
          obtain ⟨c, pdf⟩ := x
          simp only at hv ⊢
          by_cases hpd : pdf < 1 / 10 ^ 18
          · rw [if_pos hpd] at hv ⊢
            exact ih _ _ _ _ ha hv
          · rw [if_neg hpd] at hv ⊢
            obtain ⟨t, ht, hv⟩ := Res.bind_eq_ok hv
            have ht' : w'.lightTerm m ray n normal e1 e2 d c pdf = .ok t := by
              rw [← ht]; unfold World.lightTerm; rw [h.dt]
            rw [ht', Res.bind_ok]
            exact ih _ _ _ _ (ha.add (Spectrum.AtMost.refl t)) hv
      · rw [he, Res.bind_ok]
        simp only
        rw [if_pos (by norm_num)]
        cases x with
        | none => exact absurd hx hne
        | some x =>
          obtain ⟨c, pdf⟩ := x
          simp only at hv
          by_cases hpd : pdf < 1 / 10 ^ 18
          · rw [if_pos hpd] at hv
            exact ih _ _ _ _ ha hv
          · rw [if_neg hpd] at hv
            obtain ⟨t, ht, hv⟩ := Res.bind_eq_ok hv
            obtain ⟨t', ht', htn⟩ := lightTerm_nonneg hm hp w ray n normal e1 e2 d c (intersectLight_colour hmat light _ _ _ hx) pdf (by push Not at hpd; exact le_trans (by norm_num) hpd)
            rw [ht] at ht'
            cases ht'
            exact ih _ _ _ _ (ha.add_right htn) hv
    · rw [if_neg hi] at hv
      rw [if_neg hi]
      cases hv
      exact ⟨acc', k, rfl, ha, rfl⟩

theorem lightsLoop_crowded (h : w.Crowded w' s s') (hmat : ∀ m ∈ w.scene.materials, m.colour.Nonneg) {m : Material ℝ} (hm : m.Scatters) (hp : m.Physical) (ray : TRay) (n : Nat) (pt normal e1 e2 : Vec3 ℝ) (rng0 : Rng) (fuel : Nat) (lights : List (Object ℝ))
    (hclear : SamplesClear w.ext lights s.triangles pt rng0) (k : Nat) (acc acc' v : Spectrum ℝ) (rng1 : Rng) (ha : acc'.AtMost acc) (hv : w.lightsLoop fuel m ray n pt normal e1 e2 lights acc (fun j => rng0 (j + k)) = .ok (v, rng1)) :
    ∃ v' k', w'.lightsLoop fuel m ray n pt normal e1 e2 lights acc' (fun j => rng0 (j + k)) = .ok (v', rng1) ∧ v'.AtMost v ∧ rng1 = fun j => rng0 (j + k') := by
  induction lights generalizing k acc acc' with
  | nil => cases hv; exact ⟨acc', k, rfl, ha, rfl⟩
  | cons light rest ih =>
    unfold World.lightsLoop at hv ⊢
    obtain ⟨⟨a, r⟩, h1, hv⟩ := Res.bind_eq_ok hv
    obtain ⟨a', k', h2, h3, h4⟩ := lightLoop_crowded h hmat hm hp ray n pt normal e1 e2 light rng0 (fun l hl => hclear l (by simp at hl; simp [hl])) fuel 0 k acc acc' a r ha h1
    subst h4
    rw [h2, Res.bind_ok]
    exact ih (fun l hl => hclear l (by simp [hl])) k' a a' h3 hv

/-- **C115.** At a point of a plastic or metal surface, with the same random numbers, further objects that do not emit can only take direct light away: in no channel does more of it arrive than without them, and the same random numbers
are used. (For samples clear of the tolerance band around the edges of the triangles already there.) -/
theorem C115_direct_light (h : w.Crowded w' s s') (hmat : ∀ m ∈ s.materials, m.Physical) (m : Material ℝ) (hm : m.Scatters) (hp : m.Physical) (ray : TRay) (n fuel : Nat) (rng rng1 : Rng) (v : Spectrum ℝ)
    (hclear : SamplesClear w.ext (s.lights ++ s.distantLights) s.triangles (ray.getTriad.1 + ray.getTriad.2.1.scale (1 / 1000)) rng) (hv : w.localIllumination fuel m ray rng n = .ok (v, rng1)) :
    ∃ v', w'.localIllumination fuel m ray rng n = .ok (v', rng1) ∧ v'.AtMost v := by
  obtain ⟨e1, e2, e3⟩ := h.renders.same
  obtain ⟨_, f2, f3⟩ := h.same
  unfold World.localIllumination World.sampleLightArray at hv ⊢
  rw [f2, f3, e2, e3]
  rw [e2, e3] at hv
  simp only at hv ⊢
  have hmat : ∀ m ∈ w.scene.materials, m.colour.Nonneg := by rw [e1]; exact fun m hm => colour_nonneg m (hmat m hm)
  obtain ⟨⟨c, r⟩, h1, hv⟩ := Res.bind_eq_ok hv
  obtain ⟨⟨c2, r2⟩, h2, hv⟩ := Res.bind_eq_ok hv
  cases hv
  obtain ⟨a, k, g1, g2, rfl⟩ := lightsLoop_crowded h hmat hm hp ray n _ _ _ _ rng fuel s.lights (fun l hl => hclear l (by simp [hl])) 0 _ _ c r (Spectrum.AtMost.refl _) h1
  obtain ⟨a2, k2, g3, g4, _⟩ := lightsLoop_crowded h hmat hm hp ray n _ _ _ _ rng fuel s.distantLights (fun l hl => hclear l (by simp [hl])) k _ _ c2 _ (Spectrum.AtMost.refl _) h2
  refine ⟨a + a2, ?_, g2.add g4⟩
  rw [show (fun j => rng (j + 0)) = rng from rfl] at g1
  rw [g1, Res.bind_ok]
  simp only
  rw [g3, Res.bind_ok]

theorem World.Crowded.indices (h : w.Crowded w' s s') (hI : s.IndicesValid) : s'.IndicesValid := by
  obtain ⟨ops, ho, hr⟩ := h.pushed
  exact (run_induction w.env (fun s => s.Aligned ∧ s.IndicesValid) (fun s s' op hp hs => step_invariant w.env h.renders.lawful h.mesh s s' op hp.1 hp.2 hs) ops s s' ⟨h.renders.aligned, hI⟩ hr).2

/-- **C115.** Without interreflections, further objects only lower daylight coefficients: with the same directions drawn, no entry of the matrix is larger than it is without them. (For samples that do not go through the tolerance band of
an edge already there and are not nearly parallel to a triangle they meet.) -/
theorem C115_daylight (h : w.Crowded w' s s') (hI : s.IndicesValid) (hext : w.ext.PerpSpec) (hmat : ∀ m ∈ s.materials, m.specularOnly = false) (dc : DcFactory) (hD : dc.maxDepth = 0) (hbin : ∀ d, Norm d = 1 → dc.dirToBin d < dc.nBins)
    (rays : List (Ray3 ℝ)) (hrays : ∀ r ∈ rays, Norm r.direction = 1) (i : Nat) (sensor : Ray3 ℝ) (hs : rays[i]? = some sensor) (primary : Nat → Rng) (hp : ∀ i, (primary i).Valid) (secondary : Nat → Nat → Rng)
    (hclear : ∀ k < dc.nAmbientSamples, ∀ e2, w.ext.perp sensor.direction = some e2 →
      MaySeeSky s sensor.origin (worldOf (e2.cross sensor.direction) e2 sensor.direction (drawn (primary i (2 * k), primary i (2 * k + 1)))) →
      SurelySeesSky s sensor.origin (worldOf (e2.cross sensor.direction) e2 sensor.direction (drawn (primary i (2 * k), primary i (2 * k + 1)))))
    (fuel j : Nat) (hj : j < dc.nBins) (ch : Spectrum ℝ → ℝ) (hch : ch ∈ [Spectrum.c0, Spectrum.c1, Spectrum.c2]) :
    coefficient (calcDc w' dc (fuel + 1) rays primary secondary) i j ch ≤ coefficient (calcDc w dc (fuel + 1) rays primary secondary) i j ch := by
  obtain ⟨ops, ho, hr⟩ := h.pushed
  obtain ⟨m1, _, _, hsub, _⟩ := obstacle_run w.env h.mesh ops ho h.renders.aligned hr
  have hn := hrays _ (List.mem_of_getElem? hs)
  obtain ⟨e2, he, g1, g2⟩ := hext sensor.direction hn
  have hf := frame_of_perp hn g1 g2
  let rest : Rng := fun k => primary i (k + 2 * dc.nAmbientSamples)
  let ω : Fin dc.nAmbientSamples → ℝ × ℝ := fun k => (primary i (2 * k), primary i (2 * k + 1))
  have hω : ∀ k, ω k ∈ unitSquare := fun k => ⟨hp i _, hp i _⟩
  have hup : Function.update (Function.update primary i rest) i (Rng.ofPairs ω (Function.update primary i rest i)) = primary := by
    rw [Function.update_idem, Function.update_self, ofPairs_self, Function.update_eq_self]
  have hp' : ∀ i', (Function.update primary i rest i').Valid := by
    intro i'
    by_cases hi : i' = i
    · subst hi; rw [Function.update_self]; exact fun k => hp i' _
    · rw [Function.update_of_ne hi]; exact hp i'
  obtain ⟨v, hv, hc⟩ := coefficient_direct h.renders hI hext hmat dc hD hbin rays hrays i sensor hs e2 he hf (Function.update primary i rest) hp' secondary ω hω fuel j hj ch hch
  obtain ⟨v', hv', hc'⟩ := coefficient_direct h.renders' (h.indices hI) (by rw [h.ext]; exact hext) (by rw [m1]; exact hmat) dc hD hbin rays hrays i sensor hs e2 (by rw [h.ext]; exact he) hf (Function.update primary i rest) hp' secondary ω hω fuel j hj ch hch
  rw [hup] at hc hc'
  rw [hc, hc']
  refine ENNReal.ofReal_le_ofReal (Finset.sum_le_sum fun k _ => ?_)
  split_ifs
  · rcases hv' k with ⟨e, _⟩ | ⟨e, hm⟩
    · rcases hv k with ⟨e', _⟩ | ⟨e', _⟩
      · rw [e, e']
      · rw [e, e']; have := Real.pi_pos; positivity
    · have h1 : MaySeeSky s sensor.origin (worldOf (e2.cross sensor.direction) e2 sensor.direction (drawn (ω k))) := fun tri ht => hm tri (hsub.subset ht)
      rcases hv k with ⟨_, hn⟩ | ⟨e', _⟩
      · exact absurd (hclear k k.isLt e2 he h1) hn
      · rw [e, e']
  · exact le_rfl

end

/-- The sunny floor. -/
noncomputable def sunnyScene : Scene ℝ :=
  { triangles := [plane 0], normals := (meshTriangle realEnv (plane 0)).2, front := [0], back := [0], materials := [.plastic (Spectrum.gray (1 / 2)) 0 0, .light (Spectrum.gray 5)], distantLights := [{ front := 1, back := 1, primitive := .source ⟨0, 0, 1⟩ 1 }] }

/-- Two worlds: the sunny floor, and the same under an awning. -/
theorem awning (ext : GeoExt) : ∃ (w w' : World) (s' : Scene ℝ), w.Crowded w' sunnyScene s' ∧ s'.triangles = [plane 0, plane 1] ∧ w.ext = ext ∧ w.env = realEnv ∧ Scene.run realEnv {} sunnyFloor = .ok sunnyScene ∧
    sunnyScene.run realEnv [.pushObject 0 0 (.triangle (plane 1))] = .ok s' := by
  have hrun : Scene.run realEnv {} sunnyFloor = .ok sunnyScene := rfl
  obtain ⟨s', hs', ht, hal⟩ : ∃ s' : Scene ℝ, sunnyScene.run realEnv [.pushObject 0 0 (.triangle (plane 1))] = .ok s' ∧ s'.triangles = [plane 0, plane 1] ∧ s'.Aligned := ⟨_, rfl, rfl, rfl, rfl, rfl⟩
  obtain ⟨b, bvh, e, _⟩ := rebuild_spec realEnv refEnv_lawful sunnyScene ⟨rfl, rfl, rfl⟩
  obtain ⟨b', bvh', e', _⟩ := rebuild_spec realEnv refEnv_lawful s' hal
  let dt : DirTests := ⟨fun _ _ => false, fun _ _ => false⟩
  refine ⟨⟨b, realEnv, ext, dt, none, none⟩, ⟨b', realEnv, ext, dt, none, none⟩, s', ⟨rfl, rfl, rfl, fun _ _ => rfl, ⟨refEnv_lawful, refEnv_conservative, ⟨rfl, rfl, rfl⟩, fits_of_small _ (by simp [sunnyScene]), Or.inr e⟩,
    ⟨refEnv_lawful, refEnv_conservative, hal, fits_of_small _ (by simp [ht]), Or.inr e'⟩, [.pushObject 0 0 (.triangle (plane 1))], ?_, hs'⟩, ht, rfl, rfl, hrun, hs'⟩
  intro op hop
  rw [List.mem_singleton.1 hop]
  exact ⟨0, 0, _, rfl, by simp [IsLight, sunnyScene], by simp [IsLight, sunnyScene]⟩

/-- Rays going up from above the floor do not meet it. -/
theorem up_clear (z : ℝ) (hz : 0 < z) (x y : ℝ) (d : Vec3 ℝ) (hd : 0 ≤ d.z) (t : ℝ) (p : Vec3 ℝ) (u v : ℝ) : ¬ TolerantHit ⟨⟨x, y, z⟩, d⟩ (plane 0) t p u v := by
  rintro ⟨rfl, h1, h2, _⟩
  have hz' := congrArg Vec3.z h2
  simp [plane, Vec3.scale] at hz'
  have : 0 ≤ d.z * t := mul_nonneg hd (lt_trans (by norm_num) h1).le
  linarith

theorem sunny_clear_down : ∀ tri ∈ sunnyScene.triangles, ClearOfEdges downRay.geometry tri := by
  intro tri htri
  rw [List.mem_singleton.1 htri]
  rintro t p u v ⟨rfl, h1, h2, _⟩
  have e1 := congrArg Vec3.x h2
  have e2 := congrArg Vec3.y h2
  have e3 := congrArg Vec3.z h2
  simp [plane, downRay, Vec3.scale] at e1 e2 e3
  refine ⟨?_, ?_, ?_⟩ <;> linarith

/-- C115: a ray down to the floor, with and without the awning. -/
example : ∃ (b b' s' : Scene ℝ) (i i' : Nat) (x x' : Bary ℝ), s'.triangles = [plane 0, plane 1] ∧ sunnyScene.BuiltFrom realEnv b ∧ s'.BuiltFrom realEnv b' ∧ b.castRay realEnv downRay.geometry [] = .ok (some (i, x)) ∧
    b'.castRay realEnv downRay.geometry [] = .ok (some (i', x')) ∧ distSq x'.p downRay.geometry.origin ≤ distSq x.p downRay.geometry.origin ∧
    ∀ D, b'.unobstructedDistance realEnv downRay.geometry D [] = .ok true → b.unobstructedDistance realEnv downRay.geometry D [] = .ok true := by
  obtain ⟨ext, _⟩ := perpSpec_exists
  obtain ⟨w, w', s', hc, ht, _, he, _, hs'⟩ := awning ext
  have hb := hc.renders.built
  have hb' := hc.renders'.built
  rw [hc.env, he] at hb'
  rw [he] at hb
  have ho : ∀ op ∈ [SceneOp.pushObject 0 0 (.triangle (plane 1))], SceneOp.Obstacle sunnyScene.materials op := by
    intro op hop
    rw [List.mem_singleton.1 hop]
    exact ⟨0, 0, _, rfl, by simp [IsLight, sunnyScene], by simp [IsLight, sunnyScene]⟩
  obtain ⟨⟨i, x⟩, hx⟩ := (C02_cast_ray_iff realEnv refEnv_lawful refEnv_conservative sunnyScene w.scene ⟨rfl, rfl, rfl⟩ hc.renders.fits hb downRay.geometry sunny_clear_down []).2 ⟨plane 0, by simp [sunnyScene], _, downRay_visible, downRay_inRange⟩
  obtain ⟨i', x', h1, h2⟩ := C115_no_farther realEnv refEnv_lawful refEnv_conservative (fun _ _ => rfl) sunnyScene s' w.scene w'.scene ⟨rfl, rfl, rfl⟩ _ ho hs' hc.renders'.fits hb hb' downRay.geometry sunny_clear_down [] [] i x hx
  exact ⟨w.scene, w'.scene, s', i, i', x, x', ht, hb, hb', hx, h1, h2, fun D h =>
    C115_still_in_view realEnv refEnv_lawful refEnv_conservative (fun _ _ => rfl) sunnyScene s' w.scene w'.scene ⟨rfl, rfl, rfl⟩ _ ho hs' hc.renders'.fits hb hb' downRay.geometry sunny_clear_down D [] [] h⟩

/-- C115: daylight on the floor, with and without the awning. -/
example (n : Nat) (primary : Nat → Rng) (hp : ∀ i, (primary i).Valid) (secondary : Nat → Nat → Rng) : ∃ (w w' : World) (s' : Scene ℝ), w'.Renders s' ∧ s'.triangles = [plane 0, plane 1] ∧ ∀ ch ∈ [Spectrum.c0, Spectrum.c1, Spectrum.c2],
    coefficient (calcDc w' ⟨145, fun _ => 7, 0, n, 0, 3 / 10⟩ 1 [⟨⟨0, 0, 1 / 2⟩, ⟨0, 0, 1⟩⟩] primary secondary) 0 7 ch ≤ coefficient (calcDc w ⟨145, fun _ => 7, 0, n, 0, 3 / 10⟩ 1 [⟨⟨0, 0, 1 / 2⟩, ⟨0, 0, 1⟩⟩] primary secondary) 0 7 ch := by
  obtain ⟨ext, hext⟩ := perpSpec_exists
  obtain ⟨w, w', s', hc, ht, he, _⟩ := awning ext
  refine ⟨w, w', s', hc.renders', ht, fun ch hch => ?_⟩
  refine C115_daylight hc (by simp [Scene.IndicesValid, sunnyScene]) (by rw [he]; exact hext) (by simp [sunnyScene, Material.specularOnly]) _ rfl (fun _ _ => by norm_num) _ (by
    intro r hr
    rw [List.mem_singleton.1 hr]
    exact Norm_eq_one (by norm_num [Dot])) 0 ⟨⟨0, 0, 1 / 2⟩, ⟨0, 0, 1⟩⟩ rfl primary hp secondary ?_ 0 7 (by norm_num) ch hch
  intro k _ e2 he2 _ tri htri t q u v h
  rw [List.mem_singleton.1 htri] at h
  obtain ⟨e2', he2', _, g2⟩ := hext ⟨0, 0, 1⟩ (Norm_eq_one (by norm_num [Dot]))
  rw [he] at he2
  rw [he2'] at he2
  cases he2
  refine absurd h (up_clear _ (by norm_num) _ _ _ ?_ _ _ _ _)
  simp only [Dot] at g2
  have h0 : e2.z = 0 := by linarith
  simp only [worldOf, Vec3.cross, Vec3.add_z, Vec3.scale_z, h0, drawn]
  have := Real.sqrt_nonneg (1 - ((discMap 1 (primary 0 (2 * k), primary 0 (2 * k + 1))).1 ^ 2 + (discMap 1 (primary 0 (2 * k), primary 0 (2 * k + 1))).2 ^ 2))
  nlinarith

/-- C115: direct sunlight on the floor, with and without the awning. -/
example (rng : Rng) (hr : rng.Valid) (n : Nat) : ∃ (w w' : World) (s' : Scene ℝ) (v v' : Spectrum ℝ) (rng1 : Rng) (ray : TRay), w'.Renders s' ∧ s'.triangles = [plane 0, plane 1] ∧
    w.localIllumination (n + 1) (.plastic (Spectrum.gray (1 / 2)) 0 0) ray rng n = .ok (v, rng1) ∧ w'.localIllumination (n + 1) (.plastic (Spectrum.gray (1 / 2)) 0 0) ray rng n = .ok (v', rng1) ∧ v'.AtMost v := by
  obtain ⟨ext0, hext0⟩ := perpSpec_exists
  let ext : GeoExt := { ext0 with primIntersect := fun _ ray => some { p := ray.origin + ray.direction.scale 10, normal := ray.direction.scale (-1), side := .Front, dpdu := 0, dpdv := 0, u := 0, v := 0 } }
  have hext : ext.PerpSpec := hext0
  obtain ⟨w, w', s', hc, ht, he, _⟩ := awning ext
  let ray : TRay := { TRay.default with interaction := { point := 0, wo := 0, shading := { p := 0, normal := ⟨0, 0, 1⟩, dpdu := ⟨1, 0, 0⟩, dpdv := ⟨0, 1, 0⟩, side := .Front, u := 0, v := 0 } } }
  let m : Material ℝ := .plastic (Spectrum.gray (1 / 2)) 0 0
  have hm : m.Physical := by simp only [m, Material.Physical, Spectrum.Nonneg, Spectrum.gray]; norm_num
  obtain ⟨_, e2, e3⟩ := hc.renders.same
  have hdir : ∀ rng, ∃ d rng', (Primitive.source (⟨0, 0, 1⟩ : Vec3 ℝ) 1).sampleDirection w.ext rng ⟨0, 0, 1 / 1000⟩ = .ok (d, rng') := by
    intro rng
    obtain ⟨e2, h, _⟩ := hext (⟨0, 0, 1⟩ : Vec3 ℝ).normalized (Norm_eq_one (normalized_dot_self (by norm_num [Dot])))
    unfold Primitive.sampleDirection Primitive.sampleSurface uniformSampleDisc
    simp only [he, h, Res.ofOption_some, Res.bind_ok]
    exact ⟨_, _, rfl⟩
  obtain ⟨v, rng1, hv⟩ := C63_samples_end w sunnyScene hc.renders m ray n ⟨0, 0, 1 / 1000⟩ ⟨0, 0, 1⟩ ⟨1, 0, 0⟩ ⟨0, 1, 0⟩ { front := 1, back := 1, primitive := .source ⟨0, 0, 1⟩ 1 } hdir
    (fun d => by rw [he]; exact ⟨_, _, rfl, rfl⟩) (by simp [sunnyScene]) (by simp [sunnyScene]) (fun d => (scatters_bsdf ⟨_, _, _, Or.inl rfl⟩ hm w.dt _ _ _ _ _).imp fun _ h => h.1) n (n + 1) Spectrum.black rng le_rfl (by omega)
  rw [Nat.sub_self] at hv
  have hpt : (0 : Vec3 ℝ) + (⟨0, 0, 1⟩ : Vec3 ℝ).scale (1 / 1000) = ⟨0, 0, 1 / 1000⟩ := by ext <;> simp [Vec3.scale]
  have hl : w.localIllumination (n + 1) m ray rng n = .ok (Spectrum.black + v, rng1) := by
    unfold World.localIllumination World.sampleLightArray
    rw [e2, e3]
    simp only [sunnyScene, ray, TRay.getTriad, World.lightsLoop, Res.bind_ok, hpt]
    rw [hv]
    simp only [Res.bind_ok]
  obtain ⟨v', h1, h2⟩ := C115_direct_light hc (by
    intro m hm
    simp only [sunnyScene, List.mem_cons, List.not_mem_nil, or_false] at hm
    rcases hm with rfl | rfl <;> simp only [Material.Physical, Spectrum.Nonneg, Spectrum.gray] <;> norm_num) m ⟨_, _, _, Or.inl rfl⟩ hm ray n (n + 1) rng rng1 _ (by
      intro light hlt k d r hd tri htri t p u v h
      rw [List.mem_singleton.1 htri] at h
      rw [List.mem_singleton.1 hlt] at hd
      have hp' : ray.getTriad.1 + ray.getTriad.2.1.scale (1 / 1000) = (⟨0, 0, 1 / 1000⟩ : Vec3 ℝ) := hpt
      rw [hp'] at h hd
      obtain ⟨d', r', q1, _, q3⟩ := C56_source_direction w.ext (by rw [he]; exact hext) (fun i => rng (i + k)) (fun i => hr _) ⟨0, 0, 1⟩ ⟨0, 0, 1 / 1000⟩ 1 (by norm_num [Dot]) (by norm_num) (by linarith [Real.pi_gt_three])
      rw [q1] at hd
      cases hd
      refine absurd h (up_clear _ (by norm_num) _ _ _ ?_ _ _ _ _)
      have hn : (⟨0, 0, 1⟩ : Vec3 ℝ).normalized = ⟨0, 0, 1⟩ := by
        rw [normalized_eq, Norm_eq_one (by norm_num [Dot])]; ext <;> simp [Vec3.scale]
      rw [hn] at q3
      simp only [Dot, mul_zero, zero_add, mul_one] at q3
      exact le_trans (Real.cos_nonneg_of_mem_Icc ⟨by linarith [Real.pi_gt_three], by linarith [Real.pi_gt_three]⟩) q3) hl
  exact ⟨w, w', s', _, v', rng1, ray, hc.renders', ht, hl, h1, h2⟩
end Rendering
