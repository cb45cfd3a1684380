import Verif.Lemmas.Repaint
import Verif.Props.GeometricDaylight

/-!
# C133: brighter paint never makes a darker picture
-/

set_option linter.unusedSectionVars false
namespace Rendering

open MeasureTheory Set

variable {w : World} {s s' b' : Scene ℝ} {R : Spectrum ℝ → Spectrum ℝ → Prop}

/-- Both sides of every sun shine. -/
def Scene.SunsShine (s : Scene ℝ) : Prop := ∀ sun ∈ s.distantLights, ∀ k, k = sun.front ∨ k = sun.back → ∀ m, s.materials[k]? = some m → m.emitsDirectLight = true

theorem Material.Repainted.light {m m' : Material ℝ} (h : m.Repainted R m') (hm : m.emitsDirectLight = true) : m' = m := by
  cases h with
  | plastic => cases hm
  | metal => cases hm
  | other => rfl

theorem lightColour_repainted (h : s.Repainted R s') (hs : s.SunsShine) (sun : Object ℝ) (hsun : sun ∈ s.distantLights) (side : SurfaceSide) : lightColour s' sun side = lightColour s sun side := by
  have key : ∀ k, k = sun.front ∨ k = sun.back → s'.materials[k]? = s.materials[k]? := by
    intro k hk
    rcases repainted_get h.paint k with ⟨h1, h2⟩ | ⟨m, m', h1, h2, hm⟩
    · rw [h1, h2]
    · rw [h1, h2, hm.light (hs sun hsun k hk m h1)]
  cases side <;> simp only [lightColour]
  · rw [key _ (Or.inl rfl)]
  · rw [key _ (Or.inr rfl)]

theorem World.IsSun.repainted (h : s.Repainted R s') (hs : s.SunsShine) {sun : Object ℝ} (hsun : sun ∈ s.distantLights) {d : Vec3 ℝ} {a D : ℝ} {L : Spectrum ℝ} (hS : w.IsSun s sun d a L D) (b' : Scene ℝ) : World.IsSun { w with scene := b' } s' sun d a L D where
  primitive := hS.primitive
  direction_ne := hS.direction_ne
  angle_pos := hS.angle_pos
  angle_lt := hS.angle_lt
  met := by
    intro pt v hv hc
    obtain ⟨info, h1, h2, h3⟩ := hS.met pt v hv hc
    exact ⟨info, h1, h2, by rw [lightColour_repainted h hs sun hsun]; exact h3⟩

/-- The repainted scene is as simple as the original. -/
theorem World.SunlitMatt.repainted (hW : w.SunlitMatt s) (hs : s.SunsShine) (h : s.Repainted R s') (hR : ∀ c c', R c c' → c'.Nonneg) (hb : s'.BuiltFrom w.env b') : World.SunlitMatt { w with scene := b' } s' where
  renders := by
    refine ⟨hW.renders.lawful, hW.renders.box, ?_, ?_, hb⟩
    · have := hW.renders.aligned
      rw [h.same]; exact this
    · have := hW.renders.fits
      rw [h.same]; exact this
  indices := by
    have hl : s'.materials.length = s.materials.length := h.paint.length_eq.symm
    obtain ⟨h1, h2, h3, h4⟩ := hW.indices
    unfold Scene.IndicesValid
    rw [hl, h.same]
    exact ⟨h1, h2, h3, h4⟩
  perp := hW.perp
  box := hW.box
  flat := by rw [h.same]; exact hW.flat
  sky := hW.sky
  lamps := by rw [h.same]; exact hW.lamps
  suns := by
    intro sun hsun
    have hsun' : sun ∈ s.distantLights := by rw [h.same] at hsun; exact hsun
    obtain ⟨d, a, L, D, h1, h2⟩ := hW.suns sun hsun'
    exact ⟨d, a, L, D, h1.repainted h hs hsun' b', h2⟩
  matt := by
    intro k m hk hmem
    have hmem' : k ∈ s.front ++ s.back := by rw [h.same] at hmem; exact hmem
    rcases repainted_get h.paint k with ⟨_, h2⟩ | ⟨m0, m', h1, h2, hm⟩
    · rw [h2] at hk; cases hk
    · rw [h2] at hk
      cases hk
      obtain ⟨col, r, hc, hn⟩ := hW.matt k m0 h1 hmem'
      cases hm with
      | plastic c c' r' hc' => exact ⟨c', r', by simp, hR _ _ hc'⟩
      | metal c c' r' hc' => exact ⟨c', r', by simp, hR _ _ hc'⟩
      | other _ ho => exact ⟨col, r, hc, hn⟩

theorem World.HasSuns.repainted (h : s.Repainted R s') (hs : s.SunsShine) {suns : List SunDisc} (hS : w.HasSuns s suns) (b' : Scene ℝ) : World.HasSuns { w with scene := b' } s' suns := by
  unfold World.HasSuns at hS ⊢
  have e : s'.distantLights = s.distantLights := by rw [h.same]
  rw [e]
  have key : ∀ l : List (Object ℝ), (∀ x ∈ l, x ∈ s.distantLights) → ∀ suns, List.Forall₂ (fun source (sun : SunDisc) => w.IsSun s source sun.direction sun.angle sun.radiance sun.distSq ∧ sun.radiance.Nonneg) l suns →
      List.Forall₂ (fun source (sun : SunDisc) => World.IsSun { w with scene := b' } s' source sun.direction sun.angle sun.radiance sun.distSq ∧ sun.radiance.Nonneg) l suns := by
    intro l hl suns hf
    induction hf with
    | nil => exact .nil
    | @cons x sun l suns hx _ ih => exact .cons ⟨hx.1.repainted h hs (hl _ (by simp)) b', hx.2⟩ (ih fun y hy => hl y (by simp [hy]))
  exact key _ (fun _ hx => hx) _ hS

theorem cast_repainted {b : Scene ℝ} (h : b.Repainted R b') (hb : w.scene = b) (ray : TRay) : World.cast { w with scene := b' } ray = w.cast ray := by
  unfold World.cast Scene.castRay
  subst hb
  simp only
  rw [h.same]

theorem free_repainted {b : Scene ℝ} (h : b.Repainted R b') (env : SceneEnv ℝ) (g : Ray3 ℝ) (D : ℝ) : b'.unobstructedDistance env g D [] = b.unobstructedDistance env g D [] := by
  unfold Scene.unobstructedDistance
  rw [h.same]

theorem materialAt_repainted {b : Scene ℝ} (h : b.Repainted R b') (hb : w.scene = b) (side : SurfaceSide) (i : Nat) (m : Material ℝ) (hm : w.materialAt side i = .ok m) :
    ∃ m', World.materialAt { w with scene := b' } side i = .ok m' ∧ m.Repainted R m' := by
  subst hb
  have key : ∀ o : Option Nat, ((Res.ofOption o).bind fun k => Res.ofOption w.scene.materials[k]?) = .ok m → ∃ m', ((Res.ofOption o).bind fun k => Res.ofOption b'.materials[k]?) = .ok m' ∧ m.Repainted R m' := by
    intro o ho
    obtain ⟨k, e, ho⟩ := Res.bind_eq_ok ho
    rw [e, Res.bind_ok]
    rcases repainted_get h.paint k with ⟨h1, _⟩ | ⟨m0, m', h1, h2, hmm⟩
    · rw [h1] at ho; cases ho
    · rw [h1] at ho
      cases ho
      exact ⟨m', by rw [h2]; rfl, hmm⟩
  have e1 : b'.front = w.scene.front := by rw [h.same]
  have e2 : b'.back = w.scene.back := by rw [h.same]
  cases side with
  | Front => simp only [World.materialAt, e1] at hm ⊢; exact key _ hm
  | Back => simp only [World.materialAt, e2] at hm ⊢; exact key _ hm
  | NonApplicable => cases hm

theorem materialAt_before {b : Scene ℝ} (h : b.Repainted R b') (hb : w.scene = b) (side : SurfaceSide) (i : Nat) (m' : Material ℝ) (hm : World.materialAt { w with scene := b' } side i = .ok m') :
    ∃ m, w.materialAt side i = .ok m ∧ m.Repainted R m' := by
  subst hb
  have key : ∀ o : Option Nat, ((Res.ofOption o).bind fun k => Res.ofOption b'.materials[k]?) = .ok m' → ∃ m, ((Res.ofOption o).bind fun k => Res.ofOption w.scene.materials[k]?) = .ok m ∧ m.Repainted R m' := by
    intro o ho
    obtain ⟨k, e, ho⟩ := Res.bind_eq_ok ho
    rw [e, Res.bind_ok]
    rcases repainted_get h.paint k with ⟨_, h1⟩ | ⟨m0, m1, h1, h2, hmm⟩
    · rw [h1] at ho; cases ho
    · rw [h2] at ho
      cases ho
      exact ⟨m0, by rw [h1]; rfl, hmm⟩
  have e1 : b'.front = w.scene.front := by rw [h.same]
  have e2 : b'.back = w.scene.back := by rw [h.same]
  cases side with
  | Front => simp only [World.materialAt, e1] at hm ⊢; exact key _ hm
  | Back => simp only [World.materialAt, e2] at hm ⊢; exact key _ hm
  | NonApplicable => cases hm

/-- The matt material met, and its successor. -/
theorem repainted_matt (hW : w.SunlitMatt s) {side : SurfaceSide} {i : Nat} {m m' : Material ℝ} (hm : w.materialAt side i = .ok m) (h : m.Repainted R m') :
    ∃ col col' r, m ∈ [Material.plastic col 0 r, Material.metal col 0 r] ∧ m' ∈ [Material.plastic col' 0 r, Material.metal col' 0 r] ∧ R col col' ∧ col.Nonneg := by
  obtain ⟨k, hk, hmem⟩ := material_from hW.renders hm
  obtain ⟨col, r, hc, hn⟩ := hW.matt k m hk hmem
  cases h with
  | plastic c c' r' hc' =>
    have : c = col := by simpa using (by simpa using hc : c = col ∧ r' = r).1
    exact ⟨c, c', r', by simp, by simp, hc', this ▸ hn⟩
  | metal c c' r' hc' =>
    have : c = col := by simpa using (by simpa using hc : c = col ∧ r' = r).1
    exact ⟨c, c', r', by simp, by simp, hc', this ▸ hn⟩
  | other _ ho => exact absurd hc (ho col r)

theorem channel_atMost {a b : Spectrum ℝ} (h : a.AtMost b) {ch : Spectrum ℝ → ℝ} (hch : ch ∈ [Spectrum.c0, Spectrum.c1, Spectrum.c2]) : ch a ≤ ch b := by
  simp only [List.mem_cons, List.not_mem_nil, or_false] at hch
  rcases hch with rfl | rfl | rfl
  · exact h.1
  · exact h.2.1
  · exact h.2.2

theorem radiance_atMost {a b : Spectrum ℝ} (h : a.AtMost b) : a.radiance ≤ b.radiance := by
  obtain ⟨h0, h1, h2⟩ := h
  simp only [Spectrum.radiance, Spectrum.channels, Spectrum.radianceCoefficients, List.zipWith_cons_cons, List.zipWith_nil_right, List.sum_cons, List.sum_nil]
  linarith

theorem follow_mono (rt : RayTracer) (d : Nat) {v v' : ℝ} (h0 : 0 ≤ v) (h : v ≤ v') : followChance rt d v ≤ followChance rt d v' := by
  unfold followChance
  split_ifs
  · exact le_rfl
  · exact le_rfl
  · exact le_rfl
  · rcases le_total 0 rt.limitWeight with hl | hl
    · exact ENNReal.ofReal_le_ofReal (min_le_min le_rfl (div_le_div_of_nonneg_right h hl))
    · have : min 1 (v / rt.limitWeight) ≤ 0 := le_trans (min_le_right _ _) (div_nonpos_of_nonneg_of_nonpos h0 hl)
      rw [ENNReal.ofReal_of_nonpos this]
      exact zero_le

/-- Nowhere less light is reflected. -/
theorem reflected_brighter (hW : w.SunlitMatt s) (hs : s.SunsShine) (h : s.Repainted Brighter s') (hb : s'.BuiltFrom w.env b') (rt : RayTracer) (ch : Spectrum ℝ → ℝ) (hch : ch ∈ [Spectrum.c0, Spectrum.c1, Spectrum.c2]) :
    ∀ (k : Nat) (ray : TRay) (v' : ℝ), 0 ≤ ray.value → ray.value ≤ v' → reflectedLight w rt ch k ray ≤ reflectedLight { w with scene := b' } rt ch k { ray with value := v' } := by
  have hR : ∀ c c', Brighter c c' → c'.Nonneg := fun c c' hc => ⟨hc.1.1.trans hc.2.1, hc.1.2.1.trans hc.2.2.1, hc.1.2.2.trans hc.2.2.2⟩
  have hW' := hW.repainted hs h hR hb
  have hbb : w.scene.Repainted Brighter b' := built_repainted w.env h hW.renders.built hb
  obtain ⟨suns, hsuns⟩ := suns_exist hW.toSunlit
  have hsuns' := hsuns.repainted h hs b'
  obtain ⟨S, -, hfree, -⟩ := sight_exists hW.renders
  have hfree' : ∀ p v D, S.free p v D ↔ b'.unobstructedDistance w.env ⟨p, v⟩ D [] = .ok true := fun p v D => by rw [free_repainted hbb]; exact hfree p v D
  intro k
  induction k with
  | zero => intro ray v' _ _; exact le_rfl
  | succ k ih =>
    intro ray v' h0 hv
    unfold reflectedLight
    have hcast : ∀ {i arrived}, w.cast ray = .ok (some (i, arrived)) → World.cast { w with scene := b' } { ray with value := v' } = .ok (some (i, { arrived with value := v' })) ∧ arrived.value = ray.value := by
      intro i arrived hc
      rw [cast_repainted hbb rfl]
      unfold World.cast at hc ⊢
      simp only at hc ⊢
      obtain ⟨r, e, hc⟩ := Res.bind_eq_ok hc
      rw [e, Res.bind_ok]
      cases r with
      | none => cases hc
      | some x =>
        obtain ⟨j, b⟩ := x
        simp only at hc ⊢
        obtain ⟨tri, e, hc⟩ := Res.bind_eq_ok hc
        rw [e, Res.bind_ok]
        cases hc
        exact ⟨rfl, rfl⟩
    rcases hc : w.cast ray with (_ | ⟨i, arrived⟩) | _ | _
    · exact zero_le
    · obtain ⟨hc', hval⟩ := hcast hc
      rw [hc']
      simp only
      cases hm : w.materialAt arrived.interaction.shading.side i with
      | panic => exact zero_le
      | diverge => exact zero_le
      | ok m =>
        obtain ⟨m', hm', hrep⟩ := materialAt_repainted hbb rfl _ _ m hm
        rw [hm']
        simp only
        obtain ⟨col, col', r, e, e', hcol, hn⟩ := repainted_matt hW hm hrep
        obtain ⟨-, -, hcc⟩ := matt_only_flags e
        obtain ⟨-, -, hcc'⟩ := matt_only_flags e'
        have hpi := Real.pi_pos
        have hle : ENNReal.ofReal (ch col / Real.pi) ≤ ENNReal.ofReal (ch col' / Real.pi) := ENNReal.ofReal_le_ofReal (div_le_div_of_nonneg_right (channel_atMost hcol.2 hch) hpi.le)
        refine add_le_add ?_ (mul_le_mul' ?_ (mul_le_mul' ?_ (irradiance_mono fun l => ?_)))
        · obtain ⟨axes⟩ := axes_exist
          rw [sunlight_exact hW.toSunlit suns hsuns m col r e hn ch hch S hfree axes arrived, sunlight_exact hW'.toSunlit suns hsuns' m' col' r e' (hR _ _ hcol) ch hch S hfree' axes { arrived with value := v' }]
          exact mul_le_mul' hle le_rfl
        · exact follow_mono rt _ (hval ▸ h0) (hval ▸ hv)
        · rw [hcc, hcc']; exact hle
        · have hnn : 0 ≤ m.colour.radiance := by
            rw [hcc]
            have : Spectrum.AtMost ⟨0, 0, 0⟩ col := hn
            have h := radiance_atMost this
            have e0 : (⟨0, 0, 0⟩ : Spectrum ℝ).radiance = 0 := by simp [Spectrum.radiance, Spectrum.channels, Spectrum.radianceCoefficients]
            rwa [e0] at h
          have hrad : m.colour.radiance ≤ m'.colour.radiance := by rw [hcc, hcc']; exact radiance_atMost hcol.2
          exact ih (arrived.onward m l) (v' * m'.colour.radiance) (mul_nonneg (hval ▸ h0) hnn) (mul_le_mul (hval ▸ hv) hrad hnn (h0.trans hv))
    · exact zero_le
    · exact zero_le

theorem Material.Repainted.imp {R R' : Spectrum ℝ → Spectrum ℝ → Prop} (hR : ∀ c c', R c c' → R' c c') {m m' : Material ℝ} (h : m.Repainted R m') : m.Repainted R' m' := by
  cases h with
  | plastic c c' r hc => exact .plastic c c' r (hR _ _ hc)
  | metal c c' r hc => exact .metal c c' r (hR _ _ hc)
  | other _ ho => exact .other _ ho

theorem Scene.Repainted.imp {R R' : Spectrum ℝ → Spectrum ℝ → Prop} (hR : ∀ c c', R c c' → R' c c') {s s' : Scene ℝ} (h : s.Repainted R s') : s.Repainted R' s' :=
  ⟨h.same, h.paint.imp fun _ _ hm => hm.imp hR⟩

theorem brighter_of_times {f : ℝ} (hf : 1 ≤ f) : ∀ c c', AtLeastTimes f c c' → Brighter c c' := by
  rintro c c' ⟨⟨h0, h1, h2⟩, k0, k1, k2⟩
  refine ⟨⟨h0, h1, h2⟩, ?_, ?_, ?_⟩
  · exact le_trans (by nlinarith) k0
  · exact le_trans (by nlinarith) k1
  · exact le_trans (by nlinarith) k2

/-- With colours at least `f` times brighter, at least `f` times as much light is reflected. -/
theorem reflected_at_least (hW : w.SunlitMatt s) (hs : s.SunsShine) {f : ℝ} (hf : 1 ≤ f) (h0 : s.Repainted (AtLeastTimes f) s') (hb : s'.BuiltFrom w.env b') (rt : RayTracer) (ch : Spectrum ℝ → ℝ) (hch : ch ∈ [Spectrum.c0, Spectrum.c1, Spectrum.c2])
    (k : Nat) (ray : TRay) (hv0 : 0 ≤ ray.value) : ENNReal.ofReal f * reflectedLight w rt ch k ray ≤ reflectedLight { w with scene := b' } rt ch k ray := by
  have h := h0.imp (brighter_of_times hf)
  have hR : ∀ c c', Brighter c c' → c'.Nonneg := fun c c' hc => ⟨hc.1.1.trans hc.2.1, hc.1.2.1.trans hc.2.2.1, hc.1.2.2.trans hc.2.2.2⟩
  have hW' := hW.repainted hs h hR hb
  have hbb : w.scene.Repainted (AtLeastTimes f) b' := built_repainted w.env h0 hW.renders.built hb
  obtain ⟨suns, hsuns⟩ := suns_exist hW.toSunlit
  have hsuns' := hsuns.repainted h hs b'
  obtain ⟨S, -, hfree, -⟩ := sight_exists hW.renders
  have hfree' : ∀ p v D, S.free p v D ↔ b'.unobstructedDistance w.env ⟨p, v⟩ D [] = .ok true := fun p v D => by rw [free_repainted hbb]; exact hfree p v D
  cases k with
  | zero => simp [reflectedLight]
  | succ k =>
    rw [reflectedLight, reflectedLight, cast_repainted hbb rfl]
    rcases hc : w.cast ray with (_ | ⟨i, arrived⟩) | _ | _
    · simp
    · simp only
      have hval : arrived.value = ray.value := by
        unfold World.cast at hc
        obtain ⟨r, e, hc⟩ := Res.bind_eq_ok hc
        cases r with
        | none => cases hc
        | some x =>
          obtain ⟨j, b⟩ := x
          simp only at hc
          obtain ⟨tri, e, hc⟩ := Res.bind_eq_ok hc
          cases hc
          rfl
      cases hm : w.materialAt arrived.interaction.shading.side i with
      | panic => simp
      | diverge => simp
      | ok m =>
        obtain ⟨m', hm', hrep⟩ := materialAt_repainted hbb rfl _ _ m hm
        rw [hm']
        simp only
        obtain ⟨col, col', r, e, e', hcol, hn⟩ := repainted_matt hW hm hrep
        have hcolB := brighter_of_times hf _ _ hcol
        obtain ⟨-, -, hcc⟩ := matt_only_flags e
        obtain ⟨-, -, hcc'⟩ := matt_only_flags e'
        have hpi := Real.pi_pos
        have hle : ENNReal.ofReal f * ENNReal.ofReal (ch col / Real.pi) ≤ ENNReal.ofReal (ch col' / Real.pi) := by
          rw [← ENNReal.ofReal_mul (by linarith)]
          refine ENNReal.ofReal_le_ofReal ?_
          rw [← mul_div_assoc]
          refine div_le_div_of_nonneg_right ?_ hpi.le
          refine le_trans (le_of_eq ?_) (channel_atMost hcol.2 hch)
          simp only [List.mem_cons, List.not_mem_nil, or_false] at hch
          rcases hch with rfl | rfl | rfl <;> rfl
        obtain ⟨axes⟩ := axes_exist
        rw [sunlight_exact hW.toSunlit suns hsuns m col r e hn ch hch S hfree axes arrived, sunlight_exact hW'.toSunlit suns hsuns' m' col' r e' (hR _ _ hcolB) ch hch S hfree' axes arrived, mul_add]
        refine add_le_add ?_ ?_
        · rw [← mul_assoc]
          exact mul_le_mul' hle le_rfl
        · have hnn : 0 ≤ m.colour.radiance := by
            rw [hcc]
            have : Spectrum.AtMost ⟨0, 0, 0⟩ col := hn
            have h := radiance_atMost this
            have e0 : (⟨0, 0, 0⟩ : Spectrum ℝ).radiance = 0 := by simp [Spectrum.radiance, Spectrum.channels, Spectrum.radianceCoefficients]
            rwa [e0] at h
          have hrad : m.colour.radiance ≤ m'.colour.radiance := by rw [hcc, hcc']; exact radiance_atMost hcolB.2
          have hI := irradiance_mono fun l => reflected_brighter hW hs h hb rt ch hch k (arrived.onward m l) (arrived.value * m'.colour.radiance) (mul_nonneg (hval ▸ hv0) hnn) (mul_le_mul_of_nonneg_left hrad (hval ▸ hv0))
          rw [hcc, hcc']
          have step := mul_le_mul' (le_refl (followChance rt arrived.depth arrived.value)) (mul_le_mul' hle hI)
          refine le_trans (le_of_eq ?_) (step.trans (le_of_eq ?_))
          · ring
          · rfl
    · simp
    · simp

/-- With colours up to `f` times brighter, light of at most `k` reflections grows at most `f^k` times. -/
theorem reflected_up_to (hW : w.SunlitMatt s) (hs : s.SunsShine) {f : ℝ} (hf : 1 ≤ f) (h : s.Repainted (UpToTimes f) s') (hb : s'.BuiltFrom w.env b') (rt : RayTracer) (hlim : rt.limitWeight = 0) (ch : Spectrum ℝ → ℝ)
    (hch : ch ∈ [Spectrum.c0, Spectrum.c1, Spectrum.c2]) : ∀ (k : Nat) (ray : TRay) (v' : ℝ),
    reflectedLight { w with scene := b' } rt ch k { ray with value := v' } ≤ ENNReal.ofReal f ^ k * reflectedLight w rt ch k ray := by
  have hR : ∀ c c', UpToTimes f c c' → c'.Nonneg := fun c c' hc => hc.2.1
  have hW' := hW.repainted hs h hR hb
  have hbb : w.scene.Repainted (UpToTimes f) b' := built_repainted w.env h hW.renders.built hb
  obtain ⟨suns, hsuns⟩ := suns_exist hW.toSunlit
  have hsuns' := hsuns.repainted h hs b'
  obtain ⟨S, -, hfree, -⟩ := sight_exists hW.renders
  have hfree' : ∀ p v D, S.free p v D ↔ b'.unobstructedDistance w.env ⟨p, v⟩ D [] = .ok true := fun p v D => by rw [free_repainted hbb]; exact hfree p v D
  have hF : (1 : ENNReal) ≤ ENNReal.ofReal f := by rw [← ENNReal.ofReal_one]; exact ENNReal.ofReal_le_ofReal hf
  intro k
  induction k with
  | zero => intro ray v'; simp [reflectedLight]
  | succ k ih =>
    intro ray v'
    rw [reflectedLight, reflectedLight]
    have hcast : World.cast { w with scene := b' } { ray with value := v' } = match w.cast ray with
        | .ok (some (i, arrived)) => .ok (some (i, { arrived with value := v' }))
        | x => x := by
      rw [cast_repainted hbb rfl]
      unfold World.cast
      cases w.scene.castRay w.env ray.geometry [] with
      | panic => rfl
      | diverge => rfl
      | ok r =>
        cases r with
        | none => rfl
        | some x =>
          obtain ⟨j, b⟩ := x
          simp only [Res.bind_ok]
          cases w.scene.triangles[j]? <;> rfl
    rw [hcast]
    rcases hc : w.cast ray with (_ | ⟨i, arrived⟩) | _ | _
    · simp
    · simp only
      cases hm' : World.materialAt { w with scene := b' } arrived.interaction.shading.side i with
      | panic => exact zero_le
      | diverge => exact zero_le
      | ok m' =>
        obtain ⟨m, hm, hrep⟩ := materialAt_before hbb rfl _ _ m' hm'
        rw [hm]
        simp only
        obtain ⟨col, col', r, e, e', hcol, hn⟩ := repainted_matt hW hm hrep
        obtain ⟨-, -, hcc⟩ := matt_only_flags e
        obtain ⟨-, -, hcc'⟩ := matt_only_flags e'
        have hpi := Real.pi_pos
        have hle : ENNReal.ofReal (ch col' / Real.pi) ≤ ENNReal.ofReal f * ENNReal.ofReal (ch col / Real.pi) := by
          rw [← ENNReal.ofReal_mul (by linarith)]
          refine ENNReal.ofReal_le_ofReal ?_
          rw [← mul_div_assoc]
          refine div_le_div_of_nonneg_right ?_ hpi.le
          refine (channel_atMost hcol.2.2 hch).trans (le_of_eq ?_)
          simp only [List.mem_cons, List.not_mem_nil, or_false] at hch
          rcases hch with rfl | rfl | rfl <;> rfl
        have hfo : followChance rt arrived.depth v' = followChance rt arrived.depth arrived.value := by
          unfold followChance; simp only [hlim, if_true]
        obtain ⟨axes⟩ := axes_exist
        rw [sunlight_exact hW.toSunlit suns hsuns m col r e hn ch hch S hfree axes arrived, sunlight_exact hW'.toSunlit suns hsuns' m' col' r e' (hR _ _ hcol) ch hch S hfree' axes { arrived with value := v' }, mul_add]
        refine add_le_add ?_ ?_
        · rw [← mul_assoc]
          refine mul_le_mul' (hle.trans (mul_le_mul' ?_ le_rfl)) le_rfl
          calc ENNReal.ofReal f = ENNReal.ofReal f ^ 1 := (pow_one _).symm
            _ ≤ _ := pow_le_pow_right₀ hF (by omega)
        · simp only [hfo, hcc, hcc']
          have hI := irradiance_mono fun l => ih (arrived.onward m l) (v' * m'.colour.radiance)
          rw [irradiance_mul _ (ENNReal.pow_ne_top ENNReal.ofReal_ne_top)] at hI
          have step := mul_le_mul' (le_refl (followChance rt arrived.depth arrived.value)) (mul_le_mul' hle hI)
          refine le_trans (le_of_eq ?_) (step.trans (le_of_eq ?_))
          · rfl
          · rw [pow_succ]; ring
    · simp
    · simp

/-! ## The theorems -/

theorem nil_repainted : Scene.Repainted R ({} : Scene ℝ) {} := ⟨rfl, .nil⟩

theorem brighter_nonneg : ∀ c c', Brighter c c' → c'.Nonneg := fun _ _ hc => ⟨hc.1.1.trans hc.2.1, hc.1.2.1.trans hc.2.2.1, hc.1.2.2.trans hc.2.2.2⟩

/-- **C133, rays.** In a scene of matt surfaces lit by suns, let the same calls be made with materials of brighter colours. They succeed, and after building, the mean of what `trace_ray` returns along any ray is, in every channel, at least as large as before:
for every depth, numbers of samples and `limit_weight`. -/
theorem C133_brighter_paint (hW : w.SunlitMatt s) (hs : s.SunsShine) (ops ops' : List (SceneOp ℝ)) (hrun : Scene.run w.env {} ops = .ok s) (ho : List.Forall₂ (SceneOp.Repainted Brighter) ops ops') :
    ∃ s', Scene.run w.env {} ops' = .ok s' ∧ ∀ b', s'.BuiltFrom w.env b' → ∀ (rt : RayTracer), 0 < rt.nShadowSamples → ∀ ch ∈ [Spectrum.c0, Spectrum.c1, Spectrum.c2], ∀ (rays : List TRay), rt.maxDepth < rays.length → ∀ (ray : TRay), Norm ray.geometry.direction = 1 →
      0 ≤ ray.value → ray.depth ≤ rt.maxDepth + 1 → ∀ fuel, rt.maxDepth + rt.nShadowSamples + rt.nAmbientSamples + 3 ≤ fuel →
      ∫⁻ r, seenLight (traceRay w rt fuel ⟨r, rays⟩ ray) ch ∂randomNumbers ≤ ∫⁻ r, seenLight (traceRay { w with scene := b' } rt fuel ⟨r, rays⟩ ray) ch ∂randomNumbers := by
  obtain ⟨s', h', hrep⟩ := run_repainted w.env ho nil_repainted hrun
  refine ⟨s', h', fun b' hb rt hsh ch hch rays hlen ray hu hv hd fuel hfuel => ?_⟩
  have hW' := hW.repainted hs hrep brighter_nonneg hb
  rw [C119_mean_light hW rt hsh ch hch rays hlen ray hu hv hd fuel hfuel, C119_mean_light hW' rt hsh ch hch rays hlen ray hu hv hd fuel hfuel]
  exact reflected_brighter hW hs hrep hb rt ch hch _ ray ray.value hv le_rfl

/-- **C133, pictures.** … and so is the mean of every pixel of a picture, whatever the schedules and the generators. -/
theorem C133_brighter_picture (hW : w.SunlitMatt s) (hs : s.SunsShine) (ops ops' : List (SceneOp ℝ)) (hrun : Scene.run w.env {} ops = .ok s) (ho : List.Forall₂ (SceneOp.Repainted Brighter) ops ops') :
    ∃ s', Scene.run w.env {} ops' = .ok s' ∧ ∀ b', s'.BuiltFrom w.env b' → ∀ (o : SpictOptions), o.Sized → o.camera.view.Proper → 0 < o.rt.nShadowSamples → o.rt.maxDepth < 15 → ∀ fuel, o.rt.maxDepth + o.rt.nShadowSamples + o.rt.nAmbientSamples + 3 ≤ fuel →
    ∀ {Ω : Type} [MeasurableSpace Ω] (μ : Measure Ω) (gen gen' : Ω → Nat → Rng), (∀ k, MeasurePreserving (fun ω => gen ω k) μ randomNumbers) → (∀ k, MeasurePreserving (fun ω => gen' ω k) μ randomNumbers) →
    ∀ state state' : Ω → RState TState (Spectrum ℝ), (∀ ω, o.Rendered w fuel (gen ω) (state ω)) → (∀ ω, o.Rendered { w with scene := b' } fuel (gen' ω) (state' ω)) → ∀ ch ∈ [Spectrum.c0, Spectrum.c1, Spectrum.c2], ∀ x y, x < o.width → y < o.height →
      ∫⁻ ω, ENNReal.ofReal (ch (pixelOf o.width o.height (state ω) x y)) ∂μ ≤ ∫⁻ ω, ENNReal.ofReal (ch (pixelOf o.width o.height (state' ω) x y)) ∂μ := by
  obtain ⟨s', h', hrep⟩ := run_repainted w.env ho nil_repainted hrun
  refine ⟨s', h', fun b' hb o hsz hv hsh hD fuel hfuel Ω _ μ gen gen' hg hg' state state' hst hst' ch hch x y hx hy => ?_⟩
  have hW' := hW.repainted hs hrep brighter_nonneg hb
  rw [C119_mean_picture hW o hsz hv hsh hD fuel hfuel μ gen hg state hst ch hch x y hx hy, C119_mean_picture hW' o hsz hv hsh hD fuel hfuel μ gen' hg' state' hst' ch hch x y hx hy]
  have h0 : 0 ≤ (o.camera.traceableRay (x, y)).value := by
    show (0 : ℝ) ≤ 1
    norm_num
  exact reflected_brighter hW hs hrep hb o.rt ch hch _ _ _ h0 le_rfl

/-- **C133, how much brighter.** With `limit_weight` 0, colours that are up to `f ≥ 1` times brighter make the mean light along any ray at most `f^(max_depth + 1)` times brighter. -/
theorem C133_how_much_brighter (hW : w.SunlitMatt s) (hs : s.SunsShine) (ops ops' : List (SceneOp ℝ)) (hrun : Scene.run w.env {} ops = .ok s) (f : ℝ) (hf : 1 ≤ f) (ho : List.Forall₂ (SceneOp.Repainted (UpToTimes f)) ops ops') :
    ∃ s', Scene.run w.env {} ops' = .ok s' ∧ ∀ b', s'.BuiltFrom w.env b' → ∀ (rt : RayTracer), 0 < rt.nShadowSamples → rt.limitWeight = 0 → ∀ ch ∈ [Spectrum.c0, Spectrum.c1, Spectrum.c2], ∀ (rays : List TRay), rt.maxDepth < rays.length → ∀ (ray : TRay),
      Norm ray.geometry.direction = 1 → 0 ≤ ray.value → ray.depth = 0 → ∀ fuel, rt.maxDepth + rt.nShadowSamples + rt.nAmbientSamples + 3 ≤ fuel →
      ∫⁻ r, seenLight (traceRay { w with scene := b' } rt fuel ⟨r, rays⟩ ray) ch ∂randomNumbers ≤ ENNReal.ofReal f ^ (rt.maxDepth + 1) * ∫⁻ r, seenLight (traceRay w rt fuel ⟨r, rays⟩ ray) ch ∂randomNumbers := by
  obtain ⟨s', h', hrep⟩ := run_repainted w.env ho nil_repainted hrun
  refine ⟨s', h', fun b' hb rt hsh hlim ch hch rays hlen ray hu hv hd fuel hfuel => ?_⟩
  have hW' := hW.repainted hs hrep (fun _ _ hc => hc.2.1) hb
  rw [C119_mean_light hW rt hsh ch hch rays hlen ray hu hv (by omega) fuel hfuel, C119_mean_light hW' rt hsh ch hch rays hlen ray hu hv (by omega) fuel hfuel, hd]
  exact reflected_up_to hW hs hf hrep hb rt hlim ch hch _ ray ray.value

/-- **C133, at least.** Colours that are at least `f ≥ 1` times brighter make the mean light along any ray at least `f` times brighter, for every `limit_weight`. -/
theorem C133_at_least (hW : w.SunlitMatt s) (hs : s.SunsShine) (ops ops' : List (SceneOp ℝ)) (hrun : Scene.run w.env {} ops = .ok s) (f : ℝ) (hf : 1 ≤ f) (ho : List.Forall₂ (SceneOp.Repainted (AtLeastTimes f)) ops ops') :
    ∃ s', Scene.run w.env {} ops' = .ok s' ∧ ∀ b', s'.BuiltFrom w.env b' → ∀ (rt : RayTracer), 0 < rt.nShadowSamples → ∀ ch ∈ [Spectrum.c0, Spectrum.c1, Spectrum.c2], ∀ (rays : List TRay), rt.maxDepth < rays.length → ∀ (ray : TRay),
      Norm ray.geometry.direction = 1 → 0 ≤ ray.value → ray.depth ≤ rt.maxDepth + 1 → ∀ fuel, rt.maxDepth + rt.nShadowSamples + rt.nAmbientSamples + 3 ≤ fuel →
      ENNReal.ofReal f * ∫⁻ r, seenLight (traceRay w rt fuel ⟨r, rays⟩ ray) ch ∂randomNumbers ≤ ∫⁻ r, seenLight (traceRay { w with scene := b' } rt fuel ⟨r, rays⟩ ray) ch ∂randomNumbers := by
  obtain ⟨s', h', hrep⟩ := run_repainted w.env ho nil_repainted hrun
  refine ⟨s', h', fun b' hb rt hsh ch hch rays hlen ray hu hv hd fuel hfuel => ?_⟩
  have hW' := hW.repainted hs hrep (fun c c' hc => brighter_nonneg c c' (brighter_of_times hf c c' hc)) hb
  rw [C119_mean_light hW rt hsh ch hch rays hlen ray hu hv hd fuel hfuel, C119_mean_light hW' rt hsh ch hch rays hlen ray hu hv hd fuel hfuel]
  exact reflected_at_least hW hs hf hrep hb rt ch hch _ ray hv

/-- The sky by reflection. -/
theorem skyLight_brighter (hW : w.SunlitMatt s) (hbb : w.scene.Repainted Brighter b') (ch : Spectrum ℝ → ℝ) (hch : ch ∈ [Spectrum.c0, Spectrum.c1, Spectrum.c2]) (sky : Vec3 ℝ → ENNReal) :
    ∀ (k : Nat) (view : Ray3 ℝ), skyLight w sky ch k view ≤ skyLight { w with scene := b' } sky ch k view := by
  intro k
  induction k with
  | zero => intro view; unfold skyLight; rw [cast_repainted hbb rfl]
  | succ k ih =>
    intro view
    unfold skyLight
    rw [cast_repainted hbb rfl]
    rcases hc : w.cast { TRay.default with geometry := view } with (_ | ⟨i, arrived⟩) | _ | _
    · exact le_rfl
    · simp only
      cases hm : w.materialAt arrived.interaction.shading.side i with
      | panic => exact zero_le
      | diverge => exact zero_le
      | ok m =>
        obtain ⟨m', hm', hrep⟩ := materialAt_repainted hbb rfl _ _ m hm
        rw [hm']
        simp only
        obtain ⟨col, col', r, e, e', hcol, hn⟩ := repainted_matt hW hm hrep
        obtain ⟨-, -, hcc⟩ := matt_only_flags e
        obtain ⟨-, -, hcc'⟩ := matt_only_flags e'
        refine mul_le_mul' ?_ (irradiance_mono fun l => ih _)
        rw [hcc, hcc']
        exact ENNReal.ofReal_le_ofReal (div_le_div_of_nonneg_right (channel_atMost hcol.2 hch) Real.pi_pos.le)
    · exact le_rfl
    · exact le_rfl

/-- **C133, daylight.** Brighter paint never makes the mean of a daylight coefficient smaller (one ambient sample, as in C127). -/
theorem C133_brighter_daylight (hW : w.SunlitMatt s) (hs : s.SunsShine) (ops ops' : List (SceneOp ℝ)) (hrun : Scene.run w.env {} ops = .ok s) (ho : List.Forall₂ (SceneOp.Repainted Brighter) ops ops') :
    ∃ s', Scene.run w.env {} ops' = .ok s' ∧ ∀ b', s'.BuiltFrom w.env b' → ∀ (dc : DcFactory), dc.nAmbientSamples = 1 → 0 < dc.maxDepth → dc.maxDepth < 15 → 0 ≤ dc.limitWeight → dc.limitWeight ≤ 1 → (∀ d, Norm d = 1 → dc.dirToBin d < dc.nBins) →
    (∀ j, Measurable3 {d | dc.dirToBin d = j}) → ∀ {Ω : Type} [MeasurableSpace Ω] (μ : Measure Ω) (primary : Ω → Nat → Rng) (secondary : Ω → Nat → Nat → Rng), (∀ i, MeasurePreserving (fun ω => (primary ω i, secondary ω i 0)) μ (randomNumbers.prod randomNumbers)) →
    ∀ (rays : List (Ray3 ℝ)), (∀ r ∈ rays, Norm r.direction = 1) → ∀ i < rays.length, ∀ fuel, dc.maxDepth + 2 ≤ fuel → ∀ j < dc.nBins, ∀ ch ∈ [Spectrum.c0, Spectrum.c1, Spectrum.c2],
      ∫⁻ ω, coefficient (calcDc w dc fuel rays (primary ω) (secondary ω)) i j ch ∂μ ≤ ∫⁻ ω, coefficient (calcDc { w with scene := b' } dc fuel rays (primary ω) (secondary ω)) i j ch ∂μ := by
  obtain ⟨s', h', hrep⟩ := run_repainted w.env ho nil_repainted hrun
  refine ⟨s', h', fun b' hb dc hn hD hD15 h0 h1 hbin hmeas Ω _ μ primary secondary hgen rays hrays i hi fuel hfuel j hj ch hch => ?_⟩
  have hW' := hW.repainted hs hrep brighter_nonneg hb
  have hbb : w.scene.Repainted Brighter b' := built_repainted w.env hrep hW.renders.built hb
  obtain ⟨e1, e2, hf, hc⟩ := C127_one_sample_partial hW dc hn hD hD15 h0 h1 hbin hmeas μ primary secondary hgen rays hrays i rays[i] (List.getElem?_eq_getElem hi) fuel hfuel
  obtain ⟨e1', e2', hf', hc'⟩ := C127_one_sample_partial hW' dc hn hD hD15 h0 h1 hbin hmeas μ primary secondary hgen rays hrays i rays[i] (List.getElem?_eq_getElem hi) fuel hfuel
  rw [hc j hj ch hch, hc' j hj ch hch]
  simp only [skySeen_eq]
  obtain ⟨S, -, h⟩ := skyLight_geometric hW'
  obtain ⟨axes⟩ := axes_exist
  rw [sensor_geometric h hf' axes ch, ← sensor_geometric h hf axes ch]
  exact irradiance_mono fun l => skyLight_brighter hW hbb ch hch _ _ _

end Rendering
