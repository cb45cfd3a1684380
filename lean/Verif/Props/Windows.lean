import Verif.Lemmas.Windows

/-!
# C121: openings to the sky make walls brighter
-/

set_option linter.unusedSectionVars false
namespace Rendering

open MeasureTheory Set Classical

variable {w : World} {s : Scene ℝ}

/-- Tracing with enough fuel ends, with light whose channel is `val`, unless `bad`. -/
def Ends (self : Nat → RefTrace) (ch : Spectrum ℝ → ℝ) (val bad : Ray3 ℝ → Rng → ENNReal) (rest : Ray3 ℝ → Rng → Rng) (ray : TRay) : Prop :=
  ∀ rng : Rng, rng.Valid → bad ray.geometry rng = 0 →
    ∃ light F, (∀ fuel, F ≤ fuel → self fuel rng ray = .ok ((light, 0), rest ray.geometry rng)) ∧ 0 ≤ ch light ∧ ENNReal.ofReal (ch light) = val ray.geometry rng ∧ (rest ray.geometry rng).Valid

theorem MattSide.withSky {i : Nat} {bk : Bool} {tri : Tri ℝ} {m : Material ℝ} {col : Spectrum ℝ} {r : ℝ} (h : MattSide w i bk tri m col r) (sky : Vec3 ℝ → ℝ) (c : Option (Spectrum ℝ)) : MattSide (w.withSky sky c) i bk tri m col r :=
  ⟨h.triangle, h.material, h.matt, h.nonneg, h.frame, h.normals⟩

/-- The induction behind C121. -/
theorem window_fresh (hW : w.SunlitMatt s) (sky : Vec3 ℝ → ℝ) (c : Option (Spectrum ℝ)) (rt : RayTracer) (hsh : 0 < rt.nShadowSamples) (ch : Spectrum ℝ → ℝ) (hch : ch ∈ [Spectrum.c0, Spectrum.c1, Spectrum.c2]) (k : Nat) :
    ∀ v : ℝ, 0 ≤ v → ∃ val bad rest, Fresh val rest ∧ Fresh bad rest ∧ ∀ ray : TRay, ray.depth + k = rt.maxDepth + 1 → ray.value = v → Norm ray.geometry.direction = 1 →
      (w.SeesSurfaces k ray → avg (val ray.geometry) = windowLight w rt ch k ray ∧ avg (bad ray.geometry) = 0) ∧ (w.cast ray ≠ .ok none → Ends (refTrace (w.withSky sky c) rt) ch val bad rest ray) := by
  obtain ⟨code, hcode, hall⟩ := disc_side hW
  have hb0 : 0 ≤ ch Spectrum.black := (chan_black hch).ge
  have hb1 : ENNReal.ofReal (ch Spectrum.black) = 0 := by rw [chan_black hch]; simp
  have hcast : ∀ ray, (w.withSky sky c).cast ray = w.cast ray := fun _ => rfl
  have hmissing : ∀ ray : TRay, Norm ray.geometry.direction = 1 → (code ray.geometry = none ↔ w.cast ray = .ok none) := by
    intro ray hu
    rcases hall ray hu with ⟨h1, h2⟩ | ⟨i, bk, tri, m, col, r, it, h1, _, h2, _⟩
    · exact ⟨fun _ => h2, fun _ => h1⟩
    · rw [h1, h2]; simp
  induction k with
  | zero =>
    intro v hv
    refine ⟨fun _ _ => 0, fun _ _ => 0, fun _ r => r, Fresh.const measurable_const, Fresh.const measurable_const, fun ray hd hval hu => ⟨fun _ => ⟨avg_const 0, avg_const 0⟩, fun hc0 rng hr _ => ⟨Spectrum.black, 1, fun fuel hfu => ?_, hb0, hb1, hr⟩⟩⟩
    obtain ⟨fuel, rfl⟩ : ∃ f, fuel = f + 1 := ⟨fuel - 1, by omega⟩
    rcases hall ray hu with ⟨_, hc⟩ | ⟨i, bk, tri, m, col, r, it, _, hS, hc, ha⟩
    · exact absurd hc hc0
    · rw [trace_matt rt fuel rng ray (hS.withSky sky c) hc ha, if_pos (by omega)]
  | succ k ih =>
    intro v hv
    have each : ∀ κ : Option (Nat × Bool), ∃ val bad rest, Fresh val rest ∧ Fresh bad rest ∧ ∀ ray : TRay, code ray.geometry = κ → ray.depth + (k + 1) = rt.maxDepth + 1 → ray.value = v → Norm ray.geometry.direction = 1 →
        (w.SeesSurfaces (k + 1) ray → avg (val ray.geometry) = windowLight w rt ch (k + 1) ray ∧ avg (bad ray.geometry) = 0) ∧ (w.cast ray ≠ .ok none → Ends (refTrace (w.withSky sky c) rt) ch val bad rest ray) := by
      intro κ
      by_cases hex : ∃ ray : TRay, Norm ray.geometry.direction = 1 ∧ code ray.geometry = κ
      swap
      · exact ⟨fun _ _ => 0, fun _ _ => 0, fun _ r => r, Fresh.const measurable_const, Fresh.const measurable_const, fun ray hκ _ _ hu => absurd ⟨ray, hu, hκ⟩ hex⟩
      obtain ⟨ray0, hu0, hκ0⟩ := hex
      rcases hall ray0 hu0 with ⟨hn0, -⟩ | ⟨i, bk, tri, m, col, r, -, hκ1, hS, -, -⟩
      · -- the ray misses everything
        refine ⟨fun _ _ => 0, fun _ _ => 0, fun _ r => r, Fresh.const measurable_const, Fresh.const measurable_const, fun ray hκ hd hval hu => ?_⟩
        have hc : w.cast ray = .ok none := (hmissing ray hu).1 (by rw [hκ, ← hκ0, hn0])
        refine ⟨fun _ => ⟨by unfold windowLight; rw [hc]; exact avg_const 0, avg_const 0⟩, fun h => absurd hc h⟩
      · -- it meets a matt surface
        rw [hκ1] at hκ0
        have hfacts : ∀ ray : TRay, code ray.geometry = κ → Norm ray.geometry.direction = 1 → ∃ it, w.cast ray = .ok (some (i, { ray with interaction := it })) ∧ ArrivesAt ray.geometry bk tri it := by
          intro ray hκ hu
          rcases hall ray hu with ⟨h1, _⟩ | ⟨i', bk', tri', m', col', r', it, h1, hS', hc, ha⟩
          · rw [hκ, ← hκ0] at h1; cases h1
          · rw [hκ, ← hκ0] at h1
            simp only [Option.some.injEq, Prod.mk.injEq] at h1
            obtain ⟨rfl, rfl⟩ := h1
            obtain ⟨rfl, rfl⟩ := hS.unique hS'
            exact ⟨it, hc, ha⟩
        obtain ⟨-, -, hmc⟩ := matt_only_flags hS.matt
        have hcolch : 0 ≤ ch col := by
          simp only [List.mem_cons, List.not_mem_nil, or_false] at hch
          rcases hch with rfl | rfl | rfl
          · exact hS.nonneg.1
          · exact hS.nonneg.2.1
          · exact hS.nonneg.2.2
        obtain ⟨valc, badc, restc, hFc, hBc, hc⟩ := ih (v * col.radiance) (mul_nonneg hv (radiance_nonneg' hS.nonneg))
        have hnS : 0 < if rt.maxDepth - k = 0 then rt.nShadowSamples else 1 := by split_ifs <;> omega
        obtain ⟨vald, restd, hFd, hmd, hrd⟩ := sunlight_fresh hW.toSunlit m col r hS.matt hS.nonneg ch hch (facing tri bk) _ hnS
        have hP : Measurable fun g : Ray3 ℝ => planePoint tri g := measurable_planePoint tri measurable_id
        have hFd' := hFd.comp hP
        have hBd' := hFd'.zero
        set N := facing tri bk with hN
        set e1 := along tri with he1
        set e2 := across tri bk with he2
        have hFb := redraw_fresh hcode hFc (ENNReal.ofReal (ch col)) 0 N e1 e2
        have hBb := redraw_fresh hcode hBc 1 ⊤ N e1 e2
        set valb := redrawVal (meetsOn code N e1 e2) 0 (bounceVal valc (ENNReal.ofReal (ch col)) N e1 e2) with hvalb
        set badb := redrawVal (meetsOn code N e1 e2) ⊤ (bounceVal badc 1 N e1 e2) with hbadb
        set restb := redrawRest (meetsOn code N e1 e2) (bounceRest restc N e1 e2) with hrestb
        have hg : ∀ ray : TRay, ∀ it, ArrivesAt ray.geometry bk tri it → ∀ l, (TRay.onward { ray with interaction := it } m l).geometry = ⟨planePoint tri ray.geometry + N.scale (1 / 10 ^ 5), worldOf e1 e2 N l⟩ := by
          intro ray it ha l
          simp only [TRay.onward, ha.point, ha.normal, ha.dpdu, ha.dpdv, ← hN, ← he1, ← he2]
        have hun : ∀ l, Norm l = 1 → Norm (worldOf e1 e2 N l) = 1 := by
          intro l hl
          have hl2 : l.x ^ 2 + l.y ^ 2 + l.z ^ 2 = 1 := by
            have := Dot_self_of_norm hl; simp only [Dot] at this; nlinarith
          have := (world_unit hS.frame hl2).1
          rw [← he1, ← he2, ← hN, world_eq e1 e2 N l.x l.y l.z] at this
          exact this
        -- the share of the sky
        have hshare : ∀ ray : TRay, ∀ it, ArrivesAt ray.geometry bk tri it → missChance code N e1 e2 (planePoint tri ray.geometry) = skyShare w m { ray with interaction := it } := by
          intro ray it ha
          unfold missChance skyShare
          congr 1
          refine irradiance_congr fun l hl => ?_
          have h2 := hmissing (TRay.onward { ray with interaction := it } m l) (by rw [hg ray it ha]; exact hun l hl)
          rw [hg ray it ha] at h2
          by_cases h : code ⟨planePoint tri ray.geometry + N.scale (1 / 10 ^ 5), worldOf e1 e2 N l⟩ = none
          · simp only [h, h2.1 h, if_true]
          · simp only [h, mt h2.2 h, if_false]
        -- the light of the onward rays
        have hon : ∀ ray : TRay, code ray.geometry = κ → Norm ray.geometry.direction = 1 → ray.depth + (k + 1) = rt.maxDepth + 1 → ray.value = v → w.SeesSurfaces (k + 1) ray → ∀ it, w.cast ray = .ok (some (i, { ray with interaction := it })) → ArrivesAt ray.geometry bk tri it →
            (1 - skyShare w m { ray with interaction := it })⁻¹ * (ENNReal.ofReal (ch m.colour / Real.pi) * (irradiance fun l => windowLight w rt ch k (TRay.onward { ray with interaction := it } m l))) = avg (valb (planePoint tri ray.geometry)) ∧
            avg (badb (planePoint tri ray.geometry)) = 0 := by
          intro ray hκ hu hd hval hsees it hcst ha
          have hmat := hS.material
          rw [← ha.side] at hmat
          obtain ⟨hlt, hrec⟩ := hsees i { ray with interaction := it } m hcst hmat
          rw [← hshare ray it ha] at hlt
          have hone : ENNReal.ofReal 1 = 1 := ENNReal.ofReal_one
          rw [hvalb, redraw_mean hcode hFc _ hcolch 0 N e1 e2 _ hlt, hbadb, ← hone, redraw_mean hcode hBc 1 zero_le_one ⊤ N e1 e2 _ hlt, hmc, hshare ray it ha]
          have each : ∀ l, Norm l = 1 → 0 < l.z → _ := fun l hl hz => (hc (TRay.onward { ray with interaction := it } m l) (by simp only [TRay.onward]; omega) (by simp only [TRay.onward, hval, hmc]) (by rw [hg ray it ha]; exact hun l hl)).1 (hrec l hl hz)
          constructor
          · congr 2
            refine irradiance_congr' fun l hl hz => ?_
            have h1 := (each l hl hz).1
            rw [hg ray it ha] at h1
            by_cases h : code ⟨planePoint tri ray.geometry + N.scale (1 / 10 ^ 5), worldOf e1 e2 N l⟩ = none
            · have h2 := (hmissing (TRay.onward { ray with interaction := it } m l) (by rw [hg ray it ha]; exact hun l hl)).1 (by rw [hg ray it ha]; exact h)
              simp only [h, if_true]
              cases k with
              | zero => rfl
              | succ k => unfold windowLight; rw [h2]
            · simp only [h, if_false]
              exact h1.symm
          · have : (irradiance fun l => if code ⟨planePoint tri ray.geometry + N.scale (1 / 10 ^ 5), worldOf e1 e2 N l⟩ = none then 0 else avg (badc ⟨planePoint tri ray.geometry + N.scale (1 / 10 ^ 5), worldOf e1 e2 N l⟩)) = irradiance fun _ => 0 := by
              refine irradiance_congr' fun l hl hz => ?_
              have h1 := (each l hl hz).2
              rw [hg ray it ha] at h1
              simp only [h1, ite_self]
            rw [this, irradiance_const, zero_mul, mul_zero, mul_zero]
        have hgives : ∀ ray : TRay, ray.depth + (k + 1) = rt.maxDepth + 1 → ray.value = v → ∀ it, ArrivesAt ray.geometry bk tri it → ∀ n, ∀ rng : Rng, rng.Valid → repeatVal badb restb n (planePoint tri ray.geometry) rng = 0 →
            ∃ sum F, (∀ f, F ≤ f → refAmbient (refTrace (w.withSky sky c) rt f) m { ray with interaction := it } f n rng = .ok (sum, repeatRest restb n (planePoint tri ray.geometry) rng)) ∧ 0 ≤ ch sum ∧
              ENNReal.ofReal (ch sum) = repeatVal valb restb n (planePoint tri ray.geometry) rng ∧ (repeatRest restb n (planePoint tri ray.geometry) rng).Valid := by
          intro ray hd hval it ha n rng hr hbad
          obtain ⟨sum, F, k1, k2, k3, k4⟩ := ambient_redraws (refTrace (w.withSky sky c) rt) m col r hS.matt ch hch hcolch code valc badc restc { ray with interaction := it } N e1 e2 (planePoint tri ray.geometry) ha.normal ha.dpdu ha.dpdv ha.point hS.frame
            (fun l hl hnone => by
              have h2 := (hmissing _ hl).1 hnone
              refine ⟨(c.getD (Spectrum.gray 1)).scale (sky (TRay.onward { ray with interaction := it } m l).geometry.direction), 1 / 2 / Real.pi, by positivity, fun rng fuel => ?_⟩
              conv_lhs => unfold refTrace
              simp only [hcast, h2, Res.bind_ok]
              rfl)
            (fun l hl hne rng hr hb => (hc _ (by simp only [TRay.onward]; omega) (by simp only [TRay.onward, hval, hmc]) hl).2 (fun h => hne ((hmissing _ hl).2 h)) rng hr hb) n rng hr hbad
          exact ⟨sum, F, fun f hf => k1 f f hf hf, k2, k3, k4⟩
        have hequ : ∀ ray : TRay, code ray.geometry = κ → ray.depth + (k + 1) = rt.maxDepth + 1 → ray.value = v → Norm ray.geometry.direction = 1 → w.SeesSurfaces (k + 1) ray →
            windowLight w rt ch (k + 1) ray = avg (vald (planePoint tri ray.geometry)) + followChance rt (rt.maxDepth - k) v * avg (valb (planePoint tri ray.geometry)) ∧ avg (badb (planePoint tri ray.geometry)) = 0 := by
          intro ray hκ hd hval hu hsees
          obtain ⟨it, hcast, ha⟩ := hfacts ray hκ hu
          have hmat := hS.material
          rw [← ha.side] at hmat
          obtain ⟨ho1, ho2⟩ := hon ray hκ hu hd hval hsees it hcast ha
          refine ⟨?_, ho2⟩
          rw [← ho1, ← ha.point, hmd { ray with interaction := it } ha.normal]
          have hdep : ray.depth = rt.maxDepth - k := by omega
          conv_lhs => unfold windowLight
          simp only [hcast, hmat, hval, hdep]
        have hdirect : ∀ ray : TRay, ∀ it, ArrivesAt ray.geometry bk tri it → ∀ rng : Rng, rng.Valid →
            ∃ v, (∀ fuel, rt.nShadowSamples + 2 ≤ fuel → (w.withSky sky c).localIllumination fuel m { ray with interaction := it } rng (if rt.maxDepth - k = 0 then rt.nShadowSamples else 1) = .ok (v, restd (planePoint tri ray.geometry) rng)) ∧ 0 ≤ ch v ∧
              ENNReal.ofReal (ch v) = vald (planePoint tri ray.geometry) rng ∧ (restd (planePoint tri ray.geometry) rng).Valid := by
          intro ray it ha rng hr
          obtain ⟨v, h1, h2, h3, h4⟩ := hrd { ray with interaction := it } (rt.nShadowSamples + 2) rng ha.normal (by split_ifs <;> omega) hr
          simp only [ha.point] at h1 h3 h4
          refine ⟨v, fun fuel hfu => ?_, h2, h3, h4⟩
          rw [local_withSky, (localIllumination_mono w m { ray with interaction := it } rng _ hfu).eq_of_ne (by rw [h1]; exact fun h => by cases h), h1]
        clear hrd
        by_cases hoff : rt.maxDepth = 0 ∨ rt.nAmbientSamples = 0
        · -- no ambient samples
          refine ⟨_, _, _, hFd', hBd', fun ray hκ hd hval hu => ⟨fun hsees => ⟨?_, avg_const 0⟩, fun _ rng hr _ => ?_⟩⟩
          · rw [(hequ ray hκ hd hval hu hsees).1]
            simp only [followChance, hoff, if_true, zero_mul, add_zero]
          · obtain ⟨it, hcast, ha⟩ := hfacts ray hκ hu
            obtain ⟨d, h1, h2, h3, h4⟩ := hdirect ray it ha rng hr
            have hdep : ray.depth = rt.maxDepth - k := by omega
            refine ⟨d, rt.nShadowSamples + 3, fun fuel hfu => ?_, h2, h3, h4⟩
            obtain ⟨fuel, rfl⟩ : ∃ f, fuel = f + 1 := ⟨fuel - 1, by omega⟩
            have h1 := h1 fuel (by omega)
            rw [trace_matt rt fuel rng ray (hS.withSky sky c) hcast ha, if_neg (by omega)]
            simp only [TRay.getNAmbientSamples, hoff, if_true, hdep]
            simp only [hdep] at h1
            rw [h1]
            simp only [Res.bind_ok, spectrum_add_black]
        · by_cases h0 : rt.maxDepth - k = 0
          · -- all ambient samples
            have hpos : 0 < rt.nAmbientSamples := by push Not at hoff; omega
            have hFs := (((hFb.iterate rt.nAmbientSamples).mul (k := fun _ => (rt.nAmbientSamples : ENNReal)⁻¹) measurable_const)).comp hP
            have hBs := (hBb.iterate rt.nAmbientSamples).comp hP
            refine ⟨_, _, _, hFd'.add hFs, hBd'.add hBs, fun ray hκ hd hval hu => ⟨fun hsees => ?_, fun _ rng hr hbad => ?_⟩⟩
            · obtain ⟨q1, q2⟩ := hequ ray hκ hd hval hu hsees
              rw [q1, hFd'.mean_add hFs, hBd'.mean_add hBs]
              constructor
              · congr 1
                simp only [followChance, hoff, if_false, h0, if_true, one_mul]
                have := (hFb.iterate rt.nAmbientSamples).mean_mul (fun _ => (rt.nAmbientSamples : ENNReal)⁻¹) (planePoint tri ray.geometry)
                rw [this, hFb.mean_iterate, ← mul_assoc, ENNReal.inv_mul_cancel (by exact_mod_cast hpos.ne') (ENNReal.natCast_ne_top _), one_mul]
              · rw [avg_const, zero_add, hBb.mean_iterate, q2, mul_zero]
            · obtain ⟨it, hcast, ha⟩ := hfacts ray hκ hu
              obtain ⟨d, h1, h2, h3, h4⟩ := hdirect ray it ha rng hr
              simp only [zero_add] at hbad
              obtain ⟨sum, F, k1, k2, k3, k4⟩ := hgives ray hd hval it ha rt.nAmbientSamples _ h4 hbad
              have hdep : ray.depth = 0 := by omega
              have hn' : (0 : ℝ) < rt.nAmbientSamples := by exact_mod_cast hpos
              refine ⟨d + sum.divBy rt.nAmbientSamples, F + rt.nShadowSamples + 3, fun fuel hfu => ?_, ?_, ?_, k4⟩
              · obtain ⟨fuel, rfl⟩ : ∃ f, fuel = f + 1 := ⟨fuel - 1, by omega⟩
                have h1 := h1 fuel (by omega)
                have k1 := k1 fuel (by omega)
                rw [trace_matt rt fuel rng ray (hS.withSky sky c) hcast ha, if_neg (by omega)]
                simp only [TRay.getNAmbientSamples, hoff, if_false, hdep, if_true]
                simp only [h0, if_true, hdep] at h1
                rw [h1]
                simp only [hdep] at k1
                simp only [Res.bind_ok, hpos.ne', if_false, k1]
              · rw [chan_add hch, chan_divBy hch]; positivity
              · rw [chan_add hch, chan_divBy hch, ENNReal.ofReal_add h2 (by positivity), h3, ENNReal.ofReal_div_of_pos hn', ENNReal.ofReal_natCast, k3, ENNReal.div_eq_inv_mul]
          · -- Russian roulette
            let one : Bool → Ray3 ℝ × ℝ → Rng → ENNReal := fun b q r => if b then 0 else valb (planePoint tri q.1) r
            let oneBad : Bool → Ray3 ℝ × ℝ → Rng → ENNReal := fun b q r => if b then 0 else badb (planePoint tri q.1) r
            let oneRest : Bool → Ray3 ℝ × ℝ → Rng → Rng := fun b q r => if b then r else restb (planePoint tri q.1) r
            let cut : Ray3 ℝ × ℝ → Bool := fun q => if ExceedsQuotient q.2 v rt.limitWeight then true else false
            have hcut : Disc cut := by
              refine Disc.ite ?_ (Disc.const _) (Disc.const _)
              have : Measurable fun q : Ray3 ℝ × ℝ => q.2 := measurable_snd
              by_cases hl : rt.limitWeight = 0
              · have e : {q : Ray3 ℝ × ℝ | ExceedsQuotient q.2 v rt.limitWeight} = ∅ := by
                  ext q
                  simp [ExceedsQuotient, hl, hv]
                rw [e]; exact MeasurableSet.empty
              · have e : {q : Ray3 ℝ × ℝ | ExceedsQuotient q.2 v rt.limitWeight} = {q : Ray3 ℝ × ℝ | v / rt.limitWeight < q.2} := by
                  ext q
                  simp [ExceedsQuotient, hl]
                rw [e]; exact measurableSet_lt measurable_const this
            have hone : ∀ b, Fresh (one b) (oneRest b) := by
              intro b
              cases b with
              | true => exact Fresh.const measurable_const
              | false => exact hFb.comp (f := fun q : Ray3 ℝ × ℝ => planePoint tri q.1) (measurable_planePoint tri measurable_fst)
            have honeB : ∀ b, Fresh (oneBad b) (oneRest b) := by
              intro b
              cases b with
              | true => exact Fresh.const measurable_const
              | false => exact hBb.comp (f := fun q : Ray3 ℝ × ℝ => planePoint tri q.1) (measurable_planePoint tri measurable_fst)
            have hFo := Fresh.choose hcut hone
            have hBo := Fresh.choose hcut honeB
            have hF2 := (hFd'.comp (f := fun q : Ray3 ℝ × ℝ => q.1) measurable_fst).add hFo
            have hB2 := (hBd'.comp (f := fun q : Ray3 ℝ × ℝ => q.1) measurable_fst).add hBo
            refine ⟨_, _, _, hF2.draw, hB2.draw, fun ray hκ hd hval hu => ⟨fun hsees => ?_, fun _ rng hr hbad => ?_⟩⟩
            · obtain ⟨q1, q2⟩ := hequ ray hκ hd hval hu hsees
              rw [q1, hF2.mean_draw ray.geometry, hB2.mean_draw ray.geometry]
              constructor
              · have hmean : ∀ u : ℝ, avg (fun r => vald (planePoint tri ray.geometry) r + one (cut (ray.geometry, u)) (ray.geometry, u) (restd (planePoint tri ray.geometry) r)) =
                    avg (vald (planePoint tri ray.geometry)) + if ExceedsQuotient u v rt.limitWeight then 0 else avg (valb (planePoint tri ray.geometry)) := by
                  intro u
                  have := (hFd'.comp (f := fun q : Ray3 ℝ × ℝ => q.1) measurable_fst).mean_add hFo (ray.geometry, u)
                  refine this.trans ?_
                  congr 1
                  by_cases hE : ExceedsQuotient u v rt.limitWeight
                  · simp only [one, cut, hE, if_true]; exact avg_const 0
                  · simp only [one, cut, hE, if_false, Bool.false_eq_true]
                refine (lintegral_congr fun u => hmean u).trans ?_
                rw [lintegral_add_left measurable_const, setLIntegral_const, Real.volume_Ico, survive_mean v rt.limitWeight hv]
                simp only [followChance, hoff, if_false, h0, sub_zero, ENNReal.ofReal_one, mul_one]
              · have hmean : ∀ u : ℝ, avg (fun r => 0 + oneBad (cut (ray.geometry, u)) (ray.geometry, u) (restd (planePoint tri ray.geometry) r)) = 0 := by
                  intro u
                  have := (hBd'.comp (f := fun q : Ray3 ℝ × ℝ => q.1) measurable_fst).mean_add hBo (ray.geometry, u)
                  refine this.trans ?_
                  rw [avg_const, zero_add]
                  by_cases hE : ExceedsQuotient u v rt.limitWeight
                  · simp only [oneBad, cut, hE, if_true]; exact avg_const 0
                  · simp only [oneBad, cut, hE, if_false, Bool.false_eq_true]; exact q2
                refine (lintegral_congr fun u => hmean u).trans ?_
                exact lintegral_zero
            · obtain ⟨it, hcast, ha⟩ := hfacts ray hκ hu
              have hr' : rng.tail.Valid := fun j => hr (j + 1)
              obtain ⟨d, h1, h2, h3, h4⟩ := hdirect ray it ha rng.tail hr'
              have hdep : ¬ ray.depth = 0 := by omega
              simp only [h0, if_false] at h1
              by_cases hE : ExceedsQuotient (rng 0) v rt.limitWeight
              · obtain ⟨d', l1, l2, l3, l4⟩ := hdirect { ray with value := rt.limitWeight } it ha rng.tail hr'
                simp only [h0, if_false] at l1
                refine ⟨d', rt.nShadowSamples + 3, fun fuel hfu => ?_, l2, ?_, ?_⟩
                · obtain ⟨fuel, rfl⟩ : ∃ f, fuel = f + 1 := ⟨fuel - 1, by omega⟩
                  have l1 := l1 fuel (by omega)
                  rw [trace_matt rt fuel rng ray (hS.withSky sky c) hcast ha, if_neg (by omega)]
                  simp only [TRay.getNAmbientSamples, hoff, if_false, hdep, Rng.gen, hval, hE, if_true]
                  change Res.bind ((w.withSky sky c).localIllumination fuel m _ rng.tail 1) _ = _
                  rw [l1]
                  simp only [Res.bind_ok, spectrum_add_black, oneRest, cut, hE, if_true]
                · simp only [one, cut, hE, if_true, add_zero]
                  exact l3
                · simp only [oneRest, cut, hE, if_true]
                  exact l4
              · simp only [oneBad, cut, hE, if_false, Bool.false_eq_true, zero_add] at hbad
                obtain ⟨sum, F, k1, k2, k3, k4⟩ := hgives ray hd hval it ha 1 _ h4 (by simp only [repeatVal, add_zero]; exact hbad)
                have hdiv : sum.divBy ((1 : Nat) : ℝ) = sum := by ext <;> simp [Spectrum.divBy]
                refine ⟨d + sum, F + rt.nShadowSamples + 3, fun fuel hfu => ?_, ?_, ?_, ?_⟩
                · obtain ⟨fuel, rfl⟩ : ∃ f, fuel = f + 1 := ⟨fuel - 1, by omega⟩
                  have h1 := h1 fuel (by omega)
                  have k1 := k1 fuel (by omega)
                  rw [trace_matt rt fuel rng ray (hS.withSky sky c) hcast ha, if_neg (by omega)]
                  simp only [TRay.getNAmbientSamples, hoff, if_false, hdep, Rng.gen, hval, hE]
                  rw [hval] at h1 k1
                  change Res.bind ((w.withSky sky c).localIllumination fuel m _ rng.tail 1) _ = _
                  rw [h1]
                  simp only [Res.bind_ok, one_ne_zero, if_false, k1, hdiv, oneRest, cut, hE, Bool.false_eq_true]
                  rfl
                · rw [chan_add hch]; positivity
                · rw [chan_add hch, ENNReal.ofReal_add h2 k2, h3, k3]
                  simp only [one, cut, hE, if_false, Bool.false_eq_true, repeatVal, add_zero]
                · simp only [oneRest, cut, hE, if_false, Bool.false_eq_true]
                  exact k4
    choose val bad rest hF hB hprop using each
    exact ⟨fun g => val (code g) g, fun g => bad (code g) g, fun g => rest (code g) g, Fresh.choose hcode hF, Fresh.choose hcode hB, fun ray h1 h2 h3 => hprop (code ray.geometry) ray rfl h1 h2 h3⟩

/-- Almost surely, with enough fuel, tracing under a sky ends, and then the light is `val`. -/
theorem window_ends (hW : w.SunlitMatt s) (sky : Vec3 ℝ → ℝ) (c : Option (Spectrum ℝ)) (rt : RayTracer) (hsh : 0 < rt.nShadowSamples) (ch : Spectrum ℝ → ℝ) (hch : ch ∈ [Spectrum.c0, Spectrum.c1, Spectrum.c2]) (rays : List TRay)
    (hlen : rt.maxDepth < rays.length) (ray : TRay) (hu : Norm ray.geometry.direction = 1) (hval : 0 ≤ ray.value) (hdep : ray.depth ≤ rt.maxDepth + 1) (hmeets : w.cast ray ≠ .ok none)
    (hsees : w.SeesSurfaces (rt.maxDepth + 1 - ray.depth) ray) : ∃ val : Rng → ENNReal, avg val = windowLight w rt ch (rt.maxDepth + 1 - ray.depth) ray ∧
      ∀ᵐ r ∂randomNumbers, ∃ F light, ENNReal.ofReal (ch light) = val r ∧ ∀ fuel, F ≤ fuel → ∃ rng', refTrace (w.withSky sky c) rt fuel r ray = .ok ((light, 0), rng') := by
  obtain ⟨val, bad, rest, hF, hB, h⟩ := window_fresh hW sky c rt hsh ch hch (rt.maxDepth + 1 - ray.depth) ray.value hval
  obtain ⟨h1, h2⟩ := h ray (by omega) rfl hu
  obtain ⟨m1, m2⟩ := h1 hsees
  refine ⟨val ray.geometry, m1, ?_⟩
  have hz : ∀ᵐ r ∂randomNumbers, bad ray.geometry r = 0 := by
    unfold avg at m2
    rw [lintegral_eq_zero_iff (hB.mval_at _)] at m2
    filter_upwards [m2] with r hr
    exact hr
  have hv : ∀ᵐ r ∂randomNumbers, Rng.Valid r := valid_almost_surely
  filter_upwards [hz, hv] with r hr hv
  obtain ⟨light, F, k1, _, k3, _⟩ := h2 hmeets r hv hr
  exact ⟨F, light, k3, fun fuel hf => ⟨_, k1 fuel hf⟩⟩

/-- **C121, the tracer ends.** Under a sky, tracing a ray that meets a surface almost surely ends, if something of the scene is seen from every point where its paths arrive. -/
theorem C121_ends (hW : w.SunlitMatt s) (sky : Vec3 ℝ → ℝ) (c : Option (Spectrum ℝ)) (rt : RayTracer) (hsh : 0 < rt.nShadowSamples) (rays : List TRay) (hlen : rt.maxDepth < rays.length) (ray : TRay) (hu : Norm ray.geometry.direction = 1)
    (hval : 0 ≤ ray.value) (hdep : ray.depth ≤ rt.maxDepth + 1) (hmeets : w.cast ray ≠ .ok none) (hsees : w.SeesSurfaces (rt.maxDepth + 1 - ray.depth) ray) :
    ∀ᵐ r ∂randomNumbers, ∃ fuel light out, traceRay (w.withSky sky c) rt fuel ⟨r, rays⟩ ray = .ok ((light, 0), out) := by
  obtain ⟨val, -, hae⟩ := window_ends hW sky c rt hsh Spectrum.c0 (by simp) rays hlen ray hu hval hdep hmeets hsees
  filter_upwards [hae] with r ⟨F, light, _, hF⟩
  obtain ⟨rng', e⟩ := hF F le_rfl
  have h := C75_is_reference_tracer (w.withSky sky c) rt F r rays ray hlen
  rw [e] at h
  cases ht : traceRay (w.withSky sky c) rt F ⟨r, rays⟩ ray with
  | ok x =>
    rw [ht] at h
    obtain ⟨⟨v, p⟩, r1, st⟩ := x
    simp only [outcome, Res.bind_ok, Res.ok.injEq, Prod.mk.injEq] at h
    exact ⟨F, v, (r1, st), by rw [ht, h.1.2]⟩
  | panic => rw [ht] at h; cases h
  | diverge => rw [ht] at h; cases h

/-- **C121.** The mean of the light that `trace_ray` returns (with as much fuel as it needs) along a ray that meets a surface of a matt scene lit by suns, under any sky: the light of the rendering equation with every reflection
divided by the share of the hemisphere in which something of the scene is seen. -/
theorem C121_mean_under_sky (hW : w.SunlitMatt s) (sky : Vec3 ℝ → ℝ) (c : Option (Spectrum ℝ)) (rt : RayTracer) (hsh : 0 < rt.nShadowSamples) (ch : Spectrum ℝ → ℝ) (hch : ch ∈ [Spectrum.c0, Spectrum.c1, Spectrum.c2]) (rays : List TRay)
    (hlen : rt.maxDepth < rays.length) (ray : TRay) (hu : Norm ray.geometry.direction = 1) (hval : 0 ≤ ray.value) (hdep : ray.depth ≤ rt.maxDepth + 1) (hmeets : w.cast ray ≠ .ok none)
    (hsees : w.SeesSurfaces (rt.maxDepth + 1 - ray.depth) ray) :
    ∫⁻ r, ⨆ fuel, seenLight (traceRay (w.withSky sky c) rt fuel ⟨r, rays⟩ ray) ch ∂randomNumbers = windowLight w rt ch (rt.maxDepth + 1 - ray.depth) ray := by
  obtain ⟨val, hmean, hae⟩ := window_ends hW sky c rt hsh ch hch rays hlen ray hu hval hdep hmeets hsees
  rw [← hmean]
  refine lintegral_congr_ae ?_
  filter_upwards [hae] with r ⟨F, light, hl, hF⟩
  have hbig : ∀ fuel, F ≤ fuel → seenLight (traceRay (w.withSky sky c) rt fuel ⟨r, rays⟩ ray) ch = val r := by
    intro fuel hf
    obtain ⟨rng', e⟩ := hF fuel hf
    rw [seen_of_ref rt fuel r rays hlen ray ch e, hl]
  refine le_antisymm (iSup_le fun fuel => ?_) ?_
  · have hle := traceRay_mono (w.withSky sky c) rt (Nat.le_max_left fuel F) ⟨r, rays⟩ ray
    rcases hle with h | h
    · rw [h]; exact zero_le
    · rw [h, hbig _ (Nat.le_max_right fuel F)]
  · rw [← hbig F le_rfl]
    exact le_iSup (fun fuel => seenLight (traceRay (w.withSky sky c) rt fuel ⟨r, rays⟩ ray) ch) F

theorem one_le_sky (q : ENNReal) : 1 ≤ (1 - q)⁻¹ := ENNReal.one_le_inv.2 tsub_le_self

/-- The light under a sky is never less than that of the rendering equation. -/
theorem reflected_le_window (rt : RayTracer) (ch : Spectrum ℝ → ℝ) (k : Nat) (ray : TRay) : reflectedLight w rt ch k ray ≤ windowLight w rt ch k ray := by
  induction k generalizing ray with
  | zero => exact le_rfl
  | succ k ih =>
    unfold reflectedLight windowLight
    rcases w.cast ray with (_ | ⟨i, arrived⟩) | _ | _
    · exact le_rfl
    · simp only
      rcases w.materialAt arrived.interaction.shading.side i with m | _ | _
      · refine add_le_add le_rfl (mul_le_mul' le_rfl ?_)
        calc _ = 1 * (ENNReal.ofReal (ch m.colour / Real.pi) * irradiance fun l => reflectedLight w rt ch k (arrived.onward m l)) := (one_mul _).symm
          _ ≤ _ := mul_le_mul' (one_le_sky _) (mul_le_mul' le_rfl (irradiance_mono fun l => ih _))
      · exact le_rfl
      · exact le_rfl
    · exact le_rfl
    · exact le_rfl

theorem irradiance_mono' {L L' : Vec3 ℝ → ENNReal} (h : ∀ l, Norm l = 1 → 0 < l.z → L l ≤ L' l) : irradiance L ≤ irradiance L' := by
  have e : irradiance L = irradiance fun l => if Norm l = 1 ∧ 0 < l.z then L l else 0 := irradiance_congr' fun l hl hz => by rw [if_pos ⟨hl, hz⟩]
  rw [e]
  refine irradiance_mono fun l => ?_
  split_ifs with hc
  · exact h l hc.1 hc.2
  · exact zero_le

theorem irradiance_mul (a : ENNReal) (ha : a ≠ ⊤) (L : Vec3 ℝ → ENNReal) : irradiance (fun l => a * L l) = a * irradiance L := by
  unfold irradiance
  rw [← lintegral_const_mul' _ _ ha]
  refine lintegral_congr fun p => ?_
  rw [mul_assoc]

theorem window_le (q : ENNReal) (hq : q < 1) (rt : RayTracer) (ch : Spectrum ℝ → ℝ) (k : Nat) (ray : TRay) (hu : w.SkyAtMost q k ray) : windowLight w rt ch (k + 1) ray ≤ ((1 - q)⁻¹) ^ k * reflectedLight w rt ch (k + 1) ray := by
  have hfin : (1 - q)⁻¹ ≠ ⊤ := ENNReal.inv_ne_top.2 (tsub_pos_of_lt hq).ne'
  induction k generalizing ray with
  | zero =>
    rw [pow_zero, one_mul]
    unfold reflectedLight windowLight
    rcases w.cast ray with (_ | ⟨i, arrived⟩) | _ | _
    · exact le_rfl
    · simp only
      rcases w.materialAt arrived.interaction.shading.side i with m | _ | _
      · simp only [windowLight, reflectedLight, irradiance_const, zero_mul, mul_zero, le_refl]
      · exact le_rfl
      · exact le_rfl
    · exact le_rfl
    · exact le_rfl
  | succ k ih =>
    unfold reflectedLight windowLight
    rcases hc : w.cast ray with (_ | ⟨i, arrived⟩) | _ | _
    · exact zero_le
    · simp only
      rcases hm : w.materialAt arrived.interaction.shading.side i with m | _ | _
      · simp only
        obtain ⟨hle, hrec⟩ := hu i arrived m hc hm
        have h1 : (irradiance fun l => windowLight w rt ch (k + 1) (arrived.onward m l)) ≤ ((1 - q)⁻¹) ^ k * irradiance fun l => reflectedLight w rt ch (k + 1) (arrived.onward m l) := by
          rw [← irradiance_mul _ (ENNReal.pow_ne_top hfin)]
          exact irradiance_mono' fun l hl hz => ih _ (hrec l hl hz)
        have h2 : (1 - skyShare w m arrived)⁻¹ ≤ (1 - q)⁻¹ := ENNReal.inv_le_inv.2 (tsub_le_tsub_left hle 1)
        have h3 : (1 : ENNReal) ≤ ((1 - q)⁻¹) ^ (k + 1) := one_le_pow₀ (one_le_sky q)
        rw [mul_add]
        refine add_le_add ?_ ?_
        · calc _ = 1 * sunlightAt w m arrived ch := (one_mul _).symm
            _ ≤ _ := mul_le_mul' h3 le_rfl
        · calc _ ≤ followChance rt arrived.depth arrived.value * ((1 - q)⁻¹ * (ENNReal.ofReal (ch m.colour / Real.pi) * (((1 - q)⁻¹) ^ k * irradiance fun l => reflectedLight w rt ch (k + 1) (arrived.onward m l)))) :=
                mul_le_mul' le_rfl (mul_le_mul' h2 (mul_le_mul' le_rfl h1))
            _ = _ := by ring
      · exact zero_le
      · exact zero_le
    · exact zero_le
    · exact zero_le

/-- **C121, how far the mean may be off (partial).** If something of the scene is seen from every point where paths arrive, and at most the share `q` of the hemisphere opens to the sky from every point where paths are reflected (all but the last), the mean under a sky lies between the mean without the sky and `(1 - q)^(-max_depth)` times that: the same if `q` is zero. What is missing: equality for other scenes, which is false (see `C121_violation_windows`). -/
theorem C121_error_partial (hW : w.SunlitMatt s) (sky : Vec3 ℝ → ℝ) (c : Option (Spectrum ℝ)) (rt : RayTracer) (hsh : 0 < rt.nShadowSamples) (ch : Spectrum ℝ → ℝ) (hch : ch ∈ [Spectrum.c0, Spectrum.c1, Spectrum.c2]) (rays : List TRay)
    (hlen : rt.maxDepth < rays.length) (ray : TRay) (hu : Norm ray.geometry.direction = 1) (hval : 0 ≤ ray.value) (hdep : ray.depth = 0) (hmeets : w.cast ray ≠ .ok none) (q : ENNReal) (hq : q < 1)
    (hsees : w.SeesSurfaces (rt.maxDepth + 1) ray) (hopen : w.SkyAtMost q rt.maxDepth ray) (fuel : Nat) (hfuel : rt.maxDepth + rt.nShadowSamples + rt.nAmbientSamples + 3 ≤ fuel) :
    ∫⁻ r, seenLight (traceRay w rt fuel ⟨r, rays⟩ ray) ch ∂randomNumbers ≤ ∫⁻ r, ⨆ fuel, seenLight (traceRay (w.withSky sky c) rt fuel ⟨r, rays⟩ ray) ch ∂randomNumbers ∧
    ∫⁻ r, ⨆ fuel, seenLight (traceRay (w.withSky sky c) rt fuel ⟨r, rays⟩ ray) ch ∂randomNumbers ≤ ((1 - q)⁻¹) ^ rt.maxDepth * ∫⁻ r, seenLight (traceRay w rt fuel ⟨r, rays⟩ ray) ch ∂randomNumbers := by
  rw [C119_mean_light hW rt hsh ch hch rays hlen ray hu hval (by omega) fuel hfuel, C121_mean_under_sky hW sky c rt hsh ch hch rays hlen ray hu hval (by omega) hmeets (by rw [hdep]; exact hsees), hdep, Nat.sub_zero]
  exact ⟨reflected_le_window rt ch _ ray, window_le q hq rt ch _ ray hopen⟩

/-- **C121 is violated by openings.** Where some sky is seen from the surface that a primary ray meets, and that surface reflects some light of other surfaces, adding a sky (even a black one) makes the surface brighter on average. -/
theorem C121_violation_windows (hW : w.SunlitMatt s) (sky : Vec3 ℝ → ℝ) (c : Option (Spectrum ℝ)) (rt : RayTracer) (hsh : 0 < rt.nShadowSamples) (hD : 0 < rt.maxDepth) (hA : 0 < rt.nAmbientSamples) (ch : Spectrum ℝ → ℝ)
    (hch : ch ∈ [Spectrum.c0, Spectrum.c1, Spectrum.c2]) (rays : List TRay) (hlen : rt.maxDepth < rays.length) (ray : TRay) (hu : Norm ray.geometry.direction = 1) (hval : 0 ≤ ray.value) (hdep : ray.depth = 0)
    (hsees : w.SeesSurfaces (rt.maxDepth + 1) ray) (i : Nat) (arrived : TRay) (m : Material ℝ) (hc : w.cast ray = .ok (some (i, arrived))) (hd : arrived.depth = 0) (hm : w.materialAt arrived.interaction.shading.side i = .ok m)
    (hopen : 0 < skyShare w m arrived) (hcol : 0 < ch m.colour) (hlit : 0 < irradiance fun l => reflectedLight w rt ch rt.maxDepth (arrived.onward m l)) (hfin : reflectedLight w rt ch (rt.maxDepth + 1) ray ≠ ⊤)
    (fuel : Nat) (hfuel : rt.maxDepth + rt.nShadowSamples + rt.nAmbientSamples + 3 ≤ fuel) :
    ∫⁻ r, seenLight (traceRay w rt fuel ⟨r, rays⟩ ray) ch ∂randomNumbers < ∫⁻ r, ⨆ fuel, seenLight (traceRay (w.withSky sky c) rt fuel ⟨r, rays⟩ ray) ch ∂randomNumbers := by
  have hmeets : w.cast ray ≠ .ok none := by rw [hc]; simp
  rw [C119_mean_light hW rt hsh ch hch rays hlen ray hu hval (by omega) fuel hfuel, C121_mean_under_sky hW sky c rt hsh ch hch rays hlen ray hu hval (by omega) hmeets (by rw [hdep]; exact hsees), hdep, Nat.sub_zero]
  obtain ⟨hlt, -⟩ := hsees i arrived m hc hm
  have hf : followChance rt arrived.depth arrived.value = 1 := by
    simp only [followChance, hd, if_true, show ¬ (rt.maxDepth = 0 ∨ rt.nAmbientSamples = 0) by omega, if_false]
  unfold reflectedLight at hfin ⊢
  unfold windowLight
  simp only [hc, hm, hf, one_mul] at hfin ⊢
  set S := sunlightAt w m arrived ch
  set R := ENNReal.ofReal (ch m.colour / Real.pi) * irradiance fun l => reflectedLight w rt ch rt.maxDepth (arrived.onward m l) with hR
  have hR0 : R ≠ 0 := mul_ne_zero (ENNReal.ofReal_pos.2 (div_pos hcol Real.pi_pos)).ne' hlit.ne'
  have hRf : R ≠ ⊤ := fun h => hfin (by rw [h]; simp)
  have hSf : S ≠ ⊤ := fun h => hfin (by rw [h]; simp)
  have hone : 1 < (1 - skyShare w m arrived)⁻¹ := by
    rw [ENNReal.one_lt_inv]
    exact ENNReal.sub_lt_self ENNReal.one_ne_top one_ne_zero hopen.ne'
  have h1 : R < (1 - skyShare w m arrived)⁻¹ * R := by
    calc R = 1 * R := (one_mul _).symm
      _ < _ := ENNReal.mul_lt_mul_left hR0 hRf hone
  have h2 : (1 - skyShare w m arrived)⁻¹ * R ≤ (1 - skyShare w m arrived)⁻¹ * (ENNReal.ofReal (ch m.colour / Real.pi) * irradiance fun l => windowLight w rt ch rt.maxDepth (arrived.onward m l)) :=
    mul_le_mul' le_rfl (mul_le_mul' le_rfl (irradiance_mono fun l => reflected_le_window rt ch _ _))
  exact ENNReal.add_lt_add_left hSf (h1.trans_le h2)

end Rendering
