import Verif.Spec.SkyThrough
import Verif.Props.RenderingEquation
import Verif.Props.SkyView
import Verif.Props.DaylightScenes

/-!
# C127: daylight coefficients with reflections
-/

set_option linter.unusedSectionVars false
namespace Rendering

open MeasureTheory Set Classical

variable {w : World} {s : Scene ℝ}

/-- What tracing does to column `j` of the contributions, as a random experiment that multiplies the colour the ray carries. -/
def DcGives (self : DcFn) (depth nBins : Nat) (ch : Spectrum ℝ → ℝ) (j : Nat) (val : Ray3 ℝ → Rng → ENNReal) (rest : Ray3 ℝ → Rng → Rng) (ray : TRay) : Prop :=
  ∀ st : DState, st.rng.Valid → depth < st.rays.length → st.contribution.IsRow nBins → ∃ ray' st' v, self st ray = .ok (ray', st') ∧ st'.rng = rest ray.geometry st.rng ∧ st'.rng.Valid ∧
    0 ≤ v ∧ ENNReal.ofReal v = val ray.geometry st.rng ∧ ch ((st'.contribution.get? 0 j).getD Spectrum.black) = ch ((st.contribution.get? 0 j).getD Spectrum.black) + ch ray.colour * v

/-- A ray that misses everything. -/
theorem dcMiss_gives (dc : DcFactory) (hn : dc.nAmbientSamples = 1) (ch : Spectrum ℝ → ℝ) (hch : ch ∈ [Spectrum.c0, Spectrum.c1, Spectrum.c2]) (j : Nat) (hj : j < dc.nBins) (ray : TRay) (hb : dc.dirToBin ray.geometry.direction < dc.nBins) (st : DState) (hr : st.contribution.IsRow dc.nBins) :
    ∃ c, dcMissStep dc ray st = .ok (ray, { st with contribution := c }) ∧
      ch ((c.get? 0 j).getD Spectrum.black) = ch ((st.contribution.get? 0 j).getD Spectrum.black) + ch ray.colour * (if dc.dirToBin ray.geometry.direction = j then 1 else 0) := by
  unfold dcMissStep
  have hlt : dc.dirToBin ray.geometry.direction < st.contribution.data.length := by rw [hr.2.2]; exact hb
  simp only [hr.get?, List.getElem?_eq_getElem hlt, Res.ofOption_some, Res.bind_ok]
  have hset : ∀ v, ∃ c, st.contribution.set 0 (dc.dirToBin ray.geometry.direction) v = .ok c := by
    intro v
    unfold Mat.set
    rw [if_pos ⟨by rw [hr.1]; norm_num, by rw [hr.2.1]; exact hb⟩]
    exact ⟨_, rfl⟩
  obtain ⟨c, hc⟩ := hset (st.contribution.data[dc.dirToBin ray.geometry.direction] + (Spectrum.one * ray.colour).divBy (dc.nAmbientSamples : ℝ))
  obtain ⟨h1, h2, _⟩ := hr.set hc
  refine ⟨c, by rw [hc, Res.bind_ok], ?_⟩
  rw [h1.get?, h2, List.getElem?_set]
  by_cases h : dc.dirToBin ray.geometry.direction = j
  · subst h
    simp only [hlt, if_true, Option.getD_some, mul_one, List.getElem?_eq_getElem hlt]
    rw [chan_add hch, chan_divBy hch, chan_mul hch, hn]
    have : ch Spectrum.one = 1 := by
      simp only [List.mem_cons, List.not_mem_nil, or_false] at hch
      rcases hch with rfl | rfl | rfl <;> simp [Spectrum.one, Spectrum.gray]
    rw [this]
    simp
  · simp only [h, if_false, mul_zero, add_zero]

/-- A ray that arrives at a matt surface: one path goes on. -/
theorem dcMatt_step (dc : DcFactory) (fuel : Nat) (st : DState) (ray : TRay) {i : Nat} {bk : Bool} {tri : Tri ℝ} {m : Material ℝ} {col : Spectrum ℝ} {r : ℝ} {it : Interaction} (h : MattSide w i bk tri m col r)
    (hc : w.cast ray = .ok (some (i, { ray with interaction := it }))) (ha : ArrivesAt ray.geometry bk tri it) (hd : ray.depth ≤ dc.maxDepth) (hl : dc.maxDepth < st.rays.length) :
    dcTraceRay w dc (fuel + 1) st ray =
      let (n, ray', rng) := TRay.getNAmbientSamples { ray with interaction := it } dc.nAmbientSamples dc.maxDepth dc.limitWeight st.rng
      dcAmbientLoop (dcTraceRay w dc fuel) m fuel it.point it.shading.normal it.shading.dpdu it.shading.dpdv n ray' { st with rng := rng, rays := st.rays.set ray'.depth ray' } := by
  obtain ⟨h1, h2, -⟩ := matt_only_flags h.matt
  have h1' : m.emitsDirectLight = false := by
    have hm := h.matt
    simp only [List.mem_cons, List.not_mem_nil, or_false] at hm
    rcases hm with rfl | rfl <;> rfl
  have hside : it.shading.side ≠ .NonApplicable := by rw [ha.side]; cases bk <;> simp [sideOf]
  have hm := h.material
  rw [← ha.side] at hm
  have hd' : ¬ ray.depth > dc.maxDepth := by omega
  conv_lhs => unfold dcTraceRay
  simp only [hc, Res.bind_ok, hd', if_false]
  unfold dcSurfaceStep
  simp only [hside, if_false, hm, Res.bind_ok, hd', h1', false_or, Bool.false_eq_true, if_false, TRay.getTriad, h.normals, Res.ofOption_some, ha.interp, h2]
  have hkeep : ∀ x : Nat × TRay × Rng, TRay.getNAmbientSamples { ray with interaction := it } dc.nAmbientSamples dc.maxDepth dc.limitWeight st.rng = x → x.2.1.depth = ray.depth ∧ x.2.1.interaction = it := by
    rintro x rfl
    unfold TRay.getNAmbientSamples
    dsimp only
    split
    · exact ⟨rfl, rfl⟩
    · split
      · exact ⟨rfl, rfl⟩
      · split <;> exact ⟨rfl, rfl⟩
  obtain ⟨k1, k2⟩ := hkeep _ rfl
  rw [if_pos (by rw [k1]; omega), k2]

/-- A path of weight 1 is always followed, once. -/
theorem one_sample (ray : TRay) (hv : ray.value = 1) (D : Nat) (hD : 0 < D) (lim : ℝ) (h0 : 0 ≤ lim) (h1 : lim ≤ 1) (rng : Rng) (hr : rng.Valid) : ray.getNAmbientSamples 1 D lim rng = (1, ray, if ray.depth = 0 then rng else rng.tail) := by
  unfold TRay.getNAmbientSamples
  rw [if_neg (by omega)]
  by_cases hd : ray.depth = 0
  · simp only [hd, if_true]
  · simp only [hd, if_false, Rng.gen, hv]
    have : ¬ ExceedsQuotient (rng 0) 1 lim := by
      rintro (⟨a, b⟩ | ⟨a, b⟩)
      · have hl : 0 < lim := lt_of_le_of_ne h0 (Ne.symm a)
        have : 1 ≤ 1 / lim := by rw [le_div_iff₀ hl]; linarith
        linarith [(hr 0).2]
      · linarith
    simp only [this, if_false]
    rfl

/-- The induction behind C127. -/
theorem dc_fresh (hW : w.SunlitMatt s) (dc : DcFactory) (hn : dc.nAmbientSamples = 1) (hD : 0 < dc.maxDepth) (h0 : 0 ≤ dc.limitWeight) (h1 : dc.limitWeight ≤ 1) (hbin : ∀ d, Norm d = 1 → dc.dirToBin d < dc.nBins) (hmeas : ∀ j, Measurable3 {d | dc.dirToBin d = j})
    (ch : Spectrum ℝ → ℝ) (hch : ch ∈ [Spectrum.c0, Spectrum.c1, Spectrum.c2]) (j : Nat) (hj : j < dc.nBins) (k : Nat) :
    ∃ val rest, Fresh val rest ∧ ∀ ray : TRay, ray.depth + k = dc.maxDepth + 1 → ray.value = 1 → Norm ray.geometry.direction = 1 →
      avg (val ray.geometry) = skySeen w dc.dirToBin ch j k ray.geometry ∧ ∀ fuel, k + 1 ≤ fuel → DcGives (dcTraceRay w dc fuel) dc.maxDepth dc.nBins ch j val rest ray := by
  obtain ⟨code, hcode, hall⟩ := disc_side hW
  -- rays that miss everything
  have hind : Measurable fun g : Ray3 ℝ => if dc.dirToBin g.direction = j then (1 : ENNReal) else 0 := by
    have : MeasurableSet {g : Ray3 ℝ | dc.dirToBin g.direction = j} := Ray3.measurable_direction (measurable3_iff.1 (hmeas j))
    exact Measurable.ite this measurable_const measurable_const
  have miss : ∀ (ray : TRay) (k fuel : Nat), w.cast ray = .ok none → Norm ray.geometry.direction = 1 → 1 ≤ fuel → DcGives (dcTraceRay w dc fuel) dc.maxDepth dc.nBins ch j (fun g _ => if dc.dirToBin g.direction = j then (1 : ENNReal) else 0) (fun _ r => r) ray := by
    intro ray k fuel hc hu hf st hr hl hrow
    obtain ⟨fuel, rfl⟩ : ∃ f, fuel = f + 1 := ⟨fuel - 1, by omega⟩
    obtain ⟨c, e1, e2⟩ := dcMiss_gives dc hn ch hch j hj ray (hbin _ hu) st hrow
    refine ⟨ray, { st with contribution := c }, _, ?_, rfl, hr, ?_, ?_, e2⟩
    · unfold dcTraceRay
      simp only [hc, Res.bind_ok]
      exact e1
    · split_ifs <;> norm_num
    · by_cases h : dc.dirToBin ray.geometry.direction = j <;> simp [h]
  have castd : ∀ g : Ray3 ℝ, Norm g.direction = 1 → ∀ ray : TRay, ray.geometry = g → (w.cast ray = .ok none → w.cast { TRay.default with geometry := g } = .ok none) := by
    intro g hu ray hg hc
    rcases hall ray (by rw [hg]; exact hu) with ⟨a, _⟩ | ⟨i, bk, tri, m, col, r, it, _, _, hc', _⟩
    · rcases hall { TRay.default with geometry := g } hu with ⟨_, b⟩ | ⟨i, bk, tri, m, col, r, it, b, _⟩
      · exact b
      · rw [hg] at a
        have : code g = some (i, bk) := b
        rw [a] at this
        cases this
    · rw [hc] at hc'; cases hc'
  induction k with
  | zero =>
    -- no reflections left
    refine ⟨fun g _ => if code g = none then (if dc.dirToBin g.direction = j then (1 : ENNReal) else 0) else 0, fun _ r => r, Fresh.const (Measurable.ite (hcode none) hind measurable_const), fun ray hd hv hu => ?_⟩
    rcases hall ray hu with ⟨hn0, hc⟩ | ⟨i, bk, tri, m, col, r, it, h2, hS, hc, ha⟩
    · refine ⟨?_, fun fuel hf st hr hl hrow => ?_⟩
      · unfold skySeen
        rw [castd _ hu ray rfl hc]
        simp only [hn0, if_true]
        exact avg_const _
      · simp only [hn0, if_true]
        exact miss ray 0 fuel hc hu hf st hr hl hrow
    · have hne : ¬ code ray.geometry = none := by rw [h2]; simp
      refine ⟨?_, fun fuel hf st hr hl hrow => ?_⟩
      · simp only [hne, if_false]
        rw [avg_const]
        unfold skySeen
        rcases hall { TRay.default with geometry := ray.geometry } hu with ⟨a, _⟩ | ⟨i', bk', tri', m', col', r', it', _, _, hc', _⟩
        · exact absurd a hne
        · rw [hc']
      · obtain ⟨fuel, rfl⟩ : ∃ f, fuel = f + 1 := ⟨fuel - 1, by omega⟩
        refine ⟨{ ray with interaction := it }, st, 0, ?_, rfl, hr, le_rfl, ?_, by ring⟩
        · unfold dcTraceRay
          have : ray.depth > dc.maxDepth := by omega
          simp only [hc, Res.bind_ok, this, if_true]
        · simp only [hne, if_false, ENNReal.ofReal_zero]
  | succ k ih =>
    obtain ⟨valc, restc, hFc, hcld⟩ := ih
    have each : ∀ κ : Option (Nat × Bool), ∃ val rest, Fresh val rest ∧ ∀ ray : TRay, code ray.geometry = κ → ray.depth + (k + 1) = dc.maxDepth + 1 → ray.value = 1 → Norm ray.geometry.direction = 1 →
        avg (val ray.geometry) = skySeen w dc.dirToBin ch j (k + 1) ray.geometry ∧ ∀ fuel, k + 1 + 1 ≤ fuel → DcGives (dcTraceRay w dc fuel) dc.maxDepth dc.nBins ch j val rest ray := by
      intro κ
      by_cases hex : ∃ ray : TRay, Norm ray.geometry.direction = 1 ∧ code ray.geometry = κ
      swap
      · exact ⟨fun _ _ => 0, fun _ r => r, Fresh.const measurable_const, fun ray hκ _ _ hu => absurd ⟨ray, hu, hκ⟩ hex⟩
      obtain ⟨ray0, hu0, hκ0⟩ := hex
      rcases hall ray0 hu0 with ⟨hn0, -⟩ | ⟨i, bk, tri, m, col, r, -, hκ1, hS, -, -⟩
      · refine ⟨fun g _ => if dc.dirToBin g.direction = j then (1 : ENNReal) else 0, fun _ r => r, Fresh.const hind, fun ray hκ hd hval hu => ?_⟩
        have hc : w.cast ray = .ok none := by
          rcases hall ray hu with ⟨_, hc⟩ | ⟨i, bk, tri, m, col, r, it, h1, _⟩
          · exact hc
          · rw [hκ, ← hκ0, hn0] at h1; cases h1
        refine ⟨?_, fun fuel hf => miss ray 0 fuel hc hu (by omega)⟩
        rw [avg_const]
        unfold skySeen
        rw [castd _ hu ray rfl hc]
      · rw [hκ1] at hκ0
        have hfacts : ∀ ray : TRay, code ray.geometry = κ → Norm ray.geometry.direction = 1 → ∃ it, w.cast ray = .ok (some (i, { ray with interaction := it })) ∧ ArrivesAt ray.geometry bk tri it := by
          intro ray hκ hu
          rcases hall ray hu with ⟨h1, _⟩ | ⟨i', bk', tri', m', col', r', it, h1, hS', hc, ha⟩
          · rw [hκ, ← hκ0] at h1; cases h1
          · rw [hκ, ← hκ0] at h1
            simp only [Option.some.injEq, Prod.mk.injEq] at h1
            obtain ⟨rfl, rfl⟩ := h1
            obtain ⟨rfl, rfl⟩ := hS.unique hS'
            exact ⟨it, hc, ha⟩
        obtain ⟨-, -, hmc⟩ := matt_only_flags hS.matt
        have hcolch : 0 ≤ ch col := by
          simp only [List.mem_cons, List.not_mem_nil, or_false] at hch
          rcases hch with rfl | rfl | rfl
          · exact hS.nonneg.1
          · exact hS.nonneg.2.1
          · exact hS.nonneg.2.2
        by_cases hk : k ≤ dc.maxDepth
        swap
        · exact ⟨fun _ _ => 0, fun _ r => r, Fresh.const measurable_const, fun ray _ hd => absurd hd (by omega)⟩
        have hP : Measurable fun g : Ray3 ℝ => planePoint tri g := measurable_planePoint tri measurable_id
        have hFb := (bounce_fresh hFc (ENNReal.ofReal (ch col)) (facing tri bk) (along tri) (across tri bk)).comp hP
        -- a number is drawn and not needed, except for primary rays
        have hFd : ∃ val rest, Fresh val rest ∧ (∀ g (r : Rng), val g r = bounceVal valc (ENNReal.ofReal (ch col)) (facing tri bk) (along tri) (across tri bk) (planePoint tri g) (if dc.maxDepth - k = 0 then r else r.tail)) ∧
            (∀ g (r : Rng), rest g r = bounceRest restc (facing tri bk) (along tri) (across tri bk) (planePoint tri g) (if dc.maxDepth - k = 0 then r else r.tail)) ∧
            ∀ g, avg (val g) = avg (bounceVal valc (ENNReal.ofReal (ch col)) (facing tri bk) (along tri) (across tri bk) (planePoint tri g)) := by
          by_cases hz : dc.maxDepth - k = 0
          · exact ⟨_, _, hFb, fun g r => by simp only [hz, if_true], fun g r => by simp only [hz, if_true], fun g => rfl⟩
          · have hF2 := hFb.comp (f := fun q : Ray3 ℝ × ℝ => q.1) measurable_fst
            refine ⟨_, _, hF2.draw, fun g r => by simp only [hz, if_false], fun g r => by simp only [hz, if_false], fun g => ?_⟩
            rw [hF2.mean_draw g]
            simp only [setLIntegral_const, Real.volume_Ico, sub_zero, ENNReal.ofReal_one, mul_one]
        obtain ⟨val, rest, hF, ev, er, ea⟩ := hFd
        refine ⟨val, rest, hF, fun ray hκ hd hval hu => ⟨?_, ?_⟩⟩
        · obtain ⟨it, hcast, ha⟩ := hfacts { TRay.default with geometry := ray.geometry } hκ hu
          have hmat := hS.material
          rw [← ha.side] at hmat
          rw [ea, bounce_mean hFc (ch col) hcolch]
          unfold skySeen
          simp only [hcast, hmat, hmc]
          congr 1
          refine irradiance_congr fun l hl => ?_
          have hdir : Norm (worldOf (along tri) (across tri bk) (facing tri bk) l) = 1 := by
            have hd2 : l.x ^ 2 + l.y ^ 2 + l.z ^ 2 = 1 := by
              have := Dot_self_of_norm hl; simp only [Dot] at this; nlinarith
            have := (world_unit hS.frame hd2).1
            rwa [world_eq] at this
          have := (hcld { TRay.default with geometry := ⟨planePoint tri ray.geometry + (facing tri bk).scale (1 / 10 ^ 5), worldOf (along tri) (across tri bk) (facing tri bk) l⟩, depth := dc.maxDepth + 1 - k } (by simp only; omega) rfl hdir).1
          simp only at this
          rw [this]
          simp only [TRay.onward, ha.point, ha.normal, ha.dpdu, ha.dpdv]
        · intro fuel hf st hr hl hrow
          obtain ⟨fuel, rfl⟩ : ∃ f, fuel = f + 1 := ⟨fuel - 1, by omega⟩
          obtain ⟨it, hcast, ha⟩ := hfacts ray hκ hu
          rw [dcMatt_step dc fuel st ray hS hcast ha (by omega) hl, hn, one_sample { ray with interaction := it } hval dc.maxDepth hD dc.limitWeight h0 h1 st.rng hr]
          have hdep : ray.depth = dc.maxDepth - k := by omega
          set rng : Rng := if ray.depth = 0 then st.rng else st.rng.tail with hrng
          have hrv : rng.Valid := by rw [hrng]; split_ifs <;> [exact hr; exact fun n => hr (n + 1)]
          simp only
          unfold dcAmbientLoop
          obtain ⟨z, hz, hz1, hz2, hz3⟩ := matt_sample fuel m col r hS.matt (facing tri bk) (along tri) (across tri bk) it.point hS.frame { ray with interaction := it } rng hrv
          simp only [ha.normal, ha.dpdu, ha.dpdv]
          rw [hz3]
          simp only [Res.bind_ok, Vec3.dot_eq, hz1, abs_of_pos hz]
          obtain ⟨ray1, st1, v, g1, g2, g3, g4, g5, g6⟩ := (hcld { ray with interaction := it, geometry := ⟨it.point + (facing tri bk).scale (1 / 10 ^ 5), worldOf (along tri) (across tri bk) (facing tri bk) (cosDir (rng 1, rng 2))⟩, colour := ray.colour * ((col.scale (1 / Real.pi)).scale z).divBy (z / Real.pi), depth := ray.depth + 1 }
            (by simp only; omega) hval hz2).2 fuel (by omega) { st with rng := rng.drop 3, rays := st.rays.set ray.depth { ray with interaction := it } } (fun n => hrv _) (by simpa using hl) hrow
          refine ⟨ray1, st1, ch col * v, ?_, ?_, g3, mul_nonneg hcolch g4, ?_, ?_⟩
          · rw [g1, Res.bind_ok]
            rfl
          · rw [g2, er, ← hdep, ← hrng, bounceRest, ha.point]
          · rw [ENNReal.ofReal_mul hcolch, g5, ev, ← hdep, ← hrng, bounceVal, ha.point]
          · rw [g6]
            simp only [chan_mul hch, chan_divBy hch, chan_scale hch]
            have hpi := Real.pi_pos
            field_simp
    choose val rest hF hprop using each
    exact ⟨fun g => val (code g) g, fun g => rest (code g) g, Fresh.choose hcode hF, fun ray h1 h2 h3 => hprop (code ray.geometry) ray rfl h1 h2 h3⟩

/-- One sample of a sensor. -/
theorem dcTask_gives (dc : DcFactory) (hn : dc.nAmbientSamples = 1) (hD : dc.maxDepth < 15) (ch : Spectrum ℝ → ℝ) (hch : ch ∈ [Spectrum.c0, Spectrum.c1, Spectrum.c2]) (j : Nat) (fuel : Nat) (sensor : Ray3 ℝ) (e2 : Vec3 ℝ) (he : w.ext.perp sensor.direction = some e2)
    (r q : Rng) (hr : r.Valid) (hq : q.Valid) {val : Ray3 ℝ → Rng → ENNReal} {rest : Ray3 ℝ → Rng → Rng}
    (hG : ∀ ray : TRay, ray.geometry = ⟨sensor.origin, worldOf (e2.cross sensor.direction) e2 sensor.direction (cosDir (r 0, r 1))⟩ → ray.depth = 0 → ray.value = 1 → DcGives (dcTraceRay w dc fuel) dc.maxDepth dc.nBins ch j val rest ray) :
    ∃ c, dcTask w dc fuel sensor r 0 q = .ok c ∧ 0 ≤ ch ((c.get? 0 j).getD Spectrum.black) ∧
      ENNReal.ofReal (ch ((c.get? 0 j).getD Spectrum.black)) = ENNReal.ofReal Real.pi * val ⟨sensor.origin, worldOf (e2.cross sensor.direction) e2 sensor.direction (cosDir (r 0, r 1))⟩ q := by
  have hcd : (sampleCosineHemisphere r).1 = cosDir (r 0, r 1) := cosine_sample_eq _ (hr 0)
  have hdir : (dcDirections dc.nAmbientSamples r)[0]? = some (cosDir (r 0, r 1)) := by
    rw [dcDirections_getElem? _ _ _ (by omega)]
    simp only [Nat.mul_zero, Nat.add_zero]
    exact congrArg some hcd
  have hb : (dc.blank.get? 0 j).getD Spectrum.black = Spectrum.black := by
    rw [dc.blank_isRow.get?]
    simp only [DcFactory.blank, Mat.new, List.getElem?_replicate]
    split_ifs <;> rfl
  have hpi : ch (Spectrum.gray Real.pi) = Real.pi := by
    simp only [List.mem_cons, List.not_mem_nil, or_false] at hch
    rcases hch with rfl | rfl | rfl <;> rfl
  obtain ⟨ray', st', v, g1, -, -, g4, g5, g6⟩ := hG { TRay.default with geometry := ⟨sensor.origin, worldOf (e2.cross sensor.direction) e2 sensor.direction (cosDir (r 0, r 1))⟩, colour := Spectrum.gray Real.pi } rfl rfl rfl ⟨q, defaultRays, dc.blank⟩ hq
    (by simpa [defaultRays] using hD) dc.blank_isRow
  simp only [hb, chan_black hch, hpi, zero_add] at g5 g6
  refine ⟨st'.contribution, ?_, ?_, ?_⟩
  · unfold dcTask
    rw [he, Res.ofOption_some, Res.bind_ok, hdir, Res.ofOption_some, Res.bind_ok]
    unfold dcSample
    simp only [worldOf_eq]
    rw [g1, Res.bind_ok]
  · rw [g6]; exact mul_nonneg Real.pi_pos.le g4
  · rw [g6, ENNReal.ofReal_mul Real.pi_pos.le, g5]

/-- **C127, one sample per point.** In a scene of flat matt surfaces, with `n_ambient_samples` 1, `max_depth` at least 1 and `limit_weight` at most 1, the mean over the random numbers of the daylight coefficient of patch `j` at a sensor is the irradiance of
the sensor by that patch, seen directly and by at most `max_depth + 1` reflections. (The generators of the samples of a sensor, `primary` and `secondary`, are independent and uniform; those of different sensors may depend on each other.) -/
theorem C127_one_sample_partial (hW : w.SunlitMatt s) (dc : DcFactory) (hn : dc.nAmbientSamples = 1) (hD : 0 < dc.maxDepth) (hD15 : dc.maxDepth < 15) (h0 : 0 ≤ dc.limitWeight) (h1 : dc.limitWeight ≤ 1) (hbin : ∀ d, Norm d = 1 → dc.dirToBin d < dc.nBins) (hmeas : ∀ j, Measurable3 {d | dc.dirToBin d = j})
    {Ω : Type} [MeasurableSpace Ω] (μ : Measure Ω) (primary : Ω → Nat → Rng) (secondary : Ω → Nat → Nat → Rng) (hgen : ∀ i, MeasurePreserving (fun ω => (primary ω i, secondary ω i 0)) μ (randomNumbers.prod randomNumbers))
    (rays : List (Ray3 ℝ)) (hrays : ∀ r ∈ rays, Norm r.direction = 1) (i : Nat) (sensor : Ray3 ℝ) (hs : rays[i]? = some sensor) (fuel : Nat) (hfuel : dc.maxDepth + 2 ≤ fuel) :
    ∃ e1 e2, Frame e1 e2 sensor.direction ∧ ∀ j < dc.nBins, ∀ ch ∈ [Spectrum.c0, Spectrum.c1, Spectrum.c2],
      ∫⁻ ω, coefficient (calcDc w dc fuel rays (primary ω) (secondary ω)) i j ch ∂μ = irradiance fun l => skySeen w dc.dirToBin ch j (dc.maxDepth + 1) ⟨sensor.origin, worldOf e1 e2 sensor.direction l⟩ := by
  obtain ⟨e2, he, g1, g2⟩ := hW.perp sensor.direction (hrays _ (List.mem_of_getElem? hs))
  have hf := frame_of_perp (hrays _ (List.mem_of_getElem? hs)) g1 g2
  refine ⟨e2.cross sensor.direction, e2, hf, fun j hj ch hch => ?_⟩
  obtain ⟨val, rest, hF, hG⟩ := dc_fresh hW dc hn hD h0 h1 hbin hmeas ch hch j hj (dc.maxDepth + 1)
  have hunit : ∀ {e1 e2 n : Vec3 ℝ}, Frame e1 e2 n → ∀ l, Norm l = 1 → Norm (worldOf e1 e2 n l) = 1 := by
    intro e1 e2 n hf l hl
    have hd2 : l.x ^ 2 + l.y ^ 2 + l.z ^ 2 = 1 := by
      have := Dot_self_of_norm hl; simp only [Dot] at this; nlinarith
    have := (world_unit hf hd2).1
    rwa [world_eq] at this
  have hval : ∀ᵐ r ∂randomNumbers, Rng.Valid r := valid_almost_surely
  have hval2 : ∀ᵐ p ∂(randomNumbers.prod randomNumbers), Rng.Valid p.1 ∧ Rng.Valid p.2 := by
    have a := Measure.quasiMeasurePreserving_fst (μ := randomNumbers) (ν := randomNumbers) |>.ae hval
    have b := Measure.quasiMeasurePreserving_snd (μ := randomNumbers) (ν := randomNumbers) |>.ae hval
    filter_upwards [a, b] with p h1 h2 using ⟨h1, h2⟩
  have hallv : ∀ᵐ ω ∂μ, ∀ i, (primary ω i).Valid ∧ (secondary ω i 0).Valid := ae_all_iff.2 fun i => (hgen i).quasiMeasurePreserving.ae hval2
  have ht : Measurable fun r : Rng => (⟨sensor.origin, worldOf (e2.cross sensor.direction) e2 sensor.direction (cosDir (r 0, r 1))⟩ : Ray3 ℝ) := by
    have : Measurable fun r : Rng => worldOf (e2.cross sensor.direction) e2 sensor.direction (cosDir (r 0, r 1)) := measurable_worldOf _ _ _ (measurable_cosDir.comp ((measurable_pi_apply 0).prodMk (measurable_pi_apply 1)))
    fun_prop
  have hm : Measurable fun p : Rng × Rng => ENNReal.ofReal Real.pi * val ⟨sensor.origin, worldOf (e2.cross sensor.direction) e2 sensor.direction (cosDir (p.1 0, p.1 1))⟩ p.2 :=
    (hF.mval.comp ((ht.comp measurable_fst).prodMk measurable_snd)).const_mul _
  have e1 : ∫⁻ ω, coefficient (calcDc w dc fuel rays (primary ω) (secondary ω)) i j ch ∂μ = ∫⁻ p, ENNReal.ofReal Real.pi * val ⟨sensor.origin, worldOf (e2.cross sensor.direction) e2 sensor.direction (cosDir (p.1 0, p.1 1))⟩ p.2 ∂(randomNumbers.prod randomNumbers) := by
    refine Eq.trans (lintegral_congr_ae ?_) ((hgen i).lintegral_comp hm)
    filter_upwards [hallv] with ω hω
    have htask : ∀ (i' : Nat) (sensor' : Ray3 ℝ), rays[i']? = some sensor' → ∃ e2, w.ext.perp sensor'.direction = some e2 ∧ ∃ c, dcTask w dc fuel sensor' (primary ω i') 0 (secondary ω i' 0) = .ok c ∧ 0 ≤ ch ((c.get? 0 j).getD Spectrum.black) ∧
        ENNReal.ofReal (ch ((c.get? 0 j).getD Spectrum.black)) = ENNReal.ofReal Real.pi * val ⟨sensor'.origin, worldOf (e2.cross sensor'.direction) e2 sensor'.direction (cosDir (primary ω i' 0, primary ω i' 1))⟩ (secondary ω i' 0) := by
      intro i' sensor' hs'
      obtain ⟨e2', he', g1', g2'⟩ := hW.perp sensor'.direction (hrays _ (List.mem_of_getElem? hs'))
      have hf' := frame_of_perp (hrays _ (List.mem_of_getElem? hs')) g1' g2'
      refine ⟨e2', he', dcTask_gives dc hn hD15 ch hch j fuel sensor' e2' he' _ _ (hω i').1 (hω i').2 fun ray hg hd hv => (hG ray (by omega) hv ?_).2 fuel (by omega)⟩
      rw [hg]
      exact hunit hf' _ (cosDir_unit ((hω i').1 0) ((hω i').1 1))
    obtain ⟨M, hM⟩ := calcDc_ok w dc fuel rays (primary ω) (secondary ω) (fun i' sensor' hs' => by
      obtain ⟨e2', he', c, hc, -⟩ := htask i' sensor' hs'
      refine ⟨⟨e2', he'⟩, fun k hk => ?_⟩
      obtain rfl : k = 0 := by omega
      exact ⟨c, hc⟩)
    obtain ⟨_, _, _, hrows⟩ := C58_rows w dc fuel rays _ _ M hM
    obtain ⟨cs, hlen, hcs, hsum⟩ := hrows i sensor hs
    obtain ⟨c, hc0, hct⟩ := hcs 0 (by omega)
    obtain ⟨e2', he', c', hc', k1, k2⟩ := htask i sensor hs
    rw [hc'] at hct
    obtain rfl := Res.ok.inj hct
    rw [he] at he'
    obtain rfl := Option.some.inj he'
    have hone : cs = [c'] := by
      rw [hn] at hlen
      obtain ⟨a, rfl⟩ := List.length_eq_one_iff.1 hlen
      simpa using hc0
    rw [hM, ← k2]
    unfold coefficient
    simp only [hsum j hj, Option.getD_some, hone, column, List.map_cons, List.map_nil, spectrumSum, spectrum_add_black]
  rw [e1, lintegral_prod _ hm.aemeasurable]
  have e3 : ∀ r : Rng, ∫⁻ q, ENNReal.ofReal Real.pi * val ⟨sensor.origin, worldOf (e2.cross sensor.direction) e2 sensor.direction (cosDir (r 0, r 1))⟩ q ∂randomNumbers =
      ENNReal.ofReal Real.pi * avg (val ⟨sensor.origin, worldOf (e2.cross sensor.direction) e2 sensor.direction (cosDir (r 0, r 1))⟩) := fun r => lintegral_const_mul _ (hF.mval_at _)
  simp only [e3]
  have hL : Measurable fun l => avg (val ⟨sensor.origin, worldOf (e2.cross sensor.direction) e2 sensor.direction l⟩) := by
    have ht : Measurable fun l : Vec3 ℝ => worldOf (e2.cross sensor.direction) e2 sensor.direction l := measurable_worldOf _ _ _ measurable_id
    have hm : Measurable fun l : Vec3 ℝ => (⟨sensor.origin, worldOf (e2.cross sensor.direction) e2 sensor.direction l⟩ : Ray3 ℝ) := by fun_prop
    exact hF.measurable_mean.comp hm
  have hmr : Measurable fun r : Rng => avg (val ⟨sensor.origin, worldOf (e2.cross sensor.direction) e2 sensor.direction (cosDir (r 0, r 1))⟩) := hF.measurable_mean.comp ht
  rw [lintegral_const_mul _ hmr]
  have hconst : Fresh (fun (q : Unit × (ℝ × ℝ)) (_ : Rng) => avg (val ⟨sensor.origin, worldOf (e2.cross sensor.direction) e2 sensor.direction (cosDir q.2)⟩)) (fun _ r => r) := Fresh.const (hL.comp (measurable_cosDir.comp measurable_snd))
  have e4 := hconst.mean_draw2 ()
  simp only [avg_const] at e4
  have e5 : ∫⁻ r : Rng, avg (val ⟨sensor.origin, worldOf (e2.cross sensor.direction) e2 sensor.direction (cosDir (r 0, r 1))⟩) ∂randomNumbers = _ := e4
  rw [e5, mean_cosDir hL, ENNReal.mul_div_cancel (by simp [Real.pi_pos]) ENNReal.ofReal_ne_top]
  exact irradiance_congr fun l hl => (hG { TRay.default with geometry := ⟨sensor.origin, worldOf (e2.cross sensor.direction) e2 sensor.direction l⟩ } (Nat.zero_add _) rfl (hunit hf l hl)).1

end Rendering
