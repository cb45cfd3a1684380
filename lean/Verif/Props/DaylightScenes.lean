import Verif.Props.Daylight
import Verif.Props.Ambient

/-!
# C61, C80: the daylight coefficients of sensors that see a surface
-/

set_option linter.unusedSectionVars false
namespace Rendering

open Classical

/-- All that is in a matrix, summed. -/
noncomputable def Mat.total (m : Mat (Spectrum ℝ)) : Spectrum ℝ := spectrumSum m.data

/-- The sum of the entries of row `i`. -/
noncomputable def Mat.rowTotal (m : Mat (Spectrum ℝ)) (i : Nat) : Spectrum ℝ := spectrumSum ((List.range m.ncols).map fun j => (m.get? i j).getD Spectrum.black)

/-- Channel by channel power. -/
noncomputable def Spectrum.power (c : Spectrum ℝ) (k : Nat) : Spectrum ℝ := ⟨c.c0 ^ k, c.c1 ^ k, c.c2 ^ k⟩

theorem spectrum_add_comm (a b : Spectrum ℝ) : a + b = b + a := by ext <;> exact add_comm _ _

theorem spectrumSum_set (l : List (Spectrum ℝ)) (j : Nat) (old v : Spectrum ℝ) (h : l[j]? = some old) : spectrumSum (l.set j (old + v)) = spectrumSum l + v := by
  induction l generalizing j with
  | nil => simp at h
  | cons a l ih =>
    cases j with
    | zero =>
      simp only [List.getElem?_cons_zero, Option.some.injEq] at h
      subst h
      simp only [List.set_cons_zero, spectrumSum]
      rw [spectrum_add_assoc, spectrum_add_assoc, spectrum_add_comm v]
    | succ j =>
      simp only [List.getElem?_cons_succ] at h
      simp only [List.set_cons_succ, spectrumSum, ih j h, spectrum_add_assoc]

theorem spectrumSum_append (l l' : List (Spectrum ℝ)) : spectrumSum (l ++ l') = spectrumSum l + spectrumSum l' := by
  induction l with
  | nil => simp [spectrumSum, spectrum_black_add]
  | cons a l ih => simp only [List.cons_append, spectrumSum, ih, spectrum_add_assoc]

theorem spectrumSum_map_add {A : Type} (l : List A) (f g : A → Spectrum ℝ) : spectrumSum (l.map fun a => f a + g a) = spectrumSum (l.map f) + spectrumSum (l.map g) := by
  induction l with
  | nil => simp [spectrumSum, spectrum_black_add]
  | cons a l ih =>
    simp only [List.map_cons, spectrumSum, ih]
    rw [spectrum_add_assoc, spectrum_add_assoc, ← spectrum_add_assoc (g a), spectrum_add_comm (g a), spectrum_add_assoc]

theorem spectrumSum_map_black {A : Type} (l : List A) : spectrumSum (l.map fun _ => Spectrum.black) = Spectrum.black := by
  induction l with
  | nil => rfl
  | cons a l ih => simp only [List.map_cons, spectrumSum, ih, spectrum_black_add]

theorem Mat.IsRow.total_eq {m : Mat (Spectrum ℝ)} {n : Nat} (h : m.IsRow n) : spectrumSum ((List.range n).map fun j => (m.get? 0 j).getD Spectrum.black) = m.total := by
  unfold Mat.total
  congr 1
  apply List.ext_getElem?
  intro k
  rw [List.getElem?_map]
  by_cases hk : k < n
  · simp [hk, h.get?, List.getElem?_eq_getElem (show k < m.data.length by rw [h.2.2]; exact hk)]
  · simp [hk, h.2.2]

theorem columns_total (n : Nat) (cs : List (Mat (Spectrum ℝ))) (h : ∀ c ∈ cs, c.IsRow n) :
    spectrumSum ((List.range n).map fun j => spectrumSum (column cs j)) = spectrumSum (cs.map Mat.total) := by
  induction cs with
  | nil => simp only [column, List.map_nil, spectrumSum]; exact spectrumSum_map_black _
  | cons c cs ih =>
    simp only [column, List.map_cons, spectrumSum]
    rw [spectrumSum_map_add, (h c List.mem_cons_self).total_eq, ← ih fun c hc => h c (List.mem_cons_of_mem _ hc)]
    rfl

/-- The total of a row is the sum of the totals of the contributions of its samples. -/
theorem rowTotal_eq (w : World) (dc : DcFactory) (fuel : Nat) (rays : List (Ray3 ℝ)) (primary : Nat → Rng) (secondary : Nat → Nat → Rng) (M : Mat (Spectrum ℝ)) (h : calcDc w dc fuel rays primary secondary = .ok M)
    (i : Nat) (sensor : Ray3 ℝ) (hs : rays[i]? = some sensor) (f : Nat → Spectrum ℝ)
    (hf : ∀ k < dc.nAmbientSamples, ∀ c, dcTask w dc fuel sensor (primary i) k (secondary i k) = .ok c → c.total = f k) :
    M.rowTotal i = spectrumSum ((List.range dc.nAmbientSamples).map f) := by
  obtain ⟨_, _, hc, hrows⟩ := C58_rows w dc fuel rays primary secondary M h
  obtain ⟨cs, hlen, hcs, hsum⟩ := hrows i sensor hs
  have hshape : ∀ c ∈ cs, c.IsRow dc.nBins := by
    intro c hc
    obtain ⟨k, hk, hck⟩ := List.getElem_of_mem hc
    obtain ⟨c', hc', ht⟩ := hcs k (by rw [← hlen]; exact hk)
    rw [List.getElem?_eq_getElem hk, hck] at hc'
    rw [Option.some.inj hc']
    unfold dcTask at ht
    obtain ⟨_, _, ht⟩ := Res.bind_eq_ok ht
    obtain ⟨_, _, ht⟩ := Res.bind_eq_ok ht
    exact dcSample_shape ht
  unfold Mat.rowTotal
  rw [hc]
  have : ((List.range dc.nBins).map fun j => (M.get? i j).getD Spectrum.black) = (List.range dc.nBins).map fun j => spectrumSum (column cs j) := by
    apply List.map_congr_left
    intro j hj
    rw [hsum j (List.mem_range.1 hj)]; rfl
  rw [this, columns_total _ _ hshape]
  congr 1
  apply List.ext_getElem?
  intro k
  rw [List.getElem?_map, List.getElem?_map]
  by_cases hk : k < dc.nAmbientSamples
  · obtain ⟨c, hc, ht⟩ := hcs k hk
    rw [hc, List.getElem?_range hk, Option.map_some, Option.map_some, hf k hk c ht]
  · rw [List.getElem?_eq_none (by rw [hlen]; omega), List.getElem?_eq_none (by simp; omega)]
    rfl

/-- What a ray that escapes adds. -/
theorem dcMiss_total (dc : DcFactory) (ray : TRay) (st : DState) (hr : st.contribution.IsRow dc.nBins) (hb : dc.dirToBin ray.geometry.direction < dc.nBins) :
    ∃ c, dcMissStep dc ray st = .ok (ray, { st with contribution := c }) ∧ c.IsRow dc.nBins ∧ c.total = st.contribution.total + ray.colour.divBy dc.nAmbientSamples := by
  unfold dcMissStep
  have hlt : dc.dirToBin ray.geometry.direction < st.contribution.data.length := by rw [hr.2.2]; exact hb
  simp only [hr.get?, List.getElem?_eq_getElem hlt, Res.ofOption_some, Res.bind_ok]
  have hset : ∀ v, ∃ c, st.contribution.set 0 (dc.dirToBin ray.geometry.direction) v = .ok c := by
    intro v
    unfold Mat.set
    rw [if_pos ⟨by rw [hr.1]; norm_num, by rw [hr.2.1]; exact hb⟩]
    exact ⟨_, rfl⟩
  obtain ⟨c, hc⟩ := hset (st.contribution.data[dc.dirToBin ray.geometry.direction] + (Spectrum.one * ray.colour).divBy (dc.nAmbientSamples : ℝ))
  obtain ⟨h1, h2, _⟩ := hr.set hc
  refine ⟨c, by rw [hc, Res.bind_ok], h1, ?_⟩
  unfold Mat.total
  rw [h2, spectrumSum_set _ _ _ _ (List.getElem?_eq_getElem hlt)]
  congr 1
  ext <;> simp [Spectrum.divBy, Spectrum.one, Spectrum.gray]

/-! ### C61 -/

/-- What `n` ambient samples bring from a single matt triangle. -/
theorem samples_fade (w : World) (m : Material ℝ) (c : Spectrum ℝ) (hm : m.Matt c) (tri : Tri ℝ) (hw : w.Shows m [tri]) (dc : DcFactory) (hD : 0 < dc.maxDepth)
    (hbin : ∀ d, Norm d = 1 → dc.dirToBin d < dc.nBins) (ray : TRay) (hd : Norm ray.geometry.direction = 1) (hdep : ray.depth = 0) (hhit : w.cast ray ≠ .ok none)
    (st : DState) (hr : st.rng.Valid) (hrays : st.rays ≠ []) (hrow : st.contribution.IsRow dc.nBins) (fuel : Nat) :
    ∃ ray' st', dcTraceRay w dc (fuel + 2) st ray = .ok (ray', st') ∧ st'.contribution.IsRow dc.nBins ∧
      st'.contribution.total = st.contribution.total + spectrumSum ((List.range dc.nAmbientSamples).map fun k => (ray.colour * c.power (k + 1)).divBy dc.nAmbientSamples) := by
  have hR := hw.renders hm.notLight.1 (by norm_num)
  obtain ⟨tri', htri, b, hb, _, _, ⟨i, hcast, hmat, hnor⟩, _⟩ := hw.step_hit hm.notLight.1 (by norm_num) ray hd hhit
  rw [List.mem_singleton] at htri
  subst htri
  obtain ⟨_, hframe, hside, _⟩ := recorded_spec tri' ray.geometry b hd hb
  have hloop : ∀ n r (s : DState) (k : Nat), s.rng.Valid → s.contribution.IsRow dc.nBins → r.colour = ray.colour * c.power k →
      ∃ ray' st', dcAmbientLoop (dcTraceRay w dc (fuel + 1)) m (fuel + 1) (ray.arrived tri' b).interaction.point (ray.arrived tri' b).interaction.shading.normal (ray.arrived tri' b).interaction.shading.dpdu
        (ray.arrived tri' b).interaction.shading.dpdv n r s = .ok (ray', st') ∧ st'.contribution.IsRow dc.nBins ∧
        st'.contribution.total = s.contribution.total + spectrumSum ((List.range n).map fun j => (ray.colour * c.power (k + j + 1)).divBy dc.nAmbientSamples) := by
    intro n
    induction n with
    | zero => intro r s k _ hrow _; exact ⟨r, s, rfl, ‹_›, by simp [spectrumSum, spectrum_add_black]⟩
    | succ n ih =>
      intro r s k hvalid hrow hcol
      unfold dcAmbientLoop
      obtain ⟨bsdf, pdf, g, hs, hg1, hg2, _, hg3⟩ := hm.sample (fuel + 1) (ray.arrived tri' b).interaction.shading.normal (ray.arrived tri' b).interaction.shading.dpdu (ray.arrived tri' b).interaction.shading.dpdv
        (ray.arrived tri' b).interaction.point hframe r s.rng hvalid
      rw [hs, Res.bind_ok]
      simp only
      have hmiss : ∀ (s' : DState) (r : TRay), r.geometry = ⟨(ray.arrived tri' b).interaction.point + (ray.arrived tri' b).interaction.shading.normal.scale (1 / 10 ^ 5), g⟩ →
          dcTraceRay w dc (fuel + 1) s' r = dcMissStep dc r s' := by
        intro s' r hr
        have : w.cast r = .ok none := by
          refine hR.cast_none r ?_
          intro t ht tt p u v hth
          simp only [List.mem_singleton] at ht
          subst ht
          rw [hr] at hth
          exact absurd hth (leaves t ray.geometry b hd hb g hg2.le tt p u v)
        rw [dcTraceRay]
        simp only [this, Res.bind_ok]
      rw [hmiss]
      swap
      · rfl
      rw [Vec3.dot_eq, hg3]
      have hcol' : r.colour * c = ray.colour * c.power (k + 1) := by
        rw [hcol]
        ext <;> simp [Spectrum.power] <;> ring
      generalize hr1 : ({ geometry := ⟨(ray.arrived tri' b).interaction.point + (ray.arrived tri' b).interaction.shading.normal.scale (1 / 10 ^ 5), g⟩, refractionIndex := r.refractionIndex, interaction := r.interaction, depth := r.depth + 1, value := r.value, colour := r.colour * c } : TRay) = r1
      obtain ⟨cc, hc1, hc2, hc3⟩ := dcMiss_total dc r1 { s with rng := fun k => s.rng (k + 3) } hrow (by rw [← hr1]; exact hbin _ hg1)
      rw [hc1, Res.bind_ok]
      obtain ⟨ray', st', h1, h1', h2⟩ := ih r1 { s with rng := fun k => s.rng (k + 3), contribution := cc } (k + 1) (hvalid.shift 3) hc2 (by rw [← hr1]; exact hcol')
      refine ⟨ray', st', h1, h1', ?_⟩
      rw [h2, hc3, List.range_succ_eq_map, List.map_cons, List.map_map, spectrumSum, spectrum_add_assoc]
      congr 2
      · rw [← hr1]; simp only [hcol', Nat.add_zero]
      · congr 1
        apply List.map_congr_left
        intro j _
        simp only [Function.comp_apply]
        rw [show k + 1 + j + 1 = k + j.succ + 1 by omega]
  obtain ⟨ray', st', h1, h1', h2⟩ := hloop dc.nAmbientSamples (ray.arrived tri' b) { st with rays := st.rays.set 0 (ray.arrived tri' b) } 0 hr hrow (by ext <;> simp [TRay.arrived, Spectrum.power])
  refine ⟨ray', st', ?_, h1', by simpa using h2⟩
  rw [dcTraceRay]
  simp only [hcast, Res.bind_ok]
  have hdep' : (ray.arrived tri' b).depth = 0 := hdep
  simp only [hdep', Nat.not_lt_zero, gt_iff_lt, if_false]
  unfold dcSurfaceStep
  have hna : (ray.arrived tri' b).interaction.shading.side ≠ .NonApplicable := by
    rcases hside with ⟨hs, _⟩ | ⟨hs, _⟩
    · show (recordedInteraction tri' ray.geometry b).shading.side ≠ _; rw [hs]; decide
    · show (recordedInteraction tri' ray.geometry b).shading.side ≠ _; rw [hs]; decide
  rw [if_neg hna, hmat, Res.bind_ok]
  have hns := hm.notLight
  have hnd : ¬ (ray.arrived tri' b).depth > dc.maxDepth := by omega
  simp only [hnd, hns.1, hns.2, Bool.false_eq_true, or_self, if_false, hnor, Res.ofOption_some, Res.bind_ok]
  have hit := interp_recorded tri' ray.geometry b hd hb
  have harr : ({ geometry := (ray.arrived tri' b).geometry, refractionIndex := (ray.arrived tri' b).refractionIndex, interaction := (ray.arrived tri' b).interaction.interpolateNormal (unitNormal tri') (unitNormal tri') (unitNormal tri'), depth := (ray.arrived tri' b).depth, value := (ray.arrived tri' b).value, colour := (ray.arrived tri' b).colour } : TRay) = ray.arrived tri' b := by
    simp only [TRay.arrived, hit]
  rw [harr, (C64_counts (ray.arrived tri' b) dc.nAmbientSamples dc.maxDepth dc.limitWeight st.rng).2.1 hD hdep']
  have hlen : 0 < st.rays.length := List.length_pos_of_ne_nil hrays
  simp only [hdep', hlen, if_true, TRay.getTriad]
  exact h1

/-- **C61, violation.** A ray that carries `colour` arrives at a matt triangle of colour `c` with nothing else in the scene, at depth 0. All its `n` ambient samples escape to the sky, and each of them should bring the
same, `colour * c / n`. The `k`-th brings `colour * c ^ k / n`: each sample starts with what is left of the one before it. -/
theorem C61_violation_samples_fade (w : World) (m : Material ℝ) (c : Spectrum ℝ) (hm : m.Matt c) (tri : Tri ℝ) (hw : w.Shows m [tri]) (dc : DcFactory) (hD : 0 < dc.maxDepth)
    (hbin : ∀ d, Norm d = 1 → dc.dirToBin d < dc.nBins) (ray : TRay) (hd : Norm ray.geometry.direction = 1) (hdep : ray.depth = 0) (d2 : ℝ) (hv : VisibleHit ray.geometry tri d2) (hin : InRange d2)
    (st : DState) (hr : st.rng.Valid) (hrays : st.rays ≠ []) (hrow : st.contribution.IsRow dc.nBins) (fuel : Nat) :
    ∃ ray' st', dcTraceRay w dc (fuel + 2) st ray = .ok (ray', st') ∧
      st'.contribution.total = st.contribution.total + spectrumSum ((List.range dc.nAmbientSamples).map fun k => (ray.colour * c.power (k + 1)).divBy dc.nAmbientSamples) := by
  have hhit : w.cast ray ≠ .ok none := by
    intro hno
    rcases (hw.renders hm.notLight.1 (by norm_num)).cast_cases ray with ⟨_, hn⟩ | ⟨i, tri, b, j, hc, _⟩
    · exact absurd hin (hn tri (by simp) d2 hv)
    · rw [hno] at hc
      cases hc
  obtain ⟨ray', st', h1, -, h2⟩ := samples_fade w m c hm tri hw dc hD hbin ray hd hdep hhit st hr hrays hrow fuel
  exact ⟨ray', st', h1, h2⟩

/-- C61: the hypotheses are met. With two samples, a ray straight down onto a mid grey floor brings `(1/2 + 1/4) / 2` instead of `1/2`. -/
example (dc : DcFactory) (hD : 0 < dc.maxDepth) (hn : dc.nAmbientSamples = 2) (hbin : ∀ d, Norm d = 1 → dc.dirToBin d < dc.nBins) (rng : Rng) (hr : rng.Valid) :
    ∃ w : World, ∃ ray' st', dcTraceRay w dc 2 ⟨rng, defaultRays, dc.blank⟩ downRay = .ok (ray', st') ∧ st'.contribution.total = Spectrum.gray (3 / 8) := by
  obtain ⟨w, hw, _⟩ := shows_exists (.plastic (Spectrum.gray (1 / 2)) 0 0) rfl [plane 0] none
  obtain ⟨ray', st', h1, h2⟩ := C61_violation_samples_fade w _ (Spectrum.gray (1 / 2)) ⟨0, Or.inl rfl⟩ (plane 0) hw dc hD hbin downRay (Norm_eq_one (by norm_num [Dot, downRay])) rfl _ downRay_visible downRay_inRange
    ⟨rng, defaultRays, dc.blank⟩ hr (by simp [defaultRays]) dc.blank_isRow 0
  refine ⟨w, ray', st', h1, ?_⟩
  rw [h2, hn]
  have hb : dc.blank.total = Spectrum.black := by
    have : dc.blank.data = (List.range dc.nBins).map fun _ => Spectrum.black := by
      simp [DcFactory.blank, Mat.new, List.map_const']
    rw [Mat.total, this, spectrumSum_map_black]
  rw [hb]
  ext <;> norm_num [List.range_succ, spectrumSum, Spectrum.black, Spectrum.gray, Spectrum.power, Spectrum.divBy, downRay, TRay.default, Spectrum.one]

/-! ### C80 -/

theorem DcFactory.blank_total (dc : DcFactory) : dc.blank.total = Spectrum.black := by
  have : dc.blank.data = (List.range dc.nBins).map fun _ => Spectrum.black := by
    simp [DcFactory.blank, Mat.new, List.map_const']
  rw [Mat.total, this, spectrumSum_map_black]

/-- The direction of sample `k` of a sensor. -/
noncomputable def sensorDirection (ext : GeoExt) (sensor : Ray3 ℝ) (primary : Rng) (k : Nat) : Option (Vec3 ℝ) :=
  (ext.perp sensor.direction).map fun e2 =>
    let d := (sampleCosineHemisphere fun i => primary (i + 2 * k)).1
    localToWorld (e2.cross sensor.direction) e2 sensor.direction 0 d.x d.y d.z

theorem dcTask_eq {w : World} {dc : DcFactory} {fuel : Nat} {sensor : Ray3 ℝ} {primary rng : Rng} {k : Nat} (hk : k < dc.nAmbientSamples) {c : Mat (Spectrum ℝ)} (h : dcTask w dc fuel sensor primary k rng = .ok c) :
    ∃ d ray' st', sensorDirection w.ext sensor primary k = some d ∧
      dcTraceRay w dc fuel ⟨rng, defaultRays, dc.blank⟩ { TRay.default with geometry := ⟨sensor.origin, d⟩, colour := Spectrum.gray Real.pi } = .ok (ray', st') ∧ st'.contribution = c := by
  unfold dcTask at h
  obtain ⟨e2, he, h⟩ := Res.bind_eq_ok h
  rw [dcDirections_getElem? _ _ _ hk, Res.ofOption_some, Res.bind_ok] at h
  unfold dcSample at h
  simp only at h
  obtain ⟨⟨ray', st'⟩, h1, h2⟩ := Res.bind_eq_ok h
  refine ⟨_, ray', st', ?_, h1, Res.ok.inj h2⟩
  unfold sensorDirection
  rw [Res.ofOption_eq_ok he]
  rfl

/-- **C80, violation.** The row of a sensor all of whose `n` rays hit a matt triangle of colour `c` sums to `π (c + c² + … + cⁿ)`; reflection alone would give at most `π c`. -/
theorem C80_violation_reflected_row (w : World) (m : Material ℝ) (c : Spectrum ℝ) (hm : m.Matt c) (tri : Tri ℝ) (hw : w.Shows m [tri]) (dc : DcFactory) (hD : 0 < dc.maxDepth) (hn : 0 < dc.nAmbientSamples)
    (hbin : ∀ d, Norm d = 1 → dc.dirToBin d < dc.nBins) (rays : List (Ray3 ℝ)) (primary : Nat → Rng) (secondary : Nat → Nat → Rng) (fuel : Nat) (M : Mat (Spectrum ℝ))
    (h : calcDc w dc (fuel + 2) rays primary secondary = .ok M) (i : Nat) (hr : ∀ k, (secondary i k).Valid) (sensor : Ray3 ℝ) (hs : rays[i]? = some sensor)
    (hhit : ∀ k < dc.nAmbientSamples, ∀ d, sensorDirection w.ext sensor (primary i) k = some d → Norm d = 1 ∧ ∃ d2, VisibleHit ⟨sensor.origin, d⟩ tri d2 ∧ InRange d2) :
    M.rowTotal i = (spectrumSum ((List.range dc.nAmbientSamples).map fun k => c.power (k + 1))).scale Real.pi := by
  have key := rowTotal_eq w dc (fuel + 2) rays primary secondary M h i sensor hs
    (fun _ => spectrumSum ((List.range dc.nAmbientSamples).map fun k => (Spectrum.gray Real.pi * c.power (k + 1)).divBy dc.nAmbientSamples)) (by
      intro k hk cc ht
      obtain ⟨d, ray', st', hd, htr, rfl⟩ := dcTask_eq hk ht
      obtain ⟨hd1, d2, hv, hin⟩ := hhit k hk d hd
      obtain ⟨ray'', st'', h1, h2⟩ := C61_violation_samples_fade w m c hm tri hw dc hD hbin { TRay.default with geometry := ⟨sensor.origin, d⟩, colour := Spectrum.gray Real.pi } hd1 rfl d2 hv hin
        ⟨secondary i k, defaultRays, dc.blank⟩ (hr k) (by simp [defaultRays]) dc.blank_isRow fuel
      rw [htr] at h1
      have := congrArg (fun x => x.2) (Res.ok.inj h1)
      simp only at this
      rw [this, h2, dc.blank_total, spectrum_black_add])
  rw [key]
  have hsum : ∀ l : List Nat, spectrumSum (l.map fun k => (Spectrum.gray Real.pi * c.power (k + 1)).divBy dc.nAmbientSamples) = ((spectrumSum (l.map fun k => c.power (k + 1))).scale Real.pi).divBy dc.nAmbientSamples := by
    intro l
    induction l with
    | nil => ext <;> simp [spectrumSum, Spectrum.black, Spectrum.gray, Spectrum.scale, Spectrum.divBy]
    | cons a l ih =>
      simp only [List.map_cons, spectrumSum, ih]
      ext <;> simp [Spectrum.gray, Spectrum.scale, Spectrum.divBy] <;> ring
  rw [hsum]
  generalize (spectrumSum (List.map (fun k => c.power (k + 1)) (List.range dc.nAmbientSamples))).scale Real.pi = x
  have hn' : (dc.nAmbientSamples : ℝ) ≠ 0 := by exact_mod_cast hn.ne'
  have hconst : ∀ n : Nat, spectrumSum ((List.range n).map fun _ => x.divBy dc.nAmbientSamples) = (x.divBy dc.nAmbientSamples).scale n := by
    intro n
    induction n with
    | zero => ext <;> simp [spectrumSum, Spectrum.black, Spectrum.gray, Spectrum.scale]
    | succ n ih =>
      rw [List.range_succ, List.map_append, spectrumSum_append, ih]
      ext <;> simp [spectrumSum, Spectrum.scale, Spectrum.black, Spectrum.gray] <;> ring
  rw [hconst]
  ext <;> simp [Spectrum.scale, Spectrum.divBy] <;> field_simp

/-- **C80, violation: white.** If the triangle is white, the row sums to `n π`: the result grows with the number of samples. -/
theorem C80_violation_white_row (w : World) (m : Material ℝ) (hm : m.Matt Spectrum.one) (tri : Tri ℝ) (hw : w.Shows m [tri]) (dc : DcFactory) (hD : 0 < dc.maxDepth) (hn : 0 < dc.nAmbientSamples)
    (hbin : ∀ d, Norm d = 1 → dc.dirToBin d < dc.nBins) (rays : List (Ray3 ℝ)) (primary : Nat → Rng) (secondary : Nat → Nat → Rng) (fuel : Nat) (M : Mat (Spectrum ℝ))
    (h : calcDc w dc (fuel + 2) rays primary secondary = .ok M) (i : Nat) (hr : ∀ k, (secondary i k).Valid) (sensor : Ray3 ℝ) (hs : rays[i]? = some sensor)
    (hhit : ∀ k < dc.nAmbientSamples, ∀ d, sensorDirection w.ext sensor (primary i) k = some d → Norm d = 1 ∧ ∃ d2, VisibleHit ⟨sensor.origin, d⟩ tri d2 ∧ InRange d2) :
    M.rowTotal i = Spectrum.gray (dc.nAmbientSamples * Real.pi) := by
  rw [C80_violation_reflected_row w m Spectrum.one hm tri hw dc hD hn hbin rays primary secondary fuel M h i hr sensor hs hhit]
  have : ∀ n : Nat, spectrumSum ((List.range n).map fun k => (Spectrum.one : Spectrum ℝ).power (k + 1)) = Spectrum.gray (n : ℝ) := by
    intro n
    have : ((List.range n).map fun k => (Spectrum.one : Spectrum ℝ).power (k + 1)) = (List.range n).map fun _ => Spectrum.gray 1 := by
      apply List.map_congr_left
      intro k _
      ext <;> simp [Spectrum.one, Spectrum.power, Spectrum.gray]
    rw [this, spectrumSum_gray]
    simp
  rw [this]
  rfl

/-- C80: the hypotheses are met. A sensor above a white floor, looking straight down with two samples, gets `2 π`. -/
example (dc : DcFactory) (hD : 0 < dc.maxDepth) (hn : dc.nAmbientSamples = 2) (hbin : ∀ d, Norm d = 1 → dc.dirToBin d < dc.nBins) (secondary : Nat → Nat → Rng) (hr : ∀ i k, (secondary i k).Valid) :
    ∃ w : World, ∃ M, calcDc w dc 2 [⟨⟨0, 0, 1 / 2⟩, ⟨0, 0, -1⟩⟩] (fun _ _ => 0) secondary = .ok M ∧ M.rowTotal 0 = Spectrum.gray (2 * Real.pi) := by
  obtain ⟨w, hw, _, he⟩ : ∃ w : World, w.Shows (.plastic Spectrum.one 0 0) [plane 0] ∧ w.sky = none ∧ ∃ e2, w.ext.perp ⟨0, 0, -1⟩ = some e2 := by
    obtain ⟨w, hw, hs⟩ := shows_exists (.plastic Spectrum.one 0 0) rfl [plane 0] none
    exact ⟨{ w with ext := ⟨fun _ => some ⟨1, 0, 0⟩, fun _ _ => none⟩ }, ⟨hw.lawful, hw.box, hw.normalized, hw.run⟩, hs, ⟨1, 0, 0⟩, rfl⟩
  obtain ⟨e2, he⟩ := he
  have hdir : ∀ k d, sensorDirection w.ext ⟨⟨0, 0, 1 / 2⟩, ⟨0, 0, -1⟩⟩ (fun _ => 0) k = some d → d = ⟨0, 0, -1⟩ := by
    intro k d hd
    unfold sensorDirection at hd
    simp only [he, Option.map_some, Option.some.injEq] at hd
    rw [← hd]
    ext <;> simp [sampleCosineHemisphere, uniformSampleHorizontalDisc, Rng.gen2, Rng.gen, localToWorld, clampR]
  have hm : (Material.plastic Spectrum.one 0 0 : Material ℝ).Matt Spectrum.one := ⟨0, Or.inl rfl⟩
  obtain ⟨M, hM⟩ := calcDc_ok w dc 2 [⟨⟨0, 0, 1 / 2⟩, ⟨0, 0, -1⟩⟩] (fun _ _ => 0) secondary (by
    intro i sensor hs
    have hs' : sensor = ⟨⟨0, 0, 1 / 2⟩, ⟨0, 0, -1⟩⟩ := by simpa using List.mem_of_getElem? hs
    subst hs'
    refine ⟨⟨e2, he⟩, fun k hk => ?_⟩
    unfold dcTask
    simp only [he, Res.ofOption_some, Res.bind_ok, dcDirections_getElem? _ _ _ hk]
    unfold dcSample
    have hd := hdir k _ (by unfold sensorDirection; rw [he]; rfl)
    simp only at hd ⊢
    rw [hd]
    obtain ⟨ray', st', h1, _⟩ := C61_violation_samples_fade w _ Spectrum.one hm (plane 0) hw dc hD hbin { TRay.default with geometry := ⟨⟨0, 0, 1 / 2⟩, ⟨0, 0, -1⟩⟩, colour := Spectrum.gray Real.pi }
      (Norm_eq_one (by norm_num [Dot])) rfl _ downRay_visible downRay_inRange ⟨secondary i k, defaultRays, dc.blank⟩ (hr i k) (by simp [defaultRays]) dc.blank_isRow 0
    exact ⟨_, by rw [h1]; rfl⟩)
  refine ⟨w, M, hM, ?_⟩
  have := C80_violation_white_row w _ hm (plane 0) hw dc hD (by omega) hbin [⟨⟨0, 0, 1 / 2⟩, ⟨0, 0, -1⟩⟩] (fun _ _ => 0) secondary 0 M hM 0 (hr 0) ⟨⟨0, 0, 1 / 2⟩, ⟨0, 0, -1⟩⟩ rfl (by
    intro k _ d hd
    rw [hdir k d hd]
    exact ⟨Norm_eq_one (by norm_num [Dot]), _, downRay_visible, downRay_inRange⟩)
  rw [this, hn]
  norm_num

/-- Sample `k` of the sensor meets no triangle. -/
def Escapes (w : World) (sensor : Ray3 ℝ) (primary : Rng) (k : Nat) : Prop :=
  ∃ d, sensorDirection w.ext sensor primary k = some d ∧ w.cast { TRay.default with geometry := ⟨sensor.origin, d⟩, colour := Spectrum.gray Real.pi } = .ok none

theorem sum_where (l : List Nat) (p : Nat → Prop) (x : ℝ) : (l.map fun k => if p k then x else 0).sum = ((l.filter fun k => p k).length : ℝ) * x := by
  induction l with
  | nil => simp
  | cons a l ih =>
    simp only [List.map_cons, List.sum_cons, ih, List.filter_cons]
    by_cases h : p a
    · simp only [h, if_true, decide_true, List.length_cons, Nat.cast_add, Nat.cast_one]; ring
    · simp only [h, if_false, decide_false, Bool.false_eq_true, zero_add]

/-- **C80, direct light (partial).** Without bounces (`max_depth = 0`) and with no specular materials, in any scene: the row of a sensor is `π / n` times the number of its rays that escape, so it sums to between 0 and `π`.
Missing: bounces, for which the claim is false (`C80_violation_white_row`). -/
theorem C80_direct_rows_partial (w : World) (hm : ∀ m ∈ w.scene.materials, m.specularOnly = false) (dc : DcFactory) (hD : dc.maxDepth = 0) (rays : List (Ray3 ℝ)) (primary : Nat → Rng) (secondary : Nat → Nat → Rng)
    (fuel : Nat) (M : Mat (Spectrum ℝ)) (h : calcDc w dc fuel rays primary secondary = .ok M) (i : Nat) (sensor : Ray3 ℝ) (hs : rays[i]? = some sensor) :
    (∃ x, 0 ≤ x ∧ x ≤ Real.pi ∧ M.rowTotal i = Spectrum.gray x) ∧
    M.rowTotal i = Spectrum.gray (((List.range dc.nAmbientSamples).filter fun k => Escapes w sensor (primary i) k).length * (Real.pi / dc.nAmbientSamples)) := by
  have key : M.rowTotal i = Spectrum.gray (((List.range dc.nAmbientSamples).filter fun k => Escapes w sensor (primary i) k).length * (Real.pi / dc.nAmbientSamples)) := by
    have hrow := rowTotal_eq w dc fuel rays primary secondary M h i sensor hs (fun k => Spectrum.gray (if Escapes w sensor (primary i) k then Real.pi / dc.nAmbientSamples else 0)) (by
      intro k hk cc ht
      obtain ⟨d, ray', st', hd, htr, rfl⟩ := dcTask_eq hk ht
      cases fuel with
      | zero => simp [dcTraceRay] at htr
      | succ fuel =>
        rw [dcTraceRay] at htr
        obtain ⟨hit, hcast, htr⟩ := Res.bind_eq_ok htr
        cases hit with
        | none =>
          simp only at htr
          have hex : Escapes w sensor (primary i) k := ⟨d, hd, hcast⟩
          simp only [hex, if_true]
          have hb : dc.dirToBin d < dc.nBins := by
            unfold dcMissStep at htr
            obtain ⟨old, hold, _⟩ := Res.bind_eq_ok htr
            have := Res.ofOption_eq_ok hold
            simp only [dc.blank_isRow.get?] at this
            have := (List.getElem?_eq_some_iff.1 this).1
            rwa [dc.blank_isRow.2.2] at this
          obtain ⟨c, h1, _, h3⟩ := dcMiss_total dc { TRay.default with geometry := ⟨sensor.origin, d⟩, colour := Spectrum.gray Real.pi } ⟨secondary i k, defaultRays, dc.blank⟩ dc.blank_isRow hb
          rw [h1] at htr
          have := congrArg (fun x => x.2.contribution) (Res.ok.inj htr)
          simp only at this
          rw [← this, h3, dc.blank_total, spectrum_black_add]
          rfl
        | some x =>
          obtain ⟨j, ray1⟩ := x
          have hno : ¬ Escapes w sensor (primary i) k := by
            rintro ⟨d', hd', hc'⟩
            rw [hd] at hd'
            rw [← Option.some.inj hd', hcast] at hc'
            simp at hc'
          simp only [hno, if_false]
          have hsame : st'.contribution = dc.blank := by
            simp only at htr
            split_ifs at htr with h0
            · have := congrArg (fun x => x.2.contribution) (Res.ok.inj htr)
              exact this.symm
            · unfold dcSurfaceStep at htr
              split_ifs at htr with h1
              · have := congrArg (fun x => x.2.contribution) (Res.ok.inj htr)
                exact this.symm
              · obtain ⟨m, hmat, htr⟩ := Res.bind_eq_ok htr
                have hspec : m.specularOnly = false := by
                  apply hm
                  unfold World.materialAt at hmat
                  cases hside : ray1.interaction.shading.side <;> rw [hside] at hmat
                  · obtain ⟨x, _, hmat⟩ := Res.bind_eq_ok hmat
                    exact List.mem_of_getElem? (Res.ofOption_eq_ok hmat)
                  · obtain ⟨x, _, hmat⟩ := Res.bind_eq_ok hmat
                    exact List.mem_of_getElem? (Res.ofOption_eq_ok hmat)
                  · simp at hmat
                by_cases h2 : ray1.depth > dc.maxDepth ∨ m.emitsDirectLight = true
                · rw [if_pos h2] at htr
                  have := congrArg (fun x => x.2.contribution) (Res.ok.inj htr)
                  exact this.symm
                · rw [if_neg h2] at htr
                  obtain ⟨⟨n0, n1, n2⟩, _, htr⟩ := Res.bind_eq_ok htr
                  simp only [hspec, Bool.false_eq_true, if_false] at htr
                  rw [(C64_counts _ dc.nAmbientSamples dc.maxDepth dc.limitWeight _).1 (Or.inl hD)] at htr
                  simp only at htr
                  split_ifs at htr with h3
                  unfold dcAmbientLoop at htr
                  have := congrArg (fun x => x.2.contribution) (Res.ok.inj htr)
                  exact this.symm
          rw [hsame, dc.blank_total]; rfl)
    rw [hrow, spectrumSum_gray]
    congr 1
    exact sum_where _ _ _
  refine ⟨⟨_, by positivity, ?_, key⟩, key⟩
  by_cases hn : dc.nAmbientSamples = 0
  · simp [hn, Real.pi_pos.le]
  · have hn' : (0 : ℝ) < dc.nAmbientSamples := by exact_mod_cast Nat.pos_of_ne_zero hn
    rw [mul_div_assoc', div_le_iff₀ hn', mul_comm]
    apply mul_le_mul_of_nonneg_left _ Real.pi_pos.le
    have := List.length_filter_le (fun k => decide (Escapes w sensor (primary i) k)) (List.range dc.nAmbientSamples)
    rw [List.length_range] at this
    exact_mod_cast this

end Rendering
