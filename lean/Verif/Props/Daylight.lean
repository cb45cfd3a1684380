import Verif.Lemmas.DcTracer
import Verif.Props.Render
import Verif.Props.TracerExamples

/-!
# C58, C59: the matrix of daylight coefficients
-/

set_option linter.unusedSectionVars false
namespace Rendering

open Classical

/-! ### C58: shape and rows -/

theorem dcRow_spec {w : World} {dc : DcFactory} {fuel : Nat} {sensor : Ray3 ℝ} {primary : Rng} {secondary : Nat → Rng} {row : Mat (Spectrum ℝ)} (h : dcRow w dc fuel sensor primary secondary = .ok row) :
    row.IsRow dc.nBins ∧ ∃ cs : List (Mat (Spectrum ℝ)), cs.length = dc.nAmbientSamples ∧ (∀ k < dc.nAmbientSamples, ∃ c, cs[k]? = some c ∧ dcTask w dc fuel sensor primary k (secondary k) = .ok c) ∧
      ∀ j < dc.nBins, row.get? 0 j = some (spectrumSum (column cs j)) := by
  unfold dcRow at h
  simp only at h
  obtain ⟨e2, he, h⟩ := Res.bind_eq_ok h
  obtain ⟨cs, hcs, h⟩ := Res.bind_eq_ok h
  have hall := mapRes_ok hcs
  have hlen : cs.length = dc.nAmbientSamples := by rw [← hall.length_eq, List.length_map, List.length_zipIdx, dcDirections_length]
  have hk : ∀ k < dc.nAmbientSamples, ∃ d c, (dcDirections dc.nAmbientSamples primary)[k]? = some d ∧ cs[k]? = some c ∧ dcSample w dc fuel sensor.origin (e2.cross sensor.direction) e2 sensor.direction d (secondary k) = .ok c := by
    intro k hk
    obtain ⟨d, hd⟩ : ∃ d, (dcDirections dc.nAmbientSamples primary)[k]? = some d := ⟨_, dcDirections_getElem? _ _ _ hk⟩
    obtain ⟨c, hc, hv⟩ := (forall₂_getElem? hall k).1 (k, d) (by rw [zipIdx_swap_getElem?, hd]; rfl)
    exact ⟨d, c, hd, hc, hv⟩
  have hrow : ∀ c ∈ cs, c.IsRow dc.nBins := by
    intro c hc
    obtain ⟨k, hk', hck⟩ := List.getElem_of_mem hc
    obtain ⟨d, c', _, hc', hv⟩ := hk k (by rw [← hlen]; exact hk')
    rw [List.getElem?_eq_getElem hk', hck] at hc'
    rw [Option.some.inj hc']
    exact dcSample_shape hv
  obtain ⟨h1, h2⟩ := dcSum_spec cs _ _ dc.blank_isRow hrow h
  refine ⟨h1, cs, hlen, ?_, ?_⟩
  · intro k hk'
    obtain ⟨d, c, hd, hc, hv⟩ := hk k hk'
    refine ⟨c, hc, ?_⟩
    unfold dcTask
    rw [he, Res.bind_ok, hd, Res.ofOption_some, Res.bind_ok]
    exact hv
  · intro j hj
    rw [h2 j hj, dc.blank_isRow.get? j]
    simp [DcFactory.blank, Mat.new, hj, spectrum_black_add]

theorem calcDc_rows {w : World} {dc : DcFactory} {fuel : Nat} {rays : List (Ray3 ℝ)} {primary : Nat → Rng} {secondary : Nat → Nat → Rng} {M : Mat (Spectrum ℝ)} (h : calcDc w dc fuel rays primary secondary = .ok M) :
    M.WF ∧ M.nrows = rays.length ∧ M.ncols = dc.nBins ∧
    ∀ (i : Nat) (sensor : Ray3 ℝ), rays[i]? = some sensor → ∃ row, dcRow w dc fuel sensor (primary i) (secondary i) = .ok row ∧ ∀ j < dc.nBins, M.get? i j = row.get? 0 j := by
  unfold calcDc at h
  obtain ⟨rows, hrows, h⟩ := Res.bind_eq_ok h
  have hall := mapRes_ok hrows
  have hi : ∀ (i : Nat) (sensor : Ray3 ℝ), rays[i]? = some sensor → ∃ row, rows[i]? = some row ∧ dcRow w dc fuel sensor (primary i) (secondary i) = .ok row := by
    intro i sensor hs
    exact (forall₂_getElem? hall i).1 (i, sensor) (by rw [zipIdx_swap_getElem?, hs]; rfl)
  have hlen : rows.length = rays.length := by rw [← hall.length_eq]; simp
  have hrow : ∀ c ∈ rows, c.IsRow dc.nBins := by
    intro c hc
    obtain ⟨k, hk', hck⟩ := List.getElem_of_mem hc
    obtain ⟨row, hr, hv⟩ := hi k rays[k] (List.getElem?_eq_getElem (by rw [← hlen]; exact hk'))
    rw [List.getElem?_eq_getElem hk', hck] at hr
    rw [Option.some.inj hr]
    exact (dcRow_spec hv).1
  obtain ⟨h1, h2, h3, h4, _⟩ := dcCopyRows_spec rows hrow 0 _ M (Mat.WF_new _ _ _) rfl h
  refine ⟨h1, h2, h3, ?_⟩
  intro i sensor hs
  obtain ⟨row, hr, hv⟩ := hi i sensor hs
  refine ⟨row, hv, fun j hj => ?_⟩
  have := h4 i row hr j hj
  rwa [Nat.zero_add] at this

/-- **C58, shape and content.** The matrix has one row per sensor ray and one column per bin, and entry `(i, j)` is the sum, over the samples of ray `i`, of what each of them contributes to bin `j`; the contribution
of sample `k` is computed from ray `i`, the generator of ray `i` and the generator of the sample, and nothing else. -/
theorem C58_rows (w : World) (dc : DcFactory) (fuel : Nat) (rays : List (Ray3 ℝ)) (primary : Nat → Rng) (secondary : Nat → Nat → Rng) (M : Mat (Spectrum ℝ)) (h : calcDc w dc fuel rays primary secondary = .ok M) :
    M.WF ∧ M.nrows = rays.length ∧ M.ncols = dc.nBins ∧
    ∀ (i : Nat) (sensor : Ray3 ℝ), rays[i]? = some sensor → ∃ cs : List (Mat (Spectrum ℝ)), cs.length = dc.nAmbientSamples ∧
      (∀ k < dc.nAmbientSamples, ∃ c, cs[k]? = some c ∧ dcTask w dc fuel sensor (primary i) k (secondary i k) = .ok c) ∧
      ∀ j < dc.nBins, M.get? i j = some (spectrumSum (column cs j)) := by
  obtain ⟨h1, h2, h3, h4⟩ := calcDc_rows h
  refine ⟨h1, h2, h3, fun i sensor hs => ?_⟩
  obtain ⟨row, hr, hj⟩ := h4 i sensor hs
  obtain ⟨_, cs, k1, k2, k3⟩ := dcRow_spec hr
  exact ⟨cs, k1, k2, fun j hb => by rw [hj j hb, k3 j hb]⟩

/-- **C58, independence of the rows.** Computing the coefficients of ray `i` alone, with the same generators, gives the same row. -/
theorem C58_rows_independent (w : World) (dc : DcFactory) (fuel : Nat) (rays : List (Ray3 ℝ)) (primary : Nat → Rng) (secondary : Nat → Nat → Rng) (M : Mat (Spectrum ℝ)) (h : calcDc w dc fuel rays primary secondary = .ok M)
    (i : Nat) (sensor : Ray3 ℝ) (hs : rays[i]? = some sensor) :
    ∃ M', calcDc w dc fuel [sensor] (fun _ => primary i) (fun _ => secondary i) = .ok M' ∧ M'.nrows = 1 ∧ ∀ j < dc.nBins, M'.get? 0 j = M.get? i j := by
  obtain ⟨_, _, _, h4⟩ := calcDc_rows h
  obtain ⟨row, hr, hj⟩ := h4 i sensor hs
  have hrow := (dcRow_spec hr).1
  obtain ⟨M', hM'⟩ := dcCopyRows_ok (n := dc.nBins) [row] (by simpa using hrow) 0 (Mat.new Spectrum.black 1 dc.nBins) (Mat.WF_new _ _ _) rfl (by simp [Mat.new])
  have he : calcDc w dc fuel [sensor] (fun _ => primary i) (fun _ => secondary i) = .ok M' := by
    unfold calcDc
    simp only [List.zipIdx_cons, List.zipIdx_nil, List.map_cons, List.map_nil, Prod.swap, mapRes, hr, Res.bind_ok, List.length_singleton]
    exact hM'
  obtain ⟨_, g2, _, g4⟩ := calcDc_rows he
  obtain ⟨row', hr', hj'⟩ := g4 0 sensor rfl
  rw [hr] at hr'
  refine ⟨M', he, g2, fun j hb => ?_⟩
  rw [hj' j hb, hj j hb, Res.ok.inj hr']

/-! ### C58: schedules -/

theorem dc_ready (w : World) (dc : DcFactory) (fuel : Nat) (rays : List (Ray3 ℝ)) (primary : Nat → Rng) (secondary : Nat → Nat → Rng) (h : rays.length * dc.nAmbientSamples < 2 ^ 31) :
    Ready (dcLoop w dc fuel rays primary) (dcInit dc secondary) where
  start := fun _ _ => rfl
  counter := rfl
  lockC := rfl
  lockP := rfl
  progress := rfl
  log := rfl
  writes := rfl
  nodup := fun _ _ => by simp [dcInit]
  disjoint := fun t _ t' _ hne x hx => by
    simp only [dcInit, List.mem_singleton] at hx ⊢
    omega
  total := by simp [dcInit, dcLoop]
  small := h

/-- **C58, schedules.** Whatever the order in which the workers take their steps, when all have finished the contribution stored for sample `k` of ray `i` is the one `C58_rows` sums; some schedule finishes, and none
gets stuck. -/
theorem C58_schedule_independent (w : World) (dc : DcFactory) (fuel : Nat) (rays : List (Ray3 ℝ)) (primary : Nat → Rng) (secondary : Nat → Nat → Rng) (h : rays.length * dc.nAmbientSamples < 2 ^ 31) :
    (∀ m s, (dcLoop w dc fuel rays primary).Reach (dcInit dc secondary) m s → (dcLoop w dc fuel rays primary).Finished s →
      ∀ (i k : Nat) (sensor : Ray3 ℝ), rays[i]? = some sensor → k < dc.nAmbientSamples → s.mem (i * dc.nAmbientSamples + k) = dcTask w dc fuel sensor (primary i) k (secondary i k)) ∧
    (∀ m s, (dcLoop w dc fuel rays primary).Reach (dcInit dc secondary) m s → ∃ m' s', (dcLoop w dc fuel rays primary).Reach (dcInit dc secondary) m' s' ∧ (dcLoop w dc fuel rays primary).Finished s') := by
  have hready := dc_ready w dc fuel rays primary secondary h
  refine ⟨?_, fun m s hr => Reach.completes hready hr⟩
  intro m s hr hf i k sensor hs hk
  have hi : i < rays.length := (List.getElem?_eq_some_iff.1 hs).1
  have hlt : i * dc.nAmbientSamples + k < rays.length * dc.nAmbientSamples := by
    calc i * dc.nAmbientSamples + k < i * dc.nAmbientSamples + dc.nAmbientSamples := by omega
      _ = (i + 1) * dc.nAmbientSamples := by ring
      _ ≤ _ := Nat.mul_le_mul_right _ hi
  have hdiv : (i * dc.nAmbientSamples + k) / dc.nAmbientSamples = i := by
    rw [Nat.mul_comm, Nat.mul_add_div (by omega), Nat.div_eq_of_lt hk, Nat.add_zero]
  have hmod : (i * dc.nAmbientSamples + k) % dc.nAmbientSamples = k := by
    rw [Nat.mul_comm, Nat.mul_add_mod, Nat.mod_eq_of_lt hk]
  refine (Inv.reach hready hr).mem_finished hready hf (w := i * dc.nAmbientSamples + k) hlt ?_
  simp only [dcInit, dcLoop, seqValue, if_true, hdiv, hmod, hs, Res.ofOption_some, Res.bind_ok]

/-- **C41 for `calc_dc`.** In every schedule: the counter is at most the number of samples and ends there, the reported percentages are strictly increasing, above 0 and at most 100, what is shown is never ahead, at most one per cent behind whenever no worker is busy
counting, and in the end 99 or 100. -/
theorem C41_dc_progress (w : World) (dc : DcFactory) (fuel : Nat) (rays : List (Ray3 ℝ)) (primary : Nat → Rng) (secondary : Nat → Nat → Rng) (h : rays.length * dc.nAmbientSamples < 2 ^ 31) {m : Nat} {s : RState Rng (Res (Mat (Spectrum ℝ)))}
    (hr : (dcLoop w dc fuel rays primary).Reach (dcInit dc secondary) m s) :
    (0 ≤ s.counter ∧ s.counter ≤ (rays.length * dc.nAmbientSamples : ℕ)) ∧
    ((dcLoop w dc fuel rays primary).Finished s → s.counter = (rays.length * dc.nAmbientSamples : ℕ)) ∧
    s.log.Pairwise (· < ·) ∧ (∀ x ∈ s.log, 0 < x ∧ x ≤ 100) ∧
    lastShown s.log ≤ round (100 * (s.counter : ℚ) / (rays.length * dc.nAmbientSamples : ℕ)) ∧
    (s.counterLock = none → (round (100 * (s.counter : ℚ) / (rays.length * dc.nAmbientSamples : ℕ)) : ℚ) ≤ lastShown s.log + 1) ∧
    ((dcLoop w dc fuel rays primary).Finished s → 0 < rays.length * dc.nAmbientSamples → 99 ≤ lastShown s.log) := by
  have hready := dc_ready w dc fuel rays primary secondary h
  have hinv := Inv.reach hready hr
  obtain ⟨-, h2, h3, h4⟩ := hr.display hready
  refine ⟨hinv.counter_le hready, fun hf => hinv.counter_finished hready hf, hinv.log_sorted, fun x hx => ⟨(hinv.log_bound x hx).1, (hinv.log_bound x hx).2.2⟩, h2, h3, fun hf hpos => ?_⟩
  have := h4 hf
  rw [hinv.counter_finished hready hf] at this
  have e : progressOf (dcLoop w dc fuel rays primary).total ((dcLoop w dc fuel rays primary).total : ℤ) = 100 := progressOf_total hpos
  rw [e] at this
  change 99 ≤ s.shown
  linarith

/-- **C42 for `calc_dc`.** No reachable state is stuck, and no schedule makes more than nine steps per sample. -/
theorem C42_dc_no_deadlock (w : World) (dc : DcFactory) (fuel : Nat) (rays : List (Ray3 ℝ)) (primary : Nat → Rng) (secondary : Nat → Nat → Rng) (h : rays.length * dc.nAmbientSamples < 2 ^ 31) {m : Nat} {s : RState Rng (Res (Mat (Spectrum ℝ)))}
    (hr : (dcLoop w dc fuel rays primary).Reach (dcInit dc secondary) m s) :
    (¬ (dcLoop w dc fuel rays primary).Finished s → ∃ t s', (dcLoop w dc fuel rays primary).step s t = some s') ∧ m ≤ 9 * (rays.length * dc.nAmbientSamples) :=
  ⟨(Inv.reach (dc_ready w dc fuel rays primary secondary h) hr).progress, Reach.steps_le (dc_ready w dc fuel rays primary secondary h) hr⟩

/-- C41, C42: one sensor, 200 samples. -/
example (w : World) (fuel : Nat) (sensor : Ray3 ℝ) (primary : Nat → Rng) (secondary : Nat → Nat → Rng) (f : Vec3 ℝ → Nat) (m : Nat) (s : RState Rng (Res (Mat (Spectrum ℝ))))
    (hr : (dcLoop w ⟨145, f, 2, 200, 1 / 1000, 1⟩ fuel [sensor] primary).Reach (dcInit ⟨145, f, 2, 200, 1 / 1000, 1⟩ secondary) m s) : m ≤ 9 * 200 ∧ s.counter ≤ 200 ∧ ((dcLoop w ⟨145, f, 2, 200, 1 / 1000, 1⟩ fuel [sensor] primary).Finished s → 99 ≤ lastShown s.log) :=
  ⟨by simpa using (C42_dc_no_deadlock w _ fuel _ primary secondary (by norm_num) hr).2, by simpa using (C41_dc_progress w _ fuel _ primary secondary (by norm_num) hr).1.2, fun hf => (C41_dc_progress w _ fuel _ primary secondary (by norm_num) hr).2.2.2.2.2.2 hf (by norm_num)⟩

/-! ### C59: unobstructed sensors -/

/-- No triangle of the scene is in the way of any ray from the sensor into the hemisphere it faces. -/
def OpenSky (s : Scene ℝ) (sensor : Ray3 ℝ) : Prop :=
  ∀ d, Norm d = 1 → 0 < Dot d sensor.direction → ∀ tri ∈ s.triangles, ∀ t p u v, TolerantHit ⟨sensor.origin, d⟩ tri t p u v → ¬ InRange (distSq p sensor.origin)

theorem spectrumSum_gray {A : Type} (l : List A) (f : A → ℝ) : spectrumSum (l.map fun a => Spectrum.gray (f a)) = Spectrum.gray (l.map f).sum := by
  induction l with
  | nil => rfl
  | cons a l ih =>
    simp only [List.map_cons, spectrumSum, ih, List.sum_cons]
    rfl

theorem sum_indicator (l : List Nat) (f : Nat → Nat) (j : Nat) (x : ℝ) : (l.map fun k => if f k = j then x else 0).sum = ((l.filter fun k => f k = j).length : ℝ) * x := by
  induction l with
  | nil => simp
  | cons a l ih =>
    simp only [List.map_cons, List.sum_cons, ih, List.filter_cons]
    by_cases h : f a = j
    · simp only [h, if_true, decide_true, List.length_cons, Nat.cast_add, Nat.cast_one]; ring
    · simp only [h, if_false, decide_false, Bool.false_eq_true, zero_add]

theorem sum_count (l : List Nat) (f : Nat → Nat) (n : Nat) (h : ∀ k ∈ l, f k < n) : ((List.range n).map fun j => (l.filter fun k => f k = j).length).sum = l.length := by
  induction l with
  | nil => simp
  | cons a l ih =>
    have hstep : ((List.range n).map fun j => ((a :: l).filter fun k => f k = j).length) = (List.range n).map fun j => (if f a = j then 1 else 0) + (l.filter fun k => f k = j).length := by
      apply List.map_congr_left
      intro j _
      rw [List.filter_cons]
      by_cases hj : f a = j
      · simp [hj, add_comm]
      · simp [hj]
    rw [hstep, List.sum_map_add, ih fun k hk => h k (List.mem_cons_of_mem _ hk), List.length_cons]
    have : ((List.range n).map fun j => if f a = j then 1 else 0).sum = 1 := by
      have hlt := h a List.mem_cons_self
      generalize f a = b at hlt
      clear hstep h ih
      induction n with
      | zero => omega
      | succ n ihn =>
        rw [List.range_succ, List.map_append, List.sum_append]
        by_cases hb : b = n
        · subst hb
          have : ((List.range b).map fun j => if b = j then 1 else 0) = (List.range b).map fun _ => 0 := by
            apply List.map_congr_left
            intro j hj
            rw [if_neg (by have := List.mem_range.1 hj; omega)]
          rw [this]; simp
        · rw [ihn (by omega)]; simp [hb]
    rw [this, add_comm]

/-- The contribution of an unobstructed sample: all of `π / n` in the bin of its direction. -/
theorem dcTask_open (w : World) (s : Scene ℝ) (hR : w.Renders s) (hext : w.ext.PerpSpec) (dc : DcFactory) (hbin : ∀ d, Norm d = 1 → dc.dirToBin d < dc.nBins) (sensor : Ray3 ℝ) (hn : Norm sensor.direction = 1) (hopen : OpenSky s sensor)
    (primary : Rng) (hp : primary.Valid) (fuel k : Nat) (hk : k < dc.nAmbientSamples) :
    ∃ d, Norm d = 1 ∧ 0 < Dot d sensor.direction ∧ ∀ rng, dcTask w dc (fuel + 1) sensor primary k rng = .ok { dc.blank with data := dc.blank.data.set (dc.dirToBin d) (Spectrum.gray (Real.pi / dc.nAmbientSamples)) } := by
  obtain ⟨e2, he, he1, he2⟩ := hext sensor.direction hn
  have hf := frame_of_perp hn he1 he2
  set rk : Rng := fun i => primary (i + 2 * k) with hrk
  obtain ⟨c1, c2, _⟩ := C55_cosine_hemisphere rk (fun i => hp _)
  set ld := (sampleCosineHemisphere rk).1 with hld
  set d := localToWorld (e2.cross sensor.direction) e2 sensor.direction 0 ld.x ld.y ld.z with hd
  have hiso := C54_isometry (e2.cross sensor.direction) e2 sensor.direction 0 hf ld.x ld.y ld.z 0 0 0
  rw [sub_zero'] at hiso
  have hd1 : Norm d = 1 := by
    rw [hiso.2.2.2.1]
    have := Dot_self_of_norm c1
    rw [Dot] at this
    rw [show ld.x ^ 2 + ld.y ^ 2 + ld.z ^ 2 = 1 by linarith]
    exact Real.sqrt_one
  have hd2 : 0 < Dot d sensor.direction := by rw [hiso.2.2.1]; exact c2
  refine ⟨d, hd1, hd2, fun rng => ?_⟩
  unfold dcTask
  rw [he, Res.ofOption_some, Res.bind_ok, dcDirections_getElem? _ _ _ hk, Res.ofOption_some, Res.bind_ok]
  unfold dcSample
  simp only
  have hcast : w.cast { TRay.default with geometry := ⟨sensor.origin, d⟩, colour := Spectrum.gray Real.pi } = .ok none := hR.cast_none _ (hopen d hd1 hd2)
  have hb := hbin d hd1
  rw [dcTraceRay]
  simp only [← hrk, ← hld, ← hd, hcast, Res.bind_ok]
  unfold dcMissStep
  have hget : dc.blank.get? 0 (dc.dirToBin d) = some Spectrum.black := Mat.get?_new _ _ _ _ _ (by norm_num) hb
  have hset : ∀ v, dc.blank.set 0 (dc.dirToBin d) v = .ok { dc.blank with data := dc.blank.data.set (dc.dirToBin d) v } := by
    intro v
    unfold Mat.set
    rw [if_pos ⟨by simp [DcFactory.blank, Mat.new], hb⟩]
    simp
  simp only [hget, Res.ofOption_some, Res.bind_ok, hset]
  congr 3
  rw [spectrum_black_add]
  ext <;> simp [Spectrum.divBy, Spectrum.one, Spectrum.gray]

/-- **C59.** A sensor with nothing in front of it collects `π`: entry `j` of its row is `π / n` times the number of samples whose direction is in bin `j`, and the entries of the row sum to `π` in every channel. Whatever the
number of samples, the other rays, the number of bins and the random numbers. -/
theorem C59_open_sensor_collects_pi (w : World) (s : Scene ℝ) (hR : w.Renders s) (hext : w.ext.PerpSpec) (dc : DcFactory) (hbin : ∀ d, Norm d = 1 → dc.dirToBin d < dc.nBins) (hpos : 0 < dc.nAmbientSamples) (rays : List (Ray3 ℝ))
    (primary : Nat → Rng) (secondary : Nat → Nat → Rng) (hp : ∀ i, (primary i).Valid) (fuel : Nat) (M : Mat (Spectrum ℝ)) (h : calcDc w dc (fuel + 1) rays primary secondary = .ok M) (i : Nat) (sensor : Ray3 ℝ)
    (hs : rays[i]? = some sensor) (hn : Norm sensor.direction = 1) (hopen : OpenSky s sensor) :
    ∃ dirs : Nat → Vec3 ℝ, (∀ k < dc.nAmbientSamples, Norm (dirs k) = 1 ∧ 0 < Dot (dirs k) sensor.direction) ∧
      (∀ j < dc.nBins, M.get? i j = some (Spectrum.gray (((List.range dc.nAmbientSamples).filter fun k => dc.dirToBin (dirs k) = j).length * (Real.pi / dc.nAmbientSamples)))) ∧
      spectrumSum ((List.range dc.nBins).map fun j => (M.get? i j).getD Spectrum.black) = Spectrum.gray Real.pi := by
  obtain ⟨_, _, _, hrows⟩ := C58_rows w dc (fuel + 1) rays primary secondary M h
  obtain ⟨cs, hlen, hcs, hsum⟩ := hrows i sensor hs
  have hdir : ∀ k : Nat, ∃ d, k < dc.nAmbientSamples → Norm d = 1 ∧ 0 < Dot d sensor.direction ∧
      ∀ rng, dcTask w dc (fuel + 1) sensor (primary i) k rng = .ok { dc.blank with data := dc.blank.data.set (dc.dirToBin d) (Spectrum.gray (Real.pi / dc.nAmbientSamples)) } := by
    intro k
    by_cases hk : k < dc.nAmbientSamples
    · obtain ⟨d, h1, h2, h3⟩ := dcTask_open w s hR hext dc hbin sensor hn hopen (primary i) (hp i) fuel k hk
      exact ⟨d, fun _ => ⟨h1, h2, h3⟩⟩
    · exact ⟨0, fun h => absurd h hk⟩
  choose dirs hdirs using hdir
  have hcol : ∀ j < dc.nBins, column cs j = (List.range dc.nAmbientSamples).map fun k => Spectrum.gray (if dc.dirToBin (dirs k) = j then Real.pi / dc.nAmbientSamples else 0) := by
    intro j hj
    apply List.ext_getElem?
    intro k
    unfold column
    rw [List.getElem?_map, List.getElem?_map]
    by_cases hk : k < dc.nAmbientSamples
    · obtain ⟨c, hc, ht⟩ := hcs k hk
      obtain ⟨h1, h2, h3⟩ := hdirs k hk
      rw [h3] at ht
      have hb := hbin (dirs k) h1
      rw [hc, List.getElem?_range hk, Option.map_some, Option.map_some, ← Res.ok.inj ht]
      have hrow : Mat.IsRow { dc.blank with data := dc.blank.data.set (dc.dirToBin (dirs k)) (Spectrum.gray (Real.pi / dc.nAmbientSamples)) } dc.nBins := by
        simp [DcFactory.blank, Mat.new, Mat.IsRow]
      rw [hrow.get? j]
      simp only [List.getElem?_set]
      by_cases he : dc.dirToBin (dirs k) = j
      · subst he
        simp [DcFactory.blank, Mat.new, hb]
      · simp [he, DcFactory.blank, Mat.new, hj, Spectrum.black]
    · rw [List.getElem?_eq_none (by rw [hlen]; omega), List.getElem?_eq_none (by simp; omega)]
      rfl
  have hentry : ∀ j < dc.nBins, M.get? i j = some (Spectrum.gray (((List.range dc.nAmbientSamples).filter fun k => dc.dirToBin (dirs k) = j).length * (Real.pi / dc.nAmbientSamples))) := by
    intro j hj
    rw [hsum j hj, hcol j hj, spectrumSum_gray, sum_indicator]
  refine ⟨dirs, fun k hk => ⟨(hdirs k hk).1, (hdirs k hk).2.1⟩, hentry, ?_⟩
  have : ((List.range dc.nBins).map fun j => (M.get? i j).getD Spectrum.black) =
      (List.range dc.nBins).map fun j => Spectrum.gray (((List.range dc.nAmbientSamples).filter fun k => dc.dirToBin (dirs k) = j).length * (Real.pi / dc.nAmbientSamples)) := by
    apply List.map_congr_left
    intro j hj
    rw [hentry j (List.mem_range.1 hj), Option.getD_some]
  rw [this, spectrumSum_gray]
  congr 1
  rw [List.sum_map_mul_right]
  have hc := sum_count (List.range dc.nAmbientSamples) (fun k => dc.dirToBin (dirs k)) dc.nBins (fun k hk => hbin _ (hdirs k (List.mem_range.1 hk)).1)
  have hc' : ((List.range dc.nBins).map fun j => (((List.range dc.nAmbientSamples).filter fun k => dc.dirToBin (dirs k) = j).length : ℝ)).sum = dc.nAmbientSamples := by
    rw [← Nat.cast_inj (R := ℝ)] at hc
    rw [Nat.cast_list_sum, List.map_map, List.length_range] at hc
    exact hc
  rw [hc']
  field_simp

/-- Mapping succeeds when it succeeds on every element. -/
theorem mapRes_total {A B : Type} (f : A → Res B) (l : List A) (h : ∀ x ∈ l, ∃ b, f x = .ok b) : ∃ bs, mapRes f l = .ok bs := by
  induction l with
  | nil => exact ⟨[], rfl⟩
  | cons x l ih =>
    obtain ⟨c, hc⟩ := h x List.mem_cons_self
    obtain ⟨cs, hcs⟩ := ih fun y hy => h y (List.mem_cons_of_mem _ hy)
    refine ⟨c :: cs, ?_⟩
    unfold mapRes
    rw [hc, Res.bind_ok, hcs, Res.bind_ok]

/-- `calc_dc` succeeds when all its samples do. -/
theorem calcDc_ok (w : World) (dc : DcFactory) (fuel : Nat) (rays : List (Ray3 ℝ)) (primary : Nat → Rng) (secondary : Nat → Nat → Rng)
    (h : ∀ (i : Nat) (sensor : Ray3 ℝ), rays[i]? = some sensor → (∃ e2, w.ext.perp sensor.direction = some e2) ∧ ∀ k < dc.nAmbientSamples, ∃ c, dcTask w dc fuel sensor (primary i) k (secondary i k) = .ok c) :
    ∃ M, calcDc w dc fuel rays primary secondary = .ok M := by
  have hrow : ∀ (i : Nat) (r : Ray3 ℝ), rays[i]? = some r → ∃ row, dcRow w dc fuel r (primary i) (secondary i) = .ok row := by
    intro i r hr
    obtain ⟨⟨e2, he⟩, ht⟩ := h i r hr
    obtain ⟨cs, hcs⟩ : ∃ cs, mapRes (fun (x : Nat × Vec3 ℝ) => dcSample w dc fuel r.origin (e2.cross r.direction) e2 r.direction x.2 (secondary i x.1)) ((dcDirections dc.nAmbientSamples (primary i)).zipIdx.map Prod.swap) = .ok cs := by
      apply mapRes_total
      intro x hx
      obtain ⟨k, hk, hxk⟩ := List.getElem_of_mem hx
      have hk' : k < dc.nAmbientSamples := by simpa [dcDirections_length] using hk
      have hg := zipIdx_swap_getElem? (dcDirections dc.nAmbientSamples (primary i)) k
      rw [List.getElem?_eq_getElem hk, hxk, dcDirections_getElem? _ _ _ hk', Option.map_some] at hg
      have hx' := Option.some.inj hg
      obtain ⟨c, ht⟩ := ht k hk'
      unfold dcTask at ht
      rw [he, Res.ofOption_some, Res.bind_ok, dcDirections_getElem? _ _ _ hk', Res.ofOption_some, Res.bind_ok] at ht
      rw [hx']
      exact ⟨_, ht⟩
    have hall := mapRes_ok hcs
    have hshape : ∀ c ∈ cs, c.IsRow dc.nBins := by
      intro c hc
      obtain ⟨k, hk, hck⟩ := List.getElem_of_mem hc
      have hk2 : k < ((dcDirections dc.nAmbientSamples (primary i)).zipIdx.map Prod.swap).length := by rw [hall.length_eq]; exact hk
      have := hall.get hk2 hk
      rw [← hck]
      exact dcSample_shape this
    obtain ⟨row, hrow⟩ := dcSum_ok cs dc.blank dc.blank_isRow hshape
    refine ⟨row, ?_⟩
    unfold dcRow
    simp only [he, Res.ofOption_some, Res.bind_ok]
    rw [show (fun (x : Nat × Vec3 ℝ) => match x with | (k, d) => dcSample w dc fuel r.origin (e2.cross r.direction) e2 r.direction d (secondary i k)) =
      fun (x : Nat × Vec3 ℝ) => dcSample w dc fuel r.origin (e2.cross r.direction) e2 r.direction x.2 (secondary i x.1) from rfl, hcs, Res.bind_ok]
    exact hrow
  obtain ⟨rows, hrows⟩ : ∃ rows, mapRes (fun (x : Nat × Ray3 ℝ) => dcRow w dc fuel x.2 (primary x.1) (secondary x.1)) (rays.zipIdx.map Prod.swap) = .ok rows := by
    apply mapRes_total
    intro x hx
    obtain ⟨k, hk, hxk⟩ := List.getElem_of_mem hx
    have hk' : k < rays.length := by simpa using hk
    have hg := zipIdx_swap_getElem? rays k
    rw [List.getElem?_eq_getElem hk, hxk, List.getElem?_eq_getElem hk', Option.map_some] at hg
    rw [Option.some.inj hg]
    exact hrow k _ (List.getElem?_eq_getElem hk')
  have hall := mapRes_ok hrows
  have hshape : ∀ c ∈ rows, c.IsRow dc.nBins := by
    intro c hc
    obtain ⟨k, hk, hck⟩ := List.getElem_of_mem hc
    have hk2 : k < (rays.zipIdx.map Prod.swap).length := by rw [hall.length_eq]; exact hk
    have := hall.get hk2 hk
    rw [← hck]
    exact (dcRow_spec this).1
  obtain ⟨M, hM⟩ := dcCopyRows_ok rows hshape 0 (Mat.new Spectrum.black rays.length dc.nBins) (Mat.WF_new _ _ _) rfl (by
    rw [← hall.length_eq]; simp [Mat.new])
  refine ⟨M, ?_⟩
  unfold calcDc
  rw [show (fun (x : Nat × Ray3 ℝ) => match x with | (i, ray) => dcRow w dc fuel ray (primary i) (secondary i)) =
    fun (x : Nat × Ray3 ℝ) => dcRow w dc fuel x.2 (primary x.1) (secondary x.1) from rfl, hrows, Res.bind_ok]
  exact hM

/-- **C59, an empty scene.** Every row of `calc_dc` sums to `π`, and `calc_dc` does succeed. -/
theorem C59_empty_scene (w : World) (s : Scene ℝ) (hR : w.Renders s) (hempty : s.triangles = []) (hext : w.ext.PerpSpec) (dc : DcFactory) (hbin : ∀ d, Norm d = 1 → dc.dirToBin d < dc.nBins) (hpos : 0 < dc.nAmbientSamples)
    (rays : List (Ray3 ℝ)) (hn : ∀ r ∈ rays, Norm r.direction = 1) (primary : Nat → Rng) (secondary : Nat → Nat → Rng) (hp : ∀ i, (primary i).Valid) (fuel : Nat) :
    ∃ M, calcDc w dc (fuel + 1) rays primary secondary = .ok M ∧ M.nrows = rays.length ∧ M.ncols = dc.nBins ∧
      ∀ i < rays.length, spectrumSum ((List.range dc.nBins).map fun j => (M.get? i j).getD Spectrum.black) = Spectrum.gray Real.pi := by
  have hopen : ∀ r, OpenSky s r := by
    intro r d _ _ tri ht
    rw [hempty] at ht
    simp at ht
  obtain ⟨M, he⟩ := calcDc_ok w dc (fuel + 1) rays primary secondary (by
    intro i sensor hs
    have hd := hn _ (List.mem_of_getElem? hs)
    obtain ⟨e2, he, _⟩ := hext sensor.direction hd
    refine ⟨⟨e2, he⟩, fun k hk => ?_⟩
    obtain ⟨d, _, _, ht⟩ := dcTask_open w s hR hext dc hbin sensor hd (hopen sensor) (primary i) (hp i) fuel k hk
    exact ⟨_, ht _⟩)
  obtain ⟨_, h2, h3, _⟩ := calcDc_rows he
  refine ⟨M, he, h2, h3, fun i hi => ?_⟩
  obtain ⟨_, _, _, hsum⟩ := C59_open_sensor_collects_pi w s hR hext dc hbin hpos rays primary secondary hp fuel M he i rays[i] (List.getElem?_eq_getElem hi) (hn _ (List.getElem_mem hi)) (hopen _)
  exact hsum

/-- C58 and C59: the hypotheses are met by two sensors in an empty scene, whatever the random numbers; both rows sum to `π`. -/
example (dc : DcFactory) (h1 : 0 < dc.nAmbientSamples) (h2 : 0 < dc.nBins) (primary : Nat → Rng) (secondary : Nat → Nat → Rng) (hp : ∀ i, (primary i).Valid) :
    ∃ w : World, ∃ M, calcDc w { dc with dirToBin := fun d => if d.z < 0 then 0 else dc.nBins - 1 } 1 [⟨⟨0, 0, 0⟩, ⟨0, 0, 1⟩⟩, ⟨⟨0, 0, 0⟩, ⟨1, 0, 0⟩⟩] primary secondary = .ok M ∧ M.nrows = 2 ∧
      spectrumSum ((List.range dc.nBins).map fun j => (M.get? 1 j).getD Spectrum.black) = Spectrum.gray Real.pi := by
  obtain ⟨ext, hext⟩ := perpSpec_exists
  obtain ⟨w, hR, he, _⟩ := renders_exists ({ triangles := [], normals := [], front := [], back := [], materials := [] } : Scene ℝ) ⟨rfl, rfl, rfl⟩ (fits_of_small _ (by simp)) ext ⟨fun _ _ => false, fun _ _ => false⟩ none none
  obtain ⟨M, hM, h3, _, h5⟩ := C59_empty_scene w _ hR rfl (he ▸ hext) { dc with dirToBin := fun d => if d.z < 0 then 0 else dc.nBins - 1 } (by
    intro d _
    simp only
    split_ifs <;> omega) h1 [⟨⟨0, 0, 0⟩, ⟨0, 0, 1⟩⟩, ⟨⟨0, 0, 0⟩, ⟨1, 0, 0⟩⟩] (by
    intro r hr
    simp only [List.mem_cons, List.not_mem_nil, or_false] at hr
    rcases hr with rfl | rfl <;> exact Norm_eq_one (by norm_num [Dot])) primary secondary hp 0
  exact ⟨w, M, hM, h3, h5 1 (by simp)⟩

end Rendering
