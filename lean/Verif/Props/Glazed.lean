import Verif.Lemmas.Glazed

/-!
# C123: the mean picture with mirrors, panes of glass and dielectrics
-/

set_option linter.unusedSectionVars false
namespace Rendering

open MeasureTheory Set

variable {w : World} {s : Scene ℝ}

open Classical in
/-- The mean of a choice made with one draw. -/
theorem counted_mean (c : ℝ) (A B : ENNReal) : ∫⁻ u in Ico (0 : ℝ) 1, (if u < c then A else B) = ENNReal.ofReal (min 1 c) * A + (1 - ENNReal.ofReal (min 1 c)) * B := by
  have hm : MeasurableSet {u : ℝ | u < c} := measurableSet_lt measurable_id measurable_const
  have e : ∀ u : ℝ, (if u < c then A else B) = {u : ℝ | u < c}.indicator (fun _ => A) u + {u : ℝ | u < c}ᶜ.indicator (fun _ => B) u := by
    intro u
    by_cases h : u < c
    · rw [if_pos h, indicator_of_mem (by simpa using h), indicator_of_notMem (by simpa using h), add_zero]
    · rw [if_neg h, indicator_of_notMem (by simpa using h), indicator_of_mem (by simpa using h), zero_add]
  simp only [e]
  rw [lintegral_add_left (measurable_const.indicator hm), lintegral_indicator hm, lintegral_indicator hm.compl, Measure.restrict_restrict hm, Measure.restrict_restrict hm.compl, setLIntegral_const, setLIntegral_const, mul_comm A, mul_comm B]
  have h1 : volume ({u : ℝ | u < c} ∩ Ico 0 1) = ENNReal.ofReal (min 1 c) := by
    have : {u : ℝ | u < c} ∩ Ico 0 1 = Ico 0 (min 1 c) := by
      ext u; simp only [mem_inter_iff, mem_setOf_eq, mem_Ico, lt_min_iff]; tauto
    rw [this, Real.volume_Ico, sub_zero]
  have h2 : volume ({u : ℝ | u < c}ᶜ ∩ Ico 0 1) = 1 - ENNReal.ofReal (min 1 c) := by
    have hv : volume (Ico (0 : ℝ) 1) = 1 := by simp
    have : {u : ℝ | u < c}ᶜ ∩ Ico 0 1 = Ico 0 1 \ ({u : ℝ | u < c} ∩ Ico 0 1) := by
      ext u; simp only [mem_inter_iff, mem_compl_iff, mem_setOf_eq, mem_Ico, mem_diff]; tauto
    rw [this, measure_diff inter_subset_right (hm.inter measurableSet_Ico).nullMeasurableSet (by rw [h1]; exact ENNReal.ofReal_ne_top), h1, hv]
  rw [h1, h2]

open Classical in
/-- Following one path: a draw decides whether it counts as a bounce. -/
theorem path_fresh {vA vB : Ray3 ℝ → Rng → ENNReal} {rA rB : Ray3 ℝ → Rng → Rng} (hA : Fresh vA rA) (hB : Fresh vB rB) {P : Ray3 ℝ → Ray3 ℝ} {W : Ray3 ℝ → ℝ} (hP : Measurable P) (hW : Measurable W) (c : ℝ) :
    ∃ v r, Fresh v r ∧ (∀ g, avg (v g) = ENNReal.ofReal (W g) * (ENNReal.ofReal (min 1 c) * avg (vA (P g)) + (1 - ENNReal.ofReal (min 1 c)) * avg (vB (P g)))) ∧
      (∀ g (rng : Rng), rng 0 < c → v g rng = ENNReal.ofReal (W g) * vA (P g) rng.tail ∧ r g rng = rA (P g) rng.tail) ∧
      ∀ g (rng : Rng), ¬ rng 0 < c → v g rng = ENNReal.ofReal (W g) * vB (P g) rng.tail ∧ r g rng = rB (P g) rng.tail := by
  let cut : Ray3 ℝ × ℝ → Bool := fun q => if q.2 < c then true else false
  have hcut : Disc cut := Disc.ite (measurableSet_lt measurable_snd measurable_const) (Disc.const _) (Disc.const _)
  let val : Bool → Ray3 ℝ × ℝ → Rng → ENNReal := fun b q r => if b then vA (P q.1) r else vB (P q.1) r
  let rest : Bool → Ray3 ℝ × ℝ → Rng → Rng := fun b q r => if b then rA (P q.1) r else rB (P q.1) r
  have hf : ∀ b, Fresh (val b) (rest b) := by
    intro b
    cases b with
    | true => exact hA.comp (f := fun q : Ray3 ℝ × ℝ => P q.1) (hP.comp measurable_fst)
    | false => exact hB.comp (f := fun q : Ray3 ℝ × ℝ => P q.1) (hP.comp measurable_fst)
  have hF := Fresh.choose hcut hf
  have hFd := hF.draw
  refine ⟨_, _, hFd.mul hW.ennreal_ofReal, fun g => ?_, fun g rng h => ?_, fun g rng h => ?_⟩
  · rw [hFd.mean_mul (fun g => ENNReal.ofReal (W g)) g, hF.mean_draw g]
    congr 1
    rw [← counted_mean]
    refine lintegral_congr fun u => ?_
    by_cases h : u < c
    · simp only [val, cut, h, if_true]
    · simp only [val, cut, h, if_false, Bool.false_eq_true]
  · simp only [val, rest, cut, h, if_true, and_self]
  · simp only [val, rest, cut, h, if_false, Bool.false_eq_true, and_self]

/-- What tracing does at a specular surface. -/
theorem trace_specular (rt : RayTracer) (fuel : Nat) (rng : Rng) (ray : TRay) {i : Nat} {bk : Bool} {tri : Tri ℝ} {m : Material ℝ} {it : Interaction} (h : FlatSide w s i bk tri m) (hs : m.specularOnly = true)
    (hc : w.cast ray = .ok (some (i, { ray with interaction := it }))) (ha : ArrivesAt ray.geometry bk tri it) :
    refTrace w rt (fuel + 1) rng ray = if ray.depth > rt.maxDepth then .ok ((Spectrum.black, 0), rng) else
      (m.getPossiblePaths (facing tri bk) (planePoint tri ray.geometry) { ray with interaction := it }).bind fun paths =>
        (refSpecular (refTrace w rt fuel) rt.countSpecularBounce paths.toList rng).bind fun (light, rng) => .ok ((light, (0 : ℝ)), rng) := by
  have h1 : m.emitsLight = false := by cases m <;> first | rfl | cases hs
  have hside : it.shading.side ≠ .NonApplicable := by rw [ha.side]; cases bk <;> simp [sideOf]
  have hm := h.material
  rw [← ha.side] at hm
  conv_lhs => unfold refTrace
  simp only [hc, Res.bind_ok, hside, if_false, hm]
  conv_lhs => unfold refSurface
  simp only [h1, hs, Bool.false_eq_true, if_false, if_true, h.normals, Res.ofOption_some, Res.bind_ok, ha.interp, ha.normal, ha.point]

/-- One path of a specular surface, followed. -/
theorem follow_path (self : RefTrace) (csb : ℝ) (ch : Spectrum ℝ → ℝ) (hch : ch ∈ [Spectrum.c0, Spectrum.c1, Spectrum.c2]) {vA vB v : Ray3 ℝ → Rng → ENNReal} {rA rB r : Ray3 ℝ → Rng → Rng} {P : Ray3 ℝ → Ray3 ℝ} {W : Ray3 ℝ → ℝ}
    (h1 : ∀ g (rng : Rng), rng 0 < csb → v g rng = ENNReal.ofReal (W g) * vA (P g) rng.tail ∧ r g rng = rA (P g) rng.tail) (h2 : ∀ g (rng : Rng), ¬ rng 0 < csb → v g rng = ENNReal.ofReal (W g) * vB (P g) rng.tail ∧ r g rng = rB (P g) rng.tail)
    (g : Ray3 ℝ) (p : TRay) (c : Spectrum ℝ) (hp : p.geometry = P g) (hc : ch c = W g) (hc0 : 0 ≤ ch c) (hA : 0 < csb → Gives self ch vA rA p.counted) (hB : csb < 1 → Gives self ch vB rB p) (rng : Rng) (hr : rng.Valid) :
    ∃ light, (self rng.gen.2 (if rng 0 < csb then { p with depth := p.depth + 1 } else p)) = .ok ((light, 0), r g rng) ∧ 0 ≤ ch (light * c) ∧ ENNReal.ofReal (ch (light * c)) = v g rng ∧ (r g rng).Valid := by
  have ht : rng.tail.Valid := fun j => hr (j + 1)
  by_cases h : rng 0 < csb
  · obtain ⟨light, k1, k2, k3, k4⟩ := hA (lt_of_le_of_lt (hr 0).1 h) rng.tail ht
    obtain ⟨e1, e2⟩ := h1 g rng h
    have hg : p.counted.geometry = P g := hp
    rw [hg] at k1 k3 k4
    refine ⟨light, ?_, ?_, ?_, by rw [e2]; exact k4⟩
    · rw [e2, ← k1, if_pos h]; rfl
    · rw [chan_mul hch]; exact mul_nonneg k2 hc0
    · rw [chan_mul hch, ENNReal.ofReal_mul k2, k3, e1, hc, mul_comm]
  · obtain ⟨light, k1, k2, k3, k4⟩ := hB (lt_of_le_of_lt (not_lt.1 h) (hr 0).2) rng.tail ht
    obtain ⟨e1, e2⟩ := h2 g rng h
    rw [hp] at k1 k3 k4
    refine ⟨light, ?_, ?_, ?_, by rw [e2]; exact k4⟩
    · rw [e2, ← k1, if_neg h]; rfl
    · rw [chan_mul hch]; exact mul_nonneg k2 hc0
    · rw [chan_mul hch, ENNReal.ofReal_mul k2, k3, e1, hc, mul_comm]

/-- Tracing at a specular surface as a random experiment, given the experiments of the paths it offers. -/
theorem specular_fresh (rt : RayTracer) (ch : Spectrum ℝ → ℝ) (hch : ch ∈ [Spectrum.c0, Spectrum.c1, Spectrum.c2]) {i : Nat} {bk : Bool} {tri : Tri ℝ} {m : Material ℝ} (hS : FlatSide w s i bk tri m) (hs : m.specularOnly = true) (hPh : m.Physical)
    (K d : Nat) (hdm : d ≤ rt.maxDepth) (v η : ℝ) (hη : 0 < η) (Q : TRay → Prop) (child : TRay → ENNReal)
    (hc : ∀ d' η', 0 < η' → ∃ valc restc, Fresh valc restc ∧ ∀ ray : TRay, Q ray → ray.depth = d' → ray.value = v → ray.refractionIndex = η' → Norm ray.geometry.direction = 1 → avg (valc ray.geometry) = child ray ∧ ∀ fuel, K ≤ fuel → Gives (refTrace w rt fuel) ch valc restc ray) :
    ∃ val rest, Fresh val rest ∧ ∀ (ray : TRay) (it : Interaction), w.cast ray = .ok (some (i, { ray with interaction := it })) → ArrivesAt ray.geometry bk tri it → Norm ray.geometry.direction = 1 → ray.depth = d → ray.value = v → ray.refractionIndex = η →
      (∀ x ∈ offered m { ray with interaction := it }, (0 < rt.countSpecularBounce → Q x.1.counted) ∧ (rt.countSpecularBounce < 1 → Q x.1)) →
      avg (val ray.geometry) = ((offered m { ray with interaction := it }).map fun x => ENNReal.ofReal (ch x.2) * (countedChance rt * child x.1.counted + (1 - countedChance rt) * child x.1)).sum ∧
      ∀ fuel, K + 1 ≤ fuel → Gives (refTrace w rt fuel) ch val rest ray := by
  have hN : Norm (facing tri bk) = 1 := hS.frame.n3
  obtain ⟨P1, P2, W1, W2, two, η2, hO⟩ := offers_exist hs hPh hN hη ch hch (measurable_planePoint tri measurable_id)
  obtain ⟨vA1, rA1, fA1, cA1⟩ := hc (d + 1) η hη
  obtain ⟨vB1, rB1, fB1, cB1⟩ := hc d η hη
  obtain ⟨vA2, rA2, fA2, cA2⟩ := hc (d + 1) η2 hO.index
  obtain ⟨vB2, rB2, fB2, cB2⟩ := hc d η2 hO.index
  obtain ⟨v1, r1, F1, M1, A1, B1⟩ := path_fresh fA1 fB1 hO.p1 hO.w1 rt.countSpecularBounce
  obtain ⟨v2, r2, F2, M2, A2, B2⟩ := path_fresh fA2 fB2 hO.p2 hO.w2 rt.countSpecularBounce
  let val2 : Bool → Ray3 ℝ → Rng → ENNReal := fun b g r => if b then v2 g r else 0
  let rest2 : Bool → Ray3 ℝ → Rng → Rng := fun b g r => if b then r2 g r else r
  have hF2 : ∀ b, Fresh (val2 b) (rest2 b) := by
    intro b
    cases b with
    | true => exact F2
    | false => exact Fresh.const measurable_const
  have FF := F1.add (Fresh.choose hO.disc hF2)
  -- the means of the children
  have mean : ∀ (p ray : TRay) (g : Ray3 ℝ) (η' : ℝ) (vA vB : Ray3 ℝ → Rng → ENNReal) (rA rB : Ray3 ℝ → Rng → Rng), Continues p ray g η' → ray.depth = d → ray.value = v → (0 < rt.countSpecularBounce → Q p.counted) → (rt.countSpecularBounce < 1 → Q p) →
      (∀ ray : TRay, Q ray → ray.depth = d + 1 → ray.value = v → ray.refractionIndex = η' → Norm ray.geometry.direction = 1 → avg (vA ray.geometry) = child ray ∧ ∀ fuel, K ≤ fuel → Gives (refTrace w rt fuel) ch vA rA ray) →
      (∀ ray : TRay, Q ray → ray.depth = d → ray.value = v → ray.refractionIndex = η' → Norm ray.geometry.direction = 1 → avg (vB ray.geometry) = child ray ∧ ∀ fuel, K ≤ fuel → Gives (refTrace w rt fuel) ch vB rB ray) →
      (ENNReal.ofReal (min 1 rt.countSpecularBounce) * avg (vA g) + (1 - ENNReal.ofReal (min 1 rt.countSpecularBounce)) * avg (vB g) = countedChance rt * child p.counted + (1 - countedChance rt) * child p) ∧
      (0 < rt.countSpecularBounce → ∀ fuel, K ≤ fuel → Gives (refTrace w rt fuel) ch vA rA p.counted) ∧ (rt.countSpecularBounce < 1 → ∀ fuel, K ≤ fuel → Gives (refTrace w rt fuel) ch vB rB p) := by
    intro p ray g η' vA vB rA rB hcont hd hv qA qB kA kB
    have hu : Norm p.geometry.direction = 1 := by rw [hcont.geometry]; exact hcont.unit
    have gA := fun h => kA p.counted (qA h) (by simp only [TRay.counted, hcont.depth, hd]) (by simp only [TRay.counted, hcont.value, hv]) hcont.index hu
    have gB := fun h => kB p (qB h) (by rw [hcont.depth, hd]) (by rw [hcont.value, hv]) hcont.index hu
    refine ⟨?_, fun h => (gA h).2, fun h => (gB h).2⟩
    unfold countedChance
    have hgA : p.counted.geometry = g := hcont.geometry
    congr 1
    · by_cases h : 0 < rt.countSpecularBounce
      · rw [← (gA h).1, hgA]
      · rw [ENNReal.ofReal_of_nonpos (min_le_of_right_le (not_lt.1 h))]; simp
    · by_cases h : rt.countSpecularBounce < 1
      · rw [← (gB h).1, hcont.geometry]
      · rw [min_eq_left (not_lt.1 h), ENNReal.ofReal_one, tsub_self]; simp
  refine ⟨_, _, FF, fun ray it hcast ha hu hd hv hi hQ => ?_⟩
  obtain ⟨p1, c1, K1, e1, n1, hcase⟩ := hO.paths { ray with interaction := it } hi hu ha.faces
  simp only at K1 e1 hcase
  rcases hcase with ⟨h2, hpaths⟩ | ⟨h2, p2, c2, K2, e2, n2, hpaths⟩
  · have hoff : offered m { ray with interaction := it } = [(p1, c1)] := by
      unfold offered
      simp only [ha.normal, ha.point]
      rw [show m.getPossiblePaths (facing tri bk) (planePoint tri ray.geometry) { ray with interaction := it } = _ from hpaths]
      rfl
    rw [hoff] at hQ ⊢
    obtain ⟨qA, qB⟩ := hQ _ (List.mem_singleton.2 rfl)
    obtain ⟨g1, g2, g3⟩ := mean p1 { ray with interaction := it } _ η vA1 vB1 rA1 rB1 K1 hd hv qA qB cA1 cB1
    refine ⟨?_, fun fuel hfu rng hr => ?_⟩
    · have := F1.mean_add (Fresh.choose hO.disc hF2) ray.geometry
      refine this.trans ?_
      simp only [val2, h2, Bool.false_eq_true, if_false, avg_const, add_zero, List.map_cons, List.map_nil, List.sum_cons, List.sum_nil]
      rw [M1, ← e1, g1]
    · obtain ⟨fuel, rfl⟩ : ∃ f, fuel = f + 1 := ⟨fuel - 1, by omega⟩
      obtain ⟨light, k1, k2, k3, k4⟩ := follow_path (refTrace w rt fuel) rt.countSpecularBounce ch hch A1 B1 ray.geometry p1 c1 K1.geometry e1 n1 (fun h => g2 h fuel (by omega)) (fun h => g3 h fuel (by omega)) rng hr
      refine ⟨light * c1 + Spectrum.black, ?_, ?_, ?_, ?_⟩
      · rw [trace_specular rt fuel rng ray hS hs hcast ha, if_neg (by omega), show m.getPossiblePaths (facing tri bk) (planePoint tri ray.geometry) { ray with interaction := it } = _ from hpaths]
        simp only [Res.bind_ok, Paths.toList, Option.toList_some, Option.toList_none, List.append_nil, refSpecular]
        rw [k1]
        simp only [Res.bind_ok, rest2, h2, Bool.false_eq_true, if_false]
      · rw [chan_add hch, chan_black hch, add_zero]; exact k2
      · rw [chan_add hch, chan_black hch, add_zero, k3]
        simp only [val2, h2, Bool.false_eq_true, if_false, add_zero]
      · simp only [rest2, h2, Bool.false_eq_true, if_false]
        exact k4
  · have hoff : offered m { ray with interaction := it } = [(p1, c1), (p2, c2)] := by
      unfold offered
      simp only [ha.normal, ha.point]
      rw [show m.getPossiblePaths (facing tri bk) (planePoint tri ray.geometry) { ray with interaction := it } = _ from hpaths]
      rfl
    rw [hoff] at hQ ⊢
    obtain ⟨qA, qB⟩ := hQ (p1, c1) (by simp)
    obtain ⟨qA', qB'⟩ := hQ (p2, c2) (by simp)
    obtain ⟨g1, g2, g3⟩ := mean p1 { ray with interaction := it } _ η vA1 vB1 rA1 rB1 K1 hd hv qA qB cA1 cB1
    obtain ⟨g1', g2', g3'⟩ := mean p2 { ray with interaction := it } _ η2 vA2 vB2 rA2 rB2 K2 hd hv qA' qB' cA2 cB2
    refine ⟨?_, fun fuel hfu rng hr => ?_⟩
    · have := F1.mean_add (Fresh.choose hO.disc hF2) ray.geometry
      refine this.trans ?_
      simp only [val2, h2, if_true, List.map_cons, List.map_nil, List.sum_cons, List.sum_nil, add_zero]
      rw [M1, M2, ← e1, ← e2, g1, g1']
    · obtain ⟨fuel, rfl⟩ : ∃ f, fuel = f + 1 := ⟨fuel - 1, by omega⟩
      obtain ⟨light, k1, k2, k3, k4⟩ := follow_path (refTrace w rt fuel) rt.countSpecularBounce ch hch A1 B1 ray.geometry p1 c1 K1.geometry e1 n1 (fun h => g2 h fuel (by omega)) (fun h => g3 h fuel (by omega)) rng hr
      obtain ⟨light', l1, l2, l3, l4⟩ := follow_path (refTrace w rt fuel) rt.countSpecularBounce ch hch A2 B2 ray.geometry p2 c2 K2.geometry e2 n2 (fun h => g2' h fuel (by omega)) (fun h => g3' h fuel (by omega)) _ k4
      refine ⟨light * c1 + (light' * c2 + Spectrum.black), ?_, ?_, ?_, ?_⟩
      · rw [trace_specular rt fuel rng ray hS hs hcast ha, if_neg (by omega), show m.getPossiblePaths (facing tri bk) (planePoint tri ray.geometry) { ray with interaction := it } = _ from hpaths]
        simp only [Res.bind_ok, Paths.toList, Option.toList_some, List.cons_append, List.nil_append, refSpecular]
        rw [k1]
        simp only [Res.bind_ok]
        rw [l1]
        simp only [Res.bind_ok, rest2, h2, if_true]
      · rw [chan_add hch, chan_add hch, chan_black hch, add_zero]; exact add_nonneg k2 l2
      · rw [chan_add hch, chan_add hch, chan_black hch, add_zero, ENNReal.ofReal_add k2 l2, k3, l3]
        simp only [val2, h2, if_true]
      · simp only [rest2, h2, if_true]
        exact l4

/-- The two kinds of surfaces. -/
theorem FlatSide.kind (hW : w.SunlitGlazed s) {i : Nat} {bk : Bool} {tri : Tri ℝ} {m : Material ℝ} (h : FlatSide w s i bk tri m) : (∃ col r, MattSide w i bk tri m col r) ∨ m.specularOnly = true ∧ m.Physical := by
  obtain ⟨k, h1, h2⟩ := h.listed
  rcases hW.surfaces k m h1 h2 with ⟨col, r, h3, h4⟩ | h3
  · exact Or.inl ⟨col, r, h.triangle, h.material, h3, h4, h.frame, h.normals⟩
  · exact Or.inr h3

/-- The induction behind C123. -/
theorem glazed_fresh (hW : w.SunlitGlazed s) (rt : RayTracer) (hsh : 0 < rt.nShadowSamples) (ch : Spectrum ℝ → ℝ) (hch : ch ∈ [Spectrum.c0, Spectrum.c1, Spectrum.c2]) (n : Nat) :
    ∀ (d : Nat) (v η : ℝ), 0 ≤ v → 0 < η → ∃ val rest, Fresh val rest ∧ ∀ ray : TRay, w.EndsWithin rt n ray → ray.depth = d → ray.value = v → ray.refractionIndex = η → Norm ray.geometry.direction = 1 →
      avg (val ray.geometry) = glazedLight w rt ch n ray ∧ ∀ fuel, n + rt.nShadowSamples + rt.nAmbientSamples + 2 ≤ fuel → Gives (refTrace w rt fuel) ch val rest ray := by
  obtain ⟨code, hcode, hall⟩ := disc_flat hW.toSunlit
  have hb0 : 0 ≤ ch Spectrum.black := (chan_black hch).ge
  have hb1 : ENNReal.ofReal (ch Spectrum.black) = 0 := by rw [chan_black hch]; simp
  induction n with
  | zero => exact fun d v η hv hη => ⟨fun _ _ => 0, fun _ r => r, Fresh.const measurable_const, fun ray hE => hE.elim⟩
  | succ n ih =>
    intro d v η hv hη
    have each : ∀ κ : Option (Nat × Bool), ∃ val rest, Fresh val rest ∧ ∀ ray : TRay, code ray.geometry = κ → w.EndsWithin rt (n + 1) ray → ray.depth = d → ray.value = v → ray.refractionIndex = η → Norm ray.geometry.direction = 1 →
        avg (val ray.geometry) = glazedLight w rt ch (n + 1) ray ∧ ∀ fuel, n + 1 + rt.nShadowSamples + rt.nAmbientSamples + 2 ≤ fuel → Gives (refTrace w rt fuel) ch val rest ray := by
      intro κ
      by_cases hex : ∃ ray : TRay, Norm ray.geometry.direction = 1 ∧ code ray.geometry = κ
      swap
      · exact ⟨fun _ _ => 0, fun _ r => r, Fresh.const measurable_const, fun ray hκ _ _ _ _ hu => absurd ⟨ray, hu, hκ⟩ hex⟩
      obtain ⟨ray0, hu0, hκ0⟩ := hex
      rcases hall ray0 hu0 with ⟨hn0, -⟩ | ⟨i, bk, tri, m, -, hκ1, hS, -, -⟩
      · -- the ray misses everything
        refine ⟨fun _ _ => 0, fun _ r => r, Fresh.const measurable_const, fun ray hκ hE hd hval hi hu => ?_⟩
        have hc : w.cast ray = .ok none := by
          rcases hall ray hu with ⟨_, hc⟩ | ⟨i, bk, tri, m, it, h1, _⟩
          · exact hc
          · rw [hκ, ← hκ0, hn0] at h1; cases h1
        refine ⟨by unfold glazedLight; rw [hc]; exact avg_const 0, fun fuel hfu rng hr => ?_⟩
        obtain ⟨fuel, rfl⟩ : ∃ f, fuel = f + 1 := ⟨fuel - 1, by omega⟩
        refine ⟨Spectrum.black, ?_, hb0, hb1, hr⟩
        conv_lhs => unfold refTrace
        simp only [hc, Res.bind_ok, hW.sky]
      rw [hκ1] at hκ0
      have hfacts : ∀ ray : TRay, code ray.geometry = κ → Norm ray.geometry.direction = 1 → ∃ it, w.cast ray = .ok (some (i, { ray with interaction := it })) ∧ ArrivesAt ray.geometry bk tri it := by
        intro ray hκ hu
        rcases hall ray hu with ⟨h1, _⟩ | ⟨i', bk', tri', m', it, h1, hS', hc, ha⟩
        · rw [hκ, ← hκ0] at h1; cases h1
        · rw [hκ, ← hκ0] at h1
          simp only [Option.some.injEq, Prod.mk.injEq] at h1
          obtain ⟨rfl, rfl⟩ := h1
          have e := Option.some.inj (hS'.triangle.symm.trans hS.triangle)
          subst e
          exact ⟨it, hc, ha⟩
      by_cases hdm : d ≤ rt.maxDepth
      swap
      · -- too deep
        refine ⟨fun _ _ => 0, fun _ r => r, Fresh.const measurable_const, fun ray hκ hE hd hval hi hu => ?_⟩
        obtain ⟨it, hcast, ha⟩ := hfacts ray hκ hu
        have hmat := hS.material
        rw [← ha.side] at hmat
        have hdeep : rt.maxDepth < ray.depth := by omega
        refine ⟨?_, fun fuel hfu rng hr => ?_⟩
        · rw [avg_const]
          unfold glazedLight
          simp only [hcast, hmat, hdeep, if_true]
        · obtain ⟨fuel, rfl⟩ : ∃ f, fuel = f + 1 := ⟨fuel - 1, by omega⟩
          refine ⟨Spectrum.black, ?_, hb0, hb1, hr⟩
          rcases hS.kind hW with ⟨col, r, hM⟩ | ⟨hs, -⟩
          · rw [trace_matt rt fuel rng ray hM hcast ha, if_pos hdeep]
          · rw [trace_specular rt fuel rng ray hS hs hcast ha, if_pos hdeep]
      rcases hS.kind hW with ⟨col, r, hM⟩ | ⟨hs, hPh⟩
      · -- a matt surface
        obtain ⟨-, hsp, hmc⟩ := matt_only_flags hM.matt
        obtain ⟨valc, restc, hFc, hc⟩ := ih (d + 1) (v * col.radiance) η (mul_nonneg hv (radiance_nonneg' hM.nonneg)) hη
        obtain ⟨val, rest, hF, hp⟩ := matt_fresh hW.toSunlit rt hsh ch hch hM n d hdm v hv (fun ray => w.EndsWithin rt n ray ∧ ray.refractionIndex = η) (glazedLight w rt ch n) hFc (fun ray hQ hd hval hu => hc ray hQ.1 hd hval hQ.2 hu)
        refine ⟨val, rest, hF, fun ray hκ hE hd hval hi hu => ?_⟩
        obtain ⟨it, hcast, ha⟩ := hfacts ray hκ hu
        have hmat := hS.material
        rw [← ha.side] at hmat
        unfold World.EndsWithin at hE
        simp only [hcast, hmat, hsp, Bool.false_eq_true, if_false] at hE
        obtain ⟨h1, h2⟩ := hp ray it hcast ha hd hval (fun l hl => ⟨hE (by omega) l hl, hi⟩)
        refine ⟨?_, h2⟩
        have hnd : ¬ rt.maxDepth < d := by omega
        rw [h1]
        conv_rhs => unfold glazedLight
        simp only [hcast, hmat, hsp, hval, hd, hnd, Bool.false_eq_true, if_false]
      · -- a mirror, a pane or a dielectric
        obtain ⟨val, rest, hF, hp⟩ := specular_fresh rt ch hch hS hs hPh (n + rt.nShadowSamples + rt.nAmbientSamples + 2) d hdm v η hη (w.EndsWithin rt n) (glazedLight w rt ch n) (fun d' η' hη' => ih d' v η' hv hη')
        refine ⟨val, rest, hF, fun ray hκ hE hd hval hi hu => ?_⟩
        obtain ⟨it, hcast, ha⟩ := hfacts ray hκ hu
        have hmat := hS.material
        rw [← ha.side] at hmat
        unfold World.EndsWithin at hE
        simp only [hcast, hmat, hs, if_true] at hE
        obtain ⟨h1, h2⟩ := hp ray it hcast ha hu hd hval hi (hE (by omega))
        refine ⟨?_, fun fuel hfu => h2 fuel (by omega)⟩
        have hnd : ¬ rt.maxDepth < ray.depth := by omega
        rw [h1]
        conv_rhs => unfold glazedLight
        simp only [hcast, hmat, hs, hnd, if_true, if_false]
    choose val rest hF hprop using each
    exact ⟨fun g => val (code g) g, fun g => rest (code g) g, Fresh.choose hcode hF, fun ray => hprop (code ray.geometry) ray rfl⟩

/-- **C123**: in a scene of matt surfaces, mirrors, panes of glass and dielectrics under suns, the average of what `trace_ray` brings back along a ray is the light of the equation, whenever the paths from that ray end within some number of
steps. -/
theorem C123_mean_light (hW : w.SunlitGlazed s) (rt : RayTracer) (hsh : 0 < rt.nShadowSamples) (ch : Spectrum ℝ → ℝ) (hch : ch ∈ [Spectrum.c0, Spectrum.c1, Spectrum.c2]) (rays : List TRay) (hlen : rt.maxDepth < rays.length)
    (ray : TRay) (hu : Norm ray.geometry.direction = 1) (hval : 0 ≤ ray.value) (hindex : 0 < ray.refractionIndex) (n : Nat) (hE : w.EndsWithin rt n ray) (fuel : Nat) (hfuel : n + rt.nShadowSamples + rt.nAmbientSamples + 2 ≤ fuel) :
    ∫⁻ r, seenLight (traceRay w rt fuel ⟨r, rays⟩ ray) ch ∂randomNumbers = glazedLight w rt ch n ray := by
  obtain ⟨val, rest, hF, h⟩ := glazed_fresh hW rt hsh ch hch n ray.depth ray.value ray.refractionIndex hval hindex
  obtain ⟨h1, h2⟩ := h ray hE rfl rfl rfl hu
  rw [← h1]
  refine avg_congr fun r hr => ?_
  obtain ⟨light, k1, _, k3, _⟩ := h2 fuel hfuel r hr
  rw [seen_of_ref rt fuel r rays hlen ray ch k1, k3]

theorem offered_depth (m : Material ℝ) (arrived : TRay) : ∀ x ∈ offered m arrived, x.1.depth = arrived.depth := by
  intro x hx
  unfold offered at hx
  cases hp : m.getPossiblePaths arrived.interaction.shading.normal arrived.interaction.point arrived with
  | ok p => rw [hp] at hx; exact (paths_depth m _ _ _ p hp) x hx
  | panic => rw [hp] at hx; cases hx
  | diverge => rw [hp] at hx; cases hx

/-- When every bounce counts, all paths end. -/
theorem counted_ends (hW : w.Sunlit s) (rt : RayTracer) (hcsb : 1 ≤ rt.countSpecularBounce) (k : Nat) : ∀ ray : TRay, ray.depth + k = rt.maxDepth + 1 → w.EndsWithin rt (k + 1) ray := by
  induction k with
  | zero =>
    intro ray hd
    unfold World.EndsWithin
    split
    · split
      · exact fun h => absurd h (by omega)
      · trivial
    · trivial
  | succ k ih =>
    intro ray hd
    unfold World.EndsWithin
    split
    · rename_i i arrived hcast
      have harr : arrived.depth = ray.depth := by
        rcases hW.renders.cast_cases ray with ⟨h, _⟩ | ⟨_, _, _, _, h, _⟩
        · rw [h] at hcast; cases hcast
        · rw [h] at hcast
          simp only [Res.ok.injEq, Option.some.injEq, Prod.mk.injEq] at hcast
          rw [← hcast.2]
      split
      · intro _
        split_ifs
        · exact fun x hx => ⟨fun _ => ih _ (by simp only [TRay.counted, offered_depth _ _ x hx, harr]; omega), fun h => absurd h (not_lt.2 hcsb)⟩
        · exact fun l _ => ih _ (by simp only [TRay.onward, harr]; omega)
      · trivial
    · trivial

/-- **C123**, when every bounce counts: for every ray. -/
theorem C123_every_bounce_counts (hW : w.SunlitGlazed s) (rt : RayTracer) (hsh : 0 < rt.nShadowSamples) (hcsb : 1 ≤ rt.countSpecularBounce) (ch : Spectrum ℝ → ℝ) (hch : ch ∈ [Spectrum.c0, Spectrum.c1, Spectrum.c2]) (rays : List TRay)
    (hlen : rt.maxDepth < rays.length) (ray : TRay) (hu : Norm ray.geometry.direction = 1) (hval : 0 ≤ ray.value) (hindex : 0 < ray.refractionIndex) (hdep : ray.depth ≤ rt.maxDepth + 1) (fuel : Nat)
    (hfuel : rt.maxDepth + rt.nShadowSamples + rt.nAmbientSamples + 4 ≤ fuel) :
    ∫⁻ r, seenLight (traceRay w rt fuel ⟨r, rays⟩ ray) ch ∂randomNumbers = glazedLight w rt ch (rt.maxDepth + 2 - ray.depth) ray := by
  have h := counted_ends hW.toSunlit rt hcsb (rt.maxDepth + 1 - ray.depth) ray (by omega)
  rw [show rt.maxDepth + 1 - ray.depth + 1 = rt.maxDepth + 2 - ray.depth by omega] at h
  exact C123_mean_light hW rt hsh ch hch rays hlen ray hu hval hindex _ h fuel (by omega)

/-- The equation does not mention the numbers of samples. -/
theorem glazed_settings (rt rt' : RayTracer) (hoff : (rt.maxDepth = 0 ∨ rt.nAmbientSamples = 0) ↔ (rt'.maxDepth = 0 ∨ rt'.nAmbientSamples = 0)) (hd : rt.maxDepth = rt'.maxDepth) (hlim : rt.limitWeight = rt'.limitWeight)
    (hcsb : rt.countSpecularBounce = rt'.countSpecularBounce) (ch : Spectrum ℝ → ℝ) (n : Nat) : ∀ ray : TRay, (w.EndsWithin rt n ray → w.EndsWithin rt' n ray) ∧ glazedLight w rt ch n ray = glazedLight w rt' ch n ray := by
  have hf : ∀ d v, followChance rt d v = followChance rt' d v := by
    intro d v
    unfold followChance
    simp only [hoff, hlim]
  have hcc : countedChance rt = countedChance rt' := by unfold countedChance; rw [hcsb]
  induction n with
  | zero => exact fun ray => ⟨id, rfl⟩
  | succ n ih =>
    intro ray
    constructor
    · intro hE
      unfold World.EndsWithin at hE ⊢
      split at hE
      · split at hE
        · intro hd'
          have hE := hE (by rw [hd]; exact hd')
          split_ifs at hE ⊢
          · exact fun x hx => ⟨fun h => (ih _).1 ((hE x hx).1 (by rw [hcsb]; exact h)), fun h => (ih _).1 ((hE x hx).2 (by rw [hcsb]; exact h))⟩
          · exact fun l hl => (ih _).1 (hE l hl)
        · trivial
      · trivial
    · unfold glazedLight
      simp only [hd, hcc, hf, fun ray => (ih ray).2]

/-- **C123**: the mean does not depend on the numbers of shadow and ambient samples. -/
theorem C123_sample_counts (hW : w.SunlitGlazed s) (rt rt' : RayTracer) (hsh : 0 < rt.nShadowSamples) (hsh' : 0 < rt'.nShadowSamples) (hamb : 0 < rt.nAmbientSamples) (hamb' : 0 < rt'.nAmbientSamples) (hd : rt.maxDepth = rt'.maxDepth)
    (hlim : rt.limitWeight = rt'.limitWeight) (hcsb : rt.countSpecularBounce = rt'.countSpecularBounce) (ch : Spectrum ℝ → ℝ) (hch : ch ∈ [Spectrum.c0, Spectrum.c1, Spectrum.c2]) (rays : List TRay) (hlen : rt.maxDepth < rays.length)
    (ray : TRay) (hu : Norm ray.geometry.direction = 1) (hval : 0 ≤ ray.value) (hindex : 0 < ray.refractionIndex) (n : Nat) (hE : w.EndsWithin rt n ray) (fuel : Nat) (hfuel : n + rt.nShadowSamples + rt.nAmbientSamples + 2 ≤ fuel)
    (hfuel' : n + rt'.nShadowSamples + rt'.nAmbientSamples + 2 ≤ fuel) :
    ∫⁻ r, seenLight (traceRay w rt fuel ⟨r, rays⟩ ray) ch ∂randomNumbers = ∫⁻ r, seenLight (traceRay w rt' fuel ⟨r, rays⟩ ray) ch ∂randomNumbers := by
  have h := glazed_settings (w := w) rt rt' (by rw [hd]; simp [hamb.ne', hamb'.ne']) hd hlim hcsb ch n ray
  rw [C123_mean_light hW rt hsh ch hch rays hlen ray hu hval hindex n hE fuel hfuel, C123_mean_light hW rt' hsh' ch hch rays (by rw [← hd]; exact hlen) ray hu hval hindex n (h.1 hE) fuel hfuel', h.2]

/-! ### Few mirrors and panes in a row -/

/-- A ray that ends within `n` steps ends within more. -/
theorem ends_mono (rt : RayTracer) {n n' : Nat} (h : n ≤ n') : ∀ ray : TRay, w.EndsWithin rt n ray → w.EndsWithin rt n' ray := by
  induction n generalizing n' with
  | zero => exact fun ray hE => hE.elim
  | succ n ih =>
    obtain ⟨n', rfl⟩ : ∃ k, n' = k + 1 := ⟨n' - 1, by omega⟩
    intro ray hE
    unfold World.EndsWithin at hE ⊢
    split at hE
    · split at hE
      · intro hd
        have hE := hE hd
        split_ifs at hE ⊢
        · exact fun x hx => ⟨fun h => ih (by omega) _ ((hE x hx).1 h), fun h => ih (by omega) _ ((hE x hx).2 h)⟩
        · exact fun l hl => ih (by omega) _ (hE l hl)
      · trivial
    · trivial

/-- The paths a specular surface offers to a ray that arrives at its side are unit rays in a medium of positive index. -/
theorem offered_unit {i : Nat} {bk : Bool} {tri : Tri ℝ} {m : Material ℝ} (hS : FlatSide w s i bk tri m) (hs : m.specularOnly = true) (hPh : m.Physical) {ray : TRay} {it : Interaction} (hη : 0 < ray.refractionIndex) (ha : ArrivesAt ray.geometry bk tri it)
    (hu : Norm ray.geometry.direction = 1) : ∀ x ∈ offered m { ray with interaction := it }, Norm x.1.geometry.direction = 1 ∧ 0 < x.1.refractionIndex := by
  obtain ⟨P1, P2, W1, W2, two, η2, hO⟩ := offers_exist hs hPh hS.frame.n3 hη Spectrum.c0 (by simp) (measurable_planePoint tri measurable_id)
  obtain ⟨p1, c1, K1, -, -, hcase⟩ := hO.paths { ray with interaction := it } rfl hu ha.faces
  have u1 : Norm p1.geometry.direction = 1 := by rw [K1.geometry]; exact K1.unit
  have i1 : 0 < p1.refractionIndex := by rw [K1.index]; exact hη
  rcases hcase with ⟨h2, hpaths⟩ | ⟨h2, p2, c2, K2, -, -, hpaths⟩
  · have hoff : offered m { ray with interaction := it } = [(p1, c1)] := by
      unfold offered
      simp only [ha.normal, ha.point]
      rw [show m.getPossiblePaths (facing tri bk) (planePoint tri ray.geometry) { ray with interaction := it } = _ from hpaths]
      rfl
    rw [hoff]
    intro x hx
    rw [List.mem_singleton.1 hx]
    exact ⟨u1, i1⟩
  · have hoff : offered m { ray with interaction := it } = [(p1, c1), (p2, c2)] := by
      unfold offered
      simp only [ha.normal, ha.point]
      rw [show m.getPossiblePaths (facing tri bk) (planePoint tri ray.geometry) { ray with interaction := it } = _ from hpaths]
      rfl
    rw [hoff]
    intro x hx
    simp only [List.mem_cons, List.not_mem_nil, or_false] at hx
    rcases hx with rfl | rfl
    · exact ⟨u1, i1⟩
    · exact ⟨by rw [K2.geometry]; exact K2.unit, by rw [K2.index]; exact hO.index⟩

/-- Paths end when there are never more than `b` specular surfaces in a row. -/
theorem rows_end (hW : w.SunlitGlazed s) (rt : RayTracer) (b : Nat) (hrows : ∀ ray : TRay, Norm ray.geometry.direction = 1 → 0 < ray.refractionIndex → w.SpecularRow b ray) (k : Nat) :
    ∀ (j : Nat) (ray : TRay), Norm ray.geometry.direction = 1 → 0 < ray.refractionIndex → ray.depth + k = rt.maxDepth + 1 → w.SpecularRow j ray → w.EndsWithin rt (k * (b + 1) + j + 1) ray := by
  obtain ⟨code, -, hall⟩ := disc_flat hW.toSunlit
  induction k with
  | zero =>
    intro j ray _ _ hd _
    unfold World.EndsWithin
    split
    · split
      · exact fun h => absurd h (by omega)
      · trivial
    · trivial
  | succ k ihk =>
    intro j
    induction j with
    | zero =>
      intro ray hu hi hd hrow
      rcases hall ray hu with ⟨_, hc⟩ | ⟨i, bk, tri, m, it, h1, hS, hc, ha⟩
      · unfold World.EndsWithin; simp only [hc]
      · have hmat := hS.material
        rw [← ha.side] at hmat
        unfold World.SpecularRow at hrow
        simp only [hc, hmat] at hrow
        unfold World.EndsWithin
        simp only [hc, hmat, hrow, Bool.false_eq_true, if_false]
        intro _ l hl
        have hu' : Norm (TRay.onward { ray with interaction := it } m l).geometry.direction = 1 := by
          have hl2 : l.x ^ 2 + l.y ^ 2 + l.z ^ 2 = 1 := by
            have := Dot_self_of_norm hl; simp only [Dot] at this; nlinarith
          have := (world_unit hS.frame hl2).1
          rw [world_eq (along tri) (across tri bk) (facing tri bk) l.x l.y l.z] at this
          simp only [TRay.onward, ha.normal, ha.dpdu, ha.dpdv]
          exact this
        have := ihk b _ hu' hi (by simp only [TRay.onward]; omega) (hrows _ hu' hi)
        exact ends_mono rt (by nlinarith) _ this
    | succ j ihj =>
      intro ray hu hi hd hrow
      rcases hall ray hu with ⟨_, hc⟩ | ⟨i, bk, tri, m, it, h1, hS, hc, ha⟩
      · unfold World.EndsWithin; simp only [hc]
      · have hmat := hS.material
        rw [← ha.side] at hmat
        unfold World.SpecularRow at hrow
        simp only [hc, hmat] at hrow
        unfold World.EndsWithin
        simp only [hc, hmat]
        intro _
        rcases hS.kind hW with ⟨col, r, hM⟩ | ⟨hs, hPh⟩
        · obtain ⟨-, hsp, -⟩ := matt_only_flags hM.matt
          simp only [hsp, Bool.false_eq_true, if_false]
          intro l hl
          have hu' : Norm (TRay.onward { ray with interaction := it } m l).geometry.direction = 1 := by
            have hl2 : l.x ^ 2 + l.y ^ 2 + l.z ^ 2 = 1 := by
              have := Dot_self_of_norm hl; simp only [Dot] at this; nlinarith
            have := (world_unit hS.frame hl2).1
            rw [world_eq (along tri) (across tri bk) (facing tri bk) l.x l.y l.z] at this
            simp only [TRay.onward, ha.normal, ha.dpdu, ha.dpdv]
            exact this
          have := ihk b _ hu' hi (by simp only [TRay.onward]; omega) (hrows _ hu' hi)
          exact ends_mono rt (by nlinarith) _ this
        · simp only [hs, if_true] at hrow ⊢
          intro x hx
          obtain ⟨u, ix⟩ := offered_unit hS hs hPh hi ha hu x hx
          have hdx := offered_depth _ _ x hx
          refine ⟨fun _ => ?_, fun _ => ?_⟩
          · have := ihk b x.1.counted u ix (by simp only [TRay.counted, hdx]; omega) (hrows _ u ix)
            exact ends_mono rt (by nlinarith) _ this
          · exact ends_mono rt (by omega) _ (ihj x.1 u ix (by rw [hdx]; exact hd) (hrow trivial x hx))

/-- **C123**, for scenes in which no path meets more than `b` mirrors, panes or dielectrics in a row: for every ray, however rarely bounces count. -/
theorem C123_few_in_a_row (hW : w.SunlitGlazed s) (rt : RayTracer) (hsh : 0 < rt.nShadowSamples) (b : Nat) (hrows : ∀ ray : TRay, Norm ray.geometry.direction = 1 → 0 < ray.refractionIndex → w.SpecularRow b ray) (ch : Spectrum ℝ → ℝ)
    (hch : ch ∈ [Spectrum.c0, Spectrum.c1, Spectrum.c2]) (rays : List TRay) (hlen : rt.maxDepth < rays.length) (ray : TRay) (hu : Norm ray.geometry.direction = 1) (hval : 0 ≤ ray.value) (hindex : 0 < ray.refractionIndex) (hdep : ray.depth ≤ rt.maxDepth + 1) (fuel : Nat)
    (hfuel : (rt.maxDepth + 2) * (b + 1) + rt.nShadowSamples + rt.nAmbientSamples + 2 ≤ fuel) :
    ∫⁻ r, seenLight (traceRay w rt fuel ⟨r, rays⟩ ray) ch ∂randomNumbers = glazedLight w rt ch ((rt.maxDepth + 2) * (b + 1)) ray := by
  have h := rows_end hW rt b hrows (rt.maxDepth + 1 - ray.depth) b ray hu hindex (by omega) (hrows ray hu hindex)
  have hle : (rt.maxDepth + 1 - ray.depth) * (b + 1) + b + 1 ≤ (rt.maxDepth + 2) * (b + 1) := by
    have := Nat.mul_le_mul_right (b + 1) (show rt.maxDepth + 1 - ray.depth + 1 ≤ rt.maxDepth + 2 by omega)
    have e := Nat.add_mul (rt.maxDepth + 1 - ray.depth) 1 (b + 1)
    omega
  exact C123_mean_light hW rt hsh ch hch rays hlen ray hu hval hindex _ (ends_mono rt hle ray h) fuel hfuel

end Rendering
