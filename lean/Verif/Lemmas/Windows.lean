import Verif.Spec.Windows
import Verif.Lemmas.Redraw
import Verif.Lemmas.MeanBounce
import Verif.Props.RenderingEquation
import Verif.Props.BlackSky

/-!
# The ambient samples of a matt surface under a sky, as random experiments
-/

set_option linter.unusedSectionVars false
namespace Rendering

open MeasureTheory Set Classical

variable {w : World} {s : Scene ℝ} {X : Type} [MeasurableSpace X]

theorem Fresh.one {v : X → Rng → ENNReal} {rest : X → Rng → Rng} (h : Fresh v rest) : Fresh (fun _ _ => 1) rest where
  mval := measurable_const
  mrest := h.mrest
  keep := h.keep
  indep := fun x Φ hΦ => by rw [avg_const, one_mul]; simp only [one_mul]; exact h.keep x Φ hΦ

/-- One ambient sample of a matt surface. -/
theorem ambient_step (m : Material ℝ) (col : Spectrum ℝ) (r : ℝ) (hm : m ∈ [Material.plastic col 0 r, Material.metal col 0 r]) (ch : Spectrum ℝ → ℝ) (hch : ch ∈ [Spectrum.c0, Spectrum.c1, Spectrum.c2])
    (arriving : TRay) (hf : Frame arriving.interaction.shading.dpdu arriving.interaction.shading.dpdv arriving.interaction.shading.normal) (rng : Rng) (hv : rng.Valid) :
    Norm (arriving.onward m (cosDir (rng 1, rng 2))).geometry.direction = 1 ∧ ∃ part : Spectrum ℝ → Spectrum ℝ, (∀ light, ch (part light) = ch col * ch light) ∧
      ∀ (self : RefTrace) fuel n, refAmbient self m arriving (fuel + 1) (n + 1) rng = (self (rng.drop 3) (arriving.onward m (cosDir (rng 1, rng 2)))).bind fun x =>
        if x.1.2 > 0 then refAmbient self m arriving fuel (n + 1) x.2 else (refAmbient self m arriving fuel n x.2).bind fun y => .ok (part x.1.1 + y.1, y.2) := by
  have hmc : m.colour = col := by
    simp only [List.mem_cons, List.not_mem_nil, or_false] at hm
    rcases hm with rfl | rfl <;> rfl
  have hpi := Real.pi_pos
  obtain ⟨z, hz, hcos, hunit, -⟩ := matt_sample 0 m col r hm _ _ _ arriving.interaction.point hf arriving rng hv
  have hrad : (col.scale (1 / Real.pi)).radiance * z / (z / Real.pi) = col.radiance := by
    have : (col.scale (1 / Real.pi)).radiance = col.radiance / Real.pi := by
      simp [Spectrum.radiance, Spectrum.channels, Spectrum.scale, Spectrum.radianceCoefficients]; ring
    rw [this]; field_simp
  have harr : ({ arriving with geometry := ⟨arriving.interaction.point + arriving.interaction.shading.normal.scale (1 / 10 ^ 5), worldOf arriving.interaction.shading.dpdu arriving.interaction.shading.dpdv arriving.interaction.shading.normal (cosDir (rng 1, rng 2))⟩, depth := arriving.depth + 1, value := arriving.value * col.radiance } : TRay) = arriving.onward m (cosDir (rng 1, rng 2)) := by
    unfold TRay.onward
    rw [hmc]
  refine ⟨hunit, fun light => ((light * col.scale (1 / Real.pi)).scale z).divBy (z / Real.pi), fun light => ?_, fun self fuel n => ?_⟩
  · rw [chan_divBy hch, chan_scale hch, chan_mul hch, chan_scale hch]
    field_simp
  · obtain ⟨z', hz', hcos', -, hs⟩ := matt_sample fuel m col r hm _ _ _ arriving.interaction.point hf arriving rng hv
    have hzz : z' = z := hcos'.symm.trans hcos
    subst hzz
    conv_lhs => unfold refAmbient
    simp only [hs, Res.bind_ok, Vec3.dot_eq, hcos, abs_of_pos hz, hrad, harr]

/-- The trial of an ambient sample succeeds if the onward ray meets something. -/
def meetsOn (code : Ray3 ℝ → Option (Nat × Bool)) (N e1 e2 : Vec3 ℝ) (p : Vec3 ℝ) (r : Rng) : Prop := code ⟨p + N.scale (1 / 10 ^ 5), worldOf e1 e2 N (cosDir (r 1, r 2))⟩ ≠ none

/-- The ambient samples at a point of a matt surface, with those repeated that leave the scene. -/
theorem ambient_redraws (self : Nat → RefTrace) (m : Material ℝ) (col : Spectrum ℝ) (r : ℝ) (hm : m ∈ [Material.plastic col 0 r, Material.metal col 0 r]) (ch : Spectrum ℝ → ℝ) (hch : ch ∈ [Spectrum.c0, Spectrum.c1, Spectrum.c2]) (hcol : 0 ≤ ch col)
    (code : Ray3 ℝ → Option (Nat × Bool)) (valc badc : Ray3 ℝ → Rng → ENNReal) (restc : Ray3 ℝ → Rng → Rng) (arriving : TRay) (N e1 e2 p : Vec3 ℝ) (hN : arriving.interaction.shading.normal = N) (h1 : arriving.interaction.shading.dpdu = e1)
    (h2 : arriving.interaction.shading.dpdv = e2) (hp : arriving.interaction.point = p) (hf : Frame e1 e2 N)
    (hmiss : ∀ l, Norm (arriving.onward m l).geometry.direction = 1 → code (arriving.onward m l).geometry = none → ∃ light pdf, 0 < pdf ∧ ∀ rng fuel, self (fuel + 1) rng (arriving.onward m l) = .ok ((light, pdf), rng))
    (hself : ∀ l, Norm (arriving.onward m l).geometry.direction = 1 → code (arriving.onward m l).geometry ≠ none → ∀ rng : Rng, rng.Valid → badc (arriving.onward m l).geometry rng = 0 →
      ∃ light F, (∀ fuel, F ≤ fuel → self fuel rng (arriving.onward m l) = .ok ((light, 0), restc (arriving.onward m l).geometry rng)) ∧ 0 ≤ ch light ∧ ENNReal.ofReal (ch light) = valc (arriving.onward m l).geometry rng ∧ (restc (arriving.onward m l).geometry rng).Valid)
    (n : Nat) : ∀ rng : Rng, rng.Valid →
    repeatVal (redrawVal (meetsOn code N e1 e2) ⊤ (bounceVal badc 1 N e1 e2)) (redrawRest (meetsOn code N e1 e2) (bounceRest restc N e1 e2)) n p rng = 0 →
    ∃ sum F, (∀ f1 f2, F ≤ f1 → F ≤ f2 → refAmbient (self f1) m arriving f2 n rng = .ok (sum, repeatRest (redrawRest (meetsOn code N e1 e2) (bounceRest restc N e1 e2)) n p rng)) ∧ 0 ≤ ch sum ∧
      ENNReal.ofReal (ch sum) = repeatVal (redrawVal (meetsOn code N e1 e2) 0 (bounceVal valc (ENNReal.ofReal (ch col)) N e1 e2)) (redrawRest (meetsOn code N e1 e2) (bounceRest restc N e1 e2)) n p rng ∧
      (repeatRest (redrawRest (meetsOn code N e1 e2) (bounceRest restc N e1 e2)) n p rng).Valid := by
  have hf' : Frame arriving.interaction.shading.dpdu arriving.interaction.shading.dpdv arriving.interaction.shading.normal := by rw [hN, h1, h2]; exact hf
  have hgeo : ∀ l, (arriving.onward m l).geometry = ⟨p + N.scale (1 / 10 ^ 5), worldOf e1 e2 N l⟩ := by
    intro l; simp only [TRay.onward, hN, h1, h2, hp]
  -- samples that leave the scene
  have skip : ∀ (j : Nat) (rng : Rng), rng.Valid → tries (meetsOn code N e1 e2) p rng = some j → ∀ f1 f2 n, 1 ≤ f1 → refAmbient (self f1) m arriving (f2 + j) (n + 1) rng = refAmbient (self f1) m arriving f2 (n + 1) (rng.drop (3 * j)) := by
    intro j
    induction j with
    | zero => intro rng _ _ f1 f2 n _; rfl
    | succ j ih =>
      intro rng hv ht f1 f2 n hf1
      obtain ⟨f1, rfl⟩ : ∃ f, f1 = f + 1 := ⟨f1 - 1, by omega⟩
      have hno : ¬ meetsOn code N e1 e2 p rng := (tries_some.1 ht).1 0 (by omega)
      have ht' : tries (meetsOn code N e1 e2) p (rng.drop 3) = some j := by
        rw [tries_fail hno] at ht
        cases hq : tries (meetsOn code N e1 e2) p (rng.drop 3) with
        | none => rw [hq] at ht; cases ht
        | some i => rw [hq] at ht; simp at ht; rw [ht]
      obtain ⟨hu, part, -, hstep⟩ := ambient_step m col r hm ch hch arriving hf' rng hv
      have hnone : code (arriving.onward m (cosDir (rng 1, rng 2))).geometry = none := by
        rw [hgeo]
        unfold meetsOn at hno
        exact not_not.1 hno
      obtain ⟨light, pdf, hpdf, hall⟩ := hmiss _ hu hnone
      rw [← add_assoc, hstep (self (f1 + 1)), hall, Res.bind_ok]
      simp only [gt_iff_lt, hpdf, if_true]
      rw [ih (rng.drop 3) (fun k => hv (k + 3)) ht' (f1 + 1) f2 n (by omega), drop_drop', show 3 + 3 * j = 3 * (j + 1) by omega]
  induction n with
  | zero =>
    intro rng hv _
    refine ⟨Spectrum.black, 1, fun f1 f2 _ hf2 => ?_, (chan_black hch).ge, by rw [chan_black hch]; simp [repeatVal], hv⟩
    obtain ⟨f2, rfl⟩ : ∃ f, f2 = f + 1 := ⟨f2 - 1, by omega⟩
    rfl
  | succ n ih =>
    intro rng hv hbad
    simp only [repeatVal, add_eq_zero] at hbad
    obtain ⟨hb1, hb2⟩ := hbad
    cases ht : tries (meetsOn code N e1 e2) p rng with
    | none =>
      unfold redrawVal at hb1
      rw [ht] at hb1
      cases hb1
    | some j =>
      have hokj := (tries_some.1 ht).2
      have hvj : (rng.drop (3 * j)).Valid := fun k => hv (k + 3 * j)
      have hvj3 : ((rng.drop (3 * j)).drop 3).Valid := fun k => hvj (k + 3)
      obtain ⟨hu, part, hpart, hstep⟩ := ambient_step m col r hm ch hch arriving hf' (rng.drop (3 * j)) hvj
      set l := cosDir ((rng.drop (3 * j)) 1, (rng.drop (3 * j)) 2) with hl
      have hmeet : code (arriving.onward m l).geometry ≠ none := by rw [hgeo]; exact hokj
      have hbc : badc (arriving.onward m l).geometry ((rng.drop (3 * j)).drop 3) = 0 := by
        unfold redrawVal at hb1
        rw [ht] at hb1
        simp only [bounceVal, one_mul, ← hl, ← hgeo] at hb1
        exact hb1
      obtain ⟨light, F, k1, k2, k3, k4⟩ := hself l hu hmeet _ hvj3 hbc
      have hrest : redrawRest (meetsOn code N e1 e2) (bounceRest restc N e1 e2) p rng = restc (arriving.onward m l).geometry ((rng.drop (3 * j)).drop 3) := by
        unfold redrawRest
        rw [ht]
        simp only [bounceRest, ← hl, ← hgeo]
      have hvalj : redrawVal (meetsOn code N e1 e2) 0 (bounceVal valc (ENNReal.ofReal (ch col)) N e1 e2) p rng = ENNReal.ofReal (ch col) * valc (arriving.onward m l).geometry ((rng.drop (3 * j)).drop 3) := by
        unfold redrawVal
        rw [ht]
        simp only [bounceVal, ← hl, ← hgeo]
      rw [hrest] at hb2
      obtain ⟨sum, F', m1, m2, m3, m4⟩ := ih _ k4 hb2
      refine ⟨part light + sum, F + F' + j + 2, fun f1 f2 hf1 hf2 => ?_, ?_, ?_, ?_⟩
      · obtain ⟨f2, rfl⟩ : ∃ f, f2 = f + 1 + j := ⟨f2 - 1 - j, by omega⟩
        rw [skip j rng hv ht f1 (f2 + 1) n (by omega), hstep (self f1), k1 f1 (by omega), Res.bind_ok]
        simp only [gt_iff_lt, lt_irrefl, if_false]
        rw [m1 f1 f2 (by omega) (by omega), Res.bind_ok]
        simp only [repeatRest, hrest]
      · rw [chan_add hch, hpart]
        positivity
      · rw [chan_add hch, hpart, ENNReal.ofReal_add (by positivity) m2, ENNReal.ofReal_mul hcol, k3, m3]
        simp only [repeatVal, hrest, hvalj]
      · simp only [repeatRest, hrest]
        exact m4

theorem Fresh.zero {v : X → Rng → ENNReal} {rest : X → Rng → Rng} (h : Fresh v rest) : Fresh (fun _ _ => 0) rest where
  mval := measurable_const
  mrest := h.mrest
  keep := h.keep
  indep := fun x Φ hΦ => by rw [avg_const, zero_mul]; simp only [zero_mul]; exact avg_const 0

variable {code : Ray3 ℝ → Option (Nat × Bool)}

theorem meets_measurable (hcode : Disc code) : Measurable fun g => if code g = none then (0 : ENNReal) else 1 := Measurable.ite (hcode none) measurable_const measurable_const

theorem misses_measurable (hcode : Disc code) : Measurable fun g => if code g = none then (1 : ENNReal) else 0 := Measurable.ite (hcode none) measurable_const measurable_const

theorem meetsOn_measurable (hcode : Disc code) (N e1 e2 : Vec3 ℝ) : MeasurableSet {p : Vec3 ℝ × Rng | meetsOn code N e1 e2 p.1 p.2} := by
  have hd : Measurable fun p : Vec3 ℝ × Rng => cosDir (p.2 1, p.2 2) := measurable_cosDir.comp (((measurable_pi_apply 1).comp measurable_snd).prodMk ((measurable_pi_apply 2).comp measurable_snd))
  have ht : Measurable fun p : Vec3 ℝ × Rng => worldOf e1 e2 N (cosDir (p.2 1, p.2 2)) := measurable_worldOf e1 e2 N hd
  have hm : Measurable fun p : Vec3 ℝ × Rng => (⟨p.1 + N.scale (1 / 10 ^ 5), worldOf e1 e2 N (cosDir (p.2 1, p.2 2))⟩ : Ray3 ℝ) := by fun_prop
  exact (hm (hcode none)).compl

theorem trial_eq (valc : Ray3 ℝ → Rng → ENNReal) (k : ENNReal) (N e1 e2 : Vec3 ℝ) :
    (fun p r => if meetsOn code N e1 e2 p r then bounceVal valc k N e1 e2 p r else 0) = bounceVal (fun g r => (if code g = none then (0 : ENNReal) else 1) * valc g r) k N e1 e2 := by
  funext p r
  unfold meetsOn bounceVal
  by_cases h : code ⟨p + N.scale (1 / 10 ^ 5), worldOf e1 e2 N (cosDir (r 1, r 2))⟩ = none
  · simp [h]
  · simp [h]

theorem trial_fresh (hcode : Disc code) {valc : Ray3 ℝ → Rng → ENNReal} {restc : Ray3 ℝ → Rng → Rng} (hF : Fresh valc restc) (k : ENNReal) (N e1 e2 : Vec3 ℝ) :
    Fresh (fun p r => if meetsOn code N e1 e2 p r then bounceVal valc k N e1 e2 p r else 0) (bounceRest restc N e1 e2) := by
  rw [trial_eq]
  exact bounce_fresh (hF.mul (meets_measurable hcode)) k N e1 e2

theorem trial_one (hcode : Disc code) {valc : Ray3 ℝ → Rng → ENNReal} {restc : Ray3 ℝ → Rng → Rng} (hF : Fresh valc restc) (N e1 e2 : Vec3 ℝ) :
    Fresh (fun p r => if meetsOn code N e1 e2 p r then 1 else 0) (bounceRest restc N e1 e2) := by
  have := trial_fresh hcode hF.one 1 N e1 e2
  simpa [bounceVal] using this

theorem trial_mean (hcode : Disc code) {valc : Ray3 ℝ → Rng → ENNReal} {restc : Ray3 ℝ → Rng → Rng} (hF : Fresh valc restc) (k : ℝ) (hk : 0 ≤ k) (N e1 e2 p : Vec3 ℝ) :
    avg (fun r => if meetsOn code N e1 e2 p r then bounceVal valc (ENNReal.ofReal k) N e1 e2 p r else 0) =
      ENNReal.ofReal (k / Real.pi) * irradiance fun l => if code ⟨p + N.scale (1 / 10 ^ 5), worldOf e1 e2 N l⟩ = none then 0 else avg (valc ⟨p + N.scale (1 / 10 ^ 5), worldOf e1 e2 N l⟩) := by
  have h1 := congrFun (trial_eq (code := code) valc (ENNReal.ofReal k) N e1 e2) p
  have h1 : (fun r => if meetsOn code N e1 e2 p r then bounceVal valc (ENNReal.ofReal k) N e1 e2 p r else 0) = _ := h1
  rw [h1, bounce_mean (hF.mul (meets_measurable hcode)) k hk]
  congr 2
  funext l
  by_cases h : code ⟨p + N.scale (1 / 10 ^ 5), worldOf e1 e2 N l⟩ = none
  · simp only [h, if_true, zero_mul]; exact avg_const 0
  · simp only [h, if_false, one_mul]

/-- The chance that an ambient sample leaves the scene. -/
noncomputable def missChance (code : Ray3 ℝ → Option (Nat × Bool)) (N e1 e2 p : Vec3 ℝ) : ENNReal :=
  (irradiance fun l => if code ⟨p + N.scale (1 / 10 ^ 5), worldOf e1 e2 N l⟩ = none then 1 else 0) / ENNReal.ofReal Real.pi

theorem trial_redraws (hcode : Disc code) (N e1 e2 : Vec3 ℝ) : Redraws (meetsOn code N e1 e2) (missChance code N e1 e2) := by
  have hF := Fresh.const (misses_measurable hcode)
  refine ⟨meetsOn_measurable hcode N e1 e2, fun p Φ hΦ => ?_⟩
  have hB := bounce_fresh hF (ENNReal.ofReal 1) N e1 e2
  have hi := hB.indep p Φ hΦ
  have hm := bounce_mean hF 1 zero_le_one N e1 e2 p
  have hq : avg (bounceVal (fun (g : Ray3 ℝ) (_ : Rng) => if code g = none then (1 : ENNReal) else 0) (ENNReal.ofReal 1) N e1 e2 p) = missChance code N e1 e2 p := by
    rw [hm]
    unfold missChance
    rw [ENNReal.ofReal_div_of_pos Real.pi_pos, ENNReal.div_eq_inv_mul, ENNReal.div_eq_inv_mul, ENNReal.ofReal_one, mul_one]
    congr 2
    funext l
    exact avg_const _
  rw [hq] at hi
  rw [← hi]
  congr 1
  funext r
  unfold meetsOn bounceVal bounceRest
  by_cases h : code ⟨p + N.scale (1 / 10 ^ 5), worldOf e1 e2 N (cosDir (r 1, r 2))⟩ = none
  · simp [h]
  · simp [h]

theorem redraw_fresh (hcode : Disc code) {valc : Ray3 ℝ → Rng → ENNReal} {restc : Ray3 ℝ → Rng → Rng} (hF : Fresh valc restc) (k c : ENNReal) (N e1 e2 : Vec3 ℝ) :
    Fresh (redrawVal (meetsOn code N e1 e2) c (bounceVal valc k N e1 e2)) (redrawRest (meetsOn code N e1 e2) (bounceRest restc N e1 e2)) :=
  Fresh.redraw (trial_redraws hcode N e1 e2) (trial_one hcode hF N e1 e2) (bounce_fresh hF k N e1 e2).mval (trial_fresh hcode hF k N e1 e2) c

theorem redraw_mean (hcode : Disc code) {valc : Ray3 ℝ → Rng → ENNReal} {restc : Ray3 ℝ → Rng → Rng} (hF : Fresh valc restc) (k : ℝ) (hk : 0 ≤ k) (c : ENNReal) (N e1 e2 p : Vec3 ℝ) (hq : missChance code N e1 e2 p < 1) :
    avg (redrawVal (meetsOn code N e1 e2) c (bounceVal valc (ENNReal.ofReal k) N e1 e2) p) = (1 - missChance code N e1 e2 p)⁻¹ *
      (ENNReal.ofReal (k / Real.pi) * irradiance fun l => if code ⟨p + N.scale (1 / 10 ^ 5), worldOf e1 e2 N l⟩ = none then 0 else avg (valc ⟨p + N.scale (1 / 10 ^ 5), worldOf e1 e2 N l⟩)) := by
  rw [Fresh.mean_redraw (trial_redraws hcode N e1 e2) (bounce_fresh hF _ N e1 e2).mval c p hq, trial_mean hcode hF k hk]

theorem irradiance_congr' {L L' : Vec3 ℝ → ENNReal} (h : ∀ l, Norm l = 1 → 0 < l.z → L l = L' l) : irradiance L = irradiance L' := by
  unfold irradiance
  refine setLIntegral_congr_fun (measurableSet_Ioo.prod measurableSet_Ioo) fun p hp => ?_
  have hu : Norm (directionAt p.1 p.2) = 1 := by
    have h1 : 0 ≤ 1 - p.1 ^ 2 := by nlinarith [hp.1.1, hp.1.2]
    have h2 := Real.sq_sqrt h1
    have h3 := Real.sin_sq_add_cos_sq p.2
    refine Norm_eq_one ?_
    simp only [Dot, directionAt]
    calc _ = Real.sqrt (1 - p.1 ^ 2) ^ 2 * (Real.sin p.2 ^ 2 + Real.cos p.2 ^ 2) + p.1 ^ 2 := by ring
      _ = 1 := by rw [h2, h3]; ring
  simp only [h _ hu hp.1.1]

end Rendering
