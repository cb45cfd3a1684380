import Verif.Lemmas.Noise
import Verif.Lemmas.MeasurableCast
import Verif.Props.SunShadow

/-!
# Direct sunlight as a random experiment
-/

set_option linter.unusedSectionVars false
namespace Rendering

open MeasureTheory Set

variable {w : World} {s : Scene ℝ}

theorem chan_add {ch : Spectrum ℝ → ℝ} (hch : ch ∈ [Spectrum.c0, Spectrum.c1, Spectrum.c2]) (u v : Spectrum ℝ) : ch (u + v) = ch u + ch v := by
  simp only [List.mem_cons, List.not_mem_nil, or_false] at hch
  rcases hch with rfl | rfl | rfl <;> rfl

theorem chan_black {ch : Spectrum ℝ → ℝ} (hch : ch ∈ [Spectrum.c0, Spectrum.c1, Spectrum.c2]) : ch Spectrum.black = 0 := by
  simp only [List.mem_cons, List.not_mem_nil, or_false] at hch
  rcases hch with rfl | rfl | rfl <;> rfl

theorem chan_mul {ch : Spectrum ℝ → ℝ} (hch : ch ∈ [Spectrum.c0, Spectrum.c1, Spectrum.c2]) (u v : Spectrum ℝ) : ch (u * v) = ch u * ch v := by
  simp only [List.mem_cons, List.not_mem_nil, or_false] at hch
  rcases hch with rfl | rfl | rfl <;> rfl

theorem chan_scale {ch : Spectrum ℝ → ℝ} (hch : ch ∈ [Spectrum.c0, Spectrum.c1, Spectrum.c2]) (u : Spectrum ℝ) (k : ℝ) : ch (u.scale k) = ch u * k := by
  simp only [List.mem_cons, List.not_mem_nil, or_false] at hch
  rcases hch with rfl | rfl | rfl <;> rfl

theorem chan_divBy {ch : Spectrum ℝ → ℝ} (hch : ch ∈ [Spectrum.c0, Spectrum.c1, Spectrum.c2]) (u : Spectrum ℝ) (k : ℝ) : ch (u.divBy k) = ch u / k := by
  simp only [List.mem_cons, List.not_mem_nil, or_false] at hch
  rcases hch with rfl | rfl | rfl <;> rfl

/-- One shadow ray to the sun: it finds the sun exactly when the way is free. -/
theorem intersect_sun_free (hR : w.Renders s) {sun : Object ℝ} {direction : Vec3 ℝ} {angle : ℝ} {L : Spectrum ℝ} {D : ℝ} (hS : w.IsSun s sun direction angle L D) (pt v : Vec3 ℝ) (hv : Norm v = 1)
    (hc : Real.cos (angle / 2) < Dot v direction.normalized) :
    (¬ w.scene.unobstructedDistance w.env ⟨pt, v⟩ D [] = .ok true ∧ w.intersectLight sun ⟨pt, v⟩ = .ok (some (Spectrum.black, 0))) ∨
    (w.scene.unobstructedDistance w.env ⟨pt, v⟩ D [] = .ok true ∧ w.intersectLight sun ⟨pt, v⟩ = .ok (some (L, sourceSolidAnglePdf angle))) := by
  obtain ⟨info, hi, hD, hL⟩ := hS.met pt v hv hc
  have hside : info.side ≠ .NonApplicable := by
    intro h; rw [h] at hL; simp [lightColour] at hL
  have hpdf : sun.primitive.solidAnglePdf info ⟨pt, v⟩ = .ok (sourceSolidAnglePdf angle) := by rw [hS.primitive]; rfl
  unfold World.intersectLight
  rw [hi]
  simp only [distSq_eq, hD]
  obtain ⟨free, e, -, -⟩ := C03_unobstructed w.env hR.lawful hR.box s w.scene hR.aligned hR.fits hR.built ⟨pt, v⟩ D []
  rw [e, Res.bind_ok]
  cases free with
  | false => left; simp
  | true =>
    right
    simp only [Bool.not_true, Bool.false_eq_true, if_false, true_and]
    cases hs : info.side with
    | NonApplicable => exact absurd hs hside
    | Front =>
      rw [hs] at hL
      simp only [lightColour, Option.map_eq_some_iff] at hL
      obtain ⟨m, hm, rfl⟩ := hL
      simp only [hR.same.1, hm, Res.ofOption_some, Res.bind_ok, hpdf]
    | Back =>
      rw [hs] at hL
      simp only [lightColour, Option.map_eq_some_iff] at hL
      obtain ⟨m, hm, rfl⟩ := hL
      simp only [hR.same.1, hm, Res.ofOption_some, Res.bind_ok, hpdf]

theorem discMap_measurable' (R : ℝ) : Measurable (discMap R) := discMap_measurable R

theorem towards_vec_measurable (f1 f2 a : Vec3 ℝ) (R : ℝ) : Measurable (towards f1 f2 a R) := by
  unfold towards
  have h := discMap_measurable R
  have h1 : Measurable fun d => (discMap R d).1 := measurable_fst.comp h
  have h2 : Measurable fun d => (discMap R d).2 := measurable_snd.comp h
  fun_prop

/-- The value of one shadow ray towards a sun, in one channel, per unit of the weight `K`. -/
noncomputable def sunSample (w : World) (D R K : ℝ) (N f1 f2 a : Vec3 ℝ) (p : Vec3 ℝ) (d : ℝ × ℝ) : ℝ := by
  classical
  exact if w.scene.unobstructedDistance w.env ⟨p + N.scale (1 / 1000), towards f1 f2 a R d⟩ D [] = .ok true then K * |Dot N (towards f1 f2 a R d)| else 0

theorem sunSample_measurable (hR : w.Renders s) (hbox : w.env.bvh.MeasurableBoxTest) (D R K : ℝ) (N f1 f2 a : Vec3 ℝ) : Measurable fun q : Vec3 ℝ × (ℝ × ℝ) => sunSample w D R K N f1 f2 a q.1 q.2 := by
  classical
  unfold sunSample
  have ht : Measurable fun q : Vec3 ℝ × (ℝ × ℝ) => towards f1 f2 a R q.2 := (towards_vec_measurable f1 f2 a R).comp measurable_snd
  have hray : Measurable fun q : Vec3 ℝ × (ℝ × ℝ) => (⟨q.1 + N.scale (1 / 1000), towards f1 f2 a R q.2⟩ : Ray3 ℝ) := by fun_prop
  refine Measurable.ite ((disc_free hR hbox D).comp hray _) ?_ measurable_const
  exact measurable_const.mul (_root_.continuous_abs.measurable.comp (measurable_Dot measurable_const ht))

/-- One sample of a sun as a random experiment with the surface point as parameter. -/
theorem sun_fresh (hR : w.Renders s) (hbox : w.env.bvh.MeasurableBoxTest) (D R K : ℝ) (N f1 f2 a : Vec3 ℝ) :
    Fresh (fun p (r : Rng) => ENNReal.ofReal (sunSample w D R K N f1 f2 a p (r 0, r 1))) (fun _ (r : Rng) => r.drop 2) := by
  have hm := (sunSample_measurable hR hbox D R K N f1 f2 a).ennreal_ofReal
  exact (Fresh.const hm).draw2

open Classical in
theorem sun_loop_gives (hR : w.Renders s) (hext : w.ext.PerpSpec) {sun : Object ℝ} {direction : Vec3 ℝ} {angle : ℝ} {L : Spectrum ℝ} {D : ℝ} (hS : w.IsSun s sun direction angle L D)
    (m : Material ℝ) (col : Spectrum ℝ) (r : ℝ) (hm : m ∈ [Material.plastic col 0 r, Material.metal col 0 r]) (ch : Spectrum ℝ → ℝ) (hch : ch ∈ [Spectrum.c0, Spectrum.c1, Spectrum.c2]) (hcol : 0 ≤ ch col) (hL : 0 ≤ ch L) (N : Vec3 ℝ) :
    ∃ f1 f2, Frame f1 f2 direction.normalized ∧ ∀ (n : Nat), 0 < n → ∀ (p : Vec3 ℝ) (ray : TRay) (e1 e2 : Vec3 ℝ) (k fuel : Nat) (acc : Spectrum ℝ) (rng : Rng), k ≤ n → k < fuel → rng.Valid →
      ∃ v x, w.lightLoop m ray n (p + N.scale (1 / 1000)) N e1 e2 sun fuel (n - k) acc rng = .ok (v, repeatRest (fun (_ : Vec3 ℝ) (r : Rng) => r.drop 2) k p rng) ∧ 0 ≤ x ∧ ch v = ch acc + x ∧
        ENNReal.ofReal x = repeatVal (fun p (r : Rng) => ENNReal.ofReal (sunSample w D (Real.tan (angle / 2)) (ch col / Real.pi * ch L * (2 * Real.pi * (1 - Real.cos (angle / 2))) / n) N f1 f2 direction.normalized p (r 0, r 1)))
          (fun (_ : Vec3 ℝ) (r : Rng) => r.drop 2) k p rng := by
  obtain ⟨f1, f2, hf, hdir⟩ := source_sample w.ext hext direction angle hS.direction_ne
  refine ⟨f1, f2, hf, ?_⟩
  have ha0 : 0 < angle / 2 := by linarith [hS.angle_pos]
  have ha1 : angle / 2 < Real.pi / 2 := by linarith [hS.angle_lt]
  have hs0 : 0 < Real.sin (angle / 2) := Real.sin_pos_of_pos_of_lt_pi ha0 (by linarith [Real.pi_pos])
  have hc : 0 < Real.cos (angle / 2) := Real.cos_pos_of_mem_Ioo ⟨by linarith, ha1⟩
  have hc1 : Real.cos (angle / 2) < 1 := by nlinarith [Real.sin_sq_add_cos_sq (angle / 2), Real.cos_le_one (angle / 2)]
  have hpi := Real.pi_pos
  have hpdf : ¬ sourceSolidAnglePdf angle < 1 / 10 ^ 18 := by
    unfold sourceSolidAnglePdf uniformConePdf
    rw [not_lt]
    refine one_div_le_one_div_of_le (by nlinarith) ?_
    nlinarith [Real.pi_le_four]
  intro n hn p ray e1 e2 k
  set pt := p + N.scale (1 / 1000) with hpt
  set dir := towards f1 f2 direction.normalized (Real.tan (angle / 2)) with hdirdef
  set K := ch col / Real.pi * ch L * (2 * Real.pi * (1 - Real.cos (angle / 2))) / n with hK
  have hK0 : 0 ≤ K := by
    have : 0 ≤ 1 - Real.cos (angle / 2) := by linarith
    positivity
  have hs : ∀ d, 0 ≤ sunSample w D (Real.tan (angle / 2)) K N f1 f2 direction.normalized p d := by
    intro d
    unfold sunSample
    split_ifs
    · positivity
    · exact le_rfl
  induction k with
  | zero =>
    intro fuel acc rng _ hfu _
    obtain ⟨fuel, rfl⟩ := Nat.exists_eq_succ_of_ne_zero (Nat.pos_iff_ne_zero.1 hfu)
    unfold World.lightLoop
    rw [if_neg (by omega)]
    exact ⟨_, 0, rfl, le_rfl, by simp, by simp [repeatVal]⟩
  | succ k ih =>
    intro fuel acc rng hk hfu hv
    obtain ⟨fuel, rfl⟩ := Nat.exists_eq_succ_of_ne_zero (Nat.pos_iff_ne_zero.1 (lt_of_le_of_lt (Nat.zero_le _) hfu))
    unfold World.lightLoop
    rw [if_pos (by omega)]
    have hstep : n - (k + 1) + 1 = n - k := by omega
    have h0 : (rng 0, rng 1) ∈ unitSquare := ⟨⟨(hv 0).1, (hv 0).2⟩, ⟨(hv 1).1, (hv 1).2⟩⟩
    have hrv : (rng.drop 2).Valid := fun j => hv (j + 2)
    have hall := intersect_sun_free hR hS pt (dir (rng 0, rng 1)) (towards_unit hf _ _) (towards_in_cap hf (angle / 2) ha0 ha1 _ h0)
    rw [hS.primitive, hdir, Res.bind_ok]
    simp only
    rcases hall with ⟨hno, hI⟩ | ⟨hfree, hI⟩
    · simp only [← hdirdef, hI, Res.bind_ok]
      rw [if_pos (by norm_num), hstep]
      obtain ⟨v, x, h1, h2, h3, h4⟩ := ih fuel acc (rng.drop 2) (by omega) (by omega) hrv
      refine ⟨v, x, h1, h2, h3, ?_⟩
      simp only [repeatVal, sunSample, ← hdirdef, ← hpt, hno, if_false, ENNReal.ofReal_zero, zero_add]
      rw [h4]
      rfl
    · simp only [← hdirdef, hI, Res.bind_ok]
      rw [if_neg hpdf]
      simp only [World.lightTerm, matt_eval w.dt m col r hm, Res.bind_ok, hstep]
      obtain ⟨v, x, h1, h2, h3, h4⟩ := ih fuel (acc + ((L.scale |N.dot (dir (rng 0, rng 1))|) * (col.scale (1 / Real.pi))).divBy ((n : ℝ) * sourceSolidAnglePdf angle)) (rng.drop 2) (by omega) (by omega) hrv
      have hterm : ch (((L.scale |N.dot (dir (rng 0, rng 1))|) * (col.scale (1 / Real.pi))).divBy ((n : ℝ) * sourceSolidAnglePdf angle)) = sunSample w D (Real.tan (angle / 2)) K N f1 f2 direction.normalized p (rng 0, rng 1) := by
        rw [chan_divBy hch, chan_mul hch, chan_scale hch, chan_scale hch]
        simp only [sunSample, ← hdirdef, ← hpt, hfree, if_true]
        have hp : sourceSolidAnglePdf angle = 1 / (2 * Real.pi * (1 - Real.cos (angle / 2))) := rfl
        have hne : 2 * Real.pi * (1 - Real.cos (angle / 2)) ≠ 0 := by
          have : 0 < 1 - Real.cos (angle / 2) := by linarith
          positivity
        have hdot : N.dot (dir (rng 0, rng 1)) = Dot N (dir (rng 0, rng 1)) := rfl
        have hn' : (n : ℝ) ≠ 0 := by positivity
        rw [hp, hdot, hK]
        field_simp
      refine ⟨v, sunSample w D (Real.tan (angle / 2)) K N f1 f2 direction.normalized p (rng 0, rng 1) + x, h1, add_nonneg (hs _) h2, ?_, ?_⟩
      · rw [h3, chan_add hch, hterm]; ring
      · rw [ENNReal.ofReal_add (hs _) h2, h4]
        rfl

theorem repeatRest_drop (k : Nat) (p : Vec3 ℝ) (rng : Rng) (hv : rng.Valid) : (repeatRest (fun (_ : Vec3 ℝ) (r : Rng) => r.drop 2) k p rng).Valid := by
  induction k generalizing rng with
  | zero => exact hv
  | succ k ih => exact ih _ fun j => hv (j + 2)

/-- The light of all the suns, as a random experiment with the surface point as parameter; its mean does not depend on the number of shadow rays, its noise falls with it. -/
theorem suns_noisy (hR : w.Renders s) (hext : w.ext.PerpSpec) (hbox : w.env.bvh.MeasurableBoxTest) (m : Material ℝ) (col : Spectrum ℝ) (r : ℝ) (hm : m ∈ [Material.plastic col 0 r, Material.metal col 0 r])
    (ch : Spectrum ℝ → ℝ) (hch : ch ∈ [Spectrum.c0, Spectrum.c1, Spectrum.c2]) (hcol : 0 ≤ ch col) (N : Vec3 ℝ) (suns : List (Object ℝ)) (hsuns : ∀ sun ∈ suns, ∃ direction angle L D, w.IsSun s sun direction angle L D ∧ 0 ≤ ch L) :
    ∃ M V : Vec3 ℝ → ENNReal, ∀ n : Nat, 0 < n → ∃ val rest, Fresh val rest ∧ (∀ p, avg (val p) = M p ∧ Noisy (val p) (V p / n)) ∧
      ∀ (p : Vec3 ℝ) (ray : TRay) (e1 e2 : Vec3 ℝ) (fuel : Nat) (acc : Spectrum ℝ) (rng : Rng), n < fuel → rng.Valid →
        ∃ v x, w.lightsLoop fuel m ray n (p + N.scale (1 / 1000)) N e1 e2 suns acc rng = .ok (v, rest p rng) ∧ 0 ≤ x ∧ ch v = ch acc + x ∧ ENNReal.ofReal x = val p rng ∧ (rest p rng).Valid := by
  induction suns with
  | nil =>
    refine ⟨fun _ => 0, fun _ => 0, fun n _ => ⟨fun _ _ => 0, fun _ r => r, Fresh.const measurable_const, fun p => ⟨avg_const 0, by rw [ENNReal.zero_div]; exact Noisy.const 0⟩, ?_⟩⟩
    intro p ray e1 e2 fuel acc rng _ hv
    exact ⟨acc, 0, rfl, le_rfl, by simp, by simp, hv⟩
  | cons sun rest ih =>
    obtain ⟨M, V, hM⟩ := ih fun x hx => hsuns x (List.mem_cons_of_mem _ hx)
    obtain ⟨direction, angle, L, D, hS, hL⟩ := hsuns sun (List.mem_cons_self ..)
    obtain ⟨f1, f2, -, hloop⟩ := sun_loop_gives hR hext hS m col r hm ch hch hcol hL N
    set K := ch col / Real.pi * ch L * (2 * Real.pi * (1 - Real.cos (angle / 2))) with hK
    have hpi := Real.pi_pos
    have hK0 : 0 ≤ K := by
      have : 0 ≤ 1 - Real.cos (angle / 2) := by linarith [Real.cos_le_one (angle / 2)]
      positivity
    have hF1 := fun K' => sun_fresh hR hbox D (Real.tan (angle / 2)) K' N f1 f2 direction.normalized
    have hex := fun p => noisy_exists ((hF1 K).mval_at p)
    choose V1 hV1 using hex
    refine ⟨fun p => avg (fun r => ENNReal.ofReal (sunSample w D (Real.tan (angle / 2)) K N f1 f2 direction.normalized p (r 0, r 1))) + M p, fun p => V1 p + V p, fun n hn => ?_⟩
    obtain ⟨val, rst, hF, hmean, hrun⟩ := hM n hn
    refine ⟨_, _, ((hF1 (K / n)).iterate n).add hF, fun p => ?_, ?_⟩
    · have hn' : (0 : ℝ) < n := by exact_mod_cast hn
      have hne : (n : ENNReal) ≠ 0 := by exact_mod_cast hn.ne'
      have hnt : (n : ENNReal) ≠ ⊤ := ENNReal.natCast_ne_top n
      have e : ∀ r : Rng, ENNReal.ofReal (sunSample w D (Real.tan (angle / 2)) (K / n) N f1 f2 direction.normalized p (r 0, r 1)) = (n : ENNReal)⁻¹ * ENNReal.ofReal (sunSample w D (Real.tan (angle / 2)) K N f1 f2 direction.normalized p (r 0, r 1)) := by
        intro r
        rw [← ENNReal.ofReal_natCast, ← ENNReal.ofReal_inv_of_pos hn', ← ENNReal.ofReal_mul (inv_nonneg.2 hn'.le)]
        congr 1
        unfold sunSample
        split_ifs
        · field_simp
        · simp
      have hN1 : Noisy (fun r : Rng => ENNReal.ofReal (sunSample w D (Real.tan (angle / 2)) (K / n) N f1 f2 direction.normalized p (r 0, r 1))) ((n : ENNReal)⁻¹ ^ 2 * V1 p) := by
        simp only [e]
        exact (hV1 p).mul ((hF1 K).mval_at p) _
      have hNn := Noisy.iterate (hF1 (K / n)) (x := p) hN1 n
      refine ⟨?_, ?_⟩
      · rw [((hF1 (K / n)).iterate n).mean_add hF, (hF1 (K / n)).mean_iterate, (hmean p).1]
        congr 1
        simp only [e]
        have := (hF1 K).mean_mul (fun _ => (n : ENNReal)⁻¹) p
        rw [this, ← mul_assoc, ENNReal.mul_inv_cancel hne hnt, one_mul]
      · have hsum := Noisy.add ((hF1 (K / n)).iterate n) hF (x := p) hNn (hmean p).2
        have hV : (n : ENNReal) * ((n : ENNReal)⁻¹ ^ 2 * V1 p) + V p / n = (V1 p + V p) / n := by
          rw [sq, mul_assoc, ← mul_assoc, ENNReal.mul_inv_cancel hne hnt, one_mul, ENNReal.add_div, ENNReal.div_eq_inv_mul, ENNReal.div_eq_inv_mul]
        rw [hV] at hsum
        exact hsum
    · intro p ray e1 e2 fuel acc rng hfu hv
      obtain ⟨v, x, h1, h2, h3, h4⟩ := hloop n hn p ray e1 e2 n fuel acc rng le_rfl hfu hv
      rw [Nat.sub_self] at h1
      obtain ⟨v', x', k1, k2, k3, k4, k5⟩ := hrun p ray e1 e2 fuel v _ hfu (repeatRest_drop n p rng hv)
      refine ⟨v', x + x', ?_, add_nonneg h2 k2, by rw [k3, h3]; ring, ?_, k5⟩
      · unfold World.lightsLoop
        rw [h1, Res.bind_ok]
        exact k1
      · rw [ENNReal.ofReal_add h2 k2, h4, k4]

/-- The light of all the suns, as a random experiment with the surface point as parameter; its mean does not depend on the number of shadow rays. -/
theorem suns_fresh (hR : w.Renders s) (hext : w.ext.PerpSpec) (hbox : w.env.bvh.MeasurableBoxTest) (m : Material ℝ) (col : Spectrum ℝ) (r : ℝ) (hm : m ∈ [Material.plastic col 0 r, Material.metal col 0 r])
    (ch : Spectrum ℝ → ℝ) (hch : ch ∈ [Spectrum.c0, Spectrum.c1, Spectrum.c2]) (hcol : 0 ≤ ch col) (N : Vec3 ℝ) (suns : List (Object ℝ)) (hsuns : ∀ sun ∈ suns, ∃ direction angle L D, w.IsSun s sun direction angle L D ∧ 0 ≤ ch L) :
    ∃ M : Vec3 ℝ → ENNReal, ∀ n, 0 < n → ∃ val rest, Fresh val rest ∧ (∀ p, avg (val p) = M p) ∧
      ∀ (p : Vec3 ℝ) (ray : TRay) (e1 e2 : Vec3 ℝ) (fuel : Nat) (acc : Spectrum ℝ) (rng : Rng), n < fuel → rng.Valid →
        ∃ v x, w.lightsLoop fuel m ray n (p + N.scale (1 / 1000)) N e1 e2 suns acc rng = .ok (v, rest p rng) ∧ 0 ≤ x ∧ ch v = ch acc + x ∧ ENNReal.ofReal x = val p rng ∧ (rest p rng).Valid := by
  obtain ⟨M, V, h⟩ := suns_noisy hR hext hbox m col r hm ch hch hcol N suns hsuns
  refine ⟨M, fun n hn => ?_⟩
  obtain ⟨val, rest, h1, h2, h3⟩ := h n hn
  exact ⟨val, rest, h1, fun p => (h2 p).1, h3⟩

end Rendering
