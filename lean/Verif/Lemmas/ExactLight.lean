import Verif.Props.RenderingEquation
import Verif.Spec.ExactLight

/-!
# Lemmas for C122
-/

set_option linter.unusedSectionVars false
namespace Rendering

open MeasureTheory Set

variable {w : World} {s : Scene ℝ}

theorem abs_dot_le_one {a b : Vec3 ℝ} (ha : Norm a = 1) (hb : Norm b = 1) : |Dot a b| ≤ 1 := by
  have h1 := Dot_self_of_norm ha
  have h2 := Dot_self_of_norm hb
  simp only [Dot] at h1 h2 ⊢
  rw [abs_le]
  constructor <;> nlinarith [sq_nonneg (a.x - b.x), sq_nonneg (a.y - b.y), sq_nonneg (a.z - b.z), sq_nonneg (a.x + b.x), sq_nonneg (a.y + b.y), sq_nonneg (a.z + b.z)]

/-- The suns of a scene show a bounded amount of light on matt surfaces, in proportion to their colour. -/
theorem suns_bounded (hR : w.Renders s) (hext : w.ext.PerpSpec) (ch : Spectrum ℝ → ℝ) (hch : ch ∈ [Spectrum.c0, Spectrum.c1, Spectrum.c2]) (suns : List (Object ℝ)) (hsuns : ∀ sun ∈ suns, ∃ direction angle L D, w.IsSun s sun direction angle L D ∧ 0 ≤ ch L) :
    ∃ E : ℝ, 0 ≤ E ∧ ∀ (m : Material ℝ) (col : Spectrum ℝ) (r : ℝ), m ∈ [Material.plastic col 0 r, Material.metal col 0 r] → 0 ≤ ch col → ∀ N : Vec3 ℝ, Norm N = 1 →
      ∀ (p : Vec3 ℝ) (ray : TRay) (e1 e2 : Vec3 ℝ) (acc : Spectrum ℝ) (rng : Rng), rng.Valid →
        ∃ v rng', w.lightsLoop 2 m ray 1 (p + N.scale (1 / 1000)) N e1 e2 suns acc rng = .ok (v, rng') ∧ rng'.Valid ∧ ch v ≤ ch acc + ch col / Real.pi * E := by
  induction suns with
  | nil => exact ⟨0, le_rfl, fun m col r _ _ N _ p ray e1 e2 acc rng hv => ⟨acc, rng, rfl, hv, by simp⟩⟩
  | cons sun rest ih =>
    obtain ⟨E, hE, h⟩ := ih fun x hx => hsuns x (List.mem_cons_of_mem _ hx)
    obtain ⟨direction, angle, L, D, hS, hL⟩ := hsuns sun (List.mem_cons_self ..)
    have hc1 : 0 ≤ 1 - Real.cos (angle / 2) := by linarith [Real.cos_le_one (angle / 2)]
    have hpi := Real.pi_pos
    refine ⟨ch L * (2 * Real.pi * (1 - Real.cos (angle / 2))) + E, by positivity, fun m col r hm hcol N hN p ray e1 e2 acc rng hv => ?_⟩
    obtain ⟨f1, f2, hf, hloop⟩ := sun_loop_gives hR hext hS m col r hm ch hch hcol hL N
    obtain ⟨v, x, h1, h2, h3, h4⟩ := hloop 1 one_pos p ray e1 e2 1 2 acc rng le_rfl (by norm_num) hv
    obtain ⟨v', rng', k1, k2, k3⟩ := h m col r hm hcol N hN p ray e1 e2 v _ (repeatRest_drop 1 p rng hv)
    refine ⟨v', rng', ?_, k2, ?_⟩
    · rw [Nat.sub_self] at h1
      unfold World.lightsLoop
      rw [h1, Res.bind_ok]
      exact k1
    · have hx : x ≤ ch col / Real.pi * (ch L * (2 * Real.pi * (1 - Real.cos (angle / 2)))) := by
        simp only [repeatVal, add_zero, Nat.cast_one, div_one] at h4
        have hb : sunSample w D (Real.tan (angle / 2)) (ch col / Real.pi * ch L * (2 * Real.pi * (1 - Real.cos (angle / 2)))) N f1 f2 direction.normalized p (rng 0, rng 1) ≤ ch col / Real.pi * (ch L * (2 * Real.pi * (1 - Real.cos (angle / 2)))) := by
          unfold sunSample
          have hK : 0 ≤ ch col / Real.pi * (ch L * (2 * Real.pi * (1 - Real.cos (angle / 2)))) := by positivity
          split_ifs
          · have := abs_dot_le_one hN (towards_unit hf (Real.tan (angle / 2)) (rng 0, rng 1))
            calc _ = ch col / Real.pi * (ch L * (2 * Real.pi * (1 - Real.cos (angle / 2)))) * |Dot N (towards f1 f2 direction.normalized (Real.tan (angle / 2)) (rng 0, rng 1))| := by ring
              _ ≤ _ := mul_le_of_le_one_right hK this
          · exact hK
        have := ENNReal.ofReal_le_ofReal hb
        rw [← h4] at this
        exact (ENNReal.ofReal_le_ofReal_iff (by positivity)).1 this
      rw [mul_add]
      linarith

/-- The suns of a matt scene show a bounded amount of light. -/
theorem sunlight_bounded (hW : w.SunlitMatt s) (ch : Spectrum ℝ → ℝ) (hch : ch ∈ [Spectrum.c0, Spectrum.c1, Spectrum.c2]) : ∃ E : ℝ, 0 ≤ E ∧
    ∀ (ray : TRay) i arrived m, Norm ray.geometry.direction = 1 → w.cast ray = .ok (some (i, arrived)) → w.materialAt arrived.interaction.shading.side i = .ok m → sunlightAt w m arrived ch ≤ ENNReal.ofReal (ch m.colour) * ENNReal.ofReal E := by
  have hnn : ∀ c : Spectrum ℝ, c.Nonneg → 0 ≤ ch c := by
    intro c hc
    simp only [List.mem_cons, List.not_mem_nil, or_false] at hch
    rcases hch with rfl | rfl | rfl
    · exact hc.1
    · exact hc.2.1
    · exact hc.2.2
  obtain ⟨E, hE, h⟩ := suns_bounded hW.renders hW.perp ch hch s.distantLights (fun sun hs => by
    obtain ⟨d, a, L, D, h1, h2⟩ := hW.suns sun hs
    exact ⟨d, a, L, D, h1, hnn _ h2⟩)
  refine ⟨E / Real.pi, by positivity, fun ray i arrived m hu hc hm => ?_⟩
  obtain ⟨code, -, hall⟩ := disc_side hW
  rcases hall ray hu with ⟨_, h'⟩ | ⟨i', bk, tri, m', col, r, it, _, hS, h', ha⟩
  · rw [hc] at h'; cases h'
  rw [hc] at h'
  simp only [Res.ok.injEq, Option.some.injEq, Prod.mk.injEq] at h'
  obtain ⟨rfl, rfl⟩ := h'
  simp only at hm
  have hmm := hS.material
  rw [← ha.side, hm] at hmm
  cases hmm
  obtain ⟨-, -, hcc⟩ := matt_only_flags hS.matt
  have hN : Norm it.shading.normal = 1 := by rw [ha.normal]; exact hS.frame.n3
  have hcol := hnn _ hS.nonneg
  unfold sunlightAt
  rw [← ENNReal.ofReal_mul (by rw [hcc]; exact hcol), hcc]
  calc _ ≤ avg fun _ => ENNReal.ofReal (ch col * (E / Real.pi)) := ?_
    _ = _ := avg_const _
  refine lintegral_mono_ae ?_
  have : ∀ᵐ r ∂randomNumbers, Rng.Valid r := valid_almost_surely
  filter_upwards [this] with rng hv
  obtain ⟨v, rng', k1, k2, k3⟩ := h m col r hS.matt hcol it.shading.normal hN it.point { ray with interaction := it } it.shading.dpdu it.shading.dpdv Spectrum.black rng hv
  have hb : Spectrum.black + v = v := by ext <;> simp [Spectrum.black, Spectrum.gray]
  have e : w.localIllumination 2 m { ray with interaction := it } rng 1 = .ok (v, rng') := by
    unfold World.localIllumination
    rw [hW.renders.same.2.1, hW.lamps, hW.renders.same.2.2]
    simp only [World.sampleLightArray, World.lightsLoop, TRay.getTriad, Res.bind_ok, k1, hb]
  rw [e]
  simp only [brought]
  refine ENNReal.ofReal_le_ofReal ?_
  rw [chan_black hch, zero_add] at k3
  calc _ ≤ _ := k3
    _ = _ := by ring

end Rendering
