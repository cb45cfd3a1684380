import Verif.Lemmas.Clearer
import Verif.Props.GlazedPicture

/-!
# C141: clearer glass and brighter paint never make a darker picture
-/

set_option linter.unusedSectionVars false
namespace Rendering

open MeasureTheory Set

variable {w : World} {s s' b' : Scene ℝ}

/-- One polarisation, one channel: a clearer pane transmits no less and reflects no less. -/
theorem pane_mono {r d e : ℝ} (hr : 0 ≤ r) (hr1 : r < 1) (hd : 0 ≤ d) (hde : d ≤ e) (he : e ≤ 1) :
    d * ((1 - r) ^ 2 / (1 - (d * r) ^ 2)) ≤ e * ((1 - r) ^ 2 / (1 - (e * r) ^ 2)) ∧
    r * (1 + (1 - 2 * r) * d ^ 2) / (1 - r * r * d ^ 2) ≤ r * (1 + (1 - 2 * r) * e ^ 2) / (1 - r * r * e ^ 2) := by
  have he0 : 0 ≤ e := hd.trans hde
  have hsq : d ^ 2 ≤ e ^ 2 := by gcongr
  have he2 : e ^ 2 ≤ 1 := by nlinarith
  have hr2 : r * r < 1 := by nlinarith
  have p1 : 0 < 1 - r * r * e ^ 2 := by nlinarith [mul_nonneg hr hr, sq_nonneg e]
  have p2 : 1 - r * r * e ^ 2 ≤ 1 - r * r * d ^ 2 := by nlinarith [mul_nonneg hr hr]
  have p3 : 0 < 1 - r * r * d ^ 2 := p1.trans_le p2
  constructor
  · have e1 : ∀ x : ℝ, 1 - (x * r) ^ 2 = 1 - r * r * x ^ 2 := fun x => by ring
    rw [e1, e1]
    have : (1 - r) ^ 2 / (1 - r * r * d ^ 2) ≤ (1 - r) ^ 2 / (1 - r * r * e ^ 2) := by gcongr
    exact mul_le_mul hde this (by positivity) he0
  · rw [div_le_div_iff₀ p3 p1]
    have : 0 ≤ (e ^ 2 - d ^ 2) * (r * (1 - r) ^ 2) := mul_nonneg (by linarith) (by positivity)
    nlinarith

theorem any_iff (colour : Spectrum ℝ) : (anyTransmission colour).2 = true ↔ 1 / 10 ^ 15 ≤ colour.c0 ∨ 1 / 10 ^ 15 ≤ colour.c1 ∨ 1 / 10 ^ 15 ≤ colour.c2 := by
  have hm : colour.maxChannel < minColour ↔ (colour.c0 < minColour ∧ colour.c1 < minColour ∧ colour.c2 < minColour) := by
    simp only [Spectrum.maxChannel, Spectrum.channels, List.drop_succ_cons, List.drop_zero, List.foldl_cons, List.foldl_nil]
    split_ifs <;> constructor <;> intro h <;> (try refine ⟨?_, ?_, ?_⟩) <;> (try linarith [h]) <;> linarith [h.1, h.2.1, h.2.2]
  unfold anyTransmission
  split_ifs with h
  · simp only [Bool.false_eq_true, false_iff]
    rw [hm] at h
    unfold minColour at h
    rintro (h' | h' | h') <;> linarith [h.1, h.2.1, h.2.2]
  · simp only [true_iff]
    rw [hm] at h
    unfold minColour at h
    by_contra hc
    push Not at hc
    exact h hc

/-- **C141, panes.** A clearer pane (that is not black to begin with) reflects no less and transmits no less of the light of any channel, from whatever side and at whatever angle it comes. -/
theorem C141_pane (c c' : Spectrum ℝ) (n : ℝ) (hcc : Brighter c c') (hf : c'.Fraction) (hn : 1 ≤ n) (hc : 1 / 10 ^ 15 ≤ c.c0 ∨ 1 / 10 ^ 15 ≤ c.c1 ∨ 1 / 10 ^ 15 ≤ c.c2) (N v : Vec3 ℝ) (hN : Dot N v ≠ 0) :
    (glassReflTrans c n N v).1.AtMost (glassReflTrans c' n N v).1 ∧ (glassReflTrans c n N v).2.AtMost (glassReflTrans c' n N v).2 := by
  have hpos : 0 < |Dot N v| := abs_pos.2 hN
  have hr0 : 0 < n := by linarith
  obtain ⟨hb, hall⟩ := glass_channel c n N v hpos hn
  obtain ⟨-, hall'⟩ := glass_channel c' n N v hpos hn
  have ha : (anyTransmission c).2 = true := (any_iff c).2 hc
  have ha' : (anyTransmission c').2 = true := (any_iff c').2 (hc.imp hcc.2.1.trans' (Or.imp hcc.2.2.1.trans' hcc.2.2.2.trans'))
  have hE := face_lt_one hpos (mul_pos hr0 hb)
  have hM := face_lt_one (mul_pos hr0 hpos) hb
  change 0 ≤ faceTE n _ _ ∧ faceTE n _ _ < 1 at hE
  change 0 ≤ faceTM n _ _ ∧ faceTM n _ _ < 1 at hM
  have key : ∀ ch ∈ channelOf, 0 ≤ ch c → ch c ≤ ch c' → ch c' ≤ 1 → ch (glassReflTrans c n N v).1 ≤ ch (glassReflTrans c' n N v).1 ∧ ch (glassReflTrans c n N v).2 ≤ ch (glassReflTrans c' n N v).2 := by
    intro ch hch h0 h1 h2
    obtain ⟨d, hd, hR, hT⟩ := hall ch hch
    obtain ⟨d', hd', hR', hT'⟩ := hall' ch hch
    rw [ha, if_pos rfl] at hd hT
    rw [ha', if_pos rfl] at hd' hT'
    have d0 : 0 ≤ d := by rw [hd]; exact Real.rpow_nonneg h0 _
    have d1 : d ≤ d' := by rw [hd, hd']; exact Real.rpow_le_rpow h0 h1 (by positivity)
    have d2 : d' ≤ 1 := by rw [hd']; exact Real.rpow_le_one (h0.trans h1) h2 (by positivity)
    obtain ⟨t1, r1⟩ := pane_mono hE.1 hE.2 d0 d1 d2
    obtain ⟨t2, r2⟩ := pane_mono hM.1 hM.2 d0 d1 d2
    rw [hR, hR', hT, hT']
    constructor <;> linarith
  obtain ⟨⟨a0, a1, a2⟩, b0, b1, b2⟩ := hcc
  obtain ⟨-, f0, f1, f2⟩ := hf
  have k0 := key Spectrum.c0 (by simp [channelOf]) a0 b0 f0
  have k1 := key Spectrum.c1 (by simp [channelOf]) a1 b1 f1
  have k2 := key Spectrum.c2 (by simp [channelOf]) a2 b2 f2
  exact ⟨⟨k0.1, k1.1, k2.1⟩, k0.2, k1.2, k2.2⟩

/-- The same ray with a larger weight and any colour. -/
def Beside (x y : TRay) : Prop := y = { x with value := y.value, colour := y.colour } ∧ 0 ≤ x.value ∧ x.value ≤ y.value

theorem sum_one {F F' : TRay → ENNReal} {ch : Spectrum ℝ → ℝ} {p p' : TRay} {c c' : Spectrum ℝ} (h : ch c ≤ ch c') (hF : F p ≤ F' p') : ENNReal.ofReal (ch c) * F p ≤ ENNReal.ofReal (ch c') * F' p' :=
  mul_le_mul' (ENNReal.ofReal_le_ofReal h) hF

/-- What is offered along the paths from a surface with a better colour. -/
theorem offered_clearer {m m' : Material ℝ} (hmm : m.Clearer m') (hs : m.specularOnly = true) (hPh : m.Physical) (ch : Spectrum ℝ → ℝ) (hch : ch ∈ [Spectrum.c0, Spectrum.c1, Spectrum.c2]) {x y : TRay} (hxy : Beside x y)
    (hN : Norm x.interaction.shading.normal = 1) (hu : Norm x.geometry.direction = 1) (hface : Dot x.interaction.shading.normal x.geometry.direction < 0) (hη : 0 < x.refractionIndex) (F F' : TRay → ENNReal)
    (hF : ∀ p ∈ offered m x, ∀ q, Beside p.1 q → F p.1 ≤ F' q) :
    ((offered m x).map fun p => ENNReal.ofReal (ch p.2) * F p.1).sum ≤ ((offered m' y).map fun p => ENNReal.ofReal (ch p.2) * F' p.1).sum := by
  obtain ⟨g, η, it, d, v, cx⟩ := x
  obtain ⟨g', η', it', d', v', cy⟩ := y
  obtain ⟨e, h0, hv⟩ := hxy
  simp only [TRay.mk.injEq, and_true, true_and] at e h0 hv
  obtain ⟨rfl, rfl, rfl, rfl⟩ := e
  simp only at hN hu hface hη
  have glassy : ∀ (c c' : Spectrum ℝ) (n : ℝ), (∀ p ∈ offered (.glass c n) ⟨g', η', it', d', v, cx⟩, ∀ q, Beside p.1 q → F p.1 ≤ F' q) → (glassReflTrans c n it'.shading.normal g'.direction).1.AtMost (glassReflTrans c' n it'.shading.normal g'.direction).1 → (glassReflTrans c n it'.shading.normal g'.direction).2.AtMost (glassReflTrans c' n it'.shading.normal g'.direction).2 →
      ((offered (.glass c n) ⟨g', η', it', d', v, cx⟩).map fun p => ENNReal.ofReal (ch p.2) * F p.1).sum ≤ ((offered (.glass c' n) ⟨g', η', it', d', v', cy⟩).map fun p => ENNReal.ofReal (ch p.2) * F' p.1).sum := by
    intro c c' n hF h1 h2
    have k1 := channel_atMost h1 hch
    have k2 := channel_atMost h2 hch
    simp only [offered, Material.getPossiblePaths, glassPaths] at hF ⊢
    by_cases hR : (glassReflTrans c n it'.shading.normal g'.direction).2.radiance > 0
    · have hR' : (glassReflTrans c' n it'.shading.normal g'.direction).2.radiance > 0 := lt_of_lt_of_le hR (radiance_atMost h2)
      simp only [hR, hR', if_true, Paths.toList, Option.toList_some, List.cons_append, List.nil_append, List.map_cons, List.map_nil, List.sum_cons, List.sum_nil, add_zero, List.mem_cons, List.not_mem_nil, or_false, forall_eq_or_imp, forall_eq] at hF ⊢
      exact add_le_add (sum_one k1 (hF.1 _ ⟨rfl, h0, hv⟩)) (sum_one k2 (hF.2 _ ⟨rfl, h0, hv⟩))
    · simp only [hR, if_false, Paths.toList, Option.toList_some, Option.toList_none, List.append_nil, List.map_cons, List.map_nil, List.sum_cons, List.sum_nil, add_zero, List.mem_cons, List.not_mem_nil, or_false, forall_eq] at hF ⊢
      split_ifs
      · simp only [Option.toList_some, List.cons_append, List.nil_append, List.map_cons, List.map_nil, List.sum_cons, List.sum_nil, add_zero]
        exact (sum_one k1 (hF _ ⟨rfl, h0, hv⟩)).trans le_self_add
      · simp only [Option.toList_some, Option.toList_none, List.append_nil, List.map_cons, List.map_nil, List.sum_cons, List.sum_nil, add_zero]
        exact sum_one k1 (hF _ ⟨rfl, h0, hv⟩)
  have tinted : ∀ (c c' : Spectrum ℝ) (n : ℝ), 0 < n → (∀ p ∈ offered (.dielectric c n) ⟨g', η', it', d', v, cx⟩, ∀ q, Beside p.1 q → F p.1 ≤ F' q) → ch c ≤ ch c' →
      ((offered (.dielectric c n) ⟨g', η', it', d', v, cx⟩).map fun p => ENNReal.ofReal (ch p.2) * F p.1).sum ≤ ((offered (.dielectric c' n) ⟨g', η', it', d', v', cy⟩).map fun p => ENNReal.ofReal (ch p.2) * F' p.1).sum := by
    intro c c' n hn hF hcc
    have hd : 0 < |g'.direction.dot it'.shading.normal| := by
      rw [Vec3.dot_eq, Dot_comm]
      exact abs_pos.2 hface.ne
    have hn2 : 0 < farIndex η' n := farIndex_pos hn
    have hsn := C44_snell ⟨g', η', it', d', v, cx⟩ it'.shading.normal n hN hu hη hn
    simp only at hsn
    obtain ⟨e1, e2, e3, hnone, hcosv⟩ := hsn
    have e : cosAndN ⟨g', η', it', d', v', cy⟩ it'.shading.normal n = cosAndN ⟨g', η', it', d', v, cx⟩ it'.shading.normal n := rfl
    simp only [offered, Material.getPossiblePaths, dielectricPaths, e] at hF ⊢
    cases hcs : (cosAndN ⟨g', η', it', d', v, cx⟩ it'.shading.normal n).2.2.2 with
    | none =>
      simp only [hcs, dielectricReflTrans, Paths.toList, Option.toList_some, Option.toList_none, List.append_nil, List.map_cons, List.map_nil, List.sum_cons, List.sum_nil, add_zero, List.mem_cons, List.not_mem_nil, or_false, forall_eq] at hF ⊢
      exact sum_one le_rfl (hF _ ⟨rfl, h0, hv⟩)
    | some c2 =>
      obtain ⟨hc2, -, -⟩ := hcosv c2 hcs
      rw [Vec3.dot_eq] at hd
      obtain ⟨r0, r1⟩ := reflectance_bound (n1 := η') (c1 := |Dot g'.direction it'.shading.normal|) (n2 := farIndex η' n) (c2 := c2) hη hn2 hd hc2
      simp only [hcs, dielectricReflTrans, Paths.toList, Option.toList_some, List.cons_append, List.nil_append, List.map_cons, List.map_nil, List.sum_cons, List.sum_nil, add_zero, List.mem_cons, List.not_mem_nil, or_false, forall_eq_or_imp, forall_eq] at hF ⊢
      refine add_le_add (sum_one le_rfl (hF.1 _ ⟨rfl, h0, hv⟩)) (sum_one ?_ (hF.2 _ ⟨rfl, h0, hv⟩))
      rw [e1, e2, e3]
      rw [chan_scale hch, chan_divBy hch, chan_scale hch, chan_scale hch, chan_divBy hch, chan_scale hch]
      have q : 0 ≤ (1 - fresnelReflectance η' |Dot g'.direction it'.shading.normal| (farIndex η' n) c2) * (farIndex η' n / η' * (farIndex η' n / η')) := mul_nonneg (by linarith) (mul_self_nonneg _)
      gcongr
  cases hmm with
  | plastic => cases hs
  | metal => cases hs
  | glass c c' n hcc hf hn hc =>
    obtain ⟨h1, h2⟩ := C141_pane c c' n hcc hf hn hc _ _ hface.ne
    exact glassy c c' n hF h1 h2
  | dielectric c c' n hcc => exact tinted c c' n hPh.2 hF (channel_atMost hcc.2 hch)
  | mirror c c' _ =>
    simp only [offered, Material.getPossiblePaths, mirrorPaths, mirrorBsdf, Paths.toList, Option.toList_some, Option.toList_none, List.append_nil, List.map_cons, List.map_nil, List.sum_cons, List.sum_nil, add_zero, List.mem_cons, List.not_mem_nil, or_false, forall_eq] at hF ⊢
    exact sum_one le_rfl (hF _ ⟨rfl, h0, hv⟩)
  | same =>
    cases m with
    | plastic => cases hs
    | metal => cases hs
    | light => cases hs
    | mirror c =>
      simp only [offered, Material.getPossiblePaths, mirrorPaths, mirrorBsdf, Paths.toList, Option.toList_some, Option.toList_none, List.append_nil, List.map_cons, List.map_nil, List.sum_cons, List.sum_nil, add_zero, List.mem_cons, List.not_mem_nil, or_false, forall_eq] at hF ⊢
      exact sum_one le_rfl (hF _ ⟨rfl, h0, hv⟩)
    | glass c n => exact glassy c c n hF ⟨le_rfl, le_rfl, le_rfl⟩ ⟨le_rfl, le_rfl, le_rfl⟩
    | dielectric c n => exact tinted c c n hPh.2 hF le_rfl

/-- Nowhere less light comes back. -/
theorem glazed_clearer (hW : w.SunlitGlazed s) (hs : s.SunsShine) (h : s.Clearer s') (hb : s'.BuiltFrom w.env b') (rt : RayTracer) (ch : Spectrum ℝ → ℝ) (hch : ch ∈ [Spectrum.c0, Spectrum.c1, Spectrum.c2]) (n : ℕ) :
    ∀ x y : TRay, Beside x y → Norm x.geometry.direction = 1 → 0 < x.refractionIndex → glazedLight w rt ch n x ≤ glazedLight { w with scene := b' } rt ch n y := by
  have hW' := hW.clearer hs h hb
  have hbb : w.scene.Clearer b' := built_clearer w.env h hW.renders.built hb
  obtain ⟨suns, hsuns⟩ := suns_exist hW.toSunlit
  have hsuns' := hsuns.clearer h hs b'
  obtain ⟨S, -, hfree, -⟩ := sight_exists hW.renders
  have hfree' : ∀ p v D, S.free p v D ↔ b'.unobstructedDistance w.env ⟨p, v⟩ D [] = .ok true := fun p v D => by rw [free_clearer hbb]; exact hfree p v D
  obtain ⟨axes⟩ := axes_exist
  obtain ⟨code, -, hall⟩ := disc_flat hW.toSunlit
  induction n with
  | zero => exact fun _ _ _ _ _ => zero_le
  | succ n ih =>
    intro x y hxy hu hη
    unfold glazedLight
    rcases hall x hu with ⟨-, hc⟩ | ⟨i, bk, tri, m, it, -, hS, hc, ha⟩
    · rw [hc]; exact zero_le
    have hmat := hS.material
    rw [← ha.side] at hmat
    obtain ⟨m', hmat', hmm⟩ := materialAt_clearer hbb rfl _ _ m hmat
    have hc' : World.cast { w with scene := b' } y = .ok (some (i, { y with interaction := it })) := by
      rw [cast_clearer hbb rfl]
      exact cast_same x y (by rw [hxy.1]) hc
    simp only [hc, hmat, hc', hmat']
    have hdepth : y.depth = x.depth := by rw [hxy.1]
    by_cases hdeep : rt.maxDepth < x.depth
    · rw [if_pos hdeep]; exact zero_le
    have hdeep' : ¬ rt.maxDepth < y.depth := by rw [hdepth]; exact hdeep
    rw [if_neg hdeep, if_neg hdeep']
    have hbes : Beside { x with interaction := it } { y with interaction := it } := ⟨by rw [hxy.1], hxy.2.1, hxy.2.2⟩
    have hspec : m'.specularOnly = m.specularOnly := by cases hmm <;> rfl
    rw [hspec]
    by_cases hsp : m.specularOnly = true
    · rw [if_pos hsp, if_pos hsp]
      have hPh : m.Physical := by
        rcases hS.kind hW with ⟨col, r, hM⟩ | ⟨-, h⟩
        · rw [(matt_only_flags hM.matt).2.1] at hsp; cases hsp
        · exact h
      have hunit := offered_unit hS hsp hPh hη ha hu
      refine offered_clearer hmm hsp hPh ch hch hbes (by rw [ha.normal]; exact hS.frame.n3) hu (by rw [ha.normal]; exact ha.faces) hη
        (fun p => countedChance rt * glazedLight w rt ch n p.counted + (1 - countedChance rt) * glazedLight w rt ch n p) (fun p => countedChance rt * glazedLight { w with scene := b' } rt ch n p.counted + (1 - countedChance rt) * glazedLight { w with scene := b' } rt ch n p) fun p hp q hpq => ?_
      obtain ⟨u1, u2⟩ := hunit p hp
      refine add_le_add (mul_le_mul' le_rfl (ih p.1.counted q.counted ⟨?_, hpq.2.1, hpq.2.2⟩ u1 u2)) (mul_le_mul' le_rfl (ih p.1 q hpq u1 u2))
      simp only [TRay.counted]
      rw [hpq.1]
    · rw [if_neg hsp, if_neg hsp]
      rcases hS.kind hW with ⟨col, r, hM⟩ | ⟨h1, -⟩
      swap
      · exact absurd h1 hsp
      obtain ⟨-, -, hcc⟩ := matt_only_flags hM.matt
      obtain ⟨col', hm', hle, hcc'⟩ : ∃ col', m' ∈ [Material.plastic col' 0 r, Material.metal col' 0 r] ∧ col.AtMost col' ∧ m'.colour = col' := by
        have := hM.matt
        cases hmm with
        | plastic c c' r' hb =>
          have e : c = col ∧ r' = r := by simpa using this
          exact ⟨c', by simp [e.2], e.1 ▸ hb.2, rfl⟩
        | metal c c' r' hb =>
          have e : c = col ∧ r' = r := by simpa using this
          exact ⟨c', by simp [e.2], e.1 ▸ hb.2, rfl⟩
        | glass => exact absurd rfl hsp
        | dielectric => exact absurd rfl hsp
        | mirror => exact absurd rfl hsp
        | same => exact ⟨col, this, ⟨le_rfl, le_rfl, le_rfl⟩, hcc⟩
      have hnn := hM.nonneg
      have hnn' : col'.Nonneg := ⟨hnn.1.trans hle.1, hnn.2.1.trans hle.2.1, hnn.2.2.trans hle.2.2⟩
      have hpi := Real.pi_pos
      have hle' : ENNReal.ofReal (ch col / Real.pi) ≤ ENNReal.ofReal (ch col' / Real.pi) := ENNReal.ofReal_le_ofReal (div_le_div_of_nonneg_right (channel_atMost hle hch) hpi.le)
      refine add_le_add ?_ (mul_le_mul' ?_ (mul_le_mul' ?_ (irradiance_mono_unit fun l hl => ?_)))
      · rw [sunlight_exact hW.toSunlit suns hsuns m col r hM.matt hnn ch hch S hfree axes, sunlight_exact hW'.toSunlit suns hsuns' m' col' r hm' hnn' ch hch S hfree' axes]
        exact mul_le_mul' hle' le_rfl
      · show followChance rt x.depth x.value ≤ followChance rt y.depth y.value
        rw [hdepth]
        exact follow_mono rt _ hxy.2.1 hxy.2.2
      · rw [hcc, hcc']; exact hle'
      · have hr0 : 0 ≤ m.colour.radiance := by
          rw [hcc]
          have : Spectrum.AtMost ⟨0, 0, 0⟩ col := hnn
          have h := radiance_atMost this
          have e0 : (⟨0, 0, 0⟩ : Spectrum ℝ).radiance = 0 := by simp [Spectrum.radiance, Spectrum.channels, Spectrum.radianceCoefficients]
          rwa [e0] at h
        have hrad : m.colour.radiance ≤ m'.colour.radiance := by rw [hcc, hcc']; exact radiance_atMost hle
        refine ih _ _ ⟨?_, mul_nonneg hxy.2.1 hr0, mul_le_mul hxy.2.2 hrad hr0 (hxy.2.1.trans hxy.2.2)⟩ ?_ hη
        · simp only [TRay.onward]
          rw [hxy.1]
        · have hl2 : l.x ^ 2 + l.y ^ 2 + l.z ^ 2 = 1 := by
            have := Dot_self_of_norm hl; simp only [Dot] at this; nlinarith
          have := (world_unit hS.frame hl2).1
          rw [world_eq] at this
          simp only [TRay.onward, ha.normal, ha.dpdu, ha.dpdv]
          exact this

theorem nil_clearer : Scene.Clearer ({} : Scene ℝ) {} := ⟨rfl, .nil⟩

/-- **C141.** Build the same scene again, with brighter paint on the matt surfaces, clearer glass, dielectrics of a lighter tint, and any mirrors: the mean of what comes back along any ray, in any channel, is nowhere smaller. -/
theorem C141_clearer (hW : w.SunlitGlazed s) (hs : s.SunsShine) (ops ops' : List (SceneOp ℝ)) (hrun : Scene.run w.env {} ops = .ok s) (ho : List.Forall₂ SceneOp.Clearer ops ops') :
    ∃ s', Scene.run w.env {} ops' = .ok s' ∧ ∀ b', s'.BuiltFrom w.env b' → ∀ (rt : RayTracer), 0 < rt.nShadowSamples → ∀ ch ∈ [Spectrum.c0, Spectrum.c1, Spectrum.c2], ∀ (rays : List TRay), rt.maxDepth < rays.length → ∀ (ray : TRay), Norm ray.geometry.direction = 1 →
      0 ≤ ray.value → 0 < ray.refractionIndex → ∀ n, w.EndsWithin rt n ray → World.EndsWithin { w with scene := b' } rt n ray → ∀ fuel, n + rt.nShadowSamples + rt.nAmbientSamples + 2 ≤ fuel →
      ∫⁻ r, seenLight (traceRay w rt fuel ⟨r, rays⟩ ray) ch ∂randomNumbers ≤ ∫⁻ r, seenLight (traceRay { w with scene := b' } rt fuel ⟨r, rays⟩ ray) ch ∂randomNumbers := by
  obtain ⟨s', h', hrep⟩ := run_clearer w.env ho nil_clearer hrun
  refine ⟨s', h', fun b' hb rt hsh ch hch rays hlen ray hu hv hη n hE hE' fuel hfuel => ?_⟩
  have hW' := hW.clearer hs hrep hb
  rw [C123_mean_light hW rt hsh ch hch rays hlen ray hu hv hη n hE fuel hfuel, C123_mean_light hW' rt hsh ch hch rays hlen ray hu hv hη n hE' fuel hfuel]
  exact glazed_clearer hW hs hrep hb rt ch hch n ray ray ⟨rfl, hv, le_rfl⟩ hu hη

/-- **C141, pictures.** … and so is the mean of every pixel of a picture, whatever the schedules and the generators. -/
theorem C141_clearer_picture (hW : w.SunlitGlazed s) (hs : s.SunsShine) (ops ops' : List (SceneOp ℝ)) (hrun : Scene.run w.env {} ops = .ok s) (ho : List.Forall₂ SceneOp.Clearer ops ops') :
    ∃ s', Scene.run w.env {} ops' = .ok s' ∧ ∀ b', s'.BuiltFrom w.env b' → ∀ (o : SpictOptions), o.Sized → o.camera.view.Proper → 0 < o.rt.nShadowSamples → o.rt.maxDepth < 15 → ∀ n fuel, n + o.rt.nShadowSamples + o.rt.nAmbientSamples + 2 ≤ fuel →
    (∀ p : Nat × Nat, p.1 < o.width → p.2 < o.height → w.EndsWithin o.rt n (o.camera.traceableRay p) ∧ World.EndsWithin { w with scene := b' } o.rt n (o.camera.traceableRay p)) →
    ∀ {Ω : Type} [MeasurableSpace Ω] (μ : Measure Ω) (gen gen' : Ω → Nat → Rng), (∀ k, MeasurePreserving (fun ω => gen ω k) μ randomNumbers) → (∀ k, MeasurePreserving (fun ω => gen' ω k) μ randomNumbers) →
    ∀ state state' : Ω → RState TState (Spectrum ℝ), (∀ ω, o.Rendered w fuel (gen ω) (state ω)) → (∀ ω, o.Rendered { w with scene := b' } fuel (gen' ω) (state' ω)) → ∀ ch ∈ [Spectrum.c0, Spectrum.c1, Spectrum.c2], ∀ x y, x < o.width → y < o.height →
      ∫⁻ ω, ENNReal.ofReal (ch (pixelOf o.width o.height (state ω) x y)) ∂μ ≤ ∫⁻ ω, ENNReal.ofReal (ch (pixelOf o.width o.height (state' ω) x y)) ∂μ := by
  obtain ⟨s', h', hrep⟩ := run_clearer w.env ho nil_clearer hrun
  refine ⟨s', h', fun b' hb o hsz hv hsh hD n fuel hfuel hE Ω _ μ gen gen' hg hg' state state' hst hst' ch hch x y hx hy => ?_⟩
  have hW' := hW.clearer hs hrep hb
  rw [C138_mean_picture hW o hsz hv hsh hD n fuel hfuel (fun p h1 h2 => (hE p h1 h2).1) hg state hst ch hch x y hx hy, C138_mean_picture hW' o hsz hv hsh hD n fuel hfuel (fun p h1 h2 => (hE p h1 h2).2) hg' state' hst' ch hch x y hx hy]
  refine glazed_clearer hW hs hrep hb o.rt ch hch n _ _ ⟨rfl, ?_, le_rfl⟩ (traceable_unit o hv _) ?_
  · simp [Pinhole.traceableRay, Pinhole.genRay]
  · simp [Pinhole.traceableRay, TRay.default]

end Rendering
