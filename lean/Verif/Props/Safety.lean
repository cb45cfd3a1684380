import Verif.Spec.Safety
import Verif.Props.Tracer

/-!
# C92, C93: tracing does not crash, and does not return negative light
-/

set_option linter.unusedSectionVars false
namespace Rendering

open Classical

theorem Res.Holds.bind {α β : Type} {P : α → Prop} {Q : β → Prop} {r : Res α} {f : α → Res β} (h : r.Holds P) (hf : ∀ x, P x → (f x).Holds Q) : (r.bind f).Holds Q := by
  cases r with
  | ok x => exact hf x h
  | panic => exact h.elim
  | diverge => trivial

theorem Res.Holds.mono {α : Type} {P Q : α → Prop} {r : Res α} (h : r.Holds P) (hf : ∀ x, P x → Q x) : r.Holds Q := by
  cases r with
  | ok x => exact hf x h
  | panic => exact h.elim
  | diverge => trivial

namespace Spectrum

theorem Nonneg.black : (Spectrum.black : Spectrum ℝ).Nonneg := ⟨le_rfl, le_rfl, le_rfl⟩
theorem Nonneg.gray {v : ℝ} (h : 0 ≤ v) : (Spectrum.gray v).Nonneg := ⟨h, h, h⟩
theorem Nonneg.add {a b : Spectrum ℝ} (ha : a.Nonneg) (hb : b.Nonneg) : (a + b).Nonneg := ⟨add_nonneg ha.1 hb.1, add_nonneg ha.2.1 hb.2.1, add_nonneg ha.2.2 hb.2.2⟩
theorem Nonneg.mul {a b : Spectrum ℝ} (ha : a.Nonneg) (hb : b.Nonneg) : (a * b).Nonneg := ⟨mul_nonneg ha.1 hb.1, mul_nonneg ha.2.1 hb.2.1, mul_nonneg ha.2.2 hb.2.2⟩
theorem Nonneg.scale {a : Spectrum ℝ} {k : ℝ} (ha : a.Nonneg) (hk : 0 ≤ k) : (a.scale k).Nonneg := ⟨mul_nonneg ha.1 hk, mul_nonneg ha.2.1 hk, mul_nonneg ha.2.2 hk⟩
theorem Nonneg.divBy {a : Spectrum ℝ} {k : ℝ} (ha : a.Nonneg) (hk : 0 ≤ k) : (a.divBy k).Nonneg := ⟨div_nonneg ha.1 hk, div_nonneg ha.2.1 hk, div_nonneg ha.2.2 hk⟩

end Spectrum

theorem Rng.Valid.rest {rng : Rng} (h : rng.Valid) (k : Nat) : Rng.Valid (fun n => rng (n + k)) := fun n => h (n + k)

/-! ### Materials -/

theorem evaluateWard_nonneg (normal e1 e2 : Vec3 ℝ) (s a b : ℝ) (i l : Vec3 ℝ) (h0 : 0 ≤ s) (h1 : s ≤ 1) : 0 ≤ (evaluateWard normal e1 e2 s a b i l).1 ∧ 0 ≤ (evaluateWard normal e1 e2 s a b i l).2 := by
  have hd : 0 ≤ (1 - s) / Real.pi := div_nonneg (by linarith) Real.pi_pos.le
  have hc : ∀ x, 0 < clampRoughness x := by
    intro x
    unfold clampRoughness
    split_ifs with h
    · norm_num
    · exact lt_of_lt_of_le (by norm_num) (not_lt.1 h)
  unfold evaluateWard
  split_ifs
  · simp only
    split_ifs
    · exact ⟨le_rfl, le_rfl⟩
    · refine ⟨mul_nonneg (div_nonneg (mul_nonneg h0 ?_) ?_) (Real.exp_pos _).le, hd⟩
      · rw [Vec3.dot_eq]; unfold Dot; nlinarith [sq_nonneg (l - i).x, sq_nonneg (l - i).y, sq_nonneg (l - i).z]
      · have := hc a; have := hc b; have := Real.pi_pos; positivity
  · exact ⟨le_rfl, hd⟩

/-- The value of a surface for a shadow ray. -/
theorem evalBsdf_holds (N : Prop) (dt : DirTests) (m : Material ℝ) (hl : m.emitsLight = false) (hs : m.specularOnly = false) (hP : N → m.Physical) (normal e1 e2 : Vec3 ℝ) (ray : TRay) (vout : Vec3 ℝ) :
    (m.evalBsdf dt normal e1 e2 ray vout).Holds fun c => N → c.Nonneg := by
  cases m with
  | plastic c s r =>
    intro hN
    obtain ⟨hc, h0, h1⟩ := hP hN
    obtain ⟨k1, k2⟩ := evaluateWard_nonneg normal e1 e2 s r r ray.geometry.direction (vout.scale (-1)) h0 h1
    exact (Spectrum.Nonneg.gray k1).add (hc.scale k2)
  | metal c s r =>
    intro hN
    obtain ⟨hc, h0, h1⟩ := hP hN
    obtain ⟨k1, k2⟩ := evaluateWard_nonneg normal e1 e2 s r r ray.geometry.direction (vout.scale (-1)) h0 h1
    exact (hc.scale k1).add (hc.scale k2)
  | light c => simp [Material.emitsLight] at hl
  | mirror c => simp [Material.specularOnly] at hs
  | dielectric c n => simp [Material.specularOnly] at hs
  | glass c n => simp [Material.specularOnly] at hs

theorem sampleWard_holds (N : Prop) (fuel : Nat) (normal e1 e2 pt : Vec3 ℝ) (a b : ℝ) (ray : TRay) (rng : Rng) (hr : rng.Valid) (hf : N → Frame e1 e2 normal) :
    (sampleWard fuel normal e1 e2 pt 0 a b ray rng).Holds fun x => x.2.2.Valid ∧ x.1.1 = 0 ∧ 0 ≤ x.1.2.1 ∧ (N → 0 ≤ x.1.2.2) ∧ x.2.1.refractionIndex = ray.refractionIndex := by
  unfold sampleWard
  simp only [Rng.gen, not_lt.2 (hr 0).1, if_false, sampleCosineHemisphere, uniformSampleHorizontalDisc, Rng.gen2]
  refine ⟨fun n => hr (n + 2 + 1), rfl, by have := Real.pi_pos; simp only [sub_zero]; positivity, fun hN => ?_, rfl⟩
  refine div_nonneg ?_ Real.pi_pos.le
  rw [Vec3.dot_eq, Dot_comm, ← Vec3.dot_eq, Vec3.normalized, Vec3.dot_scale]
  refine mul_nonneg (div_nonneg zero_le_one (Real.sqrt_nonneg _)) ?_
  have e0 : ∀ v : Vec3 ℝ, v - 0 = v := fun v => by ext <;> simp
  have hiso : ∀ x y z, Dot (localToWorld e1 e2 normal 0 x y z) normal = z := fun x y z => by
    have := (C54_isometry e1 e2 normal 0 (hf hN) x y z 0 0 0).2.2.1
    rwa [e0] at this
  rw [Vec3.dot_eq, hiso]
  exact Real.sqrt_nonneg _

theorem sampleBsdf_holds (N : Prop) (fuel : Nat) (m : Material ℝ) (hl : m.emitsLight = false) (hs : m.specularOnly = false) (hg : m.NotGlossy) (hP : N → m.Physical) (normal e1 e2 pt : Vec3 ℝ) (ray : TRay) (rng : Rng) (hr : rng.Valid)
    (hf : N → Frame e1 e2 normal) : (m.sampleBsdf fuel normal e1 e2 pt ray rng).Holds fun x => x.2.2.Valid ∧ (N → x.1.1.Nonneg ∧ 0 ≤ x.1.2) ∧ x.2.1.refractionIndex = ray.refractionIndex := by
  cases m with
  | plastic c s r =>
    have : s = 0 := hg
    subst this
    refine (sampleWard_holds N fuel normal e1 e2 pt r r ray rng hr hf).bind fun x ⟨h1, h2, h3, h4, h5⟩ => ⟨h1, fun hN => ⟨?_, h4 hN⟩, h5⟩
    exact (Spectrum.Nonneg.gray (by rw [h2])).add ((hP hN).1.scale h3)
  | metal c s r =>
    have : s = 0 := hg
    subst this
    refine (sampleWard_holds N fuel normal e1 e2 pt r r ray rng hr hf).bind fun x ⟨h1, h2, h3, h4, h5⟩ => ⟨h1, fun hN => ⟨?_, h4 hN⟩, h5⟩
    exact ((hP hN).1.scale (by rw [h2])).add ((hP hN).1.scale h3)
  | light c => simp [Material.emitsLight] at hl
  | mirror c => simp [Material.specularOnly] at hs
  | dielectric c n => simp [Material.specularOnly] at hs
  | glass c n => simp [Material.specularOnly] at hs

/-! ### Specular surfaces -/

theorem square_quot_le_one {a b : ℝ} (ha : 0 ≤ a) (hb : 0 ≤ b) : (a - b) / (a + b) * ((a - b) / (a + b)) ≤ 1 := by
  rcases eq_or_lt_of_le (add_nonneg ha hb) with h | h
  · rw [← h]; simp
  · rw [div_mul_div_comm, div_le_one (mul_pos h h)]
    nlinarith

theorem fresnel_fraction (n1 cos1 n2 cos2 : ℝ) (h1 : 0 ≤ n1) (h2 : 0 ≤ cos1) (h3 : 0 ≤ n2) (h4 : 0 ≤ cos2) : 0 ≤ fresnelReflectance n1 cos1 n2 cos2 ∧ fresnelReflectance n1 cos1 n2 cos2 ≤ 1 := by
  unfold fresnelReflectance fresnelTm fresnelTe
  have k1 := square_quot_le_one (div_nonneg h1 h2) (div_nonneg h3 h4)
  have k2 := square_quot_le_one (mul_nonneg h1 h2) (mul_nonneg h3 h4)
  have k3 := mul_self_nonneg ((n1 / cos1 - n2 / cos2) / (n1 / cos1 + n2 / cos2))
  have k4 := mul_self_nonneg ((n1 * cos1 - n2 * cos2) / (n1 * cos1 + n2 * cos2))
  simp only
  constructor <;> linarith

theorem glassT_nonneg (d : Spectrum ℝ) (hd : d.Fraction) (r : ℝ) (h0 : 0 ≤ r) (h1 : r ≤ 1) : (glassT d r).Nonneg := by
  obtain ⟨⟨a0, a1, a2⟩, b0, b1, b2⟩ := hd
  have key : ∀ x : ℝ, 0 ≤ x → x ≤ 1 → 0 ≤ (1 - r) ^ 2 / (1 - (x * r) ^ 2) := by
    intro x hx0 hx1
    have := mul_le_one₀ hx1 h0 h1
    have h2 := mul_nonneg hx0 h0
    exact div_nonneg (sq_nonneg _) (by nlinarith)
  exact ⟨key _ a0 b0, key _ a1 b1, key _ a2 b2⟩

theorem glassR_nonneg (d : Spectrum ℝ) (hd : d.Fraction) (r : ℝ) (h0 : 0 ≤ r) (h1 : r ≤ 1) : (glassR d r).Nonneg := by
  obtain ⟨⟨a0, a1, a2⟩, b0, b1, b2⟩ := hd
  have key : ∀ x : ℝ, 0 ≤ x → x ≤ 1 → 0 ≤ r * (1 + (1 - 2 * r) * x) / (1 - r * r * x) := by
    intro x hx0 hx1
    have h2 : r * r ≤ 1 := mul_le_one₀ h1 h0 h1
    have h3 : r * r * x ≤ 1 := mul_le_one₀ h2 hx0 hx1
    exact div_nonneg (mul_nonneg h0 (by nlinarith)) (by linarith)
  exact ⟨key _ a0 b0, key _ a1 b1, key _ a2 b2⟩

theorem glassReflTrans_nonneg (c : Spectrum ℝ) (hc : c.Fraction) (n : ℝ) (hn : 0 < n) (normal direction : Vec3 ℝ) : (glassReflTrans c n normal direction).1.Nonneg ∧ (glassReflTrans c n normal direction).2.Nonneg := by
  unfold glassReflTrans
  simp only
  set p := |normal.dot direction| with hp
  set cos2 := Real.sqrt ((1 - 1 / n ^ 2) + (p / n) ^ 2) with hcos
  have hp0 : 0 ≤ p := abs_nonneg _
  have hc0 : 0 ≤ cos2 := Real.sqrt_nonneg _
  have e1 := square_quot_le_one hp0 (mul_nonneg hn.le hc0)
  have e0 := mul_self_nonneg ((p - n * cos2) / (p + n * cos2))
  have m1 := square_quot_le_one (div_nonneg zero_le_one hp0) (div_nonneg hn.le hc0)
  have m0 := mul_self_nonneg ((1 / p - n / cos2) / (1 / p + n / cos2))
  generalize (p - n * cos2) / (p + n * cos2) * ((p - n * cos2) / (p + n * cos2)) = re at *
  generalize (1 / p - n / cos2) / (1 / p + n / cos2) * ((1 / p - n / cos2) / (1 / p + n / cos2)) = rm at *
  have hd : (if (anyTransmission c).2 = true then c.powf (1 / cos2) else c).Fraction := by
    split_ifs
    · obtain ⟨⟨a0, a1, a2⟩, b0, b1, b2⟩ := hc
      have h : (0 : ℝ) ≤ 1 / cos2 := div_nonneg zero_le_one hc0
      exact ⟨⟨Real.rpow_nonneg a0 _, Real.rpow_nonneg a1 _, Real.rpow_nonneg a2 _⟩, Real.rpow_le_one a0 b0 h, Real.rpow_le_one a1 b1 h, Real.rpow_le_one a2 b2 h⟩
    · exact hc
  generalize (if (anyTransmission c).2 = true then c.powf (1 / cos2) else c) = d at hd
  have hd2 : (d.powi 2).Fraction := by
    obtain ⟨⟨a0, a1, a2⟩, b0, b1, b2⟩ := hd
    exact ⟨⟨pow_nonneg a0 _, pow_nonneg a1 _, pow_nonneg a2 _⟩, pow_le_one₀ a0 b0, pow_le_one₀ a1 b1, pow_le_one₀ a2 b2⟩
  constructor
  · have := (glassR_nonneg _ hd2 re e0 e1).add (glassR_nonneg _ hd2 rm m0 m1)
    exact ⟨mul_nonneg (by norm_num) this.1, mul_nonneg (by norm_num) this.2.1, mul_nonneg (by norm_num) this.2.2⟩
  · split_ifs
    · exact (hd.1.scale (by norm_num)).mul ((glassT_nonneg _ hd re e0 e1).add (glassT_nonneg _ hd rm m0 m1))
    · exact Spectrum.Nonneg.black

theorem dielectricReflTrans_nonneg (c : Spectrum ℝ) (hc : c.Nonneg) (n1 cos1 n2 : ℝ) (cos2 : Option ℝ) (h1 : 0 ≤ n1) (h2 : 0 ≤ cos1) (h3 : 0 ≤ n2) (h4 : ∀ x, cos2 = some x → 0 ≤ x) :
    (dielectricReflTrans c n1 cos1 n2 cos2).1.Nonneg ∧ (dielectricReflTrans c n1 cos1 n2 cos2).2.Nonneg := by
  have hone : (Spectrum.one : Spectrum ℝ).Nonneg := Spectrum.Nonneg.gray zero_le_one
  cases cos2 with
  | none => exact ⟨hone.divBy h2, Spectrum.Nonneg.black⟩
  | some x =>
    have hx := h4 x rfl
    obtain ⟨k0, k1⟩ := fresnel_fraction n1 cos1 n2 x h1 h2 h3 hx
    exact ⟨(hone.scale k0).divBy h2, (hc.scale (mul_nonneg (by linarith) (mul_self_nonneg _))).divBy hx⟩

/-- The paths out of a specular surface exist, their weights are not negative, and they stay in media of positive index. -/
theorem paths_holds (N : Prop) (m : Material ℝ) (hs : m.specularOnly = true) (hP : N → m.Physical) (normal pt : Vec3 ℝ) (ray : TRay) (hn : N → 0 < ray.refractionIndex) :
    (m.getPossiblePaths normal pt ray).Holds fun p => ∀ x ∈ p.toList, N → x.2.Nonneg ∧ 0 < x.1.refractionIndex := by
  have hone : (Spectrum.one : Spectrum ℝ).Nonneg := Spectrum.Nonneg.gray zero_le_one
  cases m with
  | mirror c =>
    intro x hx hN
    simp only [mirrorPaths, Paths.toList, Option.toList_some, Option.toList_none, List.append_nil, List.mem_singleton] at hx
    subst hx
    exact ⟨(hone.scale (div_nonneg zero_le_one (abs_nonneg _))).scale (abs_nonneg _), hn hN⟩
  | dielectric c n =>
    intro x hx hN
    obtain ⟨hc, hn0⟩ := hP hN
    have hn1 := hn hN
    have hcn : (cosAndN ray normal n).1 = ray.refractionIndex ∧ 0 ≤ (cosAndN ray normal n).2.1 ∧ 0 < (cosAndN ray normal n).2.2.1 ∧ ∀ y, (cosAndN ray normal n).2.2.2 = some y → 0 ≤ y := by
      unfold cosAndN
      simp only
      split_ifs <;> refine ⟨rfl, abs_nonneg _, by first | exact hn0 | exact one_pos, ?_⟩ <;> intro y hy <;> cases hy <;> exact Real.sqrt_nonneg _
    obtain ⟨a1, a2, a3, a4⟩ := hcn
    obtain ⟨k1, k2⟩ := dielectricReflTrans_nonneg c hc (cosAndN ray normal n).1 (cosAndN ray normal n).2.1 (cosAndN ray normal n).2.2.1 (cosAndN ray normal n).2.2.2 (by rw [a1]; exact hn1.le) a2 a3.le a4
    simp only [dielectricPaths, Paths.toList, Option.toList_some, List.mem_append, List.mem_singleton, Option.mem_toList] at hx
    rcases hx with rfl | hx
    · exact ⟨k1.scale a2, hn1⟩
    · cases hcos : (cosAndN ray normal n).2.2.2 with
      | none => rw [hcos] at hx; simp at hx
      | some y =>
        rw [hcos] at hx k2
        simp only [Option.some.injEq] at hx
        subst hx
        exact ⟨k2.scale (a4 y hcos), a3⟩
  | glass c n =>
    intro x hx hN
    obtain ⟨hc, hn0⟩ := hP hN
    obtain ⟨k1, k2⟩ := glassReflTrans_nonneg c hc n hn0 normal ray.geometry.direction
    simp only [glassPaths, Paths.toList, Option.toList_some, List.mem_append, List.mem_singleton, Option.mem_toList] at hx
    rcases hx with rfl | hx
    · exact ⟨k1, hn hN⟩
    · split_ifs at hx
      · simp only [Option.some.injEq] at hx
        subst hx
        exact ⟨k2, hn hN⟩
  | plastic c s r => simp [Material.specularOnly] at hs
  | metal c s r => simp [Material.specularOnly] at hs
  | light c => simp [Material.specularOnly] at hs

/-! ### Shadow rays -/

theorem normalized_unit {d : Vec3 ℝ} (h : 0 < Dot d d) : Norm d.normalized = 1 := Norm_eq_one (normalized_dot_self h)

theorem sampleDirection_holds (ext : GeoExt) (hext : ext.PerpSpec) (p : Primitive ℝ) (hp : p.CanBeSampled) (rng : Rng) (hr : rng.Valid) (pt : Vec3 ℝ) : (p.sampleDirection ext rng pt).Holds fun x => x.2.Valid := by
  unfold Primitive.sampleDirection
  refine Res.Holds.bind (P := fun x => x.2.Valid) ?_ fun x hx => hx
  cases p with
  | cylinder a b c => exact hp.elim
  | sphere c r => exact hr.rest 2
  | triangle t => exact hr.rest 2
  | source d a =>
    obtain ⟨e, he, _⟩ := hext d.normalized (normalized_unit hp)
    simp only [Primitive.sampleSurface, uniformSampleDisc, he, Res.ofOption_some, Res.bind_ok, uniformSampleHorizontalDisc, Rng.gen2]
    exact hr.rest 2

theorem solidAnglePdf_holds (p : Primitive ℝ) (hp : p.CanBeSampled) (info : IntersectionInfo) (ray : Ray3 ℝ) : (p.solidAnglePdf info ray).Holds fun _ => True := by
  cases p with
  | cylinder a b c => exact hp.elim
  | sphere c r => trivial
  | triangle t => trivial
  | source d a => trivial

theorem material_holds (s : Scene ℝ) (i : Nat) (h : i < s.materials.length) : (Res.ofOption s.materials[i]?).Holds fun m => m ∈ s.materials := by
  rw [List.getElem?_eq_getElem h]
  exact List.getElem_mem h

theorem glassColour_nonneg (c : Spectrum ℝ) (hc : c.Nonneg) : (glassColour c).Nonneg := by
  have key : ∀ x : ℝ, 0 ≤ (if x < minColour then minColour else x) := by
    intro x
    have : (0 : ℝ) < minColour := by norm_num [minColour]
    split_ifs with h
    · exact this.le
    · exact this.le.trans (not_lt.1 h)
  unfold glassColour anyTransmission
  split_ifs
  · exact hc
  · exact ⟨key _, key _, key _⟩

theorem colour_nonneg (m : Material ℝ) (h : m.Physical) : m.colour.Nonneg := by
  cases m with
  | plastic c s r => exact h.1
  | metal c s r => exact h.1
  | light c => exact h
  | mirror c => exact h
  | dielectric c n => exact h.1
  | glass c n => exact glassColour_nonneg c h.1.1

variable {w : World} {s : Scene ℝ}

theorem intersectLight_holds (N : Prop) (hS : w.Solid s) (hN : N → w.Physical s) (o : Object ℝ) (ho : o ∈ s.lights ++ s.distantLights) (ray : Ray3 ℝ) :
    (w.intersectLight o ray).Holds fun r => ∀ x, r = some x → N → x.1.Nonneg := by
  have hm := hS.renders.same.1
  have hidx : o.front < s.materials.length ∧ o.back < s.materials.length := by
    rcases List.mem_append.1 ho with h | h
    · exact hS.indices.2.2.1 o h
    · exact hS.indices.2.2.2 o h
  have mat : ∀ i, i < s.materials.length → (Res.ofOption w.scene.materials[i]?).Holds fun m => m ∈ s.materials := by
    intro i hi
    rw [hm]
    exact material_holds s i hi
  unfold World.intersectLight
  split
  · intro x hx; cases hx
  · rename_i info _
    obtain ⟨r, e, _⟩ := C03_unobstructed w.env hS.renders.lawful hS.renders.box s w.scene hS.renders.aligned hS.renders.fits hS.renders.built ray ((ray.origin - info.p).lengthSq) []
    simp only [e, Res.bind_ok]
    split_ifs
    · intro x hx _; cases hx; exact Spectrum.Nonneg.black
    · split
      · intro x hx _; cases hx; exact Spectrum.Nonneg.black
      · exact (mat _ hidx.1).bind fun m hm => (solidAnglePdf_holds o.primitive (hS.lights o ho) info ray).bind fun pdf _ => fun x hx hn => by cases hx; exact colour_nonneg m ((hN hn).materials m hm)
      · exact (mat _ hidx.2).bind fun m hm => (solidAnglePdf_holds o.primitive (hS.lights o ho) info ray).bind fun pdf _ => fun x hx hn => by cases hx; exact colour_nonneg m ((hN hn).materials m hm)

theorem lightLoop_holds (N : Prop) (hS : w.Solid s) (hN : N → w.Physical s) (m : Material ℝ) (hl : m.emitsLight = false) (hs : m.specularOnly = false) (hP : N → m.Physical) (ray : TRay) (n : Nat) (pt normal e1 e2 : Vec3 ℝ)
    (o : Object ℝ) (ho : o ∈ s.lights ++ s.distantLights) (fuel i : Nat) (acc : Spectrum ℝ) (hacc : N → acc.Nonneg) (rng : Rng) (hr : rng.Valid) :
    (w.lightLoop m ray n pt normal e1 e2 o fuel i acc rng).Holds fun x => x.2.Valid ∧ (N → x.1.Nonneg) := by
  induction fuel generalizing i acc rng with
  | zero => trivial
  | succ fuel ih =>
    unfold World.lightLoop
    split_ifs
    · refine (sampleDirection_holds w.ext hS.perp o.primitive (hS.lights o ho) rng hr pt).bind fun x hx => ?_
      refine (intersectLight_holds N hS hN o ho ⟨pt, x.1⟩).bind fun r hr' => ?_
      cases r with
      | none => exact ih i acc hacc _ hx
      | some y =>
        obtain ⟨colour, pdf⟩ := y
        simp only
        split_ifs with hpdf
        · exact ih (i + 1) acc hacc _ hx
        · unfold World.lightTerm
          refine Res.Holds.bind (P := fun c => N → c.Nonneg) ((evalBsdf_holds N w.dt m hl hs hP normal e1 e2 ray (x.1.scale (-1))).bind fun c hc => fun hn => ?_) fun c hc => ?_
          · have hp0 : 0 ≤ pdf := le_trans (by norm_num) (not_lt.1 hpdf)
            exact (((hr' _ rfl hn).scale (abs_nonneg _)).mul (hc hn)).divBy (mul_nonneg (Nat.cast_nonneg _) hp0)
          · exact ih (i + 1) _ (fun hn => (hacc hn).add (hc hn)) _ hx
    · exact ⟨hr, hacc⟩

theorem lightsLoop_holds (N : Prop) (hS : w.Solid s) (hN : N → w.Physical s) (fuel : Nat) (m : Material ℝ) (hl : m.emitsLight = false) (hs : m.specularOnly = false) (hP : N → m.Physical) (ray : TRay) (n : Nat) (pt normal e1 e2 : Vec3 ℝ)
    (os : List (Object ℝ)) (hos : ∀ o ∈ os, o ∈ s.lights ++ s.distantLights) (acc : Spectrum ℝ) (hacc : N → acc.Nonneg) (rng : Rng) (hr : rng.Valid) :
    (w.lightsLoop fuel m ray n pt normal e1 e2 os acc rng).Holds fun x => x.2.Valid ∧ (N → x.1.Nonneg) := by
  induction os generalizing acc rng with
  | nil => exact ⟨hr, hacc⟩
  | cons o os ih =>
    unfold World.lightsLoop
    refine (lightLoop_holds N hS hN m hl hs hP ray n pt normal e1 e2 o (hos o List.mem_cons_self) fuel 0 acc hacc rng hr).bind fun x hx => ?_
    exact ih (fun o ho => hos o (List.mem_cons_of_mem _ ho)) _ hx.2 _ hx.1

theorem localIllumination_holds (N : Prop) (hS : w.Solid s) (hN : N → w.Physical s) (fuel : Nat) (m : Material ℝ) (hl : m.emitsLight = false) (hs : m.specularOnly = false) (hP : N → m.Physical) (ray : TRay) (n : Nat) (rng : Rng) (hr : rng.Valid) :
    (w.localIllumination fuel m ray rng n).Holds fun x => x.2.Valid ∧ (N → x.1.Nonneg) := by
  obtain ⟨_, h1, h2⟩ := hS.renders.same
  unfold World.localIllumination World.sampleLightArray
  rw [h1, h2]
  refine (lightsLoop_holds N hS hN fuel m hl hs hP ray n _ _ _ _ s.lights (fun o ho => List.mem_append_left _ ho) _ (fun _ => Spectrum.Nonneg.black) rng hr).bind fun x hx => ?_
  refine (lightsLoop_holds N hS hN fuel m hl hs hP ray n _ _ _ _ s.distantLights (fun o ho => List.mem_append_right _ ho) _ (fun _ => Spectrum.Nonneg.black) _ hx.1).bind fun y hy => ?_
  exact ⟨hy.1, fun hn => (hx.2 hn).add (hy.2 hn)⟩

/-! ### The recursion -/

/-- What is required of a tracer: with random numbers in [0, 1) it does not panic and uses up some of them; light is not negative in physical scenes for rays in media of positive index. -/
def GoodTrace (N : Prop) (t : RefTrace) : Prop := ∀ rng ray, Rng.Valid rng → (N → 0 < ray.refractionIndex) → (t rng ray).Holds fun x => x.2.Valid ∧ (N → x.1.1.Nonneg)

theorem refSpecular_holds (N : Prop) (self : RefTrace) (h : GoodTrace N self) (csb : ℝ) (paths : List (TRay × Spectrum ℝ)) (hp : ∀ x ∈ paths, N → x.2.Nonneg ∧ 0 < x.1.refractionIndex) (rng : Rng) (hr : rng.Valid) :
    (refSpecular self csb paths rng).Holds fun x => x.2.Valid ∧ (N → x.1.Nonneg) := by
  induction paths generalizing rng with
  | nil => exact ⟨hr, fun _ => Spectrum.Nonneg.black⟩
  | cons p paths ih =>
    obtain ⟨path, weight⟩ := p
    unfold refSpecular
    have hp0 := hp _ List.mem_cons_self
    refine (h _ _ (hr.rest 1) ?_).bind fun x hx => ?_
    · intro hn
      split_ifs
      · exact (hp0 hn).2
      · exact (hp0 hn).2
    · refine (ih (fun x hx => hp x (List.mem_cons_of_mem _ hx)) _ hx.1).bind fun y hy => ?_
      exact ⟨hy.1, fun hn => ((hx.2 hn).mul (hp0 hn).1).add (hy.2 hn)⟩

theorem refAmbient_holds (N : Prop) (self : RefTrace) (h : GoodTrace N self) (m : Material ℝ) (hl : m.emitsLight = false) (hs : m.specularOnly = false) (hg : m.NotGlossy) (hP : N → m.Physical) (arriving : TRay)
    (hf : N → Frame arriving.interaction.shading.dpdu arriving.interaction.shading.dpdv arriving.interaction.shading.normal) (hi : N → 0 < arriving.refractionIndex) (fuel n : Nat) (rng : Rng) (hr : rng.Valid) :
    (refAmbient self m arriving fuel n rng).Holds fun x => x.2.Valid ∧ (N → x.1.Nonneg) := by
  induction fuel generalizing n rng with
  | zero => trivial
  | succ fuel ih =>
    cases n with
    | zero => exact ⟨hr, fun _ => Spectrum.Nonneg.black⟩
    | succ n =>
      unfold refAmbient
      refine (sampleBsdf_holds N fuel m hl hs hg hP _ _ _ _ arriving rng hr hf).bind fun x hx => ?_
      refine (h _ _ hx.1 ?_).bind fun y hy => ?_
      · exact hi
      · simp only
        split_ifs
        · exact ih (n + 1) _ hy.1
        · refine (ih n _ hy.1).bind fun z hz => ?_
          exact ⟨hz.1, fun hn => ((((hy.2 hn).mul (hx.2.1 hn).1).scale (abs_nonneg _)).divBy (hx.2.1 hn).2).add (hz.2 hn)⟩

/-- What a hit records, whatever the length of the direction: an orthonormal frame, a side, and the triangle's own normal up to sign. -/
theorem recorded_frame (tri : Tri ℝ) (ray : Ray3 ℝ) (b : Bary ℝ) (h : triangleIntersect tri ray = some b) :
    let it := recordedInteraction tri ray b
    Frame it.shading.dpdu it.shading.dpdv it.shading.normal ∧ 0 < Dot (geometricNormal tri) (geometricNormal tri) ∧ it.shading.side ≠ .NonApplicable ∧
      (it.shading.side = .Back → it.shading.normal = (geometricNormal tri).normalized.scale (-1)) ∧ (it.shading.side ≠ .Back → it.shading.normal = (geometricNormal tri).normalized) := by
  intro it
  have hi : triangleIntersectInfo tri ray = some it.shading := by
    unfold triangleIntersectInfo
    unfold triangleIntersect at h
    rw [h]
    rfl
  obtain ⟨_, hdet⟩ := baricentric_sound ray tri b h
  have hne : tripleProduct ray tri ≠ 0 := by
    intro h0; rw [h0, abs_zero] at hdet; norm_num at hdet
  have hg := normal_pos hne
  have hfr := C15_frame_orthonormal tri ray _ hi
  have hgeo := C15_hit_is_geometric tri ray _ hi
  refine ⟨⟨hfr.1, hfr.2.1, hgeo.2.1, hfr.2.2.1, hfr.2.2.2.1, hfr.2.2.2.2⟩, by rw [Vec3.lengthSq] at hg; exact hg, hgeo.2.2.2.2.2.2.2, ?_, ?_⟩
  all_goals
    simp only [it, recordedInteraction, newInfo, getSide]
    rw [← geometricNormal_eq]
    split_ifs <;> simp
  all_goals ext <;> simp

theorem flat_frame (hP : w.Physical s) (ray : TRay) (tri : Tri ℝ) (b : Bary ℝ) (j : Nat) (hb : triangleIntersect tri ray.geometry = some b) (hj : s.triangles[j]? = some tri) (n0 n1 n2 : Vec3 ℝ) (hn2 : s.normals[j]? = some (n0, n1, n2))
    (hit : ray.interaction = recordedInteraction tri ray.geometry b) :
    Frame (ray.interaction.interpolateNormal n0 n1 n2).shading.dpdu (ray.interaction.interpolateNormal n0 n1 n2).shading.dpdv (ray.interaction.interpolateNormal n0 n1 n2).shading.normal := by
  obtain ⟨k1, k2, _, k3, k4⟩ := recorded_frame tri ray.geometry b hb
  have := hP.flat j tri hj
  rw [hn2] at this
  simp only [Option.some.injEq, Prod.mk.injEq] at this
  obtain ⟨rfl, rfl, rfl⟩ := this
  have hint := (C21_interpolated_normal_partial ray.interaction (geometricNormal tri).normalized).2.1 (normalized_unit k2)
  have hsame : (ray.interaction.interpolateNormal (geometricNormal tri).normalized (geometricNormal tri).normalized (geometricNormal tri).normalized).shading.normal = (recordedInteraction tri ray.geometry b).shading.normal := by
    rw [hint, hit]
    split_ifs with hside
    · rw [k3 hside]
    · rw [k4 hside]
  rw [hsame]
  unfold Interaction.interpolateNormal
  simp only
  rw [hit]
  exact k1

theorem ambientSamples_holds (ray : TRay) (a d : Nat) (l : ℝ) (rng : Rng) (hr : rng.Valid) :
    (ray.getNAmbientSamples a d l rng).2.2.Valid ∧ (ray.getNAmbientSamples a d l rng).2.1.interaction = ray.interaction ∧ (ray.getNAmbientSamples a d l rng).2.1.refractionIndex = ray.refractionIndex ∧
    (ray.getNAmbientSamples a d l rng).2.1.colour = ray.colour ∧ (ray.getNAmbientSamples a d l rng).2.1.depth = ray.depth := by
  unfold TRay.getNAmbientSamples
  simp only [Rng.gen]
  split_ifs <;> first
    | exact ⟨hr, rfl, rfl, rfl, rfl⟩
    | exact ⟨hr.rest 1, rfl, rfl, rfl, rfl⟩
    | (by_cases hrr : ExceedsQuotient (rng 0) ray.value l
       · simp only [hrr, if_true]; exact ⟨hr.rest 1, trivial, trivial, trivial, trivial⟩
       · simp only [hrr, if_false]; exact ⟨hr.rest 1, trivial, trivial, trivial, trivial⟩)

theorem ambientSamples_count (ray : TRay) (a d : Nat) (l : ℝ) (rng : Rng) : (ray.getNAmbientSamples a d l rng).1 ≤ max a 1 ∧ (d = 0 ∨ a = 0 → (ray.getNAmbientSamples a d l rng).1 = 0) := by
  unfold TRay.getNAmbientSamples
  simp only [Rng.gen]
  by_cases h : d = 0 ∨ a = 0
  · rw [if_pos h]; simp
  · rw [if_neg h]
    refine ⟨?_, fun h' => absurd h' h⟩
    by_cases h0 : ray.depth = 0
    · rw [if_pos h0]; simp
    · rw [if_neg h0]
      by_cases hv : ExceedsQuotient (rng 0) ray.value l
      · simp only [hv, if_true]; simp
      · simp only [hv, if_false]; simp

theorem refSurface_holds (N : Prop) (hS : w.Solid s) (hN : N → w.Physical s) (rt : RayTracer) (hG : rt.DirectOnly ∨ ∀ m ∈ s.materials, m.NotGlossy) (fuel : Nat) (self : RefTrace) (h : GoodTrace N self) (i j : Nat) (m : Material ℝ) (hm : m ∈ s.materials) (ray : TRay) (tri : Tri ℝ)
    (b : Bary ℝ) (hb : triangleIntersect tri ray.geometry = some b) (hi : w.scene.triangles[i]? = some tri) (hj : s.triangles[j]? = some tri) (hn : w.scene.normals[i]? = s.normals[j]?) (hidx : N → 0 < ray.refractionIndex)
    (hit : ray.interaction = recordedInteraction tri ray.geometry b) (rng : Rng) (hr : rng.Valid) :
    (refSurface w rt fuel self i m ray rng).Holds fun x => x.2.Valid ∧ (N → x.1.1.Nonneg) := by
  have hjl : j < s.triangles.length := (List.getElem?_eq_some_iff.1 hj).1
  have hnorm : ∃ n0 n1 n2, w.scene.normals[i]? = some (n0, n1, n2) ∧ s.normals[j]? = some (n0, n1, n2) := by
    rw [hn, List.getElem?_eq_getElem (by rw [hS.renders.aligned.1]; exact hjl)]
    exact ⟨_, _, _, rfl, rfl⟩
  obtain ⟨n0, n1, n2, hn1, hn2⟩ := hnorm
  unfold refSurface
  simp only [hi, hn1, Res.ofOption_some, Res.bind_ok]
  by_cases h1 : m.emitsLight = true
  · rw [if_pos h1]
    exact ⟨hr, fun hn => colour_nonneg m ((hN hn).materials m hm)⟩
  rw [if_neg h1]
  by_cases h2 : ray.depth > rt.maxDepth
  · rw [if_pos h2]
    exact ⟨hr, fun _ => Spectrum.Nonneg.black⟩
  rw [if_neg h2]
  by_cases h3 : m.specularOnly = true
  · rw [if_pos h3]
    refine (paths_holds N m h3 (fun hn => (hN hn).materials m hm) _ _ _ ?_).bind fun p hp => ?_
    · exact hidx
    · refine (refSpecular_holds N self h rt.countSpecularBounce p.toList hp rng hr).bind fun x hx => ?_
      exact hx
  · rw [if_neg h3]
    have hl : m.emitsLight = false := by simpa using h1
    have hs : m.specularOnly = false := by simpa using h3
    have hfr : N → Frame (ray.interaction.interpolateNormal n0 n1 n2).shading.dpdu (ray.interaction.interpolateNormal n0 n1 n2).shading.dpdv (ray.interaction.interpolateNormal n0 n1 n2).shading.normal := fun hn =>
      flat_frame (hN hn) ray tri b j hb hj n0 n1 n2 hn2 hit
    have c2 := (ambientSamples_count ({ ray with interaction := ray.interaction.interpolateNormal n0 n1 n2 } : TRay) rt.nAmbientSamples rt.maxDepth rt.limitWeight rng).2
    obtain ⟨g1, g2, g3, _, _⟩ := ambientSamples_holds ({ ray with interaction := ray.interaction.interpolateNormal n0 n1 n2 } : TRay) rt.nAmbientSamples rt.maxDepth rt.limitWeight rng hr
    generalize (({ ray with interaction := ray.interaction.interpolateNormal n0 n1 n2 } : TRay).getNAmbientSamples rt.nAmbientSamples rt.maxDepth rt.limitWeight rng) = samp at g1 g2 g3 c2
    obtain ⟨n, ray2, rng2⟩ := samp
    simp only at g1 g2 g3 c2 ⊢
    refine (localIllumination_holds N hS hN fuel m hl hs (fun hn => (hN hn).materials m hm) ray2 _ rng2 g1).bind fun x hx => ?_
    obtain ⟨loc, rng3⟩ := x
    simp only at hx ⊢
    by_cases hn0 : n = 0
    · rw [if_pos hn0]
      exact ⟨hx.1, fun hn => (hx.2 hn).add Spectrum.Nonneg.black⟩
    · rw [if_neg hn0]
      have hmatt := hG.resolve_left fun hz => hn0 (c2 hz)
      refine (refAmbient_holds N self h m hl hs (hmatt m hm) (fun hn => (hN hn).materials m hm) ray2 (by rw [g2]; exact hfr) (by rw [g3]; exact hidx) fuel n _ hx.1).bind fun y hy => ?_
      exact ⟨hy.1, fun hn => (hx.2 hn).add ((hy.2 hn).divBy (Nat.cast_nonneg _))⟩

theorem refTrace_good (N : Prop) (hS : w.Solid s) (hN : N → w.Physical s) (rt : RayTracer) (hG : rt.DirectOnly ∨ ∀ m ∈ s.materials, m.NotGlossy) (fuel : Nat) : GoodTrace N (refTrace w rt fuel) := by
  induction fuel with
  | zero => intro rng ray _ _; trivial
  | succ fuel ih =>
    intro rng ray hr hidx
    unfold refTrace
    rcases hS.renders.cast_cases ray with ⟨hc, _⟩ | ⟨i, tri, b, j, hc, hj, hb, _, ht, hf, hbk, hn, _⟩
    · rw [hc, Res.bind_ok]
      simp only
      cases hsky : w.sky with
      | none => exact ⟨hr, fun _ => Spectrum.Nonneg.black⟩
      | some sky =>
        refine ⟨hr, fun hn => ?_⟩
        have hcol : (w.skyColour.getD (Spectrum.gray 1)).Nonneg := by
          cases hcol : w.skyColour with
          | none => exact Spectrum.Nonneg.gray zero_le_one
          | some c => exact (hN hn).skyColour c hcol
        exact hcol.scale ((hN hn).sky sky hsky _)
    · rw [hc, Res.bind_ok]
      simp only
      split_ifs with hside
      · exact ⟨hr, fun _ => Spectrum.Nonneg.black⟩
      · have hjl : j < s.triangles.length := (List.getElem?_eq_some_iff.1 hj).1
        have hmat : (w.materialAt (recordedInteraction tri ray.geometry b).shading.side i).Holds fun m => m ∈ s.materials := by
          unfold World.materialAt
          have mat : ∀ k, k < s.materials.length → (Res.ofOption w.scene.materials[k]?).Holds fun m => m ∈ s.materials := by
            intro k hk
            rw [hS.renders.same.1]
            exact material_holds s k hk
          split
          · rw [hf, List.getElem?_eq_getElem (by rw [hS.renders.aligned.2.1]; exact hjl)]
            exact mat _ (hS.indices.1 _ (List.getElem_mem _))
          · rw [hbk, List.getElem?_eq_getElem (by rw [hS.renders.aligned.2.2]; exact hjl)]
            exact mat _ (hS.indices.2.1 _ (List.getElem_mem _))
          · rename_i hna
            exact absurd hna hside
        refine hmat.bind fun m hm => ?_
        exact refSurface_holds N hS hN rt hG fuel _ ih i j m hm { ray with interaction := recordedInteraction tri ray.geometry b } tri b hb ht hj hn hidx rfl rng hr

theorem traceRay_of_ref {P : (Spectrum ℝ × ℝ) × Rng → Prop} (rt : RayTracer) (fuel : Nat) (rng : Rng) (rays : List TRay) (ray : TRay) (h : rt.maxDepth < rays.length) (hP : (refTrace w rt fuel rng ray).Holds P) :
    (traceRay w rt fuel ⟨rng, rays⟩ ray).Holds fun x => P (x.1, x.2.2.rng) := by
  rw [← C75_is_reference_tracer w rt fuel rng rays ray h] at hP
  cases ht : traceRay w rt fuel ⟨rng, rays⟩ ray with
  | ok x => rw [ht] at hP; exact hP
  | panic => rw [ht] at hP; exact hP.elim
  | diverge => trivial

/-- **C92 (partial).** In a scene that has been built and whose lights can be sampled, tracing a ray never panics, whatever the ray, the settings (with a depth the scratch memory has room for), the random numbers and the number of bounces.
(Missing: glossy materials, for which it is false, see `C74_violation_panic`.) -/
theorem C92_never_panics_partial (hS : w.Sound s) (rt : RayTracer) (fuel : Nat) (rng : Rng) (hr : rng.Valid) (rays : List TRay) (ray : TRay) (h : rt.maxDepth < rays.length) :
    traceRay w rt fuel ⟨rng, rays⟩ ray ≠ .panic := by
  have := traceRay_of_ref rt fuel rng rays ray h (refTrace_good False hS.toSolid False.elim rt (.inr hS.matt) fuel rng ray hr False.elim)
  intro hp
  rw [hp] at this
  exact this

/-- **C92, direct light only.** With settings under which no ambient samples are taken, glossy materials do no harm either: nothing panics. (Mirrors and glass still send rays on.) -/
theorem C92_direct_light_never_panics (hS : w.Solid s) (rt : RayTracer) (hA : rt.DirectOnly) (fuel : Nat) (rng : Rng) (hr : rng.Valid) (rays : List TRay) (ray : TRay) (h : rt.maxDepth < rays.length) :
    traceRay w rt fuel ⟨rng, rays⟩ ray ≠ .panic := by
  have := traceRay_of_ref rt fuel rng rays ray h (refTrace_good False hS False.elim rt (.inl hA) fuel rng ray hr False.elim)
  intro hp
  rw [hp] at this
  exact this

/-- **C93 (partial).** In a flat-shaded scene whose constants make physical sense, and under a sky that is nowhere negative, no ray brings back negative light in any channel. (Missing: spheres and glossy materials.) -/
theorem C93_never_negative_partial (hS : w.Sound s) (hP : w.Physical s) (rt : RayTracer) (fuel : Nat) (rng : Rng) (hr : rng.Valid) (rays : List TRay) (ray : TRay) (h : rt.maxDepth < rays.length) (hn : 0 < ray.refractionIndex)
    (v : Spectrum ℝ) (pdf : ℝ) (ray' : TRay) (st' : TState) (ht : traceRay w rt fuel ⟨rng, rays⟩ ray = .ok ((v, pdf), ray', st')) : 0 ≤ v.c0 ∧ 0 ≤ v.c1 ∧ 0 ≤ v.c2 := by
  have := traceRay_of_ref rt fuel rng rays ray h (refTrace_good True hS.toSolid (fun _ => hP) rt (.inr hS.matt) fuel rng ray hr fun _ => hn)
  rw [ht] at this
  exact this.2 trivial

end Rendering
