import Verif.Spec.Brightness
import Verif.Props.SunShadow
import Verif.Props.Safety
import Verif.Props.Specular

set_option linter.unusedSectionVars false
namespace Rendering
open Classical

variable {w : World} {s : Scene ℝ} {ch : Spectrum ℝ → ℝ} {ρ : ℝ}

theorem ch_add (h : ch ∈ channelOf) (a b : Spectrum ℝ) : ch (a + b) = ch a + ch b := by
  simp only [channelOf, List.mem_cons, List.not_mem_nil, or_false] at h
  rcases h with rfl | rfl | rfl <;> rfl
theorem ch_mul (h : ch ∈ channelOf) (a b : Spectrum ℝ) : ch (a * b) = ch a * ch b := by
  simp only [channelOf, List.mem_cons, List.not_mem_nil, or_false] at h
  rcases h with rfl | rfl | rfl <;> rfl
theorem ch_scale (h : ch ∈ channelOf) (a : Spectrum ℝ) (k : ℝ) : ch (a.scale k) = ch a * k := by
  simp only [channelOf, List.mem_cons, List.not_mem_nil, or_false] at h
  rcases h with rfl | rfl | rfl <;> rfl
theorem ch_divBy (h : ch ∈ channelOf) (a : Spectrum ℝ) (k : ℝ) : ch (a.divBy k) = ch a / k := by
  simp only [channelOf, List.mem_cons, List.not_mem_nil, or_false] at h
  rcases h with rfl | rfl | rfl <;> rfl
theorem ch_gray (h : ch ∈ channelOf) (k : ℝ) : ch (Spectrum.gray k) = k := by
  simp only [channelOf, List.mem_cons, List.not_mem_nil, or_false] at h
  rcases h with rfl | rfl | rfl <;> rfl
theorem ch_black (h : ch ∈ channelOf) : ch Spectrum.black = 0 := ch_gray h 0

theorem matt_flags {m : Material ℝ} (hm : m.MattUpTo ch ρ) : m.emitsLight = false ∧ m.specularOnly = false := by
  cases m <;> first | exact ⟨rfl, rfl⟩ | exact hm.elim

theorem clear_flags {m : Material ℝ} (hm : m.Clear) : m.emitsLight = false ∧ m.specularOnly = true := by
  cases m <;> first | exact ⟨rfl, rfl⟩ | exact hm.elim

theorem dot_le_one {a b : Vec3 ℝ} (ha : Dot a a = 1) (hb : Dot b b ≤ 1) : |Dot a b| ≤ 1 := by
  rw [← sq_le_one_iff_abs_le_one]
  have lag : Dot a b ^ 2 ≤ Dot a a * Dot b b := by
    simp only [Dot]
    nlinarith [sq_nonneg (a.x * b.y - a.y * b.x), sq_nonneg (a.y * b.z - a.z * b.y), sq_nonneg (a.z * b.x - a.x * b.z)]
  rw [ha, one_mul] at lag
  exact lag.trans hb

theorem normalized_dot_le (v : Vec3 ℝ) : Dot v.normalized v.normalized ≤ 1 := by
  by_cases h : 0 < Dot v v
  · rw [normalized_dot_self h]
  · have h0 : v = 0 := by
      have : Dot v v = v.x ^ 2 + v.y ^ 2 + v.z ^ 2 := by simp only [Dot]; ring
      rw [this] at h
      have hx : v.x = 0 := by nlinarith [sq_nonneg v.x, sq_nonneg v.y, sq_nonneg v.z]
      have hy : v.y = 0 := by nlinarith [sq_nonneg v.x, sq_nonneg v.y, sq_nonneg v.z]
      have hz : v.z = 0 := by nlinarith [sq_nonneg v.x, sq_nonneg v.y, sq_nonneg v.z]
      ext <;> simp [hx, hy, hz]
    subst h0
    simp [Vec3.normalized, Dot]

theorem sampleDirection_short (ext : GeoExt) (hext : ext.PerpSpec) (p : Primitive ℝ) (hp : p.CanBeSampled) (rng : Rng) (hr : rng.Valid) (pt : Vec3 ℝ) :
    (p.sampleDirection ext rng pt).Holds fun x => x.2.Valid ∧ Dot x.1 x.1 ≤ 1 := by
  have h := sampleDirection_holds ext hext p hp rng hr pt
  unfold Primitive.sampleDirection at h ⊢
  cases hs : p.sampleSurface ext rng pt with
  | panic => rw [hs] at h; exact h
  | diverge => trivial
  | ok x =>
    rw [hs] at h
    exact ⟨h, normalized_dot_le _⟩

/-- What a matt surface does with a shadow ray. -/
theorem evalBsdf_matt (h : ch ∈ channelOf) {m : Material ℝ} (hm : m.MattUpTo ch ρ) (dt : DirTests) (normal e1 e2 : Vec3 ℝ) (ray : TRay) (vout : Vec3 ℝ) :
    ∃ v, m.evalBsdf dt normal e1 e2 ray vout = .ok v ∧ 0 ≤ ch v ∧ ch v ≤ ρ / Real.pi := by
  have hw : ∀ r i l, evaluateWard normal e1 e2 0 r r i l = (0, 1 / Real.pi) := by
    intro r i l
    unfold evaluateWard
    rw [if_neg (by norm_num)]
    norm_num
  cases m with
  | plastic c sp r =>
    obtain ⟨rfl, h0, h1⟩ := hm
    refine ⟨_, rfl, ?_⟩
    simp only [hw, plasticBsdf, ch_add h, ch_gray h, ch_scale h, zero_add]
    rw [mul_one_div]
    exact ⟨div_nonneg h0 Real.pi_pos.le, div_le_div_of_nonneg_right h1 Real.pi_pos.le⟩
  | metal c sp r =>
    obtain ⟨rfl, h0, h1⟩ := hm
    refine ⟨_, rfl, ?_⟩
    simp only [hw, metalBsdf, ch_add h, ch_scale h, mul_zero, zero_add]
    rw [mul_one_div]
    exact ⟨div_nonneg h0 Real.pi_pos.le, div_le_div_of_nonneg_right h1 Real.pi_pos.le⟩
  | light c => exact hm.elim
  | mirror c => exact hm.elim
  | dielectric c n => exact hm.elim
  | glass c n => exact hm.elim

/-- What a matt surface does with an ambient sample: `value · cos / pdf` is at most the reflectance, and the direction is a unit vector. -/
theorem sampleBsdf_matt (h : ch ∈ channelOf) {m : Material ℝ} (hm : m.MattUpTo ch ρ) (fuel : Nat) (normal e1 e2 pt : Vec3 ℝ) (ray : TRay) (rng : Rng) (hr : rng.Valid) (hf : Frame e1 e2 normal) :
    (m.sampleBsdf fuel normal e1 e2 pt ray rng).Holds fun x => x.2.2.Valid ∧ Norm x.2.1.geometry.direction = 1 ∧ 0 ≤ ch x.1.1 * |normal.dot x.2.1.geometry.direction| / x.1.2 ∧ ch x.1.1 * |normal.dot x.2.1.geometry.direction| / x.1.2 ≤ ρ := by
  have hw : ∀ (r : ℝ), (sampleWard fuel normal e1 e2 pt 0 r r ray rng).Holds fun x => x.2.2.Valid ∧ Norm x.2.1.geometry.direction = 1 ∧ x.1.1 = 0 ∧ x.1.2.1 = 1 / Real.pi ∧ 0 < normal.dot x.2.1.geometry.direction ∧ x.1.2.2 = normal.dot x.2.1.geometry.direction / Real.pi := by
    intro r
    unfold sampleWard
    obtain ⟨u1, u2, u3⟩ := C55_cosine_hemisphere (fun n => rng (n + 1)) (fun n => hr (n + 1))
    simp only [Rng.gen, not_lt.2 (hr 0).1, if_false]
    have hsq : (sampleCosineHemisphere fun n => rng (n + 1)).1.x ^ 2 + (sampleCosineHemisphere fun n => rng (n + 1)).1.y ^ 2 + (sampleCosineHemisphere fun n => rng (n + 1)).1.z ^ 2 = 1 := by
      have := Dot_self_of_norm u1
      simp only [Dot] at this
      linarith
    obtain ⟨k1, k2⟩ := world_unit hf hsq
    have hnorm : ∀ v : Vec3 ℝ, Norm v = 1 → v.normalized = v := fun v hv => by
      rw [normalized_eq, hv]
      ext <;> simp
    have hnorm := hnorm _ k1
    refine ⟨fun n => hr (n + 2 + 1), ?_, rfl, by norm_num, ?_, rfl⟩
    · rw [hnorm]; exact k1
    · rw [hnorm, Vec3.dot_eq, Dot_comm, k2]
      exact u2
  have fin : ∀ (v c x : ℝ), 0 < x → 0 ≤ c → c ≤ ρ → v = c * (1 / Real.pi) → 0 ≤ v * |x| / (x / Real.pi) ∧ v * |x| / (x / Real.pi) ≤ ρ := by
    intro v c x hx h0 h1 hv
    have : v * |x| / (x / Real.pi) = c := by
      rw [abs_of_pos hx, hv]
      have := Real.pi_pos.ne'
      field_simp
    rw [this]
    exact ⟨h0, h1⟩
  cases m with
  | plastic c sp r =>
    obtain ⟨rfl, h0, h1⟩ := hm
    refine (hw r).bind fun x ⟨a1, a2, a3, a4, a5, a6⟩ => ⟨a1, a2, ?_⟩
    simp only [plasticBsdf]
    rw [a6]
    exact fin _ (ch c) _ a5 h0 h1 (by rw [ch_add h, ch_gray h, ch_scale h, a3, a4, zero_add])
  | metal c sp r =>
    obtain ⟨rfl, h0, h1⟩ := hm
    refine (hw r).bind fun x ⟨a1, a2, a3, a4, a5, a6⟩ => ⟨a1, a2, ?_⟩
    simp only [metalBsdf]
    rw [a6]
    exact fin _ (ch c) _ a5 h0 h1 (by rw [ch_add h, ch_scale h, ch_scale h, a3, a4, mul_zero, zero_add])
  | light c => exact hm.elim
  | mirror c => exact hm.elim
  | dielectric c n => exact hm.elim
  | glass c n => exact hm.elim

/-! ### Shadow rays -/

theorem intersectLight_bright (hch : ch ∈ channelOf) (hS : w.Solid s) {L : Object ℝ → ℝ} (hL : s.SunsAtMost ch L) (o : Object ℝ) (ho : o ∈ s.distantLights) (ray : Ray3 ℝ) :
    (w.intersectLight o ray).Holds fun r => ∀ x, r = some x → ch x.1 ≤ L o ∧ (x.2 = 0 ∨ x.2 = 1 / o.primitive.solidAngle) := by
  have hm := hS.renders.same.1
  have hidx := hS.indices.2.2.2 o ho
  obtain ⟨⟨d, angle, hp⟩, hL0, hLc⟩ := hL o ho
  have hpdf : ∀ info, (o.primitive.solidAnglePdf info ray).Holds fun p => p = 1 / o.primitive.solidAngle := by
    intro info
    rw [hp]
    rfl
  have mat : ∀ i, i < s.materials.length → (Res.ofOption w.scene.materials[i]?).Holds fun m => s.materials[i]? = some m := by
    intro i hi
    rw [hm, List.getElem?_eq_getElem hi]
    rfl
  unfold World.intersectLight
  split
  · intro x hx; cases hx
  · rename_i info _
    obtain ⟨r, e, _⟩ := C03_unobstructed w.env hS.renders.lawful hS.renders.box s w.scene hS.renders.aligned hS.renders.fits hS.renders.built ray ((ray.origin - info.p).lengthSq) []
    simp only [e, Res.bind_ok]
    split_ifs
    · intro x hx; cases hx; exact ⟨by rw [ch_black hch]; exact hL0, .inl rfl⟩
    · split
      · intro x hx; cases hx; exact ⟨by rw [ch_black hch]; exact hL0, .inl rfl⟩
      · exact (mat _ hidx.1).bind fun m hm => (hpdf info).bind fun pdf hpdf => fun x hx => by cases hx; exact ⟨hLc _ m (.inl rfl) hm, .inr hpdf⟩
      · exact (mat _ hidx.2).bind fun m hm => (hpdf info).bind fun pdf hpdf => fun x hx => by cases hx; exact ⟨hLc _ m (.inr rfl) hm, .inr hpdf⟩

theorem solidAngle_nonneg (p : Primitive ℝ) : 0 ≤ p.solidAngle := by
  cases p with
  | source d a => exact mul_nonneg (by positivity) (by linarith [Real.cos_le_one (a / 2)])
  | _ => exact le_rfl

theorem term_le (l L c v ρ Ω n : ℝ) (hl : l ≤ L) (hL : 0 ≤ L) (hc0 : 0 ≤ c) (hc : c ≤ 1) (hv0 : 0 ≤ v) (hv : v ≤ ρ / Real.pi) (hΩ : 0 ≤ Ω) (hn : 0 ≤ n) : l * c * v / (n * (1 / Ω)) ≤ L * Ω * (ρ / Real.pi) / n := by
  have e : l * c * v / (n * (1 / Ω)) = l * c * v * (Ω / n) := by
    rcases eq_or_ne Ω 0 with rfl | h1
    · simp
    rcases eq_or_ne n 0 with rfl | h2
    · simp
    field_simp
  have e2 : L * Ω * (ρ / Real.pi) / n = L * (ρ / Real.pi) * (Ω / n) := by ring
  rw [e, e2]
  refine mul_le_mul_of_nonneg_right ?_ (div_nonneg hΩ hn)
  have h1 : l * c ≤ L * 1 := by nlinarith
  calc l * c * v ≤ L * 1 * v := mul_le_mul_of_nonneg_right h1 hv0
    _ ≤ L * (ρ / Real.pi) := by rw [mul_one]; exact mul_le_mul_of_nonneg_left hv hL

theorem lightLoop_bright (hch : ch ∈ channelOf) (hS : w.Solid s) {L : Object ℝ → ℝ} (hL : s.SunsAtMost ch L) {m : Material ℝ} (hm : m.MattUpTo ch ρ) (ray : TRay) (n : Nat) (pt normal e1 e2 : Vec3 ℝ) (hn : Dot normal normal = 1) (hρ : 0 ≤ ρ)
    (o : Object ℝ) (ho : o ∈ s.distantLights) (fuel i : Nat) (hi : i ≤ n) (acc : Spectrum ℝ) (rng : Rng) (hr : rng.Valid) :
    (w.lightLoop m ray n pt normal e1 e2 o fuel i acc rng).Holds fun x => x.2.Valid ∧ ch x.1 ≤ ch acc + ((n : ℝ) - i) * (L o * o.primitive.solidAngle * (ρ / Real.pi) / n) := by
  have hL0 := (hL o ho).2.1
  have hstep : 0 ≤ L o * o.primitive.solidAngle * (ρ / Real.pi) / n := by
    have := solidAngle_nonneg o.primitive
    have := Real.pi_pos
    positivity
  induction fuel generalizing i acc rng with
  | zero => trivial
  | succ fuel ih =>
    unfold World.lightLoop
    split_ifs with hin
    · refine (sampleDirection_short w.ext hS.perp o.primitive (hS.lights o (List.mem_append_right _ ho)) rng hr pt).bind fun x hx => ?_
      refine (intersectLight_bright hch hS hL o ho ⟨pt, x.1⟩).bind fun r hr' => ?_
      cases r with
      | none => exact ih i hi acc _ hx.1
      | some y =>
        obtain ⟨colour, pdf⟩ := y
        simp only
        split_ifs with hpdf
        · refine (ih (i + 1) hin acc _ hx.1).mono fun z hz => ⟨hz.1, hz.2.trans ?_⟩
          push_cast
          nlinarith
        · obtain ⟨hcol, hp0⟩ := hr' _ rfl
          have hp1 : pdf = 1 / o.primitive.solidAngle := by
            rcases hp0 with hp0 | hp0
            · exact absurd (by simp only at hp0; rw [hp0]; norm_num) hpdf
            · exact hp0
          obtain ⟨v, hv, hv0, hv1⟩ := evalBsdf_matt hch hm w.dt normal e1 e2 ray (x.1.scale (-1))
          unfold World.lightTerm
          simp only [hv, Res.bind_ok]
          refine (ih (i + 1) hin _ _ hx.1).mono fun z hz => ⟨hz.1, hz.2.trans ?_⟩
          rw [ch_add hch, ch_divBy hch, ch_mul hch, ch_scale hch, hp1]
          have := term_le (ch colour) (L o) |normal.dot x.1| (ch v) ρ o.primitive.solidAngle n hcol hL0 (abs_nonneg _) (by rw [Vec3.dot_eq]; exact dot_le_one hn hx.2) hv0 hv1 (solidAngle_nonneg _) (Nat.cast_nonneg _)
          push_cast
          nlinarith
    · refine ⟨hr, ?_⟩
      have : (i : ℝ) ≤ n := by exact_mod_cast hi
      nlinarith

theorem lightsLoop_bright (hch : ch ∈ channelOf) (hS : w.Solid s) {L : Object ℝ → ℝ} (hL : s.SunsAtMost ch L) {m : Material ℝ} (hm : m.MattUpTo ch ρ) (fuel : Nat) (ray : TRay) (n : Nat) (pt normal e1 e2 : Vec3 ℝ) (hn : Dot normal normal = 1) (hρ : 0 ≤ ρ)
    (os : List (Object ℝ)) (hos : ∀ o ∈ os, o ∈ s.distantLights) (acc : Spectrum ℝ) (rng : Rng) (hr : rng.Valid) :
    (w.lightsLoop fuel m ray n pt normal e1 e2 os acc rng).Holds fun x => x.2.Valid ∧ ch x.1 ≤ ch acc + (os.map fun o => L o * o.primitive.solidAngle).sum * (ρ / Real.pi) := by
  induction os generalizing acc rng with
  | nil => exact ⟨hr, by simp⟩
  | cons o os ih =>
    unfold World.lightsLoop
    have ho := hos o List.mem_cons_self
    refine (lightLoop_bright hch hS hL hm ray n pt normal e1 e2 hn hρ o ho fuel 0 (Nat.zero_le _) acc rng hr).bind fun x hx => ?_
    refine (ih (fun o ho => hos o (List.mem_cons_of_mem _ ho)) _ _ hx.1).mono fun z hz => ⟨hz.1, hz.2.trans ?_⟩
    have h1 := hx.2
    have h2 : ((n : ℝ) - (0 : ℕ)) * (L o * o.primitive.solidAngle * (ρ / Real.pi) / n) ≤ L o * o.primitive.solidAngle * (ρ / Real.pi) := by
      rcases eq_or_ne (n : ℝ) 0 with h0 | h0
      · rw [h0]
        have := solidAngle_nonneg o.primitive
        have := Real.pi_pos
        have := (hL o ho).2.1
        simp only [Nat.cast_zero, sub_zero, zero_mul]
        positivity
      · rw [Nat.cast_zero, sub_zero, mul_div_cancel₀ _ h0]
    rw [List.map_cons, List.sum_cons, add_mul]
    linarith

theorem localIllumination_bright (hch : ch ∈ channelOf) (hS : w.Solid s) (hlamps : s.lights = []) {L : Object ℝ → ℝ} (hL : s.SunsAtMost ch L) {m : Material ℝ} (hm : m.MattUpTo ch ρ) (hρ : 0 ≤ ρ) (fuel : Nat) (ray : TRay)
    (hn : Dot ray.interaction.shading.normal ray.interaction.shading.normal = 1) (n : Nat) (rng : Rng) (hr : rng.Valid) :
    (w.localIllumination fuel m ray rng n).Holds fun x => x.2.Valid ∧ ch x.1 ≤ s.sunlight L * (ρ / Real.pi) := by
  obtain ⟨_, h1, h2⟩ := hS.renders.same
  unfold World.localIllumination World.sampleLightArray
  rw [h1, h2, hlamps]
  simp only [World.lightsLoop, Res.bind_ok]
  refine (lightsLoop_bright hch hS hL hm fuel ray n _ _ _ _ hn hρ s.distantLights (fun o ho => ho) Spectrum.black rng hr).bind fun y hy => ?_
  refine ⟨hy.1, ?_⟩
  rw [ch_add hch, ch_black hch, zero_add]
  have := hy.2
  rwa [ch_black hch, zero_add] at this

/-! ### The recursion -/

theorem flat_triad (hflat : s.FlatShaded) (g : Ray3 ℝ) (tri : Tri ℝ) (b : Bary ℝ) (j : Nat) (hb : triangleIntersect tri g = some b) (hj : s.triangles[j]? = some tri) (n0 n1 n2 : Vec3 ℝ) (hn2 : s.normals[j]? = some (n0, n1, n2)) :
    Frame ((recordedInteraction tri g b).interpolateNormal n0 n1 n2).shading.dpdu ((recordedInteraction tri g b).interpolateNormal n0 n1 n2).shading.dpdv ((recordedInteraction tri g b).interpolateNormal n0 n1 n2).shading.normal := by
  rw [flat_normal hflat g tri b j hb hj n0 n1 n2 hn2]
  exact (recorded_frame tri g b hb).1

/-- What is required of a tracer: results of unit rays are at most `U depth` in the channel; those that are the sky seen directly only if `lit`. -/
def DimTrace (w : World) (ch : Spectrum ℝ → ℝ) (lit : Prop) (U : Nat → ℝ) (t : RefTrace) : Prop :=
  ∀ rng ray, Rng.Valid rng → Norm ray.geometry.direction = 1 → (t rng ray).Holds fun x => x.2.Valid ∧ (lit ∨ x.1.2 ≤ 0 ∨ (∃ hit, w.cast ray = .ok (some hit)) → ch x.1.1 ≤ U ray.depth)

theorem refAmbient_dim (hch : ch ∈ channelOf) {lit : Prop} {U : Nat → ℝ} (hU : ∀ d, 0 ≤ U d) (self : RefTrace) (h : DimTrace w ch lit U self) {m : Material ℝ} (hm : m.MattUpTo ch ρ) (hρ : 0 ≤ ρ) (arriving : TRay)
    (hf : Frame arriving.interaction.shading.dpdu arriving.interaction.shading.dpdv arriving.interaction.shading.normal) (fuel n : Nat) (rng : Rng) (hr : rng.Valid) :
    (refAmbient self m arriving fuel n rng).Holds fun x => x.2.Valid ∧ ch x.1 ≤ n * (ρ * U (arriving.depth + 1)) := by
  induction fuel generalizing n rng with
  | zero => trivial
  | succ fuel ih =>
    cases n with
    | zero => exact ⟨hr, by rw [ch_black hch]; simp⟩
    | succ n =>
      unfold refAmbient
      refine (sampleBsdf_matt hch hm fuel _ _ _ _ arriving rng hr hf).bind fun x ⟨hx1, hx2, hx3, hx4⟩ => ?_
      obtain ⟨⟨bsdf, pdf⟩, out, rng1⟩ := x
      simp only at hx1 hx2 hx3 hx4 ⊢
      refine (h _ _ hx1 ?_).bind fun y hy => ?_
      · exact hx2
      obtain ⟨⟨light, lightPdf⟩, rng2⟩ := y
      simp only at hy ⊢
      split_ifs with hp
      · exact ih (n + 1) _ hy.1
      · refine (ih n _ hy.1).bind fun z hz => ⟨hz.1, ?_⟩
        have hl := hy.2 (.inr (.inl (not_lt.1 hp)))
        rw [ch_add hch, ch_divBy hch, ch_scale hch, ch_mul hch]
        have e : ch light * ch bsdf * |arriving.interaction.shading.normal.dot out.geometry.direction| / pdf = ch light * (ch bsdf * |arriving.interaction.shading.normal.dot out.geometry.direction| / pdf) := by ring
        rw [e]
        have h1 := mul_le_mul_of_nonneg_right hl hx3
        have h2 := mul_le_mul_of_nonneg_left hx4 (hU (arriving.depth + 1))
        have h3 := hz.2
        push_cast
        nlinarith

/-- The paths a clear surface offers: unit rays of the same depth, with weights that add up to at most one. -/
theorem paths_clear (hch : ch ∈ channelOf) {m : Material ℝ} (hm : m.Clear) (normal pt : Vec3 ℝ) (ray : TRay) (hn : Norm normal = 1) (hv : Norm ray.geometry.direction = 1) (hd : Dot normal ray.geometry.direction ≠ 0) :
    (m.getPossiblePaths normal pt ray).Holds fun p => (∀ x ∈ p.toList, Norm x.1.geometry.direction = 1 ∧ x.1.depth = ray.depth ∧ 0 ≤ ch x.2) ∧ (p.toList.map fun x => ch x.2).sum ≤ 1 := by
  obtain ⟨m1, m2, _, _⟩ := C43_mirror_direction ray.geometry.direction normal hn hv
  cases m with
  | mirror c =>
    have hw : ch ((Spectrum.one.scale (1 / |ray.geometry.direction.dot normal|)).scale |normal.dot (mirrorDirection ray.geometry.direction normal)|) = 1 := by
      rw [ch_scale hch, ch_scale hch, Vec3.dot_eq, Vec3.dot_eq, Dot_comm normal, m2, abs_neg, show (Spectrum.one : Spectrum ℝ) = Spectrum.gray 1 from rfl, ch_gray hch, one_mul]
      rw [Dot_comm] at hd
      exact one_div_mul_cancel (abs_ne_zero.2 hd)
    refine ⟨fun x hx => ?_, ?_⟩
    · simp only [mirrorPaths, Paths.toList, Option.toList_some, Option.toList_none, List.append_nil, List.mem_singleton] at hx
      subst hx
      exact ⟨m1, rfl, by simp only [mirrorBsdf]; rw [hw]; exact zero_le_one⟩
    · simp only [mirrorPaths, Paths.toList, Option.toList_some, Option.toList_none, List.append_nil, List.map_cons, List.map_nil, List.sum_cons, List.sum_nil, mirrorBsdf]
      rw [hw]
      norm_num
  | glass c n =>
    obtain ⟨hn1, ⟨a0, a1, a2⟩, b0, b1, b2⟩ := hm
    obtain ⟨⟨r0, _⟩, ⟨t0, _⟩, rt, _⟩ := C48_glass_energy c n normal ray.geometry.direction hd hn1 (by
      intro f hf
      simp only [channelOf, List.mem_cons, List.not_mem_nil, or_false] at hf
      rcases hf with rfl | rfl | rfl
      · exact ⟨a0, b0⟩
      · exact ⟨a1, b1⟩
      · exact ⟨a2, b2⟩) ch hch
    refine ⟨fun x hx => ?_, ?_⟩
    · simp only [glassPaths, Paths.toList, Option.toList_some, List.mem_append, List.mem_singleton, Option.mem_toList] at hx
      rcases hx with rfl | hx
      · exact ⟨m1, rfl, r0⟩
      · split_ifs at hx
        · simp only [Option.some.injEq] at hx
          subst hx
          exact ⟨hv, rfl, t0⟩
    · simp only [glassPaths, Paths.toList]
      split_ifs
      · simpa using rt
      · simp only [Option.toList_some, Option.toList_none, List.append_nil, List.map_cons, List.map_nil, List.sum_cons, List.sum_nil, add_zero]
        linarith
  | plastic c s r => exact hm.elim
  | metal c s r => exact hm.elim
  | light c => exact hm.elim
  | dielectric c n => exact hm.elim

theorem refSpecular_dim (hch : ch ∈ channelOf) {U : Nat → ℝ} (hU : ∀ d, 0 ≤ U d) (hmono : ∀ d, U (d + 1) ≤ U d) (self : RefTrace) (h : DimTrace w ch True U self) (csb : ℝ) (depth : Nat) (paths : List (TRay × Spectrum ℝ))
    (hp : ∀ x ∈ paths, Norm x.1.geometry.direction = 1 ∧ x.1.depth = depth ∧ 0 ≤ ch x.2) (rng : Rng) (hr : rng.Valid) :
    (refSpecular self csb paths rng).Holds fun x => x.2.Valid ∧ ch x.1 ≤ (paths.map fun x => ch x.2).sum * U depth := by
  induction paths generalizing rng with
  | nil => exact ⟨hr, by rw [ch_black hch]; simp⟩
  | cons p paths ih =>
    obtain ⟨path, weight⟩ := p
    unfold refSpecular
    obtain ⟨p1, p2, p3⟩ := hp _ List.mem_cons_self
    simp only at p1 p2 p3
    refine Res.Holds.bind (P := fun x => x.2.Valid ∧ ch x.1.1 ≤ U depth) ?_ fun x hx => ?_
    · refine (h _ _ (hr.rest 1) ?_).mono fun x hx => ⟨hx.1, (hx.2 (.inl trivial)).trans ?_⟩
      · split_ifs <;> exact p1
      · split_ifs
        · simp only [p2]; exact hmono _
        · rw [p2]
    · refine (ih (fun x hx => hp x (List.mem_cons_of_mem _ hx)) _ hx.1).bind fun y hy => ⟨hy.1, ?_⟩
      rw [ch_add hch, ch_mul hch, List.map_cons, List.sum_cons, add_mul]
      have := mul_le_mul_of_nonneg_right hx.2 p3
      have := hy.2
      linarith

theorem refSurface_dim (hch : ch ∈ channelOf) (hS : w.Solid s) (hflat : s.FlatShaded) (hlamps : s.lights = []) {L : Object ℝ → ℝ} (hL : s.SunsAtMost ch L) (hρ : 0 ≤ ρ) {lit : Prop} (rt : RayTracer) {U : Nat → ℝ} (hU : ∀ d, 0 ≤ U d)
    (hmono : ∀ d, U (d + 1) ≤ U d) (hstep : ∀ d ≤ rt.maxDepth, s.sunlight L * (ρ / Real.pi) + ρ * U (d + 1) ≤ U d) (fuel : Nat) (self : RefTrace) (h : DimTrace w ch lit U self) (i j : Nat) (m : Material ℝ)
    (hm : m.MattUpTo ch ρ ∨ lit ∧ m.Clear) (ray : TRay) (hray : Norm ray.geometry.direction = 1) (tri : Tri ℝ) (b : Bary ℝ) (hb : triangleIntersect tri ray.geometry = some b) (hi : w.scene.triangles[i]? = some tri)
    (hj : s.triangles[j]? = some tri) (hn : w.scene.normals[i]? = s.normals[j]?) (hit : ray.interaction = recordedInteraction tri ray.geometry b) (rng : Rng) (hr : rng.Valid) :
    (refSurface w rt fuel self i m ray rng).Holds fun x => x.2.Valid ∧ ch x.1.1 ≤ U ray.depth := by
  have hjl : j < s.triangles.length := (List.getElem?_eq_some_iff.1 hj).1
  obtain ⟨n0, n1, n2, hn1, hn2⟩ : ∃ n0 n1 n2, w.scene.normals[i]? = some (n0, n1, n2) ∧ s.normals[j]? = some (n0, n1, n2) := by
    rw [hn, List.getElem?_eq_getElem (by rw [hS.renders.aligned.1]; exact hjl)]
    exact ⟨_, _, _, rfl, rfl⟩
  unfold refSurface
  simp only [hi, hn1, Res.ofOption_some, Res.bind_ok]
  have hl : m.emitsLight = false := hm.elim (fun h => (matt_flags h).1) (fun h => (clear_flags h.2).1)
  rw [if_neg (by simp [hl])]
  by_cases h2 : ray.depth > rt.maxDepth
  · rw [if_pos h2]
    exact ⟨hr, by rw [ch_black hch]; exact hU _⟩
  rw [if_neg h2]
  rcases hm with hm | ⟨hlit, hm⟩
  · rw [if_neg (by simp [(matt_flags hm).2])]
    have hfr := flat_triad hflat ray.geometry tri b j hb hj n0 n1 n2 hn2
    rw [← hit] at hfr
    obtain ⟨g1, g2, _, _, g5⟩ := ambientSamples_holds ({ ray with interaction := ray.interaction.interpolateNormal n0 n1 n2 } : TRay) rt.nAmbientSamples rt.maxDepth rt.limitWeight rng hr
    generalize (({ ray with interaction := ray.interaction.interpolateNormal n0 n1 n2 } : TRay).getNAmbientSamples rt.nAmbientSamples rt.maxDepth rt.limitWeight rng) = samp at g1 g2 g5
    obtain ⟨n, ray2, rng2⟩ := samp
    simp only at g1 g2 g5 ⊢
    refine (localIllumination_bright hch hS hlamps hL hm hρ fuel ray2 (by rw [g2]; exact Dot_self_of_norm hfr.n3) _ rng2 g1).bind fun x hx => ?_
    obtain ⟨loc, rng3⟩ := x
    simp only at hx ⊢
    have hs := hstep ray.depth (not_lt.1 h2)
    by_cases hn0 : n = 0
    · rw [if_pos hn0]
      refine ⟨hx.1, ?_⟩
      rw [ch_add hch, ch_black hch]
      have := mul_nonneg hρ (hU (ray.depth + 1))
      linarith [hx.2]
    · rw [if_neg hn0]
      refine (refAmbient_dim hch hU self h hm hρ ray2 (by rw [g2]; exact hfr) fuel n _ hx.1).bind fun y hy => ⟨hy.1, ?_⟩
      rw [ch_add hch, ch_divBy hch]
      have h3 := hy.2
      rw [g5] at h3
      have hn' : (0 : ℝ) < n := by exact_mod_cast Nat.pos_of_ne_zero hn0
      have h4 : ch y.1 / n ≤ ρ * U (ray.depth + 1) := by rw [div_le_iff₀ hn']; linarith
      linarith [hx.2]
  · rw [if_pos (clear_flags hm).2]
    obtain ⟨_, hnu, _, _, hlt, _⟩ := C15_hit_is_geometric tri ray.geometry ray.interaction.shading (by
      rw [hit]
      unfold triangleIntersectInfo
      unfold triangleIntersect at hb
      rw [hb]
      rfl)
    refine (paths_clear hch hm ray.interaction.shading.normal ray.interaction.point { ray with interaction := ray.interaction.interpolateNormal n0 n1 n2 } hnu hray hlt.ne).bind fun p hp => ?_
    refine (refSpecular_dim (w := w) hch hU hmono self (fun rng' ray' a1 a2 => (h rng' ray' a1 a2).mono fun x hx => ⟨hx.1, fun _ => hx.2 (.inl hlit)⟩) rt.countSpecularBounce ray.depth p.toList hp.1 rng hr).bind fun x hx => ⟨hx.1, ?_⟩
    exact hx.2.trans (mul_le_of_le_one_left (hU _) hp.2)

theorem refTrace_dim (hch : ch ∈ channelOf) (hS : w.Solid s) (hflat : s.FlatShaded) (hlamps : s.lights = []) {L : Object ℝ → ℝ} (hL : s.SunsAtMost ch L) (hρ : 0 ≤ ρ) (lit : Prop) (hm : ∀ m, s.UsedOnSurface m → m.MattUpTo ch ρ ∨ lit ∧ m.Clear)
    (rt : RayTracer) {U : Nat → ℝ} (hU : ∀ d, 0 ≤ U d) (hmono : ∀ d, U (d + 1) ≤ U d) (hstep : ∀ d ≤ rt.maxDepth, s.sunlight L * (ρ / Real.pi) + ρ * U (d + 1) ≤ U d)
    (hsky : lit → ∀ sky, w.sky = some sky → ∀ v d, ch (w.skyColour.getD (Spectrum.gray 1)) * sky v ≤ U d) (fuel : Nat) : DimTrace w ch lit U (refTrace w rt fuel) := by
  induction fuel with
  | zero => intro rng ray _ _; trivial
  | succ fuel ih =>
    intro rng ray hr hray
    unfold refTrace
    rcases hS.renders.cast_cases ray with ⟨hc, _⟩ | ⟨i, tri, b, j, hc, hj, hb, _, ht, hf, hbk, hn, _⟩
    · rw [hc, Res.bind_ok]
      simp only
      cases hs : w.sky with
      | none => exact ⟨hr, fun _ => by rw [ch_black hch]; exact hU _⟩
      | some sky =>
        refine ⟨hr, fun h => ?_⟩
        rcases h with h | h | ⟨hit, h⟩
        · rw [ch_scale hch]
          exact hsky h sky hs _ _
        · have : (0 : ℝ) < 1 / 2 / Real.pi := by have := Real.pi_pos; positivity
          exact absurd h (not_le.2 this)
        · cases h
    · rw [hc, Res.bind_ok]
      simp only
      split_ifs with hside
      · exact ⟨hr, fun _ => by rw [ch_black hch]; exact hU _⟩
      · have hjl : j < s.triangles.length := (List.getElem?_eq_some_iff.1 hj).1
        have hmat : (w.materialAt (recordedInteraction tri ray.geometry b).shading.side i).Holds fun m => s.UsedOnSurface m := by
          unfold World.materialAt
          have mat : ∀ k, k < s.materials.length → (s.front[j]? = some k ∨ s.back[j]? = some k) → (Res.ofOption w.scene.materials[k]?).Holds fun m => s.UsedOnSurface m := by
            intro k hk hkj
            rw [hS.renders.same.1, List.getElem?_eq_getElem hk]
            exact ⟨j, k, hkj, List.getElem?_eq_getElem hk⟩
          split
          · rw [hf, List.getElem?_eq_getElem (by rw [hS.renders.aligned.2.1]; exact hjl)]
            exact mat _ (hS.indices.1 _ (List.getElem_mem _)) (.inl (List.getElem?_eq_getElem _))
          · rw [hbk, List.getElem?_eq_getElem (by rw [hS.renders.aligned.2.2]; exact hjl)]
            exact mat _ (hS.indices.2.1 _ (List.getElem_mem _)) (.inr (List.getElem?_eq_getElem _))
          · rename_i hna
            exact absurd hna hside
        refine hmat.bind fun m hmu => ?_
        exact (refSurface_dim hch hS hflat hlamps hL hρ rt hU hmono hstep fuel _ ih i j m (hm m hmu) { ray with interaction := recordedInteraction tri ray.geometry b } hray tri b hb ht hj hn rfl rng hr).mono fun x hx => ⟨hx.1, fun _ => hx.2⟩

end Rendering
