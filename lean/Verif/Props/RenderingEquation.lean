import Verif.Lemmas.MeanBounce
import Verif.Props.SpecularEnds

/-!
# C119: on average, tracing solves the rendering equation
-/

set_option linter.unusedSectionVars false
namespace Rendering

open MeasureTheory Set

variable {w : World} {s : Scene ℝ}

/-- The normal of a triangle towards one of its sides. -/
noncomputable def facing (tri : Tri ℝ) (bk : Bool) : Vec3 ℝ := if bk then -(geometricNormal tri).normalized else (geometricNormal tri).normalized

noncomputable def along (tri : Tri ℝ) : Vec3 ℝ := (tri.b - tri.a).normalized

noncomputable def across (tri : Tri ℝ) (bk : Bool) : Vec3 ℝ := ((facing tri bk).cross (along tri)).normalized

def sideOf (bk : Bool) : SurfaceSide := if bk then .Back else .Front

/-- One side of triangle `i` is a matt surface. -/
structure MattSide (w : World) (i : Nat) (bk : Bool) (tri : Tri ℝ) (m : Material ℝ) (col : Spectrum ℝ) (r : ℝ) : Prop where
  triangle : w.scene.triangles[i]? = some tri
  material : w.materialAt (sideOf bk) i = .ok m
  matt : m ∈ [Material.plastic col 0 r, Material.metal col 0 r]
  nonneg : col.Nonneg
  frame : Frame (along tri) (across tri bk) (facing tri bk)
  normals : w.scene.normals[i]? = some (unitNormal tri, unitNormal tri, unitNormal tri)

/-- One side of triangle `i` is a flat surface of material `m`. -/
structure FlatSide (w : World) (s : Scene ℝ) (i : Nat) (bk : Bool) (tri : Tri ℝ) (m : Material ℝ) : Prop where
  triangle : w.scene.triangles[i]? = some tri
  material : w.materialAt (sideOf bk) i = .ok m
  listed : ∃ k, s.materials[k]? = some m ∧ k ∈ s.front ++ s.back
  frame : Frame (along tri) (across tri bk) (facing tri bk)
  normals : w.scene.normals[i]? = some (unitNormal tri, unitNormal tri, unitNormal tri)

/-- Where a ray arrives on such a surface. -/
structure ArrivesAt (g : Ray3 ℝ) (bk : Bool) (tri : Tri ℝ) (it : Interaction) : Prop where
  point : it.point = planePoint tri g
  side : it.shading.side = sideOf bk
  normal : it.shading.normal = facing tri bk
  dpdu : it.shading.dpdu = along tri
  dpdv : it.shading.dpdv = across tri bk
  interp : it.interpolateNormal (unitNormal tri) (unitNormal tri) (unitNormal tri) = it
  faces : Dot (facing tri bk) g.direction < 0

theorem side_material (hW : w.Sunlit s) {i j : Nat} {tri : Tri ℝ} (bk : Bool) (hj : s.triangles[j]? = some tri) (hf : w.scene.front[i]? = s.front[j]?) (hb : w.scene.back[i]? = s.back[j]?) :
    ∃ m, w.materialAt (sideOf bk) i = .ok m ∧ ∃ k, s.materials[k]? = some m ∧ k ∈ s.front ++ s.back := by
  have hjl : j < s.triangles.length := (List.getElem?_eq_some_iff.1 hj).1
  have hal := hW.renders.aligned
  have hfl : j < s.front.length := by rw [hal.2.1]; exact hjl
  have hbl : j < s.back.length := by rw [hal.2.2]; exact hjl
  cases bk with
  | false =>
    have hk : s.front[j] ∈ s.front := List.getElem_mem _
    have hlt := hW.indices.1 _ hk
    have hm : s.materials[s.front[j]]? = some s.materials[s.front[j]] := List.getElem?_eq_getElem hlt
    refine ⟨_, ?_, _, hm, List.mem_append_left _ hk⟩
    simp only [sideOf, World.materialAt, hf, List.getElem?_eq_getElem hfl, Res.ofOption_some, Res.bind_ok, hW.renders.same.1, hm, Bool.false_eq_true, if_false]
  | true =>
    have hk : s.back[j] ∈ s.back := List.getElem_mem _
    have hlt := hW.indices.2.1 _ hk
    have hm : s.materials[s.back[j]]? = some s.materials[s.back[j]] := List.getElem?_eq_getElem hlt
    refine ⟨_, ?_, _, hm, List.mem_append_right _ hk⟩
    simp only [sideOf, World.materialAt, hb, List.getElem?_eq_getElem hbl, Res.ofOption_some, Res.bind_ok, hW.renders.same.1, hm, if_true]

open Classical in
/-- Which side of which surface a ray meets depends measurably on the ray. -/
theorem disc_flat (hW : w.Sunlit s) : ∃ code : Ray3 ℝ → Option (Nat × Bool), Disc code ∧ ∀ ray : TRay, Norm ray.geometry.direction = 1 →
    (code ray.geometry = none ∧ w.cast ray = .ok none) ∨
    ∃ i bk tri m it, code ray.geometry = some (i, bk) ∧ FlatSide w s i bk tri m ∧ w.cast ray = .ok (some (i, { ray with interaction := it })) ∧ ArrivesAt ray.geometry bk tri it := by
  obtain ⟨idx, hdisc, hall⟩ := disc_cast hW.renders hW.box
  let bkOf : Nat → Ray3 ℝ → Bool := fun i g => if ∃ tri, w.scene.triangles[i]? = some tri ∧ 0 < Dot (geometricNormal tri) g.direction then true else false
  let codeOf : Option Nat → Ray3 ℝ → Option (Nat × Bool) := fun o g => match o with
    | none => none
    | some i => some (i, bkOf i g)
  refine ⟨fun g => codeOf (idx g) g, ?_, ?_⟩
  · refine hdisc.bind (f := codeOf) fun o => ?_
    cases o with
    | none => exact Disc.const _
    | some i =>
      have hm : MeasurableSet {g : Ray3 ℝ | ∃ tri, w.scene.triangles[i]? = some tri ∧ 0 < Dot (geometricNormal tri) g.direction} := by
        cases ht : w.scene.triangles[i]? with
        | none => simp
        | some tri =>
          have : {g : Ray3 ℝ | ∃ tri', some tri = some tri' ∧ 0 < Dot (geometricNormal tri') g.direction} = {g : Ray3 ℝ | 0 < Dot (geometricNormal tri) g.direction} := by
            ext g; simp
          rw [this]
          exact measurableSet_lt measurable_const (measurable_Dot measurable_const Ray3.measurable_direction)
      have h2 : Disc (bkOf i) := Disc.ite hm (Disc.const _) (Disc.const _)
      exact h2.map fun b => some (i, b)
  · intro ray hd
    rcases hall ray with ⟨h1, h2⟩ | ⟨i, tri, b, j, h1, h2, hj, hb, ht, hf, hbk, hn⟩
    · left
      exact ⟨by simp only [h1, codeOf], h2⟩
    · right
      obtain ⟨hp, hframe, hside, hdot, hpos, _, _⟩ := recorded_spec tri ray.geometry b hd hb
      have hinv : Dot (geometricNormal tri).normalized ray.geometry.direction = Dot (geometricNormal tri) ray.geometry.direction / Norm (geometricNormal tri) := by
        rw [normalized_eq]; simp only [Dot, Vec3.scale]; ring
      have hnorm : 0 < Norm (geometricNormal tri) := Norm_pos hpos
      have hbkv : (recordedInteraction tri ray.geometry b).shading.side = sideOf (bkOf i ray.geometry) ∧ (recordedInteraction tri ray.geometry b).shading.normal = facing tri (bkOf i ray.geometry) := by
        rcases hside with ⟨h3, h4⟩ | ⟨h3, h4⟩
        · have hneg : ¬ ∃ tri, w.scene.triangles[i]? = some tri ∧ 0 < Dot (geometricNormal tri) ray.geometry.direction := by
            rintro ⟨tri', e, hp'⟩
            rw [ht] at e
            cases e
            rw [h4, hinv] at hdot
            have := div_pos hp' hnorm
            linarith
          simp only [bkOf, hneg, if_false]
          exact ⟨h3, h4⟩
        · have hpos' : ∃ tri, w.scene.triangles[i]? = some tri ∧ 0 < Dot (geometricNormal tri) ray.geometry.direction := by
            refine ⟨tri, ht, ?_⟩
            rw [h4] at hdot
            have e : Dot (-(geometricNormal tri).normalized) ray.geometry.direction = -(Dot (geometricNormal tri) ray.geometry.direction / Norm (geometricNormal tri)) := by
              rw [← hinv]; simp only [Dot, Vec3.neg_x, Vec3.neg_y, Vec3.neg_z]; ring
            rw [e] at hdot
            by_contra hc
            have := div_nonpos_of_nonpos_of_nonneg (not_lt.1 hc) hnorm.le
            linarith
          simp only [bkOf, hpos', if_true]
          exact ⟨h3, h4⟩
      obtain ⟨hs1, hs2⟩ := hbkv
      set bk := bkOf i ray.geometry with hbkdef
      obtain ⟨m, hm1, hm2⟩ := side_material hW bk hj hf hbk
      have hdu : (recordedInteraction tri ray.geometry b).shading.dpdu = along tri := rfl
      have hdv : (recordedInteraction tri ray.geometry b).shading.dpdv = across tri bk := by
        unfold across
        rw [← hs2]
        rfl
      rw [hdu, hdv, hs2] at hframe
      have hno : w.scene.normals[i]? = some (unitNormal tri, unitNormal tri, unitNormal tri) := by rw [hn, hW.flat j tri hj]; rfl
      refine ⟨i, bk, tri, m, recordedInteraction tri ray.geometry b, by simp only [h1, codeOf, hbkdef], ⟨ht, hm1, hm2, hframe, hno⟩, h2, ?_⟩
      exact ⟨by rw [hp, intersect_point hb], hs1, hs2, hdu, hdv, interp_recorded tri ray.geometry b hd hb, by rw [← hs2]; exact hdot⟩

theorem FlatSide.matt_side (hW : w.SunlitMatt s) {i : Nat} {bk : Bool} {tri : Tri ℝ} {m : Material ℝ} (h : FlatSide w s i bk tri m) : ∃ col r, MattSide w i bk tri m col r := by
  obtain ⟨k, h1, h2⟩ := h.listed
  obtain ⟨col, r, h3, h4⟩ := hW.matt k m h1 h2
  exact ⟨col, r, h.triangle, h.material, h3, h4, h.frame, h.normals⟩

/-- The same for a scene of matt surfaces. -/
theorem disc_side (hW : w.SunlitMatt s) : ∃ code : Ray3 ℝ → Option (Nat × Bool), Disc code ∧ ∀ ray : TRay, Norm ray.geometry.direction = 1 →
    (code ray.geometry = none ∧ w.cast ray = .ok none) ∨
    ∃ i bk tri m col r it, code ray.geometry = some (i, bk) ∧ MattSide w i bk tri m col r ∧ w.cast ray = .ok (some (i, { ray with interaction := it })) ∧ ArrivesAt ray.geometry bk tri it := by
  obtain ⟨code, h1, h2⟩ := disc_flat hW.toSunlit
  refine ⟨code, h1, fun ray hd => (h2 ray hd).imp_right ?_⟩
  rintro ⟨i, bk, tri, m, it, a, b, c, d⟩
  obtain ⟨col, r, h⟩ := b.matt_side hW
  exact ⟨i, bk, tri, m, col, r, it, a, h, c, d⟩

open Classical in
/-- The chance that a path of non-negative weight is followed. -/
theorem survive_mean (v lim : ℝ) (hv : 0 ≤ v) (A : ENNReal) :
    ∫⁻ u in Ico (0 : ℝ) 1, (if ExceedsQuotient u v lim then 0 else A) = (if lim = 0 then 1 else ENNReal.ofReal (min 1 (v / lim))) * A := by
  by_cases hl : lim = 0
  · subst hl
    have : ∀ u : ℝ, ¬ ExceedsQuotient u v 0 := by
      rintro u (⟨h, _⟩ | ⟨_, h⟩)
      · exact h rfl
      · linarith
    simp only [this, if_false, if_true, one_mul]
    rw [setLIntegral_const, Real.volume_Ico]
    norm_num
  · have hE : ∀ u : ℝ, ExceedsQuotient u v lim ↔ v / lim < u := fun u => by simp [ExceedsQuotient, hl]
    simp only [hE, hl, if_false]
    have hm : MeasurableSet {u : ℝ | ¬ v / lim < u} := (measurableSet_lt measurable_const measurable_id).compl
    have e : ∀ u : ℝ, (if v / lim < u then 0 else A) = {u : ℝ | ¬ v / lim < u}.indicator (fun _ => A) u := by
      intro u
      by_cases h : v / lim < u
      · rw [if_pos h, indicator_of_notMem (by simpa using h)]
      · rw [if_neg h, indicator_of_mem (by simpa using h)]
    simp only [e]
    rw [lintegral_indicator hm, Measure.restrict_restrict hm, setLIntegral_const, mul_comm]
    congr 1
    set q := v / lim with hq
    by_cases h1 : 1 ≤ q
    · have : {u : ℝ | ¬ q < u} ∩ Ico 0 1 = Ico 0 1 := by
        ext u; simp only [mem_inter_iff, mem_setOf_eq, mem_Ico, not_lt]
        exact ⟨fun h => h.2, fun h => ⟨by linarith [h.2], h⟩⟩
      rw [this, Real.volume_Ico, min_eq_left h1]; norm_num
    · push Not at h1
      rw [min_eq_right h1.le]
      by_cases h0 : 0 ≤ q
      · have : {u : ℝ | ¬ q < u} ∩ Ico 0 1 = Icc 0 q := by
          ext u; simp only [mem_inter_iff, mem_setOf_eq, mem_Ico, mem_Icc, not_lt]
          exact ⟨fun h => ⟨h.2.1, h.1⟩, fun h => ⟨h.2, h.1, by linarith [h.2]⟩⟩
        rw [this, Real.volume_Icc, sub_zero]
      · push Not at h0
        have : {u : ℝ | ¬ q < u} ∩ Ico 0 1 = ∅ := by
          ext u; simp only [mem_inter_iff, mem_setOf_eq, mem_Ico, not_lt, mem_empty_iff_false, iff_false]
          rintro ⟨h1, h2, _⟩; linarith
        rw [this, measure_empty, ENNReal.ofReal_of_nonpos h0.le]

theorem avg_congr {f g : Rng → ENNReal} (h : ∀ r : Rng, r.Valid → f r = g r) : avg f = avg g := by
  refine lintegral_congr_ae ?_
  have : ∀ᵐ r ∂randomNumbers, Rng.Valid r := valid_almost_surely
  filter_upwards [this] with r hr
  exact h r hr

/-- The sunlight at a point of a matt surface. -/
theorem sunlight_noisy (hW : w.Sunlit s) (m : Material ℝ) (col : Spectrum ℝ) (r : ℝ) (hm : m ∈ [Material.plastic col 0 r, Material.metal col 0 r]) (hcol : col.Nonneg) (ch : Spectrum ℝ → ℝ) (hch : ch ∈ [Spectrum.c0, Spectrum.c1, Spectrum.c2]) (N : Vec3 ℝ) :
    ∃ V : Vec3 ℝ → ENNReal, ∀ n : Nat, 0 < n → ∃ val rest, Fresh val rest ∧ (∀ p, Noisy (val p) (V p / n)) ∧ (∀ arrived : TRay, arrived.interaction.shading.normal = N → avg (val arrived.interaction.point) = sunlightAt w m arrived ch) ∧
      ∀ (arrived : TRay) (fuel : Nat) (rng : Rng), arrived.interaction.shading.normal = N → n < fuel → rng.Valid →
        ∃ v, w.localIllumination fuel m arrived rng n = .ok (v, rest arrived.interaction.point rng) ∧ 0 ≤ ch v ∧ ENNReal.ofReal (ch v) = val arrived.interaction.point rng ∧ (rest arrived.interaction.point rng).Valid := by
  have hnn : ∀ c : Spectrum ℝ, c.Nonneg → 0 ≤ ch c := by
    intro c hc
    simp only [List.mem_cons, List.not_mem_nil, or_false] at hch
    rcases hch with rfl | rfl | rfl
    · exact hc.1
    · exact hc.2.1
    · exact hc.2.2
  obtain ⟨M, V, hM⟩ := suns_noisy hW.renders hW.perp hW.box m col r hm ch hch (hnn _ hcol) N s.distantLights (fun sun hs => by
    obtain ⟨d, a, L, D, h1, h2⟩ := hW.suns sun hs
    exact ⟨d, a, L, D, h1, hnn _ h2⟩)
  have key : ∀ n : Nat, 0 < n → ∃ val rest, Fresh val rest ∧ (∀ p, avg (val p) = M p ∧ Noisy (val p) (V p / n)) ∧
      ∀ (arrived : TRay) (fuel : Nat) (rng : Rng), arrived.interaction.shading.normal = N → n < fuel → rng.Valid →
        ∃ v, w.localIllumination fuel m arrived rng n = .ok (v, rest arrived.interaction.point rng) ∧ 0 ≤ ch v ∧ ENNReal.ofReal (ch v) = val arrived.interaction.point rng ∧ (rest arrived.interaction.point rng).Valid := by
    intro n hn
    obtain ⟨val, rest, hF, hmean, hrun⟩ := hM n hn
    refine ⟨val, rest, hF, hmean, fun arrived fuel rng hN hfu hv => ?_⟩
    obtain ⟨v, x, h1, h2, h3, h4, h5⟩ := hrun arrived.interaction.point arrived arrived.interaction.shading.dpdu arrived.interaction.shading.dpdv fuel Spectrum.black rng hfu hv
    rw [chan_black hch, zero_add] at h3
    have hb : Spectrum.black + v = v := by ext <;> simp [Spectrum.black, Spectrum.gray]
    refine ⟨v, ?_, by rw [h3]; exact h2, by rw [h3, h4], h5⟩
    unfold World.localIllumination
    rw [hW.renders.same.2.1, hW.lamps, hW.renders.same.2.2]
    simp only [World.sampleLightArray, World.lightsLoop, TRay.getTriad, Res.bind_ok, hN, h1, hb]
  refine ⟨V, fun n hn => ?_⟩
  obtain ⟨val, rest, hF, hmean, hrun⟩ := key n hn
  refine ⟨val, rest, hF, fun p => (hmean p).2, fun arrived hN => ?_, hrun⟩
  obtain ⟨val1, rest1, hF1, hmean1, hrun1⟩ := key 1 one_pos
  rw [(hmean _).1, ← (hmean1 _).1]
  refine avg_congr fun r hr => ?_
  obtain ⟨v, h1, _, h3, _⟩ := hrun1 arrived 2 r hN (by norm_num) hr
  rw [h1, ← h3]
  rfl

/-- The sunlight at a point of a matt surface. -/
theorem sunlight_fresh (hW : w.Sunlit s) (m : Material ℝ) (col : Spectrum ℝ) (r : ℝ) (hm : m ∈ [Material.plastic col 0 r, Material.metal col 0 r]) (hcol : col.Nonneg) (ch : Spectrum ℝ → ℝ) (hch : ch ∈ [Spectrum.c0, Spectrum.c1, Spectrum.c2]) (N : Vec3 ℝ) :
    ∀ n, 0 < n → ∃ val rest, Fresh val rest ∧ (∀ arrived : TRay, arrived.interaction.shading.normal = N → avg (val arrived.interaction.point) = sunlightAt w m arrived ch) ∧
      ∀ (arrived : TRay) (fuel : Nat) (rng : Rng), arrived.interaction.shading.normal = N → n < fuel → rng.Valid →
        ∃ v, w.localIllumination fuel m arrived rng n = .ok (v, rest arrived.interaction.point rng) ∧ 0 ≤ ch v ∧ ENNReal.ofReal (ch v) = val arrived.interaction.point rng ∧ (rest arrived.interaction.point rng).Valid := by
  obtain ⟨V, h⟩ := sunlight_noisy hW m col r hm hcol ch hch N
  intro n hn
  obtain ⟨val, rest, h1, -, h2⟩ := h n hn
  exact ⟨val, rest, h1, h2⟩

theorem matt_only_flags {m : Material ℝ} {col : Spectrum ℝ} {r : ℝ} (hm : m ∈ [Material.plastic col 0 r, Material.metal col 0 r]) : m.emitsLight = false ∧ m.specularOnly = false ∧ m.colour = col := by
  simp only [List.mem_cons, List.not_mem_nil, or_false] at hm
  rcases hm with rfl | rfl <;> exact ⟨rfl, rfl, rfl⟩

theorem radiance_nonneg' {c : Spectrum ℝ} (h : c.Nonneg) : 0 ≤ c.radiance := by
  obtain ⟨h0, h1, h2⟩ := h
  simp [Spectrum.radiance, Spectrum.channels, Spectrum.radianceCoefficients]
  positivity

theorem MattSide.unique {i : Nat} {bk : Bool} {tri tri' : Tri ℝ} {m m' : Material ℝ} {col col' : Spectrum ℝ} {r r' : ℝ} (h : MattSide w i bk tri m col r) (h' : MattSide w i bk tri' m' col' r') : tri' = tri ∧ m' = m :=
  ⟨Option.some.inj (h'.triangle.symm.trans h.triangle), Res.ok.inj (h'.material.symm.trans h.material)⟩

/-- What tracing does at a matt surface. -/
theorem trace_matt (rt : RayTracer) (fuel : Nat) (rng : Rng) (ray : TRay) {i : Nat} {bk : Bool} {tri : Tri ℝ} {m : Material ℝ} {col : Spectrum ℝ} {r : ℝ} {it : Interaction} (h : MattSide w i bk tri m col r)
    (hc : w.cast ray = .ok (some (i, { ray with interaction := it }))) (ha : ArrivesAt ray.geometry bk tri it) :
    refTrace w rt (fuel + 1) rng ray = if ray.depth > rt.maxDepth then .ok ((Spectrum.black, 0), rng) else
      let (n, ray', rng) := TRay.getNAmbientSamples { ray with interaction := it } rt.nAmbientSamples rt.maxDepth rt.limitWeight rng
      (w.localIllumination fuel m ray' rng (if ray'.depth = 0 then rt.nShadowSamples else 1)).bind fun (direct, rng) =>
        if n = 0 then .ok ((direct + Spectrum.black, 0), rng)
        else (refAmbient (refTrace w rt fuel) m ray' fuel n rng).bind fun (sum, rng) => .ok ((direct + sum.divBy (n : ℝ), 0), rng) := by
  obtain ⟨h1, h2, -⟩ := matt_only_flags h.matt
  have hside : it.shading.side ≠ .NonApplicable := by rw [ha.side]; cases bk <;> simp [sideOf]
  have hm := h.material
  rw [← ha.side] at hm
  conv_lhs => unfold refTrace
  simp only [hc, Res.bind_ok, hside, if_false, hm]
  conv_lhs => unfold refSurface
  simp only [h1, h2, Bool.false_eq_true, if_false, h.normals, Res.ofOption_some, Res.bind_ok, ha.interp]

/-- Tracing at a matt surface as a random experiment, given the experiments of the onward rays. -/
theorem matt_fresh (hW : w.Sunlit s) (rt : RayTracer) (hsh : 0 < rt.nShadowSamples) (ch : Spectrum ℝ → ℝ) (hch : ch ∈ [Spectrum.c0, Spectrum.c1, Spectrum.c2]) {i : Nat} {bk : Bool} {tri : Tri ℝ} {m : Material ℝ} {col : Spectrum ℝ} {r : ℝ}
    (hS : MattSide w i bk tri m col r) (k d : Nat) (hdm : d ≤ rt.maxDepth) (v : ℝ) (hv : 0 ≤ v) (Q : TRay → Prop) (child : TRay → ENNReal) {valc : Ray3 ℝ → Rng → ENNReal} {restc : Ray3 ℝ → Rng → Rng} (hFc : Fresh valc restc)
    (hc : ∀ ray : TRay, Q ray → ray.depth = d + 1 → ray.value = v * col.radiance → Norm ray.geometry.direction = 1 → avg (valc ray.geometry) = child ray ∧ ∀ fuel, k + rt.nShadowSamples + rt.nAmbientSamples + 2 ≤ fuel → Gives (refTrace w rt fuel) ch valc restc ray) :
    ∃ val rest, Fresh val rest ∧ ∀ (ray : TRay) (it : Interaction), w.cast ray = .ok (some (i, { ray with interaction := it })) → ArrivesAt ray.geometry bk tri it → ray.depth = d → ray.value = v → (∀ l, Norm l = 1 → Q (TRay.onward { ray with interaction := it } m l)) →
      avg (val ray.geometry) = sunlightAt w m { ray with interaction := it } ch + followChance rt d v * (ENNReal.ofReal (ch m.colour / Real.pi) * irradiance fun l => child (TRay.onward { ray with interaction := it } m l)) ∧
      ∀ fuel, k + 1 + rt.nShadowSamples + rt.nAmbientSamples + 2 ≤ fuel → Gives (refTrace w rt fuel) ch val rest ray := by
  obtain ⟨-, -, hmc⟩ := matt_only_flags hS.matt
  have hcolch : 0 ≤ ch col := by
    simp only [List.mem_cons, List.not_mem_nil, or_false] at hch
    rcases hch with rfl | rfl | rfl
    · exact hS.nonneg.1
    · exact hS.nonneg.2.1
    · exact hS.nonneg.2.2
  have hnS : 0 < if d = 0 then rt.nShadowSamples else 1 := by split_ifs <;> omega
  obtain ⟨vald, restd, hFd, hmd, hrd⟩ := sunlight_fresh hW m col r hS.matt hS.nonneg ch hch (facing tri bk) _ hnS
  have hP : Measurable fun g : Ray3 ℝ => planePoint tri g := measurable_planePoint tri measurable_id
  have hFd' := hFd.comp hP
  set N := facing tri bk with hN
  set e1 := along tri with he1
  set e2 := across tri bk with he2
  have hFb : Fresh (bounceVal valc (ENNReal.ofReal (ch col)) N e1 e2) (bounceRest restc N e1 e2) := bounce_fresh hFc _ N e1 e2
  -- the light of the onward rays
  have hon : ∀ ray : TRay, ray.depth = d → ray.value = v → ∀ it, ArrivesAt ray.geometry bk tri it → (∀ l, Norm l = 1 → Q (TRay.onward { ray with interaction := it } m l)) →
      ENNReal.ofReal (ch m.colour / Real.pi) * (irradiance fun l => child (TRay.onward { ray with interaction := it } m l)) = avg (bounceVal valc (ENNReal.ofReal (ch col)) N e1 e2 (planePoint tri ray.geometry)) := by
    intro ray hd hval it ha hQ
    rw [bounce_mean hFc _ hcolch, hmc]
    congr 1
    refine irradiance_congr fun l hl => ?_
    have hg : (TRay.onward { ray with interaction := it } m l).geometry = ⟨planePoint tri ray.geometry + N.scale (1 / 10 ^ 5), worldOf e1 e2 N l⟩ := by
      simp only [TRay.onward, ha.point, ha.normal, ha.dpdu, ha.dpdv, ← hN, ← he1, ← he2]
    have hl2 : l.x ^ 2 + l.y ^ 2 + l.z ^ 2 = 1 := by
      have := Dot_self_of_norm hl; simp only [Dot] at this; nlinarith
    have hun : Norm (worldOf e1 e2 N l) = 1 := by
      have := (world_unit hS.frame hl2).1
      rw [← he1, ← he2, ← hN, world_eq e1 e2 N l.x l.y l.z] at this
      exact this
    have := (hc (TRay.onward { ray with interaction := it } m l) (hQ l hl) (by simp only [TRay.onward]; omega) (by simp only [TRay.onward, hval, hmc]) (by rw [hg]; exact hun)).1
    rw [← this, hg]
  have hgives : ∀ ray : TRay, ray.depth = d → ray.value = v → ∀ it, ArrivesAt ray.geometry bk tri it → (∀ l, Norm l = 1 → Q (TRay.onward { ray with interaction := it } m l)) → ∀ fuel, k + rt.nShadowSamples + rt.nAmbientSamples + 2 ≤ fuel → ∀ n, n < fuel → ∀ rng : Rng, rng.Valid →
      ∃ sum, refAmbient (refTrace w rt fuel) m { ray with interaction := it } fuel n rng = .ok (sum, repeatRest (bounceRest restc N e1 e2) n (planePoint tri ray.geometry) rng) ∧ 0 ≤ ch sum ∧
        ENNReal.ofReal (ch sum) = repeatVal (bounceVal valc (ENNReal.ofReal (ch col)) N e1 e2) (bounceRest restc N e1 e2) n (planePoint tri ray.geometry) rng ∧
        (repeatRest (bounceRest restc N e1 e2) n (planePoint tri ray.geometry) rng).Valid := by
    intro ray hd hval it ha hQ fuel hfu n hn rng hr
    have := ambient_gives (refTrace w rt fuel) m col r hS.matt ch hch hcolch valc restc { ray with interaction := it } (by simp only [ha.normal, ha.dpdu, ha.dpdv]; exact hS.frame)
      (fun l hl' hl => (hc _ (hQ l hl') (by simp only [TRay.onward]; omega) (by simp only [TRay.onward, hval, hmc]) hl).2 fuel hfu) n fuel rng hn hr
    simp only [ha.normal, ha.dpdu, ha.dpdv, ha.point, ← hN, ← he1, ← he2] at this
    exact this
  have hequ : ∀ ray : TRay, ray.depth = d → ray.value = v → ∀ it, ArrivesAt ray.geometry bk tri it → (∀ l, Norm l = 1 → Q (TRay.onward { ray with interaction := it } m l)) →
      (sunlightAt w m { ray with interaction := it } ch + followChance rt d v * (ENNReal.ofReal (ch m.colour / Real.pi) * irradiance fun l => child (TRay.onward { ray with interaction := it } m l))) =
        avg (vald (planePoint tri ray.geometry)) + followChance rt d v * avg (bounceVal valc (ENNReal.ofReal (ch col)) N e1 e2 (planePoint tri ray.geometry)) := by
    intro ray hd hval it ha hQ
    rw [← hon ray hd hval it ha hQ, ← ha.point, hmd { ray with interaction := it } ha.normal]
  have hdirect : ∀ ray : TRay, ∀ it, ArrivesAt ray.geometry bk tri it → ∀ fuel, rt.nShadowSamples + 2 ≤ fuel → ∀ rng : Rng, rng.Valid →
      ∃ v, w.localIllumination fuel m { ray with interaction := it } rng (if d = 0 then rt.nShadowSamples else 1) = .ok (v, restd (planePoint tri ray.geometry) rng) ∧ 0 ≤ ch v ∧
        ENNReal.ofReal (ch v) = vald (planePoint tri ray.geometry) rng ∧ (restd (planePoint tri ray.geometry) rng).Valid := by
    intro ray it ha fuel hfu rng hr
    have := hrd { ray with interaction := it } fuel rng ha.normal (by split_ifs <;> omega) hr
    simp only [ha.point] at this
    exact this
  clear hrd
  by_cases hoff : rt.maxDepth = 0 ∨ rt.nAmbientSamples = 0
  · -- no ambient samples
    refine ⟨_, _, hFd', fun ray it hcast ha hd hval hQ => ⟨?_, fun fuel hfu rng hr => ?_⟩⟩
    · rw [hequ ray hd hval it ha hQ]
      simp only [followChance, hoff, if_true, zero_mul, add_zero]
    · obtain ⟨fuel, rfl⟩ : ∃ f, fuel = f + 1 := ⟨fuel - 1, by omega⟩
      obtain ⟨dl, h1, h2, h3, h4⟩ := hdirect ray it ha fuel (by omega) rng hr
      have hdep : ray.depth = d := hd
      refine ⟨dl, ?_, h2, h3, h4⟩
      rw [trace_matt rt fuel rng ray hS hcast ha, if_neg (by omega)]
      simp only [TRay.getNAmbientSamples, hoff, if_true, hdep]
      simp only [hdep] at h1
      rw [h1]
      simp only [Res.bind_ok, spectrum_add_black]
  · by_cases h0 : d = 0
    · -- all ambient samples
      have hpos : 0 < rt.nAmbientSamples := by push Not at hoff; omega
      have hFs := (((hFb.iterate rt.nAmbientSamples).mul (k := fun _ => (rt.nAmbientSamples : ENNReal)⁻¹) measurable_const)).comp hP
      refine ⟨_, _, hFd'.add hFs, fun ray it hcast ha hd hval hQ => ⟨?_, fun fuel hfu rng hr => ?_⟩⟩
      · rw [hequ ray hd hval it ha hQ, hFd'.mean_add hFs]
        congr 1
        simp only [followChance, hoff, if_false, h0, if_true, one_mul]
        have := (hFb.iterate rt.nAmbientSamples).mean_mul (fun _ => (rt.nAmbientSamples : ENNReal)⁻¹) (planePoint tri ray.geometry)
        rw [this, hFb.mean_iterate, ← mul_assoc, ENNReal.inv_mul_cancel (by exact_mod_cast hpos.ne') (ENNReal.natCast_ne_top _), one_mul]
      · obtain ⟨fuel, rfl⟩ : ∃ f, fuel = f + 1 := ⟨fuel - 1, by omega⟩
        obtain ⟨dl, h1, h2, h3, h4⟩ := hdirect ray it ha fuel (by omega) rng hr
        obtain ⟨sum, k1, k2, k3, k4⟩ := hgives ray hd hval it ha hQ fuel (by omega) rt.nAmbientSamples (by omega) _ h4
        have hdep : ray.depth = 0 := by omega
        have hn' : (0 : ℝ) < rt.nAmbientSamples := by exact_mod_cast hpos
        refine ⟨dl + sum.divBy rt.nAmbientSamples, ?_, ?_, ?_, k4⟩
        · rw [trace_matt rt fuel rng ray hS hcast ha, if_neg (by omega)]
          simp only [TRay.getNAmbientSamples, hoff, if_false, hdep, if_true]
          simp only [h0, if_true, hdep] at h1
          rw [h1]
          simp only [hdep] at k1
          simp only [Res.bind_ok, hpos.ne', if_false, k1]
        · rw [chan_add hch, chan_divBy hch]; positivity
        · rw [chan_add hch, chan_divBy hch, ENNReal.ofReal_add h2 (by positivity), h3, ENNReal.ofReal_div_of_pos hn', ENNReal.ofReal_natCast, k3, ENNReal.div_eq_inv_mul]
    · -- Russian roulette
      classical
      let one : Bool → Ray3 ℝ × ℝ → Rng → ENNReal := fun b q r => if b then 0 else bounceVal valc (ENNReal.ofReal (ch col)) N e1 e2 (planePoint tri q.1) r
      let oneRest : Bool → Ray3 ℝ × ℝ → Rng → Rng := fun b q r => if b then r else bounceRest restc N e1 e2 (planePoint tri q.1) r
      let cut : Ray3 ℝ × ℝ → Bool := fun q => if ExceedsQuotient q.2 v rt.limitWeight then true else false
      have hcut : Disc cut := by
        refine Disc.ite ?_ (Disc.const _) (Disc.const _)
        have : Measurable fun q : Ray3 ℝ × ℝ => q.2 := measurable_snd
        by_cases hl : rt.limitWeight = 0
        · have e : {q : Ray3 ℝ × ℝ | ExceedsQuotient q.2 v rt.limitWeight} = ∅ := by
            ext q
            simp [ExceedsQuotient, hl, hv]
          rw [e]; exact MeasurableSet.empty
        · have e : {q : Ray3 ℝ × ℝ | ExceedsQuotient q.2 v rt.limitWeight} = {q : Ray3 ℝ × ℝ | v / rt.limitWeight < q.2} := by
            ext q
            simp [ExceedsQuotient, hl]
          rw [e]; exact measurableSet_lt measurable_const this
      have hone : ∀ b, Fresh (one b) (oneRest b) := by
        intro b
        cases b with
        | true => exact Fresh.const measurable_const
        | false => exact hFb.comp (f := fun q : Ray3 ℝ × ℝ => planePoint tri q.1) (measurable_planePoint tri measurable_fst)
      have hFo := Fresh.choose hcut hone
      have hF2 := (hFd'.comp (f := fun q : Ray3 ℝ × ℝ => q.1) measurable_fst).add hFo
      refine ⟨_, _, hF2.draw, fun ray it hcast ha hd hval hQ => ⟨?_, fun fuel hfu rng hr => ?_⟩⟩
      · rw [hequ ray hd hval it ha hQ, hF2.mean_draw ray.geometry]
        have hmean : ∀ u : ℝ, avg (fun r => vald (planePoint tri ray.geometry) r + one (cut (ray.geometry, u)) (ray.geometry, u) (restd (planePoint tri ray.geometry) r)) =
            avg (vald (planePoint tri ray.geometry)) + if ExceedsQuotient u v rt.limitWeight then 0 else avg (bounceVal valc (ENNReal.ofReal (ch col)) N e1 e2 (planePoint tri ray.geometry)) := by
          intro u
          have := (hFd'.comp (f := fun q : Ray3 ℝ × ℝ => q.1) measurable_fst).mean_add hFo (ray.geometry, u)
          refine this.trans ?_
          congr 1
          by_cases hE : ExceedsQuotient u v rt.limitWeight
          · simp only [one, cut, hE, if_true]; exact avg_const 0
          · simp only [one, cut, hE, if_false, Bool.false_eq_true]
        refine (lintegral_congr fun u => hmean u).trans ?_
        rw [lintegral_add_left measurable_const, setLIntegral_const, Real.volume_Ico, survive_mean v rt.limitWeight hv]
        simp only [followChance, hoff, if_false, h0, sub_zero, ENNReal.ofReal_one, mul_one]
      · obtain ⟨fuel, rfl⟩ : ∃ f, fuel = f + 1 := ⟨fuel - 1, by omega⟩
        obtain ⟨dl, h1, h2, h3, h4⟩ := hdirect ray it ha fuel (by omega) rng.tail (fun j => hr (j + 1))
        have hdep : ¬ ray.depth = 0 := by omega
        simp only [h0, if_false] at h1
        by_cases hE : ExceedsQuotient (rng 0) v rt.limitWeight
        · obtain ⟨d', l1, l2, l3, l4⟩ := hdirect { ray with value := rt.limitWeight } it ha fuel (by omega) rng.tail (fun j => hr (j + 1))
          simp only [h0, if_false] at l1
          refine ⟨d', ?_, l2, ?_, ?_⟩
          · rw [trace_matt rt fuel rng ray hS hcast ha, if_neg (by omega)]
            simp only [TRay.getNAmbientSamples, hoff, if_false, hdep, Rng.gen, hval, hE, if_true]
            change Res.bind (w.localIllumination fuel m _ rng.tail 1) _ = _
            rw [l1]
            simp only [Res.bind_ok, spectrum_add_black, oneRest, cut, hE, if_true]
          · simp only [one, cut, hE, if_true, add_zero]
            exact l3
          · simp only [oneRest, cut, hE, if_true]
            exact l4
        · obtain ⟨sum, k1, k2, k3, k4⟩ := hgives ray hd hval it ha hQ fuel (by omega) 1 (by omega) _ h4
          have hdiv : sum.divBy ((1 : Nat) : ℝ) = sum := by ext <;> simp [Spectrum.divBy]
          refine ⟨dl + sum, ?_, ?_, ?_, ?_⟩
          · rw [trace_matt rt fuel rng ray hS hcast ha, if_neg (by omega)]
            simp only [TRay.getNAmbientSamples, hoff, if_false, hdep, Rng.gen, hval, hE]
            rw [hval] at h1 k1
            change Res.bind (w.localIllumination fuel m _ rng.tail 1) _ = _
            rw [h1]
            simp only [Res.bind_ok, one_ne_zero, if_false, k1, hdiv, oneRest, cut, hE, Bool.false_eq_true]
            rfl
          · rw [chan_add hch]; positivity
          · rw [chan_add hch, ENNReal.ofReal_add h2 k2, h3, k3]
            simp only [one, cut, hE, if_false, Bool.false_eq_true, repeatVal, add_zero]
          · simp only [oneRest, cut, hE, if_false, Bool.false_eq_true]
            exact k4

/-- The induction behind C119: for paths of given remaining depth and weight, tracing is a random experiment whose mean is the light of the equation. -/
theorem light_fresh (hW : w.SunlitMatt s) (rt : RayTracer) (hsh : 0 < rt.nShadowSamples) (ch : Spectrum ℝ → ℝ) (hch : ch ∈ [Spectrum.c0, Spectrum.c1, Spectrum.c2]) (k : Nat) :
    ∀ v : ℝ, 0 ≤ v → ∃ val rest, Fresh val rest ∧ ∀ ray : TRay, ray.depth + k = rt.maxDepth + 1 → ray.value = v → Norm ray.geometry.direction = 1 →
      avg (val ray.geometry) = reflectedLight w rt ch k ray ∧ ∀ fuel, k + rt.nShadowSamples + rt.nAmbientSamples + 2 ≤ fuel → Gives (refTrace w rt fuel) ch val rest ray := by
  obtain ⟨code, hcode, hall⟩ := disc_side hW
  have hb0 : 0 ≤ ch Spectrum.black := (chan_black hch).ge
  have hb1 : ENNReal.ofReal (ch Spectrum.black) = 0 := by rw [chan_black hch]; simp
  induction k with
  | zero =>
    intro v hv
    refine ⟨fun _ _ => 0, fun _ r => r, Fresh.const measurable_const, fun ray hd hval hu => ⟨avg_const 0, fun fuel hfu rng hr => ?_⟩⟩
    obtain ⟨fuel, rfl⟩ : ∃ f, fuel = f + 1 := ⟨fuel - 1, by omega⟩
    refine ⟨Spectrum.black, ?_, hb0, hb1, hr⟩
    rcases hall ray hu with ⟨_, hc⟩ | ⟨i, bk, tri, m, col, r, it, _, hS, hc, ha⟩
    · conv_lhs => unfold refTrace
      simp only [hc, Res.bind_ok, hW.sky]
    · rw [trace_matt rt fuel rng ray hS hc ha, if_pos (by omega)]
  | succ k ih =>
    intro v hv
    have each : ∀ κ : Option (Nat × Bool), ∃ val rest, Fresh val rest ∧ ∀ ray : TRay, code ray.geometry = κ → ray.depth + (k + 1) = rt.maxDepth + 1 → ray.value = v → Norm ray.geometry.direction = 1 →
        avg (val ray.geometry) = reflectedLight w rt ch (k + 1) ray ∧ ∀ fuel, k + 1 + rt.nShadowSamples + rt.nAmbientSamples + 2 ≤ fuel → Gives (refTrace w rt fuel) ch val rest ray := by
      intro κ
      by_cases hex : ∃ ray : TRay, Norm ray.geometry.direction = 1 ∧ code ray.geometry = κ
      swap
      · exact ⟨fun _ _ => 0, fun _ r => r, Fresh.const measurable_const, fun ray hκ _ _ hu => absurd ⟨ray, hu, hκ⟩ hex⟩
      obtain ⟨ray0, hu0, hκ0⟩ := hex
      rcases hall ray0 hu0 with ⟨hn0, -⟩ | ⟨i, bk, tri, m, col, r, -, hκ1, hS, -, -⟩
      · -- the ray misses everything
        refine ⟨fun _ _ => 0, fun _ r => r, Fresh.const measurable_const, fun ray hκ hd hval hu => ?_⟩
        have hc : w.cast ray = .ok none := by
          rcases hall ray hu with ⟨_, hc⟩ | ⟨i, bk, tri, m, col, r, it, h1, _⟩
          · exact hc
          · rw [hκ, ← hκ0, hn0] at h1; cases h1
        refine ⟨by unfold reflectedLight; rw [hc]; exact avg_const 0, fun fuel hfu rng hr => ?_⟩
        obtain ⟨fuel, rfl⟩ : ∃ f, fuel = f + 1 := ⟨fuel - 1, by omega⟩
        refine ⟨Spectrum.black, ?_, hb0, hb1, hr⟩
        conv_lhs => unfold refTrace
        simp only [hc, Res.bind_ok, hW.sky]
      · -- it meets a matt surface
        rw [hκ1] at hκ0
        have hfacts : ∀ ray : TRay, code ray.geometry = κ → Norm ray.geometry.direction = 1 → ∃ it, w.cast ray = .ok (some (i, { ray with interaction := it })) ∧ ArrivesAt ray.geometry bk tri it := by
          intro ray hκ hu
          rcases hall ray hu with ⟨h1, _⟩ | ⟨i', bk', tri', m', col', r', it, h1, hS', hc, ha⟩
          · rw [hκ, ← hκ0] at h1; cases h1
          · rw [hκ, ← hκ0] at h1
            simp only [Option.some.injEq, Prod.mk.injEq] at h1
            obtain ⟨rfl, rfl⟩ := h1
            obtain ⟨rfl, rfl⟩ := hS.unique hS'
            exact ⟨it, hc, ha⟩
        obtain ⟨-, -, hmc⟩ := matt_only_flags hS.matt
        obtain ⟨valc, restc, hFc, hc⟩ := ih (v * col.radiance) (mul_nonneg hv (radiance_nonneg' hS.nonneg))
        by_cases hk : k ≤ rt.maxDepth
        swap
        · exact ⟨fun _ _ => 0, fun _ r => r, Fresh.const measurable_const, fun ray _ hd => absurd hd (by omega)⟩
        obtain ⟨val, rest, hF, hp⟩ := matt_fresh hW.toSunlit rt hsh ch hch hS k (rt.maxDepth - k) (by omega) v hv (fun _ => True) (reflectedLight w rt ch k) hFc (fun ray _ hd hval hu => hc ray (by omega) hval hu)
        refine ⟨val, rest, hF, fun ray hκ hd hval hu => ?_⟩
        obtain ⟨it, hcast, ha⟩ := hfacts ray hκ hu
        obtain ⟨h1, h2⟩ := hp ray it hcast ha (by omega) hval (fun _ _ => trivial)
        refine ⟨?_, h2⟩
        have hmat := hS.material
        rw [← ha.side] at hmat
        have hdep : ray.depth = rt.maxDepth - k := by omega
        rw [h1]
        conv_rhs => unfold reflectedLight
        simp only [hcast, hmat, hval, hdep]
    choose val rest hF hprop using each
    exact ⟨fun g => val (code g) g, fun g => rest (code g) g, Fresh.choose hcode hF, fun ray h1 h2 h3 => hprop (code ray.geometry) ray rfl h1 h2 h3⟩

/-- What is seen along a ray depends on the random numbers only, not on the scratch memory. -/
theorem seen_of_ref (rt : RayTracer) (fuel : Nat) (rng : Rng) (rays : List TRay) (hlen : rt.maxDepth < rays.length) (ray : TRay) (ch : Spectrum ℝ → ℝ) {light : Spectrum ℝ} {pdf : ℝ} {rng' : Rng}
    (h : refTrace w rt fuel rng ray = .ok ((light, pdf), rng')) : seenLight (traceRay w rt fuel ⟨rng, rays⟩ ray) ch = ENNReal.ofReal (ch light) := by
  have := C75_is_reference_tracer w rt fuel rng rays ray hlen
  rw [h] at this
  cases ht : traceRay w rt fuel ⟨rng, rays⟩ ray with
  | ok x =>
    rw [ht] at this
    obtain ⟨⟨v, p⟩, r, st⟩ := x
    simp only [outcome, Res.bind_ok, Res.ok.injEq, Prod.mk.injEq] at this
    rw [← this.1.1]
    rfl
  | panic => rw [ht] at this; cases this
  | diverge => rw [ht] at this; cases this

/-- **C119.** In a scene of flat matt surfaces lit by suns, the mean over the random numbers of the light that `trace_ray` returns is the solution of the rendering equation with at most `max_depth` reflections after the first. The mean
depends neither on the number of shadow rays nor on the number of ambient samples. -/
theorem C119_mean_light (hW : w.SunlitMatt s) (rt : RayTracer) (hsh : 0 < rt.nShadowSamples) (ch : Spectrum ℝ → ℝ) (hch : ch ∈ [Spectrum.c0, Spectrum.c1, Spectrum.c2]) (rays : List TRay) (hlen : rt.maxDepth < rays.length)
    (ray : TRay) (hu : Norm ray.geometry.direction = 1) (hval : 0 ≤ ray.value) (hdep : ray.depth ≤ rt.maxDepth + 1) (fuel : Nat) (hfuel : rt.maxDepth + rt.nShadowSamples + rt.nAmbientSamples + 3 ≤ fuel) :
    ∫⁻ r, seenLight (traceRay w rt fuel ⟨r, rays⟩ ray) ch ∂randomNumbers = reflectedLight w rt ch (rt.maxDepth + 1 - ray.depth) ray := by
  obtain ⟨val, rest, hF, h⟩ := light_fresh hW rt hsh ch hch (rt.maxDepth + 1 - ray.depth) ray.value hval
  obtain ⟨h1, h2⟩ := h ray (by omega) rfl hu
  rw [← h1]
  refine avg_congr fun r hr => ?_
  obtain ⟨light, k1, _, k3, _⟩ := h2 fuel (by omega) r hr
  rw [seen_of_ref rt fuel r rays hlen ray ch k1, k3]

/-- The equation does not mention the numbers of samples. -/
theorem reflected_settings (rt rt' : RayTracer) (hoff : (rt.maxDepth = 0 ∨ rt.nAmbientSamples = 0) ↔ (rt'.maxDepth = 0 ∨ rt'.nAmbientSamples = 0)) (hlim : rt.limitWeight = rt'.limitWeight) (ch : Spectrum ℝ → ℝ) (k : Nat) (ray : TRay) :
    reflectedLight w rt ch k ray = reflectedLight w rt' ch k ray := by
  have hf : followChance rt = followChance rt' := by
    funext d v
    unfold followChance
    rw [hlim]
    by_cases h : rt.maxDepth = 0 ∨ rt.nAmbientSamples = 0
    · simp only [h, hoff.1 h, if_true]
    · have h' := mt hoff.2 h
      simp only [h, h', if_false]
  induction k generalizing ray with
  | zero => rfl
  | succ k ih =>
    unfold reflectedLight
    simp only [hf, ih]

/-- **C119, numbers of samples.** Two tracers that differ only in how many shadow rays and ambient samples they take (at least one each) and in the specular setting return the same light on average. -/
theorem C119_sample_counts (hW : w.SunlitMatt s) (rt rt' : RayTracer) (hsh : 0 < rt.nShadowSamples) (hsh' : 0 < rt'.nShadowSamples) (hamb : 0 < rt.nAmbientSamples) (hamb' : 0 < rt'.nAmbientSamples) (hd : rt.maxDepth = rt'.maxDepth)
    (hlim : rt.limitWeight = rt'.limitWeight) (ch : Spectrum ℝ → ℝ) (hch : ch ∈ [Spectrum.c0, Spectrum.c1, Spectrum.c2]) (rays : List TRay) (hlen : rt.maxDepth < rays.length) (ray : TRay) (hu : Norm ray.geometry.direction = 1)
    (hval : 0 ≤ ray.value) (hdep : ray.depth ≤ rt.maxDepth + 1) (fuel : Nat) (hfuel : rt.maxDepth + rt.nShadowSamples + rt.nAmbientSamples + 3 ≤ fuel) (hfuel' : rt'.maxDepth + rt'.nShadowSamples + rt'.nAmbientSamples + 3 ≤ fuel) :
    ∫⁻ r, seenLight (traceRay w rt fuel ⟨r, rays⟩ ray) ch ∂randomNumbers = ∫⁻ r, seenLight (traceRay w rt' fuel ⟨r, rays⟩ ray) ch ∂randomNumbers := by
  rw [C119_mean_light hW rt hsh ch hch rays hlen ray hu hval hdep fuel hfuel, C119_mean_light hW rt' hsh' ch hch rays (hd ▸ hlen) ray hu hval (hd ▸ hdep) fuel hfuel', hd]
  exact reflected_settings rt rt' (by rw [hd]; simp [hamb.ne', hamb'.ne']) hlim ch _ ray

theorem irradiance_mono {L L' : Vec3 ℝ → ENNReal} (h : ∀ l, L l ≤ L' l) : irradiance L ≤ irradiance L' := lintegral_mono fun p => mul_le_mul_left (h _) _

theorem follow_le (rt : RayTracer) (d : Nat) (v : ℝ) : followChance rt d v ≤ 1 := by
  unfold followChance
  split_ifs
  · exact zero_le_one
  · exact le_rfl
  · exact le_rfl
  · exact ENNReal.ofReal_le_one.2 (min_le_left _ _)

/-- Following paths more often and for longer never removes light. -/
theorem reflected_mono (rt rt' : RayTracer) (hf : ∀ d v, followChance rt d v ≤ followChance rt' d v) (ch : Spectrum ℝ → ℝ) (k k' : Nat) (hk : k ≤ k') (ray : TRay) : reflectedLight w rt ch k ray ≤ reflectedLight w rt' ch k' ray := by
  induction k generalizing ray k' with
  | zero => exact zero_le
  | succ k ih =>
    obtain ⟨k', rfl⟩ : ∃ j, k' = j + 1 := ⟨k' - 1, by omega⟩
    unfold reflectedLight
    rcases w.cast ray with (_ | ⟨i, arrived⟩) | _ | _
    · exact le_rfl
    · simp only
      rcases w.materialAt arrived.interaction.shading.side i with m | _ | _
      · exact add_le_add le_rfl (mul_le_mul' (hf _ _) (mul_le_mul' le_rfl (irradiance_mono fun l => ih k' (by omega) _)))
      · exact le_rfl
      · exact le_rfl
    · exact le_rfl
    · exact le_rfl

/-- **C119, more reflections.** A larger `max_depth` never makes the mean smaller. -/
theorem C119_more_reflections (hW : w.SunlitMatt s) (rt : RayTracer) (hsh : 0 < rt.nShadowSamples) (more : Nat) (ch : Spectrum ℝ → ℝ) (hch : ch ∈ [Spectrum.c0, Spectrum.c1, Spectrum.c2]) (rays : List TRay)
    (hlen : rt.maxDepth + more < rays.length) (ray : TRay) (hu : Norm ray.geometry.direction = 1) (hval : 0 ≤ ray.value) (hdep : ray.depth ≤ rt.maxDepth + 1) (fuel : Nat)
    (hfuel : rt.maxDepth + more + rt.nShadowSamples + rt.nAmbientSamples + 3 ≤ fuel) :
    ∫⁻ r, seenLight (traceRay w rt fuel ⟨r, rays⟩ ray) ch ∂randomNumbers ≤ ∫⁻ r, seenLight (traceRay w { rt with maxDepth := rt.maxDepth + more } fuel ⟨r, rays⟩ ray) ch ∂randomNumbers := by
  rw [C119_mean_light hW rt hsh ch hch rays (by omega) ray hu hval hdep fuel (by omega),
    C119_mean_light hW { rt with maxDepth := rt.maxDepth + more } hsh ch hch rays hlen ray hu hval (by show ray.depth ≤ rt.maxDepth + more + 1; omega) fuel hfuel]
  refine reflected_mono _ _ (fun d v => ?_) ch _ _ (by show _ ≤ rt.maxDepth + more + 1 - ray.depth; omega) ray
  by_cases h : rt.maxDepth = 0 ∨ rt.nAmbientSamples = 0
  · have : followChance rt d v = 0 := by simp only [followChance, h, if_true]
    rw [this]; exact zero_le
  · have h' : ¬ (rt.maxDepth + more = 0 ∨ rt.nAmbientSamples = 0) := by omega
    simp only [followChance, h, h', if_false, le_refl]

/-- **C119, Russian roulette.** Giving up paths of low weight never adds light on average: compared with `limit_weight = 0`, the mean is at most as large. -/
theorem C119_roulette (hW : w.SunlitMatt s) (rt : RayTracer) (hsh : 0 < rt.nShadowSamples) (ch : Spectrum ℝ → ℝ) (hch : ch ∈ [Spectrum.c0, Spectrum.c1, Spectrum.c2]) (rays : List TRay) (hlen : rt.maxDepth < rays.length) (ray : TRay)
    (hu : Norm ray.geometry.direction = 1) (hval : 0 ≤ ray.value) (hdep : ray.depth ≤ rt.maxDepth + 1) (fuel : Nat) (hfuel : rt.maxDepth + rt.nShadowSamples + rt.nAmbientSamples + 3 ≤ fuel) :
    ∫⁻ r, seenLight (traceRay w rt fuel ⟨r, rays⟩ ray) ch ∂randomNumbers ≤ ∫⁻ r, seenLight (traceRay w { rt with limitWeight := 0 } fuel ⟨r, rays⟩ ray) ch ∂randomNumbers := by
  rw [C119_mean_light hW rt hsh ch hch rays hlen ray hu hval hdep fuel hfuel, C119_mean_light hW { rt with limitWeight := 0 } hsh ch hch rays hlen ray hu hval hdep fuel hfuel]
  refine reflected_mono _ _ (fun d v => ?_) ch _ _ le_rfl ray
  by_cases h : rt.maxDepth = 0 ∨ rt.nAmbientSamples = 0
  · simp only [followChance, h, if_true, le_refl]
  · have e : followChance { rt with limitWeight := 0 } d v = 1 := by simp only [followChance, h, if_false, if_true, ite_self]
    rw [e]; exact follow_le rt d v

theorem irradiance_const (c : ENNReal) : irradiance (fun _ => c) = c * ENNReal.ofReal Real.pi := by
  have h := mean_cosDir (L := fun _ => c) measurable_const
  rw [setLIntegral_const, Measure.volume_eq_prod, Measure.prod_prod, Real.volume_Ico] at h
  simp only [sub_zero, ENNReal.ofReal_one, mul_one] at h
  have h2 : c * ENNReal.ofReal Real.pi = (irradiance fun _ => c) / ENNReal.ofReal Real.pi * ENNReal.ofReal Real.pi := congrArg (· * ENNReal.ofReal Real.pi) h
  rw [h2, ENNReal.div_mul_cancel (by simpa using Real.pi_pos) ENNReal.ofReal_ne_top]

/-- A material that the tracer finds on a surface is one that the scene gave to a surface. -/
theorem material_from (hR : w.Renders s) {side : SurfaceSide} {i : Nat} {m : Material ℝ} (h : w.materialAt side i = .ok m) : ∃ k, s.materials[k]? = some m ∧ k ∈ s.front ++ s.back := by
  obtain ⟨⟨a1, a2, a3⟩, -, -, -⟩ := builtFrom_spec w.env hR.lawful hR.aligned hR.built
  have row := C05_rows_stay_together w.env hR.lawful s w.scene hR.aligned hR.built i
  cases side with
  | NonApplicable => simp [World.materialAt] at h
  | Front =>
    simp only [World.materialAt] at h
    obtain ⟨k, hk, h⟩ := Res.bind_eq_ok h
    have hk := Res.ofOption_eq_ok hk
    have h := Res.ofOption_eq_ok h
    rw [hR.same.1] at h
    obtain ⟨hi, -⟩ := List.getElem?_eq_some_iff.1 hk
    obtain ⟨j, -, -, e, -, -⟩ := row (by omega)
    rw [e] at hk
    exact ⟨k, h, List.mem_append_left _ (List.mem_of_getElem? hk)⟩
  | Back =>
    simp only [World.materialAt] at h
    obtain ⟨k, hk, h⟩ := Res.bind_eq_ok h
    have hk := Res.ofOption_eq_ok hk
    have h := Res.ofOption_eq_ok h
    rw [hR.same.1] at h
    obtain ⟨hi, -⟩ := List.getElem?_eq_some_iff.1 hk
    obtain ⟨j, -, -, -, e, -⟩ := row (by omega)
    rw [e] at hk
    exact ⟨k, h, List.mem_append_right _ (List.mem_of_getElem? hk)⟩

/-- Rays onward from a surface have unit directions. -/
theorem onward_unit (hW : w.SunlitMatt s) {ray : TRay} (hu : Norm ray.geometry.direction = 1) {i : Nat} {arrived : TRay} (hc : w.cast ray = .ok (some (i, arrived))) (m : Material ℝ) {l : Vec3 ℝ} (hl : Norm l = 1) :
    Norm (arrived.onward m l).geometry.direction = 1 := by
  obtain ⟨code, -, hall⟩ := disc_side hW
  rcases hall ray hu with ⟨_, h⟩ | ⟨i', bk, tri, m', col, r, it, _, hS, h, ha⟩
  · rw [hc] at h; cases h
  · rw [hc] at h
    simp only [Res.ok.injEq, Option.some.injEq, Prod.mk.injEq] at h
    obtain ⟨rfl, rfl⟩ := h
    have hl2 : l.x ^ 2 + l.y ^ 2 + l.z ^ 2 = 1 := by
      have := Dot_self_of_norm hl; simp only [Dot] at this; nlinarith
    have := (world_unit hS.frame hl2).1
    rw [world_eq] at this
    simp only [TRay.onward, ha.normal, ha.dpdu, ha.dpdv]
    exact this

theorem irradiance_mono_unit {L L' : Vec3 ℝ → ENNReal} (h : ∀ l, Norm l = 1 → L l ≤ L' l) : irradiance L ≤ irradiance L' := by
  classical
  have e : irradiance L = irradiance fun l => if Norm l = 1 then L l else 0 := irradiance_congr fun l hl => by rw [if_pos hl]
  rw [e]
  refine irradiance_mono fun l => ?_
  split_ifs with hc
  · exact h l hc
  · exact zero_le

/-- **C119, energy.** If every surface reflects at most the share `ρ` and shows at most the sunlight `D`, then the mean light along any ray is at most `D (1 + ρ + ρ² + …)`, with one term for each surface the light may leave. -/
theorem C119_energy (hW : w.SunlitMatt s) (rt : RayTracer) (hsh : 0 < rt.nShadowSamples) (ch : Spectrum ℝ → ℝ) (hch : ch ∈ [Spectrum.c0, Spectrum.c1, Spectrum.c2]) (ρ D : ENNReal)
    (hρ : ∀ (k : Nat) m, s.materials[k]? = some m → k ∈ s.front ++ s.back → ENNReal.ofReal (ch m.colour) ≤ ρ) 
    (hD : ∀ (ray : TRay) i arrived m, Norm ray.geometry.direction = 1 → w.cast ray = .ok (some (i, arrived)) → w.materialAt arrived.interaction.shading.side i = .ok m → sunlightAt w m arrived ch ≤ D) (rays : List TRay) (hlen : rt.maxDepth < rays.length) (ray : TRay)
    (hu : Norm ray.geometry.direction = 1) (hval : 0 ≤ ray.value) (hdep : ray.depth ≤ rt.maxDepth + 1) (fuel : Nat) (hfuel : rt.maxDepth + rt.nShadowSamples + rt.nAmbientSamples + 3 ≤ fuel) :
    ∫⁻ r, seenLight (traceRay w rt fuel ⟨r, rays⟩ ray) ch ∂randomNumbers ≤ ∑ j ∈ Finset.range (rt.maxDepth + 1 - ray.depth), D * ρ ^ j := by
  rw [C119_mean_light hW rt hsh ch hch rays hlen ray hu hval hdep fuel hfuel]
  generalize rt.maxDepth + 1 - ray.depth = k
  clear hval hdep
  induction k generalizing ray with
  | zero => exact zero_le
  | succ k ih =>
    rw [Finset.sum_range_succ']
    unfold reflectedLight
    rcases hc : w.cast ray with (_ | ⟨i, arrived⟩) | _ | _
    · exact zero_le
    · simp only
      cases hm : w.materialAt arrived.interaction.shading.side i with
      | panic => exact zero_le
      | diverge => exact zero_le
      | ok m =>
        simp only
        obtain ⟨mk, hmk, hmem⟩ := material_from hW.renders hm
        have h1 := hD ray i arrived m hu hc hm
        have h2 : (irradiance fun l => reflectedLight w rt ch k (arrived.onward m l)) ≤ (∑ j ∈ Finset.range k, D * ρ ^ j) * ENNReal.ofReal Real.pi := by
          rw [← irradiance_const]
          exact irradiance_mono_unit fun l hl => ih _ (onward_unit hW hu hc m hl)
        have hpi : ENNReal.ofReal Real.pi ≠ 0 := by simpa using Real.pi_pos
        have h3 : ENNReal.ofReal (ch m.colour / Real.pi) * ((∑ j ∈ Finset.range k, D * ρ ^ j) * ENNReal.ofReal Real.pi) = ENNReal.ofReal (ch m.colour) * ∑ j ∈ Finset.range k, D * ρ ^ j := by
          rw [ENNReal.ofReal_div_of_pos Real.pi_pos, ENNReal.div_eq_inv_mul]
          calc _ = (ENNReal.ofReal Real.pi)⁻¹ * ENNReal.ofReal Real.pi * (ENNReal.ofReal (ch m.colour) * ∑ j ∈ Finset.range k, D * ρ ^ j) := by ring
            _ = _ := by rw [ENNReal.inv_mul_cancel hpi ENNReal.ofReal_ne_top, one_mul]
        have h4 : followChance rt arrived.depth arrived.value * (ENNReal.ofReal (ch m.colour / Real.pi) * irradiance fun l => reflectedLight w rt ch k (arrived.onward m l)) ≤ ∑ j ∈ Finset.range k, D * ρ ^ (j + 1) := by
          calc _ ≤ 1 * (ENNReal.ofReal (ch m.colour / Real.pi) * ((∑ j ∈ Finset.range k, D * ρ ^ j) * ENNReal.ofReal Real.pi)) := mul_le_mul' (follow_le _ _ _) (mul_le_mul' le_rfl h2)
            _ ≤ ρ * ∑ j ∈ Finset.range k, D * ρ ^ j := by rw [one_mul, h3]; exact mul_le_mul' (hρ mk m hmk hmem) le_rfl
            _ = _ := by rw [Finset.mul_sum]; exact Finset.sum_congr rfl fun j _ => by ring
        rw [add_comm]
        refine add_le_add h4 ?_
        simpa using h1
    · exact zero_le
    · exact zero_le

end Rendering
