import Verif.Spec.ExactGlazed
import Verif.Props.GlazedEnergy
import Verif.Props.ExactLight

/-!
# C139: deeper tracing approaches the exact light, with mirrors, panes of glass and dielectrics
-/

set_option linter.unusedSectionVars false
namespace Rendering

open MeasureTheory Set

variable {w : World} {s : Scene ℝ}

/-- What a cast finds depends on the geometry of the ray only. -/
theorem cast_same (ray other : TRay) (hg : ray.geometry = other.geometry) {i : Nat} {it : Interaction} (h : w.cast ray = .ok (some (i, { ray with interaction := it }))) : w.cast other = .ok (some (i, { other with interaction := it })) := by
  unfold World.cast at h ⊢
  rw [← hg]
  cases hc : w.scene.castRay w.env ray.geometry [] with
  | panic => rw [hc] at h; cases h
  | diverge => rw [hc] at h; cases h
  | ok x =>
    rw [hc] at h
    cases x with
    | none => cases h
    | some p =>
      obtain ⟨j, b⟩ := p
      simp only [Res.bind_ok] at h ⊢
      cases ht : w.scene.triangles[j]? with
      | none => rw [ht] at h; cases h
      | some tri =>
        rw [ht] at h
        simp only [Res.ofOption_some, Res.bind_ok, Res.ok.injEq, Option.some.injEq, Prod.mk.injEq, TRay.mk.injEq, true_and, and_true] at h ⊢
        exact h

theorem cast_none (ray other : TRay) (hg : ray.geometry = other.geometry) (h : w.cast ray = .ok none) : w.cast other = .ok none := by
  unfold World.cast at h ⊢
  rw [← hg]
  cases hc : w.scene.castRay w.env ray.geometry [] with
  | panic => rw [hc] at h; cases h
  | diverge => rw [hc] at h; cases h
  | ok x =>
    rw [hc] at h
    cases x with
    | none => rfl
    | some p =>
      obtain ⟨j, b⟩ := p
      simp only [Res.bind_ok] at h
      cases ht : w.scene.triangles[j]? with
      | none => rw [ht] at h; cases h
      | some tri => rw [ht] at h; cases h

/-- The paths that a surface offers depend on where, from where and in which medium the light arrives. -/
theorem offered_same (m : Material ℝ) (a b : TRay) (h1 : a.geometry = b.geometry) (h2 : a.interaction = b.interaction) (h3 : a.refractionIndex = b.refractionIndex) :
    (offered m a).map (fun x => (x.1.geometry, x.1.refractionIndex, x.2)) = (offered m b).map fun x => (x.1.geometry, x.1.refractionIndex, x.2) := by
  obtain ⟨g, η, it, d, v, c⟩ := a
  obtain ⟨g', η', it', d', v', c'⟩ := b
  simp only at h1 h2 h3
  subst h1 h2 h3
  cases m with
  | plastic c sp r => rfl
  | metal c sp r => rfl
  | light c => rfl
  | mirror c => rfl
  | glass col n =>
    simp only [offered, Material.getPossiblePaths, glassPaths]
    split_ifs <;> rfl
  | dielectric col n =>
    have e : cosAndN ⟨g, η, it, d, v, c⟩ it.shading.normal n = cosAndN ⟨g, η, it, d', v', c'⟩ it.shading.normal n := rfl
    simp only [offered, Material.getPossiblePaths, dielectricPaths, e]
    generalize cosAndN ⟨g, η, it, d', v', c'⟩ it.shading.normal n = q
    obtain ⟨n1, c1, n2, c2⟩ := q
    cases c2 <;> rfl

/-- What the two equations say about one ray. -/
inductive ViewCase (w : World) (s : Scene ℝ) (ch : Spectrum ℝ → ℝ) (ray : TRay) : Prop
  | open_ (h1 : ∀ rt n, glazedLight w rt ch n ray = 0) (h2 : ∀ L, w.glazedBack ch L ray.geometry ray.refractionIndex = 0) : ViewCase w s ch ray
  | matt (S a : ENNReal) (k : Nat) (m : Material ℝ) (onw : Vec3 ℝ → TRay) (hk : s.materials[k]? = some m ∧ k ∈ s.front ++ s.back) (hm : m.specularOnly = false) (ha : a = ENNReal.ofReal (ch m.colour / Real.pi))
      (unit : ∀ l, Norm l = 1 → Norm (onw l).geometry.direction = 1) (depth : ∀ l, (onw l).depth = ray.depth + 1) (index : ∀ l, (onw l).refractionIndex = ray.refractionIndex) (meas : Measurable fun l => (onw l).geometry)
      (h1 : ∀ (rt : RayTracer) n, ray.depth ≤ rt.maxDepth → glazedLight w rt ch (n + 1) ray = S + followChance rt ray.depth ray.value * (a * irradiance fun l => glazedLight w rt ch n (onw l)))
      (h2 : ∀ L, w.glazedBack ch L ray.geometry ray.refractionIndex = S + a * irradiance fun l => L (onw l).geometry ray.refractionIndex) : ViewCase w s ch ray
  | shiny (i k : Nat) (bk : Bool) (tri : Tri ℝ) (m : Material ℝ) (it : Interaction) (hk : s.materials[k]? = some m ∧ k ∈ s.front ++ s.back) (hm : m.specularOnly = true) (hPh : m.Physical) (hS : FlatSide w s i bk tri m) (ha : ArrivesAt ray.geometry bk tri it)
      (good : ∀ x ∈ offered m { ray with interaction := it }, Norm x.1.geometry.direction = 1 ∧ 0 < x.1.refractionIndex ∧ x.1.depth = ray.depth)
      (rows : (¬ w.SpecularRow 0 ray) ∧ ∀ j, w.SpecularRow (j + 1) ray → ∀ x ∈ offered m { ray with interaction := it }, w.SpecularRow j x.1)
      (h1 : ∀ (rt : RayTracer) n, ray.depth ≤ rt.maxDepth → glazedLight w rt ch (n + 1) ray = ((offered m { ray with interaction := it }).map fun x => ENNReal.ofReal (ch x.2) * (countedChance rt * glazedLight w rt ch n x.1.counted + (1 - countedChance rt) * glazedLight w rt ch n x.1)).sum)
      (h2 : ∀ L, w.glazedBack ch L ray.geometry ray.refractionIndex = ((offered m { ray with interaction := it }).map fun x => ENNReal.ofReal (ch x.2) * L x.1.geometry x.1.refractionIndex).sum) : ViewCase w s ch ray

theorem view_cases (hW : w.SunlitGlazed s) (ch : Spectrum ℝ → ℝ) (hch : ch ∈ [Spectrum.c0, Spectrum.c1, Spectrum.c2]) (ray : TRay) (hu : Norm ray.geometry.direction = 1) (hη : 0 < ray.refractionIndex) : ViewCase w s ch ray := by
  obtain ⟨code, -, hall⟩ := disc_flat hW.toSunlit
  set base : TRay := { TRay.default with geometry := ray.geometry, refractionIndex := ray.refractionIndex } with hbase
  rcases hall ray hu with ⟨-, hc⟩ | ⟨i, bk, tri, m, it, -, hS, hc, ha⟩
  · have hc' := cast_none ray base rfl hc
    refine .open_ (fun rt n => ?_) fun L => ?_
    · cases n with
      | zero => rfl
      | succ n => unfold glazedLight; rw [hc]
    · unfold World.glazedBack
      rw [← hbase, hc']
  have hc' := cast_same ray base rfl hc
  have hmat := hS.material
  rw [← ha.side] at hmat
  obtain ⟨k, hk1, hk2⟩ := hS.listed
  by_cases hs : m.specularOnly = true
  · have hPh : m.Physical := by
      rcases hS.kind hW with ⟨col, r, hM⟩ | ⟨-, h⟩
      · rw [(matt_only_flags hM.matt).2.1] at hs; cases hs
      · exact h
    have hun := offered_unit hS hs hPh hη ha hu
    refine .shiny i k bk tri m it ⟨hk1, hk2⟩ hs hPh hS ha (fun x hx => ⟨(hun x hx).1, (hun x hx).2, by rw [offered_depth _ _ x hx]⟩) ⟨?_, fun j hj => ?_⟩ (fun rt n hd => ?_) fun L => ?_
    · unfold World.SpecularRow
      simp only [hc, hmat, hs]
      exact fun h => by cases h
    · unfold World.SpecularRow at hj
      simp only [hc, hmat] at hj
      exact hj hs
    · conv_lhs => unfold glazedLight
      simp only [hc, hmat, hs, if_true]
      rw [if_neg (by omega)]
    · unfold World.glazedBack
      rw [← hbase, hc']
      simp only [hmat, hs, if_true]
      have e := offered_same m { ray with interaction := it } { base with interaction := it } rfl rfl rfl
      have e2 := congrArg (fun l => (l.map fun q : Ray3 ℝ × ℝ × Spectrum ℝ => ENNReal.ofReal (ch q.2.2) * L q.1 q.2.1).sum) e
      simp only [List.map_map] at e2
      exact e2.symm
  · have hs' : m.specularOnly = false := by simpa using hs
    obtain ⟨col, r, hM⟩ : ∃ col r, MattSide w i bk tri m col r := by
      rcases hS.kind hW with h | ⟨h, -⟩
      · exact h
      · exact absurd h hs
    have hsun : sunlightAt w m { base with interaction := it } ch = sunlightAt w m { ray with interaction := it } ch := by
      obtain ⟨val, rest, _, h1, _⟩ := sunlight_fresh hW.toSunlit m col r hM.matt hM.nonneg ch hch it.shading.normal 1 one_pos
      rw [← h1 { ray with interaction := it } rfl, ← h1 { base with interaction := it } rfl]
    refine .matt (sunlightAt w m { ray with interaction := it } ch) _ k m (fun l => ({ ray with interaction := it } : TRay).onward m l) ⟨hk1, hk2⟩ hs' rfl (fun l hl => ?_) (fun l => rfl) (fun l => rfl) ?_ (fun rt n hd => ?_) fun L => ?_
    · have hl2 : l.x ^ 2 + l.y ^ 2 + l.z ^ 2 = 1 := by
        have := Dot_self_of_norm hl; simp only [Dot] at this; nlinarith
      have := (world_unit hS.frame hl2).1
      rw [world_eq] at this
      simp only [TRay.onward, ha.normal, ha.dpdu, ha.dpdv]
      exact this
    · simp only [TRay.onward]
      exact Ray3.measurable_mk measurable_const (measurable_worldOf _ _ _ measurable_id)
    · conv_lhs => unfold glazedLight
      simp only [hc, hmat, hs', Bool.false_eq_true, if_false]
      rw [if_neg (by omega)]
    · unfold World.glazedBack
      rw [← hbase, hc']
      simp only [hmat, hs', Bool.false_eq_true, if_false]
      rw [hsun]
      rfl

/-- Light over at most `k` surfaces, without Russian roulette and whatever `max_depth`. -/
noncomputable def glazedSteps (w : World) (ch : Spectrum ℝ → ℝ) : Nat → Ray3 ℝ → ℝ → ENNReal
  | 0 => fun _ _ => 0
  | k + 1 => w.glazedBack ch (glazedSteps w ch k)

theorem glazedBack_mono {ch : Spectrum ℝ → ℝ} {L L' : Ray3 ℝ → ℝ → ENNReal} (h : ∀ g η, L g η ≤ L' g η) (g : Ray3 ℝ) (η : ℝ) : w.glazedBack ch L g η ≤ w.glazedBack ch L' g η := by
  unfold World.glazedBack
  rcases w.cast { TRay.default with geometry := g, refractionIndex := η } with (_ | ⟨i, arrived⟩) | _ | _
  · exact le_rfl
  · simp only
    rcases w.materialAt arrived.interaction.shading.side i with m | _ | _
    · simp only
      split_ifs
      · exact List.sum_le_sum fun x _ => mul_le_mul' le_rfl (h _ _)
      · exact add_le_add le_rfl (mul_le_mul' le_rfl (irradiance_mono fun l => h _ _))
    · exact le_rfl
    · exact le_rfl
  · exact le_rfl
  · exact le_rfl

theorem glazedSteps_mono (ch : Spectrum ℝ → ℝ) (g : Ray3 ℝ) (η : ℝ) : Monotone fun k => glazedSteps w ch k g η := by
  refine monotone_nat_of_le_succ fun k => ?_
  induction k generalizing g η with
  | zero => exact zero_le
  | succ k ih => exact glazedBack_mono (fun g η => ih g η) g η

theorem counted_le_one (rt : RayTracer) : countedChance rt ≤ 1 := by
  unfold countedChance
  rw [← ENNReal.ofReal_one]
  exact ENNReal.ofReal_le_ofReal (min_le_left _ _)

theorem shallow_zero (rt : RayTracer) (ch : Spectrum ℝ → ℝ) (n : Nat) (ray : TRay) (hd : rt.maxDepth < ray.depth) : glazedLight w rt ch n ray = 0 := by
  cases n with
  | zero => rfl
  | succ n =>
    unfold glazedLight
    split
    · split
      · rw [if_pos hd]
      · rfl
    · rfl

/-- The mean light is at most the light over as many surfaces. -/
theorem glazed_le_steps (hW : w.SunlitGlazed s) (rt : RayTracer) (ch : Spectrum ℝ → ℝ) (hch : ch ∈ [Spectrum.c0, Spectrum.c1, Spectrum.c2]) (n : Nat) :
    ∀ ray : TRay, Norm ray.geometry.direction = 1 → 0 < ray.refractionIndex → glazedLight w rt ch n ray ≤ glazedSteps w ch n ray.geometry ray.refractionIndex := by
  induction n with
  | zero => exact fun _ _ _ => le_rfl
  | succ n ih =>
    intro ray hu hη
    by_cases hd : rt.maxDepth < ray.depth
    · rw [shallow_zero rt ch _ ray hd]; exact zero_le
    show _ ≤ w.glazedBack ch (glazedSteps w ch n) ray.geometry ray.refractionIndex
    cases view_cases hW ch hch ray hu hη with
    | open_ h1 h2 => rw [h1]; exact zero_le
    | matt S a k m onw hk hm ha unit depth index meas h1 h2 =>
      rw [h1 rt n (not_lt.1 hd), h2]
      refine add_le_add le_rfl ((mul_le_mul' (follow_le rt _ _) le_rfl).trans ?_)
      rw [one_mul]
      refine mul_le_mul' le_rfl (irradiance_mono_unit fun l hl => ?_)
      rw [← index l]
      exact ih (onw l) (unit l hl) (by rw [index]; exact hη)
    | shiny i k bk tri m it hk hm hPh hS ha good rows h1 h2 =>
      rw [h1 rt n (not_lt.1 hd), h2]
      refine List.sum_le_sum fun x hx => mul_le_mul' le_rfl ?_
      obtain ⟨g1, g2, -⟩ := good x hx
      have b1 := ih x.1 g1 g2
      have b2 := ih x.1.counted g1 g2
      calc _ ≤ countedChance rt * glazedSteps w ch n x.1.geometry x.1.refractionIndex + (1 - countedChance rt) * glazedSteps w ch n x.1.geometry x.1.refractionIndex := add_le_add (mul_le_mul' le_rfl b2) (mul_le_mul' le_rfl b1)
        _ = _ := by rw [← add_mul, add_tsub_cancel_of_le (counted_le_one rt), one_mul]

/-- The mean light is at least the light over as many surfaces as the depth allows if all count. -/
theorem steps_le_glazed (hW : w.SunlitGlazed s) (rt : RayTracer) (hA : 0 < rt.nAmbientSamples) (hlim : rt.limitWeight = 0) (ch : Spectrum ℝ → ℝ) (hch : ch ∈ [Spectrum.c0, Spectrum.c1, Spectrum.c2]) (k : Nat) :
    ∀ (n : Nat) (ray : TRay), k ≤ n → ray.depth + k ≤ rt.maxDepth + 1 → Norm ray.geometry.direction = 1 → 0 < ray.refractionIndex → glazedSteps w ch k ray.geometry ray.refractionIndex ≤ glazedLight w rt ch n ray := by
  induction k with
  | zero => exact fun _ _ _ _ _ _ => zero_le
  | succ k ih =>
    intro n ray hkn hdk hu hη
    obtain ⟨n, rfl⟩ : ∃ j, n = j + 1 := ⟨n - 1, by omega⟩
    have hd : ray.depth ≤ rt.maxDepth := by omega
    show w.glazedBack ch (glazedSteps w ch k) ray.geometry ray.refractionIndex ≤ _
    cases view_cases hW ch hch ray hu hη with
    | open_ h1 h2 => rw [h2]; exact zero_le
    | matt S a kk m onw hk hm ha unit depth index meas h1 h2 =>
      rw [h1 rt n hd, h2]
      refine add_le_add le_rfl ?_
      by_cases h0 : rt.maxDepth = 0
      · have hk0 : k = 0 := by omega
        subst hk0
        simp only [glazedSteps, irradiance_const, zero_mul, mul_zero]
        exact zero_le
      · have hf : followChance rt ray.depth ray.value = 1 := by
          unfold followChance
          rw [if_neg (by omega)]
          split_ifs <;> rfl
        rw [hf, one_mul]
        refine mul_le_mul' le_rfl (irradiance_mono_unit fun l hl => ?_)
        rw [← index l]
        exact ih n (onw l) (by omega) (by rw [depth]; omega) (unit l hl) (by rw [index]; exact hη)
    | shiny i kk bk tri m it hk hm hPh hS ha good rows h1 h2 =>
      rw [h1 rt n hd, h2]
      refine List.sum_le_sum fun x hx => mul_le_mul' le_rfl ?_
      obtain ⟨g1, g2, g3⟩ := good x hx
      have b1 := ih n x.1 (by omega) (by rw [g3]; omega) g1 g2
      have b2 := ih n x.1.counted (by omega) (by simp only [TRay.counted, g3]; omega) g1 g2
      calc glazedSteps w ch k x.1.geometry x.1.refractionIndex = countedChance rt * glazedSteps w ch k x.1.geometry x.1.refractionIndex + (1 - countedChance rt) * glazedSteps w ch k x.1.geometry x.1.refractionIndex := by
            rw [← add_mul, add_tsub_cancel_of_le (counted_le_one rt), one_mul]
        _ ≤ _ := add_le_add (mul_le_mul' le_rfl b2) (mul_le_mul' le_rfl b1)

/-- When every bounce counts, it is exactly that light. -/
theorem counted_eq_steps (hW : w.SunlitGlazed s) (rt : RayTracer) (hcsb : 1 ≤ rt.countSpecularBounce) (ch : Spectrum ℝ → ℝ) (hch : ch ∈ [Spectrum.c0, Spectrum.c1, Spectrum.c2]) (k : Nat) :
    ∀ (n : Nat) (ray : TRay), ray.depth + k = rt.maxDepth + 1 → Norm ray.geometry.direction = 1 → 0 < ray.refractionIndex → glazedLight w rt ch n ray ≤ glazedSteps w ch k ray.geometry ray.refractionIndex := by
  have hc1 : countedChance rt = 1 := by
    unfold countedChance
    rw [min_eq_left hcsb, ENNReal.ofReal_one]
  induction k with
  | zero => exact fun n ray hd _ _ => by rw [shallow_zero rt ch n ray (by omega)]; exact zero_le
  | succ k ih =>
    intro n ray hdk hu hη
    cases n with
    | zero => exact zero_le
    | succ n =>
    have hd : ray.depth ≤ rt.maxDepth := by omega
    show _ ≤ w.glazedBack ch (glazedSteps w ch k) ray.geometry ray.refractionIndex
    cases view_cases hW ch hch ray hu hη with
    | open_ h1 h2 => rw [h1]; exact zero_le
    | matt S a kk m onw hk hm ha unit depth index meas h1 h2 =>
      rw [h1 rt n hd, h2]
      refine add_le_add le_rfl ((mul_le_mul' (follow_le rt _ _) le_rfl).trans ?_)
      rw [one_mul]
      refine mul_le_mul' le_rfl (irradiance_mono_unit fun l hl => ?_)
      rw [← index l]
      exact ih n (onw l) (by rw [depth]; omega) (unit l hl) (by rw [index]; exact hη)
    | shiny i kk bk tri m it hk hm hPh hS ha good rows h1 h2 =>
      rw [h1 rt n hd, h2]
      refine List.sum_le_sum fun x hx => mul_le_mul' le_rfl ?_
      obtain ⟨g1, g2, g3⟩ := good x hx
      rw [hc1, one_mul, tsub_self, zero_mul, add_zero]
      exact ih n x.1.counted (by simp only [TRay.counted, g3]; omega) g1 g2

/-- On rays of unit direction the light over at most `k` surfaces can be integrated. -/
theorem glazedSteps_measurable (hW : w.SunlitGlazed s) (ch : Spectrum ℝ → ℝ) (hch : ch ∈ [Spectrum.c0, Spectrum.c1, Spectrum.c2]) (k : Nat) {η : ℝ} (hη : 0 < η) : ∃ M : Ray3 ℝ → ENNReal, Measurable M ∧ ∀ g, Norm g.direction = 1 → glazedSteps w ch k g η = M g := by
  cases k with
  | zero => exact ⟨fun _ => 0, measurable_const, fun _ _ => rfl⟩
  | succ k =>
    obtain ⟨val, rest, hF, h⟩ := glazed_fresh hW ⟨k, 1, 1, 0, 1⟩ one_pos ch hch (k + 2) 0 1 η zero_le_one hη
    refine ⟨fun g => avg (val g), hF.measurable_mean, fun g hg => ?_⟩
    obtain ⟨ray, h1, h2, h3, h4⟩ : ∃ ray : TRay, ray.geometry = g ∧ ray.depth = 0 ∧ ray.value = 1 ∧ ray.refractionIndex = η := ⟨⟨g, η, TRay.default.interaction, 0, 1, Spectrum.black⟩, rfl, rfl, rfl, rfl⟩
    have hu : Norm ray.geometry.direction = 1 := by rw [h1]; exact hg
    have hi : 0 < ray.refractionIndex := by rw [h4]; exact hη
    have hE := counted_ends hW.toSunlit ⟨k, 1, 1, 0, 1⟩ le_rfl (k + 1) ray (by rw [h2]; simp)
    have := (h ray hE h2 h3 h4 hu).1
    show _ = avg (val g)
    rw [← h1, this, ← h4]
    exact le_antisymm (steps_le_glazed hW ⟨k, 1, 1, 0, 1⟩ one_pos rfl ch hch (k + 1) (k + 2) ray (by omega) (by rw [h2]; simp) hu hi) (counted_eq_steps hW ⟨k, 1, 1, 0, 1⟩ le_rfl ch hch (k + 1) (k + 2) ray (by rw [h2]; simp) hu hi)

/-- The light over any number of surfaces. -/
noncomputable def glazedFull (w : World) (ch : Spectrum ℝ → ℝ) (g : Ray3 ℝ) (η : ℝ) : ENNReal := ⨆ k, glazedSteps w ch k g η

/-- A ray in a medium. -/
noncomputable def rayIn (g : Ray3 ℝ) (η : ℝ) : TRay := { TRay.default with geometry := g, refractionIndex := η }

theorem iSup_list_sum {α : Type} (l : List α) (f : α → ENNReal) (F : α → Nat → ENNReal) (hF : ∀ x, Monotone (F x)) : ⨆ k, (l.map fun x => f x * F x k).sum = (l.map fun x => f x * ⨆ k, F x k).sum := by
  induction l with
  | nil => simp
  | cons x l ih =>
    simp only [List.map_cons, List.sum_cons]
    rw [← ih, ENNReal.mul_iSup]
    refine (ENNReal.iSup_add_iSup_of_monotone (f := fun k => f x * F x k) (g := fun k => (l.map fun x => f x * F x k).sum) (fun a b h => mul_le_mul' le_rfl (hF x h)) fun a b h => List.sum_le_sum fun y _ => mul_le_mul' le_rfl (hF y h)).symm

theorem glazedFull_solves (hW : w.SunlitGlazed s) (ch : Spectrum ℝ → ℝ) (hch : ch ∈ [Spectrum.c0, Spectrum.c1, Spectrum.c2]) : w.SolvesGlazedEquation ch (glazedFull w ch) := by
  intro g η hg hη
  have hshift : glazedFull w ch g η = ⨆ k, glazedSteps w ch (k + 1) g η := ((glazedSteps_mono ch g η).iSup_nat_add 1).symm
  rw [hshift]
  have hunf : ∀ k, glazedSteps w ch (k + 1) g η = w.glazedBack ch (glazedSteps w ch k) g η := fun _ => rfl
  simp only [hunf]
  cases view_cases hW ch hch (rayIn g η) hg hη with
  | open_ h1 h2 =>
    have h2 : ∀ L, w.glazedBack ch L g η = 0 := h2
    simp [h2]
  | matt S a kk m onw hk hm ha unit depth index meas h1 h2 =>
    have h2 : ∀ L, w.glazedBack ch L g η = S + a * irradiance fun l => L (onw l).geometry η := h2
    simp only [h2]
    rw [← ENNReal.add_iSup, ← ENNReal.mul_iSup]
    congr 2
    refine (irradiance_iSup (L := fun k l => glazedSteps w ch k (onw l).geometry η) (fun l => glazedSteps_mono ch _ _) fun k => ?_).symm
    obtain ⟨M, m1, m2⟩ := glazedSteps_measurable hW ch hch k hη
    exact ⟨fun l => M (onw l).geometry, m1.comp meas, fun l hl => m2 _ (unit l hl)⟩
  | shiny i kk bk tri m it hk hm hPh hS ha good rows h1 h2 =>
    have h2 : ∀ L, w.glazedBack ch L g η = ((offered m { rayIn g η with interaction := it }).map fun x => ENNReal.ofReal (ch x.2) * L x.1.geometry x.1.refractionIndex).sum := h2
    simp only [h2]
    exact iSup_list_sum _ _ (fun (x : TRay × Spectrum ℝ) k => glazedSteps w ch k x.1.geometry x.1.refractionIndex) fun x => glazedSteps_mono ch _ _

/-- The light over at most `k` surfaces is no more than any solution. -/
theorem glazedSteps_le (hW : w.SunlitGlazed s) (ch : Spectrum ℝ → ℝ) (hch : ch ∈ [Spectrum.c0, Spectrum.c1, Spectrum.c2]) {L : Ray3 ℝ → ℝ → ENNReal} (hL : w.SolvesGlazedEquation ch L) (k : Nat) :
    ∀ ray : TRay, Norm ray.geometry.direction = 1 → 0 < ray.refractionIndex → glazedSteps w ch k ray.geometry ray.refractionIndex ≤ L ray.geometry ray.refractionIndex := by
  induction k with
  | zero => exact fun _ _ _ => zero_le
  | succ k ih =>
    intro ray hu hη
    rw [hL _ _ hu hη]
    show w.glazedBack ch (glazedSteps w ch k) ray.geometry ray.refractionIndex ≤ _
    cases view_cases hW ch hch ray hu hη with
    | open_ h1 h2 => rw [h2]; exact zero_le
    | matt S a kk m onw hk hm ha unit depth index meas h1 h2 =>
      rw [h2, h2]
      refine add_le_add le_rfl (mul_le_mul' le_rfl (irradiance_mono_unit fun l hl => ?_))
      rw [← index l]
      exact ih (onw l) (unit l hl) (by rw [index]; exact hη)
    | shiny i kk bk tri m it hk hm hPh hS ha good rows h1 h2 =>
      rw [h2, h2]
      refine List.sum_le_sum fun x hx => mul_le_mul' le_rfl ?_
      obtain ⟨g1, g2, -⟩ := good x hx
      exact ih x.1 g1 g2

/-- **C139, the limit.** The means that `trace_ray` returns along a ray for `max_depth` 0, 1, 2, … (with `limit_weight` 0) tend to a solution of the equation, the least one, whatever the probability with which mirrors, panes and dielectrics count as bounces,
as long as for each `max_depth` the light is back after some number of steps. -/
theorem C139_limit (hW : w.SunlitGlazed s) (ch : Spectrum ℝ → ℝ) (hch : ch ∈ [Spectrum.c0, Spectrum.c1, Spectrum.c2]) : ∃ L : Ray3 ℝ → ℝ → ENNReal, w.SolvesGlazedEquation ch L ∧
    (∀ L', w.SolvesGlazedEquation ch L' → ∀ (g : Ray3 ℝ) (η : ℝ), Norm g.direction = 1 → 0 < η → L g η ≤ L' g η) ∧
    ∀ (rt : RayTracer) (ray : TRay) (n : Nat → Nat), 0 < rt.nShadowSamples → 0 < rt.nAmbientSamples → rt.limitWeight = 0 → Norm ray.geometry.direction = 1 → 0 ≤ ray.value → 0 < ray.refractionIndex → (∀ depth, w.EndsWithin { rt with maxDepth := depth } (n depth) ray) →
      Filter.Tendsto (fun depth => ∫⁻ r, seenLight (traceRay w { rt with maxDepth := depth } (n depth + rt.nShadowSamples + rt.nAmbientSamples + 2) ⟨r, List.replicate (depth + 1) TRay.default⟩ ray) ch ∂randomNumbers) Filter.atTop (nhds (L ray.geometry ray.refractionIndex)) := by
  refine ⟨glazedFull w ch, glazedFull_solves hW ch hch, fun L' hL' g η hg hη => iSup_le fun k => glazedSteps_le hW ch hch hL' k (rayIn g η) hg hη, fun rt ray n hsh hA hlim hu hv hη hE => ?_⟩
  have hmean : ∀ depth, ∫⁻ r, seenLight (traceRay w { rt with maxDepth := depth } (n depth + rt.nShadowSamples + rt.nAmbientSamples + 2) ⟨r, List.replicate (depth + 1) TRay.default⟩ ray) ch ∂randomNumbers = glazedLight w { rt with maxDepth := depth } ch (n depth) ray :=
    fun depth => C123_mean_light hW { rt with maxDepth := depth } hsh ch hch _ (by simp) ray hu hv hη _ (hE depth) _ le_rfl
  have hmore : ∀ depth j, n depth ≤ j → glazedLight w { rt with maxDepth := depth } ch (n depth) ray = glazedLight w { rt with maxDepth := depth } ch j ray := fun depth j hj => by
    rw [← C123_mean_light hW { rt with maxDepth := depth } hsh ch hch (List.replicate (depth + 1) TRay.default) (by simp) ray hu hv hη _ (hE depth) (j + rt.nShadowSamples + rt.nAmbientSamples + 2) (by simpa using hj),
      C123_mean_light hW { rt with maxDepth := depth } hsh ch hch (List.replicate (depth + 1) TRay.default) (by simp) ray hu hv hη j (ends_mono _ hj ray (hE depth)) (j + rt.nShadowSamples + rt.nAmbientSamples + 2) le_rfl]
  simp only [hmean]
  refine tendsto_of_tendsto_of_tendsto_of_le_of_le (g := fun depth => glazedSteps w ch (depth + 1 - ray.depth) ray.geometry ray.refractionIndex) (h := fun _ => glazedFull w ch ray.geometry ray.refractionIndex) ?_ tendsto_const_nhds (fun depth => ?_) fun depth => ?_
  · refine (tendsto_atTop_iSup (glazedSteps_mono ch ray.geometry ray.refractionIndex)).comp ?_
    refine Filter.tendsto_atTop.2 fun b => ?_
    filter_upwards [Filter.eventually_ge_atTop (b + ray.depth)] with depth hdep
    omega
  · rcases Nat.lt_or_ge depth ray.depth with h | h
    · simp only
      rw [show depth + 1 - ray.depth = 0 by omega]
      exact zero_le
    · simp only
      rw [hmore depth (n depth + (depth + 1)) (by omega)]
      exact steps_le_glazed hW { rt with maxDepth := depth } hA hlim ch hch _ _ ray (by omega) (by simp only; omega) hu hη
  · exact (glazed_le_steps hW _ ch hch _ ray hu hη).trans (le_iSup (fun k => glazedSteps w ch k ray.geometry ray.refractionIndex) _)

/-- The paths that a mirror, pane or dielectric offers carry together at most what the ray carries. -/
theorem offered_carries {m : Material ℝ} (hs : m.specularOnly = true) (hPh : m.Physical) (ch : Spectrum ℝ → ℝ) (hch : ch ∈ [Spectrum.c0, Spectrum.c1, Spectrum.c2]) {top : ℝ} (htop : 1 ≤ top) (hA : m.AddsNoLight ch top)
    (arrived : TRay) (hN : Norm arrived.interaction.shading.normal = 1) (hu : Norm arrived.geometry.direction = 1) (hface : Dot arrived.interaction.shading.normal arrived.geometry.direction < 0) (hη : 0 < arrived.refractionIndex) (hηtop : arrived.refractionIndex ≤ top) :
    ((offered m arrived).map fun x => ENNReal.ofReal (ch x.2) * ENNReal.ofReal ((top / x.1.refractionIndex) ^ 2)).sum ≤ ENNReal.ofReal ((top / arrived.refractionIndex) ^ 2) ∧ ∀ x ∈ offered m arrived, x.1.refractionIndex ≤ top := by
  obtain ⟨hsum, hgood⟩ := offered_energy hs hPh ch hch htop hA arrived hN hu hface hη hηtop
  refine ⟨?_, fun x hx => (hgood x hx).bound⟩
  have e : ((offered m arrived).map fun x => ENNReal.ofReal (ch x.2) * ENNReal.ofReal ((top / x.1.refractionIndex) ^ 2)).sum = ENNReal.ofReal (((offered m arrived).map fun x => ch x.2 / x.1.refractionIndex ^ 2).sum * top ^ 2) := by
    clear hsum
    generalize offered m arrived = l at hgood
    induction l with
    | nil => simp
    | cons x l ihl =>
      have hx := hgood x (List.mem_cons_self ..)
      have hl := fun y hy => hgood y (List.mem_cons_of_mem _ hy)
      rw [List.map_cons, List.sum_cons, List.map_cons, List.sum_cons, ihl hl, add_mul, ENNReal.ofReal_add (mul_nonneg (div_nonneg hx.weight (sq_nonneg _)) (sq_nonneg _)), ← ENNReal.ofReal_mul hx.weight]
      · congr 2
        rw [div_pow]
        ring
      · refine mul_nonneg (List.sum_nonneg fun z hz => ?_) (sq_nonneg _)
        obtain ⟨y, hy, rfl⟩ := List.mem_map.1 hz
        exact div_nonneg (hl y hy).weight (sq_nonneg _)
  rw [e]
  refine ENNReal.ofReal_le_ofReal ?_
  rw [div_pow]
  calc _ ≤ 1 / arrived.refractionIndex ^ 2 * top ^ 2 := mul_le_mul_of_nonneg_right hsum (sq_nonneg _)
    _ = _ := by ring

/-- A bounded solution exceeds the light over at most `k (b + 1) + j` surfaces by at most `ρ^k` times its bound, if at most `b` mirrors or panes follow each other. -/
theorem le_glazedSteps (hW : w.SunlitGlazed s) (ch : Spectrum ℝ → ℝ) (hch : ch ∈ [Spectrum.c0, Spectrum.c1, Spectrum.c2]) (ρ B : ENNReal) {top : ℝ} (htop : 1 ≤ top)
    (hA : ∀ (k : Nat) m, s.materials[k]? = some m → k ∈ s.front ++ s.back → m.specularOnly = true → m.AddsNoLight ch top)
    (hρ : ∀ (k : Nat) m, s.materials[k]? = some m → k ∈ s.front ++ s.back → m.specularOnly = false → ENNReal.ofReal (ch m.colour) ≤ ρ)
    (b : Nat) (hrows : ∀ ray : TRay, Norm ray.geometry.direction = 1 → 0 < ray.refractionIndex → w.SpecularRow b ray) {L : Ray3 ℝ → ℝ → ENNReal} (hL : w.SolvesGlazedEquation ch L)
    (hB : ∀ (g : Ray3 ℝ) (η : ℝ), Norm g.direction = 1 → 0 < η → η ≤ top → L g η ≤ ENNReal.ofReal ((top / η) ^ 2) * B) (k : Nat) :
    ∀ (j : Nat) (ray : TRay), Norm ray.geometry.direction = 1 → 0 < ray.refractionIndex → ray.refractionIndex ≤ top → w.SpecularRow j ray →
      L ray.geometry ray.refractionIndex ≤ glazedSteps w ch (k * (b + 1) + j) ray.geometry ray.refractionIndex + ENNReal.ofReal ((top / ray.refractionIndex) ^ 2) * (ρ ^ k * B) := by
  induction k with
  | zero =>
    intro j ray hu hη ht _
    rw [pow_zero, one_mul]
    exact (hB _ _ hu hη ht).trans le_add_self
  | succ k ihk =>
    intro j
    have matt_case : ∀ (j : Nat) (ray : TRay), Norm ray.geometry.direction = 1 → 0 < ray.refractionIndex → ray.refractionIndex ≤ top → ∀ (S a : ENNReal) (m : Material ℝ) (onw : Vec3 ℝ → TRay), (∃ kk : Nat, s.materials[kk]? = some m ∧ kk ∈ s.front ++ s.back) → m.specularOnly = false → a = ENNReal.ofReal (ch m.colour / Real.pi) →
        (∀ l, Norm l = 1 → Norm (onw l).geometry.direction = 1) → (∀ l, (onw l).refractionIndex = ray.refractionIndex) → (∀ L, w.glazedBack ch L ray.geometry ray.refractionIndex = S + a * irradiance fun l => L (onw l).geometry ray.refractionIndex) →
        L ray.geometry ray.refractionIndex ≤ glazedSteps w ch ((k + 1) * (b + 1) + j) ray.geometry ray.refractionIndex + ENNReal.ofReal ((top / ray.refractionIndex) ^ 2) * (ρ ^ (k + 1) * B) := by
      intro j ray hu hη ht S a m onw ⟨kk, hk1, hk2⟩ hm ha unit index h2
      set F := ENNReal.ofReal ((top / ray.refractionIndex) ^ 2) with hF
      have hle : glazedSteps w ch (k * (b + 1) + b + 1) ray.geometry ray.refractionIndex ≤ glazedSteps w ch ((k + 1) * (b + 1) + j) ray.geometry ray.refractionIndex := glazedSteps_mono ch _ _ (by
        have : (k + 1) * (b + 1) = k * (b + 1) + b + 1 := by ring
        omega)
      refine le_trans ?_ (add_le_add hle le_rfl)
      have e : glazedSteps w ch (k * (b + 1) + b + 1) ray.geometry ray.refractionIndex = w.glazedBack ch (glazedSteps w ch (k * (b + 1) + b)) ray.geometry ray.refractionIndex := rfl
      rw [hL _ _ hu hη, e, h2, h2]
      have h1 : (irradiance fun l => L (onw l).geometry ray.refractionIndex) ≤ (irradiance fun l => glazedSteps w ch (k * (b + 1) + b) (onw l).geometry ray.refractionIndex) + irradiance fun _ => F * (ρ ^ k * B) := by
        rw [← irradiance_add_const]
        refine irradiance_mono_unit fun l hl => ?_
        have := ihk b (onw l) (unit l hl) (by rw [index]; exact hη) (by rw [index]; exact ht) (hrows _ (unit l hl) (by rw [index]; exact hη))
        rw [index] at this
        exact this
      rw [add_assoc]
      refine add_le_add le_rfl ((mul_le_mul' le_rfl h1).trans ?_)
      rw [mul_add, ha, colour_irradiance_const]
      refine add_le_add le_rfl ?_
      calc _ ≤ ρ * (F * (ρ ^ k * B)) := mul_le_mul' (hρ kk m hk1 hk2 hm) le_rfl
        _ = _ := by ring
    induction j with
    | zero =>
      intro ray hu hη ht hrow
      cases view_cases hW ch hch ray hu hη with
      | open_ h1 h2 => rw [hL _ _ hu hη, h2]; exact zero_le
      | matt S a kk m onw hk hm ha unit depth index meas h1 h2 => exact matt_case 0 ray hu hη ht S a m onw ⟨kk, hk⟩ hm ha unit index h2
      | shiny i kk bk tri m it hk hm hPh hS ha good rows h1 h2 => exact absurd hrow rows.1
    | succ j ihj =>
      intro ray hu hη ht hrow
      cases view_cases hW ch hch ray hu hη with
      | open_ h1 h2 => rw [hL _ _ hu hη, h2]; exact zero_le
      | matt S a kk m onw hk hm ha unit depth index meas h1 h2 => exact matt_case (j + 1) ray hu hη ht S a m onw ⟨kk, hk⟩ hm ha unit index h2
      | shiny i kk bk tri m it hk hm hPh hS ha good rows h1 h2 =>
        have e : glazedSteps w ch ((k + 1) * (b + 1) + (j + 1)) ray.geometry ray.refractionIndex = w.glazedBack ch (glazedSteps w ch ((k + 1) * (b + 1) + j)) ray.geometry ray.refractionIndex := rfl
        rw [hL _ _ hu hη, e, h2, h2]
        obtain ⟨c1, c2⟩ := offered_carries hm hPh ch hch htop (hA kk m hk.1 hk.2 hm) { ray with interaction := it } (by rw [ha.normal]; exact hS.frame.n3) hu (by rw [ha.normal]; exact ha.faces) hη ht
        calc _ ≤ ((offered m { ray with interaction := it }).map fun x => ENNReal.ofReal (ch x.2) * glazedSteps w ch ((k + 1) * (b + 1) + j) x.1.geometry x.1.refractionIndex + ENNReal.ofReal (ch x.2) * ENNReal.ofReal ((top / x.1.refractionIndex) ^ 2) * (ρ ^ (k + 1) * B)).sum := by
              refine List.sum_le_sum fun x hx => ?_
              obtain ⟨g1, g2, -⟩ := good x hx
              rw [mul_assoc, ← mul_add]
              exact mul_le_mul' le_rfl (ihj x.1 g1 g2 (c2 x hx) (rows.2 j hrow x hx))
          _ = ((offered m { ray with interaction := it }).map fun x => ENNReal.ofReal (ch x.2) * glazedSteps w ch ((k + 1) * (b + 1) + j) x.1.geometry x.1.refractionIndex).sum + ((offered m { ray with interaction := it }).map fun x => ENNReal.ofReal (ch x.2) * ENNReal.ofReal ((top / x.1.refractionIndex) ^ 2)).sum * (ρ ^ (k + 1) * B) := by
              rw [List.sum_map_add, List.sum_map_mul_right]
          _ ≤ _ := add_le_add le_rfl (mul_le_mul' c1 le_rfl)

/-- The light over any number of surfaces is bounded if all matt surfaces absorb some light. -/
theorem glazedFull_bounded (hW : w.SunlitGlazed s) (ch : Spectrum ℝ → ℝ) (hch : ch ∈ [Spectrum.c0, Spectrum.c1, Spectrum.c2]) (D ρ : ENNReal) {top : ℝ} (htop : 1 ≤ top)
    (hA : ∀ (k : Nat) m, s.materials[k]? = some m → k ∈ s.front ++ s.back → m.specularOnly = true → m.AddsNoLight ch top)
    (hρ : ∀ (k : Nat) m, s.materials[k]? = some m → k ∈ s.front ++ s.back → m.specularOnly = false → ENNReal.ofReal (ch m.colour) ≤ ρ)
    (hD : ∀ (ray : TRay) i arrived m, Norm ray.geometry.direction = 1 → w.cast ray = .ok (some (i, arrived)) → w.materialAt arrived.interaction.shading.side i = .ok m → m.specularOnly = false → sunlightAt w m arrived ch ≤ D)
    (g : Ray3 ℝ) (η : ℝ) (hg : Norm g.direction = 1) (hη : 0 < η) (ht : η ≤ top) : glazedFull w ch g η ≤ ENNReal.ofReal ((top / η) ^ 2) * (D * (1 - ρ)⁻¹) := by
  refine iSup_le fun k => ?_
  have h1 := steps_le_glazed hW ⟨k, 1, 1, 0, 1⟩ one_pos rfl ch hch k k (rayIn g η) le_rfl (by simp [rayIn, TRay.default]) hg hη
  refine h1.trans ((glazed_le hW ⟨k, 1, 1, 0, 1⟩ ch hch D ρ htop hA hρ hD k (rayIn g η) hg hη ht).trans ?_)
  unfold glazedBound
  rw [← Finset.mul_sum, ← ENNReal.tsum_geometric]
  exact mul_le_mul' le_rfl (mul_le_mul' le_rfl (ENNReal.sum_le_tsum _))

/-- **C139, the error.** Let the matt surfaces reflect at most the share `ρ < 1`, the panes and dielectrics add no light, no dielectric be denser than `top ≥ 1`, and at most `b` mirrors, panes or dielectrics follow each other on any path. Then the equation has exactly one bounded solution `L`
(bounded in light per squared index), and for every setting with `limit_weight` 0 the mean that `trace_ray` returns along a ray in a medium of index `η` is at most `L` and misses at most `(top / η)² ρ^k` times a constant of the scene, where `k` is the number of times that `b + 1` goes into the bounces that `max_depth` leaves after the first `b`;
other values of `limit_weight` only give less. -/
theorem C139_error (hW : w.SunlitGlazed s) (ch : Spectrum ℝ → ℝ) (hch : ch ∈ [Spectrum.c0, Spectrum.c1, Spectrum.c2]) (ρ : ENNReal) (hρ1 : ρ < 1) {top : ℝ} (htop : 1 ≤ top)
    (hA : ∀ (k : Nat) m, s.materials[k]? = some m → k ∈ s.front ++ s.back → m.specularOnly = true → m.AddsNoLight ch top)
    (hρ : ∀ (k : Nat) m, s.materials[k]? = some m → k ∈ s.front ++ s.back → m.specularOnly = false → ENNReal.ofReal (ch m.colour) ≤ ρ)
    (b : Nat) (hrows : ∀ ray : TRay, Norm ray.geometry.direction = 1 → 0 < ray.refractionIndex → w.SpecularRow b ray) :
    ∃ (L : Ray3 ℝ → ℝ → ENNReal) (B : ENNReal), B ≠ ⊤ ∧ w.SolvesGlazedEquation ch L ∧ (∀ (g : Ray3 ℝ) (η : ℝ), Norm g.direction = 1 → 0 < η → η ≤ top → L g η ≤ ENNReal.ofReal ((top / η) ^ 2) * B) ∧
      (∀ L' C, C ≠ ⊤ → w.SolvesGlazedEquation ch L' → (∀ (g : Ray3 ℝ) (η : ℝ), Norm g.direction = 1 → 0 < η → η ≤ top → L' g η ≤ ENNReal.ofReal ((top / η) ^ 2) * C) → ∀ (g : Ray3 ℝ) (η : ℝ), Norm g.direction = 1 → 0 < η → η ≤ top → L' g η = L g η) ∧
      ∀ (rt : RayTracer) (rays : List TRay) (ray : TRay) (n fuel : Nat), 0 < rt.nShadowSamples → rt.maxDepth < rays.length → Norm ray.geometry.direction = 1 → 0 ≤ ray.value → 0 < ray.refractionIndex → ray.refractionIndex ≤ top → w.EndsWithin rt n ray → n + rt.nShadowSamples + rt.nAmbientSamples + 2 ≤ fuel →
        ∫⁻ r, seenLight (traceRay w rt fuel ⟨r, rays⟩ ray) ch ∂randomNumbers ≤ L ray.geometry ray.refractionIndex ∧
        (0 < rt.nAmbientSamples → rt.limitWeight = 0 → ∀ k, ray.depth + (k * (b + 1) + b) ≤ rt.maxDepth + 1 →
          L ray.geometry ray.refractionIndex ≤ ∫⁻ r, seenLight (traceRay w rt fuel ⟨r, rays⟩ ray) ch ∂randomNumbers + ENNReal.ofReal ((top / ray.refractionIndex) ^ 2) * (ρ ^ k * B)) := by
  obtain ⟨D, hDt, hD⟩ := glazed_sunlight_bounded hW ch hch
  have hB : ∀ (g : Ray3 ℝ) (η : ℝ), Norm g.direction = 1 → 0 < η → η ≤ top → glazedFull w ch g η ≤ ENNReal.ofReal ((top / η) ^ 2) * (D * (1 - ρ)⁻¹) := fun g η h1 h2 h3 => glazedFull_bounded hW ch hch D ρ htop hA hρ hD g η h1 h2 h3
  have hsol := glazedFull_solves hW ch hch
  refine ⟨glazedFull w ch, D * (1 - ρ)⁻¹, ENNReal.mul_ne_top hDt (ENNReal.inv_ne_top.2 (tsub_pos_of_lt hρ1).ne'), hsol, hB, fun L' C hC hL' hB' g η hg hη ht => ?_, fun rt rays ray n fuel hsh hlen hu hv hη ht hE hfuel => ⟨?_, fun hAmb hlim k hk => ?_⟩⟩
  · refine le_antisymm ?_ (iSup_le fun k => glazedSteps_le hW ch hch hL' k (rayIn g η) hg hη)
    have h : ∀ k, L' g η ≤ glazedFull w ch g η + ENNReal.ofReal ((top / η) ^ 2) * (ρ ^ k * C) := fun k =>
      (le_glazedSteps hW ch hch ρ C htop hA hρ b hrows hL' hB' k b (rayIn g η) hg hη ht (hrows (rayIn g η) hg hη)).trans (add_le_add (le_iSup (fun k => glazedSteps w ch k g η) _) le_rfl)
    have hlimit : Filter.Tendsto (fun k => glazedFull w ch g η + ENNReal.ofReal ((top / η) ^ 2) * (ρ ^ k * C)) Filter.atTop (nhds (glazedFull w ch g η + ENNReal.ofReal ((top / η) ^ 2) * (0 * C))) :=
      tendsto_const_nhds.add (ENNReal.Tendsto.const_mul (ENNReal.Tendsto.mul_const (ENNReal.tendsto_pow_atTop_nhds_zero_of_lt_one hρ1) (Or.inr hC)) (Or.inr ENNReal.ofReal_ne_top))
    rw [zero_mul, mul_zero, add_zero] at hlimit
    exact ge_of_tendsto' hlimit h
  · rw [C123_mean_light hW rt hsh ch hch rays hlen ray hu hv hη n hE fuel hfuel]
    exact (glazed_le_steps hW rt ch hch n ray hu hη).trans (le_iSup (fun k => glazedSteps w ch k ray.geometry ray.refractionIndex) _)
  · have hbig := C123_mean_light hW rt hsh ch hch rays hlen ray hu hv hη n hE (n + (k * (b + 1) + b) + rt.nShadowSamples + rt.nAmbientSamples + 2) (by omega)
    have hbig2 := C123_mean_light hW rt hsh ch hch rays hlen ray hu hv hη (n + (k * (b + 1) + b)) (ends_mono rt (by omega) ray hE) (n + (k * (b + 1) + b) + rt.nShadowSamples + rt.nAmbientSamples + 2) le_rfl
    rw [C123_mean_light hW rt hsh ch hch rays hlen ray hu hv hη n hE fuel hfuel, ← hbig, hbig2]
    exact (le_glazedSteps hW ch hch ρ _ htop hA hρ b hrows hsol hB k b ray hu hη ht (hrows ray hu hη)).trans
      (add_le_add (steps_le_glazed hW rt hAmb hlim ch hch _ _ ray (by omega) hk hu hη) le_rfl)

end Rendering
