import Verif.Props.SimpleModel
import Verif.Props.SceneExamples

/-!
# Glass from SIMPLE models: C83, C84; examples for C69, C81–C84
-/

set_option linter.unusedSectionVars false
namespace Rendering

/-- The reader over the reals, with the square root. -/
def SimpleEnv.Real (env : SimpleEnv ℝ) : Prop := ∀ x, env.sqrt x = Real.sqrt x

/-- Reflectance of one face of the panes the reader makes, at normal incidence. -/
noncomputable def faceAtNormal : ℝ := ((152 / 100 - 1) / (152 / 100 + 1)) ^ 2

/-- The transmissivity of the pane, and the equation it solves. -/
theorem transmissivity_eq (τ : ℝ) (h0 : 1 / 1000 ≤ τ) (h1 : τ ≤ 1) :
    let d := transmittanceToTransmissivity Real.sqrt τ
    0 < d ∧ 1 / 10 ^ 15 ≤ d ∧ d ≤ 11 / 10 ∧ (τ ≤ 918 / 1000 → d ≤ 1) ∧ (919 / 1000 ≤ τ → 1 < d) ∧
      (9166530661 / 10000000000 + 36261119 / 10000000000 * d * τ) ^ 2 = 8402528435 / 10000000000 + 72522239 / 10000000000 * τ ^ 2 := by
  intro d
  have hτ : 0 < τ := by linarith
  set X : ℝ := 8402528435 / 10000000000 + 72522239 / 10000000000 * τ ^ 2 with hX
  have hX0 : 0 ≤ X := by positivity
  have hd : 9166530661 / 10000000000 + 36261119 / 10000000000 * d * τ = Real.sqrt X := by
    show 9166530661 / 10000000000 + 36261119 / 10000000000 * transmittanceToTransmissivity Real.sqrt τ * τ = _
    unfold transmittanceToTransmissivity
    rw [← hX]
    field_simp
    ring
  have hsq := Real.sq_sqrt hX0
  have hs0 := Real.sqrt_nonneg X
  have hs1 : 9166530661 / 10000000000 < Real.sqrt X := by
    apply Real.lt_sqrt_of_sq_lt
    rw [hX]; nlinarith
  have le_of : ∀ k : ℝ, 0 ≤ k → X ≤ (9166530661 / 10000000000 + 36261119 / 10000000000 * k * τ) ^ 2 → d ≤ k := by
    intro k hk h
    have h2 : Real.sqrt X ≤ 9166530661 / 10000000000 + 36261119 / 10000000000 * k * τ := by
      rw [show (9166530661 / 10000000000 + 36261119 / 10000000000 * k * τ : ℝ) = Real.sqrt ((9166530661 / 10000000000 + 36261119 / 10000000000 * k * τ) ^ 2) from (Real.sqrt_sq (by positivity)).symm]
      exact Real.sqrt_le_sqrt h
    rw [← hd] at h2
    have : d * τ ≤ k * τ := by linarith
    exact le_of_mul_le_mul_right this hτ
  have gt_of : ∀ k : ℝ, 0 ≤ k → (9166530661 / 10000000000 + 36261119 / 10000000000 * k * τ) ^ 2 < X → k < d := by
    intro k hk h
    have h2 : 9166530661 / 10000000000 + 36261119 / 10000000000 * k * τ < Real.sqrt X := Real.lt_sqrt_of_sq_lt h
    rw [← hd] at h2
    have : k * τ < d * τ := by linarith
    exact lt_of_mul_lt_mul_right this hτ.le
  have hlow : 1 / 10 ^ 15 < d := by
    apply gt_of _ (by positivity)
    rw [hX]
    nlinarith
  refine ⟨lt_trans (by positivity) hlow, hlow.le, ?_, ?_, ?_, ?_⟩
  · apply le_of _ (by norm_num)
    rw [hX]; nlinarith
  · intro h
    apply le_of _ (by norm_num)
    rw [hX]; nlinarith
  · intro h
    apply gt_of _ (by norm_num)
    rw [hX]; nlinarith
  · rw [hd, hsq]

/-- A pane of the reader's glass at normal incidence. -/
theorem pane_at_normal (d : ℝ) (hd : 1 / 10 ^ 15 ≤ d) (n v : Vec3 ℝ) (hv : |Dot n v| = 1) :
    ∀ ch ∈ channelOf, ch (glassReflTrans ⟨d, d, d⟩ (152 / 100) n v).1 = faceAtNormal * (1 + (1 - 2 * faceAtNormal) * d ^ 2) / (1 - faceAtNormal * faceAtNormal * d ^ 2) ∧
      ch (glassReflTrans ⟨d, d, d⟩ (152 / 100) n v).2 = d * ((1 - faceAtNormal) ^ 2 / (1 - (d * faceAtNormal) ^ 2)) := by
  intro ch hch
  obtain ⟨-, hall⟩ := glass_channel ⟨d, d, d⟩ (152 / 100) n v (by rw [hv]; norm_num) (by norm_num)
  obtain ⟨e, he, hR, hT⟩ := hall ch hch
  rw [hv] at he hR hT
  have hb : Real.sqrt (1 - (1 - 1 ^ 2) / (152 / 100) ^ 2) = 1 := by norm_num
  rw [hb] at he hR hT
  have hany : (anyTransmission (⟨d, d, d⟩ : Spectrum ℝ)).2 = true := by
    unfold anyTransmission
    rw [if_neg]
    rw [not_lt]
    simpa [Spectrum.maxChannel, Spectrum.channels, minColour] using hd
  have hc : ch (⟨d, d, d⟩ : Spectrum ℝ) = d := by
    simp only [channelOf, List.mem_cons, List.not_mem_nil, or_false] at hch
    rcases hch with rfl | rfl | rfl <;> rfl
  rw [hany] at he hT
  simp only [if_true, hc, div_one, Real.rpow_one] at he hT
  have hE : faceTE (152 / 100) 1 1 = faceAtNormal := by unfold faceTE faceAtNormal; norm_num
  have hM : faceTM (152 / 100) 1 1 = faceAtNormal := by unfold faceTM faceAtNormal; norm_num
  rw [hE, hM] at hR hT
  subst he
  constructor
  · rw [hR]; ring
  · rw [hT]; ring

/-- C83. A substance that transmits the fraction `τ` of sunlight (from one thousandth up) becomes a glass, and a pane of that glass transmits `τ` of the light that falls on it at right angles, in
every channel, to within `2·10⁻⁸ / τ`. -/
theorem C83_transmittance_round_trip (env : SimpleEnv ℝ) (hE : env.Real) (s : NormalSubstance ℝ) (τ : ℝ) (hs : s.solarTransmittance = some τ) (h0 : 1 / 1000 ≤ τ) (h1 : τ ≤ 1) (m : Material ℝ)
    (hm : SolarMaterial env s m) :
    ∃ colour index, m = .glass colour index ∧ ∀ n v : Vec3 ℝ, |Dot n v| = 1 → ∀ ch ∈ channelOf, |ch (glassReflTrans colour index n v).2 - τ| ≤ 2 / 10 ^ 8 / τ := by
  have henv : env.sqrt = Real.sqrt := funext hE
  obtain ⟨g1, g2, g3, -, -, g6⟩ := transmissivity_eq τ h0 h1
  have hm' : m = .glass ⟨transmittanceToTransmissivity Real.sqrt τ, transmittanceToTransmissivity Real.sqrt τ, transmittanceToTransmissivity Real.sqrt τ⟩ (152 / 100) := by
    cases hm with
    | opaqueKnown a _ h => rw [hs] at h; cases h
    | opaqueUnknown _ h => rw [hs] at h; cases h
    | transparent v t h ht _ => rw [hs] at h; cases h; rw [henv] at ht; rw [ht]
    | darkKnown v a h hn _ => rw [hs] at h; cases h; rw [henv] at hn; exact absurd g1 hn
    | darkUnknown v h hn _ => rw [hs] at h; cases h; rw [henv] at hn; exact absurd g1 hn
  refine ⟨_, _, hm', ?_⟩
  intro n v hv ch hch
  rw [(pane_at_normal _ g2 n v hv ch hch).2]
  generalize transmittanceToTransmissivity Real.sqrt τ = d at g1 g2 g3 g6 ⊢
  have hτ : 0 < τ := by linarith
  have hf : faceAtNormal = 169 / 3969 := by unfold faceAtNormal; norm_num
  rw [hf]
  have hden : 99 / 100 ≤ 1 - (d * (169 / 3969)) ^ 2 := by nlinarith
  have hE : (d * (1 - 169 / 3969 : ℝ) ^ 2 - τ * (1 - (d * (169 / 3969)) ^ 2)) * τ =
      d * τ * ((1 - 169 / 3969) ^ 2 - 2 * (9166530661 / 10000000000) * (36261119 / 10000000000) / (72522239 / 10000000000)) +
      (d * τ) ^ 2 * ((169 / 3969) ^ 2 - (36261119 / 10000000000) ^ 2 / (72522239 / 10000000000)) + (8402528435 / 10000000000 - (9166530661 / 10000000000) ^ 2) / (72522239 / 10000000000) := by
    linear_combination (1 / (72522239 / 10000000000)) * g6
  have hdt : d * τ ≤ 11 / 10 := by nlinarith
  have hdt0 : 0 ≤ d * τ := by positivity
  have hb1 : |(d * (1 - 169 / 3969 : ℝ) ^ 2 - τ * (1 - (d * (169 / 3969)) ^ 2)) * τ| ≤ 19 / 10 ^ 9 := by
    rw [hE, abs_le]
    constructor <;> nlinarith
  have key : d * ((1 - 169 / 3969 : ℝ) ^ 2 / (1 - (d * (169 / 3969)) ^ 2)) - τ = (d * (1 - 169 / 3969 : ℝ) ^ 2 - τ * (1 - (d * (169 / 3969)) ^ 2)) * τ / ((1 - (d * (169 / 3969)) ^ 2) * τ) := by
    have hx : (1 - (d * (169 / 3969)) ^ 2) ≠ 0 := by linarith
    generalize 1 - (d * (169 / 3969)) ^ 2 = x at hx ⊢
    field_simp
  rw [key, abs_div, abs_of_pos (show 0 < (1 - (d * (169 / 3969)) ^ 2) * τ from mul_pos (by linarith) hτ), div_le_div_iff₀ (mul_pos (by linarith) hτ) hτ]
  have h99 : 99 / 100 * τ ≤ (1 - (d * (169 / 3969)) ^ 2) * τ := mul_le_mul_of_nonneg_right hden hτ.le
  have hA : |(d * (1 - 169 / 3969 : ℝ) ^ 2 - τ * (1 - (d * (169 / 3969)) ^ 2)) * τ| * τ ≤ 19 / 10 ^ 9 * τ := mul_le_mul_of_nonneg_right hb1 hτ.le
  calc _ ≤ 19 / 10 ^ 9 * τ := hA
    _ ≤ 2 / 10 ^ 8 * (99 / 100 * τ) := by nlinarith
    _ ≤ _ := mul_le_mul_of_nonneg_left h99 (by positivity)

/-- C84, the part that holds: substances that absorb between nothing and everything, and transmit nothing, or between 0.001 and 0.918, become materials that give back at most what they get, in
every channel: diffuse ones with an albedo between 0 and 1, and panes whose reflectance and transmittance add up to at most 1 for every ray that is not parallel to them. -/
theorem C84_energy_partial (env : SimpleEnv ℝ) (hE : env.Real) (s : NormalSubstance ℝ) (m : Material ℝ) (hm : SolarMaterial env s m)
    (ha : ∀ a, s.frontSolarAbsorbtance = some a → 0 ≤ a ∧ a ≤ 1) (ht : ∀ τ, s.solarTransmittance = some τ → τ = 0 ∨ (1 / 1000 ≤ τ ∧ τ ≤ 918 / 1000)) :
    (∃ ρ, m = .plastic ⟨ρ, ρ, ρ⟩ 0 0 ∧ 0 ≤ ρ ∧ ρ ≤ 1) ∨
    (∃ colour index, m = .glass colour index ∧ ∀ n v : Vec3 ℝ, Dot n v ≠ 0 → ∀ ch ∈ channelOf, ch (glassReflTrans colour index n v).1 + ch (glassReflTrans colour index n v).2 ≤ 1) := by
  have henv : env.sqrt = Real.sqrt := funext hE
  have hz : transmittanceToTransmissivity Real.sqrt 0 = 0 := by unfold transmittanceToTransmissivity; simp
  cases hm with
  | opaqueKnown a h _ => exact Or.inl ⟨1 - a, rfl, by linarith [(ha a h).2], by linarith [(ha a h).1]⟩
  | opaqueUnknown _ _ => exact Or.inl ⟨1 - 7 / 10, rfl, by norm_num, by norm_num⟩
  | darkKnown v a _ _ h => exact Or.inl ⟨1 - a, rfl, by linarith [(ha a h).2], by linarith [(ha a h).1]⟩
  | darkUnknown v _ _ _ => exact Or.inl ⟨1 - 7 / 10, rfl, by norm_num, by norm_num⟩
  | transparent τ t h htt hpos =>
    right
    rw [henv] at htt
    rcases ht τ h with h0 | ⟨h1, h2⟩
    · rw [htt, h0, hz] at hpos; exact absurd hpos (lt_irrefl _)
    · obtain ⟨g1, -, -, g4, -, -⟩ := transmissivity_eq τ h1 (by linarith)
      refine ⟨_, _, rfl, ?_⟩
      intro n v hnv ch hch
      refine (C48_glass_energy _ (152 / 100) n v hnv (by norm_num) ?_ ch hch).2.2.1
      intro c hc
      have : c (⟨t, t, t⟩ : Spectrum ℝ) = t := by
        simp only [channelOf, List.mem_cons, List.not_mem_nil, or_false] at hc
        rcases hc with rfl | rfl | rfl <;> rfl
      rw [this, htt]
      exact ⟨g1.le, g4 h2⟩

/-- C84 is false of the program: a substance that transmits at least 0.919 of sunlight becomes a glass that, at normal incidence, reflects and transmits more light than it gets, in every
channel, whatever its absorptance. (No pane of refraction index 1.52 transmits that much: the conversion answers with a transmissivity above 1.) -/
theorem C84_violation (env : SimpleEnv ℝ) (hE : env.Real) (s : NormalSubstance ℝ) (τ : ℝ) (hs : s.solarTransmittance = some τ) (h0 : 919 / 1000 ≤ τ) (h1 : τ ≤ 1) (m : Material ℝ)
    (hm : SolarMaterial env s m) :
    ∃ colour index, m = .glass colour index ∧ ∀ n v : Vec3 ℝ, |Dot n v| = 1 → ∀ ch ∈ channelOf, 1 < ch (glassReflTrans colour index n v).1 + ch (glassReflTrans colour index n v).2 := by
  have henv : env.sqrt = Real.sqrt := funext hE
  obtain ⟨g1, g2, g3, -, g5, g6⟩ := transmissivity_eq τ (by linarith) h1
  have hm' : m = .glass ⟨transmittanceToTransmissivity Real.sqrt τ, transmittanceToTransmissivity Real.sqrt τ, transmittanceToTransmissivity Real.sqrt τ⟩ (152 / 100) := by
    cases hm with
    | opaqueKnown a _ h => rw [hs] at h; cases h
    | opaqueUnknown _ h => rw [hs] at h; cases h
    | transparent v t h ht _ => rw [hs] at h; cases h; rw [henv] at ht; rw [ht]
    | darkKnown v a h hn _ => rw [hs] at h; cases h; rw [henv] at hn; exact absurd g1 hn
    | darkUnknown v h hn _ => rw [hs] at h; cases h; rw [henv] at hn; exact absurd g1 hn
  refine ⟨_, _, hm', ?_⟩
  intro n v hv ch hch
  obtain ⟨hR, hT⟩ := pane_at_normal _ g2 n v hv ch hch
  rw [hR, hT]
  have g5 := g5 h0
  generalize transmittanceToTransmissivity Real.sqrt τ = d at g1 g2 g3 g5 g6 ⊢
  have hf : faceAtNormal = 169 / 3969 := by unfold faceAtNormal; norm_num
  rw [hf]
  have hden : 99 / 100 ≤ 1 - (d * (169 / 3969)) ^ 2 := by nlinarith
  have e : (1 - 169 / 3969 * (169 / 3969) * d ^ 2 : ℝ) = 1 - (d * (169 / 3969)) ^ 2 := by ring
  rw [e]
  have : d * ((1 - 169 / 3969 : ℝ) ^ 2 / (1 - (d * (169 / 3969)) ^ 2)) = d * (1 - 169 / 3969) ^ 2 / (1 - (d * (169 / 3969)) ^ 2) := by ring
  rw [this, ← add_div, lt_div_iff₀ (by linarith)]
  nlinarith

/-! ### Examples -/

namespace SimpleExamples
open BvhExamples SceneExamples

def brick : Substance ℚ := .normal ⟨"brick", some (6 / 10), none, none, none⟩
def foam : Substance ℚ := .normal ⟨"foam", none, none, none, none⟩

/-- Polygons of three corners. -/
def env : SimpleEnv ℚ where
  scene := refSceneEnv ℚ
  sqrt := fun x => x
  triangulate := fun vs => match vs with
    | [a, b, c] => some [⟨a, b, c⟩]
    | _ => none

/-- A wall of brick, air and foam, and a window of brick only (twice the same substance). -/
def model : SimpleModel ℚ where
  surfaces := [⟨[(triAt 1).a, (triAt 1).b, (triAt 1).c], ⟨"wall", [brick, .gas "air", foam]⟩⟩]
  fenestrations := [⟨[(triAt 2).a, (triAt 2).b, (triAt 2).c], ⟨"window", [brick]⟩⟩]

/-- C69, C81, C82: the model is accepted; the scene has two triangles and four materials for two substances. -/
example : ((Scene.fromSimpleModel env model .solar).bind fun s => .ok (s.triangles, s.front, s.back)) = .ok ([triAt 1, triAt 2], [0, 2], [1, 3]) := by
  decide +kernel
example : ((Scene.fromSimpleModel env model .solar).bind fun s => .ok s.materials) =
    .ok [.plastic ⟨4 / 10, 4 / 10, 4 / 10⟩ 0 0, .plastic ⟨3 / 10, 3 / 10, 3 / 10⟩ 0 0, .plastic ⟨4 / 10, 4 / 10, 4 / 10⟩ 0 0, .plastic ⟨4 / 10, 4 / 10, 4 / 10⟩ 0 0] := by
  decide +kernel

/-- A gas in front ends the program. -/
example : ((Scene.fromSimpleModel env { model with fenestrations := [⟨[], ⟨"air", [.gas "air", brick]⟩⟩] } .solar).bind fun s => .ok s.front) = .panic := by
  decide +kernel

/-- C83, C84: the glass of the repository's test, which transmits 0.88, and one that transmits 0.95 and absorbs 0.05. -/
example : ∃ m, SolarMaterial ⟨refSceneEnv ℝ, Real.sqrt, fun _ => none⟩ ⟨"glass", some (5 / 100), some (88 / 100), none, none⟩ m := by
  obtain ⟨m, -, h⟩ := substance_normal (⟨refSceneEnv ℝ, Real.sqrt, fun _ => none⟩ : SimpleEnv ℝ) ⟨"glass", some (5 / 100), some (88 / 100), none, none⟩
  exact ⟨m, h⟩
example : ∃ m, SolarMaterial ⟨refSceneEnv ℝ, Real.sqrt, fun _ => none⟩ ⟨"clear", some (5 / 100), some (95 / 100), none, none⟩ m := by
  obtain ⟨m, -, h⟩ := substance_normal (⟨refSceneEnv ℝ, Real.sqrt, fun _ => none⟩ : SimpleEnv ℝ) ⟨"clear", some (5 / 100), some (95 / 100), none, none⟩
  exact ⟨m, h⟩
/-- White paint that reflects nine tenths would become a surface that reflects a tenth. -/
example : substanceToMaterial Real.sqrt (.normal ⟨"white paint", none, none, some (9 / 10), none⟩) .visible = some (.plastic ⟨1 - 9 / 10, 1 - 9 / 10, 1 - 9 / 10⟩ 0 0) :=
  (C82_violation_visible_inverted (⟨refSceneEnv ℝ, Real.sqrt, fun _ => none⟩ : SimpleEnv ℝ) ⟨"white paint", none, none, some (9 / 10), none⟩ (9 / 10) (Or.inl rfl)).2 (fun t h => by cases h)

example : (⟨refSceneEnv ℝ, Real.sqrt, fun _ => none⟩ : SimpleEnv ℝ).Real := fun _ => rfl

example := fun m => C83_transmittance_round_trip (⟨refSceneEnv ℝ, Real.sqrt, fun _ => none⟩ : SimpleEnv ℝ) (fun _ => rfl) ⟨"glass", some (5 / 100), some (88 / 100), none, none⟩ (88 / 100) rfl (by norm_num) (by norm_num) m

example := fun m hm => C84_energy_partial (⟨refSceneEnv ℝ, Real.sqrt, fun _ => none⟩ : SimpleEnv ℝ) (fun _ => rfl) ⟨"glass", some (5 / 100), some (88 / 100), none, none⟩ m hm
  (fun a h => by cases h; norm_num) (fun τ h => by cases h; norm_num)

example := fun m => C84_violation (⟨refSceneEnv ℝ, Real.sqrt, fun _ => none⟩ : SimpleEnv ℝ) (fun _ => rfl) ⟨"clear", some (5 / 100), some (95 / 100), none, none⟩ (95 / 100) rfl (by norm_num) (by norm_num) m

/-- C69, C81: the scene of the model. -/
example : ∃ s, Scene.fromSimpleModel env model .solar = .ok s ∧ s.materials.length = 4 ∧ s.lights = [] ∧ s.accelerator = none ∧ ∀ r ∈ s.rows, r.2.1 < 4 ∧ r.2.2.1 < 4 := by
  have h : ((Scene.fromSimpleModel env model .solar).bind fun s => .ok s.triangles) = .ok [triAt 1, triAt 2] := by decide +kernel
  obtain ⟨s, hs, _⟩ := ok_of_bind h
  have h1 : s.materials.length = 4 := C81_violation env refMesh model s hs
  obtain ⟨_, h2, _, h3⟩ := C69_nothing_else env refMesh model s hs
  refine ⟨s, hs, h1, h2, h3, ?_⟩
  rw [← h1]
  exact (C69_materials env refMesh model s hs).1

end SimpleExamples
end Rendering
