import Verif.Props.Specular
import Mathlib.Analysis.SpecificLimits.Basic
import Mathlib.Topology.Algebra.InfiniteSum.Real
import Mathlib.Tactic

/-!
# Glass and mirrors: C48, C49, C50
-/

set_option linter.unusedSectionVars false

namespace Rendering

open Classical

/-! ### Specification: light bouncing inside a pane -/

/-- Of the light that falls on a pane each of whose faces reflects the fraction `r`, and which transmits the fraction `d` on every crossing, this much leaves on the far side
after `k` double reflections inside. -/
noncomputable def paneTransmitted (r d : ℝ) (k : ℕ) : ℝ := (1 - r) * d * (r * d * (r * d)) ^ k * (1 - r)

/-- ... and this much leaves on the near side after entering, `k` double reflections and one more reflection. -/
noncomputable def paneReflected (r d : ℝ) (k : ℕ) : ℝ := (1 - r) * d * (r * d * (r * d)) ^ k * r * d * (1 - r)

/-- Reflectance of one face for light polarised perpendicularly to the plane of incidence; `a` is the cosine in air, `b` the cosine inside. -/
noncomputable def faceTE (n a b : ℝ) : ℝ := ((a - n * b) / (a + n * b)) ^ 2

/-- ... and parallel to it. -/
noncomputable def faceTM (n a b : ℝ) : ℝ := ((n * a - b) / (n * a + b)) ^ 2

lemma face_lt_one {x y : ℝ} (hx : 0 < x) (hy : 0 < y) : 0 ≤ ((x - y) / (x + y)) ^ 2 ∧ ((x - y) / (x + y)) ^ 2 < 1 := by
  refine ⟨sq_nonneg _, ?_⟩
  rw [div_pow, div_lt_one (by positivity)]
  nlinarith [mul_pos hx hy]

/-- One polarisation, one channel. -/
lemma pane_sums {r d : ℝ} (hr : 0 ≤ r) (hr1 : r < 1) (hd : 0 ≤ d) (hd1 : d ≤ 1) :
    HasSum (paneTransmitted r d) (d * ((1 - r) ^ 2 / (1 - (d * r) ^ 2))) ∧
    HasSum (paneReflected r d) (r * (1 + (1 - 2 * r) * d ^ 2) / (1 - r * r * d ^ 2) - r) := by
  have hrd : r * d < 1 := by nlinarith
  have hrd0 : 0 ≤ r * d := mul_nonneg hr hd
  have hq : r * d * (r * d) < 1 := by nlinarith
  have hg := hasSum_geometric_of_lt_one (mul_nonneg hrd0 hrd0) hq
  have hne : 1 - r * d * (r * d) ≠ 0 := by linarith
  constructor
  · have h := (hg.mul_left ((1 - r) * d)).mul_right (1 - r)
    have e : d * ((1 - r) ^ 2 / (1 - (d * r) ^ 2)) = (1 - r) * d * (1 - r * d * (r * d))⁻¹ * (1 - r) := by
      rw [show (d * r) ^ 2 = r * d * (r * d) by ring, div_eq_mul_inv]; ring
    rw [e]; exact h
  · have h := ((hg.mul_left ((1 - r) * d)).mul_right (r)).mul_right (d * (1 - r))
    have e : r * (1 + (1 - 2 * r) * d ^ 2) / (1 - r * r * d ^ 2) - r = (1 - r) * d * (1 - r * d * (r * d))⁻¹ * r * (d * (1 - r)) := by
      rw [show r * r * d ^ 2 = r * d * (r * d) by ring]
      obtain ⟨x, hx⟩ : ∃ x, x = 1 - r * d * (r * d) := ⟨_, rfl⟩
      rw [← hx] at hne ⊢
      field_simp
      rw [hx]
      ring
    have e' : paneReflected r d = fun i => (1 - r) * d * (r * d * (r * d)) ^ i * r * (d * (1 - r)) := by
      funext k; unfold paneReflected; ring
    rw [e, e']; exact h

/-- Energy balance of one polarisation and one channel. -/
lemma pane_balance {r d : ℝ} (hr : 0 ≤ r) (hr1 : r < 1) (hd : 0 ≤ d) (hd1 : d ≤ 1) :
    0 ≤ d * ((1 - r) ^ 2 / (1 - (d * r) ^ 2)) ∧ 0 ≤ r * (1 + (1 - 2 * r) * d ^ 2) / (1 - r * r * d ^ 2) ∧
    d * ((1 - r) ^ 2 / (1 - (d * r) ^ 2)) + r * (1 + (1 - 2 * r) * d ^ 2) / (1 - r * r * d ^ 2) ≤ 1 ∧
    (d = 1 → d * ((1 - r) ^ 2 / (1 - (d * r) ^ 2)) + r * (1 + (1 - 2 * r) * d ^ 2) / (1 - r * r * d ^ 2) = 1) := by
  have hrd : r * d < 1 := by nlinarith
  have hrd0 : 0 ≤ r * d := mul_nonneg hr hd
  have hpos : 0 < 1 - r * r * d ^ 2 := by nlinarith
  have e1 : 1 - (d * r) ^ 2 = 1 - r * r * d ^ 2 := by ring
  have e : d * ((1 - r) ^ 2 / (1 - (d * r) ^ 2)) + r * (1 + (1 - 2 * r) * d ^ 2) / (1 - r * r * d ^ 2) =
      1 - (1 - r) * (1 - d) * (1 + r * d) / (1 - r * r * d ^ 2) := by
    rw [e1]
    obtain ⟨x, hx⟩ : ∃ x, x = 1 - r * r * d ^ 2 := ⟨_, rfl⟩
    rw [← hx] at hpos ⊢
    field_simp
    rw [hx]
    ring
  refine ⟨by rw [e1]; positivity, ?_, ?_, ?_⟩
  · apply div_nonneg _ hpos.le
    apply mul_nonneg hr
    have : d ^ 2 ≤ 1 := by nlinarith
    nlinarith [sq_nonneg d]
  · rw [e]
    have : 0 ≤ (1 - r) * (1 - d) * (1 + r * d) / (1 - r * r * d ^ 2) :=
      div_nonneg (mul_nonneg (mul_nonneg (by linarith) (by linarith)) (by linarith)) hpos.le
    linarith
  · intro h1; rw [e, h1]; simp

/-- The three ways of reading a channel. -/
def channelOf {K : Type} : List (Spectrum K → K) := [Spectrum.c0, Spectrum.c1, Spectrum.c2]

/-- What glass does to one channel: the shape of `glassReflTrans`. -/
lemma glass_channel (colour : Spectrum ℝ) (r : ℝ) (n v : Vec3 ℝ) (hdot : 0 < |Dot n v|) (hr : 1 ≤ r) :
    let a := |Dot n v|
    let b := Real.sqrt (1 - (1 - a ^ 2) / r ^ 2)
    0 < b ∧ ∀ ch ∈ channelOf, ∃ d, d = (if (anyTransmission colour).2 then ch colour ^ (1 / b) else ch colour) ∧
      ch (glassReflTrans colour r n v).1 =
        1 / 2 * (faceTE r a b * (1 + (1 - 2 * faceTE r a b) * d ^ 2) / (1 - faceTE r a b * faceTE r a b * d ^ 2) +
          faceTM r a b * (1 + (1 - 2 * faceTM r a b) * d ^ 2) / (1 - faceTM r a b * faceTM r a b * d ^ 2)) ∧
      ch (glassReflTrans colour r n v).2 = (if (anyTransmission colour).2 then
        1 / 2 * (d * ((1 - faceTE r a b) ^ 2 / (1 - (d * faceTE r a b) ^ 2)) + d * ((1 - faceTM r a b) ^ 2 / (1 - (d * faceTM r a b) ^ 2))) else 0) := by
  intro a b
  have hr0 : 0 < r := by linarith
  have hb : 0 < b := by
    apply Real.sqrt_pos.2
    have : (1 - a ^ 2) / r ^ 2 < 1 := by
      rw [div_lt_one (by positivity)]
      have : 0 < a ^ 2 := by positivity
      nlinarith
    linarith
  refine ⟨hb, ?_⟩
  have hcos : Real.sqrt ((1 - 1 / r ^ 2) + (|n.dot v| / r) ^ 2) = b := by
    show _ = Real.sqrt _
    congr 1
    rw [Vec3.dot_eq]
    field_simp
    ring
  have hE : (a - r * b) / (a + r * b) * ((a - r * b) / (a + r * b)) = faceTE r a b := by unfold faceTE; ring
  have hM : (1 / a - r / b) / (1 / a + r / b) * ((1 / a - r / b) / (1 / a + r / b)) = faceTM r a b := by
    have ha : 0 < a := hdot
    unfold faceTM
    have : (1 / a - r / b) / (1 / a + r / b) = (b - r * a) / (b + r * a) := by
      have : 0 < b + r * a := by positivity
      have : 0 < 1 / a + r / b := by positivity
      field_simp
    rw [this, ← neg_sub (r * a) b, add_comm b, neg_div]; ring
  intro ch hch
  refine ⟨_, rfl, ?_, ?_⟩
  · unfold glassReflTrans
    simp only [hcos]
    simp only [Vec3.dot_eq]
    change ch (Spectrum.scalarMul (1 / 2) (glassR _ ((a - r * b) / (a + r * b) * ((a - r * b) / (a + r * b))) + glassR _ ((1 / a - r / b) / (1 / a + r / b) * ((1 / a - r / b) / (1 / a + r / b))))) = _
    rw [hE, hM]
    simp only [channelOf, List.mem_cons, List.not_mem_nil, or_false] at hch
    rcases hch with rfl | rfl | rfl <;> split_ifs <;>
      simp [glassR, Spectrum.scalarMul, Spectrum.scalarAdd, Spectrum.scalarSub, Spectrum.powi, Spectrum.powf]
  · unfold glassReflTrans
    simp only [hcos]
    simp only [Vec3.dot_eq]
    change ch (if _ then _ * (glassT _ ((a - r * b) / (a + r * b) * ((a - r * b) / (a + r * b))) + glassT _ ((1 / a - r / b) / (1 / a + r / b) * ((1 / a - r / b) / (1 / a + r / b)))) else _) = _
    rw [hE, hM]
    simp only [channelOf, List.mem_cons, List.not_mem_nil, or_false] at hch
    rcases hch with rfl | rfl | rfl <;> split_ifs <;>
      simp [glassT, Spectrum.scalarDiv, Spectrum.scalarSub, Spectrum.powi, Spectrum.powf, Spectrum.scale, Spectrum.black, Spectrum.gray] <;> ring

/-- **C48.** For every pane with channels in `[0, 1]` and refraction index at least one, and every ray not parallel to it: in every channel reflectance and transmittance are in
`[0, 1]` and add up to at most one, to exactly one where the glass is clear; and (unless the glass is opaque) they are the averages over the two polarisations of what leaves the pane on each side when
the light bounces any number of times between its faces. -/
theorem C48_glass_energy (colour : Spectrum ℝ) (r : ℝ) (n v : Vec3 ℝ) (hdot : Dot n v ≠ 0) (hr : 1 ≤ r)
    (hc : ∀ ch ∈ channelOf, 0 ≤ ch colour ∧ ch colour ≤ 1) :
    ∀ ch ∈ channelOf,
      let R := ch (glassReflTrans colour r n v).1
      let T := ch (glassReflTrans colour r n v).2
      let a := |Dot n v|
      let b := Real.sqrt (1 - (1 - a ^ 2) / r ^ 2)
      (0 ≤ R ∧ R ≤ 1) ∧ (0 ≤ T ∧ T ≤ 1) ∧ R + T ≤ 1 ∧ (ch colour = 1 → R + T = 1) ∧
      ((∃ ch' ∈ channelOf, 1 / 10 ^ 15 ≤ ch' colour) →
        HasSum (fun k => (paneTransmitted (faceTE r a b) (ch colour ^ (1 / b)) k + paneTransmitted (faceTM r a b) (ch colour ^ (1 / b)) k) / 2) T ∧
        HasSum (fun k => (paneReflected (faceTE r a b) (ch colour ^ (1 / b)) k + paneReflected (faceTM r a b) (ch colour ^ (1 / b)) k) / 2)
          (R - (faceTE r a b + faceTM r a b) / 2)) := by
  intro ch hch
  have hpos : 0 < |Dot n v| := abs_pos.2 hdot
  obtain ⟨hb, hall⟩ := glass_channel colour r n v hpos hr
  obtain ⟨d, hd, hR, hT⟩ := hall ch hch
  simp only
  set a := |Dot n v| with ha
  set b := Real.sqrt (1 - (1 - a ^ 2) / r ^ 2) with hbdef
  have hr0 : 0 < r := by linarith
  have hE := face_lt_one hpos (mul_pos hr0 hb)
  have hM := face_lt_one (mul_pos hr0 hpos) hb
  change 0 ≤ faceTE r a b ∧ faceTE r a b < 1 at hE
  change 0 ≤ faceTM r a b ∧ faceTM r a b < 1 at hM
  have hd01 : 0 ≤ d ∧ d ≤ 1 := by
    rw [hd]
    split_ifs
    · exact ⟨Real.rpow_nonneg (hc ch hch).1 _, Real.rpow_le_one (hc ch hch).1 (hc ch hch).2 (by positivity)⟩
    · exact hc ch hch
  have bE := pane_balance hE.1 hE.2 hd01.1 hd01.2
  have bM := pane_balance hM.1 hM.2 hd01.1 hd01.2
  have hany : (anyTransmission colour).2 = true ↔ ∃ ch' ∈ channelOf, 1 / 10 ^ 15 ≤ ch' colour := by
    have hm : colour.maxChannel < minColour ↔ (colour.c0 < minColour ∧ colour.c1 < minColour ∧ colour.c2 < minColour) := by
      simp only [Spectrum.maxChannel, Spectrum.channels, List.drop_succ_cons, List.drop_zero, List.foldl_cons, List.foldl_nil]
      split_ifs <;> constructor <;> intro h <;> (try refine ⟨?_, ?_, ?_⟩) <;> (try linarith [h]) <;> linarith [h.1, h.2.1, h.2.2]
    unfold anyTransmission
    split_ifs with h
    · simp only [Bool.false_eq_true, false_iff, channelOf, List.mem_cons, List.not_mem_nil, or_false, not_exists, not_and, not_le]
      rw [hm] at h
      unfold minColour at h
      rintro c (rfl | rfl | rfl)
      exacts [h.1, h.2.1, h.2.2]
    · simp only [true_iff]
      rw [hm] at h
      by_contra hc'
      apply h
      simp only [channelOf, List.mem_cons, List.not_mem_nil, or_false, not_exists, not_and, not_le] at hc'
      exact ⟨hc' _ (Or.inl rfl), hc' _ (Or.inr (Or.inl rfl)), hc' _ (Or.inr (Or.inr rfl))⟩
  have hsum : ch (glassReflTrans colour r n v).1 + ch (glassReflTrans colour r n v).2 ≤ 1 := by
    rw [hR, hT]; split_ifs <;> linarith [bE.1, bM.1, bE.2.2.1, bM.2.2.1]
  have hT0 : 0 ≤ ch (glassReflTrans colour r n v).2 := by
    rw [hT]; split_ifs <;> linarith [bE.1, bM.1]
  have hR0 : 0 ≤ ch (glassReflTrans colour r n v).1 := by
    rw [hR]; linarith [bE.2.1, bM.2.1]
  refine ⟨⟨hR0, by linarith⟩, ⟨hT0, by linarith⟩, hsum, ?_, ?_⟩
  · intro h1
    have ht : (anyTransmission colour).2 = true := hany.2 ⟨ch, hch, by rw [h1]; norm_num⟩
    rw [ht, if_pos rfl, h1, Real.one_rpow] at hd
    rw [hR, hT, ht, if_pos rfl]
    linarith [bE.2.2.2 hd, bM.2.2.2 hd]
  · intro hex
    have ht := hany.2 hex
    rw [ht, if_pos rfl] at hd
    rw [hR, hT, ht, if_pos rfl, ← hd]
    have sE := pane_sums hE.1 hE.2 hd01.1 hd01.2
    have sM := pane_sums hM.1 hM.2 hd01.1 hd01.2
    constructor
    · have h := (sE.1.add sM.1).div_const 2
      rw [one_div_mul_eq_div]; exact h
    · have h := (sE.2.add sM.2).div_const 2
      have e : ∀ x y p q : ℝ, 1 / 2 * (x + y) - (p + q) / 2 = (x - p + (y - q)) / 2 := by intros; ring
      rw [e]; exact h

/-- The hypotheses are met by ordinary window glass at normal incidence: 4 % is reflected by each face. -/
example : (∀ ch ∈ channelOf, 0 ≤ ch (⟨9 / 10, 1, 0⟩ : Spectrum ℝ) ∧ ch (⟨9 / 10, 1, 0⟩ : Spectrum ℝ) ≤ 1) ∧ Dot (⟨0, 0, 1⟩ : Vec3 ℝ) ⟨0, 0, -1⟩ ≠ 0 ∧
    faceTE (3 / 2) 1 1 = 4 / 100 := by
  refine ⟨?_, by norm_num [Dot], by norm_num [faceTE]⟩
  simp only [channelOf, List.mem_cons, List.not_mem_nil, or_false]
  rintro ch (rfl | rfl | rfl) <;> norm_num

/-! ### C49 The colour of a mirror -/

/-- **C49, violated.** The reflected path a mirror offers has weight one in every channel, whatever the mirror's colour, though the mirror's BSDF in that very direction is its colour
divided by the cosine: red mirrors reflect white light. -/
theorem C49_violation (dt : DirTests) (colour : Spectrum ℝ) (n pt : Vec3 ℝ) (ray : TRay) (hn : Norm n = 1) (hv : Norm ray.geometry.direction = 1)
    (hside : Dot ray.geometry.direction n ≠ 0) (hdt : ∀ v, dt.isParallel v v = true) :
    ∃ out, mirrorPaths colour n pt ray = (some (out, Spectrum.one), none) ∧
      mirrorEval dt colour n ray out.geometry.direction = colour.divBy |Dot ray.geometry.direction n| := by
  obtain ⟨-, hm, -, -⟩ := C43_mirror_direction ray.geometry.direction n hn hv
  have hpos : |Dot ray.geometry.direction n| ≠ 0 := abs_ne_zero.2 hside
  refine ⟨{ ray with geometry := ⟨pt + n.scale (1 / 10 ^ 5), mirrorDirection ray.geometry.direction n⟩ }, ?_, ?_⟩
  · unfold mirrorPaths mirrorBsdf
    simp only [Vec3.dot_eq]
    have : |Dot n (mirrorDirection ray.geometry.direction n)| = |Dot ray.geometry.direction n| := by
      rw [← Vec3.dot_eq, Vec3.dot_comm', Vec3.dot_eq, hm, abs_neg]
    rw [this]
    have : (Spectrum.one.scale (1 / |Dot ray.geometry.direction n|)).scale |Dot ray.geometry.direction n| = (Spectrum.one : Spectrum ℝ) := by
      simp only [Spectrum.one, Spectrum.gray, Spectrum.scale]
      ext <;> field_simp
    rw [this]
  · unfold mirrorEval evalMirrorBsdf
    simp only [hdt, if_pos, Vec3.dot_eq, Spectrum.scale, Spectrum.divBy]
    ext <;> simp <;> ring

/-- A red mirror: the path is white. -/
example : ∃ out, mirrorPaths ⟨1, 0, 0⟩ ⟨0, 0, 1⟩ 0 { TRay.default with geometry := ⟨0, ⟨0, 0, -1⟩⟩ } = (some (out, Spectrum.one), none) ∧
    (Spectrum.one : Spectrum ℝ) ≠ ⟨1, 0, 0⟩ := by
  obtain ⟨out, h, -⟩ := C49_violation ⟨fun _ _ => true, fun _ _ => true⟩ ⟨1, 0, 0⟩ ⟨0, 0, 1⟩ 0 { TRay.default with geometry := ⟨0, ⟨0, 0, -1⟩⟩ }
    (Norm_eq_one (by norm_num [Dot])) (Norm_eq_one (by norm_num [Dot])) (by norm_num [Dot]) (fun _ => rfl)
  refine ⟨out, h, ?_⟩
  intro h
  have := congrArg Spectrum.c1 h
  norm_num [Spectrum.one, Spectrum.gray] at this

/-! ### C50 Glass evaluated in its own directions -/

/-- **C50, what holds.** In the mirrored direction the glass BSDF is the weight of the reflected path. -/
theorem C50_reflection_partial (dt : DirTests) (colour : Spectrum ℝ) (r : ℝ) (n pt : Vec3 ℝ) (ray : TRay) (hdt : ∀ v, dt.isSameDirection v v = true) :
    ∃ out w, (glassPaths colour r n pt ray).1 = some (out, w) ∧ glassEval dt colour r n ray out.geometry.direction = w := by
  refine ⟨_, _, rfl, ?_⟩
  unfold glassEval
  simp only [hdt, if_pos]

/-- **C50, violated twice.** Of glass that transmits anything, the BSDF is black in the direction of the transmitted path, though the path is offered with a positive weight; and of glass that
transmits nothing, so that no transmitted path exists, the BSDF is `1/cos` (not zero) in every direction that is neither the mirrored one nor straight on. -/
theorem C50_violation (dt : DirTests) (colour : Spectrum ℝ) (r : ℝ) (n pt : Vec3 ℝ) (ray : TRay) (hn : Norm n = 1) (hv : Norm ray.geometry.direction = 1)
    (hside : Dot ray.geometry.direction n < 0) (hr : 1 ≤ r) (hc : ∀ ch ∈ channelOf, 0 ≤ ch colour ∧ ch colour ≤ 1)
    (hdt : dt.isSameDirection ray.geometry.direction (mirrorDirection ray.geometry.direction n) = false) :
    ((∃ ch ∈ channelOf, 1 / 10 ^ 15 ≤ ch colour) →
      ∃ out w, (glassPaths colour r n pt ray).2 = some (out, w) ∧ 0 < w.radiance ∧ out.geometry.direction = ray.geometry.direction ∧
        glassEval dt colour r n ray out.geometry.direction = Spectrum.black) ∧
    ((∀ ch ∈ channelOf, ch colour < 1 / 10 ^ 15) →
      (glassPaths colour r n pt ray).2 = none ∧
      ∀ v, dt.isSameDirection v (mirrorDirection ray.geometry.direction n) = false → dt.isSameDirection v ray.geometry.direction = false →
        glassEval dt colour r n ray v = Spectrum.one.divBy |Dot ray.geometry.direction n|) := by
  have hm : colour.maxChannel < minColour ↔ ∀ ch ∈ channelOf, ch colour < 1 / 10 ^ 15 := by
    have : colour.maxChannel < minColour ↔ (colour.c0 < minColour ∧ colour.c1 < minColour ∧ colour.c2 < minColour) := by
      simp only [Spectrum.maxChannel, Spectrum.channels, List.drop_succ_cons, List.drop_zero, List.foldl_cons, List.foldl_nil]
      split_ifs <;> constructor <;> intro h <;> (try refine ⟨?_, ?_, ?_⟩) <;> (try linarith [h]) <;> linarith [h.1, h.2.1, h.2.2]
    rw [this]
    simp only [channelOf, List.mem_cons, List.not_mem_nil, or_false, forall_eq_or_imp, forall_eq, minColour]
  have hdn : Dot n ray.geometry.direction ≠ 0 := by
    rw [← Vec3.dot_eq, Vec3.dot_comm', Vec3.dot_eq]; exact hside.ne
  constructor
  · rintro hex
    have hany : (anyTransmission colour).2 = true := by
      unfold anyTransmission
      rw [if_neg]
      rw [hm]; push Not; exact hex
    obtain ⟨hb, hall⟩ := glass_channel colour r n ray.geometry.direction (abs_pos.2 hdn) hr
    have hE := C48_glass_energy colour r n ray.geometry.direction hdn hr hc
    have hpos : ∀ ch ∈ channelOf, 1 / 10 ^ 15 ≤ ch colour → 0 < ch (glassReflTrans colour r n ray.geometry.direction).2 := by
      intro ch hch hcc
      obtain ⟨d, hd, -, hT⟩ := hall ch hch
      rw [hany, if_pos rfl] at hd hT
      rw [hT]
      have hd0 : 0 < d := by rw [hd]; exact Real.rpow_pos_of_pos (lt_of_lt_of_le (by norm_num) hcc) _
      have hd1 : d ≤ 1 := by rw [hd]; exact Real.rpow_le_one (hc ch hch).1 (hc ch hch).2 (by positivity)
      have hr0 : 0 < r := by linarith
      have key : ∀ q : ℝ, 0 ≤ q → q < 1 → 0 < d * ((1 - q) ^ 2 / (1 - (d * q) ^ 2)) := by
        intro q hq hq1
        have : d * q < 1 := by nlinarith
        have : 0 ≤ d * q := by positivity
        have : 0 < 1 - (d * q) ^ 2 := by nlinarith
        have : 0 < 1 - q := by linarith
        positivity
      have h1 := face_lt_one (abs_pos.2 hdn) (mul_pos hr0 hb)
      have h2 := face_lt_one (mul_pos hr0 (abs_pos.2 hdn)) hb
      have := key _ h1.1 h1.2
      have := key _ h2.1 h2.2
      simp only [faceTE, faceTM]
      linarith
    have hrad : 0 < (glassReflTrans colour r n ray.geometry.direction).2.radiance := by
      have g0 := (hE Spectrum.c0 (by simp [channelOf])).2.1.1
      have g1 := (hE Spectrum.c1 (by simp [channelOf])).2.1.1
      have g2 := (hE Spectrum.c2 (by simp [channelOf])).2.1.1
      obtain ⟨ch, hch, hcc⟩ := hex
      have hp := hpos ch hch hcc
      simp only [Spectrum.radiance, Spectrum.channels, Spectrum.radianceCoefficients, List.zipWith_cons_cons, List.zipWith_nil_right, List.sum_cons, List.sum_nil]
      simp only [channelOf, List.mem_cons, List.not_mem_nil, or_false] at hch
      rcases hch with rfl | rfl | rfl <;> linarith
    refine ⟨{ ray with geometry := ⟨pt - n.scale (1 / 10 ^ 5), ray.geometry.direction⟩ }, (glassReflTrans colour r n ray.geometry.direction).2, ?_, hrad, rfl, ?_⟩
    · unfold glassPaths; simp only [gt_iff_lt, hrad, if_pos]
    · unfold glassEval
      simp only
      rw [hdt, if_neg (by simp), if_pos hany]
  · intro hop
    have hany : (anyTransmission colour).2 = false := by
      unfold anyTransmission; rw [if_pos (hm.2 hop)]
    constructor
    · unfold glassPaths
      have : (glassReflTrans colour r n ray.geometry.direction).2 = Spectrum.black := by
        unfold glassReflTrans; simp [hany]
      simp only [this]
      rw [if_neg]
      simp [Spectrum.radiance, Spectrum.channels, Spectrum.radianceCoefficients, Spectrum.black, Spectrum.gray]
    · intro v h1 h2
      unfold glassEval
      simp only [hany, h1, h2, and_false, if_false, Bool.false_eq_true]
      congr 1
      unfold cosAndN
      simp only [Vec3.dot_eq]
      split_ifs <;> rfl

/-- **C50, what holds of opaque glass.** Straight on, from the air, glass that transmits nothing lets nothing through: its BSDF is black where it offers no path. -/
theorem C50_opaque_straight_partial (dt : DirTests) (colour : Spectrum ℝ) (r : ℝ) (n pt : Vec3 ℝ) (ray : TRay) (hr : 1 ≤ r) (hair : ray.refractionIndex = 1)
    (hop : ∀ ch ∈ channelOf, ch colour < 1 / 10 ^ 15)
    (hdt : dt.isSameDirection ray.geometry.direction ray.geometry.direction = true)
    (hmirror : dt.isSameDirection ray.geometry.direction (mirrorDirection ray.geometry.direction n) = false) :
    (glassPaths colour r n pt ray).2 = none ∧ glassEval dt colour r n ray ray.geometry.direction = Spectrum.black := by
  have hmax : colour.maxChannel < minColour := by
    have h0 := hop Spectrum.c0 (by simp [channelOf])
    have h1 := hop Spectrum.c1 (by simp [channelOf])
    have h2 := hop Spectrum.c2 (by simp [channelOf])
    simp only [Spectrum.maxChannel, Spectrum.channels, List.drop_succ_cons, List.drop_zero, List.foldl_cons, List.foldl_nil, minColour]
    split_ifs <;> assumption
  have hany : (anyTransmission colour).2 = false := by
    unfold anyTransmission; rw [if_pos hmax]
  have hT : (glassReflTrans colour r n ray.geometry.direction).2 = Spectrum.black := by
    unfold glassReflTrans; simp [hany]
  have hsome : (cosAndN ray n r).2.2.2.isSome = true := by
    unfold cosAndN
    simp only [hair]
    rw [if_neg]
    · rfl
    · rw [gt_iff_lt, not_lt]
      have hs : max 0 (min (floatMax ℝ) (1 - |ray.geometry.direction.dot n| * |ray.geometry.direction.dot n|)) ≤ 1 := by
        refine max_le (by norm_num) (le_trans (min_le_right _ _) ?_)
        nlinarith [mul_self_nonneg |ray.geometry.direction.dot n|]
      have hs0 : 0 ≤ max 0 (min (floatMax ℝ) (1 - |ray.geometry.direction.dot n| * |ray.geometry.direction.dot n|)) := le_max_left _ _
      have hn2 : (1 : ℝ) ≤ if |1 - r| < 1 / 10 ^ 7 then 1 else r := by split_ifs <;> linarith
      rw [div_le_one (by positivity)]
      nlinarith
  constructor
  · unfold glassPaths
    simp only [hT]
    rw [if_neg]
    simp [Spectrum.radiance, Spectrum.channels, Spectrum.radianceCoefficients, Spectrum.black, Spectrum.gray]
  · unfold glassEval
    simp only [hmirror, hany, hdt, hsome, hT, and_self, if_true, if_false, Bool.false_eq_true]
    ext <;> simp [Spectrum.black, Spectrum.gray, Spectrum.mul_c0, Spectrum.mul_c1, Spectrum.mul_c2]

/-- Both kinds of glass exist, and there are directions that are neither mirrored nor straight on. -/
example : (∃ ch ∈ channelOf, 1 / 10 ^ 15 ≤ ch (⟨9 / 10, 1, 0⟩ : Spectrum ℝ)) ∧ (∀ ch ∈ channelOf, ch (Spectrum.black : Spectrum ℝ) < 1 / 10 ^ 15) ∧
    (⟨1, 0, 0⟩ : Vec3 ℝ) ≠ mirrorDirection ⟨0, 0, -1⟩ ⟨0, 0, 1⟩ ∧ (⟨1, 0, 0⟩ : Vec3 ℝ) ≠ ⟨0, 0, -1⟩ := by
  refine ⟨⟨Spectrum.c1, by simp [channelOf], by norm_num⟩, ?_, ?_, ?_⟩
  · simp only [channelOf, List.mem_cons, List.not_mem_nil, or_false]
    rintro ch (rfl | rfl | rfl) <;> norm_num [Spectrum.black, Spectrum.gray]
  · rw [mirror_raw (Norm_eq_one (by norm_num [Dot])) (Norm_eq_one (by norm_num [Dot]))]
    intro h
    have := congrArg Vec3.x h
    norm_num at this
  · intro h; have := congrArg Vec3.x h; norm_num at this

/-! ### Concrete cases of the theorems above -/

theorem tinted_ok : ∀ ch ∈ channelOf, 0 ≤ ch (⟨9 / 10, 1, 0⟩ : Spectrum ℝ) ∧ ch (⟨9 / 10, 1, 0⟩ : Spectrum ℝ) ≤ 1 := by
  simp [channelOf]; norm_num

example := C48_glass_energy ⟨9 / 10, 1, 0⟩ (152 / 100) ⟨0, 0, 1⟩ ⟨3 / 5, 0, -(4 / 5)⟩ (by norm_num [Dot]) (by norm_num) tinted_ok

/-- C50: with directions compared exactly. -/
noncomputable def exactTests : DirTests := ⟨fun v w => @decide (v = w) (Classical.dec _), fun v w => @decide (v = w) (Classical.dec _)⟩

example := C50_reflection_partial exactTests ⟨9 / 10, 1, 0⟩ (152 / 100) ⟨0, 0, 1⟩ 0 slopingRay (fun v => by simp [exactTests])

example := (C50_violation exactTests ⟨9 / 10, 1, 0⟩ (152 / 100) ⟨0, 0, 1⟩ 0 slopingRay up_unit slopingRay_unit slopingRay_down (by norm_num) tinted_ok (by
  simp only [exactTests, decide_eq_false_iff_not]
  intro h
  have := (C43_mirror_direction slopingRay.geometry.direction ⟨0, 0, 1⟩ up_unit slopingRay_unit).2.1
  rw [← h] at this
  have := slopingRay_down
  linarith)).1 ⟨Spectrum.c0, by simp [channelOf], by norm_num⟩

example := C50_opaque_straight_partial exactTests Spectrum.black (152 / 100) ⟨0, 0, 1⟩ 0 slopingRay (by norm_num) rfl
  (by simp only [channelOf, List.mem_cons, List.not_mem_nil, or_false]; rintro ch (rfl | rfl | rfl) <;> norm_num [Spectrum.black, Spectrum.gray])
  (by simp [exactTests]) (by
  simp only [exactTests, decide_eq_false_iff_not]
  intro h
  have := (C43_mirror_direction slopingRay.geometry.direction ⟨0, 0, 1⟩ up_unit slopingRay_unit).2.1
  rw [← h] at this
  have := slopingRay_down
  linarith)

end Rendering
