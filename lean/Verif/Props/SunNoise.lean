import Verif.Props.Noise
import Verif.Props.SunShadow

/-!
# C106: the noise of sunlight falls with the number of shadow samples
-/

set_option linter.unusedSectionVars false
namespace Rendering

open MeasureTheory Set ProbabilityTheory

variable {w : World} {s : Scene ℝ}

theorem probabilityN_mono {n : Nat} {e1 e2 : (Fin n → ℝ × ℝ) → Prop} (h : ∀ ω, (∀ k, ω k ∈ unitSquare) → e1 ω → e2 ω) : ProbabilityN n e1 ≤ ProbabilityN n e2 :=
  measure_mono fun ω hω => ⟨hω.1, h ω hω.1 hω.2⟩

/-- Scaling by a constant. -/
theorem scaled_event {n : Nat} (hn : 0 < n) {K ε : ℝ} (hK : 0 < K) (hε : 0 ≤ ε) {S M : ENNReal} : ENNReal.ofReal (n / K) * (ENNReal.ofReal (K / n) * S + ENNReal.ofReal (K * ε)) = S + ENNReal.ofReal (n * ε) ∧ ENNReal.ofReal (n / K) * (ENNReal.ofReal K * M) = n * M := by
  have hn' : (0 : ℝ) < n := by exact_mod_cast hn
  constructor
  · rw [mul_add, ← mul_assoc, ← ENNReal.ofReal_mul (by positivity), ← ENNReal.ofReal_mul (by positivity), show (n : ℝ) / K * (K / n) = 1 by field_simp, ENNReal.ofReal_one, one_mul, show (n : ℝ) / K * (K * ε) = n * ε by field_simp]
  · rw [← mul_assoc, ← ENNReal.ofReal_mul (by positivity), show (n : ℝ) / K * K = n by field_simp, ENNReal.ofReal_natCast]

/-- **C106, direct light.** With `n` shadow samples, the probability that the light of the sun computed for a matt surface falls short of what C100 says it is on average at least, or exceeds what it is at most, by more than `ε` times the light the surface would have facing an unhidden sun is at most
`exp(-2 n ε²)`. -/
theorem C106_noise (hR : w.Renders s) (hext : w.ext.PerpSpec) {sun : Object ℝ} {direction : Vec3 ℝ} {angle : ℝ} {L : Spectrum ℝ} {D : ℝ} (hS : w.IsSun s sun direction angle L D)
    (hl : s.lights = []) (hd : s.distantLights = [sun]) (m : Material ℝ) (col : Spectrum ℝ) (r : ℝ) (hm : m ∈ [Material.plastic col 0 r, Material.metal col 0 r]) (ray : TRay)
    (e1 e2 : Vec3 ℝ) (he : Frame e1 e2 ray.interaction.shading.normal) (hup : Real.sin (angle / 2) < Dot ray.interaction.shading.normal direction.normalized)
    (n : Nat) (hn : 0 < n) (fuel : Nat) (hfuel : n < fuel) (rest : Rng) (ch : Spectrum ℝ → ℝ) (hch : ch ∈ [Spectrum.c0, Spectrum.c1, Spectrum.c2]) (hcol : 0 ≤ ch col) (hL : 0 ≤ ch L) (ε : ℝ) (hε : 0 ≤ ε) :
    let N := ray.interaction.shading.normal
    let pt := ray.interaction.point + N.scale (1 / 1000)
    let c := Real.cos (angle / 2)
    let full := ch col / Real.pi * ch L * (2 * Real.pi * (1 - c))
    ProbabilityN n (fun ω => brought (w.localIllumination fuel m ray (Rng.ofPairs ω rest) n) ch + ENNReal.ofReal (full * ε) <
      ENNReal.ofReal (2 * c ^ 2 / (1 + c)) * (ENNReal.ofReal (ch col / Real.pi * ch L) * projectedSolidAngle {l | SunSurelySeen s pt D (worldOf e1 e2 N l) ∧ c < Dot (worldOf e1 e2 N l) direction.normalized})) ≤ ENNReal.ofReal (Real.exp (-2 * n * ε ^ 2)) ∧
    ProbabilityN n (fun ω => ENNReal.ofReal (2 / (c * (1 + c))) * (ENNReal.ofReal (ch col / Real.pi * ch L) * projectedSolidAngle {l | SunMaybeSeen s pt D (worldOf e1 e2 N l) ∧ c < Dot (worldOf e1 e2 N l) direction.normalized}) + ENNReal.ofReal (full * ε) <
      brought (w.localIllumination fuel m ray (Rng.ofPairs ω rest) n) ch) ≤ ENNReal.ofReal (Real.exp (-2 * n * ε ^ 2)) := by
  classical
  intro N pt c K
  have ha0 : 0 < angle / 2 := by linarith [hS.angle_pos]
  have ha1 : angle / 2 < Real.pi / 2 := by linarith [hS.angle_lt]
  have hc : 0 < c := Real.cos_pos_of_mem_Ioo ⟨by linarith, ha1⟩
  have hs0 : 0 < Real.sin (angle / 2) := Real.sin_pos_of_pos_of_lt_pi ha0 (by linarith [Real.pi_pos])
  have hc1 : c < 1 := by
    have := Real.sin_sq_add_cos_sq (angle / 2)
    have := Real.cos_le_one (angle / 2)
    show Real.cos (angle / 2) < 1
    nlinarith
  have hpi := Real.pi_pos
  have hcpos : 0 < 1 - c := by linarith
  have ht2 : Real.tan (angle / 2) ^ 2 = (1 - c ^ 2) / c ^ 2 := by
    rw [tan_sq_eq hc]
    change 1 / c ^ 2 - 1 = _
    field_simp
  obtain ⟨f1, f2, hf, lit, hlo, hhi, hval⟩ := sun_samples hR hext hS hl hd m col r hm ray n hn fuel hfuel rest ch hch hcol hL
  set a := direction.normalized
  set dir := towards f1 f2 a (Real.tan (angle / 2)) with hdir
  have hK0 : 0 ≤ K := by positivity
  have habs : ∀ d ∈ unitSquare, |Dot N (dir d)| = Dot N (dir d) := by
    intro d hd
    rw [hdir, towards_dot hf _ _ hd.1.1]
    exact abs_of_nonneg (div_nonneg (towards_pos hf he.n3 (angle / 2) ha0 ha1 hup d hd).le (Real.sqrt_nonneg _))
  have hle1 : ∀ d ∈ unitSquare, ENNReal.ofReal (Dot N (dir d)) ≤ 1 := by
    intro d hd
    rw [← ENNReal.ofReal_one]
    apply ENNReal.ofReal_le_ofReal
    have hu : Norm (dir d) = 1 := towards_unit hf _ d
    have h1 := Dot_self_of_norm hu
    have h2 := Dot_self_of_norm he.n3
    have h3 : 0 ≤ Dot (N - dir d) (N - dir d) := by unfold Dot; nlinarith [sq_nonneg (N - dir d).x, sq_nonneg (N - dir d).y, sq_nonneg (N - dir d).z]
    have h4 : Dot (N - dir d) (N - dir d) = Dot N N - 2 * Dot N (dir d) + Dot (dir d) (dir d) := by simp only [Dot, Vec3.sub_x, Vec3.sub_y, Vec3.sub_z]; ring
    rw [h4, h1, h2] at h3
    linarith
  obtain ⟨a1, a2, -⟩ := sun_mean hf he (angle / 2) ha0 ha1 hup (measurable_sunSurely s pt D)
  obtain ⟨b1, -, b3⟩ := sun_mean hf he (angle / 2) ha0 ha1 hup (measurable_sunMaybe s pt D)
  rw [ht2] at a2 b3
  set lo : ℝ × ℝ → ENNReal := fun d => if dir d ∈ {v | SunSurelySeen s pt D v} then ENNReal.ofReal (Dot N (dir d)) else 0 with hlodef
  set up : ℝ × ℝ → ENNReal := fun d => if dir d ∈ {v | SunMaybeSeen s pt D v} then ENNReal.ofReal (Dot N (dir d)) else 0 with hupdef
  have hlo1 : ∀ d ∈ unitSquare, lo d ≤ 1 := fun d hd => by simp only [hlodef]; split_ifs <;> [exact hle1 d hd; exact zero_le_one]
  have hup1 : ∀ d ∈ unitSquare, up d ≤ 1 := fun d hd => by simp only [hupdef]; split_ifs <;> [exact hle1 d hd; exact zero_le_one]
  have hlower : ENNReal.ofReal (2 * c ^ 2 / (1 + c)) * (ENNReal.ofReal (ch col / Real.pi * ch L) * projectedSolidAngle {l | SunSurelySeen s pt D (worldOf e1 e2 N l) ∧ c < Dot (worldOf e1 e2 N l) a}) ≤ ENNReal.ofReal K * Mean lo := by
    calc _ ≤ ENNReal.ofReal (2 * c ^ 2 / (1 + c)) * (ENNReal.ofReal (ch col / Real.pi * ch L) * (ENNReal.ofReal (Real.pi * ((1 - c ^ 2) / c ^ 2)) * Mean lo)) := mul_le_mul_right (mul_le_mul_right a2 _) _
      _ = ENNReal.ofReal K * Mean lo := by
        rw [← mul_assoc, ← mul_assoc, ← ENNReal.ofReal_mul (by positivity), ← ENNReal.ofReal_mul (by positivity)]
        congr 2
        simp only [K]
        field_simp
        ring
  have hupper : ENNReal.ofReal K * Mean up ≤ ENNReal.ofReal (2 / (c * (1 + c))) * (ENNReal.ofReal (ch col / Real.pi * ch L) * projectedSolidAngle {l | SunMaybeSeen s pt D (worldOf e1 e2 N l) ∧ c < Dot (worldOf e1 e2 N l) a}) := by
    calc ENNReal.ofReal K * Mean up = ENNReal.ofReal (2 / (c * (1 + c))) * (ENNReal.ofReal (ch col / Real.pi * ch L) * (ENNReal.ofReal (c ^ 3) * (ENNReal.ofReal (Real.pi * ((1 - c ^ 2) / c ^ 2)) * Mean up))) := by
          rw [← mul_assoc, ← mul_assoc, ← mul_assoc, ← ENNReal.ofReal_mul (by positivity), ← ENNReal.ofReal_mul (by positivity), ← ENNReal.ofReal_mul (by positivity)]
          congr 2
          simp only [K]
          field_simp
          ring
      _ ≤ _ := mul_le_mul_right (mul_le_mul_right b3 _) _
  have hbelow : ∀ ω : Fin n → ℝ × ℝ, (∀ k, ω k ∈ unitSquare) → ENNReal.ofReal (K / n) * ∑ k, lo (ω k) ≤ brought (w.localIllumination fuel m ray (Rng.ofPairs ω rest) n) ch := by
    intro ω hω
    rw [hval ω hω]
    gcongr with k
    by_cases hsee : dir (ω k) ∈ {v | SunSurelySeen s pt D v}
    · simp only [hlodef]
      rw [if_pos hsee, if_pos (hlo _ (hω k) hsee), habs _ (hω k)]
    · simp only [hlodef]
      rw [if_neg hsee]
      exact bot_le
  have habove : ∀ ω : Fin n → ℝ × ℝ, (∀ k, ω k ∈ unitSquare) → brought (w.localIllumination fuel m ray (Rng.ofPairs ω rest) n) ch ≤ ENNReal.ofReal (K / n) * ∑ k, up (ω k) := by
    intro ω hω
    rw [hval ω hω]
    gcongr with k
    by_cases hld : lit (ω k)
    · have hsee : dir (ω k) ∈ {v | SunMaybeSeen s pt D v} := hhi _ (hω k) hld
      simp only [hupdef]
      rw [if_pos hld, if_pos hsee, habs _ (hω k)]
    · rw [if_neg hld]
      exact bot_le
  constructor
  · refine le_trans (probabilityN_mono ?_) (mean_deviates n hn lo a1 hlo1 ε hε).1
    intro ω hω hev
    have h1 : ENNReal.ofReal (K / n) * ∑ k, lo (ω k) + ENNReal.ofReal (K * ε) < ENNReal.ofReal K * Mean lo := lt_of_le_of_lt (by gcongr; exact hbelow ω hω) (lt_of_lt_of_le hev hlower)
    have hKp : 0 < K := by
      rcases hK0.lt_or_eq with h | h
      · exact h
      · exfalso
        have h3 : ENNReal.ofReal K * Mean lo = 0 := by rw [← h, ENNReal.ofReal_zero, zero_mul]
        rw [h3] at h1
        exact not_lt_bot h1
    have h2 : ENNReal.ofReal (n / K) * (ENNReal.ofReal (K / n) * ∑ k, lo (ω k) + ENNReal.ofReal (K * ε)) ≤ ENNReal.ofReal (n / K) * (ENNReal.ofReal K * Mean lo) := mul_le_mul_right h1.le _
    rwa [(scaled_event (M := 0) hn hKp hε).1, (scaled_event (ε := ε) (S := 0) hn hKp hε).2] at h2
  · refine le_trans (probabilityN_mono ?_) (mean_deviates n hn up b1 hup1 ε hε).2
    intro ω hω hev
    have h1 : ENNReal.ofReal K * Mean up + ENNReal.ofReal (K * ε) < ENNReal.ofReal (K / n) * ∑ k, up (ω k) := lt_of_lt_of_le (lt_of_le_of_lt (by gcongr) hev) (habove ω hω)
    have hKp : 0 < K := by
      rcases hK0.lt_or_eq with h | h
      · exact h
      · exfalso
        have h3 : ENNReal.ofReal (K / n) * ∑ k, up (ω k) = 0 := by rw [← h, zero_div, ENNReal.ofReal_zero, zero_mul]
        rw [h3] at h1
        exact not_lt_bot h1
    have h2 : ENNReal.ofReal (n / K) * (ENNReal.ofReal K * Mean up + ENNReal.ofReal (K * ε)) ≤ ENNReal.ofReal (n / K) * (ENNReal.ofReal (K / n) * ∑ k, up (ω k)) := mul_le_mul_right h1.le _
    have e1 : ENNReal.ofReal (n / K) * (ENNReal.ofReal K * Mean up + ENNReal.ofReal (K * ε)) = n * Mean up + ENNReal.ofReal (n * ε) := by
      have hn' : (0 : ℝ) < n := by exact_mod_cast hn
      rw [mul_add, (scaled_event (ε := ε) (S := 0) hn hKp hε).2, ← ENNReal.ofReal_mul (by positivity), show (n : ℝ) / K * (K * ε) = n * ε by field_simp]
    have e2 : ENNReal.ofReal (n / K) * (ENNReal.ofReal (K / n) * ∑ k, up (ω k)) = ∑ k, up (ω k) := by
      have := (scaled_event (ε := 0) (S := ∑ k, up (ω k)) (M := 0) hn hKp le_rfl).1
      simpa using this
    rwa [e1, e2] at h2

/-- **C106.** The same for what is seen along a primary ray that meets a matt surface, in flat-shaded scenes and without ambient samples: with `n` shadow samples, the light seen is seldom more than `ε` times the light of an unhidden sun in front of the surface away from the integral over
the part of the sun that is seen. -/
theorem C106_traced (hR : w.Renders s) (hext : w.ext.PerpSpec)
    (hflat : ∀ (j : Nat) (tri : Tri ℝ), s.triangles[j]? = some tri → s.normals[j]? = some ((geometricNormal tri).normalized, (geometricNormal tri).normalized, (geometricNormal tri).normalized))
    {sun : Object ℝ} {direction : Vec3 ℝ} {angle : ℝ} {L : Spectrum ℝ} {D : ℝ} (hS : w.IsSun s sun direction angle L D) (hl : s.lights = []) (hd : s.distantLights = [sun])
    (rt : RayTracer) (hamb : rt.maxDepth = 0 ∨ rt.nAmbientSamples = 0) (hn : 0 < rt.nShadowSamples) (fuel : Nat) (hfuel : rt.nShadowSamples < fuel) (rays : List TRay) (ray : TRay) (hdep : ray.depth = 0)
    (i : Nat) (hit : TRay) (hcast : w.cast ray = .ok (some (i, hit))) (m : Material ℝ) (col : Spectrum ℝ) (r : ℝ) (hm : m ∈ [Material.plastic col 0 r, Material.metal col 0 r])
    (hmat : w.materialAt hit.interaction.shading.side i = .ok m) (e1 e2 : Vec3 ℝ) (he : Frame e1 e2 hit.interaction.shading.normal) (hup : Real.sin (angle / 2) < Dot hit.interaction.shading.normal direction.normalized)
    (rest : Rng) (ch : Spectrum ℝ → ℝ) (hch : ch ∈ [Spectrum.c0, Spectrum.c1, Spectrum.c2]) (hcol : 0 ≤ ch col) (hL : 0 ≤ ch L) (ε : ℝ) (hε : 0 ≤ ε) :
    let N := hit.interaction.shading.normal
    let pt := hit.interaction.point + N.scale (1 / 1000)
    let c := Real.cos (angle / 2)
    let full := ch col / Real.pi * ch L * (2 * Real.pi * (1 - c))
    let seen := fun ω => seenLight (traceRay w rt (fuel + 1) ⟨Rng.ofPairs ω rest, rays⟩ ray) ch
    ProbabilityN rt.nShadowSamples (fun ω => seen ω + ENNReal.ofReal (full * ε) <
      ENNReal.ofReal (2 * c ^ 2 / (1 + c)) * (ENNReal.ofReal (ch col / Real.pi * ch L) * projectedSolidAngle {l | SunSurelySeen s pt D (worldOf e1 e2 N l) ∧ c < Dot (worldOf e1 e2 N l) direction.normalized})) ≤ ENNReal.ofReal (Real.exp (-2 * rt.nShadowSamples * ε ^ 2)) ∧
    ProbabilityN rt.nShadowSamples (fun ω => ENNReal.ofReal (2 / (c * (1 + c))) * (ENNReal.ofReal (ch col / Real.pi * ch L) * projectedSolidAngle {l | SunMaybeSeen s pt D (worldOf e1 e2 N l) ∧ c < Dot (worldOf e1 e2 N l) direction.normalized}) + ENNReal.ofReal (full * ε) <
      seen ω) ≤ ENNReal.ofReal (Real.exp (-2 * rt.nShadowSamples * ε ^ 2)) := by
  intro N pt c full seen
  rcases hR.cast_cases ray with ⟨hc, _⟩ | ⟨i', tri, b, j, hc, hj, hb, _, _, _, _, hno, _⟩
  · rw [hc] at hcast
    simp at hcast
  · rw [hc] at hcast
    simp only [Res.ok.injEq, Option.some.injEq, Prod.mk.injEq] at hcast
    obtain ⟨rfl, rfl⟩ := hcast
    have hside : (recordedInteraction tri ray.geometry b).shading.side ≠ .NonApplicable := by
      intro h
      simp only [h, World.materialAt] at hmat
      simp at hmat
    have hjl : j < s.normals.length := by rw [hR.aligned.1]; exact (List.getElem?_eq_some_iff.1 hj).1
    obtain ⟨⟨n0, n1, n2⟩, hnn⟩ : ∃ x, s.normals[j]? = some x := ⟨_, List.getElem?_eq_getElem hjl⟩
    have hsame := flat_normal hflat ray.geometry tri b j hb hj n0 n1 n2 hnn
    have hrw : ∀ ω : Fin rt.nShadowSamples → ℝ × ℝ, seenLight (traceRay w rt (fuel + 1) ⟨Rng.ofPairs ω rest, rays⟩ ray) ch =
        brought (w.localIllumination fuel m { ray with interaction := (recordedInteraction tri ray.geometry b).interpolateNormal n0 n1 n2 } (Rng.ofPairs ω rest) rt.nShadowSamples) ch := fun ω =>
      traced_direct rt hamb fuel ⟨Rng.ofPairs ω rest, rays⟩ ray i' _ hc hdep hside m col r hm hmat n0 n1 n2 (by rw [hno, hnn]) ch
    have h := C106_noise hR hext hS hl hd m col r hm { ray with interaction := (recordedInteraction tri ray.geometry b).interpolateNormal n0 n1 n2 } e1 e2 (by rw [hsame]; exact he) (by rw [hsame]; exact hup)
      rt.nShadowSamples hn fuel hfuel rest ch hch hcol hL ε hε
    simp only [hsame] at h
    simp only [seen, hrw]
    exact h

/-- A grey floor under a sun overhead, seen from above: with 1000 shadow samples, the light seen is too dark or too bright by a tenth of full sun with probability less than 3 in a thousand million, each way. -/
example (rest : Rng) : ∃ (w : World) (s : Scene ℝ) (hit : TRay), w.Renders s ∧ s.triangles ≠ [] ∧
    let seen := fun ω => seenLight (traceRay w ⟨0, 1000, 70, 1 / 1000, 3 / 10⟩ 1002 ⟨Rng.ofPairs ω rest, defaultRays⟩ downRay) Spectrum.c0
    let c := Real.cos (1 / 100 / 2)
    let pt := hit.interaction.point + hit.interaction.shading.normal.scale (1 / 1000)
    ProbabilityN 1000 (fun ω => seen ω + ENNReal.ofReal ((1 / 2) / Real.pi * 5 * (2 * Real.pi * (1 - c)) * (1 / 10)) <
      ENNReal.ofReal (2 * c ^ 2 / (1 + c)) * (ENNReal.ofReal ((1 / 2) / Real.pi * 5) * projectedSolidAngle {l | SunSurelySeen s pt 1000000 (worldOf ⟨1, 0, 0⟩ ⟨0, 1, 0⟩ hit.interaction.shading.normal l) ∧ c < Dot (worldOf ⟨1, 0, 0⟩ ⟨0, 1, 0⟩ hit.interaction.shading.normal l) (⟨0, 0, 1⟩ : Vec3 ℝ).normalized})) ≤
      ENNReal.ofReal (Real.exp (-20)) := by
  obtain ⟨w, s, sun, i, hit, hR, hext, hne, hflat, hS, hl, hd, hcast, hmat, hN, hframe, hup, -⟩ := sunlit_floor
  refine ⟨w, s, hit, hR, hne, ?_⟩
  have h := (C106_traced hR hext hflat hS hl hd ⟨0, 1000, 70, 1 / 1000, 3 / 10⟩ (Or.inl rfl) (by norm_num) 1001 (by norm_num) defaultRays downRay rfl i hit hcast _ _ _ (List.mem_cons_self ..) hmat _ _ hframe hup rest Spectrum.c0 (by simp)
      (by norm_num [Spectrum.gray]) (by norm_num [Spectrum.gray]) (1 / 10) (by norm_num)).1
  have e : Real.exp (-2 * ((1000 : ℕ) : ℝ) * (1 / 10) ^ 2) = Real.exp (-20) := by norm_num
  rw [← e]
  exact h

end Rendering
