import Verif.Props.Unbiased
import Verif.Props.DcSafety

/-!
# C98: without bounces, daylight coefficients are on average the sky each sensor sees

With `max_depth = 0` and no mirrors, glass or dielectrics, the mean over the random draws of the coefficient of patch `j` is the cosine-weighted solid angle of the directions in patch `j` that are not obstructed.
-/

set_option linter.unusedSectionVars false
namespace Rendering

open MeasureTheory Set

/-- The ray from `p` in direction `v` certainly meets nothing (not even within the tolerance at the edges of triangles). -/
def SurelySeesSky (s : Scene ℝ) (p v : Vec3 ℝ) : Prop := ∀ tri ∈ s.triangles, ∀ t q u w, TolerantHit ⟨p, v⟩ tri t q u w → ¬ InRange (distSq q p)

/-- The ray from `p` in direction `v` goes through no triangle of the scene (other than at grazing angles). -/
def MaySeeSky (s : Scene ℝ) (p v : Vec3 ℝ) : Prop := ∀ tri ∈ s.triangles, ∀ d2, VisibleHit ⟨p, v⟩ tri d2 → ¬ InRange d2

/-- An entry of a matrix of daylight coefficients, in one channel; nothing if the calculation failed. -/
noncomputable def coefficient (r : Res (Mat (Spectrum ℝ))) (i j : Nat) (ch : Spectrum ℝ → ℝ) : ENNReal :=
  match r with
  | .ok M => ENNReal.ofReal (ch ((M.get? i j).getD Spectrum.black))
  | _ => 0

variable {w : World} {s : Scene ℝ}

theorem material_ok (hR : w.Renders s) (hI : s.IndicesValid) (side : SurfaceSide) (hside : side ≠ .NonApplicable) (i j : Nat) (hjl : j < s.triangles.length) (hf : w.scene.front[i]? = s.front[j]?) (hb : w.scene.back[i]? = s.back[j]?) :
    ∃ m ∈ s.materials, w.materialAt side i = .ok m := by
  have mat : ∀ k, k < s.materials.length → ∃ m ∈ s.materials, Res.ofOption w.scene.materials[k]? = .ok m := by
    intro k hk
    rw [hR.same.1, List.getElem?_eq_getElem hk]
    exact ⟨_, List.getElem_mem hk, rfl⟩
  unfold World.materialAt
  cases side with
  | Front =>
    simp only [hf, List.getElem?_eq_getElem (show j < s.front.length by rw [hR.aligned.2.1]; exact hjl), Res.ofOption_some, Res.bind_ok]
    exact mat _ (hI.1 _ (List.getElem_mem _))
  | Back =>
    simp only [hb, List.getElem?_eq_getElem (show j < s.back.length by rw [hR.aligned.2.2]; exact hjl), Res.ofOption_some, Res.bind_ok]
    exact mat _ (hI.2.1 _ (List.getElem_mem _))
  | NonApplicable => exact absurd rfl hside

/-- Without bounces a primary ray adds its colour to the bin of its direction if it meets nothing, and nothing otherwise. -/
theorem dcTraceRay_direct (hR : w.Renders s) (hI : s.IndicesValid) (hmat : ∀ m ∈ s.materials, m.specularOnly = false) (dc : DcFactory) (hD : dc.maxDepth = 0) (fuel : Nat) (st : DState) (hst : st.rays ≠ []) (ray : TRay)
    (hd : Norm ray.geometry.direction = 1) (hdep : ray.depth = 0) :
    (MaySeeSky s ray.geometry.origin ray.geometry.direction ∧ dcTraceRay w dc (fuel + 1) st ray = dcMissStep dc ray st) ∨
    (¬ SurelySeesSky s ray.geometry.origin ray.geometry.direction ∧ ∃ ray' st', dcTraceRay w dc (fuel + 1) st ray = .ok (ray', st') ∧ st'.contribution = st.contribution) := by
  rcases hR.cast_cases ray with ⟨hc, hno⟩ | ⟨i, tri, b, j, hc, hj, hb, hin, _, hf, hbk, hno, _⟩
  · left
    refine ⟨hno, ?_⟩
    simp only [dcTraceRay, hc, Res.bind_ok]
  · right
    refine ⟨fun h => h tri (List.mem_of_getElem? hj) _ _ _ _ (baricentric_sound _ _ _ hb).1 hin, ?_⟩
    have hjl : j < s.triangles.length := (List.getElem?_eq_some_iff.1 hj).1
    obtain ⟨_, _, hside, _⟩ := recorded_spec tri ray.geometry b hd hb
    have hs : (recordedInteraction tri ray.geometry b).shading.side ≠ .NonApplicable := by
      rcases hside with h | h <;> rw [h.1] <;> simp
    obtain ⟨m, hm, hme⟩ := material_ok hR hI _ hs i j hjl hf hbk
    simp only [dcTraceRay, hc, Res.bind_ok]
    simp only [hD, hdep, lt_irrefl, gt_iff_lt, if_false]
    unfold dcSurfaceStep
    simp only [hs, if_false, hme, Res.bind_ok, hD, hdep, lt_irrefl, gt_iff_lt, false_or]
    by_cases he : m.emitsDirectLight = true
    · simp only [he, if_true]
      exact ⟨_, _, rfl, rfl⟩
    · have hn : ∃ n, w.scene.normals[i]? = some n := by
        rw [hno, List.getElem?_eq_getElem (by rw [hR.aligned.1]; exact hjl)]
        exact ⟨_, rfl⟩
      obtain ⟨⟨n0, n1, n2⟩, hn⟩ := hn
      simp only [he, if_false, hn, Res.ofOption_some, Res.bind_ok, hmat m hm, TRay.getNAmbientSamples, true_or, if_true, hdep]
      have hlen : 0 < st.rays.length := List.length_pos_of_ne_nil hst
      simp only [hlen, if_true, dcAmbientLoop]
      exact ⟨_, _, rfl, rfl⟩

/-! ### The directions with a free view can be measured -/

/-- The projection of a set described by continuous equations and inequalities, some strict, can be measured. -/
theorem measurable_projection (U C : Set ((ℝ × ℝ × ℝ) × (ℝ × ℝ × ℝ))) (hU : IsOpen U) (hC : IsClosed C) : MeasurableSet {v | ∃ x, (v, x) ∈ U ∧ (v, x) ∈ C} := by
  obtain ⟨F, hF, _, hFU, _⟩ := hU.exists_iUnion_isClosed
  have h : IsSigmaCompact (⋃ n, F n ∩ C) := isSigmaCompact_iUnion _ fun n => isSigmaCompact_univ.of_isClosed_subset ((hF n).inter hC) (subset_univ _)
  have e : {v | ∃ x, (v, x) ∈ U ∧ (v, x) ∈ C} = Prod.fst '' (⋃ n, F n ∩ C) := by
    ext v
    rw [← iUnion_inter, hFU]
    simp [mem_image]
  rw [e]
  obtain ⟨K, hK, hK'⟩ := h.image continuous_fst
  rw [← hK']
  exact MeasurableSet.iUnion fun n => (hK n).isClosed.measurableSet

theorem measurable_forall_mem {A : Type} (l : List A) (P : A → Vec3 ℝ → Prop) (h : ∀ a ∈ l, Measurable3 {v | P a v}) : Measurable3 {v | ∀ a ∈ l, P a v} := by
  induction l with
  | nil => unfold Measurable3; simp
  | cons a l ih =>
    have h1 := (h a List.mem_cons_self).inter (ih fun b hb => h b (List.mem_cons_of_mem _ hb))
    unfold Measurable3
    convert h1 using 1
    ext p
    simp

theorem measurable_surelySees (s : Scene ℝ) (p : Vec3 ℝ) : Measurable3 {v | SurelySeesSky s p v} := by
  apply measurable_forall_mem
  intro tri _
  have h := measurable_projection
    {q | 1 / 10 ^ 5 < q.2.1 ∧ 1 / 10 ^ 7 < q.2.1 ^ 2 * (q.1.1 ^ 2 + q.1.2.1 ^ 2 + q.1.2.2 ^ 2) ∧ q.2.1 ^ 2 * (q.1.1 ^ 2 + q.1.2.1 ^ 2 + q.1.2.2 ^ 2) < floatMax ℝ}
    {q | p.x + q.1.1 * q.2.1 = tri.a.x * (1 - q.2.2.1 - q.2.2.2) + tri.b.x * q.2.2.1 + tri.c.x * q.2.2.2 ∧
      p.y + q.1.2.1 * q.2.1 = tri.a.y * (1 - q.2.2.1 - q.2.2.2) + tri.b.y * q.2.2.1 + tri.c.y * q.2.2.2 ∧
      p.z + q.1.2.2 * q.2.1 = tri.a.z * (1 - q.2.2.1 - q.2.2.2) + tri.b.z * q.2.2.1 + tri.c.z * q.2.2.2 ∧
      -(1 / 2 ^ 52) ≤ q.2.2.1 ∧ q.2.2.1 ≤ 1 + 1 / 2 ^ 52 ∧ -(1 / 2 ^ 52) ≤ q.2.2.2 ∧ q.2.2.1 + q.2.2.2 ≤ 1 + 1 / 2 ^ 52}
    (by
      simp only [setOf_and]
      refine IsOpen.inter ?_ (IsOpen.inter ?_ ?_) <;> exact isOpen_lt (by fun_prop) (by fun_prop))
    (by
      simp only [setOf_and]
      refine IsClosed.inter ?_ (IsClosed.inter ?_ (IsClosed.inter ?_ (IsClosed.inter ?_ (IsClosed.inter ?_ (IsClosed.inter ?_ ?_))))) <;> first | exact isClosed_eq (by fun_prop) (by fun_prop) | exact isClosed_le (by fun_prop) (by fun_prop))
  unfold Measurable3
  convert h.compl using 1
  ext v
  have hd : ∀ t : ℝ, distSq (p + (⟨v.1, v.2.1, v.2.2⟩ : Vec3 ℝ).scale t) p = t ^ 2 * (v.1 ^ 2 + v.2.1 ^ 2 + v.2.2 ^ 2) := by
    intro t
    simp [distSq, Vec3.scale]
    ring
  simp only [mem_setOf_eq, mem_compl_iff, not_exists]
  constructor
  · rintro h ⟨t, u, w⟩ ⟨⟨h1, h2, h3⟩, k1, k2, k3, k4, k5, k6, k7⟩
    refine h t (p + (⟨v.1, v.2.1, v.2.2⟩ : Vec3 ℝ).scale t) u w ⟨rfl, h1, ?_, k4, k5, k6, k7⟩ ?_
    · ext
      · simpa [Vec3.scale] using k1
      · simpa [Vec3.scale] using k2
      · simpa [Vec3.scale] using k3
    · rw [hd]; exact ⟨h2, h3⟩
  · rintro h t q u w ⟨rfl, h1, h2, k4, k5, k6, k7⟩ hr
    rw [hd] at hr
    have hx := congrArg Vec3.x h2
    have hy := congrArg Vec3.y h2
    have hz := congrArg Vec3.z h2
    simp [Vec3.scale] at hx hy hz
    exact h (t, u, w) ⟨⟨h1, hr.1, hr.2⟩, hx, hy, hz, k4, k5, k6, k7⟩

theorem measurable_maySee (s : Scene ℝ) (p : Vec3 ℝ) : Measurable3 {v | MaySeeSky s p v} := by
  apply measurable_forall_mem
  intro tri _
  have h := measurable_projection
    {q | 1 / 10 ^ 5 < q.2.1 ∧ 1 / 10 ^ 7 < q.2.1 ^ 2 * (q.1.1 ^ 2 + q.1.2.1 ^ 2 + q.1.2.2 ^ 2) ∧ q.2.1 ^ 2 * (q.1.1 ^ 2 + q.1.2.1 ^ 2 + q.1.2.2 ^ 2) < floatMax ℝ}
    {q | p.x + q.1.1 * q.2.1 = tri.a.x * (1 - q.2.2.1 - q.2.2.2) + tri.b.x * q.2.2.1 + tri.c.x * q.2.2.2 ∧
      p.y + q.1.2.1 * q.2.1 = tri.a.y * (1 - q.2.2.1 - q.2.2.2) + tri.b.y * q.2.2.1 + tri.c.y * q.2.2.2 ∧
      p.z + q.1.2.2 * q.2.1 = tri.a.z * (1 - q.2.2.1 - q.2.2.2) + tri.b.z * q.2.2.1 + tri.c.z * q.2.2.2 ∧
      0 ≤ q.2.2.1 ∧ 0 ≤ q.2.2.2 ∧ q.2.2.1 + q.2.2.2 ≤ 1 ∧
      1 / 10 ^ 5 ≤ |(tri.b - tri.a).x * (q.1.2.1 * (tri.c - tri.a).z - q.1.2.2 * (tri.c - tri.a).y) + (tri.b - tri.a).y * (q.1.2.2 * (tri.c - tri.a).x - q.1.1 * (tri.c - tri.a).z) +
        (tri.b - tri.a).z * (q.1.1 * (tri.c - tri.a).y - q.1.2.1 * (tri.c - tri.a).x)|}
    (by
      simp only [setOf_and]
      refine IsOpen.inter ?_ (IsOpen.inter ?_ ?_) <;> exact isOpen_lt (by fun_prop) (by fun_prop))
    (by
      simp only [setOf_and]
      refine IsClosed.inter ?_ (IsClosed.inter ?_ (IsClosed.inter ?_ (IsClosed.inter ?_ (IsClosed.inter ?_ (IsClosed.inter ?_ ?_))))) <;> first | exact isClosed_eq (by fun_prop) (by fun_prop) | exact isClosed_le (by fun_prop) (by fun_prop))
  unfold Measurable3
  convert h.compl using 1
  ext v
  have hd : ∀ t : ℝ, distSq (p + (⟨v.1, v.2.1, v.2.2⟩ : Vec3 ℝ).scale t) p = t ^ 2 * (v.1 ^ 2 + v.2.1 ^ 2 + v.2.2 ^ 2) := by
    intro t
    simp [distSq, Vec3.scale]
    ring
  simp only [mem_setOf_eq, mem_compl_iff, not_exists]
  constructor
  · rintro h ⟨t, u, w⟩ ⟨⟨h1, h2, h3⟩, k1, k2, k3, k4, k5, k6, k7⟩
    refine h _ ⟨t, p + (⟨v.1, v.2.1, v.2.2⟩ : Vec3 ℝ).scale t, ⟨rfl, u, w, k4, k5, k6, ?_⟩, h1, k7, hd t⟩ ⟨h2, h3⟩
    ext
    · simpa [Vec3.scale] using k1
    · simpa [Vec3.scale] using k2
    · simpa [Vec3.scale] using k3
  · rintro h d2 ⟨t, q, ⟨rfl, u, w, k4, k5, k6, h2⟩, h1, k7, rfl⟩ hr
    dsimp only at hr
    rw [hd] at hr
    have hx := congrArg Vec3.x h2
    have hy := congrArg Vec3.y h2
    have hz := congrArg Vec3.z h2
    simp [Vec3.scale] at hx hy hz
    exact h (t, u, w) ⟨⟨h1, hr.1, hr.2⟩, hx, hy, hz, k4, k5, k6, k7⟩

/-! ### One sample -/

/-- The local direction drawn from the pair of numbers `d`. -/
noncomputable def drawn (d : ℝ × ℝ) : Vec3 ℝ := ⟨(discMap 1 d).1, (discMap 1 d).2, Real.sqrt (1 - ((discMap 1 d).1 ^ 2 + (discMap 1 d).2 ^ 2))⟩

theorem worldOf_eq (e1 e2 n l : Vec3 ℝ) : localToWorld e1 e2 n 0 l.x l.y l.z = worldOf e1 e2 n l := by
  ext <;> simp [localToWorld, worldOf, Vec3.scale] <;> ring

theorem ofPairs_valid {n : Nat} {ω : Fin n → ℝ × ℝ} (hω : ∀ k, ω k ∈ unitSquare) {rest : Rng} (hr : rest.Valid) : (Rng.ofPairs ω rest).Valid := by
  intro k
  unfold Rng.ofPairs
  split_ifs with h1 h2
  · exact (hω _).1
  · exact (hω _).2
  · exact hr _

theorem dcTask_direct (hR : w.Renders s) (hI : s.IndicesValid) (hmat : ∀ m ∈ s.materials, m.specularOnly = false) (dc : DcFactory) (hD : dc.maxDepth = 0) (hbin : ∀ d, Norm d = 1 → dc.dirToBin d < dc.nBins)
    (sensor : Ray3 ℝ) (e2 : Vec3 ℝ) (he : w.ext.perp sensor.direction = some e2) (hf : Frame (e2.cross sensor.direction) e2 sensor.direction) (ω : Fin dc.nAmbientSamples → ℝ × ℝ) (hω : ∀ k, ω k ∈ unitSquare)
    (rest : Rng) (hrest : rest.Valid) (fuel : Nat) (k : Fin dc.nAmbientSamples) (rng : Rng) :
    Norm (worldOf (e2.cross sensor.direction) e2 sensor.direction (drawn (ω k))) = 1 ∧
    ∃ v : ℝ, (v = 0 ∧ ¬ SurelySeesSky s sensor.origin (worldOf (e2.cross sensor.direction) e2 sensor.direction (drawn (ω k))) ∨
        v = Real.pi / dc.nAmbientSamples ∧ MaySeeSky s sensor.origin (worldOf (e2.cross sensor.direction) e2 sensor.direction (drawn (ω k)))) ∧
      dcTask w dc (fuel + 1) sensor (Rng.ofPairs ω rest) k rng = .ok { dc.blank with data := dc.blank.data.set (dc.dirToBin (worldOf (e2.cross sensor.direction) e2 sensor.direction (drawn (ω k)))) (Spectrum.gray v) } := by
  set rk : Rng := fun i => Rng.ofPairs ω rest (i + 2 * k) with hrk
  have hv : rk.Valid := fun i => ofPairs_valid hω hrest _
  have h0 : rk 0 = (ω k).1 := by
    have h1 : (0 + 2 * (k : Nat)) / 2 = k := by omega
    have h2 : (0 + 2 * (k : Nat)) % 2 = 0 := by omega
    simp only [hrk, Rng.ofPairs, h1, h2, k.isLt, dif_pos, if_true, Fin.eta]
  have h1 : rk 1 = (ω k).2 := by
    have h1 : (1 + 2 * (k : Nat)) / 2 = k := by omega
    have h2 : (1 + 2 * (k : Nat)) % 2 = 1 := by omega
    simp only [hrk, Rng.ofPairs, h1, h2, k.isLt, dif_pos, one_ne_zero, if_false, Fin.eta]
  have hdrawn : (sampleCosineHemisphere rk).1 = drawn (ω k) := by
    rw [cosine_sample_eq rk (hv 0), h0, h1]
    rfl
  obtain ⟨c1, c2, _⟩ := C55_cosine_hemisphere rk hv
  rw [hdrawn] at c1 c2
  set d := worldOf (e2.cross sensor.direction) e2 sensor.direction (drawn (ω k)) with hd
  have hiso := C54_isometry (e2.cross sensor.direction) e2 sensor.direction 0 hf (drawn (ω k)).x (drawn (ω k)).y (drawn (ω k)).z 0 0 0
  rw [sub_zero', worldOf_eq, ← hd] at hiso
  have hd1 : Norm d = 1 := by
    rw [hiso.2.2.2.1]
    have := Dot_self_of_norm c1
    rw [Dot] at this
    rw [show (drawn (ω k)).x ^ 2 + (drawn (ω k)).y ^ 2 + (drawn (ω k)).z ^ 2 = 1 by linarith]
    exact Real.sqrt_one
  refine ⟨hd1, ?_⟩
  have htask : dcTask w dc (fuel + 1) sensor (Rng.ofPairs ω rest) k rng =
      (dcTraceRay w dc (fuel + 1) ⟨rng, defaultRays, dc.blank⟩ { TRay.default with geometry := ⟨sensor.origin, d⟩, colour := Spectrum.gray Real.pi }).bind fun x => .ok x.2.contribution := by
    unfold dcTask
    rw [he, Res.ofOption_some, Res.bind_ok, dcDirections_getElem? _ _ _ k.isLt, Res.ofOption_some, Res.bind_ok]
    unfold dcSample
    simp only [← hrk, hdrawn, worldOf_eq, ← hd]
  have hb := hbin d hd1
  have hget : dc.blank.get? 0 (dc.dirToBin d) = some Spectrum.black := Mat.get?_new _ _ _ _ _ (by norm_num) hb
  have hset : ∀ v, dc.blank.set 0 (dc.dirToBin d) v = .ok { dc.blank with data := dc.blank.data.set (dc.dirToBin d) v } := by
    intro v
    unfold Mat.set
    rw [if_pos ⟨by simp [DcFactory.blank, Mat.new], hb⟩]
    simp
  rcases dcTraceRay_direct hR hI hmat dc hD fuel ⟨rng, defaultRays, dc.blank⟩ (by simp [defaultRays]) { TRay.default with geometry := ⟨sensor.origin, d⟩, colour := Spectrum.gray Real.pi } hd1 rfl with ⟨hm, ht⟩ | ⟨hs, ray', st', ht, hc⟩
  · refine ⟨Real.pi / dc.nAmbientSamples, Or.inr ⟨rfl, hm⟩, ?_⟩
    rw [htask, ht]
    unfold dcMissStep
    simp only [hget, Res.ofOption_some, Res.bind_ok, hset]
    congr 3
    rw [spectrum_black_add]
    ext <;> simp [Spectrum.divBy, Spectrum.one, Spectrum.gray]
  · refine ⟨0, Or.inl ⟨rfl, hs⟩, ?_⟩
    rw [htask, ht, Res.bind_ok]
    simp only [hc]
    congr 1
    have : dc.blank.data.set (dc.dirToBin d) (Spectrum.gray 0) = dc.blank.data := by
      apply List.ext_getElem?
      intro i
      rw [List.getElem?_set]
      by_cases hi : dc.dirToBin d = i
      · subst hi
        simp [DcFactory.blank, Mat.new, hb, Spectrum.black, Spectrum.gray]
      · simp [hi]
    rw [this]

theorem ofPairs_self (n : Nat) (r : Rng) : Rng.ofPairs (fun k : Fin n => (r (2 * k), r (2 * k + 1))) (fun k => r (k + 2 * n)) = r := by
  funext k
  unfold Rng.ofPairs
  split_ifs with h1 h2
  · show r (2 * (k / 2)) = r k
    congr 1; omega
  · show r (2 * (k / 2) + 1) = r k
    congr 1; omega
  · show r (k - 2 * n + 2 * n) = r k
    congr 1; omega

/-- The row of a sensor, sample by sample. -/
theorem coefficient_direct (hR : w.Renders s) (hI : s.IndicesValid) (hext : w.ext.PerpSpec) (hmat : ∀ m ∈ s.materials, m.specularOnly = false) (dc : DcFactory) (hD : dc.maxDepth = 0)
    (hbin : ∀ d, Norm d = 1 → dc.dirToBin d < dc.nBins)
    (rays : List (Ray3 ℝ)) (hrays : ∀ r ∈ rays, Norm r.direction = 1) (i : Nat) (sensor : Ray3 ℝ) (hs : rays[i]? = some sensor) (e2 : Vec3 ℝ) (he : w.ext.perp sensor.direction = some e2)
    (hf : Frame (e2.cross sensor.direction) e2 sensor.direction) (primary : Nat → Rng) (hp : ∀ i, (primary i).Valid) (secondary : Nat → Nat → Rng) (ω : Fin dc.nAmbientSamples → ℝ × ℝ) (hω : ∀ k, ω k ∈ unitSquare)
    (fuel : Nat) (j : Nat) (hj : j < dc.nBins) (ch : Spectrum ℝ → ℝ) (hch : ch ∈ [Spectrum.c0, Spectrum.c1, Spectrum.c2]) :
    ∃ v : Fin dc.nAmbientSamples → ℝ, (∀ k, v k = 0 ∧ ¬ SurelySeesSky s sensor.origin (worldOf (e2.cross sensor.direction) e2 sensor.direction (drawn (ω k))) ∨
        v k = Real.pi / dc.nAmbientSamples ∧ MaySeeSky s sensor.origin (worldOf (e2.cross sensor.direction) e2 sensor.direction (drawn (ω k)))) ∧
      coefficient (calcDc w dc (fuel + 1) rays (Function.update primary i (Rng.ofPairs ω (primary i))) secondary) i j ch =
        ENNReal.ofReal (∑ k, if dc.dirToBin (worldOf (e2.cross sensor.direction) e2 sensor.direction (drawn (ω k))) = j then v k else 0) := by
  have hgood : ∀ i' : Nat, ∃ (ω' : Fin dc.nAmbientSamples → ℝ × ℝ) (r' : Rng), (∀ k, ω' k ∈ unitSquare) ∧ r'.Valid ∧ Function.update primary i (Rng.ofPairs ω (primary i)) i' = Rng.ofPairs ω' r' := by
    intro i'
    by_cases hi : i' = i
    · subst hi
      exact ⟨ω, primary i', hω, hp _, by rw [Function.update_self]⟩
    · refine ⟨fun k => (primary i' (2 * k), primary i' (2 * k + 1)), fun k => primary i' (k + 2 * dc.nAmbientSamples), fun k => ⟨hp i' _, hp i' _⟩, fun k => hp i' _, ?_⟩
      rw [Function.update_of_ne hi]
      exact (ofPairs_self dc.nAmbientSamples (primary i')).symm
  obtain ⟨M, hM⟩ := calcDc_ok w dc (fuel + 1) rays (Function.update primary i (Rng.ofPairs ω (primary i))) secondary (by
    intro i' sensor' hs'
    have hn := hrays _ (List.mem_of_getElem? hs')
    obtain ⟨e2', he', g1, g2⟩ := hext sensor'.direction hn
    refine ⟨⟨e2', he'⟩, fun k hk => ?_⟩
    obtain ⟨ω', r', h1, h2, h3⟩ := hgood i'
    obtain ⟨_, v, _, hv⟩ := dcTask_direct hR hI hmat dc hD hbin sensor' e2' he' (frame_of_perp hn g1 g2) ω' h1 r' h2 fuel ⟨k, hk⟩ (secondary i' k)
    rw [h3]
    exact ⟨_, hv⟩)
  obtain ⟨_, _, _, hrows⟩ := C58_rows w dc (fuel + 1) rays _ secondary M hM
  obtain ⟨cs, hlen, hcs, hsum⟩ := hrows i sensor hs
  have hall := fun k : Fin dc.nAmbientSamples => dcTask_direct hR hI hmat dc hD hbin sensor e2 he hf ω hω (primary i) (hp i) fuel k (secondary i k)
  choose hnorm v hv hval using hall
  refine ⟨v, hv, ?_⟩
  have hcol : column cs j = (List.finRange dc.nAmbientSamples).map fun k => Spectrum.gray (if dc.dirToBin (worldOf (e2.cross sensor.direction) e2 sensor.direction (drawn (ω k))) = j then v k else 0) := by
    apply List.ext_getElem?
    intro k
    unfold column
    rw [List.getElem?_map, List.getElem?_map]
    by_cases hk : k < dc.nAmbientSamples
    · obtain ⟨c, hc, ht⟩ := hcs k hk
      have h3 := hval ⟨k, hk⟩
      rw [Function.update_self] at ht
      rw [ht] at h3
      have hb := hbin _ (hnorm ⟨k, hk⟩)
      rw [hc, List.getElem?_eq_getElem (by simpa using hk), Option.map_some, Option.map_some, Res.ok.inj h3]
      simp only [List.getElem_finRange, Fin.cast_mk]
      have hrow : Mat.IsRow { dc.blank with data := dc.blank.data.set (dc.dirToBin (worldOf (e2.cross sensor.direction) e2 sensor.direction (drawn (ω ⟨k, hk⟩)))) (Spectrum.gray (v ⟨k, hk⟩)) } dc.nBins := by
        simp [DcFactory.blank, Mat.new, Mat.IsRow]
      rw [hrow.get? j]
      simp only [List.getElem?_set]
      generalize hbd : dc.dirToBin (worldOf (e2.cross sensor.direction) e2 sensor.direction (drawn (ω ⟨k, hk⟩))) = bd at hb
      by_cases he : bd = j
      · subst he
        simp [DcFactory.blank, Mat.new, hb]
      · simp [he, DcFactory.blank, Mat.new, hj, Spectrum.black, Spectrum.gray]
    · rw [List.getElem?_eq_none (by rw [hlen]; omega), List.getElem?_eq_none (by simp; omega)]
      rfl
  rw [hM]
  unfold coefficient
  simp only [hsum j hj, Option.getD_some, hcol, spectrumSum_gray]
  congr 1
  rw [← List.sum_ofFn, List.ofFn_eq_map]
  simp only [List.mem_cons, List.not_mem_nil, or_false] at hch
  rcases hch with rfl | rfl | rfl <;> rfl

theorem unitSquare_prob : IsProbabilityMeasure ((volume : Measure (ℝ × ℝ)).restrict unitSquare) := by
  constructor
  rw [Measure.restrict_apply_univ, measure_congr unitSquare_ae, volume_openSquare]

/-- The mean of a sum over the samples, each with its own pair of draws. -/
theorem meanN_sum (n : Nat) (c : ENNReal) (A : Set (ℝ × ℝ)) (hA : MeasurableSet A) :
    MeanN n (fun ω => ∑ k, A.indicator (fun _ => c) (ω k)) = n * (c * volume (unitSquare ∩ A)) := by
  have := unitSquare_prob
  unfold MeanN
  rw [volume_pi, Measure.restrict_pi_pi, lintegral_finset_sum (f := fun (k : Fin n) (ω : Fin n → ℝ × ℝ) => A.indicator (fun _ => c) (ω k)) _ fun k _ => (measurable_const.indicator hA).comp (measurable_pi_apply k)]
  have h : ∀ k : Fin n, ∫⁻ ω, A.indicator (fun _ => c) (ω k) ∂(Measure.pi fun _ : Fin n => (volume : Measure (ℝ × ℝ)).restrict unitSquare) = c * volume (unitSquare ∩ A) := by
    intro k
    rw [(measurePreserving_eval (fun _ : Fin n => (volume : Measure (ℝ × ℝ)).restrict unitSquare) k).lintegral_comp (measurable_const.indicator hA), lintegral_indicator_const hA, Measure.restrict_apply hA, inter_comm]
  simp only [h, Finset.sum_const, Finset.card_univ, Fintype.card_fin, nsmul_eq_mul]

theorem drawn_share (S : Set (Vec3 ℝ)) (hS : Measurable3 S) (n : Nat) (hn : 0 < n) :
    MeasurableSet {d : ℝ × ℝ | drawn d ∈ S} ∧ n * (ENNReal.ofReal (Real.pi / n) * volume (unitSquare ∩ {d : ℝ × ℝ | drawn d ∈ S})) = projectedSolidAngle S := by
  have hm := discMap_measurable 1
  refine ⟨hS.preimage (f := fun d => (discMap 1 d).1) (g := fun d => (discMap 1 d).2) (h := fun d => Real.sqrt (1 - ((discMap 1 d).1 ^ 2 + (discMap 1 d).2 ^ 2))) (by fun_prop) (by fun_prop) (by fun_prop), ?_⟩
  have h := C78_cosine_density (fun _ => 0) S hS
  have hp : Probability (fun d => (sampleCosineHemisphere (Rng.cons2 d fun _ => 0)).1 ∈ S) = volume (unitSquare ∩ {d : ℝ × ℝ | drawn d ∈ S}) := by
    unfold Probability
    congr 1
    ext d
    simp only [mem_setOf_eq, mem_inter_iff]
    refine and_congr_right fun hd => ?_
    rw [cosine_sample_eq (Rng.cons2 d fun _ => 0) hd.1]
    rfl
  rw [← hp, h, ← mul_assoc, ← ENNReal.ofReal_natCast, ← ENNReal.ofReal_mul (by positivity), mul_div_cancel₀ _ (by positivity)]
  exact ENNReal.mul_div_cancel (by simp [Real.pi_pos]) ENNReal.ofReal_ne_top

/-- **C98.** Without bounces (`max_depth = 0`) and without mirrors, glass or dielectrics: on average over the draws of the samples, the coefficient of sky patch `j` at sensor `i` is the integral of the cosine with the sensor's
direction over the directions of patch `j` in which the sensor sees the sky: at least over those whose rays certainly meet nothing, at most over those whose rays go through no triangle. In every channel; whatever the scene, the number of
samples, the bins, the other sensors and the other random numbers. (`e1`, `e2` complete the sensor's direction to an orthonormal basis, and `projectedSolidAngle` is taken in it.) -/
theorem C98_sky_view (hR : w.Renders s) (hI : s.IndicesValid) (hext : w.ext.PerpSpec) (hmat : ∀ m ∈ s.materials, m.specularOnly = false) (dc : DcFactory) (hD : dc.maxDepth = 0) (hn : 0 < dc.nAmbientSamples)
    (hbin : ∀ d, Norm d = 1 → dc.dirToBin d < dc.nBins) (hmeas : ∀ j, Measurable3 {d | dc.dirToBin d = j})
    (rays : List (Ray3 ℝ)) (hrays : ∀ r ∈ rays, Norm r.direction = 1) (i : Nat) (sensor : Ray3 ℝ) (hs : rays[i]? = some sensor) (primary : Nat → Rng) (hp : ∀ i, (primary i).Valid) (secondary : Nat → Nat → Rng) (fuel : Nat) :
    ∃ e1 e2, Frame e1 e2 sensor.direction ∧ ∀ j < dc.nBins, ∀ ch ∈ [Spectrum.c0, Spectrum.c1, Spectrum.c2],
      projectedSolidAngle {l | dc.dirToBin (worldOf e1 e2 sensor.direction l) = j ∧ SurelySeesSky s sensor.origin (worldOf e1 e2 sensor.direction l)} ≤
        MeanN dc.nAmbientSamples (fun ω => coefficient (calcDc w dc (fuel + 1) rays (Function.update primary i (Rng.ofPairs ω (primary i))) secondary) i j ch) ∧
      MeanN dc.nAmbientSamples (fun ω => coefficient (calcDc w dc (fuel + 1) rays (Function.update primary i (Rng.ofPairs ω (primary i))) secondary) i j ch) ≤
        projectedSolidAngle {l | dc.dirToBin (worldOf e1 e2 sensor.direction l) = j ∧ MaySeeSky s sensor.origin (worldOf e1 e2 sensor.direction l)} := by
  obtain ⟨e2, he, g1, g2⟩ := hext sensor.direction (hrays _ (List.mem_of_getElem? hs))
  have hf := frame_of_perp (hrays _ (List.mem_of_getElem? hs)) g1 g2
  refine ⟨e2.cross sensor.direction, e2, hf, fun j hj ch hch => ?_⟩
  set e1 := e2.cross sensor.direction with he1
  have hworld : ∀ S : Set (Vec3 ℝ), Measurable3 S → Measurable3 {l | worldOf e1 e2 sensor.direction l ∈ S} := by
    intro S hS
    have hm : Measurable fun p : ℝ × ℝ × ℝ => (e1.x * p.1 + e2.x * p.2.1 + sensor.direction.x * p.2.2, e1.y * p.1 + e2.y * p.2.1 + sensor.direction.y * p.2.2, e1.z * p.1 + e2.z * p.2.1 + sensor.direction.z * p.2.2) := by fun_prop
    exact hm hS
  have hpi : ∀ ω ∈ (Set.univ.pi fun _ : Fin dc.nAmbientSamples => unitSquare), ∀ k, ω k ∈ unitSquare := fun ω hω k => hω k (mem_univ _)
  have hms : MeasurableSet (Set.univ.pi fun _ : Fin dc.nAmbientSamples => unitSquare) := MeasurableSet.univ_pi fun _ => measurableSet_Ico.prod measurableSet_Ico
  have hq : (0 : ℝ) ≤ Real.pi / dc.nAmbientSamples := by positivity
  constructor
  · obtain ⟨a1, a2⟩ := drawn_share {l | dc.dirToBin (worldOf e1 e2 sensor.direction l) = j ∧ SurelySeesSky s sensor.origin (worldOf e1 e2 sensor.direction l)} (by
      unfold Measurable3
      exact MeasurableSet.inter (hworld _ (hmeas j)) (hworld _ (measurable_surelySees s sensor.origin))) dc.nAmbientSamples hn
    rw [← a2, ← meanN_sum _ _ _ a1]
    refine setLIntegral_mono' hms fun ω hω => ?_
    obtain ⟨v, hv, hc⟩ := coefficient_direct hR hI hext hmat dc hD hbin rays hrays i sensor hs e2 he hf primary hp secondary ω (hpi ω hω) fuel j hj ch hch
    have hv0 : ∀ k, 0 ≤ v k := fun k => by rcases hv k with h | h <;> rw [h.1]; exact hq
    rw [hc, ENNReal.ofReal_sum_of_nonneg fun k _ => by split_ifs <;> [exact hv0 k; exact le_rfl]]
    refine Finset.sum_le_sum fun k _ => ?_
    by_cases h : drawn (ω k) ∈ {l | dc.dirToBin (worldOf e1 e2 sensor.direction l) = j ∧ SurelySeesSky s sensor.origin (worldOf e1 e2 sensor.direction l)}
    · rw [indicator_of_mem (s := {d | drawn d ∈ _}) h, if_pos h.1]
      rcases hv k with h' | h'
      · exact absurd h.2 h'.2
      · rw [h'.1]
    · rw [indicator_of_notMem (s := {d | drawn d ∈ _}) h]
      exact bot_le
  · obtain ⟨a1, a2⟩ := drawn_share {l | dc.dirToBin (worldOf e1 e2 sensor.direction l) = j ∧ MaySeeSky s sensor.origin (worldOf e1 e2 sensor.direction l)} (by
      unfold Measurable3
      exact MeasurableSet.inter (hworld _ (hmeas j)) (hworld _ (measurable_maySee s sensor.origin))) dc.nAmbientSamples hn
    rw [← a2, ← meanN_sum _ _ _ a1]
    refine setLIntegral_mono' hms fun ω hω => ?_
    obtain ⟨v, hv, hc⟩ := coefficient_direct hR hI hext hmat dc hD hbin rays hrays i sensor hs e2 he hf primary hp secondary ω (hpi ω hω) fuel j hj ch hch
    have hv0 : ∀ k, 0 ≤ v k := fun k => by rcases hv k with h | h <;> rw [h.1]; exact hq
    rw [hc, ENNReal.ofReal_sum_of_nonneg fun k _ => by split_ifs <;> [exact hv0 k; exact le_rfl]]
    refine Finset.sum_le_sum fun k _ => ?_
    by_cases hb : dc.dirToBin (worldOf e1 e2 sensor.direction (drawn (ω k))) = j
    · rw [if_pos hb]
      rcases hv k with h' | h'
      · rw [h'.1]; simp
      · have hm : drawn (ω k) ∈ {l | dc.dirToBin (worldOf e1 e2 sensor.direction l) = j ∧ MaySeeSky s sensor.origin (worldOf e1 e2 sensor.direction l)} := ⟨hb, h'.2⟩
        rw [indicator_of_mem (s := {d | drawn d ∈ _}) hm, h'.1]
    · rw [if_neg hb]; simp

theorem projectedSolidAngle_mono {S T : Set (Vec3 ℝ)} (h : ∀ l, Norm l = 1 → 0 < l.z → l ∈ S → l ∈ T) : projectedSolidAngle S ≤ projectedSolidAngle T := by
  refine lintegral_mono_set ?_
  rintro ⟨z, φ⟩ ⟨hp, hs⟩
  refine ⟨hp, h _ (Norm_eq_one ?_) hp.1.1 hs⟩
  have hz : 0 ≤ 1 - z ^ 2 := by nlinarith [hp.1.1, hp.1.2]
  have e := Real.sin_sq_add_cos_sq φ
  simp only [Dot, directionAt]
  linear_combination (Real.cos φ ^ 2 + Real.sin φ ^ 2) * Real.sq_sqrt hz + (1 - z ^ 2) * e

/-- **C98, unobstructed sensors.** If nothing is in front of the sensor, the mean coefficient of a patch is exactly the integral of the cosine over the patch's directions above the sensor's horizon. -/
theorem C98_open_sky (hR : w.Renders s) (hI : s.IndicesValid) (hext : w.ext.PerpSpec) (hmat : ∀ m ∈ s.materials, m.specularOnly = false) (dc : DcFactory) (hD : dc.maxDepth = 0) (hn : 0 < dc.nAmbientSamples)
    (hbin : ∀ d, Norm d = 1 → dc.dirToBin d < dc.nBins) (hmeas : ∀ j, Measurable3 {d | dc.dirToBin d = j})
    (rays : List (Ray3 ℝ)) (hrays : ∀ r ∈ rays, Norm r.direction = 1) (i : Nat) (sensor : Ray3 ℝ) (hs : rays[i]? = some sensor) (hopen : OpenSky s sensor) (primary : Nat → Rng) (hp : ∀ i, (primary i).Valid) (secondary : Nat → Nat → Rng)
    (fuel : Nat) :
    ∃ e1 e2, Frame e1 e2 sensor.direction ∧ ∀ j < dc.nBins, ∀ ch ∈ [Spectrum.c0, Spectrum.c1, Spectrum.c2],
      MeanN dc.nAmbientSamples (fun ω => coefficient (calcDc w dc (fuel + 1) rays (Function.update primary i (Rng.ofPairs ω (primary i))) secondary) i j ch) =
        projectedSolidAngle {l | dc.dirToBin (worldOf e1 e2 sensor.direction l) = j} := by
  obtain ⟨e1, e2, hf, h⟩ := C98_sky_view hR hI hext hmat dc hD hn hbin hmeas rays hrays i sensor hs primary hp secondary fuel
  refine ⟨e1, e2, hf, fun j hj ch hch => ?_⟩
  obtain ⟨h1, h2⟩ := h j hj ch hch
  refine le_antisymm (h2.trans (projectedSolidAngle_mono fun l _ _ hl => hl.1)) (le_trans (projectedSolidAngle_mono ?_) h1)
  intro l hl1 hl2 hl
  refine ⟨hl, ?_⟩
  have hiso := C54_isometry e1 e2 sensor.direction 0 hf l.x l.y l.z 0 0 0
  rw [sub_zero', worldOf_eq] at hiso
  refine hopen _ ?_ (by rw [hiso.2.2.1]; exact hl2)
  rw [hiso.2.2.2.1]
  have := Dot_self_of_norm hl1
  rw [Dot] at this
  rw [show l.x ^ 2 + l.y ^ 2 + l.z ^ 2 = 1 by linarith]
  exact Real.sqrt_one

/-- C98: the hypotheses are met by a sensor half a metre above a grey floor, with one bin for the northern and one for the southern half of the sky. -/
example (n : Nat) (hn : 0 < n) (lim : ℝ) (primary : Nat → Rng) (hp : ∀ i, (primary i).Valid) (secondary : Nat → Nat → Rng) :
    ∃ (w : World) (e1 e2 : Vec3 ℝ), Frame e1 e2 ⟨0, 0, 1⟩ ∧ ∀ j < 2, ∀ ch ∈ [Spectrum.c0, Spectrum.c1, Spectrum.c2],
      MeanN n (fun ω => coefficient (calcDc w { maxDepth := 0, nAmbientSamples := n, limitWeight := lim, countSpecularBounce := 3 / 10, nBins := 2, dirToBin := fun d => if 0 < d.y then 0 else 1 } 1 [⟨⟨0, 0, 1 / 2⟩, ⟨0, 0, 1⟩⟩]
        (Function.update primary 0 (Rng.ofPairs ω (primary 0))) secondary) 0 j ch) =
      projectedSolidAngle {l | (if 0 < (worldOf e1 e2 ⟨0, 0, 1⟩ l).y then 0 else 1) = j} := by
  obtain ⟨ext, hext⟩ := perpSpec_exists
  obtain ⟨w, hR, he, _⟩ := renders_exists (floorOf (.plastic (Spectrum.gray (1 / 2)) 0 0)) ⟨rfl, rfl, rfl⟩ (fits_of_small _ (by simp [floorOf])) ext ⟨fun _ _ => false, fun _ _ => false⟩ none none
  obtain ⟨e1, e2, h⟩ := C98_open_sky hR (by simp [Scene.IndicesValid, floorOf]) (he ▸ hext) (by simp [floorOf, Material.specularOnly])
    { maxDepth := 0, nAmbientSamples := n, limitWeight := lim, countSpecularBounce := 3 / 10, nBins := 2, dirToBin := fun d => if 0 < d.y then 0 else 1 } rfl hn (fun d _ => by simp only; split_ifs <;> norm_num) (fun j => by
      have h0 : MeasurableSet {p : ℝ × ℝ × ℝ | 0 < p.2.1} := measurableSet_lt (by fun_prop) (by fun_prop)
      unfold Measurable3
      simp only [mem_setOf_eq]
      exact (Measurable.ite h0 measurable_const measurable_const : Measurable fun p : ℝ × ℝ × ℝ => if 0 < p.2.1 then 0 else 1) (measurableSet_singleton j))
    [⟨⟨0, 0, 1 / 2⟩, ⟨0, 0, 1⟩⟩] (by
      intro r hr
      rw [List.mem_singleton.1 hr]
      exact Norm_eq_one (by norm_num [Dot])) 0 ⟨⟨0, 0, 1 / 2⟩, ⟨0, 0, 1⟩⟩ rfl (by
      rintro d _ hd tri ht t p u v ⟨rfl, h1, h2, _⟩ _
      rw [List.mem_singleton.1 ht] at h2
      have hz := congrArg Vec3.z h2
      simp [plane, Vec3.scale] at hz
      have hd' : 0 < d.z := by simpa [Dot] using hd
      have : 0 < d.z * t := mul_pos hd' (lt_trans (by norm_num) h1)
      linarith) primary hp secondary 0
  exact ⟨w, e1, e2, h⟩

end Rendering
