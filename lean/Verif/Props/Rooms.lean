import Verif.Spec.Rooms
import Verif.Props.SkyView
import Verif.Props.Tracer
import Verif.Props.Cases

/-!
# C118: closed rooms
-/

set_option linter.unusedSectionVars false
namespace Rendering

/-- The first of six half-spaces that a ray leaves. -/
theorem first_exit (c m : Fin 6 → ℝ) (hc : ∀ i, 0 < c i) (hm : ∃ i, 0 < m i) : ∃ i t, 0 < m i ∧ 0 < t ∧ m i * t = c i ∧ ∀ j, m j * t ≤ c j := by
  obtain ⟨i, hi, hmin⟩ := Finset.exists_min_image (Finset.univ.filter fun i => 0 < m i) (fun i => c i / m i) (by obtain ⟨i, hi⟩ := hm; exact ⟨i, by simp [hi]⟩)
  simp only [Finset.mem_filter, Finset.mem_univ, true_and] at hi hmin
  refine ⟨i, c i / m i, hi, div_pos (hc i) hi, by field_simp, fun j => ?_⟩
  by_cases hj : 0 < m j
  · have := hmin j hj
    calc m j * (c i / m i) ≤ m j * (c j / m j) := by gcongr
      _ = c j := by field_simp
  · push Not at hj
    have := div_pos (hc i) hi
    have h2 := hc j
    nlinarith

/-- A point of a parallelogram is in one of its triangles. -/
theorem rect_covers (o e f : Vec3 ℝ) (α β : ℝ) (ha0 : 0 ≤ α) (ha1 : α ≤ 1) (hb0 : 0 ≤ β) (hb1 : β ≤ 1) :
    ∃ tri ∈ rect o e f, ∃ u v : ℝ, 0 ≤ u ∧ 0 ≤ v ∧ u + v ≤ 1 ∧ o + e.scale α + f.scale β = tri.a.scale (1 - u - v) + tri.b.scale u + tri.c.scale v := by
  rcases le_total β α with h | h
  · exact ⟨⟨o, o + e, o + e + f⟩, by simp [rect], α - β, β, by linarith, hb0, by linarith, by ext <;> simp <;> ring⟩
  · exact ⟨⟨o, o + e + f, o + f⟩, by simp [rect], α, β - α, ha0, by linarith, by linarith, by ext <;> simp <;> ring⟩

/-- A ray that reaches a point of a parallelogram, far enough from its plane, visibly hits one of its triangles. -/
theorem rect_visible (o e f p d : Vec3 ℝ) (hd : Norm d = 1) (t α β : ℝ) (ha0 : 0 ≤ α) (ha1 : α ≤ 1) (hb0 : 0 ≤ β) (hb1 : β ≤ 1) (hq : p + d.scale t = o + e.scale α + f.scale β) (ht : 1 / 10 ^ 5 < t)
    (hdet : 1 / 10 ^ 5 ≤ |Dot (Cross e f) d|) : ∃ tri ∈ rect o e f, VisibleHit ⟨p, d⟩ tri (t ^ 2) := by
  obtain ⟨tri, hm, u, v, h1, h2, h3, h4⟩ := rect_covers o e f α β ha0 ha1 hb0 hb1
  refine ⟨tri, hm, t, p + d.scale t, ⟨rfl, u, v, h1, h2, h3, hq.trans h4⟩, ht, ?_, ?_⟩
  · have : |tripleProduct ⟨p, d⟩ tri| = |Dot (Cross e f) d| := by
      simp only [rect, List.mem_cons, List.not_mem_nil, or_false] at hm
      rcases hm with rfl | rfl
      · rw [← abs_neg]; congr 1
        simp only [tripleProduct, Dot, Cross, Vec3.sub_x, Vec3.sub_y, Vec3.sub_z, Vec3.add_x, Vec3.add_y, Vec3.add_z]; ring
      · rw [← abs_neg]; congr 1
        simp only [tripleProduct, Dot, Cross, Vec3.sub_x, Vec3.sub_y, Vec3.sub_z, Vec3.add_x, Vec3.add_y, Vec3.add_z]; ring
    rw [this]; exact hdet
  · have := Dot_self_of_norm hd
    simp only [Dot] at this
    simp only [distSq, Vec3.add_x, Vec3.add_y, Vec3.add_z, Vec3.scale_x, Vec3.scale_y, Vec3.scale_z]
    linear_combination t ^ 2 * this

theorem unit_bounds {x y z : ℝ} (h : x * x + y * y + z * z = 1) : (-x ≤ 1 ∧ x ≤ 1) ∧ (-y ≤ 1 ∧ y ≤ 1) ∧ -z ≤ 1 ∧ z ≤ 1 := by
  have hx := mul_self_nonneg x; have hy := mul_self_nonneg y; have hz := mul_self_nonneg z
  have k : ∀ a : ℝ, a * a ≤ 1 → -a ≤ 1 ∧ a ≤ 1 := by
    intro a ha
    have := abs_le.1 (abs_le_one_iff_mul_self_le_one.2 ha)
    exact ⟨by linarith [this.1], this.2⟩
  exact ⟨k x (by linarith), k y (by linarith), k z (by linarith)⟩

theorem floatMax_big : (87 : ℝ) ^ 2 < floatMax ℝ := by
  unfold floatMax
  have h : (1 : ℝ) ≤ 2 ^ 971 := one_le_pow₀ (by norm_num)
  generalize (2 : ℝ) ^ 971 = x at h ⊢
  norm_num
  linarith

set_option maxHeartbeats 1000000 in
/-- From a point of a room at least a centimetre from its walls, floor and ceiling, every ray visibly hits one of them. -/
theorem walls_visible (o : Vec3 ℝ) (X Y Z : ℝ) (hX : 1 / 2 ≤ X ∧ X ≤ 50) (hY : 1 / 2 ≤ Y ∧ Y ≤ 50) (hZ : 1 / 2 ≤ Z ∧ Z ≤ 50) (p d : Vec3 ℝ) (hp : InRoom o X Y Z (1 / 100) p) (hd : Norm d = 1) :
    ∃ tri ∈ walls o X Y Z, ∃ d2, VisibleHit ⟨p, d⟩ tri d2 ∧ InRange d2 := by
  obtain ⟨⟨x0, x1⟩, ⟨y0, y1⟩, z0, z1⟩ := hp
  have hdd := Dot_self_of_norm hd
  simp only [Dot] at hdd
  let c : Fin 6 → ℝ := ![p.x - o.x, o.x + X - p.x, p.y - o.y, o.y + Y - p.y, p.z - o.z, o.z + Z - p.z]
  let m : Fin 6 → ℝ := ![-d.x, d.x, -d.y, d.y, -d.z, d.z]
  have hc : ∀ i, 1 / 100 ≤ c i := by
    intro i
    fin_cases i <;> simp [c] <;> linarith
  have hm : ∃ i, 0 < m i := by
    by_contra hn
    push Not at hn
    have h0 := hn 0; have h1 := hn 1; have h2 := hn 2; have h3 := hn 3; have h4 := hn 4; have h5 := hn 5
    simp [m] at h0 h1 h2 h3 h4 h5
    have e1 : d.x = 0 := le_antisymm h1 h0
    have e2 : d.y = 0 := le_antisymm h3 h2
    have e3 : d.z = 0 := le_antisymm h5 h4
    rw [e1, e2, e3] at hdd
    norm_num at hdd
  obtain ⟨i, t, hmi, ht, hit, hall⟩ := first_exit c m (fun i => lt_of_lt_of_le (by norm_num) (hc i)) hm
  have a0 : -d.x * t ≤ p.x - o.x := hall 0
  have a1 : d.x * t ≤ o.x + X - p.x := hall 1
  have a2 : -d.y * t ≤ p.y - o.y := hall 2
  have a3 : d.y * t ≤ o.y + Y - p.y := hall 3
  have a4 : -d.z * t ≤ p.z - o.z := hall 4
  have a5 : d.z * t ≤ o.z + Z - p.z := hall 5
  have hm1 : m i ≤ 1 := by
    obtain ⟨⟨b0, b1⟩, ⟨b2, b3⟩, b4, b5⟩ := unit_bounds hdd
    fin_cases i
    exacts [b0, b1, b2, b3, b4, b5]
  have hci := hc i
  have ht1 : 1 / 100 ≤ t := by nlinarith
  have ht2 : t ≤ 87 := by
    have hx : (d.x * t) ^ 2 ≤ 50 ^ 2 := by apply sq_le_sq'; linarith; linarith
    have hy : (d.y * t) ^ 2 ≤ 50 ^ 2 := by apply sq_le_sq'; linarith; linarith
    have hz : (d.z * t) ^ 2 ≤ 50 ^ 2 := by apply sq_le_sq'; linarith; linarith
    have e : t ^ 2 = (d.x * t) ^ 2 + (d.y * t) ^ 2 + (d.z * t) ^ 2 := by linear_combination -t ^ 2 * hdd
    by_contra hn
    push Not at hn
    nlinarith
  have hm2 : 1 / 100 ≤ 87 * m i := by
    have : m i * t ≤ m i * 87 := by gcongr
    linarith
  have hr : InRange (t ^ 2) := by
    refine ⟨?_, ?_⟩
    · have : (1 / 100 : ℝ) ^ 2 ≤ t ^ 2 := by gcongr
      refine lt_of_lt_of_le ?_ this
      norm_num
    · have : t ^ 2 ≤ 87 ^ 2 := by gcongr
      refine lt_of_le_of_lt this ?_
      exact floatMax_big
  have ht5 : 1 / 10 ^ 5 < t := lt_of_lt_of_le (by norm_num) ht1
  have harea : ∀ A B : ℝ, 1 / 2 ≤ A → 1 / 2 ≤ B → 1 / 10 ^ 5 ≤ A * B * m i := by
    intro A B hA hB
    have h1 : 1 / 2 * (1 / 2) ≤ A * B := by gcongr
    have h2 : 1 / 2 * (1 / 2) * m i ≤ A * B * m i := by gcongr
    norm_num at hm2 h2 ⊢
    linarith
  have hfrac : ∀ A x : ℝ, 1 / 2 ≤ A → 0 ≤ x → x ≤ A → 0 ≤ x / A ∧ x / A ≤ 1 := by
    intro A x hA h0 h1
    exact ⟨div_nonneg h0 (by linarith), (div_le_one (by linarith)).2 h1⟩
  have hX0 : X ≠ 0 := by intro h; rw [h] at hX; norm_num at hX
  have hY0 : Y ≠ 0 := by intro h; rw [h] at hY; norm_num at hY
  have hZ0 : Z ≠ 0 := by intro h; rw [h] at hZ; norm_num at hZ
  obtain ⟨fx0, fx1⟩ := hfrac X (p.x + d.x * t - o.x) hX.1 (by linarith) (by linarith)
  obtain ⟨fy0, fy1⟩ := hfrac Y (p.y + d.y * t - o.y) hY.1 (by linarith) (by linarith)
  obtain ⟨fz0, fz1⟩ := hfrac Z (p.z + d.z * t - o.z) hZ.1 (by linarith) (by linarith)
  have hpos : ∀ A B : ℝ, 1 / 2 ≤ A → 1 / 2 ≤ B → 0 < A * B := fun A B hA hB => mul_pos (by linarith) (by linarith)
  clear hc hm hall
  fin_cases i
  · have hit : -d.x * t = p.x - o.x := hit
    obtain ⟨tri, h1, h2⟩ := rect_visible o ⟨0, Y, 0⟩ ⟨0, 0, Z⟩ p d hd t _ _ fy0 fy1 fz0 fz1 (by ext <;> simp <;> field_simp <;> linarith) ht5 (by
      have h := harea Y Z hY.1 hZ.1
      have e : Dot (Cross (⟨0, Y, 0⟩ : Vec3 ℝ) ⟨0, 0, Z⟩) d = -(Y * Z * -d.x) := by simp only [Dot, Cross]; ring
      rw [e, abs_neg]
      exact h.trans (le_abs_self _))
    exact ⟨tri, by simp only [walls, List.mem_append]; tauto, _, h2, hr⟩
  · have hit : d.x * t = o.x + X - p.x := hit
    obtain ⟨tri, h1, h2⟩ := rect_visible (o + ⟨X, 0, 0⟩) ⟨0, Y, 0⟩ ⟨0, 0, Z⟩ p d hd t _ _ fy0 fy1 fz0 fz1 (by ext <;> simp <;> field_simp <;> linarith) ht5 (by
      have h := harea Y Z hY.1 hZ.1
      have e : Dot (Cross (⟨0, Y, 0⟩ : Vec3 ℝ) ⟨0, 0, Z⟩) d = Y * Z * d.x := by simp only [Dot, Cross]; ring
      rw [e]
      exact h.trans (le_abs_self _))
    exact ⟨tri, by simp only [walls, List.mem_append]; tauto, _, h2, hr⟩
  · have hit : -d.y * t = p.y - o.y := hit
    obtain ⟨tri, h1, h2⟩ := rect_visible o ⟨X, 0, 0⟩ ⟨0, 0, Z⟩ p d hd t _ _ fx0 fx1 fz0 fz1 (by ext <;> simp <;> field_simp <;> linarith) ht5 (by
      have h := harea X Z hX.1 hZ.1
      have e : Dot (Cross (⟨X, 0, 0⟩ : Vec3 ℝ) ⟨0, 0, Z⟩) d = X * Z * -d.y := by simp only [Dot, Cross]; ring
      rw [e]
      exact h.trans (le_abs_self _))
    exact ⟨tri, by simp only [walls, List.mem_append]; tauto, _, h2, hr⟩
  · have hit : d.y * t = o.y + Y - p.y := hit
    obtain ⟨tri, h1, h2⟩ := rect_visible (o + ⟨0, Y, 0⟩) ⟨X, 0, 0⟩ ⟨0, 0, Z⟩ p d hd t _ _ fx0 fx1 fz0 fz1 (by ext <;> simp <;> field_simp <;> linarith) ht5 (by
      have h := harea X Z hX.1 hZ.1
      have e : Dot (Cross (⟨X, 0, 0⟩ : Vec3 ℝ) ⟨0, 0, Z⟩) d = -(X * Z * d.y) := by simp only [Dot, Cross]; ring
      rw [e, abs_neg]
      exact h.trans (le_abs_self _))
    exact ⟨tri, by simp only [walls, List.mem_append]; tauto, _, h2, hr⟩
  · have hit : -d.z * t = p.z - o.z := hit
    obtain ⟨tri, h1, h2⟩ := rect_visible o ⟨X, 0, 0⟩ ⟨0, Y, 0⟩ p d hd t _ _ fx0 fx1 fy0 fy1 (by ext <;> simp <;> field_simp <;> linarith) ht5 (by
      have h := harea X Y hX.1 hY.1
      have e : Dot (Cross (⟨X, 0, 0⟩ : Vec3 ℝ) ⟨0, Y, 0⟩) d = -(X * Y * -d.z) := by simp only [Dot, Cross]; ring
      rw [e, abs_neg]
      exact h.trans (le_abs_self _))
    exact ⟨tri, by simp only [walls, List.mem_append]; tauto, _, h2, hr⟩
  · have hit : d.z * t = o.z + Z - p.z := hit
    obtain ⟨tri, h1, h2⟩ := rect_visible (o + ⟨0, 0, Z⟩) ⟨X, 0, 0⟩ ⟨0, Y, 0⟩ p d hd t _ _ fx0 fx1 fy0 fy1 (by ext <;> simp <;> field_simp <;> linarith) ht5 (by
      have h := harea X Y hX.1 hY.1
      have e : Dot (Cross (⟨X, 0, 0⟩ : Vec3 ℝ) ⟨0, Y, 0⟩) d = X * Y * d.z := by simp only [Dot, Cross]; ring
      rw [e]
      exact h.trans (le_abs_self _))
    exact ⟨tri, by simp only [walls, List.mem_append]; tauto, _, h2, hr⟩


variable {w : World} {s : Scene ℝ}

theorem Room.never_sees {o : Vec3 ℝ} {X Y Z : ℝ} (hr : Room s o X Y Z) {p d : Vec3 ℝ} (hp : InRoom o X Y Z (1 / 100) p) (hd : Norm d = 1) : ¬ MaySeeSky s p d := by
  intro h
  obtain ⟨tri, ht, d2, hv, hi⟩ := walls_visible o X Y Z hr.length hr.width hr.height p d hp hd
  exact h tri (hr.walls tri ht) d2 hv hi

/-- **C118, rays (partial).** In a closed room every ray from a point at least a centimetre away from the walls is stopped, whatever else the scene contains. (Missing: points nearer the walls; for those it is false,
`C118_violation_near_wall`.) -/
theorem C118_rays_stop_partial (hR : w.Renders s) {o : Vec3 ℝ} {X Y Z : ℝ} (hr : Room s o X Y Z) (ray : TRay) (hp : InRoom o X Y Z (1 / 100) ray.geometry.origin) (hd : Norm ray.geometry.direction = 1) :
    ∃ hit, w.cast ray = .ok (some hit) := by
  rcases hR.cast_cases ray with ⟨_, hno⟩ | ⟨i, tri, b, j, hc, _⟩
  · exact absurd hno (hr.never_sees hp hd)
  · exact ⟨_, hc⟩

/-- **C118, no daylight (partial).** Without bounces (`max_depth = 0`) and without mirrors, glass or dielectrics, the daylight coefficients of a sensor in a closed room, at least a centimetre from its walls, are zero: for every sky patch, with
any random numbers. (Missing: sensors nearer the walls, and bounces, which start on the walls.) -/
theorem C118_no_daylight_partial (hR : w.Renders s) (hI : s.IndicesValid) (hext : w.ext.PerpSpec) (hmat : ∀ m ∈ s.materials, m.specularOnly = false) (dc : DcFactory) (hD : dc.maxDepth = 0)
    (hbin : ∀ d, Norm d = 1 → dc.dirToBin d < dc.nBins) (rays : List (Ray3 ℝ)) (primary : Nat → Rng) (hp : ∀ i, (primary i).Valid) (secondary : Nat → Nat → Rng) (fuel : Nat) (M : Mat (Spectrum ℝ))
    (hM : calcDc w dc (fuel + 1) rays primary secondary = .ok M) {o : Vec3 ℝ} {X Y Z : ℝ} (hr : Room s o X Y Z) (i : Nat) (sensor : Ray3 ℝ) (hs : rays[i]? = some sensor) (hdir : Norm sensor.direction = 1)
    (hin : InRoom o X Y Z (1 / 100) sensor.origin) : ∀ j < dc.nBins, M.get? i j = some Spectrum.black := by
  intro j hj
  obtain ⟨_, _, _, hrows⟩ := C58_rows w dc (fuel + 1) rays _ secondary M hM
  obtain ⟨cs, hlen, hcs, hsum⟩ := hrows i sensor hs
  rw [hsum j hj]
  obtain ⟨e2, he, g1, g2⟩ := hext sensor.direction hdir
  have hf := frame_of_perp hdir g1 g2
  have hblack : ∀ c ∈ column cs j, c = Spectrum.black := by
    intro c hc
    unfold column at hc
    obtain ⟨m, hm, rfl⟩ := List.mem_map.1 hc
    obtain ⟨k, hk⟩ := List.getElem?_of_mem hm
    have hk' : k < dc.nAmbientSamples := by rw [← hlen]; exact (List.getElem?_eq_some_iff.1 hk).1
    obtain ⟨c', hc', ht⟩ := hcs k hk'
    rw [hk] at hc'
    obtain rfl := Option.some.inj hc'
    obtain ⟨hn, v, hv, hval⟩ := dcTask_direct hR hI hmat dc hD hbin sensor e2 he hf (fun k : Fin dc.nAmbientSamples => (primary i (2 * k), primary i (2 * k + 1))) (fun k => ⟨hp i _, hp i _⟩)
      (fun k => primary i (k + 2 * dc.nAmbientSamples)) (fun k => hp i _) fuel ⟨k, hk'⟩ (secondary i k)
    rw [ofPairs_self, ht] at hval
    obtain rfl := Res.ok.inj hval
    rcases hv with ⟨rfl, _⟩ | ⟨_, h⟩
    · have hrow : Mat.IsRow { dc.blank with data := dc.blank.data.set (dc.dirToBin (worldOf (e2.cross sensor.direction) e2 sensor.direction (drawn (primary i (2 * k), primary i (2 * k + 1))))) (Spectrum.gray 0) } dc.nBins := by
        simp [DcFactory.blank, Mat.new, Mat.IsRow]
      show (Mat.get? _ 0 j).getD _ = _
      rw [hrow.get? j]
      simp only [List.getElem?_set, DcFactory.blank, Mat.new]
      split_ifs <;> simp [Spectrum.gray, Spectrum.black, hj]
    · exact absurd h (hr.never_sees hin hn)
  have hz : ∀ l : List (Spectrum ℝ), (∀ c ∈ l, c = Spectrum.black) → spectrumSum l = Spectrum.black := by
    intro l
    induction l with
    | nil => intro _; rfl
    | cons a l ih =>
      intro h
      rw [spectrumSum, ih fun c hc => h c (List.mem_cons_of_mem _ hc), h a (List.mem_cons_self ..)]
      exact spectrum_add_black _
  rw [hz _ hblack]

/-- **C118, darkness under any sky.** What a ray from a point of a closed room brings back, however many bounces, does not depend on the sky: no mirrors, glass or dielectrics, at least a centimetre from the walls. -/
theorem C118_sky_unseen (hR : w.Renders s) (hmat : ∀ m ∈ s.materials, m.specularOnly = false) {o : Vec3 ℝ} {X Y Z : ℝ} (hr : Room s o X Y Z) (rt : RayTracer) (fuel : Nat) (sky sky' : Vec3 ℝ → ℝ) (c c' : Option (Spectrum ℝ)) (rng : Rng)
    (rays : List TRay) (ray : TRay) (hrs : rt.maxDepth < rays.length) (hp : InRoom o X Y Z (1 / 100) ray.geometry.origin) (hd : Norm ray.geometry.direction = 1) :
    outcome (traceRay (w.withSky sky c) rt fuel ⟨rng, rays⟩ ray) = outcome (traceRay (w.withSky sky' c') rt fuel ⟨rng, rays⟩ ray) := by
  obtain ⟨hit, hh⟩ := C118_rays_stop_partial hR hr ray hp hd
  exact C77_violation_sky_lights_nothing w (by rw [hR.same.1]; exact hmat) rt fuel sky sky' c c' rng rays ray hrs hit hh

/-- A room three metres by four, two and a half high, all of one material. -/
noncomputable def cell (m : Material ℝ) : Scene ℝ where
  triangles := walls 0 3 4 (5 / 2)
  normals := (walls 0 3 4 (5 / 2)).map fun t => (unitNormal t, unitNormal t, unitNormal t)
  front := (walls 0 3 4 (5 / 2)).map fun _ => 0
  back := (walls 0 3 4 (5 / 2)).map fun _ => 0
  materials := [m]

theorem cell_room (m : Material ℝ) : Room (cell m) 0 3 4 (5 / 2) := ⟨by norm_num, by norm_num, by norm_num, fun _ h => h⟩

theorem cell_aligned (m : Material ℝ) : (cell m).Aligned := by
  simp [Scene.Aligned, cell]

theorem cell_fits (m : Material ℝ) : FitsAccelerator (cell m).triangles := fits_of_small _ (by simp [cell, walls, rect])

theorem cell_indices (m : Material ℝ) : (cell m).IndicesValid := by
  simp [Scene.IndicesValid, cell]

/-- **C118, violation.** Five micrometres from the wall of a closed room the ray towards the wall gets out: it is not stopped by anything. -/
theorem C118_violation_near_wall (m : Material ℝ) (hR : w.Renders (cell m)) (ray : TRay) (hg : ray.geometry = ⟨⟨1 / 200000, 2, 1⟩, ⟨-1, 0, 0⟩⟩) : InRoom 0 3 4 (5 / 2) (1 / 200000) ray.geometry.origin ∧ w.cast ray = .ok none := by
  rw [hg]
  refine ⟨by norm_num [InRoom], hR.cast_none ray ?_⟩
  rw [hg]
  rintro tri ht t p u v ⟨rfl, h1, h2, h3, h4, h5, h6⟩ _
  have ex := congrArg Vec3.x h2
  have ey := congrArg Vec3.y h2
  have ez := congrArg Vec3.z h2
  simp only [cell, walls, rect, List.cons_append, List.nil_append, List.mem_cons, List.not_mem_nil, or_false] at ht
  rcases ht with rfl | rfl | rfl | rfl | rfl | rfl | rfl | rfl | rfl | rfl | rfl | rfl <;>
  ((try simp at ex ey ez) <;> (try norm_num at h1 h3 h4 h5 h6) <;> (try linarith))

/-- Without bounces the calculation succeeds. -/
theorem calcDc_direct_ok (hR : w.Renders s) (hI : s.IndicesValid) (hext : w.ext.PerpSpec) (hmat : ∀ m ∈ s.materials, m.specularOnly = false) (dc : DcFactory) (hD : dc.maxDepth = 0)
    (hbin : ∀ d, Norm d = 1 → dc.dirToBin d < dc.nBins) (rays : List (Ray3 ℝ)) (hrays : ∀ r ∈ rays, Norm r.direction = 1) (primary : Nat → Rng) (hp : ∀ i, (primary i).Valid) (secondary : Nat → Nat → Rng) (fuel : Nat) :
    ∃ M, calcDc w dc (fuel + 1) rays primary secondary = .ok M := by
  refine calcDc_ok w dc (fuel + 1) rays primary secondary ?_
  intro i' sensor' hs'
  have hn := hrays _ (List.mem_of_getElem? hs')
  obtain ⟨e2', he', g1, g2⟩ := hext sensor'.direction hn
  refine ⟨⟨e2', he'⟩, fun k hk => ?_⟩
  obtain ⟨_, v, _, hv⟩ := dcTask_direct hR hI hmat dc hD hbin sensor' e2' he' (frame_of_perp hn g1 g2) (fun k : Fin dc.nAmbientSamples => (primary i' (2 * k), primary i' (2 * k + 1))) (fun k => ⟨hp i' _, hp i' _⟩)
      (fun k => primary i' (k + 2 * dc.nAmbientSamples)) (fun k => hp i' _) fuel ⟨k, hk⟩ (secondary i' k)
  rw [ofPairs_self] at hv
  exact ⟨_, hv⟩

/-- A plastic room: in its middle every ray is stopped, and a sensor there gets no daylight; five micrometres from its wall a ray gets out. -/
example (primary : Nat → Rng) (hp : ∀ i, (primary i).Valid) (secondary : Nat → Nat → Rng) : ∃ w : World, w.Renders (cell (.plastic (Spectrum.gray (1 / 2)) 0 0)) ∧
    (∀ d, Norm d = 1 → ∃ hit, w.cast { TRay.default with geometry := ⟨⟨1, 2, 1⟩, d⟩ } = .ok (some hit)) ∧
    (∃ M, calcDc w ⟨145, fun _ => 7, 0, 100, 0, 3 / 10⟩ 1 [⟨⟨1, 2, 1⟩, ⟨0, 0, 1⟩⟩] primary secondary = .ok M ∧ ∀ j < 145, M.get? 0 j = some Spectrum.black) ∧
    (∀ sky sky' rng, outcome (traceRay (w.withSky sky none) ⟨2, 10, 10, 0, 3 / 10⟩ 9 ⟨rng, List.replicate 5 TRay.default⟩ { TRay.default with geometry := ⟨⟨1, 2, 1⟩, ⟨0, 0, 1⟩⟩ }) =
      outcome (traceRay (w.withSky sky' none) ⟨2, 10, 10, 0, 3 / 10⟩ 9 ⟨rng, List.replicate 5 TRay.default⟩ { TRay.default with geometry := ⟨⟨1, 2, 1⟩, ⟨0, 0, 1⟩⟩ })) ∧
    w.cast { TRay.default with geometry := ⟨⟨1 / 200000, 2, 1⟩, ⟨-1, 0, 0⟩⟩ } = .ok none := by
  obtain ⟨ext, hext⟩ := perpSpec_exists
  obtain ⟨w, hR, he, _⟩ := renders_exists (cell (.plastic (Spectrum.gray (1 / 2)) 0 0)) (cell_aligned _) (cell_fits _) ext ⟨fun _ _ => false, fun _ _ => false⟩ none none
  have hin : InRoom 0 3 4 (5 / 2) (1 / 100) ⟨1, 2, 1⟩ := by norm_num [InRoom]
  have hup : Norm (⟨0, 0, 1⟩ : Vec3 ℝ) = 1 := Norm_eq_one (by norm_num [Dot])
  have hmat : ∀ m ∈ (cell (.plastic (Spectrum.gray (1 / 2)) 0 0)).materials, m.specularOnly = false := by simp [cell, Material.specularOnly]
  refine ⟨w, hR, fun d hd => C118_rays_stop_partial hR (cell_room _) _ hin hd, ?_, fun sky sky' rng => C118_sky_unseen hR hmat (cell_room _) _ _ _ _ _ _ _ _ _ (by simp) hin hup, (C118_violation_near_wall _ hR _ rfl).2⟩
  obtain ⟨M, hM⟩ := calcDc_direct_ok hR (cell_indices _) (he ▸ hext) hmat ⟨145, fun _ => 7, 0, 100, 0, 3 / 10⟩ rfl (by simp) [⟨⟨1, 2, 1⟩, ⟨0, 0, 1⟩⟩] (by simpa using hup) primary hp secondary 0
  exact ⟨M, hM, C118_no_daylight_partial hR (cell_indices _) (he ▸ hext) hmat ⟨145, fun _ => 7, 0, 100, 0, 3 / 10⟩ rfl (by simp) _ primary hp secondary 0 M hM (cell_room _) 0 _ rfl hup hin⟩

end Rendering
