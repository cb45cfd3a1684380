import Verif.Spec.Views
import Verif.Props.Bvh
import Verif.Props.TracerExamples
import Verif.Props.Direct

/-!
# C116, C117: `cast_ray` and `unobstructed_distance` agree; seeing and being seen
-/

set_option linter.unusedSectionVars false
namespace Rendering

section
variable {K : Type} [Field K] [LinearOrder K] [IsStrictOrderedRing K] [FloorRing K]

/-- **C116.** The two queries agree, for rays clear of the tolerance band of the edges: where `cast_ray` finds nothing, every point is in view; where it finds something at a blocking distance, the point behind it is not; and a point that is
not in view has what `cast_ray` finds in front of it. -/
theorem C116_queries_agree (env : SceneEnv K) (hE : env.bvh.Lawful) (hB : env.bvh.BoxTestConservative) (s s' : Scene K) (hs : s.Aligned) (hfit : FitsAccelerator s.triangles) (hb : s.BuiltFrom env s') (ray : Ray3 K)
    (hclear : ∀ tri ∈ s.triangles, ClearOfEdges ray tri) (scratch scratch' : List Nat) :
    (s'.castRay env ray scratch = .ok none → ∀ D ≤ floatMax K, s'.unobstructedDistance env ray D scratch' = .ok true) ∧
    ∀ i x, s'.castRay env ray scratch = .ok (some (i, x)) → ∀ D,
      (Blocking (distSq x.p ray.origin) D → s'.unobstructedDistance env ray D scratch' = .ok false) ∧
      (s'.unobstructedDistance env ray D scratch' = .ok false → distSq x.p ray.origin < D) := by
  have hmr : ∀ {t2 D : K}, Blocking t2 D → 1 / 10 ^ 7 < t2 ∧ t2 < D := by
    rintro t2 D ⟨h1, h2, _⟩
    have e6 : (0 : K) < 1 / 10 ^ 6 := by positivity
    refine ⟨lt_trans ?_ h1, by linarith⟩
    rw [div_lt_div_iff₀ (by positivity) (by positivity)]
    norm_num
  refine ⟨fun hn D hD => ?_, fun i x hx D => ⟨fun hbl => ?_, fun hf => ?_⟩⟩
  · obtain ⟨r, k1, _, _⟩ := C03_unobstructed env hE hB s s' hs hfit hb ray D scratch'
    cases r with
    | true => exact k1
    | false =>
      obtain ⟨tri, ht, d2, hv, hbl⟩ := (C03_unobstructed_iff env hE hB s s' hs hfit hb ray D hclear scratch').1 k1
      obtain ⟨r, q1, q2, _⟩ := C02_cast_ray_misses_nothing env hE hB s s' hs hfit hb ray scratch
      rw [hn] at q1
      obtain ⟨b1, b2⟩ := hmr hbl
      exact absurd ⟨b1, lt_of_lt_of_le b2 hD⟩ (q2 (Res.ok.inj q1).symm tri ht d2 hv)
  · rw [C03_unobstructed_iff env hE hB s s' hs hfit hb ray D hclear scratch']
    obtain ⟨_, _, hp, bvh, hacc, hA⟩ := builtFrom_spec env hE hs hb
    have hlen : s'.triangles.length < 2 ^ 30 := by rw [hp.length_eq]; exact hfit.1
    obtain ⟨r, e, h1, _⟩ := intersect_spec env.bvh bvh s'.triangles (hA hfit) hlen ray scratch _ (boxHit_of_reached env.bvh hB ray)
    have hc : s'.castRay env ray scratch = .ok r := by unfold Scene.castRay; rw [hacc]; exact e
    rw [hc] at hx
    obtain ⟨tri, g1, g2, g3, _⟩ := h1 i x (Res.ok.inj hx)
    have hm := hp.mem_iff.1 (List.mem_of_getElem? g1)
    obtain ⟨hs1, hs2⟩ := baricentric_sound ray tri x g2
    obtain ⟨c1, c2, c3⟩ := hclear tri hm _ _ _ _ hs1
    exact ⟨tri, hm, _, ⟨x.t, x.p, ⟨hs1.1, x.u, x.v, c1, c2, c3, hs1.2.2.1⟩, hs1.2.1, hs2, rfl⟩, hbl⟩
  · obtain ⟨tri, ht, d2, hv, hbl⟩ := (C03_unobstructed_iff env hE hB s s' hs hfit hb ray D hclear scratch').1 hf
    obtain ⟨b1, b2⟩ := hmr hbl
    obtain ⟨_, _, _, _, _, k4⟩ := C01_cast_ray_nearest env hE hB s s' hs hfit hb ray scratch i x hx
    exact lt_of_le_of_lt (k4 tri ht d2 hv b1) b2

theorem triple_back (A e : Vec3 K) (L : K) (tri : Tri K) : tripleProduct (rayBack A e L) tri = -tripleProduct (rayFrom A e) tri := by
  simp only [tripleProduct, rayBack, rayFrom, Vec3.scale]
  ring

theorem dist_along (A e : Vec3 K) (he : e.x ^ 2 + e.y ^ 2 + e.z ^ 2 = 1) (t : K) : distSq (A + e.scale t) A = t ^ 2 := by
  simp only [distSq, Vec3.add_x, Vec3.add_y, Vec3.add_z, Vec3.scale_x, Vec3.scale_y, Vec3.scale_z]
  linear_combination t ^ 2 * he

theorem rayBack_at (A e : Vec3 K) (L t : K) : (rayBack A e L).origin + (rayBack A e L).direction.scale (L - t) = A + e.scale t := by
  ext <;> simp [rayBack] <;> ring

/-- A centimetre from both ends is enough to block. -/
theorem blocking_of_margin {t L : K} (h1 : 1 / 100 ≤ t) (h2 : 1 / 100 ≤ L - t) : Blocking (t ^ 2) (L ^ 2) := by
  have h3 : (3 : K) / 10 ^ 4 ≤ L ^ 2 - t ^ 2 := by
    have : (L - t) * (L + t) ≥ 1 / 100 * (3 / 100) := mul_le_mul h2 (by linarith) (by norm_num) (by linarith)
    nlinarith
  refine ⟨?_, ?_, ?_⟩
  · have : (1 / 100 : K) * (1 / 100) ≤ t * t := mul_le_mul h1 h1 (by norm_num) (by linarith)
    refine lt_of_lt_of_le ?_ (this.trans_eq (sq t).symm)
    norm_num
  · have : (1 : K) / 10 ^ 6 < 3 / 10 ^ 4 := by norm_num
    linarith
  · rw [abs_of_nonneg (by have : (0 : K) ≤ 3 / 10 ^ 4 := by norm_num
                          linarith)]
    exact lt_of_lt_of_le (by norm_num) h3

/-- What blocks the view is between the two points. -/
theorem blocking_between {t L : K} (ht : 0 ≤ t) (hL : 0 ≤ L) (h : Blocking (t ^ 2) (L ^ 2)) : t < L := by
  obtain ⟨_, h2, _⟩ := h
  have e6 : (0 : K) < 1 / 10 ^ 6 := by positivity
  by_contra hn
  push Not at hn
  nlinarith

/-- **C117 (partial).** If one can see from `A` to `B` one can see from `B` to `A`: provided that what is between them is not within a centimetre of either, and rays are clear of the tolerance band of the edges. (Missing: nearer obstacles; for those
it is false, `C117_violation_near_end`.) -/
theorem C117_mutual_view_partial (env : SceneEnv K) (hE : env.bvh.Lawful) (hB : env.bvh.BoxTestConservative) (s s' : Scene K) (hs : s.Aligned) (hfit : FitsAccelerator s.triangles) (hb : s.BuiltFrom env s')
    (A e : Vec3 K) (L : K) (he : e.x ^ 2 + e.y ^ 2 + e.z ^ 2 = 1) (hL : 0 ≤ L)
    (hclear : ∀ tri ∈ s.triangles, ClearOfEdges (rayFrom A e) tri) (hclear' : ∀ tri ∈ s.triangles, ClearOfEdges (rayBack A e L) tri)
    (hmargin : ∀ tri ∈ s.triangles, ∀ t p, Crosses (rayFrom A e) tri t p → 0 < t → t < L → 1 / 100 ≤ t ∧ 1 / 100 ≤ L - t) (scratch scratch' : List Nat) :
    s'.unobstructedDistance env (rayFrom A e) (L ^ 2) scratch = .ok true ↔ s'.unobstructedDistance env (rayBack A e L) (L ^ 2) scratch' = .ok true := by
  have h1 := C03_unobstructed_iff env hE hB s s' hs hfit hb (rayFrom A e) (L ^ 2) hclear scratch
  have h2 := C03_unobstructed_iff env hE hB s s' hs hfit hb (rayBack A e L) (L ^ 2) hclear' scratch'
  have e5 : (0 : K) < 1 / 10 ^ 5 := by positivity
  have he' : (e.scale (-1)).x ^ 2 + (e.scale (-1)).y ^ 2 + (e.scale (-1)).z ^ 2 = 1 := by simp only [Vec3.scale_x, Vec3.scale_y, Vec3.scale_z]; linear_combination he
  have key : (∃ tri ∈ s.triangles, ∃ d2, VisibleHit (rayFrom A e) tri d2 ∧ Blocking d2 (L ^ 2)) ↔ ∃ tri ∈ s.triangles, ∃ d2, VisibleHit (rayBack A e L) tri d2 ∧ Blocking d2 (L ^ 2) := by
    have e3 : (1 : K) / 10 ^ 5 < 1 / 100 := by norm_num
    constructor
    · rintro ⟨tri, ht, d2, ⟨t, p, hc, h0, hd, rfl⟩, hbl⟩
      have hp : p = A + e.scale t := hc.1
      rw [hp] at hbl
      have hbl : Blocking (t ^ 2) (L ^ 2) := by rw [← dist_along A e he t]; exact hbl
      have hlt := blocking_between (by linarith) hL hbl
      obtain ⟨m1, m2⟩ := hmargin tri ht t p hc (by linarith) hlt
      refine ⟨tri, ht, (L - t) ^ 2, ⟨L - t, p, ⟨?_, hc.2⟩, by linarith, by rw [triple_back, abs_neg]; exact hd, ?_⟩, blocking_of_margin m2 (by linarith)⟩
      · rw [hp, rayBack_at]
      · rw [hp, ← rayBack_at A e L t]
        exact dist_along (A + e.scale L) (e.scale (-1)) he' (L - t)
    · rintro ⟨tri, ht, d2, ⟨t, p, hc, h0, hd, rfl⟩, hbl⟩
      have hp : p = (rayBack A e L).origin + (rayBack A e L).direction.scale t := hc.1
      have hbl : Blocking (t ^ 2) (L ^ 2) := by
        rw [hp] at hbl
        rw [← dist_along (A + e.scale L) (e.scale (-1)) he' t]; exact hbl
      have hlt := blocking_between (by linarith) hL hbl
      have hp' : p = A + e.scale (L - t) := by rw [hp, ← rayBack_at A e L (L - t)]; congr 2; ring
      have hcr : Crosses (rayFrom A e) tri (L - t) p := ⟨hp', hc.2⟩
      obtain ⟨m1, m2⟩ := hmargin tri ht (L - t) p hcr (by linarith) (by linarith)
      refine ⟨tri, ht, (L - t) ^ 2, ⟨L - t, p, hcr, by linarith, by rw [triple_back, abs_neg] at hd; exact hd, ?_⟩, blocking_of_margin m1 m2⟩
      rw [hp']
      exact dist_along A e he (L - t)
  obtain ⟨r, k1, _⟩ := C03_unobstructed env hE hB s s' hs hfit hb (rayFrom A e) (L ^ 2) scratch
  obtain ⟨r', k2, _⟩ := C03_unobstructed env hE hB s s' hs hfit hb (rayBack A e L) (L ^ 2) scratch'
  have hiff := h1.trans (key.trans h2.symm)
  rw [k1, k2] at hiff
  rw [k1, k2]
  clear h1 h2 key k1 k2
  cases r <;> cases r' <;> simp at hiff ⊢

end

/-- A pane of the scene: a triangle across the z axis at height `h`. -/
noncomputable def pane (h : ℝ) : Scene ℝ := { triangles := [plane h], normals := [(⟨0, 0, 1⟩, ⟨0, 0, 1⟩, ⟨0, 0, 1⟩)], front := [0], back := [0], materials := [.plastic (Spectrum.gray (1 / 2)) 0 0] }

theorem pane_tolerant {h z dz t : ℝ} {p : Vec3 ℝ} {u v : ℝ} (hh : TolerantHit ⟨⟨0, 0, z⟩, ⟨0, 0, dz⟩⟩ (plane h) t p u v) : z + dz * t = h ∧ p = ⟨0, 0, h⟩ ∧ u = 1 / 3 ∧ v = 1 / 3 := by
  obtain ⟨rfl, h1, h2, _⟩ := hh
  have e1 := congrArg Vec3.x h2
  have e2 := congrArg Vec3.y h2
  have e3 := congrArg Vec3.z h2
  simp [plane, Vec3.scale] at e1 e2 e3
  have hu : u = 1 / 3 := by linarith
  have hv : v = 1 / 3 := by linarith
  subst hu hv
  have : z + dz * t = h := by rw [e3]; ring
  exact ⟨this, by ext <;> simp [Vec3.scale, this], rfl, rfl⟩

theorem pane_clear (h z dz : ℝ) : ∀ tri ∈ (pane h).triangles, ClearOfEdges ⟨⟨0, 0, z⟩, ⟨0, 0, dz⟩⟩ tri := by
  intro tri ht
  rw [List.mem_singleton.1 ht]
  intro t p u v hh
  obtain ⟨_, _, rfl, rfl⟩ := pane_tolerant hh
  norm_num

/-- **C117, violation.** A pane half a millimetre from one end of a segment one metre long: from that end one sees the other, from the other one does not see it. -/
theorem C117_violation_near_end (env : SceneEnv ℝ) (hE : env.bvh.Lawful) (hB : env.bvh.BoxTestConservative) (s' : Scene ℝ) (hb : (pane (1 / 2000)).BuiltFrom env s') (scratch scratch' : List Nat) :
    s'.unobstructedDistance env (rayFrom 0 ⟨0, 0, 1⟩) (1 ^ 2) scratch = .ok true ∧ s'.unobstructedDistance env (rayBack 0 ⟨0, 0, 1⟩ 1) (1 ^ 2) scratch' = .ok false := by
  have hal : (pane (1 / 2000)).Aligned := ⟨rfl, rfl, rfl⟩
  have hfit : FitsAccelerator (pane (1 / 2000)).triangles := fits_of_small _ (by simp [pane])
  have e1 : rayFrom (0 : Vec3 ℝ) ⟨0, 0, 1⟩ = ⟨⟨0, 0, 0⟩, ⟨0, 0, 1⟩⟩ := rfl
  have e2 : rayBack (0 : Vec3 ℝ) ⟨0, 0, 1⟩ 1 = ⟨⟨0, 0, 1⟩, ⟨0, 0, -1⟩⟩ := by
    unfold rayBack
    congr 1 <;> ext <;> simp
  rw [e1, e2]
  constructor
  · obtain ⟨r, k1, _, k3⟩ := C03_unobstructed env hE hB _ s' hal hfit hb ⟨⟨0, 0, 0⟩, ⟨0, 0, 1⟩⟩ (1 ^ 2) scratch
    cases r with
    | true => exact k1
    | false =>
      obtain ⟨tri, ht, t, p, u, v, hh, hbl, _⟩ := k3 rfl
      rw [List.mem_singleton.1 ht] at hh
      obtain ⟨_, rfl, _⟩ := pane_tolerant hh
      norm_num [distSq] at hbl
  · refine (C03_unobstructed_iff env hE hB _ s' hal hfit hb ⟨⟨0, 0, 1⟩, ⟨0, 0, -1⟩⟩ (1 ^ 2) (pane_clear _ _ _) scratch').2 ⟨plane (1 / 2000), by simp [pane], _, plane_visible (1 / 2000) 1 (1 - 1 / 2000) (-1) (by norm_num) (by norm_num) (by norm_num), ?_⟩
    unfold Blocking
    norm_num

/-- C116, C117: a pane half a metre up. -/
example : ∃ s' : Scene ℝ, (pane (1 / 2)).BuiltFrom realEnv s' ∧
    (s'.unobstructedDistance realEnv (rayFrom 0 ⟨0, 0, 1⟩) (1 ^ 2) [] = .ok true ↔ s'.unobstructedDistance realEnv (rayBack 0 ⟨0, 0, 1⟩ 1) (1 ^ 2) [] = .ok true) ∧
    (∃ i x, s'.castRay realEnv (rayFrom 0 ⟨0, 0, 1⟩) [] = .ok (some (i, x)) ∧ ∀ D, s'.unobstructedDistance realEnv (rayFrom 0 ⟨0, 0, 1⟩) D [] = .ok false → distSq x.p 0 < D) ∧
    s'.castRay realEnv ⟨⟨0, 0, 1⟩, ⟨0, 0, 1⟩⟩ [] = .ok none ∧ s'.unobstructedDistance realEnv ⟨⟨0, 0, 1⟩, ⟨0, 0, 1⟩⟩ 1 [] = .ok true := by
  have hal : (pane (1 / 2)).Aligned := ⟨rfl, rfl, rfl⟩
  have hfit : FitsAccelerator (pane (1 / 2)).triangles := fits_of_small _ (by simp [pane])
  obtain ⟨s', bvh, e, _⟩ := rebuild_spec realEnv refEnv_lawful (pane (1 / 2)) hal
  have hb : (pane (1 / 2)).BuiltFrom realEnv s' := Or.inr e
  have e1 : rayFrom (0 : Vec3 ℝ) ⟨0, 0, 1⟩ = ⟨⟨0, 0, 0⟩, ⟨0, 0, 1⟩⟩ := rfl
  have e2 : rayBack (0 : Vec3 ℝ) ⟨0, 0, 1⟩ 1 = ⟨⟨0, 0, 1⟩, ⟨0, 0, -1⟩⟩ := by
    unfold rayBack
    congr 1 <;> ext <;> simp
  have hc0 := pane_clear (1 / 2) 0 1
  have hc1 := pane_clear (1 / 2) 1 (-1)
  have hc2 := pane_clear (1 / 2) 1 1
  refine ⟨s', hb, C117_mutual_view_partial realEnv refEnv_lawful refEnv_conservative _ s' hal hfit hb 0 ⟨0, 0, 1⟩ 1 (by norm_num) (by norm_num) hc0 (by rw [e2]; exact hc1) ?_ [] [], ?_, ?_, ?_⟩
  · intro tri ht t p hc _ _
    rw [List.mem_singleton.1 ht] at hc
    obtain ⟨rfl, u, v, _, _, _, h2⟩ := hc
    have := congrArg Vec3.z h2
    simp [plane, rayFrom, Vec3.scale] at this
    constructor <;> linarith
  · obtain ⟨⟨i, x⟩, hx⟩ := (C02_cast_ray_iff realEnv refEnv_lawful refEnv_conservative _ s' hal hfit hb (rayFrom 0 ⟨0, 0, 1⟩) hc0 []).2 ⟨plane (1 / 2), by simp [pane], _, plane_visible (1 / 2) 0 (1 / 2) 1 (by norm_num) (by norm_num) (by norm_num), downRay_inRange⟩
    exact ⟨i, x, hx, fun D h => (((C116_queries_agree realEnv refEnv_lawful refEnv_conservative _ s' hal hfit hb (rayFrom 0 ⟨0, 0, 1⟩) hc0 [] []).2 i x hx D).2 h)⟩
  · obtain ⟨r, q1, _, q3⟩ := C02_cast_ray_misses_nothing realEnv refEnv_lawful refEnv_conservative _ s' hal hfit hb ⟨⟨0, 0, 1⟩, ⟨0, 0, 1⟩⟩ []
    have hr := q3 (by
      intro tri ht t p u v hh _
      rw [List.mem_singleton.1 ht] at hh
      obtain ⟨h1, _⟩ := pane_tolerant hh
      have : (1 : ℝ) / 10 ^ 5 < t := hh.2.1
      norm_num at this h1
      linarith)
    rw [q1, hr]
  · obtain ⟨r, q1, _, q3⟩ := C02_cast_ray_misses_nothing realEnv refEnv_lawful refEnv_conservative _ s' hal hfit hb ⟨⟨0, 0, 1⟩, ⟨0, 0, 1⟩⟩ []
    have hr := q3 (by
      intro tri ht t p u v hh _
      rw [List.mem_singleton.1 ht] at hh
      obtain ⟨h1, _⟩ := pane_tolerant hh
      have : (1 : ℝ) / 10 ^ 5 < t := hh.2.1
      norm_num at this h1
      linarith)
    rw [hr] at q1
    exact (C116_queries_agree realEnv refEnv_lawful refEnv_conservative _ s' hal hfit hb ⟨⟨0, 0, 1⟩, ⟨0, 0, 1⟩⟩ hc2 [] []).1 q1 1 (floatMax_gt_one).le
end Rendering
