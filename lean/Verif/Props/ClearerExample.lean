import Verif.Props.Clearer
import Verif.Props.ExactGlazedExample
import Verif.Props.RepaintExample

/-!
# A concrete case of C141
-/

set_option linter.unusedSectionVars false
namespace Rendering

open MeasureTheory Set

/-- The court with a wall of glass that lets `x` through. -/
noncomputable def paneCourt (x : ℝ) : Scene ℝ := courtOf 2 (.glass (Spectrum.gray x) (38 / 25))

/-- The calls that make it. -/
noncomputable def paneCalls (x : ℝ) : List (SceneOp ℝ) :=
  [.pushMaterial (.plastic (Spectrum.gray (1 / 2)) 0 0), .pushMaterial (.light (Spectrum.gray 5)), .pushMaterial (.glass (Spectrum.gray x) (38 / 25)), .pushObject 0 0 (.triangle (plane 0)), .pushObject 2 2 (.triangle courtWall), .pushObject 1 1 (.source ⟨0, 0, 1⟩ (1 / 100))]

theorem pane_run (x : ℝ) : Scene.run realEnv {} (paneCalls x) = .ok (paneCourt x) := by
  have h1 : realEnv.normalized ((plane 0).b - (plane 0).a |>.cross ((plane 0).c - (plane 0).a)) = ⟨0, 0, 1⟩ := plane_normal 0
  have h2 : realEnv.normalized (courtWall.b - courtWall.a |>.cross (courtWall.c - courtWall.a)) = ⟨1, 0, 0⟩ := courtWall_normal
  have e : Scene.run realEnv {} (paneCalls x) = .ok { paneCourt x with normals := (meshTriangle realEnv (plane 0)).2 ++ (meshTriangle realEnv courtWall).2 } := rfl
  rw [e]
  simp only [meshTriangle, h1, h2]
  rfl

theorem pane_shines (x : ℝ) : (paneCourt x).SunsShine := by
  intro sun hs k hk m hm
  simp only [paneCourt, courtOf, List.mem_singleton] at hs
  subst hs
  have : k = 1 := by simpa using hk
  subst this
  simp only [paneCourt, courtOf, List.getElem?_cons_succ, List.getElem?_cons_zero, Option.some.injEq] at hm
  subst hm
  rfl

theorem pane_clearer {x y : ℝ} (hx : 1 / 10 ^ 15 ≤ x) (hxy : x ≤ y) (hy : y ≤ 1) : List.Forall₂ SceneOp.Clearer (paneCalls x) (paneCalls y) := by
  have h0 : 0 ≤ x := le_trans (by norm_num) hx
  refine .cons (.material _ _ (.same _)) (.cons (.material _ _ (.same _)) (.cons (.material _ _ (.glass _ _ _ ⟨⟨h0, h0, h0⟩, hxy, hxy, hxy⟩ ⟨⟨h0.trans hxy, h0.trans hxy, h0.trans hxy⟩, hy, hy, hy⟩ (by norm_num) (Or.inl hx))) (.cons (.other _ (by simp)) (.cons (.other _ (by simp)) (.cons (.other _ (by simp)) .nil)))))

/-- Which material is met. -/
theorem paneCourt_material {x : ℝ} {w : World} (hR : w.Renders (paneCourt x)) {side : SurfaceSide} {i j : Nat} {tri : Tri ℝ} {m : Material ℝ} (hj : (paneCourt x).triangles[j]? = some tri) (hf : w.scene.front[i]? = (paneCourt x).front[j]?) (hb : w.scene.back[i]? = (paneCourt x).back[j]?)
    (hm : w.materialAt side i = .ok m) : j = 0 ∧ tri = plane 0 ∧ m = .plastic (Spectrum.gray (1 / 2)) 0 0 ∨ j = 1 ∧ tri = courtWall ∧ m = .glass (Spectrum.gray x) (38 / 25) := by
  match j with
  | 0 =>
    simp only [paneCourt, courtOf, List.getElem?_cons_zero, Option.some.injEq] at hj
    refine Or.inl ⟨rfl, hj.symm, ?_⟩
    unfold World.materialAt at hm
    cases side with
    | NonApplicable => cases hm
    | Front =>
      simp only [hf, hR.same.1] at hm
      exact (Res.ok.inj hm).symm
    | Back =>
      simp only [hb, hR.same.1] at hm
      exact (Res.ok.inj hm).symm
  | 1 =>
    simp only [paneCourt, courtOf, List.getElem?_cons_succ, List.getElem?_cons_zero, Option.some.injEq] at hj
    refine Or.inr ⟨rfl, hj.symm, ?_⟩
    unfold World.materialAt at hm
    cases side with
    | NonApplicable => cases hm
    | Front =>
      simp only [hf, hR.same.1] at hm
      exact (Res.ok.inj hm).symm
    | Back =>
      simp only [hb, hR.same.1] at hm
      exact (Res.ok.inj hm).symm
  | j + 2 => simp [paneCourt, courtOf] at hj

/-- What leaves the pane doesn't meet it again. -/
theorem paneCourt_rows {y : ℝ} {w : World} (hR : w.Renders (paneCourt y)) (ray : TRay) (hu : Norm ray.geometry.direction = 1) : w.SpecularRow 1 ray := by
  unfold World.SpecularRow
  rcases hR.cast_cases ray with ⟨hc, _⟩ | ⟨i, tri, b, j, hc, hj, hb, _, _, hfr, hbk, _, _⟩
  · simp only [hc]
  simp only [hc]
  split
  swap
  · trivial
  rename_i m hm
  rcases paneCourt_material hR hj hfr hbk hm with ⟨rfl, rfl, rfl⟩ | ⟨rfl, rfl, rfl⟩
  · exact fun h => by cases h
  intro _ x hx
  obtain ⟨hpt, hframe, hside, hdn, _⟩ := recorded_spec courtWall ray.geometry b hu hb
  obtain ⟨σ, hσ, hN⟩ : ∃ σ : ℝ, σ * σ = 1 ∧ (recordedInteraction courtWall ray.geometry b).shading.normal = ⟨σ, 0, 0⟩ := by
    rcases hside with ⟨_, h⟩ | ⟨_, h⟩
    · exact ⟨1, by norm_num, by rw [h, courtWall_normal]⟩
    · refine ⟨-1, by norm_num, ?_⟩
      rw [h, courtWall_normal]
      ext <;> simp
  have hbx : b.p.x = 10 := by
    obtain ⟨hp, ht, hp2, _⟩ := (baricentric_sound _ _ _ hb).1
    have e2 := congrArg Vec3.x hp2
    simp [courtWall, Vec3.scale] at e2
    rw [e2]; ring
  have hσN : Norm (⟨σ, 0, 0⟩ : Vec3 ℝ) = 1 := Norm_eq_one (by simp only [Dot]; linarith)
  rw [hN] at hdn
  simp only [Dot, zero_mul, add_zero] at hdn
  have haway : ∀ t p u v, ¬ TolerantHit x.1.geometry courtWall t p u v := by
    intro t p u v h
    obtain ⟨hx1, ht⟩ := wall_x h
    simp only [offered, Material.getPossiblePaths, hN, hpt, glassPaths, Paths.toList, Option.toList_some, List.mem_append, List.mem_singleton, Option.mem_toList] at hx
    rcases hx with rfl | hx
    · obtain ⟨_, m2, _⟩ := C43_mirror_direction ray.geometry.direction ⟨σ, 0, 0⟩ hσN hu
      simp only [Dot, mul_zero, add_zero] at m2
      simp only [Vec3.add_x, Vec3.scale_x, hbx] at hx1
      have h1 : σ * (t * (mirrorDirection ray.geometry.direction ⟨σ, 0, 0⟩).x) = -(1 / 10 ^ 5) := by
        have : t * (mirrorDirection ray.geometry.direction ⟨σ, 0, 0⟩).x = -(σ * (1 / 10 ^ 5)) := by linarith
        rw [this]; linear_combination -(1 / 10 ^ 5) * hσ
      have h2 : 0 < t * ((mirrorDirection ray.geometry.direction ⟨σ, 0, 0⟩).x * σ) := mul_pos ht (by rw [m2]; linarith)
      nlinarith
    · split_ifs at hx
      · simp only [Option.some.injEq] at hx
        subst hx
        simp only [Vec3.sub_x, Vec3.scale_x, hbx] at hx1
        have h1 : σ * (t * ray.geometry.direction.x) = 1 / 10 ^ 5 := by
          have : t * ray.geometry.direction.x = σ * (1 / 10 ^ 5) := by linarith
          rw [this]; linear_combination (1 / 10 ^ 5) * hσ
        have h2 : t * (σ * ray.geometry.direction.x) < 0 := mul_neg_of_pos_of_neg ht hdn
        nlinarith
  unfold World.SpecularRow
  rcases hR.cast_cases x.1 with ⟨hc', _⟩ | ⟨i', tri', b', j', hc', hj', hb', _, _, hfr', hbk', _, _⟩
  · simp only [hc']
  simp only [hc']
  split
  swap
  · trivial
  rename_i m' hm'
  rcases paneCourt_material hR hj' hfr' hbk' hm' with ⟨rfl, rfl, rfl⟩ | ⟨rfl, rfl, rfl⟩
  · rfl
  · exact absurd (baricentric_sound _ _ _ hb').1 (haway _ _ _ _)

/-- C141: a clear instead of a gray wall of glass, default settings: the mean of what comes back from the floor is positive, and no smaller with the clear glass. -/
example : ∃ (w : World) (b' : Scene ℝ), w.SunlitGlazed (paneCourt (9 / 10)) ∧ Scene.run w.env {} (paneCalls (9 / 10)) = .ok (paneCourt (9 / 10)) ∧ Scene.run w.env {} (paneCalls 1) = .ok (paneCourt 1) ∧ (paneCourt 1).BuiltFrom w.env b' ∧
    let mean := fun w => ∫⁻ r, seenLight (traceRay w ⟨3, 10, 70, 1 / 1000, 3 / 10⟩ 100 ⟨r, defaultRays⟩ downRay) Spectrum.c0 ∂randomNumbers
    0 < mean w ∧ mean w ≤ mean { w with scene := b' } := by
  obtain ⟨w, henv, hS, i, hit, hc, hdep, hmat, hpos⟩ := courtOf_world_env 2 (by norm_num) (.glass (Spectrum.gray (9 / 10)) (38 / 25))
  have hW : w.SunlitGlazed (paneCourt (9 / 10)) := glassCourt_glazed hS
  have hrun : Scene.run w.env {} (paneCalls (9 / 10)) = .ok (paneCourt (9 / 10)) := by rw [henv]; exact pane_run _
  have hrun' : Scene.run w.env {} (paneCalls 1) = .ok (paneCourt 1) := by rw [henv]; exact pane_run _
  have hu : Norm downRay.geometry.direction = 1 := Norm_eq_one (by norm_num [Dot, downRay])
  have hv : 0 ≤ downRay.value := by simp [downRay, TRay.default]
  have hi : 0 < downRay.refractionIndex := by simp [downRay, TRay.default]
  have hlen : defaultRays.length = 15 := by simp [defaultRays]
  have ho := pane_clearer (x := 9 / 10) (y := 1) (by norm_num) (by norm_num) le_rfl
  obtain ⟨s', h', key⟩ := C141_clearer hW (pane_shines _) _ _ hrun ho
  obtain rfl : paneCourt 1 = s' := by rw [hrun'] at h'; exact Res.ok.inj h'
  obtain ⟨s'', h'', hcl⟩ := run_clearer w.env ho nil_clearer hrun
  obtain rfl : paneCourt 1 = s'' := by rw [hrun'] at h''; exact Res.ok.inj h''
  obtain ⟨b', bvh, e, _⟩ := rebuild_spec w.env hW.renders.lawful (paneCourt 1) ⟨rfl, rfl, rfl⟩
  have hW' := hW.clearer (pane_shines _) hcl (Or.inr e)
  have hrow : ∀ ray : TRay, Norm ray.geometry.direction = 1 → w.SpecularRow 1 ray := paneCourt_rows hW.renders
  have hrow' : ∀ ray : TRay, Norm ray.geometry.direction = 1 → World.SpecularRow { w with scene := b' } 1 ray := paneCourt_rows hW'.renders
  have hE := rows_end hW ⟨3, 10, 70, 1 / 1000, 3 / 10⟩ 1 (fun ray h _ => hrow ray h) 4 1 downRay hu hi rfl (hrow downRay hu)
  have hE' := rows_end hW' ⟨3, 10, 70, 1 / 1000, 3 / 10⟩ 1 (fun ray h _ => hrow' ray h) 4 1 downRay hu hi rfl (hrow' downRay hu)
  refine ⟨w, b', hW, hrun, hrun', Or.inr e, ?_, key b' (Or.inr e) ⟨3, 10, 70, 1 / 1000, 3 / 10⟩ (by norm_num) Spectrum.c0 (by simp) defaultRays (by rw [hlen]; decide) downRay hu hv hi _ hE hE' 100 (by norm_num)⟩
  beta_reduce
  rw [C123_mean_light hW ⟨3, 10, 70, 1 / 1000, 3 / 10⟩ (by norm_num) Spectrum.c0 (by simp) defaultRays (by rw [hlen]; decide) downRay hu hv hi _ hE 100 (by norm_num)]
  change 0 < glazedLight w _ Spectrum.c0 (9 + 1) downRay
  unfold glazedLight
  simp only [hc, hmat, Material.specularOnly, Bool.false_eq_true, if_false]
  rw [if_neg (by simp [downRay, TRay.default])]
  exact lt_of_lt_of_le hpos le_self_add

/-- C141, panes: brown glass made lighter, light that comes in at an angle. -/
example : (glassReflTrans ⟨1 / 2, 1 / 4, 0⟩ (3 / 2) ⟨0, 0, 1⟩ ⟨3 / 5, 0, -4 / 5⟩ : Spectrum ℝ × Spectrum ℝ).1.AtMost (glassReflTrans ⟨3 / 4, 1 / 2, 1 / 4⟩ (3 / 2) ⟨0, 0, 1⟩ ⟨3 / 5, 0, -4 / 5⟩).1 :=
  (C141_pane _ _ _ (by norm_num [Brighter, Spectrum.Nonneg, Spectrum.AtMost]) (by norm_num [Spectrum.Fraction, Spectrum.Nonneg]) (by norm_num) (Or.inl (by norm_num)) _ _ (by norm_num [Dot])).1

end Rendering
