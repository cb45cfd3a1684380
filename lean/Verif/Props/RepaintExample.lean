import Verif.Props.Repaint
import Verif.Props.RenderingEquationExample

/-!
# The court painted anew
-/

set_option linter.unusedSectionVars false
namespace Rendering

open MeasureTheory Set

/-- The calls that make the court, with floor and wall of a gray. -/
noncomputable def courtCalls (x : ℝ) : List (SceneOp ℝ) :=
  [.pushMaterial (.plastic (Spectrum.gray x) 0 0), .pushMaterial (.light (Spectrum.gray 5)), .pushMaterial (.plastic (Spectrum.gray x) 0 0), .pushObject 0 0 (.triangle (plane 0)), .pushObject 0 0 (.triangle courtWall), .pushObject 1 1 (.source ⟨0, 0, 1⟩ (1 / 100))]

theorem court_run : Scene.run realEnv {} (courtCalls (1 / 2)) = .ok court := by
  have h1 : realEnv.normalized ((plane 0).b - (plane 0).a |>.cross ((plane 0).c - (plane 0).a)) = ⟨0, 0, 1⟩ := plane_normal 0
  have h2 : realEnv.normalized (courtWall.b - courtWall.a |>.cross (courtWall.c - courtWall.a)) = ⟨1, 0, 0⟩ := courtWall_normal
  have e : Scene.run realEnv {} (courtCalls (1 / 2)) = .ok { court with normals := (meshTriangle realEnv (plane 0)).2 ++ (meshTriangle realEnv courtWall).2 } := rfl
  rw [e]
  simp only [meshTriangle, h1, h2]
  rfl

theorem court_shines : court.SunsShine := by
  intro sun hs k hk m hm
  simp only [court, courtOf, List.mem_singleton] at hs
  subst hs
  have : k = 1 := by simpa using hk
  subst this
  simp only [court, courtOf, List.getElem?_cons_succ, List.getElem?_cons_zero, Option.some.injEq] at hm
  subst hm
  rfl

theorem court_repainted {R : Spectrum ℝ → Spectrum ℝ → Prop} {x y : ℝ} (h : R (Spectrum.gray x) (Spectrum.gray y)) : List.Forall₂ (SceneOp.Repainted R) (courtCalls x) (courtCalls y) := by
  refine .cons (.material _ _ (.plastic _ _ _ h)) (.cons (.material _ _ (.other _ (by intro col r; simp))) (.cons (.material _ _ (.plastic _ _ _ h)) (.cons (.other _ (by simp)) (.cons (.other _ (by simp)) (.cons (.other _ (by simp)) .nil)))))

/-- C133: the court of gray 1/2 painted gray 3/4: the mean light is positive, and grows at least `3/2` times and at most `(3/2)^4` times. -/
example : ∃ (w : World) (s' b' : Scene ℝ), w.SunlitMatt court ∧ Scene.run w.env {} (courtCalls (1 / 2)) = .ok court ∧ Scene.run w.env {} (courtCalls (3 / 4)) = .ok s' ∧ s'.BuiltFrom w.env b' ∧
    let mean := fun w => ∫⁻ r, seenLight (traceRay w ⟨3, 10, 70, 0, 3 / 10⟩ 100 ⟨r, defaultRays⟩ downRay) Spectrum.c0 ∂randomNumbers
    0 < mean w ∧ mean w ≤ mean { w with scene := b' } ∧ ENNReal.ofReal (3 / 2) * mean w ≤ mean { w with scene := b' } ∧ mean { w with scene := b' } ≤ ENNReal.ofReal (3 / 2) ^ 4 * mean w := by
  obtain ⟨w, henv, hW, i, hit, hc, hdep, hmat, hpos⟩ := court_world_env
  have hrun : Scene.run w.env {} (courtCalls (1 / 2)) = .ok court := by rw [henv]; exact court_run
  have hu : Norm downRay.geometry.direction = 1 := Norm_eq_one (by norm_num [Dot, downRay])
  have hv : 0 ≤ downRay.value := by simp [downRay, TRay.default]
  have hlen : defaultRays.length = 15 := by simp [defaultRays]
  obtain ⟨s', h', key⟩ := C133_brighter_paint hW court_shines _ (courtCalls (3 / 4)) hrun (court_repainted (by norm_num [Brighter, Spectrum.Nonneg, Spectrum.AtMost, Spectrum.gray]))
  obtain ⟨s'', h'', key2⟩ := C133_how_much_brighter hW court_shines _ (courtCalls (3 / 4)) hrun (3 / 2) (by norm_num) (court_repainted (by norm_num [UpToTimes, Spectrum.Nonneg, Spectrum.AtMost, Spectrum.gray]))
  obtain rfl : s' = s'' := by rw [h'] at h''; exact Res.ok.inj h''
  obtain ⟨s3, h3, key3⟩ := C133_at_least hW court_shines _ (courtCalls (3 / 4)) hrun (3 / 2) (by norm_num) (court_repainted (by norm_num [AtLeastTimes, Spectrum.Nonneg, Spectrum.AtMost, Spectrum.gray]))
  obtain rfl : s' = s3 := by rw [h'] at h3; exact Res.ok.inj h3
  have hal : s'.Aligned := by
    have e : Scene.run realEnv {} (courtCalls (3 / 4)) = .ok { courtOf 0 (.plastic (Spectrum.gray (3 / 4)) 0 0) with materials := [.plastic (Spectrum.gray (3 / 4)) 0 0, .light (Spectrum.gray 5), .plastic (Spectrum.gray (3 / 4)) 0 0], normals := (meshTriangle realEnv (plane 0)).2 ++ (meshTriangle realEnv courtWall).2 } := rfl
    rw [henv, e] at h'
    cases h'
    exact ⟨rfl, rfl, rfl⟩
  obtain ⟨b', bvh, e, _⟩ := rebuild_spec w.env hW.renders.lawful s' hal
  refine ⟨w, s', b', hW, hrun, h', Or.inr e, ?_, key b' (Or.inr e) ⟨3, 10, 70, 0, 3 / 10⟩ (by norm_num) Spectrum.c0 (by simp) defaultRays (by rw [hlen]; decide) downRay hu hv (Nat.zero_le _) 100 (by norm_num),
    key3 b' (Or.inr e) ⟨3, 10, 70, 0, 3 / 10⟩ (by norm_num) Spectrum.c0 (by simp) defaultRays (by rw [hlen]; decide) downRay hu hv (Nat.zero_le _) 100 (by norm_num),
    key2 b' (Or.inr e) ⟨3, 10, 70, 0, 3 / 10⟩ (by norm_num) rfl Spectrum.c0 (by simp) defaultRays (by rw [hlen]; decide) downRay hu hv rfl 100 (by norm_num)⟩
  beta_reduce
  rw [C119_mean_light hW ⟨3, 10, 70, 0, 3 / 10⟩ (by norm_num) Spectrum.c0 (by simp) defaultRays (by rw [hlen]; decide) downRay hu hv (Nat.zero_le _) 100 (by norm_num)]
  change 0 < reflectedLight w _ Spectrum.c0 (3 + 1) downRay
  unfold reflectedLight
  simp only [hc, hmat]
  exact lt_of_lt_of_le hpos le_self_add

end Rendering
