import Verif.Lemmas.Numbering
import Verif.Props.MovedScenes

/-!
# C109: materials matter by what they are, not by their numbers
-/

set_option linter.unusedSectionVars false
namespace Rendering

theorem runs_alike {K : Type} [Field K] [LinearOrder K] [FloorRing K] (env : SceneEnv K) {ops ops' : List (SceneOp K)} (h : SameButNumbering [] [] ops ops') : Res.Rel AlikeScenes (Scene.run env {} ops) (Scene.run env {} ops') :=
  run_alike env h {} {} rfl rfl
    { triangles := rfl, normals := rfl, accelerator := rfl, hasSky := rfl, front := .nil, back := .nil, lights := .nil, distant := .nil }

theorem alike_of_run {K : Type} [Field K] [LinearOrder K] [FloorRing K] (env : SceneEnv K) {ops ops' : List (SceneOp K)} (h : SameButNumbering [] [] ops ops') {s s' : Scene K} (hs : Scene.run env {} ops = .ok s)
    (hs' : Scene.run env {} ops' = .ok s') : AlikeScenes s s' := by
  have := runs_alike env h
  rw [hs, hs'] at this
  exact this

/-- **C109.** Two lists of calls that differ only in how materials are numbered (pushed in another order, at other moments, twice, or without being used) crash or succeed alike, and what they build answers every
query alike: what a ray hits, whether a segment is free, the light along a ray (same settings, same random numbers), and the daylight coefficients of sensors. -/
theorem C109_numbering_is_irrelevant (env : SceneEnv ℝ) (ops ops' : List (SceneOp ℝ)) (h : SameButNumbering [] [] ops ops') :
    (Scene.run env {} ops' = .panic ↔ Scene.run env {} ops = .panic) ∧ (Scene.run env {} ops' = .diverge ↔ Scene.run env {} ops = .diverge) ∧
    ∀ s, Scene.run env {} ops = .ok s → ∃ s', Scene.run env {} ops' = .ok s' ∧
      (∀ ray scratch, s'.castRay env ray scratch = s.castRay env ray scratch) ∧
      (∀ ray d scratch, s'.unobstructedDistance env ray d scratch = s.unobstructedDistance env ray d scratch) ∧
      (∀ ext dt sky col rt fuel st ray, traceRay ⟨s', env, ext, dt, sky, col⟩ rt fuel st ray = traceRay ⟨s, env, ext, dt, sky, col⟩ rt fuel st ray) ∧
      (∀ ext dt sky col dc fuel sensors primary secondary, calcDc ⟨s', env, ext, dt, sky, col⟩ dc fuel sensors primary secondary = calcDc ⟨s, env, ext, dt, sky, col⟩ dc fuel sensors primary secondary) := by
  have hr := runs_alike env h
  cases h1 : Scene.run env {} ops with
  | panic =>
    rw [h1] at hr
    cases h2 : Scene.run env {} ops' with
    | panic => exact ⟨by simp, by simp, fun s hs => by cases hs⟩
    | ok a => rw [h2] at hr; exact hr.elim
    | diverge => rw [h2] at hr; exact hr.elim
  | diverge =>
    rw [h1] at hr
    cases h2 : Scene.run env {} ops' with
    | diverge => exact ⟨by simp, by simp, fun s hs => by cases hs⟩
    | ok a => rw [h2] at hr; exact hr.elim
    | panic => rw [h2] at hr; exact hr.elim
  | ok s =>
    rw [h1] at hr
    cases h2 : Scene.run env {} ops' with
    | diverge => rw [h2] at hr; exact hr.elim
    | panic => rw [h2] at hr; exact hr.elim
    | ok s' =>
      rw [h2] at hr
      have ha : AlikeScenes s s' := hr
      refine ⟨by simp, by simp, fun t ht => ?_⟩
      cases ht
      refine ⟨s', rfl, fun ray scratch => ?_, fun ray d scratch => ?_, fun ext dt sky col rt fuel st ray => ?_, fun ext dt sky col dc fuel sensors p q => ?_⟩
      · unfold Scene.castRay; rw [ha.accelerator, ha.triangles]
      · unfold Scene.unobstructedDistance; rw [ha.accelerator, ha.triangles]
      · rw [traceRay_alike ha]
      · rw [calcDc_alike ha]

/-- **C109.** And the pictures `spict` takes of them are the same, pixel by pixel. -/
theorem C109_same_picture (env : SceneEnv ℝ) (ops ops' : List (SceneOp ℝ)) (h : SameButNumbering [] [] ops ops') (s s' : Scene ℝ) (hs : Scene.run env {} ops = .ok s) (hs' : Scene.run env {} ops' = .ok s') (ext : GeoExt) (dt : DirTests)
    (sky : Option (Vec3 ℝ → ℝ)) (col : Option (Spectrum ℝ)) (o : SpictOptions) (ho : o.Sized) (fuel : Nat) (rng : Nat → Rng) (st st' : RState TState (Spectrum ℝ)) (hr : o.Rendered ⟨s, env, ext, dt, sky, col⟩ fuel rng st)
    (hr' : o.Rendered ⟨s', env, ext, dt, sky, col⟩ fuel rng st') : renderPixels o.width o.height st' = renderPixels o.width o.height st := by
  have hp : pixelTracer ⟨s', env, ext, dt, sky, col⟩ o.rt fuel o.camera = pixelTracer ⟨s, env, ext, dt, sky, col⟩ o.rt fuel o.camera := by
    funext p q
    unfold pixelTracer
    rw [traceRay_alike (alike_of_run env h hs hs')]
  obtain ⟨⟨m, hm⟩, hf⟩ := hr
  obtain ⟨⟨m', hm'⟩, hf'⟩ := hr'
  rw [hp] at hm' hf'
  refine pixels_ext o.width o.height _ _ fun x y hx hy => ?_
  rw [C39_pixel_value _ _ _ _ ho.pixels hm hf x y hx hy, C39_pixel_value _ _ _ _ ho.pixels hm' hf' x y hx hy]

section
variable {K : Type} [Field K] [LinearOrder K] [FloorRing K]

theorem pushObject_named {env : SceneEnv K} {s t : Scene K} {f b : Nat} {p : Primitive K} (h : s.pushObject env f b p = .ok t) : (∃ mf, s.materials[f]? = some mf) ∧ (∃ mb, s.materials[b]? = some mb) ∧ t.materials = s.materials := by
  unfold Scene.pushObject at h
  cases hf : s.materials[f]? with
  | none => rw [hf] at h; cases h
  | some mf =>
    rw [hf] at h
    cases hb : s.materials[b]? with
    | none => rw [hb] at h; cases h
    | some mb =>
      rw [hb] at h
      simp only at h
      obtain ⟨⟨ts, ns⟩, -, h⟩ := Res.bind_eq_ok h
      cases h
      refine ⟨⟨mf, rfl⟩, ⟨mb, rfl⟩, ?_⟩
      simp only
      split_ifs <;> rfl

theorem rebuild_materials {env : SceneEnv K} {s t : Scene K} (h : s.rebuildAccelerator env = .ok t) : t.materials = s.materials := by
  obtain ⟨⟨a, b, c, d, e⟩, -, h⟩ := Res.bind_eq_ok h
  cases h
  rfl

/-- Numbering materials differently, when both lists of calls continue alike on scenes whose materials correspond. -/
theorem numbering_continues {env : SceneEnv K} (g : Nat → Nat) (op : SceneOp K) (ops ops' : List (SceneOp K)) (s t : Scene K) (ms' : List (Material K)) (hop : s.step env op = .ok t) (hg : ∀ i m, s.materials[i]? = some m → ms'[g i]? = some m)
    (ih : ∀ l : List (Material K), t.materials = s.materials ++ l → SameButNumbering t.materials (ms' ++ l) ops ops') :
    SameButNumbering s.materials ms' (op :: ops) ((match op with | .pushObject f b p => .pushObject (g f) (g b) p | op => op) :: ops') := by
  cases op with
  | pushMaterial m =>
    have ht : t.materials = s.materials ++ [m] := by cases hop; rfl
    refine .pushLeft m (.pushRight m ?_)
    rw [← ht]
    exact ih [m] ht
  | pushObject f b p =>
    obtain ⟨⟨mf, hf⟩, ⟨mb, hb⟩, ht⟩ := pushObject_named hop
    refine .object f b _ _ p mf mb hf (hg f mf hf) hb (hg b mb hb) ?_
    have := ih [] (by rw [ht, List.append_nil])
    rw [ht, List.append_nil] at this
    exact this
  | build =>
    have ht : t.materials = s.materials := by
      have h : s.buildAccelerator env = .ok t := hop
      unfold Scene.buildAccelerator at h
      split_ifs at h
      exact rebuild_materials h
    have := ih [] (by rw [ht, List.append_nil])
    rw [ht, List.append_nil] at this
    exact .build this
  | rebuild =>
    have ht : t.materials = s.materials := rebuild_materials hop
    have := ih [] (by rw [ht, List.append_nil])
    rw [ht, List.append_nil] at this
    exact .rebuild this
  | addPerezSky sun =>
    have ht : t.materials = s.materials ++ skyMaterials sun := by
      have h : s.addPerezSky env sun = .ok t := hop
      unfold Scene.addPerezSky at h
      cases sun with
      | none => cases h; simp [skyMaterials]
      | some x =>
        obtain ⟨d, br, a⟩ := x
        simp only at h
        rw [(pushObject_named h).2.2]
        rfl
    refine .sky sun ?_
    rw [← ht]
    exact ih _ ht

theorem getElem?_makeRoom {A : Type} (l r : List A) (x : A) (i : Nat) (m : A) (h : (l ++ r)[i]? = some m) : (l ++ [x] ++ r)[makeRoom l.length i]? = some m := by
  unfold makeRoom
  by_cases hi : i < l.length
  · rw [if_pos hi, List.append_assoc, List.getElem?_append_left hi]
    rwa [List.getElem?_append_left hi] at h
  · rw [if_neg hi, List.getElem?_append_right (by simp; omega)]
    rw [List.getElem?_append_right (by omega)] at h
    rw [← h]
    congr 1
    simp

theorem room_after {env : SceneEnv K} (m : Material K) (post : List (SceneOp K)) : ∀ (s t : Scene K) (l r : List (Material K)), s.materials = l ++ r → s.run env post = .ok t →
    SameButNumbering (l ++ r) (l ++ [m] ++ r) post (post.map (SceneOp.makeRoom l.length)) := by
  induction post with
  | nil => exact fun s t l r _ _ => .nil _ _
  | cons op ops ih =>
    intro s t l r hm h
    obtain ⟨s1, h1, h2⟩ := Res.bind_eq_ok h
    have := numbering_continues (env := env) (makeRoom l.length) op ops (ops.map (SceneOp.makeRoom l.length)) s s1 (l ++ [m] ++ r) h1 (fun i x hx => getElem?_makeRoom l r m i x (hm ▸ hx)) (fun k hk => by
      have := ih s1 t l (r ++ k) (by rw [hk, hm, List.append_assoc]) h2
      rw [hk, hm, List.append_assoc, List.append_assoc]
      exact this)
    rw [hm] at this
    rw [List.map_cons]
    convert this using 2
    cases op <;> rfl

theorem room_at {env : SceneEnv K} (m : Material K) (pre post : List (SceneOp K)) : ∀ (s t u : Scene K), s.run env pre = .ok u → s.run env (pre ++ post) = .ok t →
    SameButNumbering s.materials s.materials (pre ++ post) (pre ++ .pushMaterial m :: post.map (SceneOp.makeRoom u.materials.length)) := by
  induction pre with
  | nil =>
    intro s t u hu h
    cases hu
    have := room_after m post s t s.materials [] (by simp) h
    simp only [List.append_nil] at this
    exact .pushRight m this
  | cons op ops ih =>
    intro s t u hu h
    obtain ⟨s1, h1, h2⟩ := Res.bind_eq_ok hu
    obtain ⟨s1', h1', h3⟩ := Res.bind_eq_ok h
    rw [h1] at h1'
    cases h1'
    have := numbering_continues (env := env) id op (ops ++ post) (ops ++ .pushMaterial m :: post.map (SceneOp.makeRoom u.materials.length)) s s1 s.materials h1 (fun i x hx => hx) (fun k hk => by
      rw [← hk]
      exact ih s1 t u h2 h3)
    rw [List.cons_append, List.cons_append]
    convert this using 2
    cases op <;> rfl

/-- **C109.** Pushing a further material `m` at any moment of a successful list of calls (the numbers of materials pushed later being one higher) is only a different numbering: it changes nothing that can be observed. -/
theorem C109_unused_material (env : SceneEnv K) (pre post : List (SceneOp K)) (m : Material K) (u t : Scene K) (hu : Scene.run env {} pre = .ok u) (ht : Scene.run env {} (pre ++ post) = .ok t) :
    SameButNumbering [] [] (pre ++ post) (pre ++ .pushMaterial m :: post.map (SceneOp.makeRoom u.materials.length)) :=
  room_at m pre post {} t u hu ht

end

/-- The sunny room with its two materials in the other order, the mirror twice and one material too many. -/
noncomputable def sunnyRoom' : List (SceneOp ℝ) :=
  [.pushMaterial (.mirror (Spectrum.gray (9 / 10))), .pushMaterial (.glass (Spectrum.gray (1 / 3)) (3 / 2)), .pushMaterial (.plastic (Spectrum.gray (1 / 2)) 0 0), .pushObject 2 2 (.triangle (plane 0)), .pushMaterial (.mirror (Spectrum.gray (9 / 10))),
    .pushObject 3 2 (.triangle (plane (-1))), .addPerezSky (some (⟨0, 0, 1⟩, 5, 1)), .rebuild]

theorem sunnyRoom_same : SameButNumbering [] [] sunnyRoom sunnyRoom' :=
  .pushLeft _ (.pushLeft _ (.pushRight _ (.pushRight _ (.pushRight _ (.object _ _ _ _ _ _ _ rfl rfl rfl rfl (.pushRight _ (.object _ _ _ _ _ _ _ rfl rfl rfl rfl (.sky _ (.rebuild (.nil _ _))))))))))

/-- C109 applies: the room can be built both ways, and both look the same. -/
example (ext : GeoExt) (dt : DirTests) (fuel : Nat) (st : TState) (rng : Nat → Rng) : ∃ (s s' : Scene ℝ) (p p' : RState TState (Spectrum ℝ)), Scene.run realEnv {} sunnyRoom = .ok s ∧ Scene.run realEnv {} sunnyRoom' = .ok s' ∧ s.distantLights ≠ [] ∧ s.triangles ≠ [] ∧
    traceRay ⟨s', realEnv, ext, dt, none, none⟩ ⟨2, 10, 70, 1 / 1000, 3 / 10⟩ fuel st downRay = traceRay ⟨s, realEnv, ext, dt, none, none⟩ ⟨2, 10, 70, 1 / 1000, 3 / 10⟩ fuel st downRay ∧
    lookDown.Rendered ⟨s, realEnv, ext, dt, none, none⟩ fuel rng p ∧ lookDown.Rendered ⟨s', realEnv, ext, dt, none, none⟩ fuel rng p' ∧ renderPixels 3 3 p' = renderPixels 3 3 p := by
  obtain ⟨s, h, _, hd, ht⟩ := sunnyRoom_runs realEnv refEnv_lawful (fun _ _ => rfl)
  obtain ⟨s', h', _, _, htr, _⟩ := (C109_numbering_is_irrelevant realEnv sunnyRoom sunnyRoom' sunnyRoom_same).2.2 s h
  obtain ⟨p, hp⟩ := rendered_exists lookDown lookDown_sized ⟨s, realEnv, ext, dt, none, none⟩ fuel rng
  obtain ⟨p', hp'⟩ := rendered_exists lookDown lookDown_sized ⟨s', realEnv, ext, dt, none, none⟩ fuel rng
  exact ⟨s, s', p, p', h, h', hd, ht, htr _ _ _ _ _ _ _ _, hp, hp', C109_same_picture realEnv _ _ sunnyRoom_same s s' h h' ext dt none none lookDown lookDown_sized fuel rng p p' hp hp'⟩

/-- C109: a glass nobody uses, pushed between the floor and the mirror. -/
example : SameButNumbering [] [] sunnyRoom (sunnyRoom.take 3 ++ .pushMaterial (.glass (Spectrum.gray (1 / 3)) (3 / 2)) :: (sunnyRoom.drop 3).map (SceneOp.makeRoom 2)) := by
  obtain ⟨s, h, _⟩ := sunnyRoom_runs realEnv refEnv_lawful (fun _ _ => rfl)
  obtain ⟨u, hu, hm⟩ : ∃ u : Scene ℝ, Scene.run realEnv {} (sunnyRoom.take 3) = .ok u ∧ u.materials.length = 2 := ⟨_, rfl, rfl⟩
  have := C109_unused_material realEnv (sunnyRoom.take 3) (sunnyRoom.drop 3) (.glass (Spectrum.gray (1 / 3)) (3 / 2)) u s hu h
  rw [hm] at this
  exact this

end Rendering
