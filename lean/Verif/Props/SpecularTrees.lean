import Verif.Props.Draws
import Verif.Props.Termination

/-!
# Tracing through specular surfaces explores a tree, one random number for each branch
-/

set_option linter.unusedSectionVars false
namespace Rendering

open Classical MeasureTheory

variable {w : World} {s : Scene ℝ}

/-! ### The numbers that light samples draw -/

theorem sampleDirection_draws (ext : GeoExt) (p : Primitive ℝ) (rng : Rng) (pt d : Vec3 ℝ) (rng' : Rng) (h : p.sampleDirection ext rng pt = .ok (d, rng')) : rng' = rng.drop 2 := by
  unfold Primitive.sampleDirection at h
  obtain ⟨⟨q, r⟩, h1, h2⟩ := Res.bind_eq_ok h
  cases h2
  cases p with
  | cylinder a b c => cases h1
  | sphere c r => cases h1; rfl
  | triangle t => cases h1; rfl
  | source d a =>
    simp only [Primitive.sampleSurface, uniformSampleDisc] at h1
    obtain ⟨e, _, h3⟩ := Res.bind_eq_ok h1
    cases h3; rfl

theorem Rng.drop_drop (m n : Nat) (r : Rng) : (r.drop m).drop n = r.drop (m + n) := by
  funext k; simp only [Rng.drop]; congr 1; omega

theorem Rng.Valid.drop {r : Rng} (h : r.Valid) (n : Nat) : (r.drop n).Valid := fun k => h (k + n)

theorem lightLoop_draws (hS : w.Solid s) (hM : w.LightsMet) (m : Material ℝ) (ray : TRay) (n : Nat) (pt normal e1 e2 : Vec3 ℝ) (o : Object ℝ) (ho : o ∈ s.lights ++ s.distantLights)
    (fuel i : Nat) (hi : i ≤ n) (acc : Spectrum ℝ) (rng : Rng) (x : Spectrum ℝ × Rng) (h : w.lightLoop m ray n pt normal e1 e2 o fuel i acc rng = .ok x) : x.2 = rng.drop (2 * (n - i)) := by
  induction fuel generalizing i acc rng with
  | zero => cases h
  | succ fuel ih =>
    unfold World.lightLoop at h
    split_ifs at h with hi'
    · obtain ⟨⟨d, rng1⟩, hd, h⟩ := Res.bind_eq_ok h
      have hr1 := sampleDirection_draws _ _ _ _ _ _ hd
      have hmeet := hM o (by obtain ⟨_, h1, h2⟩ := hS.renders.same; rw [h1, h2]; exact ho) pt d rng rng1 hd
      simp only at h
      obtain ⟨r, hr, h⟩ := Res.bind_eq_ok h
      have e : (rng.drop 2).drop (2 * (n - (i + 1))) = rng.drop (2 * (n - i)) := by
        rw [Rng.drop_drop]; congr 1; omega
      cases r with
      | none =>
        exfalso
        unfold World.intersectLight at hr
        cases hp : w.ext.primIntersect o.primitive ⟨pt, d⟩ with
        | none => exact hmeet hp
        | some info =>
          simp only [hp] at hr
          obtain ⟨free, _, h2⟩ := Res.bind_eq_ok hr
          split_ifs at h2
          · cases h2
          · split at h2
            · cases h2
            · obtain ⟨_, _, h3⟩ := Res.bind_eq_ok h2
              obtain ⟨_, _, h4⟩ := Res.bind_eq_ok h3
              cases h4
            · obtain ⟨_, _, h3⟩ := Res.bind_eq_ok h2
              obtain ⟨_, _, h4⟩ := Res.bind_eq_ok h3
              cases h4
      | some y =>
        obtain ⟨colour, pdf⟩ := y
        simp only at h
        split_ifs at h
        · rw [ih (i + 1) (by omega) _ _ h, hr1, e]
        · obtain ⟨t, _, h⟩ := Res.bind_eq_ok h
          rw [ih (i + 1) (by omega) _ _ h, hr1, e]
    · cases h
      have : n - i = 0 := by omega
      rw [this]; rfl

theorem lightsLoop_draws (hS : w.Solid s) (hM : w.LightsMet) (fuel : Nat) (m : Material ℝ) (ray : TRay) (n : Nat) (pt normal e1 e2 : Vec3 ℝ) (os : List (Object ℝ)) (hos : ∀ o ∈ os, o ∈ s.lights ++ s.distantLights) (acc : Spectrum ℝ) (rng : Rng)
    (x : Spectrum ℝ × Rng) (h : w.lightsLoop fuel m ray n pt normal e1 e2 os acc rng = .ok x) : x.2 = rng.drop (2 * n * os.length) := by
  induction os generalizing acc rng with
  | nil => cases h; rfl
  | cons o os ih =>
    unfold World.lightsLoop at h
    obtain ⟨⟨a, r⟩, h1, h2⟩ := Res.bind_eq_ok h
    have d1 := lightLoop_draws hS hM m ray n pt normal e1 e2 o (hos o List.mem_cons_self) fuel 0 (by omega) acc rng _ h1
    simp only at d1
    rw [ih (fun o ho => hos o (List.mem_cons_of_mem _ ho)) _ _ h2, d1, Rng.drop_drop]
    congr 1
    simp only [List.length_cons, Nat.sub_zero]; ring

theorem localIllumination_draws (hS : w.Solid s) (hM : w.LightsMet) (fuel : Nat) (m : Material ℝ) (ray : TRay) (n : Nat) (rng : Rng) (x : Spectrum ℝ × Rng) (h : w.localIllumination fuel m ray rng n = .ok x) :
    x.2 = rng.drop (2 * n * (w.scene.lights.length + w.scene.distantLights.length)) := by
  obtain ⟨_, h1, h2⟩ := hS.renders.same
  unfold World.localIllumination World.sampleLightArray at h
  obtain ⟨⟨a, r⟩, k1, h⟩ := Res.bind_eq_ok h
  simp only at h
  obtain ⟨⟨b, r'⟩, k2, h⟩ := Res.bind_eq_ok h
  cases h
  simp only
  rw [h1] at k1 ⊢
  rw [h2] at k2 ⊢
  have d1 := lightsLoop_draws hS hM fuel m ray n _ _ _ _ s.lights (fun o ho => List.mem_append_left _ ho) _ _ _ k1
  have d2 := lightsLoop_draws hS hM fuel m ray n _ _ _ _ s.distantLights (fun o ho => List.mem_append_right _ ho) _ _ _ k2
  simp only at d1 d2
  rw [d2, d1, Rng.drop_drop]
  congr 1
  ring

/-! ### The tree of a ray -/

/-- The rays that leave the surface met by `ray`, if it is specular. -/
noncomputable def World.branches (w : World) (rt : RayTracer) (ray : TRay) : List TRay :=
  match w.cast ray with
  | .ok (some (i, hit)) =>
    if hit.interaction.shading.side = .NonApplicable then []
    else match w.materialAt hit.interaction.shading.side i with
      | .ok m =>
        if m.emitsLight = true ∨ hit.depth > rt.maxDepth ∨ m.specularOnly = false then []
        else match w.scene.normals[i]? with
          | some (n0, n1, n2) =>
            match m.getPossiblePaths hit.interaction.shading.normal hit.interaction.point { hit with interaction := hit.interaction.interpolateNormal n0 n1 n2 } with
            | .ok p => p.toList.map Prod.fst
            | _ => []
          | none => []
      | _ => []
  | _ => []

/-- The numbers drawn for the lights, if the surface met by `ray` is not specular. -/
noncomputable def World.drawsAt (w : World) (rt : RayTracer) (ray : TRay) : Nat :=
  match w.cast ray with
  | .ok (some (i, hit)) =>
    if hit.interaction.shading.side = .NonApplicable then 0
    else match w.materialAt hit.interaction.shading.side i with
      | .ok m =>
        if m.emitsLight = true ∨ hit.depth > rt.maxDepth ∨ m.specularOnly = true then 0
        else 2 * (if hit.depth = 0 then rt.nShadowSamples else 1) * (w.scene.lights.length + w.scene.distantLights.length)
      | _ => 0
  | _ => 0

/-- Each branch counts as a bounce, or not. -/
noncomputable def World.kids (w : World) (rt : RayTracer) (ray : TRay) : List (TRay × TRay) := (w.branches rt ray).map fun p => ({ p with depth := p.depth + 1 }, p)

/-- Exploring the tree of rays that tracing `ray` traces, at most `k` levels deep. -/
noncomputable def World.explore (w : World) (rt : RayTracer) (k : Nat) (ray : TRay) (rng : Rng) : Option Rng := Rendering.explore rt.countSpecularBounce (w.drawsAt rt) (w.kids rt) k ray rng

/-- Along the specular paths, if exploring ends so does tracing, with the same numbers left. -/
theorem refSpecular_explores (self : RefTrace) (f : TRay → Rng → Option Rng) (csb : ℝ) (h : ∀ ray rng r', Rng.Valid rng → f ray rng = some r' → (self rng ray).Ends fun x => x.2 = r' ∧ x.2.Valid) (paths : List (TRay × Spectrum ℝ)) (rng r' : Rng) (hr : rng.Valid)
    (he : followAll csb f ((paths.map Prod.fst).map fun p => ({ p with depth := p.depth + 1 }, p)) rng = some r') : (refSpecular self csb paths rng).Ends fun x => x.2 = r' ∧ x.2.Valid := by
  induction paths generalizing rng with
  | nil =>
    simp only [List.map_nil, followAll, Option.some.injEq] at he
    exact ⟨he, hr⟩
  | cons p paths ih =>
    obtain ⟨path, weight⟩ := p
    simp only [List.map_cons, followAll, Option.bind_eq_some_iff] at he
    obtain ⟨r1, h1, h2⟩ := he
    unfold refSpecular
    refine (h _ _ r1 (hr.rest 1) h1).bind fun x hx => ?_
    exact (ih x.2 hx.2 (by rw [hx.1]; exact h2)).bind fun y hy => hy

theorem explore_step (rt : RayTracer) (k : Nat) (ray : TRay) (rng : Rng) (l : List TRay) (n : Nat) (hb : w.branches rt ray = l) (hd : w.drawsAt rt ray = n) :
    w.explore rt (k + 1) ray rng = followAll rt.countSpecularBounce (fun ray rng => w.explore rt k ray rng) (l.map fun p => ({ p with depth := p.depth + 1 }, p)) (rng.drop n) := by
  subst hb hd; rfl

theorem explore_leaf (rt : RayTracer) (k : Nat) (ray : TRay) (rng : Rng) (n : Nat) (hb : w.branches rt ray = []) (hd : w.drawsAt rt ray = n) : w.explore rt (k + 1) ray rng = some (rng.drop n) := by
  rw [explore_step rt k ray rng [] n hb hd]; rfl

/-- The cases of what a ray meets, and the tree that each gives. -/
theorem tree_cases (hS : w.Solid s) (rt : RayTracer) (ray : TRay) :
    (w.cast ray = .ok none ∧ w.branches rt ray = [] ∧ w.drawsAt rt ray = 0) ∨
    ∃ i tri b, w.cast ray = .ok (some (i, { ray with interaction := recordedInteraction tri ray.geometry b })) ∧ w.scene.triangles[i]? = some tri ∧
      (((recordedInteraction tri ray.geometry b).shading.side = .NonApplicable ∧ w.branches rt ray = [] ∧ w.drawsAt rt ray = 0) ∨
      ((recordedInteraction tri ray.geometry b).shading.side ≠ .NonApplicable ∧ ∃ m ∈ s.materials, w.materialAt (recordedInteraction tri ray.geometry b).shading.side i = .ok m ∧ ∃ n0 n1 n2, w.scene.normals[i]? = some (n0, n1, n2) ∧
        ((m.emitsLight = true ∧ w.branches rt ray = [] ∧ w.drawsAt rt ray = 0) ∨
        (m.emitsLight = false ∧ rt.maxDepth < ray.depth ∧ w.branches rt ray = [] ∧ w.drawsAt rt ray = 0) ∨
        (m.emitsLight = false ∧ ray.depth ≤ rt.maxDepth ∧ m.specularOnly = true ∧ w.drawsAt rt ray = 0 ∧
          ∃ p, m.getPossiblePaths (recordedInteraction tri ray.geometry b).shading.normal (recordedInteraction tri ray.geometry b).point { ray with interaction := (recordedInteraction tri ray.geometry b).interpolateNormal n0 n1 n2 } = .ok p ∧
            w.branches rt ray = p.toList.map Prod.fst) ∨
        (m.emitsLight = false ∧ ray.depth ≤ rt.maxDepth ∧ m.specularOnly = false ∧ w.branches rt ray = [] ∧
          w.drawsAt rt ray = 2 * (if ray.depth = 0 then rt.nShadowSamples else 1) * (w.scene.lights.length + w.scene.distantLights.length))))) := by
  rcases hS.renders.cast_cases ray with ⟨hc, _⟩ | ⟨i, tri, b, j, hc, hj, hb, _, ht, hf, hbk, hn, _⟩
  · exact Or.inl ⟨hc, by simp [World.branches, hc], by simp [World.drawsAt, hc]⟩
  · refine Or.inr ⟨i, tri, b, hc, ht, ?_⟩
    by_cases hside : (recordedInteraction tri ray.geometry b).shading.side = .NonApplicable
    · exact Or.inl ⟨hside, by simp [World.branches, hc, hside], by simp [World.drawsAt, hc, hside]⟩
    · refine Or.inr ⟨hside, ?_⟩
      have hjl : j < s.triangles.length := (List.getElem?_eq_some_iff.1 hj).1
      have hmt : w.materialAt (recordedInteraction tri ray.geometry b).shading.side i ≠ .diverge := by
        unfold World.materialAt
        split
        · exact bind_ne_diverge (ofOption_ne_diverge _) fun x => ofOption_ne_diverge _
        · exact bind_ne_diverge (ofOption_ne_diverge _) fun x => ofOption_ne_diverge _
        · intro h; cases h
      obtain ⟨m, hm, hmem⟩ := ((materialAt_holds hS _ hside i j hjl hf hbk).ends hmt).ok
      have hnorm : ∃ n0 n1 n2, w.scene.normals[i]? = some (n0, n1, n2) := by
        rw [hn, List.getElem?_eq_getElem (by rw [hS.renders.aligned.1]; exact hjl)]
        exact ⟨_, _, _, rfl⟩
      obtain ⟨n0, n1, n2, hn1⟩ := hnorm
      refine ⟨m, hmem, hm, n0, n1, n2, hn1, ?_⟩
      by_cases h1 : m.emitsLight = true
      · exact Or.inl ⟨h1, by simp [World.branches, hc, hside, hm, h1], by simp [World.drawsAt, hc, hside, hm, h1]⟩
      have hl : m.emitsLight = false := by simpa using h1
      refine Or.inr ?_
      by_cases h2 : rt.maxDepth < ray.depth
      · exact Or.inl ⟨hl, h2, by simp [World.branches, hc, hside, hm, h2], by simp [World.drawsAt, hc, hside, hm, h2]⟩
      refine Or.inr ?_
      by_cases h3 : m.specularOnly = true
      · obtain ⟨p, hp, _⟩ := ((paths_holds False m h3 False.elim (recordedInteraction tri ray.geometry b).shading.normal (recordedInteraction tri ray.geometry b).point { ray with interaction := (recordedInteraction tri ray.geometry b).interpolateNormal n0 n1 n2 } False.elim).ends (paths_total m _ _ _)).ok
        exact Or.inl ⟨hl, not_lt.1 h2, h3, by simp [World.drawsAt, hc, hside, hm, h3], p, hp, by simp [World.branches, hc, hside, hm, hl, h2, h3, hn1, hp]⟩
      · have hs : m.specularOnly = false := by simpa using h3
        exact Or.inr ⟨hl, not_lt.1 h2, hs, by simp [World.branches, hc, hside, hm, hs], by simp [World.drawsAt, hc, hside, hm, hl, h2, hs]⟩

theorem refTrace_explores (hS : w.Solid s) (hM : w.LightsMet) (rt : RayTracer) (hD : rt.DirectOnly ∨ ∀ m ∈ s.materials, m.emitsLight = true ∨ m.specularOnly = true) (k : Nat) (ray : TRay) (rng r' : Rng) (hr : rng.Valid) (he : w.explore rt k ray rng = some r') :
    (refTrace w rt (k + (rt.nShadowSamples + 2)) rng ray).Ends fun x => x.2 = r' ∧ x.2.Valid := by
  induction k generalizing ray rng r' with
  | zero => cases he
  | succ k ih =>
    rw [show k + 1 + (rt.nShadowSamples + 2) = (k + (rt.nShadowSamples + 2)) + 1 by omega]
    unfold refTrace
    have done : ∀ n, n = 0 → some (rng.drop n) = some r' → rng = r' := by
      rintro n rfl h; exact Option.some.inj h
    rcases tree_cases hS rt ray with ⟨hc, hb, hd⟩ | ⟨i, tri, b, hc, ht, hcases⟩
    · rw [explore_leaf rt k ray rng 0 hb hd] at he
      have he := done 0 rfl he
      rw [hc, Res.bind_ok]
      simp only
      cases h : w.sky with
      | none => exact ⟨he, hr⟩
      | some sky => exact ⟨he, hr⟩
    · rw [hc, Res.bind_ok]
      simp only
      rcases hcases with ⟨hside, hb, hd⟩ | ⟨hside, m, hmem, hm, n0, n1, n2, hn, hcases⟩
      · rw [explore_leaf rt k ray rng 0 hb hd] at he
        rw [if_pos hside]
        exact ⟨done 0 rfl he, hr⟩
      · rw [if_neg hside, hm, Res.bind_ok]
        unfold refSurface
        simp only [ht, hn, Res.ofOption_some, Res.bind_ok]
        rcases hcases with ⟨h1, hb, hd⟩ | ⟨h1, h2, hb, hd⟩ | ⟨h1, h2, h3, hd, p, hp, hb⟩ | ⟨h1, h2, h3, hb, hd⟩
        · rw [explore_leaf rt k ray rng 0 hb hd] at he
          rw [if_pos h1]
          exact ⟨done 0 rfl he, hr⟩
        · rw [explore_leaf rt k ray rng 0 hb hd] at he
          rw [if_neg (by simp [h1]), if_pos h2]
          exact ⟨done 0 rfl he, hr⟩
        · rw [explore_step rt k ray rng _ 0 hb hd] at he
          rw [if_neg (by simp [h1]), if_neg (not_lt.2 h2), if_pos h3, hp, Res.bind_ok]
          exact (refSpecular_explores _ _ _ (fun ray rng r' hr h => ih ray rng r' hr h) p.toList rng r' hr he).bind fun y hy => hy
        · have hD : rt.DirectOnly := by
            rcases hD with hD | hD
            · exact hD
            · rcases hD m hmem with h4 | h4
              · rw [h1] at h4; cases h4
              · rw [h3] at h4; cases h4
          rw [explore_leaf rt k ray rng _ hb hd] at he
          rw [if_neg (by simp [h1]), if_neg (not_lt.2 h2), if_neg (by simp [h3]), (C64_counts _ _ _ _ _).1 hD]
          simp only [if_true]
          have hlt : (if ray.depth = 0 then rt.nShadowSamples else 1) < k + (rt.nShadowSamples + 2) := by split_ifs <;> omega
          obtain ⟨x, hx, hv⟩ := (localIllumination_ends hS hM (k + (rt.nShadowSamples + 2)) m h1 h3 { ray with interaction := (recordedInteraction tri ray.geometry b).interpolateNormal n0 n1 n2 } _ hlt rng hr).ok
          rw [hx, Res.bind_ok]
          refine ⟨?_, hv⟩
          rw [← Option.some.inj he]
          exact localIllumination_draws hS hM _ m _ _ rng x hx

/-- In scenes where all materials are specular or emit light: if tracing ends, so does exploring, with the same numbers left. -/
theorem refTrace_explored (hS : w.Solid s) (rt : RayTracer) (hm : ∀ m ∈ s.materials, m.emitsLight = true ∨ m.specularOnly = true) (k : Nat) (ray : TRay) (rng : Rng) (x : (Spectrum ℝ × ℝ) × Rng) (h : refTrace w rt k rng ray = .ok x) :
    w.explore rt k ray rng = some x.2 := by
  induction k generalizing ray rng x with
  | zero => cases h
  | succ k ih =>
    unfold refTrace at h
    rcases tree_cases hS rt ray with ⟨hc, hb, hd⟩ | ⟨i, tri, b, hc, ht, hcases⟩
    · rw [explore_leaf rt k ray rng 0 hb hd]
      rw [hc, Res.bind_ok] at h
      simp only at h
      cases hsky : w.sky with
      | none => rw [hsky] at h; cases h; rfl
      | some sky => rw [hsky] at h; cases h; rfl
    · rw [hc, Res.bind_ok] at h
      simp only at h
      rcases hcases with ⟨hside, hb, hd⟩ | ⟨hside, m, hmem, hm', n0, n1, n2, hn, hcases⟩
      · rw [explore_leaf rt k ray rng 0 hb hd]
        rw [if_pos hside] at h
        cases h; rfl
      · rw [if_neg hside, hm', Res.bind_ok] at h
        unfold refSurface at h
        simp only [ht, hn, Res.ofOption_some, Res.bind_ok] at h
        rcases hcases with ⟨h1, hb, hd⟩ | ⟨h1, h2, hb, hd⟩ | ⟨h1, h2, h3, hd, p, hp, hb⟩ | ⟨h1, h2, h3, hb, hd⟩
        · rw [explore_leaf rt k ray rng 0 hb hd]
          rw [if_pos h1] at h
          cases h; rfl
        · rw [explore_leaf rt k ray rng 0 hb hd]
          rw [if_neg (by simp [h1]), if_pos h2] at h
          cases h; rfl
        · rw [explore_step rt k ray rng _ 0 hb hd]
          rw [if_neg (by simp [h1]), if_neg (not_lt.2 h2), if_pos h3, hp, Res.bind_ok] at h
          obtain ⟨⟨light, r1⟩, hs, h4⟩ := Res.bind_eq_ok h
          clear h
          cases h4
          simp only
          rw [show rng.drop 0 = rng from rfl]
          clear hb hp
          generalize p.toList = l at hs
          clear h3 p
          induction l generalizing rng light r1 with
          | nil => cases hs; rfl
          | cons q l ih' =>
            obtain ⟨path, weight⟩ := q
            unfold refSpecular at hs
            simp only at hs
            obtain ⟨⟨y, r2⟩, h5, hs⟩ := Res.bind_eq_ok hs
            simp only at hs
            obtain ⟨⟨others, r3⟩, h6, hs⟩ := Res.bind_eq_ok hs
            cases hs
            simp only [List.map_cons, followAll, Option.bind_eq_some_iff]
            exact ⟨r2, ih _ _ _ h5, ih' _ _ _ h6⟩
        · rcases hm m hmem with h4 | h4
          · rw [h1] at h4; cases h4
          · rw [h3] at h4; cases h4

end Rendering
