import Verif.Props.DcSafety
import Verif.Props.Sfluxmtx

/-!
# C60, C96: when tracing ends
-/

set_option linter.unusedSectionVars false
namespace Rendering

open Classical

/-- The computation returns, and what it returns satisfies `P`. -/
def Res.Ends {α : Type} (P : α → Prop) : Res α → Prop
  | .ok x => P x
  | .panic => False
  | .diverge => False

theorem Res.Ends.bind {α β : Type} {P : α → Prop} {Q : β → Prop} {r : Res α} {f : α → Res β} (h : r.Ends P) (hf : ∀ x, P x → (f x).Ends Q) : (r.bind f).Ends Q := by
  cases r with
  | ok x => exact hf x h
  | panic => exact h.elim
  | diverge => exact h.elim

theorem Res.Ends.mono {α : Type} {P Q : α → Prop} {r : Res α} (h : r.Ends P) (hf : ∀ x, P x → Q x) : r.Ends Q := by
  cases r with
  | ok x => exact hf x h
  | panic => exact h.elim
  | diverge => exact h.elim

theorem Res.Holds.ends {α : Type} {P : α → Prop} {r : Res α} (h : r.Holds P) (hd : r ≠ .diverge) : r.Ends P := by
  cases r with
  | ok x => exact h
  | panic => exact h.elim
  | diverge => exact hd rfl

theorem Res.Ends.ok {α : Type} {P : α → Prop} {r : Res α} (h : r.Ends P) : ∃ x, r = .ok x ∧ P x := by
  cases r with
  | ok x => exact ⟨x, rfl, h⟩
  | panic => exact h.elim
  | diverge => exact h.elim

theorem bind_ne_diverge {α β : Type} {r : Res α} {f : α → Res β} (h : r ≠ .diverge) (hf : ∀ x, f x ≠ .diverge) : r.bind f ≠ .diverge := by
  cases r with
  | ok x => exact hf x
  | panic => intro h; cases h
  | diverge => exact absurd rfl h

theorem ofOption_ne_diverge {α : Type} (x : Option α) : Res.ofOption x ≠ .diverge := by
  cases x <;> intro h <;> cases h

variable {w : World} {s : Scene ℝ}

theorem sampleBsdf_total (fuel : Nat) (m : Material ℝ) (hg : m.NotGlossy) (normal e1 e2 pt : Vec3 ℝ) (ray : TRay) (rng : Rng) (hr : rng.Valid) : m.sampleBsdf fuel normal e1 e2 pt ray rng ≠ .diverge := by
  have key : ∀ a : ℝ, sampleWard fuel normal e1 e2 pt 0 a a ray rng ≠ .diverge := by
    intro a
    unfold sampleWard
    simp only [Rng.gen, not_lt.2 (hr 0).1, if_false]
    intro h; cases h
  cases m with
  | plastic c s r =>
    have : s = 0 := hg
    subst this
    exact bind_ne_diverge (key r) fun x h => by cases h
  | metal c s r =>
    have : s = 0 := hg
    subst this
    exact bind_ne_diverge (key r) fun x h => by cases h
  | light c => intro h; cases h
  | mirror c => intro h; cases h
  | glass c n => intro h; cases h
  | dielectric c n => intro h; cases h

theorem paths_total (m : Material ℝ) (normal pt : Vec3 ℝ) (ray : TRay) : m.getPossiblePaths normal pt ray ≠ .diverge := by
  cases m <;> intro h <;> cases h

theorem sampleDirection_total (ext : GeoExt) (p : Primitive ℝ) (hp : p.CanBeSampled) (rng : Rng) (pt : Vec3 ℝ) : p.sampleDirection ext rng pt ≠ .diverge := by
  unfold Primitive.sampleDirection
  refine bind_ne_diverge ?_ fun x h => by cases h
  cases p with
  | cylinder a b c => exact hp.elim
  | sphere c r => intro h; cases h
  | triangle t => intro h; cases h
  | source d a =>
    simp only [Primitive.sampleSurface, uniformSampleDisc]
    exact bind_ne_diverge (ofOption_ne_diverge _) fun x h => by cases h

theorem solidAnglePdf_total (p : Primitive ℝ) (info : IntersectionInfo) (ray : Ray3 ℝ) : p.solidAnglePdf info ray ≠ .diverge := by
  cases p <;> intro h <;> cases h

theorem intersectLight_total (hS : w.Solid s) (o : Object ℝ) (ray : Ray3 ℝ) : w.intersectLight o ray ≠ .diverge := by
  unfold World.intersectLight
  split
  · intro h; cases h
  · rename_i info _
    obtain ⟨r, e, _⟩ := C03_unobstructed w.env hS.renders.lawful hS.renders.box s w.scene hS.renders.aligned hS.renders.fits hS.renders.built ray ((ray.origin - info.p).lengthSq) []
    simp only [e, Res.bind_ok]
    split_ifs
    · intro h; cases h
    · split
      · intro h; cases h
      · exact bind_ne_diverge (ofOption_ne_diverge _) fun m => bind_ne_diverge (solidAnglePdf_total _ _ _) fun x h => by cases h
      · exact bind_ne_diverge (ofOption_ne_diverge _) fun m => bind_ne_diverge (solidAnglePdf_total _ _ _) fun x h => by cases h

theorem evalBsdf_total (dt : DirTests) (m : Material ℝ) (normal e1 e2 : Vec3 ℝ) (ray : TRay) (vout : Vec3 ℝ) (hl : m.emitsLight = false) (hs : m.specularOnly = false) : m.evalBsdf dt normal e1 e2 ray vout ≠ .diverge := by
  cases m with
  | plastic c s r => intro h; cases h
  | metal c s r => intro h; cases h
  | light c => simp [Material.emitsLight] at hl
  | mirror c => simp [Material.specularOnly] at hs
  | dielectric c n => simp [Material.specularOnly] at hs
  | glass c n => simp [Material.specularOnly] at hs

theorem lightLoop_ends (hS : w.Solid s) (hM : w.LightsMet) (m : Material ℝ) (hl : m.emitsLight = false) (hs : m.specularOnly = false) (ray : TRay) (n : Nat) (pt normal e1 e2 : Vec3 ℝ) (o : Object ℝ) (ho : o ∈ s.lights ++ s.distantLights)
    (fuel i : Nat) (hf : n - i < fuel) (acc : Spectrum ℝ) (rng : Rng) (hr : rng.Valid) : (w.lightLoop m ray n pt normal e1 e2 o fuel i acc rng).Ends fun x => x.2.Valid := by
  induction fuel generalizing i acc rng with
  | zero => omega
  | succ fuel ih =>
    unfold World.lightLoop
    split_ifs with hi
    · have hsd := (sampleDirection_holds w.ext hS.perp o.primitive (hS.lights o ho) rng hr pt).ends (sampleDirection_total w.ext o.primitive (hS.lights o ho) rng pt)
      obtain ⟨⟨d, rng1⟩, hd, hx⟩ := hsd.ok
      rw [hd, Res.bind_ok]
      have hmeet := hM o (by obtain ⟨_, h1, h2⟩ := hS.renders.same; rw [h1, h2]; exact ho) pt d rng rng1 hd
      obtain ⟨r, hr1, _⟩ := ((intersectLight_holds False hS False.elim o ho ⟨pt, d⟩).ends (intersectLight_total hS o ⟨pt, d⟩)).ok
      have hne : r ≠ none := by
        rintro rfl
        unfold World.intersectLight at hr1
        cases hp : w.ext.primIntersect o.primitive ⟨pt, d⟩ with
        | none => exact hmeet hp
        | some info =>
          simp only [hp] at hr1
          obtain ⟨free, _, h2⟩ := Res.bind_eq_ok hr1
          split_ifs at h2
          · cases h2
          · split at h2
            · cases h2
            · obtain ⟨_, _, h3⟩ := Res.bind_eq_ok h2
              obtain ⟨_, _, h4⟩ := Res.bind_eq_ok h3
              cases h4
            · obtain ⟨_, _, h3⟩ := Res.bind_eq_ok h2
              obtain ⟨_, _, h4⟩ := Res.bind_eq_ok h3
              cases h4
      simp only
      rw [hr1, Res.bind_ok]
      cases r with
      | none => exact absurd rfl hne
      | some y =>
        obtain ⟨colour, pdf⟩ := y
        simp only
        split_ifs with hpdf
        · exact ih (i + 1) (by omega) acc _ hx
        · unfold World.lightTerm
          obtain ⟨c, hc, _⟩ := ((evalBsdf_holds False w.dt m hl hs False.elim normal e1 e2 ray (d.scale (-1))).ends (evalBsdf_total w.dt m normal e1 e2 ray _ hl hs)).ok
          simp only [hc, Res.bind_ok]
          exact ih (i + 1) (by omega) _ _ hx
    · exact hr

theorem lightsLoop_ends (hS : w.Solid s) (hM : w.LightsMet) (fuel : Nat) (m : Material ℝ) (hl : m.emitsLight = false) (hs : m.specularOnly = false) (ray : TRay) (n : Nat) (hf : n < fuel) (pt normal e1 e2 : Vec3 ℝ) (os : List (Object ℝ))
    (hos : ∀ o ∈ os, o ∈ s.lights ++ s.distantLights) (acc : Spectrum ℝ) (rng : Rng) (hr : rng.Valid) : (w.lightsLoop fuel m ray n pt normal e1 e2 os acc rng).Ends fun x => x.2.Valid := by
  induction os generalizing acc rng with
  | nil => exact hr
  | cons o os ih =>
    unfold World.lightsLoop
    refine (lightLoop_ends hS hM m hl hs ray n pt normal e1 e2 o (hos o List.mem_cons_self) fuel 0 (by omega) acc rng hr).bind fun x hx => ?_
    exact ih (fun o ho => hos o (List.mem_cons_of_mem _ ho)) _ _ hx

theorem localIllumination_ends (hS : w.Solid s) (hM : w.LightsMet) (fuel : Nat) (m : Material ℝ) (hl : m.emitsLight = false) (hs : m.specularOnly = false) (ray : TRay) (n : Nat) (hf : n < fuel) (rng : Rng) (hr : rng.Valid) :
    (w.localIllumination fuel m ray rng n).Ends fun x => x.2.Valid := by
  obtain ⟨_, h1, h2⟩ := hS.renders.same
  unfold World.localIllumination World.sampleLightArray
  rw [h1, h2]
  refine (lightsLoop_ends hS hM fuel m hl hs ray n hf _ _ _ _ s.lights (fun o ho => List.mem_append_left _ ho) _ rng hr).bind fun x hx => ?_
  exact (lightsLoop_ends hS hM fuel m hl hs ray n hf _ _ _ _ s.distantLights (fun o ho => List.mem_append_right _ ho) _ _ hx).bind fun y hy => hy

/-- What is required of a tracer for rays of a given depth: it ends, and in scenes without light it reports no light. -/
def EndsAt (Q : Prop) (t : RefTrace) (depth : Nat) : Prop := ∀ rng ray, Rng.Valid rng → ray.depth = depth → (t rng ray).Ends fun x => x.2.Valid ∧ (Q → x.1.2 = 0)

theorem refSpecular_ends (Q : Prop) (self : RefTrace) (csb : ℝ) (hc : 1 ≤ csb) (depth : Nat) (h : EndsAt Q self (depth + 1)) (paths : List (TRay × Spectrum ℝ)) (hp : ∀ x ∈ paths, x.1.depth = depth) (rng : Rng) (hr : rng.Valid) :
    (refSpecular self csb paths rng).Ends fun x => x.2.Valid := by
  induction paths generalizing rng with
  | nil => exact hr
  | cons p paths ih =>
    obtain ⟨path, weight⟩ := p
    unfold refSpecular
    have hp0 := hp _ List.mem_cons_self
    have hq : rng 0 < csb := lt_of_lt_of_le (hr 0).2 hc
    simp only [hq, if_true]
    refine (h _ _ (hr.rest 1) (by simp only at hp0 ⊢; rw [hp0])).bind fun x hx => ?_
    exact (ih (fun x hx => hp x (List.mem_cons_of_mem _ hx)) _ hx.1).bind fun y hy => hy

theorem refAmbient_ends (self : RefTrace) (m : Material ℝ) (hl : m.emitsLight = false) (hs : m.specularOnly = false) (hg : m.NotGlossy) (arriving : TRay) (h : EndsAt True self (arriving.depth + 1)) (fuel n : Nat) (hf : n < fuel) (rng : Rng) (hr : rng.Valid) :
    (refAmbient self m arriving fuel n rng).Ends fun x => x.2.Valid := by
  induction fuel generalizing n rng with
  | zero => omega
  | succ fuel ih =>
    cases n with
    | zero => exact hr
    | succ n =>
      unfold refAmbient
      refine ((sampleBsdf_holds False fuel m hl hs hg False.elim _ _ _ _ arriving rng hr False.elim).ends (sampleBsdf_total fuel m hg _ _ _ _ arriving rng hr)).bind fun x hx => ?_
      refine (h _ _ hx.1 rfl).bind fun y hy => ?_
      have h0 : ¬ y.1.2 > 0 := by rw [hy.2 trivial]; exact lt_irrefl 0
      simp only [h0, if_false]
      exact (ih n (by omega) _ hy.1).bind fun z hz => hz

theorem refSurface_ends (Q : Prop) (hS : w.Solid s) (hM : w.LightsMet) (rt : RayTracer) (hG : rt.DirectOnly ∨ ∀ m ∈ s.materials, m.NotGlossy) (hB : BouncesCount s rt.countSpecularBounce) (hQ : Q → ∀ m ∈ s.materials, m.emitsLight = false)
    (hAQ : (rt.maxDepth = 0 ∨ rt.nAmbientSamples = 0) ∨ Q) (fuel : Nat) (hfuel : max rt.nAmbientSamples 1 < fuel ∧ max rt.nShadowSamples 1 < fuel) (self : RefTrace) (i j : Nat) (m : Material ℝ) (hm : m ∈ s.materials) (ray : TRay) (tri : Tri ℝ)
    (h : ray.depth ≤ rt.maxDepth → EndsAt Q self (ray.depth + 1)) (hi : w.scene.triangles[i]? = some tri) (hj : s.triangles[j]? = some tri) (hn : w.scene.normals[i]? = s.normals[j]?) (rng : Rng) (hr : rng.Valid) :
    (refSurface w rt fuel self i m ray rng).Ends fun x => x.2.Valid ∧ (Q → x.1.2 = 0) := by
  have hjl : j < s.triangles.length := (List.getElem?_eq_some_iff.1 hj).1
  have hnorm : ∃ n0 n1 n2, w.scene.normals[i]? = some (n0, n1, n2) := by
    rw [hn, List.getElem?_eq_getElem (by rw [hS.renders.aligned.1]; exact hjl)]
    exact ⟨_, _, _, rfl⟩
  obtain ⟨n0, n1, n2, hn1⟩ := hnorm
  unfold refSurface
  simp only [hi, hn1, Res.ofOption_some, Res.bind_ok]
  by_cases h1 : m.emitsLight = true
  · rw [if_pos h1]
    exact ⟨hr, fun q => by rw [hQ q m hm] at h1; cases h1⟩
  rw [if_neg h1]
  by_cases h2 : ray.depth > rt.maxDepth
  · rw [if_pos h2]
    exact ⟨hr, fun _ => rfl⟩
  rw [if_neg h2]
  have h := h (not_lt.1 h2)
  by_cases h3 : m.specularOnly = true
  · rw [if_pos h3]
    have hc : 1 ≤ rt.countSpecularBounce := by
      rcases hB with hB | hB
      · exact hB
      · rw [hB m hm] at h3; cases h3
    obtain ⟨p, hp, _⟩ := ((paths_holds False m h3 False.elim ray.interaction.shading.normal ray.interaction.point { ray with interaction := ray.interaction.interpolateNormal n0 n1 n2 } False.elim).ends (paths_total m _ _ _)).ok
    rw [hp, Res.bind_ok]
    refine (refSpecular_ends Q self _ hc ray.depth h p.toList ?_ rng hr).bind fun x hx => ⟨hx, fun _ => rfl⟩
    intro x hx
    exact paths_depth m _ _ _ p hp x hx
  · rw [if_neg h3]
    have hl : m.emitsLight = false := by simpa using h1
    have hs : m.specularOnly = false := by simpa using h3
    obtain ⟨g1, _, _, _, g5⟩ := ambientSamples_holds ({ ray with interaction := ray.interaction.interpolateNormal n0 n1 n2 } : TRay) rt.nAmbientSamples rt.maxDepth rt.limitWeight rng hr
    obtain ⟨c1, c2⟩ := ambientSamples_count ({ ray with interaction := ray.interaction.interpolateNormal n0 n1 n2 } : TRay) rt.nAmbientSamples rt.maxDepth rt.limitWeight rng
    generalize (({ ray with interaction := ray.interaction.interpolateNormal n0 n1 n2 } : TRay).getNAmbientSamples rt.nAmbientSamples rt.maxDepth rt.limitWeight rng) = samp at g1 g5 c1 c2
    obtain ⟨n, ray2, rng2⟩ := samp
    simp only at g1 g5 c1 c2 ⊢
    refine (localIllumination_ends hS hM fuel m hl hs ray2 _ ?_ rng2 g1).bind fun x hx => ?_
    · split_ifs <;> omega
    obtain ⟨loc, rng3⟩ := x
    simp only at hx ⊢
    by_cases hn0 : n = 0
    · rw [if_pos hn0]
      exact ⟨hx, fun _ => rfl⟩
    · rw [if_neg hn0]
      have q : Q := by
        rcases hAQ with hz | q
        · exact absurd (c2 hz) hn0
        · exact q
      refine (refAmbient_ends self m hl hs ((hG.resolve_left fun hz => hn0 (c2 hz)) m hm) ray2 ?_ fuel n (by omega) _ hx).bind fun y hy => ⟨hy, fun _ => rfl⟩
      intro rng' ray' hr' hd'
      exact (h rng' ray' hr' (by rw [hd', g5])).mono fun x hx => ⟨hx.1, fun _ => hx.2 q⟩

theorem refTrace_ends (Q : Prop) (hS : w.Solid s) (hM : w.LightsMet) (rt : RayTracer) (hG : rt.DirectOnly ∨ ∀ m ∈ s.materials, m.NotGlossy) (hB : BouncesCount s rt.countSpecularBounce) (hQ : Q → ∀ m ∈ s.materials, m.emitsLight = false) (hsky : Q → w.sky = none)
    (hAQ : (rt.maxDepth = 0 ∨ rt.nAmbientSamples = 0) ∨ Q) (levels fuel depth : Nat) (hl : rt.maxDepth + 1 ≤ depth + levels) (hfuel : max rt.nAmbientSamples rt.nShadowSamples + 2 + levels < fuel) : EndsAt Q (refTrace w rt fuel) depth := by
  induction levels generalizing fuel depth with
  | zero =>
    intro rng ray hr hd
    obtain ⟨fuel, rfl⟩ := Nat.exists_eq_succ_of_ne_zero (show fuel ≠ 0 by omega)
    unfold refTrace
    rcases hS.renders.cast_cases ray with ⟨hc, _⟩ | ⟨i, tri, b, j, hc, hj, hb, _, ht, hf, hbk, hn, _⟩
    · rw [hc, Res.bind_ok]
      simp only
      cases h : w.sky with
      | none => exact ⟨hr, fun _ => rfl⟩
      | some sky => exact ⟨hr, fun q => by rw [hsky q] at h; cases h⟩
    · rw [hc, Res.bind_ok]
      simp only
      split_ifs with hside
      · exact ⟨hr, fun _ => rfl⟩
      · have hjl : j < s.triangles.length := (List.getElem?_eq_some_iff.1 hj).1
        refine ((materialAt_holds hS _ hside i j hjl hf hbk).ends ?_).bind fun m hm => ?_
        · unfold World.materialAt
          split
          · exact bind_ne_diverge (ofOption_ne_diverge _) fun x => ofOption_ne_diverge _
          · exact bind_ne_diverge (ofOption_ne_diverge _) fun x => ofOption_ne_diverge _
          · intro h; cases h
        · exact refSurface_ends Q hS hM rt hG hB hQ hAQ fuel (by omega) _ i j m hm { ray with interaction := recordedInteraction tri ray.geometry b } tri (fun h => by exfalso; simp only at h; omega) ht hj hn rng hr
  | succ levels ih =>
    intro rng ray hr hd
    obtain ⟨fuel, rfl⟩ := Nat.exists_eq_succ_of_ne_zero (show fuel ≠ 0 by omega)
    unfold refTrace
    rcases hS.renders.cast_cases ray with ⟨hc, _⟩ | ⟨i, tri, b, j, hc, hj, hb, _, ht, hf, hbk, hn, _⟩
    · rw [hc, Res.bind_ok]
      simp only
      cases h : w.sky with
      | none => exact ⟨hr, fun _ => rfl⟩
      | some sky => exact ⟨hr, fun q => by rw [hsky q] at h; cases h⟩
    · rw [hc, Res.bind_ok]
      simp only
      split_ifs with hside
      · exact ⟨hr, fun _ => rfl⟩
      · have hjl : j < s.triangles.length := (List.getElem?_eq_some_iff.1 hj).1
        refine ((materialAt_holds hS _ hside i j hjl hf hbk).ends ?_).bind fun m hm => ?_
        · unfold World.materialAt
          split
          · exact bind_ne_diverge (ofOption_ne_diverge _) fun x => ofOption_ne_diverge _
          · exact bind_ne_diverge (ofOption_ne_diverge _) fun x => ofOption_ne_diverge _
          · intro h; cases h
        · exact refSurface_ends Q hS hM rt hG hB hQ hAQ fuel (by omega) _ i j m hm { ray with interaction := recordedInteraction tri ray.geometry b } tri (fun _ => by simp only; rw [hd]; exact ih fuel (depth + 1) (by omega) (by omega)) ht hj hn rng hr

/-- **C60 (partial).** Where no ambient sample can meet a light (there is no light and no sky) or none is taken (`max_depth` or `n_ambient_samples` is 0), tracing ends, for every ray and all random numbers, and the recursion and its loops take a number of steps bounded by the
settings; provided directions drawn towards lights meet them, and specular bounces count. (Missing: with a light or a sky it is false, `C60_violation_never_ends`; with specular bounces that do not count, `C57_violation_mirrors`.) -/
theorem C60_ends_partial (hS : w.Solid s) (hM : w.LightsMet) (rt : RayTracer) (hG : rt.DirectOnly ∨ ∀ m ∈ s.materials, m.NotGlossy) (hB : BouncesCount s rt.countSpecularBounce) (hA : w.AmbientEnds s rt) (rng : Rng) (hr : rng.Valid) (rays : List TRay) (ray : TRay) (h : rt.maxDepth < rays.length)
    (fuel : Nat) (hfuel : max rt.nAmbientSamples rt.nShadowSamples + rt.maxDepth + 3 < fuel) : ∃ x, traceRay w rt fuel ⟨rng, rays⟩ ray = .ok x := by
  have key : (refTrace w rt fuel rng ray).Ends fun _ => True := by
    rcases hA with hA | ⟨h1, h2⟩
    · exact (refTrace_ends False hS hM rt hG hB False.elim False.elim (Or.inl hA) (rt.maxDepth + 1) fuel ray.depth (by omega) (by omega) rng ray hr rfl).mono fun _ _ => trivial
    · exact (refTrace_ends True hS hM rt hG hB (fun _ => h2) (fun _ => h1) (Or.inr trivial) (rt.maxDepth + 1) fuel ray.depth (by omega) (by omega) rng ray hr rfl).mono fun _ _ => trivial
  rw [← C75_is_reference_tracer w rt fuel rng rays ray h] at key
  cases ht : traceRay w rt fuel ⟨rng, rays⟩ ray with
  | ok x => exact ⟨x, rfl⟩
  | panic => rw [ht] at key; exact key.elim
  | diverge => rw [ht] at key; exact key.elim

/-! ### Daylight coefficients -/

/-- What is required of a daylight-coefficient tracer for rays of at least a given depth: it ends, and rays come back no shallower than they were. -/
def DcEndsFrom (dc : DcFactory) (f : DcFn) (depth : Nat) : Prop := ∀ st ray, st.Good False dc → depth ≤ ray.depth → (f st ray).Ends fun x => ray.depth ≤ x.1.depth ∧ x.2.Good False dc

variable (dc : DcFactory)

theorem dcSpecularLoop_ends (self : DcFn) (csb : ℝ) (hc : 1 ≤ csb) (depth : Nat) (h : DcEndsFrom dc self (depth + 1)) (paths : List (TRay × Spectrum ℝ)) (hp : ∀ x ∈ paths, x.1.depth = depth) (st : DState) (hst : st.Good False dc) :
    (dcSpecularLoop self csb paths st).Ends fun st => st.Good False dc := by
  induction paths generalizing st with
  | nil => exact hst
  | cons p rest ih =>
    obtain ⟨path, bsdf⟩ := p
    have hpath := hp (path, bsdf) (List.mem_cons_self ..)
    have hq : st.rng 0 < csb := lt_of_lt_of_le (hst.rng 0).2 hc
    unfold dcSpecularLoop
    simp only [Rng.gen, hq, if_true]
    refine (h { st with rng := fun n => st.rng (n + 1) } _ ⟨hst.rng.rest 1, hst.rays, hst.row, hst.nonneg⟩ ?_).bind fun x hx => ih (fun y hy => hp y (List.mem_cons_of_mem _ hy)) _ hx.2
    simp only at hpath ⊢
    omega

theorem sampleBsdf_depth (fuel : Nat) (m : Material ℝ) (hg : m.NotGlossy) (normal e1 e2 pt : Vec3 ℝ) (ray : TRay) (rng : Rng) (hr : rng.Valid) (x : (Spectrum ℝ × ℝ) × TRay × Rng) (h : m.sampleBsdf fuel normal e1 e2 pt ray rng = .ok x) :
    x.2.1.depth = ray.depth := by
  have key : ∀ (a : ℝ) y, sampleWard fuel normal e1 e2 pt 0 a a ray rng = .ok y → y.2.1.depth = ray.depth := by
    intro a y hy
    unfold sampleWard at hy
    simp only [Rng.gen, not_lt.2 (hr 0).1, if_false] at hy
    cases hy
    rfl
  cases m with
  | plastic c s r =>
    have : s = 0 := hg
    subst this
    obtain ⟨y, hy, h⟩ := Res.bind_eq_ok h
    cases h
    exact key _ y hy
  | metal c s r =>
    have : s = 0 := hg
    subst this
    obtain ⟨y, hy, h⟩ := Res.bind_eq_ok h
    cases h
    exact key _ y hy
  | light c => cases h
  | mirror c => cases h
  | glass c n => cases h
  | dielectric c n => cases h

theorem dcAmbientLoop_ends (self : DcFn) (m : Material ℝ) (hl : m.emitsLight = false) (hs : m.specularOnly = false) (hg : m.NotGlossy) (fuel : Nat) (pt normal e1 e2 : Vec3 ℝ) (depth : Nat) (h : DcEndsFrom dc self (depth + 1))
    (n : Nat) (ray : TRay) (hd : depth ≤ ray.depth) (st : DState) (hst : st.Good False dc) : (dcAmbientLoop self m fuel pt normal e1 e2 n ray st).Ends fun x => ray.depth ≤ x.1.depth ∧ x.2.Good False dc := by
  induction n generalizing ray st with
  | zero => exact ⟨le_rfl, hst⟩
  | succ n ih =>
    unfold dcAmbientLoop
    obtain ⟨x, hx, x1⟩ := ((sampleBsdf_holds False fuel m hl hs hg False.elim normal e1 e2 pt ray st.rng hst.rng False.elim).ends (sampleBsdf_total fuel m hg normal e1 e2 pt ray st.rng hst.rng)).ok
    have hxd := sampleBsdf_depth fuel m hg normal e1 e2 pt ray st.rng hst.rng x hx
    obtain ⟨⟨bsdf, weight⟩, ray1, rng1⟩ := x
    rw [hx, Res.bind_ok]
    simp only at hxd x1 ⊢
    refine (h { st with rng := rng1 } _ ⟨x1.1, hst.rays, hst.row, hst.nonneg⟩ (by simp only; omega)).bind fun y hy => ?_
    simp only at hy
    exact (ih y.1 (by omega) y.2 hy.2).mono fun z hz => ⟨by omega, hz.2⟩

theorem materialAt_total (side : SurfaceSide) (i : Nat) : w.materialAt side i ≠ .diverge := by
  unfold World.materialAt
  split
  · exact bind_ne_diverge (ofOption_ne_diverge _) fun x => ofOption_ne_diverge _
  · exact bind_ne_diverge (ofOption_ne_diverge _) fun x => ofOption_ne_diverge _
  · intro h; cases h

theorem dcSurfaceStep_ends (hS : w.Sound s) (hB : BouncesCount s dc.countSpecularBounce) (fuel : Nat) (self : DcFn) (i j : Nat) (ray : TRay) (tri : Tri ℝ) (h : DcEndsFrom dc self (ray.depth + 1)) (hj : s.triangles[j]? = some tri)
    (hf : w.scene.front[i]? = s.front[j]?) (hbk : w.scene.back[i]? = s.back[j]?) (hn : w.scene.normals[i]? = s.normals[j]?) (st : DState) (hst : st.Good False dc) (hd : ray.depth ≤ dc.maxDepth) :
    (dcSurfaceStep w dc fuel self i ray st).Ends fun x => ray.depth ≤ x.1.depth ∧ x.2.Good False dc := by
  have hjl : j < s.triangles.length := (List.getElem?_eq_some_iff.1 hj).1
  unfold dcSurfaceStep
  by_cases hside : ray.interaction.shading.side = .NonApplicable
  · rw [if_pos hside]; exact ⟨le_rfl, hst⟩
  rw [if_neg hside]
  refine ((materialAt_holds hS.toSolid _ hside i j hjl hf hbk).ends (materialAt_total _ _)).bind fun m hm => ?_
  by_cases h1 : ray.depth > dc.maxDepth ∨ m.emitsDirectLight = true
  · rw [if_pos h1]; exact ⟨le_rfl, hst⟩
  rw [if_neg h1]
  have hl : m.emitsLight = false := by
    cases m <;> simp_all [Material.emitsDirectLight, Material.emitsLight]
  have hnorm : ∃ n0 n1 n2, w.scene.normals[i]? = some (n0, n1, n2) := by
    rw [hn, List.getElem?_eq_getElem (by rw [hS.renders.aligned.1]; exact hjl)]
    exact ⟨_, _, _, rfl⟩
  obtain ⟨n0, n1, n2, hn1⟩ := hnorm
  simp only [hn1, Res.ofOption_some, Res.bind_ok]
  by_cases h3 : m.specularOnly = true
  · rw [if_pos h3]
    have hc : 1 ≤ dc.countSpecularBounce := by
      rcases hB with hB | hB
      · exact hB
      · rw [hB m hm] at h3; cases h3
    obtain ⟨p, hp, _⟩ := ((paths_holds False m h3 False.elim ray.interaction.shading.normal ray.interaction.point { ray with interaction := ray.interaction.interpolateNormal n0 n1 n2 } False.elim).ends (paths_total m _ _ _)).ok
    simp only [TRay.getTriad]
    rw [hp, Res.bind_ok]
    refine (dcSpecularLoop_ends dc self _ hc ray.depth h p.toList ?_ st hst).bind fun st' hst' => ⟨le_rfl, hst'⟩
    intro x hx
    exact paths_depth m _ _ _ p hp x hx
  · rw [if_neg h3]
    have hs : m.specularOnly = false := by simpa using h3
    obtain ⟨g1, _, _, _, g5⟩ := ambientSamples_holds ({ ray with interaction := ray.interaction.interpolateNormal n0 n1 n2 } : TRay) dc.nAmbientSamples dc.maxDepth dc.limitWeight st.rng hst.rng
    generalize (({ ray with interaction := ray.interaction.interpolateNormal n0 n1 n2 } : TRay).getNAmbientSamples dc.nAmbientSamples dc.maxDepth dc.limitWeight st.rng) = samp at g1 g5
    obtain ⟨n, ray2, rng2⟩ := samp
    simp only at g1 g5 ⊢
    have hdep : ray2.depth < st.rays.length := by have := hst.rays; omega
    rw [if_pos hdep]
    exact (dcAmbientLoop_ends dc self m hl hs (hS.matt m hm) fuel _ _ _ _ ray.depth h n ray2 (by omega) { st with rng := rng2, rays := st.rays.set ray2.depth ray2 } ⟨g1, by simpa using hst.rays, hst.row, hst.nonneg⟩).mono fun x hx => ⟨by omega, hx.2⟩

theorem dcMissStep_total (ray : TRay) (st : DState) : dcMissStep dc ray st ≠ .diverge := by
  unfold dcMissStep
  refine bind_ne_diverge (ofOption_ne_diverge _) fun x => bind_ne_diverge ?_ fun y h => by cases h
  unfold Mat.set
  split_ifs <;> intro h <;> cases h

theorem dcTraceRay_ends (hS : w.Sound s) (hB : BouncesCount s dc.countSpecularBounce) (hbin : ∀ d, dc.dirToBin d < dc.nBins) (levels fuel depth : Nat) (hl : dc.maxDepth + 1 ≤ depth + levels) (hfuel : levels < fuel) :
    DcEndsFrom dc (dcTraceRay w dc fuel) depth := by
  induction levels generalizing fuel depth with
  | zero =>
    intro st ray hst hd
    obtain ⟨fuel, rfl⟩ := Nat.exists_eq_succ_of_ne_zero (show fuel ≠ 0 by omega)
    unfold dcTraceRay
    rcases hS.renders.cast_cases ray with ⟨hc, _⟩ | ⟨i, tri, b, j, hc, hj, hb, _, _, hf, hbk, hn, _⟩
    · rw [hc, Res.bind_ok]
      have hm := (dcMissStep_holds False dc hbin ray False.elim st hst).ends (dcMissStep_total dc ray st)
      obtain ⟨x, hx, _, x2⟩ := hm.ok
      simp only
      rw [hx]
      refine ⟨?_, x2⟩
      unfold dcMissStep at hx
      obtain ⟨_, _, hx⟩ := Res.bind_eq_ok hx
      obtain ⟨_, _, hx⟩ := Res.bind_eq_ok hx
      cases hx
      exact le_rfl
    · rw [hc, Res.bind_ok]
      simp only
      rw [if_pos (by omega)]
      exact ⟨le_rfl, hst⟩
  | succ levels ih =>
    intro st ray hst hd
    obtain ⟨fuel, rfl⟩ := Nat.exists_eq_succ_of_ne_zero (show fuel ≠ 0 by omega)
    unfold dcTraceRay
    rcases hS.renders.cast_cases ray with ⟨hc, _⟩ | ⟨i, tri, b, j, hc, hj, hb, _, _, hf, hbk, hn, _⟩
    · rw [hc, Res.bind_ok]
      have hm := (dcMissStep_holds False dc hbin ray False.elim st hst).ends (dcMissStep_total dc ray st)
      obtain ⟨x, hx, _, x2⟩ := hm.ok
      simp only
      rw [hx]
      refine ⟨?_, x2⟩
      unfold dcMissStep at hx
      obtain ⟨_, _, hx⟩ := Res.bind_eq_ok hx
      obtain ⟨_, _, hx⟩ := Res.bind_eq_ok hx
      cases hx
      exact le_rfl
    · rw [hc, Res.bind_ok]
      simp only
      by_cases hdd : ray.depth > dc.maxDepth
      · rw [if_pos hdd]; exact ⟨le_rfl, hst⟩
      · rw [if_neg hdd]
        refine dcSurfaceStep_ends dc hS hB fuel _ i j { ray with interaction := recordedInteraction tri ray.geometry b } tri ?_ hj hf hbk hn st hst (not_lt.1 hdd)
        intro st' ray' h1 h2
        exact ih fuel (ray.depth + 1) (by omega) (by omega) st' ray' h1 h2

theorem dcSample_total (hS : w.Sound s) (hB : BouncesCount s dc.countSpecularBounce) (hbin : ∀ d, dc.dirToBin d < dc.nBins) (hD : dc.maxDepth < 15) (fuel : Nat) (hfuel : dc.maxDepth + 1 < fuel) (origin e1 e2 normal d : Vec3 ℝ) (rng : Rng)
    (hr : rng.Valid) : dcSample w dc fuel origin e1 e2 normal d rng ≠ .diverge := by
  unfold dcSample
  refine bind_ne_diverge ?_ fun x h => by cases h
  obtain ⟨x, hx, _⟩ := (dcTraceRay_ends dc hS hB hbin (dc.maxDepth + 1) fuel 0 (by omega) hfuel ⟨rng, defaultRays, dc.blank⟩ { TRay.default with geometry := ⟨origin, localToWorld e1 e2 normal 0 d.x d.y d.z⟩, colour := Spectrum.gray Real.pi }
    ⟨hr, by simpa [defaultRays] using hD, dc.blank_isRow, False.elim⟩ (Nat.zero_le _)).ok
  rw [hx]
  intro h; cases h

theorem mapRes_ne_diverge {A B : Type} {f : A → Res B} (l : List A) (h : ∀ a ∈ l, f a ≠ .diverge) : mapRes f l ≠ .diverge := by
  induction l with
  | nil => intro h; cases h
  | cons a l ih =>
    unfold mapRes
    exact bind_ne_diverge (h a (List.mem_cons_self ..)) fun b => bind_ne_diverge (ih fun x hx => h x (List.mem_cons_of_mem _ hx)) fun bs h => by cases h

theorem dcSum_total (l : List (Mat (Spectrum ℝ))) (m : Mat (Spectrum ℝ)) : dcSum m l ≠ .diverge := by
  induction l generalizing m with
  | nil => intro h; cases h
  | cons a l ih =>
    unfold dcSum
    refine bind_ne_diverge ?_ fun x => ih x
    unfold Mat.addAssign
    split_ifs <;> intro h <;> cases h

theorem dcCopyRow_total (c : Mat (Spectrum ℝ)) (i : Nat) (bins : List Nat) (m : Mat (Spectrum ℝ)) : dcCopyRow c i bins m ≠ .diverge := by
  induction bins generalizing m with
  | nil => intro h; cases h
  | cons b bins ih =>
    unfold dcCopyRow
    refine bind_ne_diverge (ofOption_ne_diverge _) fun v => bind_ne_diverge ?_ fun x => ih x
    unfold Mat.set
    split_ifs <;> intro h <;> cases h

theorem dcCopyRows_total (n : Nat) (l : List (Mat (Spectrum ℝ))) (i : Nat) (m : Mat (Spectrum ℝ)) : dcCopyRows n i l m ≠ .diverge := by
  induction l generalizing i m with
  | nil => intro h; cases h
  | cons a l ih =>
    unfold dcCopyRows
    exact bind_ne_diverge (dcCopyRow_total _ _ _ _) fun x => ih _ x

variable {dc}

/-- **C96 (partial).** In a scene without glossy materials, when specular bounces count (or there are no specular surfaces), `calc_dc` returns a matrix, for all sensors that face some direction and all random numbers, after a number of nested calls bounded by `max_depth`.
(Missing: glossy materials; specular bounces that do not count, for which see `C57_violation_mirrors`.) -/
theorem C96_dc_returns_partial (hS : w.Sound s) (hB : BouncesCount s dc.countSpecularBounce) (hbin : ∀ d, dc.dirToBin d < dc.nBins) (hD : dc.maxDepth < 15) (fuel : Nat) (hfuel : dc.maxDepth + 1 < fuel) (rays : List (Ray3 ℝ))
    (hn : ∀ r ∈ rays, Norm r.direction = 1) (primary : Nat → Rng) (secondary : Nat → Nat → Rng) (hr : ∀ i k, (secondary i k).Valid) :
    ∃ M, calcDc w dc fuel rays primary secondary = .ok M ∧ M.nrows = rays.length ∧ M.ncols = dc.nBins := by
  have hp := C94_never_panics_partial hS hbin hD fuel rays hn primary secondary hr
  have hd : calcDc w dc fuel rays primary secondary ≠ .diverge := by
    unfold calcDc
    refine bind_ne_diverge (mapRes_ne_diverge _ ?_) fun x => dcCopyRows_total _ _ _ _
    intro x _
    unfold dcRow
    refine bind_ne_diverge (ofOption_ne_diverge _) fun e2 => bind_ne_diverge (mapRes_ne_diverge _ ?_) fun x => dcSum_total _ _
    intro y _
    exact dcSample_total dc hS hB hbin hD fuel hfuel _ _ _ _ _ _ (hr _ _)
  cases h : calcDc w dc fuel rays primary secondary with
  | ok M => exact ⟨M, rfl, (C58_rows w dc fuel rays primary secondary M h).2.1, (C58_rows w dc fuel rays primary secondary M h).2.2.1⟩
  | panic => exact absurd h hp
  | diverge => exact absurd h hd

/-- **C96 (partial), the program.** When every line of the input gives six numbers, not all zero in the direction, `sfluxmtx` runs to the end and writes a file that reads back with a row for every line. (Missing: as for `C96_dc_returns_partial`.) -/
theorem C96_sfluxmtx_succeeds_partial (parse : List Char → Option ℝ) (decode : List UInt8 → Option (List Char)) (fmt : NumFmt ℝ) (hp : NumberParser parse) (round5 : ℝ → ℝ) (hfmt : fmt.FixedFaithful round5) (hS : w.Sound s)
    (hB : BouncesCount s dc.countSpecularBounce) (hbin : ∀ d, dc.dirToBin d < dc.nBins) (hD : dc.maxDepth < 15) (fuel : Nat) (hfuel : dc.maxDepth + 1 < fuel) (input : List UInt8)
    (hlines : ∀ l ∈ rawLines input, ∃ t r, decode l = some t ∧ SensorLine parse Vec3.normalized t r)
    (hdir : ∀ l ∈ rawLines input, ∀ t px py pz dx dy dz, decode l = some t → Words [px, py, pz, dx, dy, dz] t → ¬ (parse dx = some 0 ∧ parse dy = some 0 ∧ parse dz = some 0))
    (hlen : (rawLines input).length < 2 ^ 64) (hbins : dc.nBins < 2 ^ 64) (primary : Nat → Rng) (secondary : Nat → Nat → Rng) (hr : ∀ i k, (secondary i k).Valid) :
    ∃ content m, sfluxmtx parse decode fmt w dc fuel input primary secondary = some (.ok content) ∧ readColourMatrix fmt content = .ok (some m) ∧ m.nrows = (rawLines input).length ∧ m.ncols = dc.nBins := by
  have hd : ∀ l ∈ rawLines input, ∃ t, decode l = some t := fun l hl => by
    obtain ⟨t, _, h, _⟩ := hlines l hl
    exact ⟨t, h⟩
  have hex : ∃ rays, List.Forall₂ (fun line r => ∃ t, decode line = some t ∧ SensorLine parse Vec3.normalized t r) (rawLines input) rays := by
    generalize rawLines input = L at hlines
    induction L with
    | nil => exact ⟨[], .nil⟩
    | cons l L ih =>
      obtain ⟨t, r, h1, h2⟩ := hlines l (List.mem_cons_self ..)
      obtain ⟨rays, h3⟩ := ih fun l hl => hlines l (List.mem_cons_of_mem _ hl)
      exact ⟨r :: rays, .cons ⟨t, h1, h2⟩ h3⟩
  obtain ⟨rays, hfor⟩ := hex
  have hrays := (C89_one_ray_per_line_partial parse hp Vec3.normalized decode input hd rays).2 hfor
  obtain ⟨M, hM, h1, h2⟩ := C96_dc_returns_partial hS hB hbin hD fuel hfuel rays (sensors_unit parse decode hp input hd hdir rays hrays) primary secondary hr
  have hok : sfluxmtx parse decode fmt w dc fuel input primary secondary = some (.ok (saveColourMatrix fmt M)) := by
    unfold sfluxmtx
    rw [hrays, Option.map_some, hM, Res.bind_ok]
  obtain ⟨_, m, _, k1, k2, k3, _⟩ := C95_row_per_line parse decode fmt w dc hp round5 hfmt fuel input hd hlen hbins primary secondary _ hok
  exact ⟨_, m, hok, k1, k2, k3⟩

/-! ### The hypotheses can be met -/

/-- C60: an unlit floor is traced to the end whatever the number of samples; C96: its daylight coefficients are computed. -/
example : ∃ (s : Scene ℝ) (w : World), w.Sound s ∧ w.LightsMet ∧ s.triangles ≠ [] ∧ BouncesCount s 0 ∧ w.AmbientEnds s { maxDepth := 3, nShadowSamples := 10, nAmbientSamples := 100, limitWeight := 1, countSpecularBounce := 0 } := by
  let ops : List (SceneOp ℝ) := [.pushMaterial (.plastic (Spectrum.gray (1 / 2)) 0 0), .pushObject 0 0 (.triangle (plane 0))]
  let s0 : Scene ℝ := { triangles := [plane 0], normals := (meshTriangle realEnv (plane 0)).2, front := [0], back := [0], materials := [.plastic (Spectrum.gray (1 / 2)) 0 0] }
  have hrun : Scene.run realEnv {} ops = .ok s0 := rfl
  obtain ⟨ext, hext⟩ := perpSpec_exists
  obtain ⟨w, hR, rfl, _, hsky, _⟩ := renders_exists s0 ⟨rfl, rfl, rfl⟩ (fits_of_small _ (by simp [s0])) ext ⟨fun _ _ => false, fun _ _ => false⟩ none none
  have hmat : ∀ m ∈ s0.materials, m.specularOnly = false ∧ m.emitsLight = false := by
    intro m hm
    simp only [s0, List.mem_singleton] at hm
    subst hm
    exact ⟨rfl, rfl⟩
  refine ⟨s0, w, ?_, ?_, by simp [s0], Or.inr fun m hm => (hmat m hm).1, Or.inr ⟨hsky, fun m hm => (hmat m hm).2⟩⟩
  · refine sound_of_run realEnv refEnv_lawful (fun _ _ => rfl) ops ?_ s0 hrun w hR hext
    intro op hop
    simp only [ops, List.mem_cons, List.not_mem_nil, or_false] at hop
    rcases hop with rfl | rfl
    · rfl
    · trivial
  · intro o ho
    rw [hR.same.2.1, hR.same.2.2] at ho
    simp [s0] at ho

/-- C60: with direct light only, the sunny floor is traced to the end under a sky. -/
example : ∃ (s : Scene ℝ) (w : World), w.Sound s ∧ w.LightsMet ∧ s.triangles ≠ [] ∧ s.distantLights ≠ [] ∧ w.sky ≠ none ∧ BouncesCount s 0 ∧ w.AmbientEnds s { maxDepth := 0, nShadowSamples := 10, nAmbientSamples := 100, limitWeight := 1, countSpecularBounce := 0 } := by
  let s0 : Scene ℝ := { triangles := [plane 0], normals := (meshTriangle realEnv (plane 0)).2, front := [0], back := [0], materials := [.plastic (Spectrum.gray (1 / 2)) 0 0, .light (Spectrum.gray 5)],
                        distantLights := [{ front := 1, back := 1, primitive := .source ⟨0, 0, 1⟩ 1 }] }
  have hrun : Scene.run realEnv {} sunnyFloor = .ok s0 := rfl
  obtain ⟨ext, hext⟩ := perpSpec_exists
  let ext' : GeoExt := { ext with primIntersect := fun _ ray => some { p := ray.origin + ray.direction, normal := ray.direction.scale (-1), side := .Front, dpdu := 0, dpdv := 0, u := 0, v := 0 } }
  obtain ⟨w, hR, hw, _, hsky, _⟩ := renders_exists s0 ⟨rfl, rfl, rfl⟩ (fits_of_small _ (by simp [s0])) ext' ⟨fun _ _ => false, fun _ _ => false⟩ (some fun _ => 1) none
  refine ⟨s0, w, ?_, ?_, by simp [s0], by simp [s0], by rw [hsky]; simp, Or.inr ?_, Or.inl (Or.inl rfl)⟩
  · exact sound_of_run realEnv refEnv_lawful (fun _ _ => rfl) sunnyFloor (fun op h => (sunnyFloor_good op h).1) s0 hrun w hR (by rw [hw]; exact hext)
  · intro o _ pt d rng rng' _
    rw [hw]
    simp [ext']
  · intro m hm
    simp only [s0, List.mem_cons, List.not_mem_nil, or_false] at hm
    rcases hm with rfl | rfl <;> rfl

end Rendering
