import Verif.Lemmas.Tracer
import Verif.Spec.Tracer

/-!
# Tracing with scratch memory computes what tracing without it computes
-/

set_option linter.unusedSectionVars false
namespace Rendering

open Classical

/-- The two computations end in the same way with the same answer and the same generator; the first one has kept the size of the scratch memory and the first `d` slots. -/
def Agrees {X : Type} (rays : List TRay) (d : Nat) : Res (X × TRay × TState) → Res (X × Rng) → Prop
  | .ok (x, _, st), .ok (y, rng) => x = y ∧ st.rng = rng ∧ st.rays.length = rays.length ∧ ∀ k < d, st.rays[k]? = rays[k]?
  | .panic, .panic => True
  | .diverge, .diverge => True
  | _, _ => False

theorem Agrees.ok {X : Type} {rays : List TRay} {d : Nat} {x : X} {ray : TRay} {st : TState} (h : st.rays.length = rays.length) (hk : ∀ k < d, st.rays[k]? = rays[k]?) :
    Agrees rays d (.ok (x, ray, st)) (.ok (x, st.rng)) := ⟨rfl, rfl, h, hk⟩

theorem Agrees.bind {X Y : Type} {rays rays' : List TRay} {d d' : Nat} {a : Res (X × TRay × TState)} {b : Res (X × Rng)}
    {f : X × TRay × TState → Res (Y × TRay × TState)} {g : X × Rng → Res (Y × Rng)} (h : Agrees rays d a b)
    (hf : ∀ x ray st, st.rays.length = rays.length → (∀ k < d, st.rays[k]? = rays[k]?) → Agrees rays' d' (f (x, ray, st)) (g (x, st.rng))) :
    Agrees rays' d' (a.bind f) (b.bind g) := by
  cases a with
  | ok x =>
    obtain ⟨x, ray, st⟩ := x
    cases b with
    | ok y =>
      obtain ⟨y, rng⟩ := y
      obtain ⟨rfl, rfl, hl, hk⟩ := h
      exact hf _ _ _ hl hk
    | panic => exact h.elim
    | diverge => exact h.elim
  | panic => cases b with
    | panic => exact trivial
    | ok _ => exact h.elim
    | diverge => exact h.elim
  | diverge => cases b with
    | diverge => exact trivial
    | ok _ => exact h.elim
    | panic => exact h.elim

/-- Binding the same computation on both sides. -/
theorem Agrees.bind_same {X Y : Type} {rays : List TRay} {d : Nat} (a : Res X) {f : X → Res (Y × TRay × TState)} {g : X → Res (Y × Rng)}
    (hf : ∀ x, a = .ok x → Agrees rays d (f x) (g x)) : Agrees rays d (a.bind f) (a.bind g) := by
  cases a with
  | ok x => exact hf x rfl
  | panic => exact trivial
  | diverge => exact trivial

theorem Agrees.ite {X : Type} {rays : List TRay} {d : Nat} {p : Prop} [Decidable p] {a a' : Res (X × TRay × TState)} {b b' : Res (X × Rng)}
    (h : p → Agrees rays d a b) (h' : ¬ p → Agrees rays d a' b') : Agrees rays d (if p then a else a') (if p then b else b') := by
  split_ifs with hp
  · exact h hp
  · exact h' hp

theorem Agrees.weaken {X : Type} {rays : List TRay} {d d' : Nat} (hd : d ≤ d') {a : Res (X × TRay × TState)} {b : Res (X × Rng)} (h : Agrees rays d' a b) : Agrees rays d a b := by
  cases a <;> cases b <;> simp only [Agrees] at h ⊢
  obtain ⟨h1, h2, h3, h4⟩ := h
  exact ⟨h1, h2, h3, fun k hk => h4 k (by omega)⟩

/-! ### What sampling and splitting keep of a ray -/

theorem wardLoop_keeps (n e1 e2 : Vec3 ℝ) (s α β : ℝ) (ray : TRay) (f : Nat) (rng : Rng) (x : ℝ × ℝ × ℝ) (out : TRay) (rng' : Rng)
    (h : wardLoop n e1 e2 s α β ray f rng = .ok (x, out, rng')) : out = { ray with geometry := out.geometry } := by
  induction f generalizing rng with
  | zero => simp [wardLoop] at h
  | succ f ih =>
    unfold wardLoop at h
    simp only at h
    split_ifs at h with h1 h2
    · injection h with h
      have h := congrArg (fun x => x.2.1) h
      simp only at h
      rw [← h]
    · exact ih _ h

theorem sampleWard_keeps (n e1 e2 pt : Vec3 ℝ) (s α β : ℝ) (ray : TRay) (f : Nat) (rng : Rng) (x : ℝ × ℝ × ℝ) (out : TRay) (rng' : Rng)
    (h : sampleWard f n e1 e2 pt s α β ray rng = .ok (x, out, rng')) : out = { ray with geometry := out.geometry } := by
  unfold sampleWard at h
  simp only at h
  split_ifs at h with h1
  · have := wardLoop_keeps _ _ _ _ _ _ _ _ _ _ _ _ h
    simpa using this
  · injection h with h
    have h := congrArg (fun x => x.2.1) h
    simp only at h
    rw [← h]

/-- `sample_bsdf` changes nothing of the ray but its geometry. -/
theorem sampleBsdf_keeps (m : Material ℝ) (n e1 e2 pt : Vec3 ℝ) (ray : TRay) (f : Nat) (rng : Rng) (x : Spectrum ℝ × ℝ) (out : TRay) (rng' : Rng)
    (h : m.sampleBsdf f n e1 e2 pt ray rng = .ok (x, out, rng')) : out = { ray with geometry := out.geometry } := by
  cases m <;> simp only [Material.sampleBsdf] at h <;> try contradiction
  case plastic c s r =>
    cases hs : sampleWard f n e1 e2 pt s r r ray rng <;> rw [hs] at h <;> simp only [Res.bind_ok, Res.bind_panic, Res.bind_diverge] at h <;> try contradiction
    next y =>
    obtain ⟨y, out', rng''⟩ := y
    injection h with h
    have h := congrArg (fun x => x.2.1) h
    simp only at h
    rw [← h]
    exact sampleWard_keeps _ _ _ _ _ _ _ _ _ _ _ _ _ hs
  case metal c s r =>
    cases hs : sampleWard f n e1 e2 pt s r r ray rng <;> rw [hs] at h <;> simp only [Res.bind_ok, Res.bind_panic, Res.bind_diverge] at h <;> try contradiction
    next y =>
    obtain ⟨y, out', rng''⟩ := y
    injection h with h
    have h := congrArg (fun x => x.2.1) h
    simp only at h
    rw [← h]
    exact sampleWard_keeps _ _ _ _ _ _ _ _ _ _ _ _ _ hs

/-- The paths out of a specular surface have the depth of the ray. -/
theorem paths_depth (m : Material ℝ) (normal pt : Vec3 ℝ) (ray : TRay) (ps : Paths) (h : m.getPossiblePaths normal pt ray = .ok ps) :
    ∀ p ∈ ps.toList, p.1.depth = ray.depth := by
  intro p hp
  cases m <;> simp only [Material.getPossiblePaths] at h <;> try contradiction
  all_goals
    injection h with h
    subst h
  case mirror c =>
    simp only [Paths.toList, mirrorPaths, mirrorBsdf, Option.toList, List.append_nil, List.mem_singleton] at hp
    rw [hp]
  case dielectric c n =>
    simp only [Paths.toList, dielectricPaths, List.mem_append, Option.mem_toList, Option.mem_def] at hp
    rcases hp with hp | hp
    · injection hp with hp; rw [← hp]
    · cases hc : (cosAndN ray normal n).2.2.2 with
      | none => rw [hc] at hp; cases hp
      | some c2 =>
        rw [hc] at hp
        injection hp with hp
        rw [← hp]
  case glass c n =>
    simp only [Paths.toList, glassPaths, List.mem_append, Option.mem_toList, Option.mem_def] at hp
    rcases hp with hp | hp
    · injection hp with hp; rw [← hp]
    · split_ifs at hp
      · injection hp with hp
        rw [← hp]

/-! ### The loops -/

theorem spectrum_add_assoc (a b c : Spectrum ℝ) : a + b + c = a + (b + c) := by
  ext <;> simp [add_assoc]

theorem spectrum_black_add (a : Spectrum ℝ) : Spectrum.black + a = a := by
  ext <;> simp [Spectrum.black, Spectrum.gray]

theorem spectrum_add_black (a : Spectrum ℝ) : a + Spectrum.black = a := by
  ext <;> simp [Spectrum.black, Spectrum.gray]

/-- `self` traces as `ref` does, whenever the scratch memory is larger than `maxDepth`. -/
def TraceFn.Refines (self : TraceFn) (ref : RefTrace) (maxDepth : Nat) : Prop :=
  ∀ st ray, maxDepth < st.rays.length → Agrees st.rays ray.depth (self st ray) (ref st.rng ray)

theorem specularLoop_refines {self : TraceFn} {ref : RefTrace} {D : Nat} (hs : self.Refines ref D) (csb : ℝ) (paths : List (TRay × Spectrum ℝ)) (d : Nat)
    (hp : ∀ p ∈ paths, d ≤ p.1.depth) (ray : TRay) (acc : Spectrum ℝ) (st : TState) (rays : List TRay) (hD : D < rays.length)
    (hl : st.rays.length = rays.length) (hk : ∀ k < d, st.rays[k]? = rays[k]?) :
    Agrees rays d (specularLoop self csb paths ray acc st) ((refSpecular ref csb paths st.rng).bind fun (x, rng) => .ok (acc + x, rng)) := by
  induction paths generalizing ray acc st with
  | nil =>
    unfold specularLoop refSpecular
    simp only [Res.bind_ok, spectrum_add_black]
    exact ⟨rfl, rfl, hl, hk⟩
  | cons p ps ih =>
    obtain ⟨pr, wgt⟩ := p
    unfold specularLoop refSpecular
    simp only [Rng.gen]
    rw [show ∀ (x : Res ((Spectrum ℝ × ℝ) × Rng)) f g, (x.bind f).bind g = x.bind (fun y => (f y).bind g) from fun x f g => by cases x <;> rfl]
    have hdep : d ≤ (if st.rng 0 < csb then { pr with depth := pr.depth + 1 } else pr : TRay).depth := by
      have := hp (pr, wgt) (List.mem_cons_self)
      split_ifs
      · simp only at this ⊢; omega
      · exact this
    refine Agrees.bind (hs { st with rng := fun n => st.rng (n + 1) } _ (by simpa [hl] using hD)) ?_
    rintro ⟨li, pdf⟩ r st' hl' hk'
    simp only
    rw [show ∀ (x : Res (Spectrum ℝ × Rng)) f g, (x.bind f).bind g = x.bind (fun y => (f y).bind g) from fun x f g => by cases x <;> rfl]
    simp only [Res.bind_ok]
    have := ih (fun p hp' => hp p (List.mem_cons_of_mem _ hp')) { ray with value := ray.value * wgt.radiance } (acc + li * wgt) st' (by simpa [hl] using hl')
      (fun k hk'' => by rw [hk' k (by exact lt_of_lt_of_le hk'' hdep)]; exact hk k hk'')
    simpa only [spectrum_add_assoc] using this

theorem globalLoop_refines {self : TraceFn} {ref : RefTrace} {D : Nat} (hs : self.Refines ref D) (m : Material ℝ) (arriving : TRay)
    (hd : arriving.depth ≤ D) (fuel : Nat) (n count : Nat) (acc : Spectrum ℝ) (st : TState) (rays : List TRay)
    (hD : D < rays.length) (hl : st.rays.length = rays.length) (hk : ∀ k < arriving.depth, st.rays[k]? = rays[k]?)
    (hsave : st.rays[arriving.depth]? = some arriving) :
    Agrees rays arriving.depth
      (globalLoop self m (count + n) arriving.depth arriving.interaction.point arriving.interaction.shading.normal arriving.interaction.shading.dpdu arriving.interaction.shading.dpdv fuel count acc arriving st)
      ((refAmbient ref m arriving fuel n st.rng).bind fun (x, rng) => .ok (acc + x, rng)) := by
  induction fuel generalizing n count acc st with
  | zero => exact trivial
  | succ fuel ih =>
    cases n with
    | zero =>
      unfold globalLoop refAmbient
      rw [if_neg (by omega)]
      simp only [Res.bind_ok, spectrum_add_black]
      exact ⟨rfl, rfl, hl, hk⟩
    | succ n =>
      unfold globalLoop refAmbient
      rw [if_pos (by omega)]
      simp only
      rw [show ∀ (x : Res ((Spectrum ℝ × ℝ) × TRay × Rng)) f (g : Spectrum ℝ × Rng → Res (Spectrum ℝ × Rng)), (x.bind f).bind g = x.bind (fun y => (f y).bind g) from fun x f g => by cases x <;> rfl]
      refine Agrees.bind_same _ ?_
      rintro ⟨⟨bsdf, pdf⟩, out, rng⟩ hsamp
      have hkeep := sampleBsdf_keeps _ _ _ _ _ _ _ _ _ _ _ hsamp
      simp only
      rw [show ∀ (x : Res ((Spectrum ℝ × ℝ) × Rng)) f (g : Spectrum ℝ × Rng → Res (Spectrum ℝ × Rng)), (x.bind f).bind g = x.bind (fun y => (f y).bind g) from fun x f g => by cases x <;> rfl]
      obtain ⟨g, hg⟩ : ∃ g, g = out.geometry := ⟨_, rfl⟩
      rw [← hg] at hkeep ⊢
      subst hkeep
      refine Agrees.bind (hs { st with rng := rng } _ (by simpa [hl] using hD)) ?_
      rintro ⟨li, lpdf⟩ r st' hl' hk'
      simp only
      have hsave' : st'.rays[arriving.depth]? = some arriving := by rw [hk' _ (by simp)]; exact hsave
      rw [hsave', Res.ofOption_some, Res.bind_ok]
      have hl'' : st'.rays.length = rays.length := by simpa [hl] using hl'
      have hk'' : ∀ k < arriving.depth, st'.rays[k]? = rays[k]? := fun k h => by rw [hk' k (by simp; omega)]; exact hk k h
      split_ifs with hlp
      · exact ih (n + 1) count acc st' hl'' hk'' hsave'
      · have := ih n (count + 1) (acc + ((li * bsdf).scale |arriving.interaction.shading.normal.dot g.direction|).divBy pdf) st' hl'' hk'' hsave'
        rw [show count + (n + 1) = count + 1 + n by omega]
        rw [show ∀ (x : Res (Spectrum ℝ × Rng)) f (g : Spectrum ℝ × Rng → Res (Spectrum ℝ × Rng)), (x.bind f).bind g = x.bind (fun y => (f y).bind g) from fun x f g => by cases x <;> rfl]
        simpa only [Res.bind_ok, spectrum_add_assoc] using this

theorem getNAmbientSamples_depth (ray : TRay) (n D : Nat) (lw : ℝ) (rng : Rng) : (ray.getNAmbientSamples n D lw rng).2.1.depth = ray.depth := by
  unfold TRay.getNAmbientSamples
  split_ifs <;> try rfl
  simp only
  split_ifs <;> rfl

theorem surfaceStep_refines (w : World) (rt : RayTracer) (fuel : Nat) {self : TraceFn} {ref : RefTrace} (hs : self.Refines ref rt.maxDepth) (i : Nat) (m : Material ℝ)
    (ray : TRay) (st : TState) (hD : rt.maxDepth < st.rays.length) :
    Agrees st.rays ray.depth (surfaceStep w rt fuel self i m ray st) (refSurface w rt fuel ref i m ray st.rng) := by
  unfold surfaceStep refSurface
  simp only [TRay.getTriad]
  refine Agrees.ite (fun _ => Agrees.bind_same _ fun _ _ => ⟨rfl, rfl, rfl, fun _ _ => rfl⟩) fun _ => Agrees.ite (fun _ => ⟨rfl, rfl, rfl, fun _ _ => rfl⟩) fun hdep => ?_
  refine Agrees.bind_same _ ?_
  rintro ⟨n0, n1, n2⟩ _
  refine Agrees.ite (fun _ => ?_) (fun _ => ?_)
  · refine Agrees.bind_same _ fun paths hpaths => ?_
    have h := specularLoop_refines hs rt.countSpecularBounce paths.toList ray.depth
      (fun p hp => le_of_eq (by rw [paths_depth _ _ _ _ _ hpaths p hp]))
      { ray with interaction := ray.interaction.interpolateNormal n0 n1 n2 } Spectrum.black st st.rays hD rfl (fun _ _ => rfl)
    have h2 : (refSpecular ref rt.countSpecularBounce paths.toList st.rng).bind (fun (x, rng) => Res.ok (Spectrum.black + x, rng)) = refSpecular ref rt.countSpecularBounce paths.toList st.rng := by
      cases refSpecular ref rt.countSpecularBounce paths.toList st.rng with
      | ok x => obtain ⟨x, r⟩ := x; simp only [Res.bind_ok, spectrum_black_add]
      | panic => rfl
      | diverge => rfl
    rw [h2] at h
    refine Agrees.bind h fun x r st' hl hk => ⟨rfl, rfl, hl, hk⟩
  · obtain ⟨na, hna⟩ : ∃ na, na = TRay.getNAmbientSamples { ray with interaction := ray.interaction.interpolateNormal n0 n1 n2 } rt.nAmbientSamples rt.maxDepth rt.limitWeight st.rng := ⟨_, rfl⟩
    have hdepth : na.2.1.depth = ray.depth := by rw [hna, getNAmbientSamples_depth]
    rw [← hna]
    obtain ⟨n, r1, rng1⟩ := na
    simp only at hdepth ⊢
    refine Agrees.bind_same _ ?_
    rintro ⟨loc, rng2⟩ _
    simp only
    unfold globalIllumination
    by_cases hn : n = 0
    · subst hn
      simp only [if_true, Res.bind_ok]
      exact ⟨rfl, rfl, rfl, fun _ _ => rfl⟩
    · simp only [hn, if_false, TRay.getTriad]
      rw [if_pos (by omega)]
      have h := globalLoop_refines hs m r1 (by omega) fuel n 0 Spectrum.black { st with rng := rng2, rays := st.rays.set r1.depth r1 } st.rays hD (by simp)
        (fun k hk => by simp [List.getElem?_set, show r1.depth ≠ k by omega]) (by
          simp only [List.getElem?_set, if_true]
          rw [if_pos (by omega)])
      have h2 : (refAmbient ref m r1 fuel n rng2).bind (fun (x, rng) => Res.ok (Spectrum.black + x, rng)) = refAmbient ref m r1 fuel n rng2 := by
        cases refAmbient ref m r1 fuel n rng2 with
        | ok x => obtain ⟨x, r⟩ := x; simp only [Res.bind_ok, spectrum_black_add]
        | panic => rfl
        | diverge => rfl
      rw [h2, Nat.zero_add] at h
      rw [show ∀ (x : Res (Spectrum ℝ × TRay × TState)) f (g : Spectrum ℝ × TRay × TState → Res ((Spectrum ℝ × ℝ) × TRay × TState)), (x.bind f).bind g = x.bind (fun y => (f y).bind g) from fun x f g => by cases x <;> rfl]
      rw [← hdepth]
      refine Agrees.bind h fun x r st' hl hk => ⟨rfl, rfl, hl, hk⟩

/-- `cast_ray` records an interaction and changes nothing else. -/
theorem World.cast_keeps (w : World) (ray : TRay) (i : Nat) (ray' : TRay) (h : w.cast ray = .ok (some (i, ray'))) : ray' = { ray with interaction := ray'.interaction } := by
  unfold World.cast at h
  cases hc : w.scene.castRay w.env ray.geometry [] with
  | panic => rw [hc] at h; simp at h
  | diverge => rw [hc] at h; simp at h
  | ok r =>
    rw [hc, Res.bind_ok] at h
    cases r with
    | none => simp at h
    | some ib =>
      obtain ⟨j, b⟩ := ib
      simp only at h
      cases ht : w.scene.triangles[j]? with
      | none => rw [ht] at h; simp at h
      | some tri =>
        rw [ht, Res.ofOption_some, Res.bind_ok] at h
        injection h with h
        injection h with h
        rw [Prod.mk.injEq] at h
        rw [← h.2]

theorem traceRay_refines (w : World) (rt : RayTracer) (fuel : Nat) : (traceRay w rt fuel).Refines (refTrace w rt fuel) rt.maxDepth := by
  induction fuel with
  | zero => intro st ray _; exact trivial
  | succ fuel ih =>
    intro st ray hD
    unfold traceRay traceStep refTrace
    refine Agrees.bind_same _ fun hit hc => ?_
    cases hit with
    | none =>
      simp only [missStep]
      cases w.sky with
      | none => exact ⟨rfl, rfl, rfl, fun _ _ => rfl⟩
      | some sky => exact ⟨rfl, rfl, rfl, fun _ _ => rfl⟩
    | some p =>
      obtain ⟨i, ray'⟩ := p
      simp only
      have hk := w.cast_keeps ray i ray' hc
      have hdep : ray'.depth = ray.depth := by rw [hk]
      rw [← hdep]
      exact Agrees.ite (fun _ => ⟨rfl, rfl, rfl, fun _ _ => rfl⟩) fun _ => Agrees.bind_same _ fun m _ => surfaceStep_refines w rt fuel ih i m ray' st hD

end Rendering
