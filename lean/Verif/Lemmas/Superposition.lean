import Verif.Spec.Superposition
import Verif.Props.Linearity

set_option linter.unusedSectionVars false
namespace Rendering

open Classical

/-- Three results related by `R`, or three panics, or three endless runs. -/
inductive Res.Rel3 {A B C : Type} (R : A → B → C → Prop) : Res A → Res B → Res C → Prop
  | ok {a : A} {b : B} {c : C} : R a b c → Res.Rel3 R (.ok a) (.ok b) (.ok c)
  | panic : Res.Rel3 R .panic .panic .panic
  | diverge : Res.Rel3 R .diverge .diverge .diverge

theorem Res.Rel3.bind {A B C A' B' C' : Type} {R : A → B → C → Prop} {R' : A' → B' → C' → Prop} {x : Res A} {y : Res B} {z : Res C} (h : Res.Rel3 R x y z) {f : A → Res A'} {g : B → Res B'} {k : C → Res C'}
    (hf : ∀ a b c, R a b c → Res.Rel3 R' (f a) (g b) (k c)) : Res.Rel3 R' (x.bind f) (y.bind g) (z.bind k) := by
  cases h with
  | ok h => exact hf _ _ _ h
  | panic => exact .panic
  | diverge => exact .diverge

theorem Res.Rel3.refl {A : Type} (x : Res A) : Res.Rel3 (fun a b c => a = b ∧ a = c) x x x := by cases x <;> constructor; exact ⟨rfl, rfl⟩

/-- The same computation three times, continued differently. -/
theorem Res.Rel3.same {A A' B' C' : Type} {R' : A' → B' → C' → Prop} (x : Res A) {f : A → Res A'} {g : A → Res B'} {k : A → Res C'} (hf : ∀ a, Res.Rel3 R' (f a) (g a) (k a)) : Res.Rel3 R' (x.bind f) (x.bind g) (x.bind k) :=
  (Res.Rel3.refl x).bind fun a b c h => by obtain ⟨rfl, rfl⟩ := h; exact hf a

/-- Light next to a generator. -/
def LitSum (x a b : Spectrum ℝ × Rng) : Prop := x.1 = a.1 + b.1 ∧ x.2 = a.2 ∧ x.2 = b.2
def LitSum' (x a b : (Spectrum ℝ × ℝ) × Rng) : Prop := x.1.1 = a.1.1 + b.1.1 ∧ (x.1.2 = a.1.2 ∧ x.1.2 = b.1.2) ∧ x.2 = a.2 ∧ x.2 = b.2

theorem lightAddsUp_iff (x a b : Res ((Spectrum ℝ × ℝ) × Rng)) : LightAddsUp x a b ↔ Res.Rel3 LitSum' x a b := by
  constructor
  · intro h
    cases h with
    | ok u v pdf rng => exact .ok ⟨rfl, ⟨rfl, rfl⟩, rfl, rfl⟩
    | panic => exact .panic
    | diverge => exact .diverge
  · intro h
    cases h with
    | @ok a b c h =>
      obtain ⟨⟨a, p⟩, r⟩ := a
      obtain ⟨⟨b, p'⟩, r'⟩ := b
      obtain ⟨⟨c, p''⟩, r''⟩ := c
      obtain ⟨hx, ⟨hp1, hp2⟩, hr1, hr2⟩ := h
      simp only at hx hp1 hp2 hr1 hr2
      subst hx hp1 hp2 hr1 hr2
      exact .ok _ _ _ _
    | panic => exact .panic
    | diverge => exact .diverge

/-- Three scenes that differ only in the emission of their lights, which adds up. -/
structure Scene.IsSum {K : Type} [Field K] (s a b : Scene K) : Prop where
  left : a = { s with materials := a.materials }
  right : b = { s with materials := b.materials }
  lengths : a.materials.length = s.materials.length ∧ b.materials.length = s.materials.length
  materials : ∀ (i : Nat) m ma mb, s.materials[i]? = some m → a.materials[i]? = some ma → b.materials[i]? = some mb → Material.IsSum m ma mb

structure World.IsSum (w a b : World) : Prop where
  scene : Scene.IsSum w.scene a.scene b.scene
  env : a.env = w.env ∧ b.env = w.env
  ext : a.ext = w.ext ∧ b.ext = w.ext
  dt : a.dt = w.dt ∧ b.dt = w.dt
  skyColour : a.skyColour = w.skyColour ∧ b.skyColour = w.skyColour
  sky : SkiesAddUp w.sky a.sky b.sky

section
variable {K : Type} [Field K]

theorem Material.IsSum.emits {m a b : Material K} (h : Material.IsSum m a b) : a.emitsLight = m.emitsLight ∧ b.emitsLight = m.emitsLight := by cases h <;> exact ⟨rfl, rfl⟩
theorem Material.IsSum.direct {m a b : Material K} (h : Material.IsSum m a b) : a.emitsDirectLight = m.emitsDirectLight ∧ b.emitsDirectLight = m.emitsDirectLight := by cases h <;> exact ⟨rfl, rfl⟩
theorem Material.IsSum.specular {m a b : Material K} (h : Material.IsSum m a b) : a.specularOnly = m.specularOnly ∧ b.specularOnly = m.specularOnly := by cases h <;> exact ⟨rfl, rfl⟩
theorem Material.IsSum.dark {m a b : Material K} (h : Material.IsSum m a b) (hd : ¬ m.emitsLight = true) : a = m ∧ b = m := by
  cases h with
  | light x y => exact absurd rfl hd
  | other m h => exact ⟨rfl, rfl⟩
theorem Material.IsSum.colours {m a b : Material ℝ} (h : Material.IsSum m a b) (hd : m.emitsLight = true) : m.colour = a.colour + b.colour := by
  cases h with
  | light x y => rfl
  | other m h =>
    cases m with
    | light c => exact absurd rfl (h c)
    | _ => cases hd

theorem Scene.IsSum.lookup {s a b : Scene K} (h : Scene.IsSum s a b) (i : Nat) :
    (s.materials[i]? = none ∧ a.materials[i]? = none ∧ b.materials[i]? = none) ∨
    ∃ m ma mb, s.materials[i]? = some m ∧ a.materials[i]? = some ma ∧ b.materials[i]? = some mb ∧ Material.IsSum m ma mb := by
  by_cases hi : i < s.materials.length
  · have e := List.getElem?_eq_getElem hi
    have e1 := List.getElem?_eq_getElem (h.lengths.1 ▸ hi)
    have e2 := List.getElem?_eq_getElem (h.lengths.2 ▸ hi)
    exact Or.inr ⟨_, _, _, e, e1, e2, h.materials i _ _ _ e e1 e2⟩
  · have hl := h.lengths
    exact Or.inl ⟨List.getElem?_eq_none (by omega), List.getElem?_eq_none (by omega), List.getElem?_eq_none (by omega)⟩

theorem Scene.IsSum.ofLookup {s a b : Scene K} (h : Scene.IsSum s a b) (i : Nat) :
    Res.Rel3 Material.IsSum (Res.ofOption s.materials[i]?) (Res.ofOption a.materials[i]?) (Res.ofOption b.materials[i]?) := by
  rcases h.lookup i with ⟨e, e1, e2⟩ | ⟨m, ma, mb, e, e1, e2, hm⟩
  · rw [e, e1, e2]; exact .panic
  · rw [e, e1, e2]; exact .ok hm

end

theorem intersectLight_sum {w a b : World} (h : World.IsSum w a b) (light : Object ℝ) (ray : Ray3 ℝ) (hl : ∀ m, w.scene.materials[light.front]? = some m ∨ w.scene.materials[light.back]? = some m → ∃ c, m = .light c) :
    Res.Rel3 (fun x y z => (x = none ∧ y = none ∧ z = none) ∨ ∃ u v pdf, x = some (u + v, pdf) ∧ y = some (u, pdf) ∧ z = some (v, pdf)) (w.intersectLight light ray) (a.intersectLight light ray) (b.intersectLight light ray) := by
  unfold World.intersectLight
  rw [h.ext.1, h.ext.2, h.env.1, h.env.2]
  have hbb : (Spectrum.black : Spectrum ℝ) = Spectrum.black + Spectrum.black := by ext <;> simp [Spectrum.black, Spectrum.gray]
  cases w.ext.primIntersect light.primitive ray with
  | none => exact .ok (Or.inl ⟨rfl, rfl, rfl⟩)
  | some info =>
    simp only
    have ea : ∀ d, a.scene.unobstructedDistance w.env ray d [] = w.scene.unobstructedDistance w.env ray d [] := fun d => by rw [h.scene.left]; rfl
    have eb : ∀ d, b.scene.unobstructedDistance w.env ray d [] = w.scene.unobstructedDistance w.env ray d [] := fun d => by rw [h.scene.right]; rfl
    rw [ea, eb]
    refine Res.Rel3.same _ fun free => ?_
    have hblack : Res.Rel3 (fun x y z => (x = none ∧ y = none ∧ z = none) ∨ ∃ u v pdf, x = some (u + v, pdf) ∧ y = some (u, pdf) ∧ z = some (v, pdf)) (.ok (some ((Spectrum.black : Spectrum ℝ), (0 : ℝ)))) (.ok (some ((Spectrum.black : Spectrum ℝ), (0 : ℝ))))
        (.ok (some ((Spectrum.black : Spectrum ℝ), (0 : ℝ)))) := .ok (Or.inr ⟨Spectrum.black, Spectrum.black, 0, by rw [← hbb], rfl, rfl⟩)
    have hfin : ∀ j : Nat, (j = light.front ∨ j = light.back) → Res.Rel3 (fun x y z => (x = none ∧ y = none ∧ z = none) ∨ ∃ u v pdf, x = some (u + v, pdf) ∧ y = some (u, pdf) ∧ z = some (v, pdf))
        ((Res.ofOption w.scene.materials[j]?).bind fun m => (light.primitive.solidAnglePdf info ray).bind fun pdf => .ok (some (m.colour, pdf)))
        ((Res.ofOption a.scene.materials[j]?).bind fun m => (light.primitive.solidAnglePdf info ray).bind fun pdf => .ok (some (m.colour, pdf)))
        ((Res.ofOption b.scene.materials[j]?).bind fun m => (light.primitive.solidAnglePdf info ray).bind fun pdf => .ok (some (m.colour, pdf))) := by
      intro j hj
      rcases h.scene.lookup j with ⟨e, e1, e2⟩ | ⟨m, ma, mb, e, e1, e2, hm⟩
      · rw [e, e1, e2]; exact .panic
      · rw [e, e1, e2]
        simp only [Res.ofOption_some, Res.bind_ok]
        refine Res.Rel3.same _ fun pdf => .ok (Or.inr ⟨ma.colour, mb.colour, pdf, ?_, rfl, rfl⟩)
        obtain ⟨c, rfl⟩ := hl m (by rcases hj with rfl | rfl; exacts [Or.inl e, Or.inr e])
        rw [hm.colours rfl]
    split_ifs
    · exact hblack
    · cases info.side with
      | NonApplicable => exact hblack
      | Front => exact hfin _ (Or.inl rfl)
      | Back => exact hfin _ (Or.inr rfl)

theorem lightTerm_sum {w a b : World} (h : World.IsSum w a b) (m : Material ℝ) (ray : TRay) (n : Nat) (normal e1 e2 d : Vec3 ℝ) (c c' : Spectrum ℝ) (pdf : ℝ) :
    Res.Rel3 (fun x y z => x = y + z) (w.lightTerm m ray n normal e1 e2 d (c + c') pdf) (a.lightTerm m ray n normal e1 e2 d c pdf) (b.lightTerm m ray n normal e1 e2 d c' pdf) := by
  unfold World.lightTerm
  rw [h.dt.1, h.dt.2]
  refine Res.Rel3.same _ fun f => .ok ?_
  ext <;> simp [Spectrum.scale, Spectrum.divBy] <;> ring

theorem lightLoop_sum {w a b : World} (h : World.IsSum w a b) (m : Material ℝ) (ray : TRay) (n : Nat) (pt normal e1 e2 : Vec3 ℝ) (light : Object ℝ)
    (hl : ∀ m, w.scene.materials[light.front]? = some m ∨ w.scene.materials[light.back]? = some m → ∃ c, m = .light c) (fuel i : Nat) (acc acc' : Spectrum ℝ) (rng : Rng) :
    Res.Rel3 LitSum (w.lightLoop m ray n pt normal e1 e2 light fuel i (acc + acc') rng) (a.lightLoop m ray n pt normal e1 e2 light fuel i acc rng) (b.lightLoop m ray n pt normal e1 e2 light fuel i acc' rng) := by
  induction fuel generalizing i acc acc' rng with
  | zero => exact .diverge
  | succ fuel ih =>
    unfold World.lightLoop
    split_ifs with hi
    · rw [h.ext.1, h.ext.2]
      refine Res.Rel3.same _ fun x => ?_
      obtain ⟨d, rng'⟩ := x
      simp only
      refine (intersectLight_sum h light _ hl).bind fun x y z hr => ?_
      rcases hr with ⟨rfl, rfl, rfl⟩ | ⟨u, v, pdf, rfl, rfl, rfl⟩
      · exact ih _ _ _ _
      · simp only
        split_ifs with hp
        · exact ih _ _ _ _
        · refine (lightTerm_sum h m ray n normal e1 e2 d u v pdf).bind fun x y z ht => ?_
          subst ht
          have e : acc + acc' + (y + z) = (acc + y) + (acc' + z) := by ext <;> simp <;> ring
          rw [e]
          exact ih _ _ _ _
    · exact .ok ⟨rfl, rfl, rfl⟩

theorem lightsLoop_sum {w a b : World} (h : World.IsSum w a b) (fuel : Nat) (m : Material ℝ) (ray : TRay) (n : Nat) (pt normal e1 e2 : Vec3 ℝ) (lights : List (Object ℝ))
    (hl : ∀ o ∈ lights, ∀ m, w.scene.materials[o.front]? = some m ∨ w.scene.materials[o.back]? = some m → ∃ c, m = .light c) (acc acc' : Spectrum ℝ) (rng : Rng) :
    Res.Rel3 LitSum (w.lightsLoop fuel m ray n pt normal e1 e2 lights (acc + acc') rng) (a.lightsLoop fuel m ray n pt normal e1 e2 lights acc rng) (b.lightsLoop fuel m ray n pt normal e1 e2 lights acc' rng) := by
  induction lights generalizing acc acc' rng with
  | nil => exact .ok ⟨rfl, rfl, rfl⟩
  | cons l ls ih =>
    unfold World.lightsLoop
    refine (lightLoop_sum h m ray n pt normal e1 e2 l (hl l List.mem_cons_self) fuel 0 acc acc' rng).bind fun x y z hr => ?_
    obtain ⟨x, r⟩ := x
    obtain ⟨y, r'⟩ := y
    obtain ⟨z, r''⟩ := z
    obtain ⟨hx, hr1, hr2⟩ := hr
    simp only at hx hr1 hr2
    subst hx hr1 hr2
    exact ih (fun o ho => hl o (List.mem_cons_of_mem _ ho)) _ _ _

theorem black_add_black : (Spectrum.black : Spectrum ℝ) = Spectrum.black + Spectrum.black := by ext <;> simp [Spectrum.black, Spectrum.gray]

theorem localIllumination_sum {w a b : World} (h : World.IsSum w a b) (h2 : w.TwoSidedLights) (fuel : Nat) (m : Material ℝ) (ray : TRay) (rng : Rng) (n : Nat) :
    Res.Rel3 LitSum (w.localIllumination fuel m ray rng n) (a.localIllumination fuel m ray rng n) (b.localIllumination fuel m ray rng n) := by
  unfold World.localIllumination World.sampleLightArray
  have ea : a.scene.lights = w.scene.lights ∧ a.scene.distantLights = w.scene.distantLights := by rw [h.scene.left]; exact ⟨rfl, rfl⟩
  have eb : b.scene.lights = w.scene.lights ∧ b.scene.distantLights = w.scene.distantLights := by rw [h.scene.right]; exact ⟨rfl, rfl⟩
  rw [ea.1, ea.2, eb.1, eb.2]
  simp only
  have hb := fun ls hls rng => lightsLoop_sum h fuel m ray n (ray.getTriad.1 + ray.getTriad.2.1.scale (1 / 1000)) ray.getTriad.2.1 ray.getTriad.2.2.1 ray.getTriad.2.2.2 ls hls Spectrum.black Spectrum.black rng
  simp only [← black_add_black] at hb
  refine (hb _ (fun o ho => h2 o (List.mem_append_left _ ho)) rng).bind fun x y z hr => ?_
  obtain ⟨x, r⟩ := x
  obtain ⟨y, r'⟩ := y
  obtain ⟨z, r''⟩ := z
  obtain ⟨hx, hr1, hr2⟩ := hr
  simp only at hx hr1 hr2 ⊢
  subst hx hr1 hr2
  refine (hb _ (fun o ho => h2 o (List.mem_append_right _ ho)) r).bind fun x y' z' hr => ?_
  obtain ⟨x, r⟩ := x
  obtain ⟨y', r'⟩ := y'
  obtain ⟨z', r''⟩ := z'
  obtain ⟨hx, hr1, hr2⟩ := hr
  simp only at hx hr1 hr2 ⊢
  subst hx hr1 hr2
  refine .ok ⟨?_, rfl, rfl⟩
  simp only
  ext <;> simp <;> ring

theorem refSpecular_sum {s sa sb : RefTrace} (hs : ∀ rng ray, Res.Rel3 LitSum' (s rng ray) (sa rng ray) (sb rng ray)) (csb : ℝ) (paths : List (TRay × Spectrum ℝ)) (rng : Rng) :
    Res.Rel3 LitSum (refSpecular s csb paths rng) (refSpecular sa csb paths rng) (refSpecular sb csb paths rng) := by
  induction paths generalizing rng with
  | nil => exact .ok ⟨black_add_black, rfl, rfl⟩
  | cons p ps ih =>
    unfold refSpecular
    simp only
    refine (hs _ _).bind fun x y z hr => ?_
    obtain ⟨⟨x, p1⟩, r⟩ := x
    obtain ⟨⟨y, p2⟩, r'⟩ := y
    obtain ⟨⟨z, p3⟩, r''⟩ := z
    obtain ⟨hx, -, hr1, hr2⟩ := hr
    simp only at hx hr1 hr2 ⊢
    subst hx hr1 hr2
    refine (ih _).bind fun x' y' z' hr => ?_
    obtain ⟨x', q⟩ := x'
    obtain ⟨y', q'⟩ := y'
    obtain ⟨z', q''⟩ := z'
    obtain ⟨hx, hr1, hr2⟩ := hr
    simp only at hx hr1 hr2 ⊢
    subst hx hr1 hr2
    refine .ok ⟨?_, rfl, rfl⟩
    simp only
    ext <;> simp <;> ring

theorem refAmbient_sum {s sa sb : RefTrace} (hs : ∀ rng ray, Res.Rel3 LitSum' (s rng ray) (sa rng ray) (sb rng ray)) (m : Material ℝ) (arriving : TRay) (fuel n : Nat) (rng : Rng) :
    Res.Rel3 LitSum (refAmbient s m arriving fuel n rng) (refAmbient sa m arriving fuel n rng) (refAmbient sb m arriving fuel n rng) := by
  induction fuel generalizing n rng with
  | zero => exact .diverge
  | succ fuel ih =>
    cases n with
    | zero => exact .ok ⟨black_add_black, rfl, rfl⟩
    | succ n =>
      unfold refAmbient
      simp only
      refine Res.Rel3.same _ fun x => ?_
      obtain ⟨⟨bsdf, pdf⟩, out, r⟩ := x
      simp only
      refine (hs _ _).bind fun x y z hr => ?_
      obtain ⟨⟨x, p1⟩, r⟩ := x
      obtain ⟨⟨y, p2⟩, r'⟩ := y
      obtain ⟨⟨z, p3⟩, r''⟩ := z
      obtain ⟨hx, ⟨hp1, hp2⟩, hr1, hr2⟩ := hr
      simp only at hx hp1 hp2 hr1 hr2 ⊢
      subst hx hp1 hp2 hr1 hr2
      split_ifs with hp
      · exact ih _ _
      · refine (ih _ _).bind fun x' y' z' hr => ?_
        obtain ⟨x', q⟩ := x'
        obtain ⟨y', q'⟩ := y'
        obtain ⟨z', q''⟩ := z'
        obtain ⟨hx, hr1, hr2⟩ := hr
        simp only at hx hr1 hr2 ⊢
        subst hx hr1 hr2
        refine .ok ⟨?_, rfl, rfl⟩
        simp only
        ext <;> simp [Spectrum.scale, Spectrum.divBy] <;> ring

theorem materialAt_sum {w a b : World} (h : World.IsSum w a b) (side : SurfaceSide) (i : Nat) : Res.Rel3 Material.IsSum (w.materialAt side i) (a.materialAt side i) (b.materialAt side i) := by
  have ea : a.scene.front = w.scene.front ∧ a.scene.back = w.scene.back := by rw [h.scene.left]; exact ⟨rfl, rfl⟩
  have eb : b.scene.front = w.scene.front ∧ b.scene.back = w.scene.back := by rw [h.scene.right]; exact ⟨rfl, rfl⟩
  unfold World.materialAt
  cases side with
  | NonApplicable => exact .panic
  | Front =>
    simp only [ea.1, eb.1]
    exact Res.Rel3.same _ fun j => h.scene.ofLookup j
  | Back =>
    simp only [ea.2, eb.2]
    exact Res.Rel3.same _ fun j => h.scene.ofLookup j

theorem refSurface_sum {w a b : World} (h : World.IsSum w a b) (h2 : w.TwoSidedLights) (rt : RayTracer) (fuel : Nat) {s sa sb : RefTrace} (hs : ∀ rng ray, Res.Rel3 LitSum' (s rng ray) (sa rng ray) (sb rng ray)) (i : Nat)
    {m ma mb : Material ℝ} (hm : Material.IsSum m ma mb) (ray : TRay) (rng : Rng) : Res.Rel3 LitSum' (refSurface w rt fuel s i m ray rng) (refSurface a rt fuel sa i ma ray rng) (refSurface b rt fuel sb i mb ray rng) := by
  have ea : a.scene.triangles = w.scene.triangles ∧ a.scene.normals = w.scene.normals := by rw [h.scene.left]; exact ⟨rfl, rfl⟩
  have eb : b.scene.triangles = w.scene.triangles ∧ b.scene.normals = w.scene.normals := by rw [h.scene.right]; exact ⟨rfl, rfl⟩
  unfold refSurface
  simp only [hm.emits.1, hm.emits.2, hm.specular.1, hm.specular.2, ea.1, ea.2, eb.1, eb.2]
  split_ifs with h1 h3 h4
  · exact Res.Rel3.same _ fun tri => .ok ⟨hm.colours h1, ⟨rfl, rfl⟩, rfl, rfl⟩
  · exact .ok ⟨black_add_black, ⟨rfl, rfl⟩, rfl, rfl⟩
  · obtain ⟨rfl, rfl⟩ := hm.dark h1
    refine Res.Rel3.same _ fun x => ?_
    obtain ⟨n0, n1, n2⟩ := x
    simp only
    refine Res.Rel3.same _ fun ps => (refSpecular_sum hs _ _ _).bind fun x y z hr => ?_
    exact .ok ⟨hr.1, ⟨rfl, rfl⟩, hr.2⟩
  · obtain ⟨rfl, rfl⟩ := hm.dark h1
    refine Res.Rel3.same _ fun x => ?_
    obtain ⟨n0, n1, n2⟩ := x
    simp only
    refine (localIllumination_sum h h2 _ _ _ _ _).bind fun x y z hr => ?_
    obtain ⟨x, r⟩ := x
    obtain ⟨y, r'⟩ := y
    obtain ⟨z, r''⟩ := z
    obtain ⟨hx, hr1, hr2⟩ := hr
    simp only at hx hr1 hr2 ⊢
    subst hx hr1 hr2
    split_ifs
    · refine .ok ⟨?_, ⟨rfl, rfl⟩, rfl, rfl⟩
      simp only
      ext <;> simp [Spectrum.black, Spectrum.gray]
    · refine (refAmbient_sum hs _ _ _ _ _).bind fun x' y' z' hr => ?_
      obtain ⟨x', q⟩ := x'
      obtain ⟨y', q'⟩ := y'
      obtain ⟨z', q''⟩ := z'
      obtain ⟨hx, hr1, hr2⟩ := hr
      simp only at hx hr1 hr2 ⊢
      subst hx hr1 hr2
      refine .ok ⟨?_, ⟨rfl, rfl⟩, rfl, rfl⟩
      simp only
      ext <;> simp [Spectrum.divBy] <;> ring

theorem refTrace_sum {w a b : World} (h : World.IsSum w a b) (h2 : w.TwoSidedLights) (rt : RayTracer) (fuel : Nat) (rng : Rng) (ray : TRay) :
    Res.Rel3 LitSum' (refTrace w rt fuel rng ray) (refTrace a rt fuel rng ray) (refTrace b rt fuel rng ray) := by
  induction fuel generalizing rng ray with
  | zero => exact .diverge
  | succ fuel ih =>
    unfold refTrace
    have ha : a.cast ray = w.cast ray := by unfold World.cast; rw [h.scene.left, h.env.1]; rfl
    have hb : b.cast ray = w.cast ray := by unfold World.cast; rw [h.scene.right, h.env.2]; rfl
    rw [ha, hb]
    refine Res.Rel3.same _ fun hit => ?_
    cases hit with
    | none =>
      have hsky := h.sky
      simp only [h.skyColour.1, h.skyColour.2]
      generalize w.sky = x at hsky ⊢
      generalize a.sky = y at hsky ⊢
      generalize b.sky = z at hsky ⊢
      cases hsky with
      | none => exact .ok ⟨black_add_black, ⟨rfl, rfl⟩, rfl, rfl⟩
      | some f g =>
        refine .ok ⟨?_, ⟨rfl, rfl⟩, rfl, rfl⟩
        simp only
        ext <;> simp [Spectrum.scale] <;> ring
    | some p =>
      obtain ⟨i, ray'⟩ := p
      simp only
      split_ifs
      · exact .ok ⟨black_add_black, ⟨rfl, rfl⟩, rfl, rfl⟩
      · exact (materialAt_sum h _ _).bind fun m ma mb hm => refSurface_sum h h2 rt fuel ih i hm ray' rng

/-! ### Scenes -/

section
variable {K : Type} [Field K]

theorem pushMaterial_sum {s a b : Scene K} (h : Scene.IsSum s a b) {m ma mb : Material K} (hm : Material.IsSum m ma mb) : Scene.IsSum (s.pushMaterial m).1 (a.pushMaterial ma).1 (b.pushMaterial mb).1 := by
  refine ⟨?_, ?_, ?_, ?_⟩
  · simp only [Scene.pushMaterial]; rw [h.left]
  · simp only [Scene.pushMaterial]; rw [h.right]
  · simp [Scene.pushMaterial, h.lengths]
  · intro i x y z hx hy hz
    simp only [Scene.pushMaterial] at hx hy hz
    rw [List.getElem?_append] at hx hy hz
    rw [h.lengths.1] at hy
    rw [h.lengths.2] at hz
    split_ifs at hx hy hz with hi
    · exact h.materials i x y z hx hy hz
    · rw [List.getElem?_singleton] at hx hy hz
      split_ifs at hx hy hz
      cases hx
      cases hy
      cases hz
      exact hm

theorem pushObject_sum (env : SceneEnv K) {s a b : Scene K} (h : Scene.IsSum s a b) (f k : Nat) (p : Primitive K) : Res.Rel3 Scene.IsSum (s.pushObject env f k p) (a.pushObject env f k p) (b.pushObject env f k p) := by
  unfold Scene.pushObject
  rcases h.lookup f with ⟨e, e1, e2⟩ | ⟨m, ma, mb, e, e1, e2, hm⟩
  · rw [e, e1, e2]; exact .panic
  rcases h.lookup k with ⟨e', e1', e2'⟩ | ⟨m', ma', mb', e', e1', e2', hm'⟩
  · rw [e, e1, e2, e', e1', e2']; exact .panic
  rw [e, e1, e2, e', e1', e2']
  simp only [hm.direct.1, hm.direct.2, hm'.direct.1, hm'.direct.2]
  refine Res.Rel3.same _ fun x => .ok ?_
  have hl := h.left
  have hr := h.right
  have h1 := h.lengths
  have h4 := h.materials
  cases s
  cases a
  cases b
  simp only [Scene.mk.injEq] at hl hr
  simp only at h1 h4
  obtain ⟨⟩ := hl
  obtain ⟨⟩ := hr
  simp_all
  split_ifs <;> exact ⟨rfl, rfl, h1, h4⟩

variable [LinearOrder K] [FloorRing K]

theorem rebuild_sum (env : SceneEnv K) {s a b : Scene K} (h : Scene.IsSum s a b) : Res.Rel3 Scene.IsSum (s.rebuildAccelerator env) (a.rebuildAccelerator env) (b.rebuildAccelerator env) := by
  have ea : a.triangles = s.triangles ∧ a.front = s.front ∧ a.back = s.back ∧ a.normals = s.normals := by rw [h.left]; exact ⟨rfl, rfl, rfl, rfl⟩
  have eb : b.triangles = s.triangles ∧ b.front = s.front ∧ b.back = s.back ∧ b.normals = s.normals := by rw [h.right]; exact ⟨rfl, rfl, rfl, rfl⟩
  unfold Scene.rebuildAccelerator
  rw [ea.1, ea.2.1, ea.2.2.1, ea.2.2.2, eb.1, eb.2.1, eb.2.2.1, eb.2.2.2]
  refine Res.Rel3.same _ fun x => .ok ⟨?_, ?_, h.lengths, h.materials⟩
  · rw [h.left]
  · rw [h.right]

theorem step_sum (env : SceneEnv K) {s a b : Scene K} (h : Scene.IsSum s a b) {o oa ob : SceneOp K} (ho : SceneOp.IsSum o oa ob) : Res.Rel3 Scene.IsSum (s.step env o) (a.step env oa) (b.step env ob) := by
  have ea : a.accelerator = s.accelerator := by rw [h.left]
  have eb : b.accelerator = s.accelerator := by rw [h.right]
  cases ho with
  | material hm => exact .ok (pushMaterial_sum h hm)
  | object f k p => exact pushObject_sum env h f k p
  | build =>
    simp only [Scene.step, Scene.buildAccelerator, ea, eb]
    split_ifs
    · exact .panic
    · exact rebuild_sum env h
  | rebuild => exact rebuild_sum env h
  | night =>
    refine .ok ⟨?_, ?_, h.lengths, h.materials⟩
    · rw [h.left]
    · rw [h.right]
  | sun dir x y angle =>
    simp only [Scene.step, Scene.addPerezSky]
    have hs : Scene.IsSum { s with hasSky := true } { a with hasSky := true } { b with hasSky := true } := by
      refine ⟨?_, ?_, h.lengths, h.materials⟩
      · rw [h.left]
      · rw [h.right]
    have hm : Material.IsSum (.light (Spectrum.gray (x + y))) (.light (Spectrum.gray x)) (.light (Spectrum.gray y)) := by
      have e : (Spectrum.gray (x + y) : Spectrum K) = Spectrum.gray x + Spectrum.gray y := by ext <;> simp [Spectrum.gray]
      rw [e]
      exact .light _ _
    have h' := pushMaterial_sum hs hm
    have := pushObject_sum env h' s.materials.length s.materials.length (.source dir angle)
    simp only [Scene.pushMaterial, List.length_append, List.length_singleton, Nat.add_sub_cancel] at this ⊢
    rw [h.lengths.1, h.lengths.2]
    exact this

theorem run_sum (env : SceneEnv K) {ops opsa opsb : List (SceneOp K)} (ho : CallsAddUp ops opsa opsb) {s a b : Scene K} (h : Scene.IsSum s a b) : Res.Rel3 Scene.IsSum (s.run env ops) (a.run env opsa) (b.run env opsb) := by
  induction ho generalizing s a b with
  | nil => exact .ok h
  | cons h1 _ ih =>
    unfold Scene.run
    exact (step_sum env h h1).bind fun _ _ _ h' => ih h'

end

end Rendering
