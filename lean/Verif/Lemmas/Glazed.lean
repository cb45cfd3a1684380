import Verif.Spec.Glazed
import Verif.Props.RenderingEquation

/-!
# The paths out of mirrors, panes and dielectrics depend measurably on the ray
-/

set_option linter.unusedSectionVars false
namespace Rendering

open MeasureTheory Set

/-- `p` continues the path of `ray` along `g`, in a medium of index `η`. -/
structure Continues (p ray : TRay) (g : Ray3 ℝ) (η : ℝ) : Prop where
  geometry : p.geometry = g
  index : p.refractionIndex = η
  depth : p.depth = ray.depth
  value : p.value = ray.value
  unit : Norm g.direction = 1

/-- What a specular surface offers. -/
structure Offers (m : Material ℝ) (N : Vec3 ℝ) (η : ℝ) (pt : Ray3 ℝ → Vec3 ℝ) (ch : Spectrum ℝ → ℝ) (P1 P2 : Ray3 ℝ → Ray3 ℝ) (W1 W2 : Ray3 ℝ → ℝ) (two : Ray3 ℝ → Bool) (η2 : ℝ) : Prop where
  p1 : Measurable P1
  p2 : Measurable P2
  w1 : Measurable W1
  w2 : Measurable W2
  disc : Disc two
  index : 0 < η2
  paths : ∀ ray : TRay, ray.refractionIndex = η → Norm ray.geometry.direction = 1 → Dot N ray.geometry.direction < 0 →
    ∃ r1 c1, Continues r1 ray (P1 ray.geometry) η ∧ ch c1 = W1 ray.geometry ∧ 0 ≤ ch c1 ∧
      (two ray.geometry = false ∧ m.getPossiblePaths N (pt ray.geometry) ray = .ok (some (r1, c1), none) ∨
       two ray.geometry = true ∧ ∃ r2 c2, Continues r2 ray (P2 ray.geometry) η2 ∧ ch c2 = W2 ray.geometry ∧ 0 ≤ ch c2 ∧ m.getPossiblePaths N (pt ray.geometry) ray = .ok (some (r1, c1), some (r2, c2)))

theorem measurable_mirrorDirection {X : Type} [MeasurableSpace X] (N : Vec3 ℝ) {f : X → Vec3 ℝ} (hf : Measurable f) : Measurable fun a => mirrorDirection (f a) N := by
  unfold mirrorDirection
  fun_prop

theorem chan_nonneg {ch : Spectrum ℝ → ℝ} (hch : ch ∈ [Spectrum.c0, Spectrum.c1, Spectrum.c2]) {c : Spectrum ℝ} (hc : c.Nonneg) : 0 ≤ ch c := by
  simp only [List.mem_cons, List.not_mem_nil, or_false] at hch
  rcases hch with rfl | rfl | rfl
  · exact hc.1
  · exact hc.2.1
  · exact hc.2.2

theorem mirror_offers (c : Spectrum ℝ) {N : Vec3 ℝ} (hN : Norm N = 1) {η : ℝ} (ch : Spectrum ℝ → ℝ) (hch : ch ∈ [Spectrum.c0, Spectrum.c1, Spectrum.c2]) {pt : Ray3 ℝ → Vec3 ℝ} (hpt : Measurable pt) :
    ∃ P1 P2 W1 W2 two η2, Offers (.mirror c) N η pt ch P1 P2 W1 W2 two η2 := by
  have hmd : Measurable fun g : Ray3 ℝ => mirrorDirection g.direction N := measurable_mirrorDirection N Ray3.measurable_direction
  refine ⟨fun g => ⟨pt g + N.scale (1 / 10 ^ 5), mirrorDirection g.direction N⟩, id, fun g => 1 / |g.direction.dot N| * |N.dot (mirrorDirection g.direction N)|, fun _ => 0, fun _ => false, 1, ?_⟩
  refine ⟨by fun_prop, measurable_id, ?_, measurable_const, Disc.const _, one_pos, fun ray hη hu hs => ?_⟩
  · have h1 : Measurable fun g : Ray3 ℝ => |g.direction.dot N| := continuous_abs.measurable.comp (measurable_vdot Ray3.measurable_direction measurable_const)
    have h2 : Measurable fun g : Ray3 ℝ => |N.dot (mirrorDirection g.direction N)| := continuous_abs.measurable.comp (measurable_vdot measurable_const hmd)
    fun_prop
  · obtain ⟨m1, -⟩ := C43_mirror_direction ray.geometry.direction N hN hu
    refine ⟨(mirrorBsdf (pt ray.geometry) ray N).1, (Spectrum.one.scale (1 / |ray.geometry.direction.dot N|)).scale |N.dot (mirrorDirection ray.geometry.direction N)|, ⟨rfl, hη, rfl, rfl, m1⟩, ?_, ?_, Or.inl ⟨rfl, rfl⟩⟩
    · rw [chan_scale hch, chan_scale hch, show ch Spectrum.one = 1 from by simp only [List.mem_cons, List.not_mem_nil, or_false] at hch; rcases hch with rfl | rfl | rfl <;> rfl, one_mul]
    · exact chan_nonneg hch (((Spectrum.Nonneg.gray zero_le_one).scale (div_nonneg zero_le_one (abs_nonneg _))).scale (abs_nonneg _))

/-- A colour that depends measurably on `x`. -/
def MeasurableColour {X : Type} [MeasurableSpace X] (f : X → Spectrum ℝ) : Prop := Measurable (fun x => (f x).c0) ∧ Measurable (fun x => (f x).c1) ∧ Measurable fun x => (f x).c2

section
variable {X : Type} [MeasurableSpace X] {f g : X → Spectrum ℝ} {k : X → ℝ}

theorem MeasurableColour.const (c : Spectrum ℝ) : MeasurableColour fun _ : X => c := ⟨measurable_const, measurable_const, measurable_const⟩
theorem MeasurableColour.channel (h : MeasurableColour f) {ch : Spectrum ℝ → ℝ} (hch : ch ∈ [Spectrum.c0, Spectrum.c1, Spectrum.c2]) : Measurable fun x => ch (f x) := by
  simp only [List.mem_cons, List.not_mem_nil, or_false] at hch
  rcases hch with rfl | rfl | rfl
  · exact h.1
  · exact h.2.1
  · exact h.2.2
theorem MeasurableColour.add (hf : MeasurableColour f) (hg : MeasurableColour g) : MeasurableColour fun x => f x + g x := ⟨hf.1.add hg.1, hf.2.1.add hg.2.1, hf.2.2.add hg.2.2⟩
theorem MeasurableColour.mul (hf : MeasurableColour f) (hg : MeasurableColour g) : MeasurableColour fun x => f x * g x := ⟨hf.1.mul hg.1, hf.2.1.mul hg.2.1, hf.2.2.mul hg.2.2⟩
theorem MeasurableColour.div (hf : MeasurableColour f) (hg : MeasurableColour g) : MeasurableColour fun x => f x / g x := ⟨hf.1.div hg.1, hf.2.1.div hg.2.1, hf.2.2.div hg.2.2⟩
theorem MeasurableColour.scale (hf : MeasurableColour f) (hk : Measurable k) : MeasurableColour fun x => (f x).scale (k x) := ⟨hf.1.mul hk, hf.2.1.mul hk, hf.2.2.mul hk⟩
theorem MeasurableColour.divBy (hf : MeasurableColour f) (hk : Measurable k) : MeasurableColour fun x => (f x).divBy (k x) := ⟨hf.1.div hk, hf.2.1.div hk, hf.2.2.div hk⟩
theorem MeasurableColour.scalarAdd (hf : MeasurableColour f) (hk : Measurable k) : MeasurableColour fun x => Spectrum.scalarAdd (k x) (f x) := ⟨hk.add hf.1, hk.add hf.2.1, hk.add hf.2.2⟩
theorem MeasurableColour.scalarSub (hf : MeasurableColour f) (hk : Measurable k) : MeasurableColour fun x => Spectrum.scalarSub (k x) (f x) := ⟨hk.sub hf.1, hk.sub hf.2.1, hk.sub hf.2.2⟩
theorem MeasurableColour.scalarMul (hf : MeasurableColour f) (hk : Measurable k) : MeasurableColour fun x => Spectrum.scalarMul (k x) (f x) := ⟨hk.mul hf.1, hk.mul hf.2.1, hk.mul hf.2.2⟩
theorem MeasurableColour.scalarDiv (hf : MeasurableColour f) (hk : Measurable k) : MeasurableColour fun x => Spectrum.scalarDiv (k x) (f x) := ⟨hk.div hf.1, hk.div hf.2.1, hk.div hf.2.2⟩
theorem MeasurableColour.powi (hf : MeasurableColour f) (n : Nat) : MeasurableColour fun x => (f x).powi n := ⟨hf.1.pow_const n, hf.2.1.pow_const n, hf.2.2.pow_const n⟩
theorem MeasurableColour.powf (hf : MeasurableColour f) (hk : Measurable k) : MeasurableColour fun x => (f x).powf (k x) := ⟨hf.1.pow hk, hf.2.1.pow hk, hf.2.2.pow hk⟩

end

theorem glass_measurable (c : Spectrum ℝ) (n : ℝ) (N : Vec3 ℝ) : MeasurableColour (fun g : Ray3 ℝ => (glassReflTrans c n N g.direction).1) ∧ MeasurableColour (fun g : Ray3 ℝ => (glassReflTrans c n N g.direction).2) := by
  have h1 : Measurable fun g : Ray3 ℝ => |N.dot g.direction| := continuous_abs.measurable.comp (measurable_vdot measurable_const Ray3.measurable_direction)
  have h2 : Measurable fun g : Ray3 ℝ => Real.sqrt ((1 - 1 / n ^ 2) + (|N.dot g.direction| / n) ^ 2) := by fun_prop
  unfold glassReflTrans
  simp only
  have hd : MeasurableColour fun g : Ray3 ℝ => if (anyTransmission c).2 = true then c.powf (1 / Real.sqrt ((1 - 1 / n ^ 2) + (|N.dot g.direction| / n) ^ 2)) else c := by
    split_ifs
    · exact (MeasurableColour.const c).powf (measurable_const.div h2)
    · exact MeasurableColour.const c
  have hR : ∀ {d : Ray3 ℝ → Spectrum ℝ} {r : Ray3 ℝ → ℝ}, MeasurableColour d → Measurable r → MeasurableColour fun g => glassR (d g) (r g) := fun hd hr =>
    MeasurableColour.div (((hd.scalarMul (measurable_const.sub (measurable_const.mul hr))).scalarAdd measurable_const).scalarMul hr) ((hd.scalarMul (hr.mul hr)).scalarSub measurable_const)
  have hT : ∀ {d : Ray3 ℝ → Spectrum ℝ} {r : Ray3 ℝ → ℝ}, MeasurableColour d → Measurable r → MeasurableColour fun g => glassT (d g) (r g) := fun hd hr =>
    MeasurableColour.scalarDiv (((hd.scale hr).powi 2).scalarSub measurable_const) ((measurable_const.sub hr).pow_const 2)
  refine ⟨?_, ?_⟩
  · refine MeasurableColour.scalarMul (MeasurableColour.add (hR (hd.powi 2) ?_) (hR (hd.powi 2) ?_)) measurable_const
    · fun_prop
    · fun_prop
  · by_cases ha : (anyTransmission c).2 = true
    · simp only [ha, if_true] at hd ⊢
      refine MeasurableColour.mul (hd.scale measurable_const) (MeasurableColour.add (hT hd ?_) (hT hd ?_))
      · fun_prop
      · fun_prop
    · simp only [ha]
      exact MeasurableColour.const _

theorem measurable_radiance {X : Type} [MeasurableSpace X] {f : X → Spectrum ℝ} (h : MeasurableColour f) : Measurable fun x => (f x).radiance := by
  obtain ⟨h0, h1, h2⟩ := h
  simp only [Spectrum.radiance, Spectrum.channels, Spectrum.radianceCoefficients, List.zipWith_cons_cons, List.zipWith_nil_left, List.sum_cons, List.sum_nil]
  fun_prop

open Classical in
theorem glass_offers {c : Spectrum ℝ} {n : ℝ} (hP : (Material.glass c n).Physical) {N : Vec3 ℝ} (hN : Norm N = 1) {η : ℝ} (hη : 0 < η) (ch : Spectrum ℝ → ℝ) (hch : ch ∈ [Spectrum.c0, Spectrum.c1, Spectrum.c2]) {pt : Ray3 ℝ → Vec3 ℝ} (hpt : Measurable pt) :
    ∃ P1 P2 W1 W2 two η2, Offers (.glass c n) N η pt ch P1 P2 W1 W2 two η2 := by
  have hmd : Measurable fun g : Ray3 ℝ => mirrorDirection g.direction N := measurable_mirrorDirection N Ray3.measurable_direction
  obtain ⟨m1, m2⟩ := glass_measurable c n N
  refine ⟨fun g => ⟨pt g + N.scale (1 / 10 ^ 5), mirrorDirection g.direction N⟩, fun g => ⟨pt g - N.scale (1 / 10 ^ 5), g.direction⟩, fun g => ch (glassReflTrans c n N g.direction).1, fun g => ch (glassReflTrans c n N g.direction).2,
    fun g => if (glassReflTrans c n N g.direction).2.radiance > 0 then true else false, η, ?_⟩
  refine ⟨by fun_prop, by fun_prop, m1.channel hch, m2.channel hch, Disc.ite (measurableSet_lt measurable_const (measurable_radiance m2)) (Disc.const _) (Disc.const _), hη, fun ray hη hu hs => ?_⟩
  obtain ⟨u1, -⟩ := C43_mirror_direction ray.geometry.direction N hN hu
  obtain ⟨k1, k2⟩ := glassReflTrans_nonneg c hP.1 n hP.2 N ray.geometry.direction
  refine ⟨{ ray with geometry := ⟨pt ray.geometry + N.scale (1 / 10 ^ 5), mirrorDirection ray.geometry.direction N⟩ }, (glassReflTrans c n N ray.geometry.direction).1, ⟨rfl, hη, rfl, rfl, u1⟩, rfl, chan_nonneg hch k1, ?_⟩
  by_cases h : (glassReflTrans c n N ray.geometry.direction).2.radiance > 0
  · refine Or.inr ⟨by simp only [h, if_true], { ray with geometry := ⟨pt ray.geometry - N.scale (1 / 10 ^ 5), ray.geometry.direction⟩ }, (glassReflTrans c n N ray.geometry.direction).2, ⟨rfl, hη, rfl, rfl, hu⟩, rfl, chan_nonneg hch k2, ?_⟩
    simp only [Material.getPossiblePaths, glassPaths, h, if_true]
  · refine Or.inl ⟨by simp only [h, if_false], ?_⟩
    simp only [Material.getPossiblePaths, glassPaths, h, if_false]

open Classical in
theorem dielectric_offers {c : Spectrum ℝ} {n : ℝ} (hP : (Material.dielectric c n).Physical) {N : Vec3 ℝ} (hN : Norm N = 1) {η : ℝ} (hη : 0 < η) (ch : Spectrum ℝ → ℝ) (hch : ch ∈ [Spectrum.c0, Spectrum.c1, Spectrum.c2]) {pt : Ray3 ℝ → Vec3 ℝ} (hpt : Measurable pt) :
    ∃ P1 P2 W1 W2 two η2, Offers (.dielectric c n) N η pt ch P1 P2 W1 W2 two η2 := by
  have hmd : Measurable fun g : Ray3 ℝ => mirrorDirection g.direction N := measurable_mirrorDirection N Ray3.measurable_direction
  let base : Ray3 ℝ → TRay := fun g => { TRay.default with geometry := g, refractionIndex := η }
  have hcn : ∀ ray : TRay, ray.refractionIndex = η → cosAndN ray N n = cosAndN (base ray.geometry) N n := by
    intro ray h
    simp only [cosAndN, base, h]
  let n2 : ℝ := if |η - n| < 1 / 10 ^ 7 then 1 else n
  have hn2 : 0 < n2 := by
    simp only [n2]
    split_ifs
    · exact one_pos
    · exact hP.2
  let q : Ray3 ℝ → ℝ := fun g => η * η * max 0 (min (floatMax ℝ) (1 - |g.direction.dot N| * |g.direction.dot N|)) / (n2 * n2)
  have hc1 : Measurable fun g : Ray3 ℝ => |g.direction.dot N| := continuous_abs.measurable.comp (measurable_vdot Ray3.measurable_direction measurable_const)
  have hq : Measurable q := by
    have : Measurable fun g : Ray3 ℝ => max 0 (min (floatMax ℝ) (1 - |g.direction.dot N| * |g.direction.dot N|)) := measurable_const.max (measurable_const.min (measurable_const.sub (hc1.mul hc1)))
    exact (measurable_const.mul this).div measurable_const
  let c2 : Ray3 ℝ → ℝ := fun g => Real.sqrt (1 - q g)
  have hc2 : Measurable c2 := by fun_prop
  have hval : ∀ g, cosAndN (base g) N n = if q g > 1 then (η, |g.direction.dot N|, n2, none) else (η, |g.direction.dot N|, n2, some (c2 g)) := fun g => rfl
  have hrefl : Measurable fun g : Ray3 ℝ => fresnelReflectance η |g.direction.dot N| n2 (c2 g) := by
    simp only [fresnelReflectance, fresnelTm, fresnelTe]
    fun_prop
  let a1 : Ray3 ℝ → Spectrum ℝ := fun g => if q g > 1 then Spectrum.one.divBy |g.direction.dot N| else (Spectrum.one.scale (fresnelReflectance η |g.direction.dot N| n2 (c2 g))).divBy |g.direction.dot N|
  let a2 : Ray3 ℝ → Spectrum ℝ := fun g => (c.scale ((1 - fresnelReflectance η |g.direction.dot N| n2 (c2 g)) * (n2 / η * (n2 / η)))).divBy (c2 g)
  have hset : MeasurableSet {g | q g > 1} := measurableSet_lt measurable_const hq
  have ha1 : Measurable fun g => ch ((a1 g).scale |g.direction.dot N|) := by
    have e : (fun g => ch ((a1 g).scale |g.direction.dot N|)) = fun g => if q g > 1 then ch ((Spectrum.one.divBy |g.direction.dot N|).scale |g.direction.dot N|) else ch (((Spectrum.one.scale (fresnelReflectance η |g.direction.dot N| n2 (c2 g))).divBy |g.direction.dot N|).scale |g.direction.dot N|) := by
      funext g
      simp only [a1]
      split_ifs <;> rfl
    rw [e]
    refine Measurable.ite hset ?_ ?_
    · exact ((MeasurableColour.const _).divBy hc1 |>.scale hc1).channel hch
    · exact (((MeasurableColour.const _).scale hrefl).divBy hc1 |>.scale hc1).channel hch
  have ha2 : Measurable fun g => ch ((a2 g).scale (c2 g)) := (((MeasurableColour.const c).scale ((measurable_const.sub hrefl).mul measurable_const)).divBy hc2 |>.scale hc2).channel hch
  have hdir : Measurable fun g : Ray3 ℝ => fresnelTransmissionDir g.direction N η |g.direction.dot N| n2 (c2 g) := by
    unfold fresnelTransmissionDir
    fun_prop
  refine ⟨fun g => ⟨pt g + N.scale (1 / 10 ^ 5), mirrorDirection g.direction N⟩, fun g => ⟨pt g - N.scale (1 / 10 ^ 5), fresnelTransmissionDir g.direction N η |g.direction.dot N| n2 (c2 g)⟩, fun g => ch ((a1 g).scale |g.direction.dot N|), fun g => ch ((a2 g).scale (c2 g)),
    fun g => if q g > 1 then false else true, n2, ?_⟩
  refine ⟨by fun_prop, by fun_prop, ha1, ha2, Disc.ite hset (Disc.const _) (Disc.const _), hn2, fun ray hη' hu hs => ?_⟩
  obtain ⟨u1, -⟩ := C43_mirror_direction ray.geometry.direction N hN hu
  have hh := paths_holds True (.dielectric c n) rfl (fun _ => hP) N (pt ray.geometry) ray (fun _ => by rw [hη']; exact hη)
  have hu2 := C45_transmitted_path c n N (pt ray.geometry) ray hN hu (by rw [Dot_comm]; exact hs) (by rw [hη']; exact hη) hP.2
  have hcos : cosAndN ray N n = if q ray.geometry > 1 then (η, |ray.geometry.direction.dot N|, n2, none) else (η, |ray.geometry.direction.dot N|, n2, some (c2 ray.geometry)) := (hcn ray hη').trans (hval _)
  by_cases hlt : q ray.geometry > 1
  · simp only [hlt, if_true] at hcos
    have hp : (Material.dielectric c n).getPossiblePaths N (pt ray.geometry) ray = .ok (some ({ ray with geometry := ⟨pt ray.geometry + N.scale (1 / 10 ^ 5), mirrorDirection ray.geometry.direction N⟩ }, (a1 ray.geometry).scale |ray.geometry.direction.dot N|), none) := by
      simp only [Material.getPossiblePaths, dielectricPaths, hcos, dielectricReflTrans, a1, hlt, if_true]
    refine ⟨{ ray with geometry := ⟨pt ray.geometry + N.scale (1 / 10 ^ 5), mirrorDirection ray.geometry.direction N⟩ }, (a1 ray.geometry).scale |ray.geometry.direction.dot N|, ⟨rfl, hη', rfl, rfl, u1⟩, rfl, ?_, Or.inl ⟨by simp only [hlt, if_true], hp⟩⟩
    rw [hp] at hh
    exact chan_nonneg hch (hh ({ ray with geometry := ⟨pt ray.geometry + N.scale (1 / 10 ^ 5), mirrorDirection ray.geometry.direction N⟩ }, (a1 ray.geometry).scale |ray.geometry.direction.dot N|) (by simp [Paths.toList]) trivial).1
  · simp only [hlt, if_false] at hcos
    have hp : (Material.dielectric c n).getPossiblePaths N (pt ray.geometry) ray = .ok (some ({ ray with geometry := ⟨pt ray.geometry + N.scale (1 / 10 ^ 5), mirrorDirection ray.geometry.direction N⟩ }, (a1 ray.geometry).scale |ray.geometry.direction.dot N|),
        some ({ ray with geometry := ⟨pt ray.geometry - N.scale (1 / 10 ^ 5), fresnelTransmissionDir ray.geometry.direction N η |ray.geometry.direction.dot N| n2 (c2 ray.geometry)⟩, refractionIndex := n2, colour := ray.colour * c }, (a2 ray.geometry).scale (c2 ray.geometry))) := by
      simp only [Material.getPossiblePaths, dielectricPaths, hcos, dielectricReflTrans, a1, a2, hlt, if_false]
    rw [hp] at hh
    have hd : (dielectricPaths c n N (pt ray.geometry) ray).2 = some ({ ray with geometry := ⟨pt ray.geometry - N.scale (1 / 10 ^ 5), fresnelTransmissionDir ray.geometry.direction N η |ray.geometry.direction.dot N| n2 (c2 ray.geometry)⟩, refractionIndex := n2, colour := ray.colour * c }, (a2 ray.geometry).scale (c2 ray.geometry)) :=
      congrArg Prod.snd (Res.ok.inj hp)
    refine ⟨{ ray with geometry := ⟨pt ray.geometry + N.scale (1 / 10 ^ 5), mirrorDirection ray.geometry.direction N⟩ }, (a1 ray.geometry).scale |ray.geometry.direction.dot N|, ⟨rfl, hη', rfl, rfl, u1⟩, rfl, chan_nonneg hch (hh ({ ray with geometry := ⟨pt ray.geometry + N.scale (1 / 10 ^ 5), mirrorDirection ray.geometry.direction N⟩ }, (a1 ray.geometry).scale |ray.geometry.direction.dot N|) (by simp [Paths.toList]) trivial).1, Or.inr ⟨by simp only [hlt, if_false], { ray with geometry := ⟨pt ray.geometry - N.scale (1 / 10 ^ 5), fresnelTransmissionDir ray.geometry.direction N η |ray.geometry.direction.dot N| n2 (c2 ray.geometry)⟩, refractionIndex := n2, colour := ray.colour * c }, (a2 ray.geometry).scale (c2 ray.geometry), ⟨rfl, rfl, rfl, rfl, (hu2 _ _ hd).1⟩, rfl, chan_nonneg hch (hh ({ ray with geometry := ⟨pt ray.geometry - N.scale (1 / 10 ^ 5), fresnelTransmissionDir ray.geometry.direction N η |ray.geometry.direction.dot N| n2 (c2 ray.geometry)⟩, refractionIndex := n2, colour := ray.colour * c }, (a2 ray.geometry).scale (c2 ray.geometry)) (by simp [Paths.toList]) trivial).1, hp⟩⟩

theorem offers_exist {m : Material ℝ} (hs : m.specularOnly = true) (hP : m.Physical) {N : Vec3 ℝ} (hN : Norm N = 1) {η : ℝ} (hη : 0 < η) (ch : Spectrum ℝ → ℝ) (hch : ch ∈ [Spectrum.c0, Spectrum.c1, Spectrum.c2]) {pt : Ray3 ℝ → Vec3 ℝ} (hpt : Measurable pt) :
    ∃ P1 P2 W1 W2 two η2, Offers m N η pt ch P1 P2 W1 W2 two η2 := by
  cases m with
  | mirror c => exact mirror_offers c hN ch hch hpt
  | glass c n => exact glass_offers hP hN hη ch hch hpt
  | dielectric c n => exact dielectric_offers hP hN hη ch hch hpt
  | plastic c s r => cases hs
  | metal c s r => cases hs
  | light c => cases hs

end Rendering
