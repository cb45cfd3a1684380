import Verif.Props.SafetyScenes
import Verif.Props.Daylight

/-!
# C94: computing daylight coefficients does not crash, and gives no negative coefficients
-/

set_option linter.unusedSectionVars false
namespace Rendering

open Classical

variable {w : World} {s : Scene ℝ}

theorem materialAt_holds (hS : w.Solid s) (side : SurfaceSide) (hside : side ≠ .NonApplicable) (i j : Nat) (hjl : j < s.triangles.length) (hf : w.scene.front[i]? = s.front[j]?) (hb : w.scene.back[i]? = s.back[j]?) :
    (w.materialAt side i).Holds fun m => m ∈ s.materials := by
  unfold World.materialAt
  have mat : ∀ k, k < s.materials.length → (Res.ofOption w.scene.materials[k]?).Holds fun m => m ∈ s.materials := by
    intro k hk
    rw [hS.renders.same.1]
    exact material_holds s k hk
  split
  · rw [hf, List.getElem?_eq_getElem (by rw [hS.renders.aligned.2.1]; exact hjl)]
    exact mat _ (hS.indices.1 _ (List.getElem_mem _))
  · rw [hb, List.getElem?_eq_getElem (by rw [hS.renders.aligned.2.2]; exact hjl)]
    exact mat _ (hS.indices.2.1 _ (List.getElem_mem _))
  · exact absurd rfl hside

theorem sampleBsdf_colour (fuel : Nat) (m : Material ℝ) (hg : m.NotGlossy) (normal e1 e2 pt : Vec3 ℝ) (ray : TRay) (rng : Rng) (hr : rng.Valid) (x : (Spectrum ℝ × ℝ) × TRay × Rng) (h : m.sampleBsdf fuel normal e1 e2 pt ray rng = .ok x) :
    x.2.1.colour = ray.colour := by
  have key : ∀ (a : ℝ) y, sampleWard fuel normal e1 e2 pt 0 a a ray rng = .ok y → y.2.1.colour = ray.colour := by
    intro a y hy
    unfold sampleWard at hy
    simp only [Rng.gen, not_lt.2 (hr 0).1, if_false] at hy
    cases hy
    rfl
  cases m with
  | plastic c s r =>
    have : s = 0 := hg
    subst this
    obtain ⟨y, hy, h⟩ := Res.bind_eq_ok h
    cases h
    exact key _ y hy
  | metal c s r =>
    have : s = 0 := hg
    subst this
    obtain ⟨y, hy, h⟩ := Res.bind_eq_ok h
    cases h
    exact key _ y hy
  | light c => cases h
  | mirror c => cases h
  | glass c n => cases h
  | dielectric c n => cases h

theorem Res.Holds.and {α : Type} {P Q : α → Prop} {r : Res α} (h : r.Holds P) (hq : ∀ x, r = .ok x → Q x) : r.Holds fun x => P x ∧ Q x := by
  cases r with
  | ok x => exact ⟨h, hq x rfl⟩
  | panic => exact h.elim
  | diverge => trivial

theorem paths_colour (m : Material ℝ) (hP : m.Physical) (normal pt : Vec3 ℝ) (ray : TRay) (hc : ray.colour.Nonneg) (p : Paths) (h : m.getPossiblePaths normal pt ray = .ok p) : ∀ x ∈ p.toList, x.1.colour.Nonneg := by
  intro x hx
  cases m with
  | mirror c =>
    cases h
    simp only [mirrorPaths, Paths.toList, Option.toList_some, Option.toList_none, List.append_nil, List.mem_singleton] at hx
    subst hx
    exact hc
  | dielectric c n =>
    cases h
    simp only [dielectricPaths, Paths.toList, Option.toList_some, List.mem_append, List.mem_singleton, Option.mem_toList] at hx
    rcases hx with rfl | hx
    · exact hc
    · cases hcos : (cosAndN ray normal n).2.2.2 with
      | none => rw [hcos] at hx; simp at hx
      | some y =>
        rw [hcos] at hx
        simp only [Option.some.injEq] at hx
        subst hx
        exact hc.mul hP.1
  | glass c n =>
    cases h
    simp only [glassPaths, Paths.toList, Option.toList_some, List.mem_append, List.mem_singleton, Option.mem_toList] at hx
    rcases hx with rfl | hx
    · exact hc
    · split_ifs at hx
      · simp only [Option.some.injEq] at hx
        subst hx
        exact hc
  | plastic c s r => cases h
  | metal c s r => cases h
  | light c => cases h

/-- The state between two steps of `DCFactory::trace_ray`. -/
structure DState.Good (N : Prop) (dc : DcFactory) (st : DState) : Prop where
  rng : st.rng.Valid
  rays : dc.maxDepth < st.rays.length
  row : st.contribution.IsRow dc.nBins
  nonneg : N → ∀ v ∈ st.contribution.data, v.Nonneg

def TRay.Good (N : Prop) (ray : TRay) : Prop := N → 0 < ray.refractionIndex ∧ ray.colour.Nonneg

def GoodDc (N : Prop) (dc : DcFactory) (f : DcFn) : Prop := ∀ st ray, st.Good N dc → ray.Good N → (f st ray).Holds fun x => x.1.Good N ∧ x.2.Good N dc

variable (N : Prop) (dc : DcFactory)

theorem dcSpecularLoop_holds (self : DcFn) (h : GoodDc N dc self) (csb : ℝ) (paths : List (TRay × Spectrum ℝ)) (hp : ∀ x ∈ paths, N → x.2.Nonneg ∧ 0 < x.1.refractionIndex ∧ x.1.colour.Nonneg) (st : DState) (hst : st.Good N dc) :
    (dcSpecularLoop self csb paths st).Holds fun st => st.Good N dc := by
  induction paths generalizing st with
  | nil => exact hst
  | cons p rest ih =>
    obtain ⟨path, bsdf⟩ := p
    have hpath := hp (path, bsdf) (List.mem_cons_self ..)
    unfold dcSpecularLoop
    simp only [Rng.gen]
    refine (h { st with rng := fun n => st.rng (n + 1) } _ ⟨hst.rng.rest 1, hst.rays, hst.row, hst.nonneg⟩ ?_).bind fun x hx => ih (fun y hy => hp y (List.mem_cons_of_mem _ hy)) _ hx.2
    intro hN
    obtain ⟨h1, h2, h3⟩ := hpath hN
    by_cases hq : st.rng 0 < csb
    · simp only [hq, if_true]; exact ⟨h2, h3.mul h1⟩
    · simp only [hq, if_false]; exact ⟨h2, h3.mul h1⟩

theorem dcAmbientLoop_holds (self : DcFn) (h : GoodDc N dc self) (m : Material ℝ) (hl : m.emitsLight = false) (hs : m.specularOnly = false) (hg : m.NotGlossy) (hP : N → m.Physical) (fuel : Nat) (pt normal e1 e2 : Vec3 ℝ) (hf : N → Frame e1 e2 normal)
    (n : Nat) (ray : TRay) (hray : ray.Good N) (st : DState) (hst : st.Good N dc) : (dcAmbientLoop self m fuel pt normal e1 e2 n ray st).Holds fun x => x.1.Good N ∧ x.2.Good N dc := by
  induction n generalizing ray st with
  | zero => exact ⟨hray, hst⟩
  | succ n ih =>
    unfold dcAmbientLoop
    refine ((sampleBsdf_holds N fuel m hl hs hg hP normal e1 e2 pt ray st.rng hst.rng hf).and (sampleBsdf_colour fuel m hg normal e1 e2 pt ray st.rng hst.rng)).bind fun x hx => ?_
    obtain ⟨⟨bsdf, weight⟩, ray1, rng1⟩ := x
    obtain ⟨⟨x1, x2, x3⟩, x4⟩ := hx
    simp only at x1 x2 x3 x4 ⊢
    refine (h { st with rng := rng1 } _ ⟨x1, hst.rays, hst.row, hst.nonneg⟩ ?_).bind fun y hy => ih y.1 hy.1 y.2 hy.2
    intro hN
    refine ⟨by simp only [x3]; exact (hray hN).1, ?_⟩
    simp only [x4]
    exact (hray hN).2.mul (((x2 hN).1.scale (abs_nonneg _)).divBy (x2 hN).2)

theorem dcMissStep_holds (hbin : ∀ d, dc.dirToBin d < dc.nBins) (ray : TRay) (hray : ray.Good N) (st : DState) (hst : st.Good N dc) : (dcMissStep dc ray st).Holds fun x => x.1.Good N ∧ x.2.Good N dc := by
  have hb := hbin ray.geometry.direction
  obtain ⟨r1, r2, r3⟩ := hst.row
  have hlt : dc.dirToBin ray.geometry.direction < st.contribution.data.length := by rw [r3]; exact hb
  have hget : st.contribution.get? 0 (dc.dirToBin ray.geometry.direction) = some st.contribution.data[dc.dirToBin ray.geometry.direction] := by
    rw [hst.row.get?, List.getElem?_eq_getElem hlt]
  have hset : ∀ v, st.contribution.set 0 (dc.dirToBin ray.geometry.direction) v = .ok { st.contribution with data := st.contribution.data.set (dc.dirToBin ray.geometry.direction) v } := by
    intro v
    unfold Mat.set
    rw [if_pos ⟨by rw [r1]; norm_num, by rw [r2]; exact hb⟩]
    simp
  unfold dcMissStep
  simp only [hget, Res.ofOption_some, Res.bind_ok, hset]
  refine ⟨hray, hst.rng, hst.rays, ⟨r1, r2, by simpa using r3⟩, fun hN v hv => ?_⟩
  rcases List.mem_or_eq_of_mem_set hv with h | rfl
  · exact hst.nonneg hN v h
  · exact (hst.nonneg hN _ (List.getElem_mem _)).add (((Spectrum.Nonneg.gray zero_le_one).mul (hray hN).2).divBy (Nat.cast_nonneg _))

theorem dcSurfaceStep_holds (hS : w.Sound s) (hN : N → w.Physical s) (fuel : Nat) (self : DcFn) (h : GoodDc N dc self) (i j : Nat) (ray : TRay) (tri : Tri ℝ) (b : Bary ℝ) (hb : triangleIntersect tri ray.geometry = some b)
    (hj : s.triangles[j]? = some tri) (hf : w.scene.front[i]? = s.front[j]?) (hbk : w.scene.back[i]? = s.back[j]?) (hn : w.scene.normals[i]? = s.normals[j]?) (hit : ray.interaction = recordedInteraction tri ray.geometry b)
    (hray : ray.Good N) (st : DState) (hst : st.Good N dc) (hd : ray.depth ≤ dc.maxDepth) :
    (dcSurfaceStep w dc fuel self i ray st).Holds fun x => x.1.Good N ∧ x.2.Good N dc := by
  have hjl : j < s.triangles.length := (List.getElem?_eq_some_iff.1 hj).1
  unfold dcSurfaceStep
  by_cases hside : ray.interaction.shading.side = .NonApplicable
  · rw [if_pos hside]; exact ⟨hray, hst⟩
  rw [if_neg hside]
  refine (materialAt_holds hS.toSolid _ hside i j hjl hf hbk).bind fun m hm => ?_
  by_cases h1 : ray.depth > dc.maxDepth ∨ m.emitsDirectLight = true
  · rw [if_pos h1]; exact ⟨hray, hst⟩
  rw [if_neg h1]
  have hl : m.emitsLight = false := by
    cases m <;> simp_all [Material.emitsDirectLight, Material.emitsLight]
  have hnorm : ∃ n0 n1 n2, w.scene.normals[i]? = some (n0, n1, n2) ∧ s.normals[j]? = some (n0, n1, n2) := by
    rw [hn, List.getElem?_eq_getElem (by rw [hS.renders.aligned.1]; exact hjl)]
    exact ⟨_, _, _, rfl, rfl⟩
  obtain ⟨n0, n1, n2, hn1, hn2⟩ := hnorm
  simp only [hn1, Res.ofOption_some, Res.bind_ok]
  by_cases h3 : m.specularOnly = true
  · rw [if_pos h3]
    refine ((paths_holds N m h3 (fun hn => (hN hn).materials m hm) _ _ _ ?_).and (Q := fun p => N → ∀ x ∈ p.toList, x.1.colour.Nonneg) ?_).bind fun p hp => ?_
    · exact fun hn => (hray hn).1
    · exact fun p hp hn => paths_colour m ((hN hn).materials m hm) _ _ _ (by exact (hray hn).2) p hp
    · refine (dcSpecularLoop_holds N dc self h _ _ ?_ st hst).bind fun st' hst' => ⟨hray, hst'⟩
      exact fun x hx hn => ⟨(hp.1 x hx hn).1, (hp.1 x hx hn).2, hp.2 hn x hx⟩
  · rw [if_neg h3]
    have hs : m.specularOnly = false := by simpa using h3
    obtain ⟨g1, g2, g3, g4, g5⟩ := ambientSamples_holds ({ ray with interaction := ray.interaction.interpolateNormal n0 n1 n2 } : TRay) dc.nAmbientSamples dc.maxDepth dc.limitWeight st.rng hst.rng
    generalize (({ ray with interaction := ray.interaction.interpolateNormal n0 n1 n2 } : TRay).getNAmbientSamples dc.nAmbientSamples dc.maxDepth dc.limitWeight st.rng) = samp at g1 g2 g3 g4 g5
    obtain ⟨n, ray2, rng2⟩ := samp
    simp only at g1 g2 g3 g4 g5 ⊢
    have hdep : ray2.depth < st.rays.length := by have := hst.rays; omega
    rw [if_pos hdep]
    refine dcAmbientLoop_holds N dc self h m hl hs (hS.matt m hm) (fun hn => (hN hn).materials m hm) fuel _ _ _ _ ?_ n ray2 ?_ _ ⟨g1, by simpa using hst.rays, hst.row, hst.nonneg⟩
    · intro hn
      simp only [TRay.getTriad, g2]
      exact flat_frame (hN hn) ray tri b j hb hj n0 n1 n2 hn2 hit
    · intro hn
      rw [g3, g4]
      exact hray hn

theorem dcTraceRay_good (hS : w.Sound s) (hN : N → w.Physical s) (hbin : ∀ d, dc.dirToBin d < dc.nBins) (fuel : Nat) : GoodDc N dc (dcTraceRay w dc fuel) := by
  induction fuel with
  | zero => intro st ray _ _; trivial
  | succ fuel ih =>
    intro st ray hst hray
    unfold dcTraceRay
    rcases hS.renders.cast_cases ray with ⟨hc, _⟩ | ⟨i, tri, b, j, hc, hj, hb, _, _, hf, hbk, hn, _⟩
    · rw [hc, Res.bind_ok]
      exact dcMissStep_holds N dc hbin ray hray st hst
    · rw [hc, Res.bind_ok]
      simp only
      split_ifs with hd
      · exact ⟨hray, hst⟩
      · exact dcSurfaceStep_holds N dc hS hN fuel _ ih i j { ray with interaction := recordedInteraction tri ray.geometry b } tri b hb hj hf hbk hn rfl hray st hst (not_lt.1 hd)

theorem dcSample_holds (hS : w.Sound s) (hN : N → w.Physical s) (hbin : ∀ d, dc.dirToBin d < dc.nBins) (hD : dc.maxDepth < 15) (fuel : Nat) (origin e1 e2 normal d : Vec3 ℝ) (rng : Rng) (hr : rng.Valid) :
    (dcSample w dc fuel origin e1 e2 normal d rng).Holds fun c => c.IsRow dc.nBins ∧ (N → ∀ v ∈ c.data, v.Nonneg) := by
  unfold dcSample
  refine (dcTraceRay_good N dc hS hN hbin fuel _ _ ⟨hr, by simpa [defaultRays] using hD, dc.blank_isRow, fun _ v hv => ?_⟩ fun _ => ⟨?_, ?_⟩).bind fun x hx => ⟨hx.2.row, hx.2.nonneg⟩
  · simp only [DcFactory.blank, Mat.new] at hv
    rw [List.eq_of_mem_replicate hv]
    exact Spectrum.Nonneg.black
  · norm_num [TRay.default]
  · exact Spectrum.Nonneg.gray Real.pi_pos.le

theorem mapRes_holds {A B : Type} {f : A → Res B} {P : B → Prop} (l : List A) (h : ∀ a ∈ l, (f a).Holds P) : (mapRes f l).Holds fun bs => bs.length = l.length ∧ ∀ b ∈ bs, P b := by
  induction l with
  | nil => exact ⟨rfl, by simp⟩
  | cons a l ih =>
    unfold mapRes
    refine (h a (List.mem_cons_self ..)).bind fun b hb => (ih fun x hx => h x (List.mem_cons_of_mem _ hx)).bind fun bs hbs => ⟨by simp [hbs.1], ?_⟩
    intro x hx
    rcases List.mem_cons.1 hx with rfl | hx
    · exact hb
    · exact hbs.2 x hx

theorem spectrumSum_nonneg (l : List (Spectrum ℝ)) (h : ∀ v ∈ l, v.Nonneg) : (spectrumSum l).Nonneg := by
  induction l with
  | nil => exact Spectrum.Nonneg.black
  | cons a l ih => exact (h a (List.mem_cons_self ..)).add (ih fun v hv => h v (List.mem_cons_of_mem _ hv))

theorem dcRow_holds (hS : w.Sound s) (hN : N → w.Physical s) (hbin : ∀ d, dc.dirToBin d < dc.nBins) (hD : dc.maxDepth < 15) (fuel : Nat) (sensor : Ray3 ℝ) (hn : Norm sensor.direction = 1) (primary : Rng) (secondary : Nat → Rng)
    (hr : ∀ k, (secondary k).Valid) : (dcRow w dc fuel sensor primary secondary).Holds fun row => row.IsRow dc.nBins ∧ (N → ∀ j < dc.nBins, ∀ v, row.get? 0 j = some v → v.Nonneg) := by
  unfold dcRow
  obtain ⟨e2, he, _⟩ := hS.perp sensor.direction hn
  simp only [he, Res.ofOption_some, Res.bind_ok]
  refine (mapRes_holds (P := fun c => c.IsRow dc.nBins ∧ (N → ∀ v ∈ c.data, v.Nonneg)) _ fun x _ => dcSample_holds N dc hS hN hbin hD fuel _ _ _ _ _ _ (hr _)).bind fun cs hcs => ?_
  obtain ⟨out, ho⟩ := dcSum_ok cs dc.blank dc.blank_isRow fun c hc => (hcs.2 c hc).1
  rw [ho]
  obtain ⟨k1, k2⟩ := dcSum_spec cs dc.blank out dc.blank_isRow (fun c hc => (hcs.2 c hc).1) ho
  refine ⟨k1, fun hN' j hj v hv => ?_⟩
  rw [k2 j hj] at hv
  rw [← Option.some.inj hv]
  refine Spectrum.Nonneg.add ?_ (spectrumSum_nonneg _ ?_)
  · rw [dc.blank_isRow.get? j]
    simp [DcFactory.blank, Mat.new, hj]
    exact Spectrum.Nonneg.black
  · intro v hv
    obtain ⟨c, hc, rfl⟩ := List.mem_map.1 hv
    rw [(hcs.2 c hc).1.get?]
    cases hget : c.data[j]? with
    | none => exact Spectrum.Nonneg.black
    | some v => exact (hcs.2 c hc).2 hN' v (List.mem_of_getElem? hget)

theorem calcDc_holds (hS : w.Sound s) (hN : N → w.Physical s) (hbin : ∀ d, dc.dirToBin d < dc.nBins) (hD : dc.maxDepth < 15) (fuel : Nat) (rays : List (Ray3 ℝ)) (hn : ∀ r ∈ rays, Norm r.direction = 1) (primary : Nat → Rng)
    (secondary : Nat → Nat → Rng) (hr : ∀ i k, (secondary i k).Valid) : (calcDc w dc fuel rays primary secondary).Holds fun M => N → ∀ i j v, M.get? i j = some v → v.Nonneg := by
  have hmap : (mapRes (fun (x : Nat × Ray3 ℝ) => dcRow w dc fuel x.2 (primary x.1) (secondary x.1)) (rays.zipIdx.map Prod.swap)).Holds fun rows => rows.length = (rays.zipIdx.map Prod.swap).length ∧
      ∀ row ∈ rows, row.IsRow dc.nBins ∧ (N → ∀ j < dc.nBins, ∀ v, row.get? 0 j = some v → v.Nonneg) := by
    refine mapRes_holds _ fun x hx => ?_
    obtain ⟨y, hy, rfl⟩ := List.mem_map.1 hx
    obtain ⟨a, b⟩ := y
    have := List.mem_zipIdx hy
    exact dcRow_holds N dc hS hN hbin hD fuel _ (hn _ (by rw [Prod.swap]; simp only; rw [this.2.2]; exact List.getElem_mem _)) _ _ (hr _)
  unfold calcDc
  refine hmap.bind fun rows hrows => ?_
  have hlen : rows.length = rays.length := by rw [hrows.1]; simp
  obtain ⟨out, ho⟩ := dcCopyRows_ok rows (fun c hc => (hrows.2 c hc).1) 0 (Mat.new Spectrum.black rays.length dc.nBins) (Mat.WF_new _ _ _) rfl (by simp [Mat.new, hlen])
  rw [ho]
  intro hN' i j v hv
  obtain ⟨_, k2, k3, k4, _⟩ := dcCopyRows_spec rows (fun c hc => (hrows.2 c hc).1) 0 _ out (Mat.WF_new _ _ _) rfl ho
  obtain ⟨hi, hj⟩ := Mat.get?_some_iff hv
  rw [k2] at hi
  rw [k3] at hj
  simp only [Mat.new] at hi hj
  have hrow : rows[i]? = some rows[i] := List.getElem?_eq_getElem (by omega)
  have := k4 i _ hrow j hj
  rw [Nat.zero_add, hv] at this
  exact (hrows.2 _ (List.getElem_mem _)).2 hN' j hj v this.symm

variable {dc}

/-- **C94 (partial).** In a scene that has been built, for sensors that face some direction, computing daylight coefficients never panics, whatever the random numbers. (Missing: glossy materials, as in C92.) -/
theorem C94_never_panics_partial (hS : w.Sound s) (hbin : ∀ d, dc.dirToBin d < dc.nBins) (hD : dc.maxDepth < 15) (fuel : Nat) (rays : List (Ray3 ℝ)) (hn : ∀ r ∈ rays, Norm r.direction = 1) (primary : Nat → Rng) (secondary : Nat → Nat → Rng)
    (hr : ∀ i k, (secondary i k).Valid) : calcDc w dc fuel rays primary secondary ≠ .panic := by
  have := calcDc_holds False dc hS False.elim hbin hD fuel rays hn primary secondary hr
  intro h
  rw [h] at this
  exact this

/-- **C94 (partial).** If material constants make physical sense and surfaces are flat-shaded, no daylight coefficient is negative. (Missing: spheres and glossy materials.) -/
theorem C94_never_negative_partial (hS : w.Sound s) (hP : w.Physical s) (hbin : ∀ d, dc.dirToBin d < dc.nBins) (hD : dc.maxDepth < 15) (fuel : Nat) (rays : List (Ray3 ℝ)) (hn : ∀ r ∈ rays, Norm r.direction = 1) (primary : Nat → Rng)
    (secondary : Nat → Nat → Rng) (hr : ∀ i k, (secondary i k).Valid) (M : Mat (Spectrum ℝ)) (h : calcDc w dc fuel rays primary secondary = .ok M) (i j : Nat) (v : Spectrum ℝ) (hv : M.get? i j = some v) :
    0 ≤ v.c0 ∧ 0 ≤ v.c1 ∧ 0 ≤ v.c2 := by
  have := calcDc_holds True dc hS (fun _ => hP) hbin hD fuel rays hn primary secondary hr
  rw [h] at this
  exact this trivial i j v hv

end Rendering
