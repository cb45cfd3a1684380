import Verif.Lemmas.Scene
import Verif.Spec.ReferenceEnv
import Mathlib.Algebra.Order.Ring.Rat
import Mathlib.Data.Rat.Floor

/-!
# C01–C08: ray casting

Specification vocabulary: `Verif/Spec/Bvh.lean` (`VisibleHit`, `TolerantHit`, `InRange`, `Blocking`, ...) and
`Verif/Spec/Scene.lean`.
-/

set_option linter.unusedSectionVars false

open scoped List

namespace Rendering
variable {K : Type} [Field K] [LinearOrder K] [IsStrictOrderedRing K] [FloorRing K]

/-- What a build guarantees (glue lemma). -/
theorem builtFrom_spec (env : SceneEnv K) (hE : env.bvh.Lawful) {s s' : Scene K} (hs : s.Aligned)
    (h : s.BuiltFrom env s') :
    s'.Aligned ∧ s'.rows.Perm s.rows ∧ s'.triangles.Perm s.triangles ∧
      ∃ bvh, s'.accelerator = some bvh ∧ (FitsAccelerator s.triangles → AccelFor bvh s'.triangles) := by
  obtain ⟨s1, bvh, e, h1, h2, h3, h4, _, _, _, _, h5⟩ := rebuild_spec env hE s hs
  have he : s' = s1 := by
    rcases h with h | h
    · unfold Scene.buildAccelerator at h
      split at h
      · simp at h
      · rw [e] at h; exact (Res.ok.inj h).symm
    · rw [e] at h; exact (Res.ok.inj h).symm
  subst he
  exact ⟨h2, h4, (mem_of_rows hs h2 h4).1, bvh, h1, h5⟩

/-- The box test is positive on every box around a triangle that the ray reaches. -/
theorem boxHit_of_reached (env : BvhEnv K) (hB : env.BoxTestConservative) (ray : Ray3 K) (tri : Tri K)
    (h : ∃ t, 0 ≤ t ∧ (worldBounds tri).Contains (ray.origin + ray.direction.scale t)) (b : BBox K)
    (hb : (worldBounds tri).Sub b) : env.boxHit b ray = true := by
  obtain ⟨t, ht, hc⟩ := h
  exact hB b ray t ht (hb.contains hc)

/-- **C01.** Whatever tree was built, `cast_ray` reports a triangle of the scene that the ray hits (up to the 2^-52 tolerance on
its edges) in range, at the reported point, and no triangle that the ray goes through is nearer. -/
theorem C01_cast_ray_nearest (env : SceneEnv K) (hE : env.bvh.Lawful) (hB : env.bvh.BoxTestConservative)
    (s s' : Scene K) (hs : s.Aligned) (hfit : FitsAccelerator s.triangles) (hb : s.BuiltFrom env s')
    (ray : Ray3 K) (scratch : List Nat) (i : Nat) (info : Bary K)
    (h : s'.castRay env ray scratch = .ok (some (i, info))) :
    ∃ tri, s'.triangles[i]? = some tri ∧ tri ∈ s.triangles ∧
      TolerantHit ray tri info.t info.p info.u info.v ∧
      InRange (distSq info.p ray.origin) ∧
      ∀ tri' ∈ s.triangles, ∀ d2, VisibleHit ray tri' d2 → 1 / 10 ^ 7 < d2 → distSq info.p ray.origin ≤ d2 := by
  obtain ⟨ha, hr, hp, bvh, hacc, hA⟩ := builtFrom_spec env hE hs hb
  have hlen : s'.triangles.length < 2 ^ 30 := by rw [hp.length_eq]; exact hfit.1
  obtain ⟨r, e, h1, h2⟩ := intersect_spec env.bvh bvh s'.triangles (hA hfit) hlen ray scratch _
    (boxHit_of_reached env.bvh hB ray)
  unfold Scene.castRay at h
  rw [hacc] at h
  simp only at h
  rw [e] at h
  obtain ⟨tri, g1, g2, g3, g4⟩ := h1 i info (Res.ok.inj h)
  refine ⟨tri, g1, hp.mem_iff.1 (List.mem_of_getElem? g1), (baricentric_sound ray tri info g2).1, g3, ?_⟩
  intro tri' ht' d2 hv hd
  obtain ⟨info', k1, k2, k3⟩ := visible_reported hv
  have := g4 tri' (hp.mem_iff.2 ht') k3 info' k1 (by rw [k2]; exact hd)
  rwa [k2] at this

/-- **C02.** `cast_ray` always answers, and when it answers "nothing" the ray goes through no triangle of the scene in range; in
particular it answers a hit whenever the ray goes through one. -/
theorem C02_cast_ray_misses_nothing (env : SceneEnv K) (hE : env.bvh.Lawful) (hB : env.bvh.BoxTestConservative)
    (s s' : Scene K) (hs : s.Aligned) (hfit : FitsAccelerator s.triangles) (hb : s.BuiltFrom env s')
    (ray : Ray3 K) (scratch : List Nat) :
    ∃ r, s'.castRay env ray scratch = .ok r ∧
      (r = none → ∀ tri ∈ s.triangles, ∀ d2, VisibleHit ray tri d2 → ¬ InRange d2) ∧
      ((∀ tri ∈ s.triangles, ∀ t p u v, TolerantHit ray tri t p u v → ¬ InRange (distSq p ray.origin)) → r = none) := by
  obtain ⟨ha, hr, hp, bvh, hacc, hA⟩ := builtFrom_spec env hE hs hb
  have hlen : s'.triangles.length < 2 ^ 30 := by rw [hp.length_eq]; exact hfit.1
  obtain ⟨r, e, h1, h2⟩ := intersect_spec env.bvh bvh s'.triangles (hA hfit) hlen ray scratch _
    (boxHit_of_reached env.bvh hB ray)
  refine ⟨r, ?_, ?_, ?_⟩
  · unfold Scene.castRay; rw [hacc]; exact e
  · intro hn tri ht d2 hv
    obtain ⟨info', k1, k2, k3⟩ := visible_reported hv
    have := h2 hn tri (hp.mem_iff.2 ht) k3 info' k1
    rwa [k2] at this
  · intro hno
    cases hr' : r with
    | none => rfl
    | some x =>
      obtain ⟨i, info⟩ := x
      obtain ⟨tri, g1, g2, g3, _⟩ := h1 i info hr'
      exact absurd g3 (hno tri (hp.mem_iff.1 (List.mem_of_getElem? g1)) _ _ _ _ (baricentric_sound ray tri info g2).1)

/-- **C02**, the equivalence, for rays clear of the tolerance band of the edges: a hit is reported exactly when the ray goes
through a triangle of the scene (not near-parallel to it) in range. -/
theorem C02_cast_ray_iff (env : SceneEnv K) (hE : env.bvh.Lawful) (hB : env.bvh.BoxTestConservative)
    (s s' : Scene K) (hs : s.Aligned) (hfit : FitsAccelerator s.triangles) (hb : s.BuiltFrom env s')
    (ray : Ray3 K) (hclear : ∀ tri ∈ s.triangles, ClearOfEdges ray tri) (scratch : List Nat) :
    (∃ x, s'.castRay env ray scratch = .ok (some x)) ↔ ∃ tri ∈ s.triangles, ∃ d2, VisibleHit ray tri d2 ∧ InRange d2 := by
  obtain ⟨ha, hr, hp, bvh, hacc, hA⟩ := builtFrom_spec env hE hs hb
  have hlen : s'.triangles.length < 2 ^ 30 := by rw [hp.length_eq]; exact hfit.1
  obtain ⟨r, e, h1, h2⟩ := intersect_spec env.bvh bvh s'.triangles (hA hfit) hlen ray scratch _
    (boxHit_of_reached env.bvh hB ray)
  have hc : s'.castRay env ray scratch = .ok r := by unfold Scene.castRay; rw [hacc]; exact e
  rw [hc]
  constructor
  · rintro ⟨⟨i, info⟩, hx⟩
    obtain ⟨tri, g1, g2, g3, _⟩ := h1 i info (Res.ok.inj hx)
    have hm := hp.mem_iff.1 (List.mem_of_getElem? g1)
    obtain ⟨hs1, hs2⟩ := baricentric_sound ray tri info g2
    obtain ⟨c1, c2, c3⟩ := hclear tri hm _ _ _ _ hs1
    exact ⟨tri, hm, _, ⟨info.t, info.p, ⟨hs1.1, info.u, info.v, c1, c2, c3, hs1.2.2.1⟩, hs1.2.1, hs2, rfl⟩, g3⟩
  · rintro ⟨tri, ht, d2, hv, hin⟩
    cases hr' : r with
    | some x => exact ⟨x, rfl⟩
    | none =>
      obtain ⟨info', k1, k2, k3⟩ := visible_reported hv
      have := h2 hr' tri (hp.mem_iff.2 ht) k3 info' k1
      rw [k2] at this
      exact absurd hin this

/-- **C03.** `unobstructed_distance` always answers; it answers `false` when the ray goes through a triangle at a blocking
distance, and only when it (tolerantly) hits one at a blocking distance. -/
theorem C03_unobstructed (env : SceneEnv K) (hE : env.bvh.Lawful) (hB : env.bvh.BoxTestConservative)
    (s s' : Scene K) (hs : s.Aligned) (hfit : FitsAccelerator s.triangles) (hb : s.BuiltFrom env s')
    (ray : Ray3 K) (D : K) (scratch : List Nat) :
    ∃ r, s'.unobstructedDistance env ray D scratch = .ok r ∧
      ((∃ tri ∈ s.triangles, ∃ d2, VisibleHit ray tri d2 ∧ Blocking d2 D) → r = false) ∧
      (r = false → ∃ tri ∈ s.triangles, ∃ t p u v, TolerantHit ray tri t p u v ∧ Blocking (distSq p ray.origin) D) := by
  obtain ⟨ha, hr, hp, bvh, hacc, hA⟩ := builtFrom_spec env hE hs hb
  have hlen : s'.triangles.length < 2 ^ 30 := by rw [hp.length_eq]; exact hfit.1
  obtain ⟨r, e, h1, h2⟩ := unobstructed_spec env.bvh bvh s'.triangles (hA hfit) hlen ray D scratch _
    (boxHit_of_reached env.bvh hB ray)
  refine ⟨r, ?_, ?_, ?_⟩
  · unfold Scene.unobstructedDistance; rw [hacc]; exact e
  · rintro ⟨tri, ht, d2, hv, hbl⟩
    by_contra hne
    have hrt : r = true := by simpa using hne
    obtain ⟨info', k1, k2, k3⟩ := visible_reported hv
    have := h2 hrt tri (hp.mem_iff.2 ht) k3 info' k1
    rw [k2] at this
    simp only [blocks, decide_eq_false_iff_not] at this
    exact this hbl
  · intro hf
    obtain ⟨tri, g1, info, g2, g3⟩ := h1 hf
    refine ⟨tri, hp.mem_iff.1 g1, _, _, _, _, (baricentric_sound ray tri info g2).1, ?_⟩
    simpa [blocks, Blocking] using g3

/-- **C03**, the equivalence, for rays clear of the tolerance band of the edges. -/
theorem C03_unobstructed_iff (env : SceneEnv K) (hE : env.bvh.Lawful) (hB : env.bvh.BoxTestConservative)
    (s s' : Scene K) (hs : s.Aligned) (hfit : FitsAccelerator s.triangles) (hb : s.BuiltFrom env s')
    (ray : Ray3 K) (D : K) (hclear : ∀ tri ∈ s.triangles, ClearOfEdges ray tri) (scratch : List Nat) :
    s'.unobstructedDistance env ray D scratch = .ok false ↔
      ∃ tri ∈ s.triangles, ∃ d2, VisibleHit ray tri d2 ∧ Blocking d2 D := by
  obtain ⟨ha, hr, hp, bvh, hacc, hA⟩ := builtFrom_spec env hE hs hb
  have hlen : s'.triangles.length < 2 ^ 30 := by rw [hp.length_eq]; exact hfit.1
  obtain ⟨r, e, h1, h2⟩ := unobstructed_spec env.bvh bvh s'.triangles (hA hfit) hlen ray D scratch _
    (boxHit_of_reached env.bvh hB ray)
  have hc : s'.unobstructedDistance env ray D scratch = .ok r := by unfold Scene.unobstructedDistance; rw [hacc]; exact e
  rw [hc]
  constructor
  · intro hx
    obtain ⟨tri, g1, info, g2, g3⟩ := h1 (Res.ok.inj hx)
    have hm := hp.mem_iff.1 g1
    obtain ⟨hs1, hs2⟩ := baricentric_sound ray tri info g2
    obtain ⟨c1, c2, c3⟩ := hclear tri hm _ _ _ _ hs1
    refine ⟨tri, hm, _, ⟨info.t, info.p, ⟨hs1.1, info.u, info.v, c1, c2, c3, hs1.2.2.1⟩, hs1.2.1, hs2, rfl⟩, ?_⟩
    simpa [blocks, Blocking] using g3
  · intro hx
    obtain ⟨r', e', k1, _⟩ := C03_unobstructed env hE hB s s' hs hfit hb ray D scratch
    rw [hc] at e'
    rw [Res.ok.inj e', k1 hx]

/-- **C04.** Building never panics and never runs out of its recursion budget (the number of triangles), for every list of
triangles and every outcome of the unstable sorts; no size limit is needed. -/
theorem C04_build_succeeds {F B N : Type} (env : BvhEnv K) (hE : env.Lawful) (tris : List (Tri K)) (front : List F)
    (back : List B) (normals : List N) (hf : front.length = tris.length) (hb : back.length = tris.length)
    (hn : normals.length = tris.length) :
    ∃ r, bvhNew env tris front back normals = .ok r := by
  obtain ⟨bvh, t, f, b, n, e, _⟩ := bvhNew_spec env hE tris front back normals hf hb hn
  exact ⟨_, e⟩

/-- **C05.** Building permutes the rows (triangle, front material, back material, normals) of the scene. -/
theorem C05_build_permutes (env : SceneEnv K) (hE : env.bvh.Lawful) (s s' : Scene K) (hs : s.Aligned)
    (hb : s.BuiltFrom env s') :
    s'.rows.Perm s.rows ∧ s'.Aligned := by
  obtain ⟨ha, hr, _⟩ := builtFrom_spec env hE hs hb
  exact ⟨hr, ha⟩

/-- **C05**, row by row: in the built scene, triangle `i` carries the materials and normals it was pushed with. -/
theorem C05_rows_stay_together (env : SceneEnv K) (hE : env.bvh.Lawful) (s s' : Scene K) (hs : s.Aligned)
    (hb : s.BuiltFrom env s') (i : Nat) (hi : i < s'.triangles.length) :
    ∃ j, j < s.triangles.length ∧ s'.triangles[i]? = s.triangles[j]? ∧ s'.front[i]? = s.front[j]? ∧
      s'.back[i]? = s.back[j]? ∧ s'.normals[i]? = s.normals[j]? := by
  obtain ⟨ha, hr, _⟩ := builtFrom_spec env hE hs hb
  obtain ⟨a1, a2, a3⟩ := ha
  obtain ⟨b1, b2, b3⟩ := hs
  have hm : (s'.triangles[i], s'.front[i], s'.back[i], s'.normals[i]) ∈ s'.rows := by
    unfold Scene.rows rows
    rw [List.mem_iff_getElem]
    exact ⟨i, by simp; omega, by simp⟩
  have hm2 := hr.mem_iff.1 hm
  unfold Scene.rows rows at hm2
  rw [List.mem_iff_getElem] at hm2
  obtain ⟨j, hj, he⟩ := hm2
  simp only [List.length_zip] at hj
  simp only [List.getElem_zip, Prod.mk.injEq] at he
  obtain ⟨e1, e2, e3, e4⟩ := he
  refine ⟨j, by omega, ?_, ?_, ?_, ?_⟩
  · rw [List.getElem?_eq_getElem hi, List.getElem?_eq_getElem (by omega), e1]
  · rw [List.getElem?_eq_getElem (by omega), List.getElem?_eq_getElem (by omega), e2]
  · rw [List.getElem?_eq_getElem (by omega), List.getElem?_eq_getElem (by omega), e3]
  · rw [List.getElem?_eq_getElem (by omega), List.getElem?_eq_getElem (by omega), e4]

/-- **C06.** The answers do not depend on what earlier queries left in the scratch vector. -/
theorem C06_scratch_irrelevant (env : SceneEnv K) (s : Scene K) (ray : Ray3 K) (D : K) (scratch scratch' : List Nat) :
    s.castRay env ray scratch = s.castRay env ray scratch' ∧
    s.unobstructedDistance env ray D scratch = s.unobstructedDistance env ray D scratch' := by
  constructor
  · unfold Scene.castRay bvhIntersect
    simp only [List.take_zero]
  · unfold Scene.unobstructedDistance bvhUnobstructed
    simp only [List.take_zero]

/-- **C07.** Two accelerators over the same triangles — built with any two behaviours of the unstable sorts, of the axis choice, of the
cost function and of the box test — agree on every ray that is clear of the edges' tolerance bands: same hit or miss, same
distance, same occlusion answer. -/
theorem C07_answers_independent_of_tree (env₁ env₂ : SceneEnv K) (hE₁ : env₁.bvh.Lawful) (hE₂ : env₂.bvh.Lawful)
    (hB₁ : env₁.bvh.BoxTestConservative) (hB₂ : env₂.bvh.BoxTestConservative)
    (s₁ s₂ s₁' s₂' : Scene K) (hs₁ : s₁.Aligned) (hs₂ : s₂.Aligned) (hfit : FitsAccelerator s₁.triangles)
    (hperm : s₁.triangles.Perm s₂.triangles)
    (hb₁ : s₁.BuiltFrom env₁ s₁') (hb₂ : s₂.BuiltFrom env₂ s₂')
    (ray : Ray3 K) (D : K) (hclear : ∀ tri ∈ s₁.triangles, ClearOfEdges ray tri) (scratch scratch' : List Nat) :
    (∃ r₁ r₂, s₁'.castRay env₁ ray scratch = .ok r₁ ∧ s₂'.castRay env₂ ray scratch' = .ok r₂ ∧
      r₁.map (fun x => distSq x.2.p ray.origin) = r₂.map (fun x => distSq x.2.p ray.origin)) ∧
    s₁'.unobstructedDistance env₁ ray D scratch = s₂'.unobstructedDistance env₂ ray D scratch' := by
  have hfit₂ : FitsAccelerator s₂.triangles := by
    refine ⟨by rw [← hperm.length_eq]; exact hfit.1, ?_⟩
    intro l hl hlen
    exact hfit.2 l (hl.trans hperm.symm.subperm) hlen
  have hclear₂ : ∀ tri ∈ s₂.triangles, ClearOfEdges ray tri := fun t ht => hclear t (hperm.mem_iff.2 ht)
  have visible : ∀ {tri : Tri K} {info : Bary K}, ClearOfEdges ray tri →
      1 / 10 ^ 5 ≤ |tripleProduct ray tri| →
      TolerantHit ray tri info.t info.p info.u info.v → VisibleHit ray tri (distSq info.p ray.origin) := by
    intro tri info hc hdet hs1
    obtain ⟨c1, c2, c3⟩ := hc _ _ _ _ hs1
    exact ⟨info.t, info.p, ⟨hs1.1, info.u, info.v, c1, c2, c3, hs1.2.2.1⟩, hs1.2.1, hdet, rfl⟩
  constructor
  · obtain ⟨_, _, hp₁, bvh₁, hacc₁, hA₁⟩ := builtFrom_spec env₁ hE₁ hs₁ hb₁
    obtain ⟨_, _, hp₂, bvh₂, hacc₂, hA₂⟩ := builtFrom_spec env₂ hE₂ hs₂ hb₂
    have hl₁ : s₁'.triangles.length < 2 ^ 30 := by rw [hp₁.length_eq]; exact hfit.1
    have hl₂ : s₂'.triangles.length < 2 ^ 30 := by rw [hp₂.length_eq]; exact hfit₂.1
    obtain ⟨r₁, e₁, h1, h2⟩ := intersect_spec env₁.bvh bvh₁ s₁'.triangles (hA₁ hfit) hl₁ ray scratch _
      (boxHit_of_reached env₁.bvh hB₁ ray)
    obtain ⟨r₂, e₂, g1, g2⟩ := intersect_spec env₂.bvh bvh₂ s₂'.triangles (hA₂ hfit₂) hl₂ ray scratch' _
      (boxHit_of_reached env₂.bvh hB₂ ray)
    refine ⟨r₁, r₂, by unfold Scene.castRay; rw [hacc₁]; exact e₁, by unfold Scene.castRay; rw [hacc₂]; exact e₂, ?_⟩
    have hpp : s₁'.triangles.Perm s₂'.triangles := hp₁.trans (hperm.trans hp₂.symm)
    cases hr₁ : r₁ with
    | none =>
      cases hr₂ : r₂ with
      | none => rfl
      | some y =>
        exfalso
        obtain ⟨i, info⟩ := y
        obtain ⟨tri, k1, k2, k3, _⟩ := g1 i info hr₂
        have hm := List.mem_of_getElem? k1
        obtain ⟨q1, q2⟩ := baricentric_sound ray tri info k2
        obtain ⟨info', w1, w2, w3⟩ := visible_reported (visible (hclear₂ tri (hp₂.mem_iff.1 hm)) q2 q1)
        rw [k2] at w1
        cases w1
        exact h2 hr₁ tri (hpp.mem_iff.2 hm) w3 info k2 k3
    | some x =>
      obtain ⟨i, info⟩ := x
      obtain ⟨tri, k1, k2, k3, k4⟩ := h1 i info hr₁
      have hm := List.mem_of_getElem? k1
      obtain ⟨q1, q2⟩ := baricentric_sound ray tri info k2
      obtain ⟨info', w1, w2, w3⟩ := visible_reported (visible (hclear tri (hp₁.mem_iff.1 hm)) q2 q1)
      rw [k2] at w1
      cases w1
      cases hr₂ : r₂ with
      | none => exact absurd k3 (g2 hr₂ tri (hpp.mem_iff.1 hm) w3 info k2)
      | some y =>
        obtain ⟨j, jnfo⟩ := y
        obtain ⟨tri₂, l1, l2, l3, l4⟩ := g1 j jnfo hr₂
        have hm₂ := List.mem_of_getElem? l1
        obtain ⟨p1, p2⟩ := baricentric_sound ray tri₂ jnfo l2
        obtain ⟨info'', v1, v2, v3⟩ := visible_reported (visible (hclear₂ tri₂ (hp₂.mem_iff.1 hm₂)) p2 p1)
        rw [l2] at v1
        cases v1
        simp only [Option.map_some, Option.some.injEq]
        exact le_antisymm (k4 tri₂ (hpp.mem_iff.2 hm₂) v3 jnfo l2 l3.1) (l4 tri (hpp.mem_iff.1 hm) w3 info k2 k3.1)
  · obtain ⟨r₁, e₁, _, _⟩ := C03_unobstructed env₁ hE₁ hB₁ s₁ s₁' hs₁ hfit hb₁ ray D scratch
    obtain ⟨r₂, e₂, _, _⟩ := C03_unobstructed env₂ hE₂ hB₂ s₂ s₂' hs₂ hfit₂ hb₂ ray D scratch'
    have i1 := C03_unobstructed_iff env₁ hE₁ hB₁ s₁ s₁' hs₁ hfit hb₁ ray D hclear scratch
    have i2 := C03_unobstructed_iff env₂ hE₂ hB₂ s₂ s₂' hs₂ hfit₂ hb₂ ray D hclear₂ scratch'
    have : (∃ tri ∈ s₁.triangles, ∃ d2, VisibleHit ray tri d2 ∧ Blocking d2 D) ↔
        (∃ tri ∈ s₂.triangles, ∃ d2, VisibleHit ray tri d2 ∧ Blocking d2 D) := by
      constructor
      · rintro ⟨t, h, r⟩; exact ⟨t, hperm.mem_iff.1 h, r⟩
      · rintro ⟨t, h, r⟩; exact ⟨t, hperm.mem_iff.2 h, r⟩
    rw [this, ← i2] at i1
    rw [e₁, e₂] at i1 ⊢
    cases r₁ <;> cases r₂ <;> simp_all

/-! ### C08 -/

/-- **C08 (partial).** Full statement: for *every* number `n` of triangles sharing one centroid, every one the ray goes through is found.
Proved for scenes in which no 32768 triangles are clustered within 1e-8 of one centroid; `C08_violation` shows that the
restriction cannot be removed. -/
theorem C08_coincident_partial (env : SceneEnv K) (hE : env.bvh.Lawful) (hB : env.bvh.BoxTestConservative)
    (s s' : Scene K) (hs : s.Aligned) (hn : s.triangles.length < 2 ^ 15) (hb : s.BuiltFrom env s')
    (ray : Ray3 K) (scratch : List Nat) (tri : Tri K) (ht : tri ∈ s.triangles) (d2 : K) (hv : VisibleHit ray tri d2)
    (hr : InRange d2) :
    ∃ i info, s'.castRay env ray scratch = .ok (some (i, info)) ∧ distSq info.p ray.origin ≤ d2 := by
  have hfit : FitsAccelerator s.triangles := by
    refine ⟨by omega, fun l hl hlen => ?_⟩
    have := hl.length_le
    omega
  obtain ⟨r, e, h1, _⟩ := C02_cast_ray_misses_nothing env hE hB s s' hs hfit hb ray scratch
  cases hr' : r with
  | none => exact absurd hr (h1 hr' tri ht d2 hv)
  | some x =>
    obtain ⟨i, info⟩ := x
    rw [hr'] at e
    obtain ⟨_, _, _, _, _, h5⟩ := C01_cast_ray_nearest env hE hB s s' hs hfit hb ray scratch i info e
    exact ⟨i, info, e, h5 tri ht d2 hv hr.1⟩

/-- All centroids equal: the centroid box is that one point. -/
theorem centroidBounds_const (i0 : ObjInfo K) (rest : List (ObjInfo K)) (h : ∀ i ∈ rest, i.centroid = i0.centroid) :
    centroidBoundsOf i0 rest = BBox.fromPoint i0.centroid := by
  unfold centroidBoundsOf
  induction rest with
  | nil => rfl
  | cons j js ih =>
    rw [List.foldl_cons, h j List.mem_cons_self]
    have : (BBox.fromPoint i0.centroid).fromUnionPoint i0.centroid = BBox.fromPoint i0.centroid := by
      simp [BBox.fromPoint, BBox.fromUnionPoint]
    rw [this]
    exact ih (fun i hi => h i (List.mem_cons_of_mem _ hi))

/-- The tree of `n ≥ 2` copies of one triangle is a single leaf. -/
theorem bvhNew_copies {F B N : Type} (env : BvhEnv K) (tri : Tri K) (n : Nat) (hn : 2 ≤ n) (f : F) (b : B) (nm : N) :
    ∃ bounds order, (worldBounds tri).Sub bounds ∧ bvhNew env (List.replicate n tri) (List.replicate n f) (List.replicate n b) (List.replicate n nm) =
      ((gather (List.replicate n tri) order).bind fun t => (gather (List.replicate n b) order).bind fun b' =>
        (gather (List.replicate n f) order).bind fun f' => (gather (List.replicate n nm) order).bind fun n' =>
        .ok (⟨[{ bounds := bounds, nPrims := asI16 n, next := asI32 0, axis := .X }]⟩, t, f', b', n')) := by
  unfold bvhNew
  simp only [List.length_replicate]
  rw [if_neg (by omega)]
  cases hL : (List.replicate n tri).zipIdx.map (fun p => ObjInfo.new p.2 p.1) with
  | nil =>
    have := congrArg List.length hL
    simp at this; omega
  | cons i0 rest =>
    have hlen := congrArg List.length hL
    simp at hlen
    have hall : ∀ i ∈ i0 :: rest, i.centroid = (ObjInfo.new 0 tri).centroid := by
      intro i hi
      rw [← hL] at hi
      obtain ⟨p, hp, rfl⟩ := List.mem_map.1 hi
      have : p.1 = tri := by
        have := List.fst_mem_of_mem_zipIdx hp
        exact List.eq_of_mem_replicate this
      simp [ObjInfo.new, this]
    have hc : centroidBoundsOf i0 rest = BBox.fromPoint i0.centroid := by
      apply centroidBounds_const
      intro i hi
      rw [hall i (List.mem_cons_of_mem _ hi), hall i0 List.mem_cons_self]
    have hd : decideSplit env i0 rest = .ok .makeLeaf := by
      unfold decideSplit
      simp only [hc, BBox.fromPoint, sub_self]
      rw [if_pos (by positivity)]
    obtain ⟨m, rfl⟩ : ∃ m, n = m + 1 := ⟨n - 1, by omega⟩
    refine ⟨boundsOf i0 rest, (i0 :: rest).map (·.index), ?_, ?_⟩
    · have hb0 : i0.bounds = worldBounds tri := by
        have : i0 ∈ i0 :: rest := List.mem_cons_self
        rw [← hL] at this
        obtain ⟨p, hp, rfl⟩ := List.mem_map.1 this
        have : p.1 = tri := List.eq_of_mem_replicate (List.fst_mem_of_mem_zipIdx hp)
        simp [ObjInfo.new, this]
      rw [← hb0]
      exact boundsOf_sub i0 rest i0 List.mem_cons_self
    simp only [recursiveBuild]
    rw [if_neg (by omega), hd]
    simp only [Res.bind_eq, Res.bind_ok, flattenNode, List.nil_append]
    rw [hlen]

theorem asI16_wrapped {n : Nat} (h1 : 2 ^ 15 ≤ n) (h2 : n ≤ 2 ^ 16) : ¬ (asI16 n > 0) := by
  unfold asI16
  rw [Int.bmod_def]
  split <;> omega

attribute [local irreducible] asI16 asI32 asUsize

/-- A scene holding `n` copies of one triangle. -/
def copiesScene (n : Nat) (tri : Tri K) (f b : Nat) (nm : Normals K) : Scene K where
  triangles := List.replicate n tri
  front := List.replicate n f
  back := List.replicate n b
  normals := List.replicate n nm

/-- A single node that claims to be interior: the traversal never leaves it. -/
theorem traverse_wrapped {S R : Type} (nodes : List (FlatNode K)) (hit : BBox K → Bool) (neg : Axis → Bool)
    (leaf : Nat → Nat → S → LeafOut S R) (node : FlatNode K) (hn : nodes = [node]) (hhit : hit node.bounds = true)
    (hleaf : ¬ (node.nPrims > 0)) (hnext : asUsize node.next = 0) (hax : node.axis = .X) :
    ∀ fuel stack s, traverseLoop nodes hit neg leaf fuel 0 stack s =
      if neg .X = true ∨ fuel ≤ 1 then .diverge else .panic := by
  intro fuel
  induction fuel with
  | zero => intros; simp [traverseLoop]
  | succ k ih =>
    intro stack s
    rw [hn] at ih ⊢
    unfold traverseLoop
    simp only [List.getElem?_cons_zero, hhit, if_true, FlatNode.isLeaf, hleaf, decide_false, Bool.false_eq_true, if_false, hax, hnext]
    cases hx : neg .X with
    | true => simp [ih, hx]
    | false =>
      cases k with
      | zero => simp [traverseLoop]
      | succ j => simp [traverseLoop]

/-- **C08, violation.** Take `n` coincident triangles with `32768 ≤ n ≤ 65536`: the accelerator is built without complaint, but a ray
through them never gets an answer. With a direction whose X component is negative the loop runs for ever (`diverge` for every
number of iterations); otherwise the second iteration indexes past the node array and panics. -/
theorem C08_violation (env : SceneEnv K) (hE : env.bvh.Lawful) (hB : env.bvh.BoxTestConservative) (tri : Tri K) (n : Nat)
    (h1 : 2 ^ 15 ≤ n) (h2 : n ≤ 2 ^ 16) (f b : Nat) (nm : Normals K) (ray : Ray3 K) (scratch : List Nat) (d2 : K)
    (hv : VisibleHit ray tri d2) :
    ∃ s' bvh, Scene.BuiltFrom env (copiesScene n tri f b nm) s' ∧ s'.accelerator = some bvh ∧
      (∀ x, s'.castRay env ray scratch ≠ .ok x) ∧
      ∀ fuel, traverseLoop bvh.nodes (fun bx => env.bvh.boxHit bx ray) (dirIsNeg ray) (intersectAct s'.triangles ray) fuel 0 []
            { primIndex := none, tSquared := floatMax K } =
          if ray.direction.x < 0 ∨ fuel ≤ 1 then .diverge else .panic := by
  have hA : (copiesScene n tri f b nm).Aligned := by simp [Scene.Aligned, copiesScene]
  obtain ⟨s', bvh, e, hacc, _⟩ := rebuild_spec env hE _ hA
  obtain ⟨bounds, order, hsub, hnew⟩ := bvhNew_copies (F := Nat) (B := Nat) (N := Normals K) env.bvh tri n (by omega) f b nm
  obtain ⟨bv2, t', f', b', n', e2, _⟩ := bvhNew_spec env.bvh hE (List.replicate n tri) (List.replicate n f)
    (List.replicate n b) (List.replicate n nm) (by simp) (by simp) (by simp)
  have hnodes : bvh.nodes = [{ bounds := bounds, nPrims := asI16 n, next := asI32 0, axis := .X }] := by
    unfold Scene.rebuildAccelerator copiesScene at e
    simp only at e
    rw [e2] at e
    rw [e2] at hnew
    have hbv : bvh = bv2 := by
      have := Res.ok.inj e
      rw [← this] at hacc
      exact (Option.some.inj hacc).symm
    rw [hbv]
    revert hnew
    cases gather (List.replicate n tri) order <;> simp only [Res.bind_ok, Res.bind_panic, Res.bind_diverge, reduceCtorEq, false_imp_iff]
    cases gather (List.replicate n b) order <;> simp only [Res.bind_ok, Res.bind_panic, Res.bind_diverge, reduceCtorEq, false_imp_iff]
    cases gather (List.replicate n f) order <;> simp only [Res.bind_ok, Res.bind_panic, Res.bind_diverge, reduceCtorEq, false_imp_iff]
    cases gather (List.replicate n nm) order <;> simp only [Res.bind_ok, Res.bind_panic, Res.bind_diverge, reduceCtorEq, false_imp_iff]
    intro h
    have := Res.ok.inj h
    simp only [Prod.mk.injEq] at this
    rw [this.1]
  have hleaf := asI16_wrapped h1 h2
  have hhit : env.bvh.boxHit bounds ray = true := by
    obtain ⟨_, _, _, hreach⟩ := visible_reported hv
    exact boxHit_of_reached env.bvh hB ray tri hreach bounds hsub
  have hneg : dirIsNeg ray .X = decide (ray.direction.x < 0) := by
    unfold dirIsNeg
    simp only [Vec3.get, one_div, inv_lt_zero]
  have hnext : asUsize (asI32 0) = 0 := asUsize_asI32 (n := 0) (by norm_num)
  have main := traverse_wrapped (S := HitState K) (R := Empty) bvh.nodes (fun bx => env.bvh.boxHit bx ray) (dirIsNeg ray)
    (intersectAct s'.triangles ray) { bounds := bounds, nPrims := asI16 n, next := asI32 0, axis := .X } hnodes hhit hleaf hnext rfl
  have main' : ∀ fuel stack s, traverseLoop bvh.nodes (fun bx => env.bvh.boxHit bx ray) (dirIsNeg ray)
      (intersectAct s'.triangles ray) fuel 0 stack s = if ray.direction.x < 0 ∨ fuel ≤ 1 then .diverge else .panic := by
    intro fuel stack s
    rw [main, hneg]
    by_cases hx : ray.direction.x < 0
    · rw [if_pos (Or.inl hx), if_pos (Or.inl (by simpa using hx))]
    · by_cases hf : fuel ≤ 1
      · rw [if_pos (Or.inr hf), if_pos (Or.inr hf)]
      · rw [if_neg (by simp [hx]; omega), if_neg (by simp [hx]; omega)]
  refine ⟨s', bvh, Or.inr e, hacc, ?_, fun fuel => main' fuel [] _⟩
  intro x
  unfold Scene.castRay bvhIntersect
  rw [hacc]
  have hne : bvh.nodes.isEmpty = false := by rw [hnodes]; rfl
  simp only [hne, Bool.false_eq_true, if_false, List.take_zero, main']
  split <;> simp

end Rendering
