import Verif.Lemmas.BvhQuery
import Verif.Lemmas.Triangle
import Verif.Spec.Scene

set_option linter.unusedSectionVars false

namespace Rendering
variable {K : Type} [Field K] [LinearOrder K] [IsStrictOrderedRing K] [FloorRing K]

theorem rebuild_spec (env : SceneEnv K) (hE : env.bvh.Lawful) (s : Scene K) (hs : s.Aligned) :
    ∃ s' bvh, s.rebuildAccelerator env = .ok s' ∧ s'.accelerator = some bvh ∧ s'.Aligned ∧
      s'.triangles.length = s.triangles.length ∧
      s'.rows.Perm s.rows ∧ s'.materials = s.materials ∧ s'.lights = s.lights ∧ s'.distantLights = s.distantLights ∧
      s'.hasSky = s.hasSky ∧ (FitsAccelerator s.triangles → AccelFor bvh s'.triangles) := by
  obtain ⟨bvh, t, f, b, n, e, h1, h2, h3, h4, h5, h6⟩ := bvhNew_spec env.bvh hE s.triangles s.front s.back s.normals
    hs.2.1 hs.2.2 hs.1
  unfold Scene.rebuildAccelerator
  rw [e]
  refine ⟨_, bvh, rfl, rfl, ⟨?_, ?_, ?_⟩, h1, h5, rfl, rfl, rfl, rfl, h6⟩
  · simp only; omega
  · simp only; omega
  · simp only; omega

theorem mem_of_rows {s s' : Scene K} (hs : s.Aligned) (hs' : s'.Aligned) (h : s'.rows.Perm s.rows) :
    s'.triangles.Perm s.triangles ∧ s'.front.Perm s.front ∧ s'.back.Perm s.back ∧ s'.normals.Perm s.normals := by
  obtain ⟨a1, a2, a3⟩ := hs
  obtain ⟨b1, b2, b3⟩ := hs'
  have key : ∀ {s : Scene K}, s.normals.length = s.triangles.length → s.front.length = s.triangles.length →
      s.back.length = s.triangles.length →
      s.rows.map Prod.fst = s.triangles ∧ s.rows.map (fun r => r.2.1) = s.front ∧
      s.rows.map (fun r => r.2.2.1) = s.back ∧ s.rows.map (fun r => r.2.2.2) = s.normals := by
    intro s h1 h2 h3
    unfold Scene.rows Rendering.rows
    have e1 : (s.front.zip (s.back.zip s.normals)).length = s.triangles.length := by simp; omega
    have e2 : (s.back.zip s.normals).length = s.front.length := by simp; omega
    refine ⟨List.map_fst_zip (by omega), ?_, ?_, ?_⟩
    · rw [show (fun r : Tri K × Nat × Nat × Normals K => r.2.1) = Prod.fst ∘ Prod.snd from rfl, ← List.map_map,
        List.map_snd_zip (by omega), List.map_fst_zip (by omega)]
    · rw [show (fun r : Tri K × Nat × Nat × Normals K => r.2.2.1) = Prod.fst ∘ Prod.snd ∘ Prod.snd from rfl, ← List.map_map,
        ← List.map_map, List.map_snd_zip (by omega), List.map_snd_zip (by omega), List.map_fst_zip (by omega)]
    · rw [show (fun r : Tri K × Nat × Nat × Normals K => r.2.2.2) = Prod.snd ∘ Prod.snd ∘ Prod.snd from rfl, ← List.map_map,
        ← List.map_map, List.map_snd_zip (by omega), List.map_snd_zip (by omega), List.map_snd_zip (by omega)]
  obtain ⟨k1, k2, k3, k4⟩ := key a1 a2 a3
  obtain ⟨l1, l2, l3, l4⟩ := key b1 b2 b3
  refine ⟨?_, ?_, ?_, ?_⟩
  · rw [← k1, ← l1]; exact h.map _
  · rw [← k2, ← l2]; exact h.map _
  · rw [← k3, ← l3]; exact h.map _
  · rw [← k4, ← l4]; exact h.map _

end Rendering
