import Verif.Lemmas.Scene

/-! Queries with a tree that covers only a prefix of the triangles. -/

set_option linter.unusedSectionVars false

namespace Rendering
variable {K : Type} [Field K] [LinearOrder K] [IsStrictOrderedRing K] [FloorRing K]

theorem treeVisit_congr {S R : Type} (hit : BBox K → Bool) (neg : Axis → Bool) (leaf leaf' : Nat → Nat → S → LeafOut S R)
    (N : Nat) (h : ∀ ini fin s, ini ≤ fin → fin ≤ N → leaf ini fin s = leaf' ini fin s) (nd : Node K) (off : Nat)
    (bs : List (BBox K)) (hc : nd.Covers off bs) (hN : off + bs.length ≤ N) (s : S) :
    treeVisit hit neg leaf nd s = treeVisit hit neg leaf' nd s := by
  induction nd generalizing off bs s with
  | leaf b first n =>
    obtain ⟨rfl, rfl, h0, -⟩ := hc
    simp only [treeVisit]
    rw [h _ _ s (by omega) (by omega)]
  | interior b ax l r ihl ihr =>
    obtain ⟨bs1, bs2, rfl, h1, h2, -, -⟩ := hc
    rw [List.length_append] at hN
    have el := fun s => ihl off bs1 h1 (by omega) s
    have er := fun s => ihr (off + bs1.length) bs2 h2 (by omega) s
    simp only [treeVisit, el, er]

theorem slice?_append {α : Type} (P Q : List α) (ini fin : Nat) (h : fin ≤ P.length) :
    slice? (P ++ Q) ini fin = slice? P ini fin := by
  unfold slice?
  have h2 : fin ≤ (P ++ Q).length := by simp; omega
  by_cases hi : ini ≤ fin
  · rw [if_pos ⟨hi, h2⟩, if_pos ⟨hi, h⟩, List.take_append_of_le_length h]
  · rw [if_neg (by tauto), if_neg (by tauto)]

theorem bvhIntersect_append (env : BvhEnv K) (bvh : Bvh K) (P Q : List (Tri K)) (hA : AccelFor bvh P) (hP : P.length < 2 ^ 30)
    (ray : Ray3 K) (scratch : List Nat) :
    bvhIntersect env bvh.nodes (P ++ Q) ray scratch = bvhIntersect env bvh.nodes P ray scratch := by
  rcases hA.empty_or with ⟨rfl, hn⟩ | ⟨root, hn, hc, hz, hfit⟩
  · simp [bvhIntersect, hn]
  · unfold bvhIntersect
    simp only [List.take_zero]
    rw [hn, traverse_root root _ _ (intersectAct (P ++ Q) ray) hfit (by omega),
      traverse_root root _ _ (intersectAct P ray) hfit (by omega),
      treeVisit_congr _ _ (intersectAct (P ++ Q) ray) (intersectAct P ray) P.length _ root 0 _ hc (by simp)]
    intro ini fin s _ hf
    unfold intersectAct
    rw [slice?_append P Q ini fin hf]

theorem bvhUnobstructed_append (env : BvhEnv K) (bvh : Bvh K) (P Q : List (Tri K)) (hA : AccelFor bvh P) (hP : P.length < 2 ^ 30)
    (ray : Ray3 K) (D : K) (scratch : List Nat) :
    bvhUnobstructed env bvh.nodes (P ++ Q) ray D scratch = bvhUnobstructed env bvh.nodes P ray D scratch := by
  rcases hA.empty_or with ⟨rfl, hn⟩ | ⟨root, hn, hc, hz, hfit⟩
  · simp [bvhUnobstructed, hn]
  · unfold bvhUnobstructed
    simp only [List.take_zero]
    rw [hn, traverse_root root _ _ (unobstructedAct (P ++ Q) ray D) hfit (by omega),
      traverse_root root _ _ (unobstructedAct P ray D) hfit (by omega),
      treeVisit_congr _ _ (unobstructedAct (P ++ Q) ray D) (unobstructedAct P ray D) P.length _ root 0 _ hc (by simp)]
    intro ini fin s _ hf
    unfold unobstructedAct
    rw [slice?_append P Q ini fin hf]

end Rendering
