import Verif.Lemmas.BvhBuild

set_option linter.unusedSectionVars false

namespace Rendering
variable {K : Type}

theorem asUsize_asI32 {n : Nat} (h : n < 2 ^ 31) : asUsize (asI32 n) = n := by
  unfold asUsize asI32
  rw [Int.bmod_eq_of_le (by omega) (by omega)]
  omega

theorem asUsize_asI16 {n : Nat} (h : n < 2 ^ 15) : asUsize (asI16 n) = n := by
  unfold asUsize asI16
  rw [Int.bmod_eq_of_le (by omega) (by omega)]
  omega

theorem asI16_pos {n : Nat} (h0 : 0 < n) (h : n < 2 ^ 15) : asI16 n > 0 := by
  unfold asI16
  rw [Int.bmod_eq_of_le (by omega) (by omega)]
  omega

/-- Pure description of what `flatten_node` appends. -/
def flat : Node K → Nat → List (FlatNode K)
  | .leaf b first n, _ => [{ bounds := b, nPrims := asI16 n, next := asI32 first, axis := .X }]
  | .interior b ax l r, off =>
    { bounds := b, nPrims := 0, axis := ax, next := asI32 (off + 1 + l.size) } ::
      (flat l (off + 1) ++ flat r (off + 1 + l.size))

theorem flat_length (nd : Node K) (off : Nat) : (flat nd off).length = nd.size := by
  induction nd generalizing off with
  | leaf => simp [flat, Node.size]
  | interior b ax l r ihl ihr => simp [flat, Node.size, ihl, ihr]; omega

theorem modify_append_cons {α : Type} (l : List α) (x : α) (r : List α) (f : α → α) :
    (l ++ ([x] ++ r)).modify l.length f = l ++ ([f x] ++ r) := by
  induction l with
  | nil => rfl
  | cons y ys ih => simpa using ih

theorem flattenNode_eq (nd : Node K) (nodes : List (FlatNode K)) :
    flattenNode nd nodes = (nodes ++ flat nd nodes.length, nodes.length) := by
  induction nd generalizing nodes with
  | leaf => simp [flattenNode, flat]
  | interior b ax l r ihl ihr =>
    simp only [flattenNode, ihl, ihr]
    simp only [Prod.mk.injEq, and_true]
    rw [show (nodes ++ [({ bounds := b, nPrims := 0, axis := ax, next := 0 } : FlatNode K)]).length
        = nodes.length + 1 by simp]
    rw [show (nodes ++ [({ bounds := b, nPrims := 0, axis := ax, next := 0 } : FlatNode K)]
        ++ flat l (nodes.length + 1)).length = nodes.length + 1 + l.size by simp [flat_length]; omega]
    simp only [List.append_assoc]
    rw [modify_append_cons]
    simp [flat]

/-- The flattened array holds the tree at `off`. -/
def Layout (nodes : List (FlatNode K)) : Node K → Nat → Prop
  | .leaf b first n, off => nodes[off]? = some { bounds := b, nPrims := asI16 n, next := asI32 first, axis := .X }
  | .interior b ax l r, off =>
    nodes[off]? = some { bounds := b, nPrims := 0, axis := ax, next := asI32 (off + 1 + l.size) } ∧
      Layout nodes l (off + 1) ∧ Layout nodes r (off + 1 + l.size)

theorem layout_flat (nd : Node K) (pre post : List (FlatNode K)) :
    Layout (pre ++ flat nd pre.length ++ post) nd pre.length := by
  induction nd generalizing pre post with
  | leaf => simp [Layout, flat]
  | interior b ax l r ihl ihr =>
    refine ⟨by simp [flat], ?_, ?_⟩
    · have := ihl (pre ++ [{ bounds := b, nPrims := 0, axis := ax, next := asI32 (pre.length + 1 + l.size) }])
        (flat r (pre.length + 1 + l.size) ++ post)
      simpa [flat] using this
    · have := ihr (pre ++ [{ bounds := b, nPrims := 0, axis := ax, next := asI32 (pre.length + 1 + l.size) }]
        ++ flat l (pre.length + 1)) post
      have e : (pre ++ [({ bounds := b, nPrims := 0, axis := ax, next := asI32 (pre.length + 1 + l.size) } : FlatNode K)]
        ++ flat l (pre.length + 1)).length = pre.length + 1 + l.size := by simp [flat_length]; omega
      rw [e] at this
      simpa [flat] using this

theorem layout_flattenNode (nd : Node K) :
    Layout (flattenNode nd []).1 nd 0 ∧ (flattenNode nd []).1.length = nd.size := by
  rw [flattenNode_eq]
  have := layout_flat nd [] []
  simp at this
  simp [flat_length, this]

/-! ### Traversal -/

/-- Recursive reading of the traversal. -/
def treeVisit {S R : Type} (hit : BBox K → Bool) (neg : Axis → Bool) (leaf : Nat → Nat → S → LeafOut S R) :
    Node K → S → LeafOut S R
  | .leaf b first n, s => if hit b then leaf first (first + n) s else .cont s
  | .interior b ax l r, s =>
    if hit b then
      if neg ax then
        match treeVisit hit neg leaf r s with
        | .cont s => treeVisit hit neg leaf l s
        | x => x
      else
        match treeVisit hit neg leaf l s with
        | .cont s => treeVisit hit neg leaf r s
        | x => x
    else .cont s

/-- What happens after a subtree has been dealt with. -/
def afterVisit {S R : Type} (nodes : List (FlatNode K)) (hit : BBox K → Bool) (neg : Axis → Bool)
    (leaf : Nat → Nat → S → LeafOut S R) (fuel : Nat) (stack : List Nat) : LeafOut S R → Res (S ⊕ R)
  | .panic => .panic
  | .ret r => .ok (.inr r)
  | .cont s =>
    match stack with
    | [] => .ok (.inl s)
    | i :: st => traverseLoop nodes hit neg leaf fuel i st s

/-- All primitives offsets and counts fit their fields. -/
def Node.Fits : Node K → Prop
  | .leaf _ first n => first < 2 ^ 31 ∧ 0 < n ∧ n < 2 ^ 15
  | .interior _ _ l r => l.Fits ∧ r.Fits

theorem Node.fits_of {nd : Node K} [LinearOrder K] {off : Nat} {bs : List (BBox K)} (h : nd.Covers off bs)
    (hl : nd.LeafLt (2 ^ 15)) (hb : off + bs.length ≤ 2 ^ 30) : nd.Fits := by
  induction nd generalizing off bs with
  | leaf b first n =>
    obtain ⟨rfl, rfl, h0, -⟩ := h
    exact ⟨by omega, h0, hl⟩
  | interior b ax l r ihl ihr =>
    obtain ⟨bs1, bs2, rfl, h1, h2, -, -⟩ := h
    rw [List.length_append] at hb
    exact ⟨ihl h1 hl.1 (by omega), ihr h2 hl.2 (by omega)⟩

theorem traverseLoop_visit {S R : Type} (nodes : List (FlatNode K)) (hit : BBox K → Bool) (neg : Axis → Bool)
    (leaf : Nat → Nat → S → LeafOut S R) (nd : Node K) (off : Nat) (hL : Layout nodes nd off) (hF : nd.Fits)
    (hsz : off + nd.size ≤ 2 ^ 31) (fuel : Nat) (hfuel : nd.size ≤ fuel) (stack : List Nat) (s : S) :
    ∃ fuel', fuel - nd.size ≤ fuel' ∧
      traverseLoop nodes hit neg leaf fuel off stack s =
        afterVisit nodes hit neg leaf fuel' stack (treeVisit hit neg leaf nd s) := by
  induction nd generalizing off fuel stack s with
  | leaf b first n =>
    simp only [Node.size] at hfuel hsz
    obtain ⟨fuel, rfl⟩ : ∃ k, fuel = k + 1 := ⟨fuel - 1, by omega⟩
    refine ⟨fuel, by simp [Node.size], ?_⟩
    unfold traverseLoop
    simp only [Layout] at hL
    rw [hL]
    obtain ⟨h1, h2, h3⟩ := hF
    simp only [treeVisit, FlatNode.isLeaf, asI16_pos h2 h3, decide_true, if_true, asUsize_asI32 h1, asUsize_asI16 h3]
    split
    · cases leaf first (first + n) s with
      | panic => rfl
      | ret r => rfl
      | cont s => cases stack <;> rfl
    · cases stack <;> rfl
  | interior b ax l r ihl ihr =>
    simp only [Node.size] at hfuel hsz
    obtain ⟨hL0, hL1, hL2⟩ := hL
    obtain ⟨fuel, rfl⟩ : ∃ k, fuel = k + 1 := ⟨fuel - 1, by omega⟩
    unfold traverseLoop
    rw [hL0]
    have hl1 : 1 ≤ l.size := by cases l <;> (simp [Node.size]; try omega)
    have hr1 : 1 ≤ r.size := by cases r <;> (simp [Node.size]; try omega)
    have hnl : decide ((0 : Int) > 0) = false := rfl
    simp only [FlatNode.isLeaf, hnl, Bool.false_eq_true, if_false, treeVisit,
      asUsize_asI32 (show off + 1 + l.size < 2 ^ 31 by omega)]
    by_cases hb : hit b = true
    · simp only [hb, if_true]
      by_cases hn : neg ax = true
      · simp only [hn, if_true]
        obtain ⟨f1, hf1, e1⟩ := ihr (off + 1 + l.size) hL2 hF.2 (by omega) fuel (by omega) ((off + 1) :: stack) s
        rw [e1]
        cases hv : treeVisit hit neg leaf r s with
        | panic => exact ⟨fuel, by simp only [Node.size]; omega, rfl⟩
        | ret r => exact ⟨fuel, by simp only [Node.size]; omega, rfl⟩
        | cont s' =>
          simp only [afterVisit]
          obtain ⟨f2, hf2, e2⟩ := ihl (off + 1) hL1 hF.1 (by omega) f1 (by omega) stack s'
          exact ⟨f2, by simp only [Node.size]; omega, e2⟩
      · simp only [hn]
        obtain ⟨f1, hf1, e1⟩ := ihl (off + 1) hL1 hF.1 (by omega) fuel (by omega) ((off + 1 + l.size) :: stack) s
        simp only [Bool.false_eq_true, if_false]
        rw [e1]
        cases hv : treeVisit hit neg leaf l s with
        | panic => exact ⟨fuel, by simp only [Node.size]; omega, rfl⟩
        | ret r => exact ⟨fuel, by simp only [Node.size]; omega, rfl⟩
        | cont s' =>
          simp only [afterVisit]
          obtain ⟨f2, hf2, e2⟩ := ihr (off + 1 + l.size) hL2 hF.2 (by omega) f1 (by omega) stack s'
          exact ⟨f2, by simp only [Node.size]; omega, e2⟩
    · simp only [hb]
      refine ⟨fuel, by simp only [Node.size]; omega, ?_⟩
      cases stack <;> rfl

/-- The whole traversal of a flattened tree. -/
theorem traverse_root {S R : Type} (nd : Node K) (hit : BBox K → Bool) (neg : Axis → Bool)
    (leaf : Nat → Nat → S → LeafOut S R) (hF : nd.Fits) (hsz : nd.size ≤ 2 ^ 31) (s : S) :
    traverseLoop (flattenNode nd []).1 hit neg leaf (flattenNode nd []).1.length 0 [] s =
      match treeVisit hit neg leaf nd s with
      | .panic => .panic
      | .ret r => .ok (.inr r)
      | .cont s => .ok (.inl s) := by
  obtain ⟨hL, hlen⟩ := layout_flattenNode nd
  obtain ⟨f, -, e⟩ := traverseLoop_visit _ hit neg leaf nd 0 hL hF (by omega) _ (le_of_eq hlen.symm) [] s
  rw [e]
  cases treeVisit hit neg leaf nd s <;> rfl

end Rendering
