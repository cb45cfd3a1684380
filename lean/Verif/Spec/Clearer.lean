import Verif.Spec.Repaint

/-!
# Clearer glass, brighter paint
-/

namespace Rendering

/-- The material with a better colour: brighter paint; clearer glass (which lets at least `10⁻¹⁵` of one channel through and no more than everything, and is not thinner than air); a dielectric of a lighter tint; a mirror of any colour. -/
inductive Material.Clearer : Material ℝ → Material ℝ → Prop
  | plastic (col col' : Spectrum ℝ) (r : ℝ) : Brighter col col' → Material.Clearer (.plastic col 0 r) (.plastic col' 0 r)
  | metal (col col' : Spectrum ℝ) (r : ℝ) : Brighter col col' → Material.Clearer (.metal col 0 r) (.metal col' 0 r)
  | glass (col col' : Spectrum ℝ) (n : ℝ) : Brighter col col' → col'.Fraction → 1 ≤ n → (1 / 10 ^ 15 ≤ col.c0 ∨ 1 / 10 ^ 15 ≤ col.c1 ∨ 1 / 10 ^ 15 ≤ col.c2) → Material.Clearer (.glass col n) (.glass col' n)
  | dielectric (col col' : Spectrum ℝ) (n : ℝ) : Brighter col col' → Material.Clearer (.dielectric col n) (.dielectric col' n)
  | mirror (col col' : Spectrum ℝ) : col'.Nonneg → Material.Clearer (.mirror col) (.mirror col')
  | same (m : Material ℝ) : Material.Clearer m m

/-- The same call, except that materials get better colours. -/
inductive SceneOp.Clearer : SceneOp ℝ → SceneOp ℝ → Prop
  | material (m m' : Material ℝ) : m.Clearer m' → SceneOp.Clearer (.pushMaterial m) (.pushMaterial m')
  | other (op : SceneOp ℝ) : (∀ m, op ≠ .pushMaterial m) → SceneOp.Clearer op op

end Rendering
