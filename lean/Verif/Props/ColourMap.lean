import Verif.Model.ColourMap
import Mathlib.Algebra.Order.Field.Basic
import Mathlib.Algebra.Order.Archimedean.Basic
import Mathlib.Tactic.Linarith
import Mathlib.Tactic.FieldSimp
import Mathlib.Tactic.Ring
import Mathlib.Tactic.NormNum

/-!
# C29: colour maps
-/
set_option linter.unusedSectionVars false

namespace Rendering
variable {K : Type} [Field K] [LinearOrder K] [IsStrictOrderedRing K]

/-- Specification: position of the `i`-th of `n` equally spaced stops between `min` and `max`. -/
def stop (min max : K) (n i : Nat) : K := min + i * ((max - min) / ((n - 1 : Nat) : K))

/-- Specification: the point a fraction `t` of the way from one colour to another. -/
def Rgb.between (p q : Rgb K) (t : K) : Rgb K :=
  ⟨(1 - t) * p.r + t * q.r, (1 - t) * p.g + t * q.g, (1 - t) * p.b + t * q.b⟩

theorem lerp_eq (a b t : K) : lerp a b t = (1 - t) * a + t * b := by unfold lerp; ring

theorem lerp_between (p q : Rgb K) (t : K) : (⟨lerp p.r q.r t, lerp p.g q.g t, lerp p.b q.b t⟩ : Rgb K) = p.between q t := by
  simp only [lerp_eq, Rgb.between]

/-- What the loop returns, started at index `i`. -/
theorem mapLoop_spec (x min delta : K) (hd : 0 < delta) (i : Nat) (hi : 1 ≤ i) (l : List (Rgb K)) (hl : 2 ≤ l.length)
    (hlo : min + ((i - 1 : Nat) : K) * delta ≤ x) (hhi : x ≤ min + ((i - 1 : Nat) : K) * delta + ((l.length - 1 : Nat) : K) * delta)
    (k : Nat) (hk : k + 1 < l.length)
    (h1 : min + ((i - 1 + k : Nat) : K) * delta ≤ x) (h2 : x ≤ min + ((i + k : Nat) : K) * delta) :
    mapLoop x min delta i l = .ok (Rgb.between l[k] l[k + 1] ((x - (min + ((i - 1 + k : Nat) : K) * delta)) / delta)) := by
  induction l generalizing i k with
  | nil => simp at hl
  | cons p l ih =>
    cases l with
    | nil => simp at hl
    | cons q rest =>
      simp only [mapLoop]
      have hcast : ((i - 1 : Nat) : K) + 1 = (i : K) := by
        have : (i - 1 : Nat) + 1 = i := by omega
        exact_mod_cast congrArg (Nat.cast (R := K)) this
      split
      · rename_i hx
        rcases k with _ | k
        · simp only [Nat.add_zero, List.getElem_cons_zero, List.getElem_cons_succ, Nat.zero_add]
          rw [lerp_between]
        · -- then `x` is exactly the stop shared by the two intervals
          have e1 : min + ((i - 1 : Nat) : K) * delta + delta = min + (i : K) * delta := by rw [← hcast]; ring
          rw [e1] at hx
          have hle : min + (i : K) * delta ≤ min + ((i - 1 + (k + 1) : Nat) : K) * delta := by
            have : i ≤ i - 1 + (k + 1) := by omega
            have : (i : K) ≤ ((i - 1 + (k + 1) : Nat) : K) := by exact_mod_cast this
            nlinarith
          have hxe : x = min + (i : K) * delta := le_antisymm hx (hle.trans h1)
          have hk0 : k = 0 := by
            by_contra hne
            have : i + 1 ≤ i - 1 + (k + 1) := by omega
            have : (i : K) + 1 ≤ ((i - 1 + (k + 1) : Nat) : K) := by exact_mod_cast this
            nlinarith
          subst hk0
          have e2 : (x - (min + ((i - 1 : Nat) : K) * delta)) / delta = 1 := by
            rw [hxe, ← hcast]; field_simp; ring
          have e3 : (x - (min + ((i - 1 + (0 + 1) : Nat) : K) * delta)) / delta = 0 := by
            have : i - 1 + (0 + 1) = i := by omega
            rw [this, hxe]; simp
          rw [e2, e3]
          cases rest with
          | nil => simp at hk
          | cons s rest => simp [lerp_eq, Rgb.between]
      · rename_i hx
        push Not at hx
        have e1 : min + ((i - 1 : Nat) : K) * delta + delta = min + (i : K) * delta := by rw [← hcast]; ring
        rw [e1] at hx
        rcases k with _ | k
        · exfalso; simp only [Nat.add_zero] at h2; linarith
        · have hlen : 2 ≤ (q :: rest).length := by
            simp only [List.length_cons] at hk ⊢; omega
          have := ih (i + 1) (by omega) hlen (by simpa using hx.le) (by
              simp only [Nat.add_sub_cancel]
              refine hhi.trans ?_
              have : ((p :: q :: rest).length - 1 : Nat) = ((q :: rest).length - 1) + 1 := by simp
              rw [this]; push_cast
              rw [← hcast]; nlinarith) k (by simpa using hk)
              (by have : i + 1 - 1 + k = i - 1 + (k + 1) := by omega
                  rw [this]; exact h1)
              (by have : i + 1 + k = i + (k + 1) := by omega
                  rw [this]; exact h2)
          rw [this]
          have : i + 1 - 1 + k = i - 1 + (k + 1) := by omega
          rw [this]; rfl

/-- **C29 (exact arithmetic).** With `min < max` and at least two colours: at or below `min` the first colour, at or above `max` the last. -/
theorem C29_clamped_partial (x min max : K) (map : List (Rgb K)) (hm : min < max) (hl : 2 ≤ map.length) :
    (x ≤ min → mapLinearColour x min max map = .ok map[0]) ∧
    (max ≤ x → mapLinearColour x min max map = .ok map[map.length - 1]) := by
  constructor
  · intro h
    unfold mapLinearColour
    rw [if_pos h]
    cases map with
    | nil => simp at hl
    | cons p l => rfl
  · intro h
    unfold mapLinearColour
    rw [if_neg (by exact not_le.2 (hm.trans_le h)), if_pos h, List.getLast?_eq_getElem?, List.getElem?_eq_getElem (by omega)]
    rfl

/-- **C29 (exact arithmetic).** In every one of the `n - 1` equal intervals the colour is the linear interpolation between the two
neighbouring colours of the map; at a stop shared by two intervals the two readings agree (the statement holds for both). -/
theorem C29_interpolates_partial (x min max : K) (map : List (Rgb K)) (hm : min < max) (i : Nat) (hi : i + 1 < map.length)
    (h1 : stop min max map.length i ≤ x) (h2 : x ≤ stop min max map.length (i + 1)) :
    mapLinearColour x min max map =
      .ok (Rgb.between map[i] map[i + 1]
        ((x - stop min max map.length i) / (stop min max map.length (i + 1) - stop min max map.length i))) := by
  have hl : 2 ≤ map.length := by omega
  have hn : (0 : K) < ((map.length - 1 : Nat) : K) := by
    have : 0 < map.length - 1 := by omega
    exact_mod_cast this
  have hd : 0 < (max - min) / ((map.length - 1 : Nat) : K) := div_pos (by linarith) hn
  have hdn : ((map.length - 1 : Nat) : K) * ((max - min) / ((map.length - 1 : Nat) : K)) = max - min := by field_simp
  set d := (max - min) / ((map.length - 1 : Nat) : K) with hdef
  have hstop : stop min max map.length (i + 1) - stop min max map.length i = d := by
    simp only [stop, ← hdef]; push_cast; ring
  rw [hstop]
  have h1' : min + (i : K) * d ≤ x := h1
  have h2' : x ≤ min + ((i + 1 : Nat) : K) * d := h2
  have hi0 : (0 : K) ≤ (i : K) := Nat.cast_nonneg i
  have hmin : min ≤ x := by nlinarith
  have hile : ((i + 1 : Nat) : K) ≤ ((map.length - 1 : Nat) : K) := by
    have : i + 1 ≤ map.length - 1 := by omega
    exact_mod_cast this
  have hmax : x ≤ max := by nlinarith
  rcases hmin.eq_or_lt with heq | hlt
  · -- x = min
    have : i = 0 := by
      by_contra hne
      have : (1 : K) ≤ (i : K) := by exact_mod_cast Nat.one_le_iff_ne_zero.2 hne
      nlinarith
    subst this
    rw [(C29_clamped_partial x min max map hm hl).1 heq.symm.le]
    have : (x - stop min max map.length 0) / d = 0 := by simp [stop, heq]
    rw [this]
    simp [Rgb.between]
  rcases hmax.eq_or_lt with heq | hlt'
  · have : i + 1 = map.length - 1 := by
      by_contra hne
      have : i + 2 ≤ map.length - 1 := by omega
      have : ((i + 1 : Nat) : K) + 1 ≤ ((map.length - 1 : Nat) : K) := by exact_mod_cast this
      nlinarith
    rw [(C29_clamped_partial x min max map hm hl).2 heq.symm.le]
    have e : (x - stop min max map.length i) / d = 1 := by
      have : x - stop min max map.length i = d := by
        rw [← hstop]
        have : stop min max map.length (i + 1) = x := by
          simp only [stop, ← hdef]; rw [this, hdn, heq]; ring
        rw [this]
      rw [this]; exact div_self hd.ne'
    rw [e]
    simp only [← this]
    simp [Rgb.between]
  · unfold mapLinearColour
    rw [if_neg (not_le.2 hlt), if_neg (not_le.2 hlt')]
    simp only
    rw [← hdef]
    have := mapLoop_spec x min d hd 1 le_rfl map hl (by simpa using hmin) (by simp; rw [hdn]; linarith) i hi (by simpa using h1') (by
      rw [Nat.add_comm 1 i]; exact h2')
    rw [this]
    simp [stop, ← hdef]

/-- Every value between `min` and `max` is in one of the intervals. -/
theorem exists_interval (x min max : K) (n : Nat) (hn : 2 ≤ n) (hm : min < max) (h1 : min ≤ x) (h2 : x ≤ max) :
    ∃ i, i + 1 < n ∧ stop min max n i ≤ x ∧ x ≤ stop min max n (i + 1) := by
  have hlast : stop min max n (n - 1) = max := by
    have hn' : ((n - 1 : Nat) : K) ≠ 0 := by
      have : n - 1 ≠ 0 := by omega
      exact_mod_cast this
    unfold stop; field_simp; ring
  by_contra hcon
  push Not at hcon
  have : ∀ j, j < n → stop min max n j ≤ x := by
    intro j
    induction j with
    | zero => intro _; simpa [stop] using h1
    | succ j ih => intro hj; exact (hcon j hj (ih (by omega))).le
  have h3 := hcon (n - 2) (by omega) (this (n - 2) (by omega))
  have e : n - 2 + 1 = n - 1 := by omega
  rw [e, hlast] at h3
  exact absurd h2 (not_le.2 h3)

/-- Every number is below `min`, above `max`, or in one of the intervals. -/
theorem C29_total_partial (x min max : K) (map : List (Rgb K)) (hm : min < max) (hl : 2 ≤ map.length) :
    ∃ c, mapLinearColour x min max map = .ok c := by
  rcases le_total x min with h | h
  · exact ⟨_, (C29_clamped_partial x min max map hm hl).1 h⟩
  rcases le_total max x with h' | h'
  · exact ⟨_, (C29_clamped_partial x min max map hm hl).2 h'⟩
  · obtain ⟨i, hi, a, b⟩ := exists_interval x min max map.length hl hm h h'
    exact ⟨_, C29_interpolates_partial x min max map hm i hi a b⟩

theorem between_mono_aux {a b s t : K} (hab : a ≤ b) (hst : s ≤ t) : (1 - s) * a + s * b ≤ (1 - t) * a + t * b := by
  nlinarith

/-- **C29 (exact arithmetic).** On a map whose red channel never decreases, a larger value never gets less red (and the same for the other
channels, by symmetry of the definition). -/
theorem C29_monotone_partial (ch : Rgb K → K) (hch : ch = Rgb.r ∨ ch = Rgb.g ∨ ch = Rgb.b)
    (x y min max : K) (map : List (Rgb K)) (hm : min < max) (hl : 2 ≤ map.length)
    (hmono : ∀ i j (hj : j < map.length) (hij : i ≤ j), ch map[i] ≤ ch map[j]) (hxy : x ≤ y) (cx cy : Rgb K)
    (hx : mapLinearColour x min max map = .ok cx) (hy : mapLinearColour y min max map = .ok cy) : ch cx ≤ ch cy := by
  have hbt : ∀ (p q : Rgb K) t, ch (p.between q t) = (1 - t) * ch p + t * ch q := by
    rcases hch with rfl | rfl | rfl <;> intros <;> rfl
  have hn : (0 : K) < ((map.length - 1 : Nat) : K) := by
    have : 0 < map.length - 1 := by omega
    exact_mod_cast this
  have hd : 0 < (max - min) / ((map.length - 1 : Nat) : K) := div_pos (by linarith) hn
  have hstep : ∀ i, stop min max map.length (i + 1) - stop min max map.length i = (max - min) / ((map.length - 1 : Nat) : K) := by
    intro i; simp only [stop]; push_cast; ring
  have hfrac : ∀ i z, stop min max map.length i ≤ z → z ≤ stop min max map.length (i + 1) →
      0 ≤ (z - stop min max map.length i) / (stop min max map.length (i + 1) - stop min max map.length i) ∧
      (z - stop min max map.length i) / (stop min max map.length (i + 1) - stop min max map.length i) ≤ 1 := by
    intro i z h1 h2
    have hpos : 0 < stop min max map.length (i + 1) - stop min max map.length i := by rw [hstep]; exact hd
    exact ⟨div_nonneg (by linarith) hpos.le, (div_le_one hpos).2 (by linarith)⟩
  -- bounds of the colour in interval `i`
  have hbound : ∀ i (hi : i + 1 < map.length) z c, stop min max map.length i ≤ z → z ≤ stop min max map.length (i + 1) →
      mapLinearColour z min max map = .ok c → ch map[i] ≤ ch c ∧ ch c ≤ ch map[i + 1] := by
    intro i hi z c h1 h2 hc
    rw [C29_interpolates_partial z min max map hm i hi h1 h2, Res.ok.injEq] at hc
    obtain ⟨f0, f1⟩ := hfrac i z h1 h2
    rw [← hc, hbt]
    have := hmono i (i + 1) hi (by omega)
    constructor <;> nlinarith
  have hfirst : ∀ c z, mapLinearColour z min max map = .ok c → ch map[0] ≤ ch c ∧ ch c ≤ ch map[map.length - 1] := by
    intro c z hc
    rcases le_total z min with h | h
    · rw [(C29_clamped_partial z min max map hm hl).1 h, Res.ok.injEq] at hc
      rw [← hc]; exact ⟨le_rfl, hmono 0 _ (by omega) (by omega)⟩
    rcases le_total max z with h' | h'
    · rw [(C29_clamped_partial z min max map hm hl).2 h', Res.ok.injEq] at hc
      rw [← hc]; exact ⟨hmono 0 _ (by omega) (by omega), le_rfl⟩
    · obtain ⟨i, hi, a, b⟩ := exists_interval z min max map.length hl hm h h'
      obtain ⟨p, q⟩ := hbound i hi z c a b hc
      exact ⟨(hmono 0 i (by omega) (by omega)).trans p, q.trans (hmono (i + 1) _ (by omega) (by omega))⟩
  rcases le_total x min with h | h
  · rw [(C29_clamped_partial x min max map hm hl).1 h, Res.ok.injEq] at hx
    rw [← hx]; exact (hfirst cy y hy).1
  rcases le_total max y with h' | h'
  · rw [(C29_clamped_partial y min max map hm hl).2 h', Res.ok.injEq] at hy
    rw [← hy]; exact (hfirst cx x hx).2
  obtain ⟨i, hi, a, b⟩ := exists_interval x min max map.length hl hm h (hxy.trans h')
  obtain ⟨j, hj, a', b'⟩ := exists_interval y min max map.length hl hm (h.trans hxy) h'
  have hmonostop : ∀ k l, k ≤ l → stop min max map.length k ≤ stop min max map.length l := by
    intro k l hkl
    have : (k : K) ≤ (l : K) := by exact_mod_cast hkl
    unfold stop; nlinarith
  rcases lt_trichotomy i j with hij | hij | hij
  · exact (hbound i hi x cx a b hx).2.trans ((hmono (i + 1) j (by omega) (by omega)).trans (hbound j hj y cy a' b' hy).1)
  · subst hij
    rw [C29_interpolates_partial x min max map hm i hi a b, Res.ok.injEq] at hx
    rw [C29_interpolates_partial y min max map hm i hi a' b', Res.ok.injEq] at hy
    rw [← hx, ← hy, hbt, hbt]
    apply between_mono_aux (hmono i (i + 1) hi (by omega))
    have hpos : 0 < stop min max map.length (i + 1) - stop min max map.length i := by rw [hstep]; exact hd
    gcongr
  · -- then both are the same stop
    have e1 : y ≤ stop min max map.length (j + 1) := b'
    have e2 := hmonostop (j + 1) i (by omega)
    have exy : x = y := le_antisymm hxy (e1.trans (e2.trans a))
    subst exy
    rw [hx, Res.ok.injEq] at hy
    rw [hy]

/-- The hypotheses are met by a three-colour map. -/
example : mapLinearColour (1 / 4 : ℚ) 0 1 [⟨0, 0, 0⟩, ⟨1, 1, 0⟩, ⟨1, 0, 0⟩] = .ok ⟨1 / 2, 1 / 2, 0⟩ := by decide +kernel

/-- **C29, violation.** In double precision the last stop may be rounded below `max`, and a value that lies in between falls off the
loop: with min = 0.3, max = 1 and any map of 256 colours (all five maps of the crate have 256), x = 1 − 2⁻⁵³ panics (`unreachable!()`).
So the theorems above hold for exact arithmetic only. -/
theorem C29_violation : ∃ x min max : F64, min < max ∧ x < max ∧
    mapLinearColour x min max (List.replicate 256 ⟨F64.lit 0, F64.lit 0, F64.lit 0⟩) = .panic :=
  ⟨⟨1 - 1 / 2 ^ 53⟩, F64.lit (3 / 10), F64.lit 1, by decide +kernel, by decide +kernel, by decide +kernel⟩

/-! ### Concrete cases of the theorems above -/

/-- C29: three colours between 0 and 1. -/
example := (C29_clamped_partial (-3 : ℚ) 0 1 [⟨0, 0, 0⟩, ⟨1, 1, 0⟩, ⟨1, 0, 0⟩] (by norm_num) (by simp)).1 (by norm_num)

example := C29_interpolates_partial (3 / 4 : ℚ) 0 1 [⟨0, 0, 0⟩, ⟨1, 1, 0⟩, ⟨1, 0, 0⟩] (by norm_num) 1 (by simp) (by norm_num [stop]) (by norm_num [stop])

/-- C29: red grows along this map. -/
example := fun cx cy => C29_monotone_partial Rgb.r (Or.inl rfl) (1 / 4 : ℚ) (3 / 4) 0 1 [⟨0, 0, 0⟩, ⟨1 / 2, 1, 0⟩, ⟨1, 0, 0⟩] (by norm_num) (by simp) (by
  intro i j hj hij
  simp only [List.length_cons, List.length_nil] at hj
  rcases j with _ | _ | _ | j <;> rcases i with _ | _ | _ | i <;> first | omega | norm_num) (by norm_num) cx cy

end Rendering
