import Verif.Lemmas.FalseColourTop
import Verif.Spec.FalseColourFloat
import Verif.Props.ScaleOrder

/-!
# Lemmas for C136
-/

set_option linter.unusedSectionVars false
namespace Rendering

theorem table64_entry {m : Colourmap} {k : Nat} {p : Rgb F64} (h : m.table64[k]? = some p) :
    ∃ p0, m.table[k]? = some p0 ∧ |(p.r.val : ℝ) - p0.r| ≤ 1 / 2 ^ 53 ∧ |(p.g.val : ℝ) - p0.g| ≤ 1 / 2 ^ 53 ∧ |(p.b.val : ℝ) - p0.b| ≤ 1 / 2 ^ 53 ∧
      (0 ≤ p0.r ∧ p0.r ≤ 1) ∧ (0 ≤ p0.g ∧ p0.g ≤ 1) ∧ (0 ≤ p0.b ∧ p0.b ≤ 1) := by
  simp only [Colourmap.table64, List.getElem?_map, Option.map_eq_some_iff] at h
  obtain ⟨x, hx, rfl⟩ := h
  have ht : m.table[k]? = some x.toRgb := by simp [Colourmap.table, hx]
  obtain ⟨a, b, c⟩ := (C30_tables m).2 _ (List.mem_of_getElem? ht)
  have key : ∀ n : Nat, 0 ≤ (n : ℝ) / 10 ^ 12 ∧ (n : ℝ) / 10 ^ 12 ≤ 1 → |((F64.lit ((n : ℚ) / 10 ^ 12)).val : ℝ) - (n : ℝ) / 10 ^ 12| ≤ 1 / 2 ^ 53 := by
    intro n ⟨h1, h2⟩
    have := r64 ((n : ℚ) / 10 ^ 12)
    push_cast at this
    rw [abs_of_nonneg h1] at this
    exact this.trans (by gcongr)
  exact ⟨_, ht, key _ a, key _ b, key _ c, a, b, c⟩

theorem table64_len (m : Colourmap) : m.table64.length = 256 := by
  have := (C30_tables m).1
  simpa [Colourmap.table, Colourmap.table64] using this

/-- A channel of a mixture, from a place that is nearly right. -/
theorem lerp_place (p q l : F64) (p0 q0 τ t : ℝ) (hp : |(p.val : ℝ) - p0| ≤ 1 / 2 ^ 53) (hq : |(q.val : ℝ) - q0| ≤ 1 / 2 ^ 53) (p1 : 0 ≤ p0 ∧ p0 ≤ 1) (q1 : 0 ≤ q0 ∧ q0 ≤ 1)
    (hτ : |τ - t| ≤ 1 / 2 ^ 23) (ht : 0 ≤ t ∧ t ≤ 1) (hl : |(l.val : ℝ) - τ| ≤ 1 / 2 ^ 23) :
    |((lerp p q l).val : ℝ) - ((1 - t) * p0 + t * q0)| ≤ 1 / 2 ^ 22 + 1 / 2 ^ 48 := by
  obtain ⟨a1, a2⟩ := abs_le.1 hτ
  obtain ⟨b1, b2⟩ := abs_le.1 hl
  have h := lerp64 p q l p0 q0 hp hq p1 q1 (by rw [abs_le]; constructor <;> linarith)
  have e : |(p0 + (q0 - p0) * l.val) - ((1 - t) * p0 + t * q0)| ≤ 1 / 2 ^ 22 := by
    have : (p0 + (q0 - p0) * l.val) - ((1 - t) * p0 + t * q0) = (q0 - p0) * (l.val - t) := by ring
    rw [this, abs_mul]
    have h1 : |q0 - p0| ≤ 1 := by rw [abs_le]; constructor <;> linarith
    have h2 : |(l.val : ℝ) - t| ≤ 1 / 2 ^ 22 := by rw [abs_le]; constructor <;> linarith
    calc |q0 - p0| * |(l.val : ℝ) - t| ≤ 1 * (1 / 2 ^ 22) := by gcongr
      _ = _ := by ring
  have := abs_sub_le ((lerp p q l).val : ℝ) (p0 + (q0 - p0) * l.val) ((1 - t) * p0 + t * q0)
  linarith

/-- The colour computed in double precision. -/
noncomputable def Rgb.real (c : Rgb F64) : Rgb ℝ := ⟨c.r.val, c.g.val, c.b.val⟩

theorem widths (lo hi : F64) (hlt : lo.val < hi.val) :
    ∃ δ : ℝ, 0 < δ ∧ (hi.val : ℝ) - lo.val = 255 * δ ∧ |(((hi - lo) / ((255 : Nat) : F64)).val : ℝ) - δ| ≤ δ / 2 ^ 51 := by
  have hlt' : (lo.val : ℝ) < hi.val := by exact_mod_cast hlt
  have := delta64 lo hi 255 (by norm_num) (by norm_num) _ rfl (by linarith)
  exact ⟨((hi.val : ℝ) - lo.val) / (255 : Nat), by push_cast; linarith, by push_cast; ring, this⟩

theorem map64_unfold {lo hi x : F64} (h1 : lo.val < x.val) (h2 : x.val < hi.val) (m : Colourmap) :
    mapLinearColour x lo hi m.table64 = mapLoop x lo ((hi - lo) / ((255 : Nat) : F64)) 1 m.table64 := by
  unfold mapLinearColour
  have a : ¬ x ≤ lo := not_le.2 h1
  have b : ¬ hi ≤ x := not_le.2 h2
  simp only [a, b, if_false, table64_len]

/-- Values that are not just below the upper end have a colour. -/
theorem map64_ok (m : Colourmap) (lo hi x : F64) (hlt : lo.val < hi.val) (hlo : |(lo.val : ℝ)| ≤ 2 ^ 20 * (hi.val - lo.val))
    (hx : (x.val : ℝ) ≤ hi.val - (hi.val - lo.val) / 2 ^ 31 ∨ hi.val ≤ x.val) : ∃ c, mapLinearColour x lo hi m.table64 = .ok c := by
  by_cases h1 : x ≤ lo
  · unfold mapLinearColour
    simp only [h1, if_true]
    rw [List.head?_eq_getElem?, List.getElem?_eq_getElem (by rw [table64_len]; norm_num)]
    exact ⟨_, rfl⟩
  by_cases h2 : hi ≤ x
  · unfold mapLinearColour
    simp only [h1, h2, if_true, if_false]
    rw [List.getLast?_eq_getElem?, List.getElem?_eq_getElem (by rw [table64_len]; norm_num)]
    exact ⟨_, rfl⟩
  have h1' : lo.val < x.val := not_le.1 h1
  have h2' : x.val < hi.val := not_le.1 h2
  rw [map64_unfold h1' h2']
  rcases mapLoop64 x lo ((hi - lo) / ((255 : Nat) : F64)) m.table64 1 le_rfl with ⟨k, p, q, -, -, -, -, h⟩ | ⟨-, h⟩
  · exact ⟨_, h⟩
  · exfalso
    obtain ⟨δ, hδ, hD, hw⟩ := widths lo hi hlt
    have h := h 254 (by rw [table64_len]; norm_num)
    have h' : ((lo + ((1 - 1 + 254 : Nat) : F64) * ((hi - lo) / ((255 : Nat) : F64)) + ((hi - lo) / ((255 : Nat) : F64))).val : ℝ) < x.val := by exact_mod_cast not_le.1 h
    have he := abs_le.1 (end64 lo ((hi - lo) / ((255 : Nat) : F64)) (1 - 1 + 254) (by norm_num) (255 * δ) δ (by linarith) hδ (by linarith) hw (by push_cast; linarith) (by rw [← hD]; exact hlo))
    push_cast at he h'
    have hx' : (x.val : ℝ) ≤ hi.val - (hi.val - lo.val) / 2 ^ 31 := hx.resolve_right (not_le.2 h2')
    rw [hD] at hx'
    linarith [he.1]

/-- The colour is nearly that of the scale. -/
theorem map64_near (m : Colourmap) (lo hi x : F64) (hlt : lo.val < hi.val) (hlo : |(lo.val : ℝ)| ≤ 2 ^ 20 * (hi.val - lo.val)) (c : Rgb F64) (h : mapLinearColour x lo hi m.table64 = .ok c) :
    ∃ c', ScaleColour m.table lo.val hi.val x.val c' ∧ ChannelsWithin (1 / 2 ^ 21) c.real c' := by
  have hlt' : (lo.val : ℝ) < hi.val := by exact_mod_cast hlt
  by_cases h1 : x ≤ lo
  · unfold mapLinearColour at h
    simp only [h1, if_true] at h
    have hc : m.table64[0]? = some c := by
      rw [← List.head?_eq_getElem?]
      cases hh : m.table64.head? with
      | none => simp [hh, Res.ofOption] at h
      | some d => simpa [hh, Res.ofOption] using h
    obtain ⟨p0, hp, a, b, d, -⟩ := table64_entry hc
    refine ⟨p0, Or.inl ⟨by exact_mod_cast h1, by rw [List.head?_eq_getElem?]; exact hp⟩, a.trans (by norm_num), b.trans (by norm_num), d.trans (by norm_num)⟩
  by_cases h2 : hi ≤ x
  · unfold mapLinearColour at h
    simp only [h1, h2, if_true, if_false] at h
    have hc : m.table64[255]? = some c := by
      have e : m.table64.getLast? = m.table64[255]? := by rw [List.getLast?_eq_getElem?, table64_len]
      rw [e] at h
      cases hh : m.table64[255]? with
      | none => simp [hh, Res.ofOption] at h
      | some d => simpa [hh, Res.ofOption] using h
    obtain ⟨p0, hp, a, b, d, -⟩ := table64_entry hc
    refine ⟨p0, Or.inr (Or.inl ⟨by exact_mod_cast h2, by rw [List.getLast?_eq_getElem?, (C30_tables m).1]; exact hp⟩), a.trans (by norm_num), b.trans (by norm_num), d.trans (by norm_num)⟩
  have h1' : lo.val < x.val := not_le.1 h1
  have h2' : x.val < hi.val := not_le.1 h2
  have g1 : (lo.val : ℝ) < x.val := by exact_mod_cast h1'
  have g2 : (x.val : ℝ) < hi.val := by exact_mod_cast h2'
  rw [map64_unfold h1' h2'] at h
  obtain ⟨δ, hδ, hD, hw⟩ := widths lo hi hlt
  generalize (hi - lo) / ((255 : Nat) : F64) = w at h hw
  rcases mapLoop64 x lo w m.table64 1 le_rfl with ⟨k, p, q, hp, hq, hxe, hpre, hk⟩ | ⟨hk, -⟩
  swap
  · rw [hk] at h; cases h
  rw [hk, Res.ok.injEq] at h
  have hkl : k + 1 < 256 := by
    have := (List.getElem?_eq_some_iff.1 hq).1
    rwa [table64_len] at this
  obtain ⟨p0, hp0, pr, pg, pb, pr1, pg1, pb1⟩ := table64_entry hp
  obtain ⟨q0, hq0, qr, qg, qb, qr1, qg1, qb1⟩ := table64_entry hq
  simp only [Nat.sub_self, Nat.zero_add] at h hxe hpre
  have hkr : (k : ℝ) ≤ 254 := by exact_mod_cast (by omega : k ≤ 254)
  have hk0 : (0 : ℝ) ≤ k := Nat.cast_nonneg k
  have hkδ : (k : ℝ) * δ ≤ 254 * δ := by gcongr
  rw [hD] at hlo
  have hs := abs_le.1 (start64 lo w k (by omega) (255 * δ) δ (by linarith) hδ hw (by linarith) hlo)
  have he := abs_le.1 (end64 lo w k (by omega) (255 * δ) δ (by linarith) hδ (by linarith) hw (by linarith) hlo)
  have hxe' : (x.val : ℝ) ≤ ((lo + (k : F64) * w + w).val : ℝ) := by exact_mod_cast hxe
  set s : F64 := lo + (k : F64) * w with hsdef
  -- the place in the bin
  set τ : ℝ := (x.val - lo.val) / δ - k with hτ
  have hxτ : (x.val : ℝ) = lo.val + (k + τ) * δ := by rw [hτ]; field_simp; ring
  have up : τ ≤ 1 + 1 / 2 ^ 23 := by
    have : (k + τ) * δ ≤ (k + 1) * δ + 255 * δ / 2 ^ 31 := by linarith [he.2]
    have : τ * δ ≤ (1 + 1 / 2 ^ 23) * δ := by linarith
    exact le_of_mul_le_mul_right this hδ
  have low : -(1 / 2 ^ 23) ≤ τ := by
    by_cases hk1 : k = 0
    · subst hk1
      have : 0 * δ ≤ τ * δ := by push_cast at hxτ; linarith
      have := le_of_mul_le_mul_right this hδ
      linarith [show (0 : ℝ) < 1 / 2 ^ 23 by norm_num]
    · have hpre := hpre.resolve_left hk1
      have hpre' : ((lo + ((k - 1 : Nat) : F64) * w + w).val : ℝ) < x.val := by exact_mod_cast not_le.1 hpre
      have hc : (((k - 1 : Nat) : ℝ)) = k - 1 := by
        rw [Nat.cast_sub (by omega)]; norm_num
      have he' := (abs_le.1 (end64 lo w (k - 1) (by omega) (255 * δ) δ (by linarith) hδ (by linarith) hw (by rw [hc]; linarith) hlo)).1
      rw [hc] at he'
      have : (-(1 / 2 ^ 23)) * δ ≤ τ * δ := by linarith
      exact le_of_mul_le_mul_right this hδ
  have hxs : |(x.val : ℝ) - s.val| ≤ 2 * δ := by
    have a1 : τ * δ ≤ (1 + 1 / 2 ^ 23) * δ := by gcongr
    have a2 : (-(1 / 2 ^ 23)) * δ ≤ τ * δ := by gcongr
    rw [abs_le]; constructor <;> linarith [hs.1, hs.2]
  have hl := lam64 x s w δ hδ hw hxs
  have hl2 : |(((x - s) / w).val : ℝ) - τ| ≤ 1 / 2 ^ 23 := by
    have e : |((x.val : ℝ) - s.val) / δ - τ| ≤ 255 / 2 ^ 32 := by
      have : ((x.val : ℝ) - s.val) / δ - τ = (lo.val + k * δ - s.val) / δ := by rw [hxτ]; field_simp; ring
      rw [this, abs_div, abs_of_pos hδ, div_le_iff₀ hδ, abs_le]
      constructor <;> linarith [hs.1, hs.2]
    have := abs_sub_le (((x - s) / w).val : ℝ) ((x.val - s.val) / δ) τ
    have h3 : (1 : ℝ) / 2 ^ 46 + 255 / 2 ^ 32 ≤ 1 / 2 ^ 23 := by norm_num
    linarith
  set t : ℝ := max 0 (min 1 τ) with ht
  have ht0 : 0 ≤ t := le_max_left _ _
  have ht1 : t ≤ 1 := max_le zero_le_one (min_le_left _ _)
  have htτ : |τ - t| ≤ 1 / 2 ^ 23 := by
    rw [ht, abs_le]
    rcases le_total 1 τ with a | a
    · rw [min_eq_left a, max_eq_right zero_le_one]; constructor <;> linarith
    · rw [min_eq_right a]
      rcases le_total 0 τ with b | b
      · rw [max_eq_right b]; constructor <;> norm_num
      · rw [max_eq_left b]; constructor <;> linarith
  -- the colour at the place within the bin
  set cy : Rgb ℝ := ⟨(1 - t) * p0.r + t * q0.r, (1 - t) * p0.g + t * q0.g, (1 - t) * p0.b + t * q0.b⟩ with hcy
  have hy : ScaleColour m.table lo.val hi.val (lo.val + (k + t) * δ) cy := by
    refine Or.inr (Or.inr ⟨k, p0, q0, t, hp0, hq0, ht0, ht1, ?_, hcy⟩)
    rw [(C30_tables m).1, hD]
    push_cast
    ring
  obtain ⟨cx, hcx⟩ := mapLinear_total (x.val : ℝ) lo.val hi.val m.table (by rw [(C30_tables m).1]; norm_num)
  have hx := mapLinear_scale (by rw [(C30_tables m).1]; norm_num) hlt' hcx
  have hclose := C135_close m hlt' hx hy
  have hdist : 6 * (|(x.val : ℝ) - (lo.val + (k + t) * δ)| / (hi.val - lo.val)) ≤ 6 / 255 / 2 ^ 23 := by
    have e : (x.val : ℝ) - (lo.val + (k + t) * δ) = (τ - t) * δ := by rw [hxτ]; ring
    rw [e, hD, abs_mul, abs_of_pos hδ, mul_div_mul_right _ _ hδ.ne']
    linarith
  have fin : (1 : ℝ) / 2 ^ 22 + 1 / 2 ^ 48 + 6 / 255 / 2 ^ 23 ≤ 1 / 2 ^ 21 := by norm_num
  obtain ⟨c1, c2, c3⟩ := hclose
  have one : ∀ u v y : ℝ, |u - v| ≤ 1 / 2 ^ 22 + 1 / 2 ^ 48 → |y - v| ≤ 6 * (|(x.val : ℝ) - (lo.val + (k + t) * δ)| / (hi.val - lo.val)) → |u - y| ≤ 1 / 2 ^ 21 := by
    intro u v y a b
    have := abs_sub_le u v y
    rw [abs_sub_comm v y] at this
    linarith
  refine ⟨cx, hx, ?_, ?_, ?_⟩
  · rw [← h]
    exact one _ _ _ (lerp_place p.r q.r _ p0.r q0.r τ t pr qr pr1 qr1 htτ ⟨ht0, ht1⟩ hl2) c1
  · rw [← h]
    exact one _ _ _ (lerp_place p.g q.g _ p0.g q0.g τ t pg qg pg1 qg1 htτ ⟨ht0, ht1⟩ hl2) c2
  · rw [← h]
    exact one _ _ _ (lerp_place p.b q.b _ p0.b q0.b τ t pb qb pb1 qb1 htτ ⟨ht0, ht1⟩ hl2) c3

/-- With the lower end at zero every double has a colour. -/
theorem map64_zero_ok (m : Colourmap) (hi x : F64) (hh : IsDouble hi.val) (hx : 0 < x.val → IsDouble x.val) : ∃ c, mapLinearColour x ⟨0⟩ hi m.table64 = .ok c := by
  by_cases h1 : x ≤ (⟨0⟩ : F64)
  · unfold mapLinearColour
    simp only [h1, if_true]
    rw [List.head?_eq_getElem?, List.getElem?_eq_getElem (by rw [table64_len]; norm_num)]
    exact ⟨_, rfl⟩
  by_cases h2 : hi ≤ x
  · unfold mapLinearColour
    simp only [h1, h2, if_true, if_false]
    rw [List.getLast?_eq_getElem?, List.getElem?_eq_getElem (by rw [table64_len]; norm_num)]
    exact ⟨_, rfl⟩
  have h1' : (0 : ℚ) < x.val := not_le.1 h1
  have h2' : x.val < hi.val := not_le.1 h2
  rw [map64_unfold h1' h2']
  rcases mapLoop64 x ⟨0⟩ ((hi - ⟨0⟩) / ((255 : Nat) : F64)) m.table64 1 le_rfl with ⟨k, p, q, -, -, -, -, h⟩ | ⟨-, h⟩
  · exact ⟨_, h⟩
  · exfalso
    have h := h 254 (by rw [table64_len]; norm_num)
    refine h ?_
    have e255 : (((255 : Nat) : F64)).val = 255 := by decide +kernel
    have e254 : (((1 - 1 + 254 : Nat) : F64)).val = 254 := by decide +kernel
    show x.val ≤ round64 (round64 (0 + round64 ((((1 - 1 + 254 : Nat) : F64)).val * round64 (round64 (hi.val - 0) / (((255 : Nat) : F64)).val))) + round64 (round64 (hi.val - 0) / (((255 : Nat) : F64)).val))
    rw [e255, e254, sub_zero, zero_add, round64_of_isDouble hh]
    have hw : 0 < round64 (hi.val / 255) := by
      have hp : 0 < hi.val / 255 := by linarith
      have := (abs_le.1 (round64_error (hi.val / 255))).1
      rw [abs_of_pos hp] at this
      linarith
    rw [round64_of_isDouble (isDouble_round_pos (q := 254 * round64 (hi.val / 255)) (by linarith))]
    exact last_end hh (hx h1') h1' h2'

/-- The byte of a channel. -/
theorem byte64_spec (c : F64) (c0 : ℝ) (h : |(c.val : ℝ) - c0| ≤ 1 / 2 ^ 21) (h0 : 0 ≤ c0 ∧ c0 ≤ 1) : ∃ c1 : ℝ, |c1 - c0| ≤ 1 / 2 ^ 21 + 1 / 2 ^ 50 ∧ ByteOf c1 (byte64 c) := by
  have e256 : ((F64.lit 256).val : ℝ) = 256 := by
    have : (F64.lit 256).val = 256 := round64_256
    rw [this]; norm_num
  have hm := mul64_error c (F64.lit 256)
  rw [e256] at hm
  obtain ⟨a1, a2⟩ := abs_le.1 h
  have hb : |(c.val : ℝ) * 256| ≤ 512 := by rw [abs_le]; constructor <;> linarith
  have hm2 : |((c * F64.lit 256).val : ℝ) - c.val * 256| ≤ 512 / 2 ^ 53 := hm.trans (by gcongr)
  obtain ⟨m1, m2⟩ := abs_le.1 hm2
  unfold byte64
  simp only
  set y : ℚ := (c * F64.lit 256).val with hy
  refine ⟨(y : ℝ) / 256, ?_, (if 0 ≤ y then ⌊y + 1 / 2⌋ else ⌈y - 1 / 2⌉), ?_, ?_⟩
  · rw [abs_le]; constructor <;> linarith
  · have : |(((if 0 ≤ y then ⌊y + 1 / 2⌋ else ⌈y - 1 / 2⌉ : ℤ)) : ℚ) - y| ≤ 1 / 2 := by
      split_ifs
      · have := Int.floor_le (y + 1 / 2)
        have := Int.lt_floor_add_one (y + 1 / 2)
        rw [abs_le]; constructor <;> linarith
      · have := Int.le_ceil (y - 1 / 2)
        have := Int.ceil_lt_add_one (y - 1 / 2)
        rw [abs_le]; constructor <;> linarith
    have t : |(((if 0 ≤ y then ⌊y + 1 / 2⌋ else ⌈y - 1 / 2⌉ : ℤ)) : ℝ) - y| ≤ 1 / 2 := by
      generalize (if 0 ≤ y then ⌊y + 1 / 2⌋ else ⌈y - 1 / 2⌉ : ℤ) = k at this ⊢
      have := (Rat.cast_le (K := ℝ)).2 this
      push_cast at this
      exact this
    rw [show (256 : ℝ) * (y / 256) = y by ring]
    exact t
  · have hk : 0 ≤ (if 0 ≤ y then ⌊y + 1 / 2⌋ else ⌈y - 1 / 2⌉ : ℤ) := by
      split_ifs with hy0
      · exact Int.floor_nonneg.2 (by linarith)
      · have hy1 : (-(1 / 2) : ℝ) < y := by linarith
        have hy2 : (-(1 / 2) : ℚ) < y := by
          have : ((-(1 / 2) : ℚ) : ℝ) < (y : ℝ) := by push_cast; exact hy1
          exact_mod_cast this
        have : (-1 : ℤ) < ⌈y - 1 / 2⌉ := Int.lt_ceil.2 (by push_cast; linarith)
        omega
    generalize (if 0 ≤ y then ⌊y + 1 / 2⌋ else ⌈y - 1 / 2⌉ : ℤ) = k at hk
    rw [UInt8.toNat_ofNat_of_lt' (by have : UInt8.size = 256 := rfl; omega)]
    omega

theorem pushColours64_ok (f : F64 → Res (Rgb F64)) (l : List F64) (h : ∀ x ∈ l, ∃ c, f x = .ok c) : ∃ d, pushColours64 f l = .ok d := by
  induction l with
  | nil => exact ⟨_, rfl⟩
  | cons x l ih =>
    obtain ⟨c, hc⟩ := h x (List.mem_cons_self ..)
    obtain ⟨d, hd⟩ := ih (fun x hx => h x (List.mem_cons_of_mem _ hx))
    exact ⟨_, by rw [pushColours64, hc, Res.bind_ok, hd, Res.bind_ok]⟩

theorem pushColours64_spec (f : F64 → Res (Rgb F64)) (l : List F64) (d : List UInt8) (h : pushColours64 f l = .ok d) :
    d.length = 3 * l.length ∧ ∀ i x, l[i]? = some x → ∃ c, f x = .ok c ∧ d[3 * i]? = some (byte64 c.r) ∧ d[3 * i + 1]? = some (byte64 c.g) ∧ d[3 * i + 2]? = some (byte64 c.b) := by
  induction l generalizing d with
  | nil =>
    simp only [pushColours64, Res.ok.injEq] at h
    subst h
    simp
  | cons x l ih =>
    simp only [pushColours64] at h
    cases hx : f x with
    | panic => simp [hx] at h
    | diverge => simp [hx] at h
    | ok c =>
      cases hr : pushColours64 f l with
      | panic => simp [hx, hr] at h
      | diverge => simp [hx, hr] at h
      | ok r =>
        simp only [hx, hr, Res.bind_ok, Res.ok.injEq] at h
        subst h
        obtain ⟨h1, h2⟩ := ih r hr
        refine ⟨by simp [h1]; omega, ?_⟩
        intro i y hi
        cases i with
        | zero =>
          simp only [List.getElem?_cons_zero, Option.some.injEq] at hi
          subst hi
          exact ⟨c, hx, by simp, by simp, by simp⟩
        | succ i =>
          obtain ⟨c', a, b0, b1, b2⟩ := h2 i y (by simpa using hi)
          refine ⟨c', a, ?_, ?_, ?_⟩
          · rw [show 3 * (i + 1) = 3 * i + 1 + 1 + 1 by ring]; simpa using b0
          · rw [show 3 * (i + 1) + 1 = (3 * i + 1) + 1 + 1 + 1 by ring]; simpa using b1
          · rw [show 3 * (i + 1) + 2 = (3 * i + 2) + 1 + 1 + 1 by ring]; simpa using b2

end Rendering
