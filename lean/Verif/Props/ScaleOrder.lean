import Verif.Spec.ScaleOrder
import Verif.Props.FalseColourPrograms

/-!
# C135: false colours can be read
-/

set_option linter.unusedSectionVars false

namespace Rendering

/-- The position on a scale: a number from 0 to 255. -/
theorem scale_pos {table : List (Rgb ℝ)} {n : Nat} (hn : table.length = n + 2) {lo hi x : ℝ} (hlt : lo < hi) {c : Rgb ℝ} (h : ScaleColour table lo hi x c) :
    ∃ (i : Nat) (t : ℝ) (a b : Rgb ℝ), i ≤ n ∧ table[i]? = some a ∧ table[i + 1]? = some b ∧ 0 ≤ t ∧ t ≤ 1 ∧ (i : ℝ) + t = (n + 1) * ((min hi (max lo x) - lo) / (hi - lo)) ∧
      c = ⟨(1 - t) * a.r + t * b.r, (1 - t) * a.g + t * b.g, (1 - t) * a.b + t * b.b⟩ := by
  have hd : hi - lo ≠ 0 := by linarith
  rcases h with ⟨hx, hc⟩ | ⟨hx, hc⟩ | ⟨i, a, b, t, ha, hb, h0, h1, hx, hc⟩
  · refine ⟨0, 0, c, table[1]'(by omega), by omega, ?_, List.getElem?_eq_getElem (by omega), le_rfl, zero_le_one, ?_, by simp⟩
    · rw [← hc, List.head?_eq_getElem?]
    · rw [max_eq_left hx, min_eq_right hlt.le]; simp
  · refine ⟨n, 1, table[n]'(by omega), c, le_rfl, List.getElem?_eq_getElem (by omega), ?_, zero_le_one, le_rfl, ?_, by simp⟩
    · rw [← hc, List.getLast?_eq_getElem?, hn]; rfl
    · rw [max_eq_right (by linarith), min_eq_left hx, div_self hd]; ring
  · have hi' : i + 1 < table.length := (List.getElem?_eq_some_iff.1 hb).1
    have hx' : x = lo + (i + t) * ((hi - lo) / (n + 1)) := by
      rw [hx, hn]; push_cast; ring
    have hn0 : (0 : ℝ) < n + 1 := by positivity
    have e : x - lo = (i + t) / (n + 1) * (hi - lo) := by rw [hx']; field_simp; ring
    have hin : (i : ℝ) + t ≤ n + 1 := by
      have : (i : ℝ) ≤ n := by exact_mod_cast (by omega : i ≤ n)
      linarith
    have f0 : 0 ≤ (i + t) / ((n : ℝ) + 1) := by positivity
    have f1 : (i + t) / ((n : ℝ) + 1) ≤ 1 := (div_le_one hn0).2 hin
    refine ⟨i, t, a, b, by omega, ha, hb, h0, h1, ?_, hc⟩
    have g1 : lo ≤ x := by nlinarith
    have g2 : x ≤ hi := by nlinarith
    rw [max_eq_right g1, min_eq_right g2, e]
    field_simp

/-- A curve made of straight pieces rises no slower and no faster than its pieces. -/
theorem rise (f : Nat → ℝ) (s S : ℝ) (n : Nat) (hf : ∀ k ≤ n, s ≤ f (k + 1) - f k ∧ f (k + 1) - f k ≤ S) (i j : Nat) (hi : i ≤ n) (hj : j ≤ n) (t u : ℝ) (t0 : 0 ≤ t) (t1 : t ≤ 1) (u0 : 0 ≤ u) (u1 : u ≤ 1)
    (h : (i : ℝ) + t ≤ j + u) :
    s * ((j + u) - (i + t)) ≤ ((1 - u) * f j + u * f (j + 1)) - ((1 - t) * f i + t * f (i + 1)) ∧ ((1 - u) * f j + u * f (j + 1)) - ((1 - t) * f i + t * f (i + 1)) ≤ S * ((j + u) - (i + t)) := by
  have chain : ∀ d a : Nat, a + d ≤ n + 1 → s * d ≤ f (a + d) - f a ∧ f (a + d) - f a ≤ S * d := by
    intro d a
    induction d with
    | zero => intro _; simp
    | succ d ih =>
      intro had
      obtain ⟨p, q⟩ := ih (by omega)
      obtain ⟨r, w⟩ := hf (a + d) (by omega)
      rw [show a + (d + 1) = a + d + 1 by omega]
      push_cast
      constructor <;> linarith
  obtain ⟨a1, a2⟩ := hf i hi
  obtain ⟨b1, b2⟩ := hf j hj
  rcases lt_trichotomy i j with hij | rfl | hij
  · obtain ⟨d, rfl⟩ : ∃ d, j = i + 1 + d := ⟨j - (i + 1), by omega⟩
    obtain ⟨c1, c2⟩ := chain d (i + 1) (by omega)
    push_cast
    constructor <;> nlinarith
  · have hut : 0 ≤ u - t := by linarith
    constructor <;> nlinarith
  · have : (j : ℝ) + 1 ≤ i := by exact_mod_cast hij
    have e1 : u = 1 := by linarith
    have e2 : t = 0 := by linarith
    have e3 : (i : ℝ) = j + 1 := by linarith
    have e4 : i = j + 1 := by exact_mod_cast e3
    subst e1 e2 e4
    push_cast
    constructor <;> linarith

/-- A mixture of the channels. -/
def mixture (α β γ : ℝ) (c : Rgb ℝ) : ℝ := α * c.r + β * c.g + γ * c.b

/-- How fast a mixture of the channels changes along a scale, from how fast it changes from one colour of the table to the next. -/
theorem scale_rise {table : List (Rgb ℝ)} {n : Nat} (hn : table.length = n + 2) (α β γ s S : ℝ)
    (hs : ∀ k a b, table[k]? = some a → table[k + 1]? = some b → s ≤ mixture α β γ b - mixture α β γ a ∧ mixture α β γ b - mixture α β γ a ≤ S)
    {lo hi x y : ℝ} (hlt : lo < hi) (hxy : x ≤ y) {cx cy : Rgb ℝ} (hx : ScaleColour table lo hi x cx) (hy : ScaleColour table lo hi y cy) :
    s * ((n + 1) * ((min hi (max lo y) - min hi (max lo x)) / (hi - lo))) ≤ mixture α β γ cy - mixture α β γ cx ∧
      mixture α β γ cy - mixture α β γ cx ≤ S * ((n + 1) * ((min hi (max lo y) - min hi (max lo x)) / (hi - lo))) := by
  obtain ⟨i, t, a, b, hi1, ha, hb, t0, t1, ht, rfl⟩ := scale_pos hn hlt hx
  obtain ⟨j, u, a', b', hj1, ha', hb', u0, u1, hu, rfl⟩ := scale_pos hn hlt hy
  have hd : 0 < hi - lo := by linarith
  set f : Nat → ℝ := fun k => ((table[k]?).map (mixture α β γ)).getD 0 with hf
  have key := rise f s S n (by
    intro k hk
    have h1 : table[k]? = some (table[k]'(by omega)) := List.getElem?_eq_getElem (by omega)
    have h2 : table[k + 1]? = some (table[k + 1]'(by omega)) := List.getElem?_eq_getElem (by omega)
    have := hs k _ _ h1 h2
    simpa [hf, h1, h2] using this) i j hi1 hj1 t u t0 t1 u0 u1 (by
      rw [ht, hu]
      gcongr)
  have e : ((n : ℝ) + 1) * ((min hi (max lo y) - min hi (max lo x)) / (hi - lo)) = (j + u) - (i + t) := by
    rw [ht, hu]; ring
  rw [e]
  have f1 : f i = mixture α β γ a := by simp [hf, ha]
  have f2 : f (i + 1) = mixture α β γ b := by simp [hf, hb]
  have f3 : f j = mixture α β γ a' := by simp [hf, ha']
  have f4 : f (j + 1) = mixture α β γ b' := by simp [hf, hb']
  rw [f1, f2, f3, f4] at key
  have g : ∀ (t : ℝ) (a b : Rgb ℝ), mixture α β γ ⟨(1 - t) * a.r + t * b.r, (1 - t) * a.g + t * b.g, (1 - t) * a.b + t * b.b⟩ = (1 - t) * mixture α β γ a + t * mixture α β γ b := by
    intro t a b
    simp only [mixture]; ring
  rw [g, g]
  exact key

/-- Neighbours in a table. -/
theorem neighbours (m : Colourmap) (P : RawRgb → RawRgb → Prop) (h : ∀ p ∈ m.raw.zip m.raw.tail, P p.1 p.2) (k : Nat) (a b : Rgb ℝ) (ha : m.table[k]? = some a) (hb : m.table[k + 1]? = some b) :
    ∃ x y : RawRgb, P x y ∧ a = x.toRgb ∧ b = y.toRgb := by
  simp only [Colourmap.table, List.getElem?_map, Option.map_eq_some_iff] at ha hb
  obtain ⟨x, hx, rfl⟩ := ha
  obtain ⟨y, hy, rfl⟩ := hb
  refine ⟨x, y, h (x, y) ?_, rfl, rfl⟩
  refine List.mem_of_getElem? (i := k) ?_
  rw [List.getElem?_zip_eq_some]
  exact ⟨hx, by rw [List.getElem?_tail]; exact hy⟩

theorem table_len (m : Colourmap) : m.table.length = 254 + 2 := (C30_tables m).1

theorem brightness_steps (m : Colourmap) (hm : m ≠ .radiance) (k : Nat) (a b : Rgb ℝ) (ha : m.table[k]? = some a) (hb : m.table[k + 1]? = some b) :
    99 / 100000 ≤ mixture (2126 / 10000) (7152 / 10000) (722 / 10000) b - mixture (2126 / 10000) (7152 / 10000) (722 / 10000) a ∧
    mixture (2126 / 10000) (7152 / 10000) (722 / 10000) b - mixture (2126 / 10000) (7152 / 10000) (722 / 10000) a ≤ 6 / 1000 := by
  obtain ⟨x, y, ⟨h1, h2⟩, rfl, rfl⟩ := neighbours m (fun x y => 2126 * x.1 + 7152 * x.2.1 + 722 * x.2.2 + 99 * 10 ^ 11 ≤ 2126 * y.1 + 7152 * y.2.1 + 722 * y.2.2 ∧
      2126 * y.1 + 7152 * y.2.1 + 722 * y.2.2 ≤ 2126 * x.1 + 7152 * x.2.1 + 722 * x.2.2 + 6 * 10 ^ 13)
    (by cases m <;> first | exact absurd rfl hm | decide +kernel) k a b ha hb
  have h1' : (2126 * x.1 + 7152 * x.2.1 + 722 * x.2.2 + 99 * 10 ^ 11 : ℝ) ≤ 2126 * y.1 + 7152 * y.2.1 + 722 * y.2.2 := by exact_mod_cast h1
  have h2' : (2126 * y.1 + 7152 * y.2.1 + 722 * y.2.2 : ℝ) ≤ 2126 * x.1 + 7152 * x.2.1 + 722 * x.2.2 + 6 * 10 ^ 13 := by exact_mod_cast h2
  simp only [mixture, RawRgb.toRgb]
  constructor <;> linarith

theorem channel_steps (m : Colourmap) (k : Nat) (a b : Rgb ℝ) (ha : m.table[k]? = some a) (hb : m.table[k + 1]? = some b) :
    |b.r - a.r| ≤ 235 / 10000 ∧ |b.g - a.g| ≤ 235 / 10000 ∧ |b.b - a.b| ≤ 235 / 10000 := by
  obtain ⟨x, y, ⟨⟨h1, h2⟩, ⟨h3, h4⟩, h5, h6⟩, rfl, rfl⟩ := neighbours m (fun x y => (x.1 ≤ y.1 + 235 * 10 ^ 8 ∧ y.1 ≤ x.1 + 235 * 10 ^ 8) ∧ (x.2.1 ≤ y.2.1 + 235 * 10 ^ 8 ∧ y.2.1 ≤ x.2.1 + 235 * 10 ^ 8) ∧ (x.2.2 ≤ y.2.2 + 235 * 10 ^ 8 ∧ y.2.2 ≤ x.2.2 + 235 * 10 ^ 8))
    (by cases m <;> decide +kernel) k a b ha hb
  have key : ∀ u v : Nat, u ≤ v + 235 * 10 ^ 8 → v ≤ u + 235 * 10 ^ 8 → |(v : ℝ) / 10 ^ 12 - u / 10 ^ 12| ≤ 235 / 10000 := by
    intro u v h1 h2
    have h1' : (u : ℝ) ≤ v + 235 * 10 ^ 8 := by exact_mod_cast h1
    have h2' : (v : ℝ) ≤ u + 235 * 10 ^ 8 := by exact_mod_cast h2
    rw [abs_le]
    constructor <;> linarith
  exact ⟨key _ _ h1 h2, key _ _ h3 h4, key _ _ h5 h6⟩

theorem clamp_mono {lo hi x y : ℝ} (h : x ≤ y) : min hi (max lo x) ≤ min hi (max lo y) := min_le_min le_rfl (max_le_max le_rfl h)

theorem brightness_mixture (c : Rgb ℝ) : brightness c = mixture (2126 / 10000) (7152 / 10000) (722 / 10000) c := rfl

/-- **C135.** On the scales inferno, magma, plasma and viridis a larger value never looks darker, and of two values on the scale the larger one looks brighter. -/
theorem C135_brighter (m : Colourmap) (hm : m ≠ .radiance) {lo hi x y : ℝ} (hlt : lo < hi) (hxy : x ≤ y) {cx cy : Rgb ℝ} (hx : ScaleColour m.table lo hi x cx) (hy : ScaleColour m.table lo hi y cy) :
    brightness cx ≤ brightness cy ∧ (x < y → lo < y → x < hi → brightness cx < brightness cy) := by
  obtain ⟨h1, -⟩ := scale_rise (table_len m) _ _ _ _ _ (brightness_steps m hm) hlt hxy hx hy
  rw [← brightness_mixture, ← brightness_mixture] at h1
  have hd : 0 < hi - lo := by linarith
  have hc := clamp_mono (lo := lo) (hi := hi) hxy
  constructor
  · have : 0 ≤ (min hi (max lo y) - min hi (max lo x)) / (hi - lo) := div_nonneg (by linarith) hd.le
    push_cast at h1
    nlinarith
  · intro a b c
    have : 0 < (min hi (max lo y) - min hi (max lo x)) / (hi - lo) := by
      refine div_pos ?_ hd
      rw [sub_pos, min_eq_right (max_le hlt.le c.le)]
      exact lt_min (max_lt hlt c) (max_lt (b.trans_le (le_max_right _ _)) (a.trans_le (le_max_right _ _)))
    push_cast at h1
    nlinarith

/-- **C135.** Close values have close colours, on all five scales: no channel changes by more than six times as much as the value, relative to the length of the scale. -/
theorem C135_close (m : Colourmap) {lo hi x y : ℝ} (hlt : lo < hi) {cx cy : Rgb ℝ} (hx : ScaleColour m.table lo hi x cx) (hy : ScaleColour m.table lo hi y cy) :
    |cx.r - cy.r| ≤ 6 * (|x - y| / (hi - lo)) ∧ |cx.g - cy.g| ≤ 6 * (|x - y| / (hi - lo)) ∧ |cx.b - cy.b| ≤ 6 * (|x - y| / (hi - lo)) := by
  have hd : 0 < hi - lo := by linarith
  have main : ∀ (x y : ℝ) (cx cy : Rgb ℝ), x ≤ y → ScaleColour m.table lo hi x cx → ScaleColour m.table lo hi y cy → |cx.r - cy.r| ≤ 6 * (|x - y| / (hi - lo)) ∧ |cx.g - cy.g| ≤ 6 * (|x - y| / (hi - lo)) ∧ |cx.b - cy.b| ≤ 6 * (|x - y| / (hi - lo)) := by
    intro x y cx cy hxy hx hy
    have hw : min hi (max lo y) - min hi (max lo x) ≤ y - x := by
      rcases le_total lo x with a | a <;> rcases le_total lo y with b | b <;> rcases le_total hi x with c | c <;> rcases le_total hi y with d | d <;> simp only [max_def, min_def] <;> split_ifs <;> linarith
    have hq : (min hi (max lo y) - min hi (max lo x)) / (hi - lo) ≤ |x - y| / (hi - lo) := by
      rw [abs_sub_comm, abs_of_nonneg (by linarith)]
      gcongr
    have hq0 : 0 ≤ (min hi (max lo y) - min hi (max lo x)) / (hi - lo) := div_nonneg (by linarith [clamp_mono (lo := lo) (hi := hi) hxy]) hd.le
    have one : ∀ α β γ : ℝ, (∀ k a b, m.table[k]? = some a → m.table[k + 1]? = some b → |mixture α β γ b - mixture α β γ a| ≤ 235 / 10000) → |mixture α β γ cx - mixture α β γ cy| ≤ 6 * (|x - y| / (hi - lo)) := by
      intro α β γ h
      obtain ⟨a, b⟩ := scale_rise (table_len m) α β γ (-(235 / 10000)) (235 / 10000) (fun k a b ha hb => abs_le.1 (h k a b ha hb)) hlt hxy hx hy
      push_cast at a b
      rw [abs_sub_comm, abs_le]
      constructor <;> nlinarith
    refine ⟨?_, ?_, ?_⟩
    · have := one 1 0 0 (fun k a b ha hb => by simpa [mixture] using (channel_steps m k a b ha hb).1)
      simpa [mixture] using this
    · have := one 0 1 0 (fun k a b ha hb => by simpa [mixture] using (channel_steps m k a b ha hb).2.1)
      simpa [mixture] using this
    · have := one 0 0 1 (fun k a b ha hb => by simpa [mixture] using (channel_steps m k a b ha hb).2.2)
      simpa [mixture] using this
  rcases le_total x y with h | h
  · exact main x y cx cy h hx hy
  · have := main y x cy cx h hy hx
    rw [abs_sub_comm y x, abs_sub_comm cy.r, abs_sub_comm cy.g, abs_sub_comm cy.b] at this
    exact this

theorem byte_near {x : ℝ} (h1 : x ≤ 1) {b : UInt8} (h : ByteOf x b) : 256 * x - 1 ≤ b.toNat ∧ (b.toNat : ℝ) ≤ 256 * x + 1 / 2 := by
  obtain ⟨k, hk, hb⟩ := h
  obtain ⟨a, c⟩ := abs_le.1 hk
  have hb' : (b.toNat : ℝ) = min 255 (k : ℝ) := by
    have : ((b.toNat : ℤ) : ℝ) = ((min 255 k : ℤ) : ℝ) := by rw [hb]
    push_cast at this
    exact this
  rw [hb']
  constructor
  · exact le_min (by linarith) (by linarith)
  · exact (min_le_right _ _).trans (by linarith)

/-- The brightness of a pixel whose bytes are those of a colour. -/
theorem pixel_near {data : List UInt8} {i : Nat} {c : Rgb ℝ} (hr : (0 ≤ c.r ∧ c.r ≤ 1) ∧ (0 ≤ c.g ∧ c.g ≤ 1) ∧ (0 ≤ c.b ∧ c.b ≤ 1)) (h : PixelHas data i c) :
    ∃ v, PixelBrightness data i v ∧ 256 * brightness c - 1 ≤ v ∧ v ≤ 256 * brightness c + 1 / 2 := by
  obtain ⟨r, g, b, h1, h2, h3, b1, b2, b3⟩ := h
  refine ⟨_, ⟨r, g, b, h1, h2, h3, rfl⟩, ?_, ?_⟩ <;>
  · have := byte_near hr.1.2 b1
    have := byte_near hr.2.1.2 b2
    have := byte_near hr.2.2.2 b3
    unfold brightness
    linarith

theorem same_brightness {data : List UInt8} {i k : Nat} (h : SamePixel data i k) {v w : ℝ} (hv : PixelBrightness data i v) (hw : PixelBrightness data k w) : v = w := by
  obtain ⟨r, g, b, h1, h2, h3, rfl⟩ := hv
  obtain ⟨r', g', b', k1, k2, k3, rfl⟩ := hw
  obtain ⟨e1, e2, e3⟩ := h
  rw [h1, k1, Option.some.injEq] at e1
  rw [h2, k2, Option.some.injEq] at e2
  rw [h3, k3, Option.some.injEq] at e3
  rw [e1, e2, e3]

/-- Order and readability of data that hold the colours of values on a scale. -/
theorem scale_data (m : Colourmap) (hm : m ≠ .radiance) {lo hi : ℝ} (hlt : lo < hi) {data : List UInt8} {i k : Nat} {x y : ℝ} {cx cy : Rgb ℝ} (hx : ScaleColour m.table lo hi x cx) (hy : ScaleColour m.table lo hi y cy)
    (hi' : PixelHas data i cx) (hk : PixelHas data k cy) (hxy : x ≤ y) :
    (∃ v w, PixelBrightness data i v ∧ PixelBrightness data k w ∧ v ≤ w + 3 / 2) ∧ (SamePixel data i k → lo ≤ x → y ≤ hi → y - x ≤ (hi - lo) / 40) := by
  obtain ⟨v, pv, v1, v2⟩ := pixel_near (scaleColour_range hx) hi'
  obtain ⟨w, pw, w1, w2⟩ := pixel_near (scaleColour_range hy) hk
  have hb := (C135_brighter m hm hlt hxy hx hy).1
  refine ⟨⟨v, w, pv, pw, by linarith⟩, fun hs h1 h2 => ?_⟩
  have e := same_brightness hs pv pw
  obtain ⟨h, -⟩ := scale_rise (table_len m) _ _ _ _ _ (brightness_steps m hm) hlt hxy hx hy
  rw [← brightness_mixture, ← brightness_mixture, max_eq_right h1, max_eq_right (h1.trans hxy), min_eq_right h2, min_eq_right (hxy.trans h2)] at h
  have hd : 0 < hi - lo := by linarith
  have h3 : (y - x) / (hi - lo) ≤ 1 / 40 := by
    push_cast at h
    linarith
  rw [div_le_iff₀ hd] at h3
  linarith

/-- **C135.** The pictures that `sfalsecolor` writes with one of the four scales can be read: a pixel of larger luminance is not darker (but for the rounding of the three bytes: one and a half of 255 levels), and two pixels whose bytes are the same, with luminances on the scale, have luminances
that differ by at most a fortieth of the scale. -/
theorem C135_sfalsecolor (file : List UInt8) (im : ImageBuffer) (h : ImageBuffer.fromFile file = .ok (.image im)) (hc : im.width * im.height ≤ im.pixels.length) (hw : im.width % 65536 ≠ 0) (hh : im.height % 65536 ≠ 0) (min max : Option ℝ) (m : Colourmap) (hm : m ≠ .radiance) (lo hi : ℝ) (hlo : LowerEnd 0 min lo)
    (hhi : UpperEnd (im.pixels.map Spectrum.luminance) max hi) (hlt : lo < hi) :
    ∃ j, sfalsecolor file min max false m = .ok (.jpeg j) ∧ ∀ (i k : Nat) (p q : Spectrum ℝ), im.pixels[i]? = some p → im.pixels[k]? = some q → p.luminance ≤ q.luminance →
      (∃ v w, PixelBrightness j.data i v ∧ PixelBrightness j.data k w ∧ v ≤ w + 3 / 2) ∧ (SamePixel j.data i k → lo ≤ p.luminance → q.luminance ≤ hi → q.luminance - p.luminance ≤ (hi - lo) / 40) := by
  obtain ⟨j, hj, -, -, -, hcol⟩ := C102_linear file im h hc hw hh min max m lo hi hlo hhi hlt
  refine ⟨j, hj, fun i k p q hp hq hpq => ?_⟩
  obtain ⟨c, c1, c2⟩ := hcol i p.luminance (by simp [hp])
  obtain ⟨d, d1, d2⟩ := hcol k q.luminance (by simp [hq])
  exact scale_data m hm hlt c1 d1 c2 d2 hpq

/-- **C135, logarithmic scale.** The same with `--log`: here two pixels with the same bytes and luminances on the scale have logarithms of luminances that differ by at most a fortieth of the scale. -/
theorem C135_sfalsecolor_log (file : List UInt8) (im : ImageBuffer) (h : ImageBuffer.fromFile file = .ok (.image im)) (hc : im.width * im.height ≤ im.pixels.length) (hw : im.width % 65536 ≠ 0) (hh : im.height % 65536 ≠ 0) (min max : Option ℝ) (m : Colourmap) (hm : m ≠ .radiance) (lo hi : ℝ) (hlo : LowerEnd (1 / 1000) min lo)
    (hhi : UpperEnd (im.pixels.map Spectrum.luminance) max hi) (hlt : lo < hi) (hauto : max = none → 1 / 1000 < Real.logb 10 hi) :
    ∃ j, sfalsecolor file min max true m = .ok (.jpeg j) ∧ ∀ (i k : Nat) (p q : Spectrum ℝ), im.pixels[i]? = some p → im.pixels[k]? = some q → p.luminance ≤ q.luminance →
      (∃ v w, PixelBrightness j.data i v ∧ PixelBrightness j.data k w ∧ v ≤ w + 3 / 2) ∧
      (SamePixel j.data i k → lo ≤ p.luminance → q.luminance ≤ hi → Real.logb 10 q.luminance - Real.logb 10 p.luminance ≤ (Real.logb 10 hi - Real.logb 10 lo) / 40) := by
  obtain ⟨j, hj, -, -, -, hcol⟩ := C102_log_partial file im h hc hw hh min max m lo hi hlo hhi hlt hauto
  have h0 : 0 < lo := by
    rcases hlo with ⟨_, rfl⟩ | ⟨v, _, ⟨_, rfl⟩ | ⟨h1, rfl⟩⟩ <;> [norm_num; norm_num; exact lt_of_lt_of_le (by norm_num) h1]
  have hl : Real.logb 10 lo < Real.logb 10 hi := Real.logb_lt_logb (by norm_num) h0 hlt
  refine ⟨j, hj, fun i k p q hp hq hpq => ?_⟩
  obtain ⟨c, c1, c2⟩ := hcol i p.luminance (by simp [hp])
  obtain ⟨d, d1, d2⟩ := hcol k q.luminance (by simp [hq])
  rcases c1 with ⟨z, c1⟩ | ⟨pp, c1⟩
  · rcases d1 with ⟨z', d1⟩ | ⟨qp, d1⟩
    · exact ⟨(scale_data m hm hl (Or.inl ⟨le_rfl, c1⟩) (Or.inl ⟨le_rfl, d1⟩) c2 d2 le_rfl).1, fun _ h1 => by linarith⟩
    · refine ⟨(scale_data m hm hl (x := Min.min (Real.logb 10 lo) (Real.logb 10 q.luminance)) (Or.inl ⟨min_le_left _ _, c1⟩) d1 c2 d2 (min_le_right _ _)).1, fun _ h1 => by linarith⟩
  · rcases d1 with ⟨z', d1⟩ | ⟨qp, d1⟩
    · linarith
    · have := scale_data m hm hl c1 d1 c2 d2 (Real.logb_le_logb_of_le (by norm_num) pp hpq)
      exact ⟨this.1, fun hs h1 h2 => this.2 hs (Real.logb_le_logb_of_le (by norm_num) h0 h1) (Real.logb_le_logb_of_le (by norm_num) qp h2)⟩

theorem head_of (m : Colourmap) (x : RawRgb) (h : m.raw.head? = some x) : m.table.head? = some x.toRgb := by simp [Colourmap.table, h]
theorem last_of (m : Colourmap) (x : RawRgb) (h : m.raw.getLast? = some x) : m.table.getLast? = some x.toRgb := by simp [Colourmap.table, h]
theorem entry_of (m : Colourmap) (k : Nat) (x : RawRgb) (h : m.raw[k]? = some x) : m.table[k]? = some x.toRgb := by simp [Colourmap.table, h]

/-- **C135.** The ends of the scales are the well-known ones: inferno and magma go from black to a pale yellow, plasma from dark blue to yellow, viridis from dark violet to yellow, Radiance's scale from purple to yellow. -/
theorem C135_ends (m : Colourmap) {lo hi x : ℝ} (hlt : lo < hi) {c : Rgb ℝ} (h : ScaleColour m.table lo hi x c) :
    (x ≤ lo → Nearly c (scaleStart m)) ∧ (hi ≤ x → Nearly c (scaleEnd m)) := by
  have hd : hi - lo ≠ 0 := by linarith
  obtain ⟨i, t, a, b, hi1, ha, hb, t0, t1, ht, rfl⟩ := scale_pos (table_len m) hlt h
  push_cast at ht
  constructor
  · intro hx
    rw [max_eq_left hx, min_eq_right hlt.le, sub_self, zero_div, mul_zero] at ht
    have hi0 : (0 : ℝ) ≤ i := Nat.cast_nonneg _
    have e1 : t = 0 := by linarith
    have e2 : i = 0 := by
      have : (i : ℝ) = 0 := by linarith
      exact_mod_cast this
    subst e1 e2
    have : ∃ x : RawRgb, m.raw[0]? = some x ∧ Nearly x.toRgb (scaleStart m) := by
      cases m <;> exact ⟨_, rfl, by norm_num [Nearly, RawRgb.toRgb, scaleStart, abs_le]⟩
    obtain ⟨x, h1, h2⟩ := this
    rw [entry_of m 0 x h1, Option.some.injEq] at ha
    subst ha
    simpa using h2
  · intro hx
    rw [max_eq_right (hlt.le.trans hx), min_eq_left hx, div_self hd] at ht
    have : (i : ℝ) ≤ 254 := by exact_mod_cast hi1
    have e1 : t = 1 := by linarith
    have e2 : i = 254 := by
      have : (i : ℝ) = 254 := by linarith
      exact_mod_cast this
    subst e1 e2
    have : ∃ x : RawRgb, m.raw[255]? = some x ∧ Nearly x.toRgb (scaleEnd m) := by
      cases m <;> exact ⟨_, rfl, by norm_num [Nearly, RawRgb.toRgb, scaleEnd, abs_le]⟩
    obtain ⟨x, h1, h2⟩ := this
    rw [entry_of m 255 x h1, Option.some.injEq] at hb
    subst hb
    simpa using h2

/-- **C135 (violation).** On the scale of Radiance a larger value may look much darker: in every picture saved with it, a pixel at the lower end of the scale is brighter (by more than 20 of 255 levels) than one at 20/255 of it. -/
theorem C135_violation_radiance (im : ImageBuffer) (min max : Option ℝ) (j : JpegInput) (h : im.saveFalsecolour min max .radiance = .ok j) (lo hi : ℝ) (hlo : LowerEnd 0 min lo) (hhi : UpperEnd (im.pixels.map Spectrum.luminance) max hi) (hlt : lo < hi)
    (i k : Nat) (p q : Spectrum ℝ) (hp : im.pixels[i]? = some p) (hq : im.pixels[k]? = some q) (ep : p.luminance = lo) (eq : q.luminance = lo + 20 * ((hi - lo) / 255)) :
    ∃ v w, PixelBrightness j.data i v ∧ PixelBrightness j.data k w ∧ w + 20 < v := by
  have hd : hi - lo ≠ 0 := by linarith
  have hd' : 0 < hi - lo := by linarith
  obtain ⟨c, c1, c2⟩ := C30_linear_colours im min max _ j h lo hi hlo hhi hlt i p hp
  obtain ⟨d, d1, d2⟩ := C30_linear_colours im min max _ j h lo hi hlo hhi hlt k q hq
  obtain ⟨v, pv, v1, v2⟩ := pixel_near (scaleColour_range c1) (pixelHas_of (scaleColour_range c1) c2)
  obtain ⟨w, pw, w1, w2⟩ := pixel_near (scaleColour_range d1) (pixelHas_of (scaleColour_range d1) d2)
  refine ⟨v, w, pv, pw, ?_⟩
  have hb1 : brightness c = mixture (2126 / 10000) (7152 / 10000) (722 / 10000) ⟨43359 / 100000, 3125 / 100000, 51563 / 100000⟩ := by
    obtain ⟨i, t, a, b, hi1, ha, hb, t0, t1, ht, rfl⟩ := scale_pos (table_len _) hlt c1
    rw [ep, max_self, min_eq_right hlt.le, sub_self, zero_div, mul_zero] at ht
    have hi0 : (0 : ℝ) ≤ i := Nat.cast_nonneg _
    have e1 : t = 0 := by linarith
    have e2 : i = 0 := by
      have : (i : ℝ) = 0 := by linarith
      exact_mod_cast this
    subst e1 e2
    rw [entry_of .radiance 0 (433590000000, 31250000000, 515630000000) rfl, Option.some.injEq] at ha
    subst ha
    norm_num [brightness, mixture, RawRgb.toRgb]
  have hb2 : brightness d = mixture (2126 / 10000) (7152 / 10000) (722 / 10000) ⟨7031 / 100000, 0, 67188 / 100000⟩ := by
    obtain ⟨i, t, a, b, hi1, ha, hb, t0, t1, ht, rfl⟩ := scale_pos (table_len _) hlt d1
    have e0 : (i : ℝ) + t = 20 := by
      rw [ht, eq, max_eq_right (by linarith [div_pos hd' (by norm_num : (0 : ℝ) < 255)]), min_eq_right (by linarith [div_mul_cancel₀ (hi - lo) (by norm_num : (255 : ℝ) ≠ 0)])]
      field_simp
      norm_num
      ring
    have hcase : (i = 20 ∧ t = 0) ∨ (i = 19 ∧ t = 1) := by
      have h1 : (19 : ℝ) ≤ i := by linarith
      have h2 : (i : ℝ) ≤ 20 := by linarith
      have h1' : 19 ≤ i := by exact_mod_cast h1
      have h2' : i ≤ 20 := by exact_mod_cast h2
      rcases (by omega : i = 20 ∨ i = 19) with rfl | rfl
      · exact Or.inl ⟨rfl, by push_cast at e0; linarith⟩
      · exact Or.inr ⟨rfl, by push_cast at e0; linarith⟩
    rcases hcase with ⟨rfl, rfl⟩ | ⟨rfl, rfl⟩
    · rw [entry_of .radiance 20 (70310000000, 0, 671880000000) rfl, Option.some.injEq] at ha
      subst ha
      norm_num [brightness, mixture, RawRgb.toRgb]
    · rw [entry_of .radiance 20 (70310000000, 0, 671880000000) rfl, Option.some.injEq] at hb
      subst hb
      norm_num [brightness, mixture, RawRgb.toRgb]
  rw [hb1] at v1
  rw [hb2] at w2
  norm_num [mixture] at v1 w2
  linarith

/-! ### The hypotheses are met -/

example := C135_brighter .viridis (by simp) (lo := 0) (hi := 255) (x := 0) (y := 300) (by norm_num) (by norm_num) (Or.inl ⟨le_rfl, head_of .viridis _ rfl⟩) (Or.inr (Or.inl ⟨by norm_num, last_of .viridis _ rfl⟩))
example := C135_close .radiance (lo := 0) (hi := 255) (x := 0) (y := 300) (by norm_num) (Or.inl ⟨le_rfl, head_of .radiance _ rfl⟩) (Or.inr (Or.inl ⟨by norm_num, last_of .radiance _ rfl⟩))
example := C135_ends .magma (lo := 0) (hi := 255) (x := 0) (by norm_num) (Or.inl ⟨le_rfl, head_of .magma _ rfl⟩)
example (m : Colourmap) (hm : m ≠ .radiance) : ∃ (file : List UInt8) (im : ImageBuffer) (j : JpegInput), ImageBuffer.fromFile file = .ok (.image im) ∧ 0 < im.width ∧ sfalsecolor file none none false m = .ok (.jpeg j) ∧ ∃ j, sfalsecolor file none (some 1) true m = .ok (.jpeg j) := by
  obtain ⟨file, im, lo, hi, h1, h2, h3, h4, h5, h6, h7⟩ := grey_picture
  obtain ⟨j, k1, _⟩ := C135_sfalsecolor file im h1 h2.ge h3 h4 none none m hm lo hi h5 h6 h7
  obtain ⟨j', k1', _⟩ := C135_sfalsecolor_log file im h1 h2.ge h3 h4 none (some 1) m hm (1 / 1000) 1 (Or.inl ⟨rfl, rfl⟩) (Or.inl rfl) (by norm_num) (fun h => (by cases h))
  exact ⟨file, im, j, h1, Nat.pos_of_ne_zero (by rintro h; rw [h] at h3; exact h3 rfl), k1, j', k1'⟩
/-- A black pixel and a dark grey one: the black one looks brighter. -/
example : ∃ (j : JpegInput) (v w : ℝ), (⟨2, 1, [Spectrum.gray 0, Spectrum.gray (20 / 255)]⟩ : ImageBuffer).saveFalsecolour none (some 179) .radiance = .ok j ∧ PixelBrightness j.data 0 v ∧ PixelBrightness j.data 1 w ∧ w < v := by
  obtain ⟨j, hj⟩ := C30_linear_succeeds_partial ⟨2, 1, [Spectrum.gray 0, Spectrum.gray (20 / 255)]⟩ (by simp) (by norm_num) (by norm_num) none (some 179) .radiance
  obtain ⟨v, w, h1, h2, h3⟩ := C135_violation_radiance _ none (some 179) j hj 0 179 (Or.inl ⟨rfl, rfl⟩) (Or.inl rfl) (by norm_num) 0 1 _ _ rfl rfl
    (by norm_num [Spectrum.luminance, Spectrum.radiance, Spectrum.channels, Spectrum.gray, Spectrum.radianceCoefficients, Spectrum.whiteEfficacy])
    (by norm_num [Spectrum.luminance, Spectrum.radiance, Spectrum.channels, Spectrum.gray, Spectrum.radianceCoefficients, Spectrum.whiteEfficacy])
  exact ⟨j, v, w, hj, h1, h2, by linarith⟩

end Rendering
