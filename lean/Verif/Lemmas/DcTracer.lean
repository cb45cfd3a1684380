import Verif.Model.DcTracer
import Verif.Lemmas.Matrix
import Verif.Props.Direct

/-!
# Lemmas about the daylight-coefficient tracer
-/

set_option linter.unusedSectionVars false
namespace Rendering

open Classical

theorem mapRes_ok {A B : Type} {f : A → Res B} {l : List A} {bs : List B} (h : mapRes f l = .ok bs) : List.Forall₂ (fun a b => f a = .ok b) l bs := by
  induction l generalizing bs with
  | nil => simp only [mapRes, Res.ok.injEq] at h; subst h; exact .nil
  | cons a l ih =>
    unfold mapRes at h
    obtain ⟨b, hb, h⟩ := Res.bind_eq_ok h
    obtain ⟨bs', hbs, h⟩ := Res.bind_eq_ok h
    rw [← Res.ok.inj h]
    exact .cons hb (ih hbs)

theorem mapRes_of {A B : Type} {f : A → Res B} {l : List A} {bs : List B} (h : List.Forall₂ (fun a b => f a = .ok b) l bs) : mapRes f l = .ok bs := by
  induction h with
  | nil => rfl
  | cons hb _ ih => unfold mapRes; rw [hb, Res.bind_ok, ih, Res.bind_ok]

theorem forall₂_getElem? {A B : Type} {R : A → B → Prop} {l : List A} {l' : List B} (h : List.Forall₂ R l l') (k : Nat) :
    (∀ a, l[k]? = some a → ∃ b, l'[k]? = some b ∧ R a b) ∧ l.length = l'.length := by
  refine ⟨?_, h.length_eq⟩
  intro a ha
  have hk : k < l.length := (List.getElem?_eq_some_iff.1 ha).1
  have hk' : k < l'.length := by rw [← h.length_eq]; exact hk
  refine ⟨l'[k], List.getElem?_eq_getElem hk', ?_⟩
  have := h.get hk hk'
  rw [List.getElem?_eq_getElem hk] at ha
  simp only [Option.some.injEq] at ha
  simpa [ha] using this

theorem zipIdx_swap_getElem? {A : Type} (l : List A) (k : Nat) : (l.zipIdx.map Prod.swap)[k]? = (l[k]?).map fun a => (k, a) := by
  rw [List.getElem?_map, List.getElem?_zipIdx]
  cases l[k]? <;> simp

/-- The matrix has one row of `n` entries. -/
def Mat.IsRow (m : Mat (Spectrum ℝ)) (n : Nat) : Prop := m.nrows = 1 ∧ m.ncols = n ∧ m.data.length = n

theorem Mat.IsRow.get? {m : Mat (Spectrum ℝ)} {n : Nat} (h : m.IsRow n) (j : Nat) : m.get? 0 j = m.data[j]? := by
  unfold Mat.get?
  rw [h.1, h.2.1, Nat.zero_mul, Nat.zero_add]
  split_ifs with hj
  · rfl
  · rw [List.getElem?_eq_none]; rw [h.2.2]; simpa using hj

theorem DcFactory.blank_isRow (dc : DcFactory) : dc.blank.IsRow dc.nBins := by simp [DcFactory.blank, Mat.new, Mat.IsRow]

theorem Mat.IsRow.set {m m' : Mat (Spectrum ℝ)} {n j : Nat} {v : Spectrum ℝ} (h : m.IsRow n) (hs : m.set 0 j v = .ok m') : m'.IsRow n ∧ m'.data = m.data.set j v ∧ j < n := by
  unfold Mat.set at hs
  split_ifs at hs with hj
  have e := Res.ok.inj hs
  rw [← e]
  refine ⟨⟨h.1, h.2.1, ?_⟩, ?_, by rw [← h.2.1]; exact hj.2⟩
  · simp [h.2.2]
  · simp

theorem Mat.IsRow.add {a b c : Mat (Spectrum ℝ)} {n : Nat} (ha : a.IsRow n) (hb : b.IsRow n) (h : a.addAssign b = .ok c) : c.IsRow n ∧ c.data = List.zipWith (· + ·) a.data b.data := by
  unfold Mat.addAssign at h
  split_ifs at h
  have e := Res.ok.inj h
  rw [← e]
  exact ⟨⟨ha.1, ha.2.1, by simp [ha.2.2, hb.2.2]⟩, rfl⟩

theorem Mat.IsRow.add_ok {a b : Mat (Spectrum ℝ)} {n : Nat} (ha : a.IsRow n) (hb : b.IsRow n) : ∃ c, a.addAssign b = .ok c := by
  unfold Mat.addAssign
  rw [if_pos ⟨by rw [ha.1, hb.1], by rw [ha.2.1, hb.2.1]⟩]
  exact ⟨_, rfl⟩

/-- The entries in column `j` of the contributions. -/
noncomputable def column (cs : List (Mat (Spectrum ℝ))) (j : Nat) : List (Spectrum ℝ) := cs.map fun c => (c.get? 0 j).getD Spectrum.black

theorem dcSum_spec {n : Nat} (cs : List (Mat (Spectrum ℝ))) (ret out : Mat (Spectrum ℝ)) (hr : ret.IsRow n) (hc : ∀ c ∈ cs, c.IsRow n) (h : dcSum ret cs = .ok out) :
    out.IsRow n ∧ ∀ j < n, out.get? 0 j = some (((ret.get? 0 j).getD Spectrum.black) + spectrumSum (column cs j)) := by
  induction cs generalizing ret with
  | nil =>
    simp only [dcSum, Res.ok.injEq] at h
    subst h
    refine ⟨hr, fun j hj => ?_⟩
    rw [hr.get? j, List.getElem?_eq_getElem (by rw [hr.2.2]; exact hj)]
    simp [column, spectrumSum, spectrum_add_black]
  | cons c cs ih =>
    unfold dcSum at h
    obtain ⟨r, hr', h⟩ := Res.bind_eq_ok h
    have hcr := hc c List.mem_cons_self
    obtain ⟨k1, k2⟩ := hr.add hcr hr'
    obtain ⟨k3, k4⟩ := ih r k1 (fun c hc' => hc c (List.mem_cons_of_mem _ hc')) h
    refine ⟨k3, fun j hj => ?_⟩
    rw [k4 j hj, k1.get? j, k2, hr.get? j, List.getElem?_zipWith, List.getElem?_eq_getElem (by rw [hr.2.2]; exact hj), List.getElem?_eq_getElem (by rw [hcr.2.2]; exact hj)]
    simp only [column, List.map_cons, spectrumSum, Option.getD_some, hcr.get? j, List.getElem?_eq_getElem (show j < c.data.length by rw [hcr.2.2]; exact hj)]
    rw [spectrum_add_assoc]

theorem dcSum_ok {n : Nat} (cs : List (Mat (Spectrum ℝ))) (ret : Mat (Spectrum ℝ)) (hr : ret.IsRow n) (hc : ∀ c ∈ cs, c.IsRow n) : ∃ out, dcSum ret cs = .ok out := by
  induction cs generalizing ret with
  | nil => exact ⟨_, rfl⟩
  | cons c cs ih =>
    obtain ⟨r, hr'⟩ := hr.add_ok (hc c List.mem_cons_self)
    unfold dcSum
    rw [hr', Res.bind_ok]
    exact ih r (hr.add (hc c List.mem_cons_self) hr').1 fun c hc' => hc c (List.mem_cons_of_mem _ hc')

/-! ### The shape of the contributions is kept -/

/-- Tracing keeps the shape of the contributions. -/
def DcFn.KeepsShape (f : DcFn) (n : Nat) : Prop := ∀ st ray ray' st', f st ray = .ok (ray', st') → st.contribution.IsRow n → st'.contribution.IsRow n

theorem dcSpecularLoop_shape {f : DcFn} {n : Nat} (hf : f.KeepsShape n) (csb : ℝ) (paths : List (TRay × Spectrum ℝ)) (st st' : DState) (h : dcSpecularLoop f csb paths st = .ok st') (hs : st.contribution.IsRow n) :
    st'.contribution.IsRow n := by
  induction paths generalizing st with
  | nil => simp only [dcSpecularLoop, Res.ok.injEq] at h; rw [← h]; exact hs
  | cons p rest ih =>
    obtain ⟨newRay, bsdf⟩ := p
    unfold dcSpecularLoop at h
    simp only at h
    obtain ⟨⟨_, st1⟩, h1, h⟩ := Res.bind_eq_ok h
    exact ih st1 h (hf _ _ _ _ h1 hs)

theorem dcAmbientLoop_shape {f : DcFn} {n : Nat} (hf : f.KeepsShape n) (m : Material ℝ) (fuel : Nat) (pt normal e1 e2 : Vec3 ℝ) (k : Nat) (ray ray' : TRay) (st st' : DState)
    (h : dcAmbientLoop f m fuel pt normal e1 e2 k ray st = .ok (ray', st')) (hs : st.contribution.IsRow n) : st'.contribution.IsRow n := by
  induction k generalizing ray st with
  | zero => simp only [dcAmbientLoop, Res.ok.injEq, Prod.mk.injEq] at h; rw [← h.2]; exact hs
  | succ k ih =>
    unfold dcAmbientLoop at h
    obtain ⟨⟨⟨bsdf, weight⟩, r1, rng⟩, h1, h⟩ := Res.bind_eq_ok h
    simp only at h
    obtain ⟨⟨r2, st1⟩, h2, h⟩ := Res.bind_eq_ok h
    exact ih r2 st1 h (hf _ _ _ _ h2 hs)

theorem dcTraceRay_shape (w : World) (dc : DcFactory) (n fuel : Nat) : (dcTraceRay w dc fuel).KeepsShape n := by
  induction fuel with
  | zero => intro st ray ray' st' h; simp [dcTraceRay] at h
  | succ fuel ih =>
    intro st ray ray' st' h hs
    unfold dcTraceRay at h
    obtain ⟨hit, _, h⟩ := Res.bind_eq_ok h
    cases hit with
    | none =>
      simp only [dcMissStep] at h
      obtain ⟨old, _, h⟩ := Res.bind_eq_ok h
      obtain ⟨c, hc, h⟩ := Res.bind_eq_ok h
      simp only [Res.ok.injEq, Prod.mk.injEq] at h
      rw [← h.2]
      exact (hs.set hc).1
    | some x =>
      obtain ⟨i, r⟩ := x
      simp only at h
      split_ifs at h with h1
      · simp only [Res.ok.injEq, Prod.mk.injEq] at h; rw [← h.2]; exact hs
      · unfold dcSurfaceStep at h
        split_ifs at h with h2
        · simp only [Res.ok.injEq, Prod.mk.injEq] at h; rw [← h.2]; exact hs
        · obtain ⟨m, _, h⟩ := Res.bind_eq_ok h
          by_cases h3 : r.depth > dc.maxDepth ∨ m.emitsDirectLight = true
          · rw [if_pos h3] at h
            simp only [Res.ok.injEq, Prod.mk.injEq] at h; rw [← h.2]; exact hs
          · rw [if_neg h3] at h
            simp only at h
            obtain ⟨⟨n0, n1, n2⟩, _, h⟩ := Res.bind_eq_ok h
            simp only at h
            by_cases h4 : m.specularOnly = true
            · rw [if_pos h4] at h
              obtain ⟨paths, _, h⟩ := Res.bind_eq_ok h
              obtain ⟨st1, h6, h⟩ := Res.bind_eq_ok h
              simp only [Res.ok.injEq, Prod.mk.injEq] at h
              rw [← h.2]
              exact dcSpecularLoop_shape ih _ _ _ _ h6 hs
            · rw [if_neg h4] at h
              split_ifs at h
              exact dcAmbientLoop_shape ih _ _ _ _ _ _ _ _ _ _ _ h hs

theorem dcSample_shape {w : World} {dc : DcFactory} {fuel : Nat} {origin e1 e2 normal d : Vec3 ℝ} {rng : Rng} {c : Mat (Spectrum ℝ)} (h : dcSample w dc fuel origin e1 e2 normal d rng = .ok c) : c.IsRow dc.nBins := by
  unfold dcSample at h
  simp only at h
  obtain ⟨⟨r, st⟩, h1, h⟩ := Res.bind_eq_ok h
  rw [← Res.ok.inj h]
  exact dcTraceRay_shape w dc _ fuel _ _ _ _ h1 dc.blank_isRow

theorem dcDirections_length (n : Nat) (rng : Rng) : (dcDirections n rng).length = n := by
  induction n generalizing rng with
  | zero => rfl
  | succ n ih => simp [dcDirections, ih]

/-- The `k`-th local direction is drawn from the generator after `2 k` numbers have been used. -/
theorem dcDirections_getElem? (n : Nat) (rng : Rng) (k : Nat) (hk : k < n) : (dcDirections n rng)[k]? = some (sampleCosineHemisphere fun i => rng (i + 2 * k)).1 := by
  induction n generalizing rng k with
  | zero => omega
  | succ n ih =>
    cases k with
    | zero => rfl
    | succ k =>
      unfold dcDirections
      simp only [List.getElem?_cons_succ]
      rw [ih _ k (by omega)]
      congr 3

/-! ### Copying rows -/

theorem dcCopyRow_spec {c : Mat (Spectrum ℝ)} {n i : Nat} (hc : c.IsRow n) (bins : List Nat) (ret out : Mat (Spectrum ℝ)) (hw : ret.WF) (h : dcCopyRow c i bins ret = .ok out) :
    out.WF ∧ out.nrows = ret.nrows ∧ out.ncols = ret.ncols ∧ (∀ b ∈ bins, out.get? i b = c.get? 0 b) ∧ (∀ r b, ¬ (r = i ∧ b ∈ bins) → out.get? r b = ret.get? r b) := by
  induction bins generalizing ret with
  | nil => simp only [dcCopyRow, Res.ok.injEq] at h; subst h; exact ⟨hw, rfl, rfl, by simp, by simp⟩
  | cons b bins ih =>
    unfold dcCopyRow at h
    obtain ⟨v, hv, h⟩ := Res.bind_eq_ok h
    obtain ⟨r1, h1, h⟩ := Res.bind_eq_ok h
    have hv := Res.ofOption_eq_ok hv
    obtain ⟨s1, s2, s3, _, _, s4, s5⟩ := Mat.set_spec hw h1
    obtain ⟨t1, t2, t3, t4, t5⟩ := ih r1 s1 h
    refine ⟨t1, t2.trans s2, t3.trans s3, ?_, ?_⟩
    · intro b' hb'
      by_cases hin : b' ∈ bins
      · exact t4 b' hin
      · have hbb : b' = b := by simpa [hin] using hb'
        subst hbb
        rw [t5 i b' (by simp [hin]), s4, hv]
    · intro r b' hn
      rw [t5 r b' (by intro hh; exact hn ⟨hh.1, List.mem_cons_of_mem _ hh.2⟩), s5 r b' (by rintro ⟨⟩; exact hn ⟨rfl, List.mem_cons_self⟩)]

theorem dcCopyRow_ok {c : Mat (Spectrum ℝ)} {n i : Nat} (hc : c.IsRow n) (bins : List Nat) (hb : ∀ b ∈ bins, b < n) (ret : Mat (Spectrum ℝ)) (hw : ret.WF) (hi : i < ret.nrows) (hn : ret.ncols = n) :
    ∃ out, dcCopyRow c i bins ret = .ok out := by
  induction bins generalizing ret with
  | nil => exact ⟨_, rfl⟩
  | cons b bins ih =>
    have hbn := hb b List.mem_cons_self
    have hbl : b < c.data.length := by rw [hc.2.2]; exact hbn
    unfold dcCopyRow
    rw [hc.get? b, List.getElem?_eq_getElem hbl, Res.ofOption_some, Res.bind_ok]
    obtain ⟨r1, h1⟩ := (Mat.set_ok_iff ret i b c.data[b]).2 ⟨hi, by rw [hn]; exact hbn⟩
    obtain ⟨s1, s2, s3, _⟩ := Mat.set_spec hw h1
    rw [h1, Res.bind_ok]
    exact ih (fun b hb' => hb b (List.mem_cons_of_mem _ hb')) r1 s1 (by rw [s2]; exact hi) (by rw [s3]; exact hn)

theorem dcCopyRows_spec {n : Nat} (cs : List (Mat (Spectrum ℝ))) (hc : ∀ c ∈ cs, c.IsRow n) (i : Nat) (ret out : Mat (Spectrum ℝ)) (hw : ret.WF) (hn : ret.ncols = n) (h : dcCopyRows n i cs ret = .ok out) :
    out.WF ∧ out.nrows = ret.nrows ∧ out.ncols = ret.ncols ∧ (∀ k c, cs[k]? = some c → ∀ b < n, out.get? (i + k) b = c.get? 0 b) ∧ (∀ r b, r < i → out.get? r b = ret.get? r b) := by
  induction cs generalizing i ret with
  | nil => simp only [dcCopyRows, Res.ok.injEq] at h; subst h; exact ⟨hw, rfl, rfl, by simp, by simp⟩
  | cons c cs ih =>
    unfold dcCopyRows at h
    obtain ⟨r1, h1, h⟩ := Res.bind_eq_ok h
    obtain ⟨s1, s2, s3, s4, s5⟩ := dcCopyRow_spec (hc c List.mem_cons_self) _ ret r1 hw h1
    obtain ⟨t1, t2, t3, t4, t5⟩ := ih (fun c hc' => hc c (List.mem_cons_of_mem _ hc')) (i + 1) r1 s1 (by rw [s3]; exact hn) h
    refine ⟨t1, t2.trans s2, t3.trans s3, ?_, ?_⟩
    · intro k c' hk b hb
      cases k with
      | zero =>
        simp only [List.getElem?_cons_zero, Option.some.injEq] at hk
        subst hk
        rw [Nat.add_zero, t5 i b (by omega), s4 b (List.mem_range.2 hb)]
      | succ k =>
        rw [show i + (k + 1) = i + 1 + k by omega]
        exact t4 k c' (by simpa using hk) b hb
    · intro r b hr
      rw [t5 r b (by omega), s5 r b (by omega)]

theorem dcCopyRows_ok {n : Nat} (cs : List (Mat (Spectrum ℝ))) (hc : ∀ c ∈ cs, c.IsRow n) (i : Nat) (ret : Mat (Spectrum ℝ)) (hw : ret.WF) (hn : ret.ncols = n) (hi : i + cs.length ≤ ret.nrows) :
    ∃ out, dcCopyRows n i cs ret = .ok out := by
  induction cs generalizing i ret with
  | nil => exact ⟨_, rfl⟩
  | cons c cs ih =>
    simp only [List.length_cons] at hi
    obtain ⟨r1, h1⟩ := dcCopyRow_ok (i := i) (hc c List.mem_cons_self) (List.range n) (fun b hb => List.mem_range.1 hb) ret hw (by omega) hn
    obtain ⟨s1, s2, s3, _⟩ := dcCopyRow_spec (hc c List.mem_cons_self) _ ret r1 hw h1
    unfold dcCopyRows
    rw [h1, Res.bind_ok]
    exact ih (fun c hc' => hc c (List.mem_cons_of_mem _ hc')) (i + 1) r1 s1 (by rw [s3]; exact hn) (by rw [s2]; omega)

end Rendering
