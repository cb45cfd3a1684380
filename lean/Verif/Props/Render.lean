import Verif.Lemmas.RenderRun
import Verif.Props.Rounding

/-!
# C39, C41, C42 for `render`

`L.Reach s0 m s` says that `s` is a state some schedule reaches after `m` elementary steps.
-/

set_option linter.unusedSectionVars false
namespace Rendering
variable {σ K : Type} [Field K]

/-! ### Specification -/

/-- The generator and scratch memory with which pixel number `i` is traced: the ones its chunk of 128 pixels started with, after
tracing the pixels of the chunk before it. -/
def pixelState (tracer : PixelTracer σ K) (seed : Nat → σ) (width : Nat) : Nat → σ
  | 0 => seed 0
  | i + 1 => if (i + 1) % 128 = 0 then seed ((i + 1) / 128) else (tracer (i % width, i / width) (pixelState tracer seed width i)).2

/-! ### `render` starts as it should -/

section
variable (tracer : PixelTracer σ K) (seed : Nat → σ) (width height : Nat)

theorem render_slots (k : Nat) : ((renderInit (K := K) seed width height).workers k).slots = List.range' (k * 128) (min 128 (width * height - k * 128)) := by
  change ((chunksMut 128 (List.range (width * height)))[k]?).getD [] = _
  rw [getElem?_chunksMut (by norm_num)]
  split
  · rw [Option.getD_some, take_drop_range]
  · rename_i h
    rw [List.length_range] at h
    rw [show width * height - k * 128 = 0 by omega]
    simp

theorem render_n (k : Nat) : k < (renderLoop tracer width height).n ↔ k * 128 < width * height := by
  change k < (chunksMut 128 (List.range (width * height))).length ↔ _
  rw [chunksMut_length (by norm_num), List.length_range]

theorem render_ready (h : width * height < 2 ^ 31) : Ready (renderLoop tracer width height) (renderInit seed width height) where
  start := fun _ _ => rfl
  counter := rfl
  lockC := rfl
  lockP := rfl
  progress := rfl
  log := rfl
  writes := rfl
  nodup := fun w _ => by rw [render_slots]; exact List.nodup_range'
  disjoint := fun w _ w' _ hne x hx => by
    rw [render_slots] at hx ⊢
    simp only [List.mem_range'_1] at hx ⊢
    omega
  total := by
    simp only [render_slots, List.length_range']
    exact sum_chunks (by norm_num) _ _ (render_n tracer width height)
  small := h

theorem seqValue_range' {R : Type} (compute : Nat → σ → R × σ) (state : Nat → σ) (p n : Nat)
    (hst : ∀ i, p ≤ i → i + 1 < p + n → state (i + 1) = (compute i (state i)).2) (x : Nat) (hx : p ≤ x) (hx' : x < p + n) :
    seqValue compute p (List.range' p n) (state p) x = some (compute x (state x)).1 := by
  induction n generalizing p with
  | zero => omega
  | succ n ih =>
    rw [List.range'_succ, seqValue]
    split
    · rename_i he; rw [he]
    · rename_i he
      have hn : p + 1 < p + (n + 1) := by omega
      rw [← hst p le_rfl hn]
      exact ih (p + 1) (fun i h1 h2 => hst i (by omega) (by omega)) (by omega) (by omega)

theorem pixelState_seed (k : Nat) : pixelState tracer seed width (k * 128) = seed k := by
  cases hk : k * 128 with
  | zero => rw [pixelState]; congr 1; omega
  | succ i =>
    rw [pixelState, if_pos (by omega)]
    congr 1; omega

theorem mem_value (h : width * height < 2 ^ 31) {m : Nat} {s : RState σ (Spectrum K)} (hr : (renderLoop tracer width height).Reach (renderInit seed width height) m s)
    (hf : (renderLoop tracer width height).Finished s) (i : Nat) (hi : i < width * height) :
    s.mem i = (tracer (i % width, i / width) (pixelState tracer seed width i)).1 := by
  have hready := render_ready tracer seed width height h
  have hwidth : 0 < width := Nat.pos_of_ne_zero (by rintro rfl; simp at hi)
  have hcoords : ∀ j < width * height, coordsOf 53 j width = (j % width, j / width) := by
    intro j hj
    have h53 : (2 : ℕ) ^ 31 < 2 ^ 53 := by norm_num
    have h1 : 1 ≤ height := Nat.pos_of_ne_zero (by rintro rfl; simp at hi)
    have h2 : width * 1 ≤ width * height := Nat.mul_le_mul_left _ h1
    exact (C40_coords_exact 53 j width height hj (by omega) (by omega)).1
  have hk : i / 128 < (renderLoop tracer width height).n := (render_n tracer width height _).2 (by omega)
  refine (Inv.reach hready hr).mem_finished hready hf hk ?_
  rw [render_slots]
  have hseq := seqValue_range' (renderLoop tracer width height).compute (pixelState tracer seed width) (i / 128 * 128) (min 128 (width * height - i / 128 * 128))
    (by
      intro j h1 h2
      rw [pixelState, if_neg (by omega)]
      change _ = (tracer (coordsOf 53 j width) _).2
      rw [hcoords j (by omega)])
    i (by omega) (by omega)
  have hval : ((renderLoop tracer width height).compute i (pixelState tracer seed width i)).1 = (tracer (i % width, i / width) (pixelState tracer seed width i)).1 := by
    change (tracer (coordsOf 53 i width) _).1 = _
    rw [hcoords i hi]
  rw [hval, pixelState_seed] at hseq
  exact hseq

/-- **C39.** For every schedule of the workers: when all have finished, the pixel of column `x` and row `y` holds the radiance traced for the camera ray of `(x, y)`, with
the generator its chunk had reached.  In particular the image does not depend on the schedule, but only on the generators the chunks were given. -/
theorem C39_pixel_value (h : width * height < 2 ^ 31) {m : Nat} {s : RState σ (Spectrum K)}
    (hr : (renderLoop tracer width height).Reach (renderInit seed width height) m s) (hf : (renderLoop tracer width height).Finished s)
    (x y : Nat) (hx : x < width) (hy : y < height) :
    (renderPixels width height s)[y * width + x]? = some (tracer (x, y) (pixelState tracer seed width (y * width + x))).1 := by
  have hi : y * width + x < width * height := by nlinarith
  rw [renderPixels, List.getElem?_map, List.getElem?_range hi, Option.map_some, mem_value tracer seed width height h hr hf _ hi]
  rw [Nat.mul_comm y width, Nat.mul_add_mod, Nat.mod_eq_of_lt hx, Nat.mul_add_div (by omega), Nat.div_eq_of_lt hx, Nat.add_zero]

/-- **C39, every pixel once and nothing else.** The stores of a complete run are the pixels `0 … width·height − 1`, each exactly once, and no other location
changes. -/
theorem C39_written_once (h : width * height < 2 ^ 31) {m : Nat} {s : RState σ (Spectrum K)}
    (hr : (renderLoop tracer width height).Reach (renderInit seed width height) m s) (hf : (renderLoop tracer width height).Finished s) :
    s.writes.Perm (List.range (width * height)) ∧ (renderPixels width height s).length = width * height ∧
    ∀ j, width * height ≤ j → s.mem j = Spectrum.black := by
  have hready := render_ready tracer seed width height h
  have hperm : s.writes.Perm (List.range (width * height)) := by
    rw [List.perm_iff_count]
    intro x
    rw [(Inv.reach hready hr).writes_finished hf]
    by_cases hx : x < width * height
    · rw [List.count_eq_one_of_mem List.nodup_range (List.mem_range.2 hx)]
      have hk : x / 128 ∈ Finset.range (renderLoop tracer width height).n := Finset.mem_range.2 ((render_n tracer width height _).2 (by omega))
      rw [Finset.sum_eq_single_of_mem _ hk]
      · rw [render_slots]
        apply List.count_eq_one_of_mem List.nodup_range'
        rw [List.mem_range'_1]; omega
      · intro k _ hne
        rw [List.count_eq_zero, render_slots, List.mem_range'_1]
        omega
    · rw [List.count_eq_zero_of_not_mem (by simpa using hx), Finset.sum_eq_zero]
      intro k _
      rw [List.count_eq_zero, render_slots, List.mem_range'_1]
      omega
  refine ⟨hperm, by simp [renderPixels], ?_⟩
  intro j hj
  rw [Reach.untouched hr j (by rw [hperm.mem_iff, List.mem_range]; omega)]
  rfl

/-- **C39, every image is reached**: the workers can finish (so the statements above are about something). -/
theorem C39_some_schedule_finishes (h : width * height < 2 ^ 31) :
    ∃ m s, (renderLoop tracer width height).Reach (renderInit seed width height) m s ∧ (renderLoop tracer width height).Finished s :=
  Reach.completes (render_ready tracer seed width height h) .init

/-- **C39, schedule independence.** Any two complete runs with the same generators give the same image. -/
theorem C39_schedule_independent (h : width * height < 2 ^ 31) {m m' : Nat} {s s' : RState σ (Spectrum K)}
    (hr : (renderLoop tracer width height).Reach (renderInit seed width height) m s) (hf : (renderLoop tracer width height).Finished s)
    (hr' : (renderLoop tracer width height).Reach (renderInit seed width height) m' s') (hf' : (renderLoop tracer width height).Finished s') :
    renderPixels width height s = renderPixels width height s' := by
  unfold renderPixels
  apply List.map_congr_left
  intro i hi
  have hi := List.mem_range.1 hi
  rw [mem_value tracer seed width height h hr hf i hi, mem_value tracer seed width height h hr' hf' i hi]

/-- **C41 for `render`.** In every schedule: the counter ends at the number of pixels, is never above it, and the reported percentages are strictly increasing, above 0 and at most 100. -/
theorem C41_render_progress (h : width * height < 2 ^ 31) {m : Nat} {s : RState σ (Spectrum K)}
    (hr : (renderLoop tracer width height).Reach (renderInit seed width height) m s) :
    (0 ≤ s.counter ∧ s.counter ≤ (width * height : ℕ)) ∧
    ((renderLoop tracer width height).Finished s → s.counter = (width * height : ℕ)) ∧
    s.log.Pairwise (· < ·) ∧ ∀ x ∈ s.log, 0 < x ∧ x ≤ 100 := by
  have hready := render_ready tracer seed width height h
  have hinv := Inv.reach hready hr
  exact ⟨hinv.counter_le hready, fun hf => hinv.counter_finished hready hf, hinv.log_sorted, fun x hx => ⟨(hinv.log_bound x hx).1, (hinv.log_bound x hx).2.2⟩⟩

/-- The percentage last shown, and 0 before the first. -/
def lastShown (log : List ℚ) : ℚ := log.getLast?.getD 0

/-- **C41 for `render`, the display.** In every schedule, what is shown is never ahead of the pixels counted (rounded to whole per cents); it is at most one per cent behind whenever no worker is busy counting, and in the end it shows 99 or 100. -/
theorem C41_render_display (h : width * height < 2 ^ 31) {m : Nat} {s : RState σ (Spectrum K)}
    (hr : (renderLoop tracer width height).Reach (renderInit seed width height) m s) :
    lastShown s.log ≤ round (100 * (s.counter : ℚ) / (width * height : ℕ)) ∧
    (s.counterLock = none → (round (100 * (s.counter : ℚ) / (width * height : ℕ)) : ℚ) ≤ lastShown s.log + 1) ∧
    ((renderLoop tracer width height).Finished s → 0 < width * height → 99 ≤ lastShown s.log) := by
  have hready := render_ready tracer seed width height h
  obtain ⟨-, h2, h3, h4⟩ := hr.display hready
  refine ⟨h2, h3, fun hf hpos => ?_⟩
  have := h4 hf
  rw [(Inv.reach hready hr).counter_finished hready hf] at this
  have e : progressOf (renderLoop tracer width height).total ((renderLoop tracer width height).total : ℤ) = 100 := progressOf_total hpos
  rw [e] at this
  change 99 ≤ s.shown
  linarith

/-- The bound on the number of pixels in `C41_render_progress` is needed: the counter is an `i32`. (Debug builds panic instead of wrapping.) -/
theorem C41_bound_needed : incI32 (2 ^ 31 - 1) < 0 := by decide

/-- **C42 for `render`: no deadlock.** In every reachable state in which some worker has not finished, some worker can step. -/
theorem C42_render_no_deadlock (h : width * height < 2 ^ 31) {m : Nat} {s : RState σ (Spectrum K)}
    (hr : (renderLoop tracer width height).Reach (renderInit seed width height) m s) (hnf : ¬ (renderLoop tracer width height).Finished s) :
    ∃ w s', (renderLoop tracer width height).step s w = some s' :=
  (Inv.reach (render_ready tracer seed width height h) hr).progress hnf

/-- **C42 for `render`: termination.** No schedule makes more than nine steps per pixel, and a complete one makes exactly that many. -/
theorem C42_render_terminates (h : width * height < 2 ^ 31) {m : Nat} {s : RState σ (Spectrum K)}
    (hr : (renderLoop tracer width height).Reach (renderInit seed width height) m s) :
    m ≤ 9 * (width * height) ∧ ((renderLoop tracer width height).Finished s ↔ m = 9 * (width * height)) := by
  have hready := render_ready tracer seed width height h
  refine ⟨Reach.steps_le hready hr, fun hf => Reach.steps_finished hready hr hf, ?_⟩
  intro hm
  by_contra hnf
  obtain ⟨w, s', hs⟩ := (Inv.reach hready hr).progress hnf
  have := Reach.steps_le hready (hr.step hs)
  change m + 1 ≤ 9 * (width * height) at this
  omega

end

/-! ### The hypotheses are met

A 3 × 70 film has two chunks, the second one shorter; the generators are counters, so the colour shows which chunk, which pixel and which draw it is. -/

/-- A tracer that writes down what it is called with. -/
def tagTracer : PixelTracer ℚ ℚ := fun xy st => (⟨xy.1, xy.2, st⟩, st + 1)

example : ∃ m s, (renderLoop tagTracer 3 70).Reach (renderInit (fun k => 1000 * k) 3 70) m s ∧ (renderLoop tagTracer 3 70).Finished s ∧
    (renderPixels 3 70 s)[200]? = some ⟨2, 66, 1072⟩ := by
  obtain ⟨m, s, hr, hf⟩ := C39_some_schedule_finishes (K := ℚ) tagTracer (fun k => 1000 * k) 3 70 (by norm_num)
  refine ⟨m, s, hr, hf, ?_⟩
  have := C39_pixel_value (K := ℚ) tagTracer (fun k => 1000 * k) 3 70 (by norm_num) hr hf 2 66 (by norm_num) (by norm_num)
  rw [show 66 * 3 + 2 = 200 from rfl] at this
  rw [this]
  decide +kernel

/-- C39, C41, C42: every run of it. -/
example (m : Nat) (s : RState ℚ (Spectrum ℚ)) (hr : (renderLoop tagTracer 3 70).Reach (renderInit (fun k => 1000 * k) 3 70) m s) : m ≤ 9 * (3 * 70) ∧ s.log.Pairwise (· < ·) ∧
    ((renderLoop tagTracer 3 70).Finished s → s.writes.Perm (List.range (3 * 70))) :=
  ⟨(C42_render_terminates tagTracer _ 3 70 (by norm_num) hr).1, (C41_render_progress tagTracer _ 3 70 (by norm_num) hr).2.2.1, fun hf => (C39_written_once tagTracer _ 3 70 (by norm_num) hr hf).1⟩

end Rendering
