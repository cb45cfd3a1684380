import Verif.Model.F64
import Verif.Model.Colour
import Verif.Model.Camera
import Mathlib.Logic.Function.Basic

/-!
# /repo/src/ray_tracer.rs:355-409 `render` — and the same loop in /repo/src/daylight_coefficients.rs:64-173 — as interleaved workers

Every chunk of pixels (every sample of every sensor, for `calc_dc`) is a worker; workers run in any interleaving of the elementary steps below: computing and
storing one value, taking a mutex, loading and storing the shared counter, loading and storing the last progress, releasing the mutexes.  A thread pool
with fewer threads than chunks, and the sequential build (without the `parallel` feature), only produce some of these interleavings.

Not modelled: panics inside the tracing of a ray (they end the whole `render`), memory ordering weaker than what the mutexes give, standard output other than the sequence
of reported percentages.
-/

namespace Rendering

/-- `floor(index as Float / width as Float) as usize` with a `p`-bit floating point format (53 for f64, 24 for f32),
/repo/src/ray_tracer.rs:382. -/
def rowOf (p : Nat) (index width : Nat) : Nat :=
  ⌊roundBits p (roundBits p (index : ℚ) / roundBits p (width : ℚ))⌋₊

/-- /repo/src/ray_tracer.rs:382-383: pixel coordinates from the pixel index. (The subtraction panics on underflow in debug builds; C40 shows it cannot.) -/
def coordsOf (p : Nat) (index width : Nat) : Nat × Nat :=
  let y := rowOf p index width
  (index - y * width, y)

/-- `slice.chunks_mut(n)`: consecutive pieces of length `n`, the last one possibly shorter. -/
def chunksMut {α : Type} (n : Nat) (l : List α) : List (List α) :=
  if _h : n = 0 ∨ l = [] then [] else l.take n :: chunksMut n (l.drop n)
termination_by l.length
decreasing_by
  rw [not_or] at _h
  have := List.length_pos_iff.2 _h.2
  simp only [List.length_drop]
  omega

/-- `*c += 1` on an `i32` (the type inferred for the counter), wrapping as in release builds. -/
def incI32 (c : Int) : Int := Int.bmod (c + 1) (2 ^ 32)

/-- Where a worker is within one iteration of its loop (/repo/src/ray_tracer.rs:381-402). -/
inductive Phase where
  /-- lines 382-388: about to compute the pixel and store it -/
  | compute
  /-- line 391: about to lock the counter -/
  | lockCounter
  /-- line 392, first half: about to load the counter -/
  | loadCounter
  /-- line 392, second half: about to store the counter, having loaded `c` -/
  | storeCounter (c : Int)
  /-- line 394: about to lock the last progress -/
  | lockProgress
  /-- lines 395-396: about to load the counter and the last progress and decide whether to report -/
  | loadProgress
  /-- lines 397-398: about to report `progress` or not -/
  | report (progress : ℚ) (yes : Bool)
  /-- end of the iteration: about to release the last progress -/
  | unlockProgress
  /-- end of the iteration: about to release the counter -/
  | unlockCounter
deriving DecidableEq

/-- A worker: the index of its next pixel (`pindex`), the slots of its chunk not yet finished, its phase and its private state (random
numbers and scratch memory). -/
structure Worker (σ : Type) where
  pindex : Nat
  slots : List Nat
  phase : Phase
  loc : σ

/-- Shared state of the loop. `writes` and `log` record what has been stored and reported so far. -/
structure RState (σ R : Type) where
  workers : Nat → Worker σ
  mem : Nat → R
  counter : Int
  counterLock : Option Nat
  lastProgress : ℚ
  progressLock : Option Nat
  log : List ℚ
  writes : List Nat

/-- The fixed data of the loop. -/
structure Loop (σ R : Type) where
  /-- number of workers -/
  n : Nat
  /-- `total_pixels` / `nrays`: the denominator of the percentage -/
  total : Nat
  /-- what a worker computes for a pixel index from its private state -/
  compute : Nat → σ → R × σ

variable {σ R : Type}

/-- `(100. * *c as Float / total as Float).round()` (exact arithmetic). -/
def progressOf (total : Nat) (c : Int) : ℚ := (round (100 * (c : ℚ) / (total : ℚ)) : ℤ)

/-- `(*lp - progress.floor()) < 0.1 && (progress - *lp).abs() > 1.` -/
def shouldReport (lp progress : ℚ) : Bool := decide (lp - (⌊progress⌋ : ℤ) < 1 / 10 ∧ 1 < |progress - lp|)

namespace Loop

/-- One step of worker `w`, if it can take one: a finished worker or one waiting for a taken lock cannot. -/
def step (L : Loop σ R) (s : RState σ R) (w : Nat) : Option (RState σ R) :=
  if w < L.n then
    let k := s.workers w
    match k.slots with
    | [] => none
    | slot :: rest =>
      match k.phase with
      | .compute =>
        let vs := L.compute k.pindex k.loc
        some { s with mem := Function.update s.mem slot vs.1, writes := s.writes ++ [slot]
                      workers := Function.update s.workers w { k with loc := vs.2, phase := .lockCounter } }
      | .lockCounter =>
        if s.counterLock = none then
          some { s with counterLock := some w, workers := Function.update s.workers w { k with phase := .loadCounter } }
        else none
      | .loadCounter => some { s with workers := Function.update s.workers w { k with phase := .storeCounter s.counter } }
      | .storeCounter c => some { s with counter := incI32 c, workers := Function.update s.workers w { k with phase := .lockProgress } }
      | .lockProgress =>
        if s.progressLock = none then
          some { s with progressLock := some w, workers := Function.update s.workers w { k with phase := .loadProgress } }
        else none
      | .loadProgress =>
        let progress := progressOf L.total s.counter
        some { s with workers := Function.update s.workers w { k with phase := .report progress (shouldReport s.lastProgress progress) } }
      | .report progress yes =>
        some { s with lastProgress := if yes then progress else s.lastProgress
                      log := if yes then s.log ++ [progress] else s.log
                      workers := Function.update s.workers w { k with phase := .unlockProgress } }
      | .unlockProgress => some { s with progressLock := none, workers := Function.update s.workers w { k with phase := .unlockCounter } }
      | .unlockCounter =>
        some { s with counterLock := none
                      workers := Function.update s.workers w { k with pindex := k.pindex + 1, slots := rest, phase := .compute } }
  else none

/-- States reachable from `s0` by any schedule, with the number of steps taken. -/
inductive Reach (L : Loop σ R) (s0 : RState σ R) : Nat → RState σ R → Prop
  | init : Reach L s0 0 s0
  | step {m s w s'} : Reach L s0 m s → L.step s w = some s' → Reach L s0 (m + 1) s'

/-- All workers have finished. -/
def Finished (L : Loop σ R) (s : RState σ R) : Prop := ∀ w < L.n, (s.workers w).slots = []

end Loop

/-! ### `render` -/

/-- What is needed of the rest of the code: for the pixel at `(x, y)`, `camera.gen_ray` followed by `trace_ray` with the worker's generator and scratch memory. -/
abbrev PixelTracer (σ K : Type) := Nat × Nat → σ → Spectrum K × σ

/-- The loop of /repo/src/ray_tracer.rs:358-403. -/
def renderLoop {K : Type} (tracer : PixelTracer σ K) (width height : Nat) : Loop σ (Spectrum K) where
  n := (chunksMut 128 (List.range (width * height))).length
  total := width * height
  compute := fun pindex loc => tracer (coordsOf 53 pindex width) loc

/-- The state in which the workers start: all pixels black, chunk `k` starting at index `128 k` with its own generator `seed k`. -/
def renderInit {K : Type} [Field K] (seed : Nat → σ) (width height : Nat) : RState σ (Spectrum K) where
  workers := fun k => ⟨k * 128, ((chunksMut 128 (List.range (width * height)))[k]?).getD [], .compute, seed k⟩
  mem := fun _ => Spectrum.black
  counter := 0
  counterLock := none
  lastProgress := 0
  progressLock := none
  log := []
  writes := []

/-- The pixels handed to `ImageBuffer::from_pixels` (/repo/src/ray_tracer.rs:408). -/
def renderPixels {K : Type} (width height : Nat) (s : RState σ (Spectrum K)) : List (Spectrum K) := (List.range (width * height)).map s.mem

end Rendering
