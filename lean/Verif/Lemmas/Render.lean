import Verif.Model.Render
import Mathlib.Algebra.BigOperators.Group.Finset.Basic
import Mathlib.Algebra.Order.BigOperators.Group.Finset
import Mathlib.Data.List.Count
import Mathlib.Tactic.Linarith
import Mathlib.Tactic.Ring

/-!
# Invariants of the interleaved progress loop
-/

set_option linter.unusedSectionVars false
namespace Rendering
variable {σ R : Type}

/-- The value a slot gets when a worker processes its slots one after another. -/
def seqValue (compute : Nat → σ → R × σ) : Nat → List Nat → σ → Nat → Option R
  | _, [], _, _ => none
  | pindex, slot :: rest, loc, s =>
    if s = slot then some (compute pindex loc).1 else seqValue compute (pindex + 1) rest (compute pindex loc).2 s

namespace Phase

/-- Phases in which the worker holds the counter's mutex. -/
def holdsC : Phase → Bool
  | compute | lockCounter => false
  | _ => true

/-- Phases in which the worker holds the progress mutex. -/
def holdsP : Phase → Bool
  | loadProgress | report _ _ | unlockProgress => true
  | _ => false

/-- Phases in which the current pixel has been counted. -/
def counted : Phase → Nat
  | compute | lockCounter | loadCounter | storeCounter _ => 0
  | _ => 1

/-- How many steps of the iteration are done. -/
def rank : Phase → Nat
  | compute => 0
  | lockCounter => 1
  | loadCounter => 2
  | storeCounter _ => 3
  | lockProgress => 4
  | loadProgress => 5
  | report _ _ => 6
  | unlockProgress => 7
  | unlockCounter => 8

end Phase

/-- Slots still to be written by a worker. -/
def Worker.pending (k : Worker σ) : List Nat := if k.phase = .compute then k.slots else k.slots.tail

/-- What the worker will write, given where it is. -/
def Worker.future (compute : Nat → σ → R × σ) (k : Worker σ) : Nat → Option R :=
  if k.phase = .compute then seqValue compute k.pindex k.slots k.loc else seqValue compute (k.pindex + 1) k.slots.tail k.loc

/-- Everything about the workers but the values. -/
structure Ready (L : Loop σ R) (s0 : RState σ R) : Prop where
  start : ∀ w < L.n, (s0.workers w).phase = .compute
  counter : s0.counter = 0
  lockC : s0.counterLock = none
  lockP : s0.progressLock = none
  progress : s0.lastProgress = 0
  log : s0.log = []
  writes : s0.writes = []
  nodup : ∀ w < L.n, (s0.workers w).slots.Nodup
  disjoint : ∀ w < L.n, ∀ w' < L.n, w ≠ w' → ∀ x ∈ (s0.workers w).slots, x ∉ (s0.workers w').slots
  total : ∑ w ∈ Finset.range L.n, (s0.workers w).slots.length = L.total
  small : L.total < 2 ^ 31

/-- The invariant. -/
structure Inv (L : Loop σ R) (s0 s : RState σ R) : Prop where
  phase_ok : ∀ w < L.n, (s.workers w).slots = [] → (s.workers w).phase = .compute
  suffix : ∀ w < L.n, ∃ d, (s0.workers w).slots = d ++ (s.workers w).slots
  lockC : ∀ w < L.n, (s.counterLock = some w ↔ (s.workers w).phase.holdsC = true)
  lockC_lt : ∀ w, s.counterLock = some w → w < L.n
  lockP : ∀ w < L.n, (s.progressLock = some w ↔ (s.workers w).phase.holdsP = true)
  lockP_lt : ∀ w, s.progressLock = some w → w < L.n
  loaded : ∀ w < L.n, ∀ c, (s.workers w).phase = .storeCounter c → c = s.counter
  report : ∀ w < L.n, ∀ pr b, (s.workers w).phase = .report pr b → pr = progressOf L.total s.counter ∧ b = shouldReport s.lastProgress pr
  count : s.counter = ((∑ w ∈ Finset.range L.n, ((s0.workers w).slots.length - (s.workers w).slots.length + (s.workers w).phase.counted) : ℕ) : ℤ)
  lp_nonneg : 0 ≤ s.lastProgress
  lp_le : s.lastProgress ≤ progressOf L.total s.counter
  log_sorted : s.log.Pairwise (· < ·)
  log_bound : ∀ x ∈ s.log, 0 < x ∧ x ≤ s.lastProgress ∧ x ≤ 100
  mem : ∀ w < L.n, ∀ x v, (s0.workers w).future L.compute x = some v →
    match (s.workers w).future L.compute x with
    | some v' => v' = v
    | none => s.mem x = v
  writes : ∀ x, s.writes.count x + ∑ w ∈ Finset.range L.n, (s.workers w).pending.count x = ∑ w ∈ Finset.range L.n, (s0.workers w).slots.count x

theorem seqValue_none {compute : Nat → σ → R × σ} {p : Nat} {l : List Nat} {loc : σ} {x : Nat} (h : x ∉ l) : seqValue compute p l loc x = none := by
  induction l generalizing p loc with
  | nil => rfl
  | cons y l ih =>
    rw [List.mem_cons, not_or] at h
    simp only [seqValue, if_neg h.1]
    exact ih h.2

theorem seqValue_some {compute : Nat → σ → R × σ} {p : Nat} {l : List Nat} {loc : σ} {x : Nat} {v : R} (h : seqValue compute p l loc x = some v) : x ∈ l := by
  by_contra hx
  rw [seqValue_none hx] at h
  simp at h

theorem seqValue_isSome {compute : Nat → σ → R × σ} {p : Nat} {l : List Nat} {loc : σ} {x : Nat} (h : x ∈ l) : ∃ v, seqValue compute p l loc x = some v := by
  induction l generalizing p loc with
  | nil => simp at h
  | cons y l ih =>
    simp only [seqValue]
    split
    · exact ⟨_, rfl⟩
    · rename_i hne
      exact ih ((List.mem_cons.1 h).resolve_left hne)

theorem progressOf_mono {total : Nat} {c c' : Int} (h : c ≤ c') : progressOf total c ≤ progressOf total c' := by
  unfold progressOf
  have : 100 * (c : ℚ) / total ≤ 100 * (c' : ℚ) / total := by
    have : (c : ℚ) ≤ c' := by exact_mod_cast h
    gcongr
  have h2 : round (100 * (c : ℚ) / total) ≤ round (100 * (c' : ℚ) / total) := by
    rw [round_eq, round_eq]
    exact Int.floor_le_floor (by linarith)
  exact_mod_cast h2

theorem progressOf_zero {total : Nat} : progressOf total 0 = 0 := by simp [progressOf]

theorem progressOf_le {total : Nat} {c : Int} (h : c ≤ total) : progressOf total c ≤ 100 := by
  rcases Nat.eq_zero_or_pos total with rfl | hpos
  · simp [progressOf]
  · refine (progressOf_mono h).trans ?_
    unfold progressOf
    have : (100 * ((total : ℤ) : ℚ) / total) = ((100 : ℤ) : ℚ) := by
      have : (total : ℚ) ≠ 0 := by positivity
      push_cast; field_simp
    rw [this, round_intCast]
    norm_num

theorem incI32_small {c : Int} (h0 : 0 ≤ c) (h : c + 1 < 2 ^ 31) : incI32 c = c + 1 := by
  unfold incI32
  rw [Int.bmod_def]
  have : (c + 1) % ((2 ^ 32 : ℕ) : ℤ) = c + 1 := Int.emod_eq_of_lt (by omega) (by norm_num; omega)
  rw [this, if_pos (by norm_num; omega)]

theorem Inv.counter_le {L : Loop σ R} {s0 s : RState σ R} (hr : Ready L s0) (h : Inv L s0 s) : 0 ≤ s.counter ∧ s.counter ≤ L.total := by
  rw [h.count]
  refine ⟨by positivity, ?_⟩
  rw [← hr.total]
  norm_cast
  apply Finset.sum_le_sum
  intro w hw
  have hw := Finset.mem_range.1 hw
  obtain ⟨d, hd⟩ := h.suffix w hw
  have hl := congrArg List.length hd
  rw [List.length_append] at hl
  cases hs : (s.workers w).slots with
  | nil =>
    rw [h.phase_ok w hw hs]
    simp [Phase.counted]
  | cons a l =>
    rw [hs] at hl
    simp only [List.length_cons] at hl ⊢
    have : (s.workers w).phase.counted ≤ 1 := by unfold Phase.counted; split <;> omega
    omega

/-- A worker about to store the counter has not been counted yet, so the counter is below the total. -/
theorem Inv.counter_lt {L : Loop σ R} {s0 s : RState σ R} (hr : Ready L s0) (h : Inv L s0 s) {w : Nat} (hw : w < L.n)
    (hs : (s.workers w).slots ≠ []) (hc : (s.workers w).phase.counted = 0) : s.counter < L.total := by
  rw [h.count, ← hr.total]
  norm_cast
  apply Finset.sum_lt_sum
  · intro w hw
    have hw := Finset.mem_range.1 hw
    obtain ⟨d, hd⟩ := h.suffix w hw
    have hl := congrArg List.length hd
    rw [List.length_append] at hl
    cases hs : (s.workers w).slots with
    | nil =>
      rw [h.phase_ok w hw hs]
      simp [Phase.counted]
    | cons a l =>
      rw [hs] at hl
      simp only [List.length_cons] at hl ⊢
      have : (s.workers w).phase.counted ≤ 1 := by unfold Phase.counted; split <;> omega
      omega
  · refine ⟨w, Finset.mem_range.2 hw, ?_⟩
    obtain ⟨d, hd⟩ := h.suffix w hw
    have hl := congrArg List.length hd
    rw [List.length_append] at hl
    have := List.length_pos_iff.2 hs
    omega

theorem Inv.init {L : Loop σ R} {s0 : RState σ R} (hr : Ready L s0) : Inv L s0 s0 where
  phase_ok := fun w hw _ => hr.start w hw
  suffix := fun w _ => ⟨[], rfl⟩
  lockC := fun w hw => by rw [hr.lockC, hr.start w hw]; simp [Phase.holdsC]
  lockC_lt := fun w h => by rw [hr.lockC] at h; simp at h
  lockP := fun w hw => by rw [hr.lockP, hr.start w hw]; simp [Phase.holdsP]
  lockP_lt := fun w h => by rw [hr.lockP] at h; simp at h
  loaded := fun w hw c h => by rw [hr.start w hw] at h; simp at h
  report := fun w hw pr b h => by rw [hr.start w hw] at h; simp at h
  count := by
    rw [hr.counter, eq_comm]
    norm_cast
    rw [Finset.sum_eq_zero]
    intro w hw
    rw [hr.start w (Finset.mem_range.1 hw)]
    simp [Phase.counted]
  lp_nonneg := by rw [hr.progress]
  lp_le := by rw [hr.progress, hr.counter, progressOf_zero]
  log_sorted := by rw [hr.log]; exact List.Pairwise.nil
  log_bound := by rw [hr.log]; simp
  mem := fun w hw x v h => by rw [h]
  writes := fun x => by
    rw [hr.writes]
    simp only [List.count_nil, Nat.zero_add]
    apply Finset.sum_congr rfl
    intro w hw
    rw [Worker.pending, if_pos (hr.start w (Finset.mem_range.1 hw))]

/-- Sum over workers after one of them changed. -/
theorem sum_update {α : Type} {n w : Nat} (hw : w < n) (f : Nat → α) (a : α) (g : Nat → α → ℕ) :
    ∑ i ∈ Finset.range n, g i (Function.update f w a i) + g w (f w) = ∑ i ∈ Finset.range n, g i (f i) + g w a := by
  have hm : w ∈ Finset.range n := Finset.mem_range.2 hw
  rw [← Finset.add_sum_erase _ _ hm, ← Finset.add_sum_erase (Finset.range n) (fun i => g i (f i)) hm]
  have : ∑ i ∈ (Finset.range n).erase w, g i (Function.update f w a i) = ∑ i ∈ (Finset.range n).erase w, g i (f i) := by
    apply Finset.sum_congr rfl
    intro i hi
    rw [Function.update_of_ne (Finset.ne_of_mem_erase hi)]
  rw [this, Function.update_self]
  omega

/-- The common part of the steps that only move a worker from one phase to another one, past the computation of its pixel. -/
theorem Inv.phaseStep {L : Loop σ R} {s0 s s' : RState σ R} (h : Inv L s0 s) {w : Nat} (hw : w < L.n) (p' : Phase)
    (hp : (s.workers w).phase ≠ .compute) (hp' : p' ≠ .compute) (hslots : (s.workers w).slots ≠ [])
    (hworkers : s'.workers = Function.update s.workers w { s.workers w with phase := p' })
    (hmem : s'.mem = s.mem) (hwrites : s'.writes = s.writes)
    (hC : (p'.holdsC = true ∧ s'.counterLock = some w ∧ ((s.workers w).phase.holdsC = true ∨ s.counterLock = none)) ∨
      (p'.holdsC = false ∧ (s.workers w).phase.holdsC = true ∧ s'.counterLock = none) ∨
      (p'.holdsC = false ∧ (s.workers w).phase.holdsC = false ∧ s'.counterLock = s.counterLock))
    (hP : (p'.holdsP = true ∧ s'.progressLock = some w ∧ ((s.workers w).phase.holdsP = true ∨ s.progressLock = none)) ∨
      (p'.holdsP = false ∧ (s.workers w).phase.holdsP = true ∧ s'.progressLock = none) ∨
      (p'.holdsP = false ∧ (s.workers w).phase.holdsP = false ∧ s'.progressLock = s.progressLock))
    (hcount : s'.counter + (s.workers w).phase.counted = s.counter + p'.counted)
    (hsame : (s'.counter = s.counter ∧ s'.lastProgress = s.lastProgress) ∨ (s.workers w).phase.holdsC = true)
    (hloaded : ∀ c, p' = .storeCounter c → c = s'.counter)
    (hreport : ∀ pr b, p' = .report pr b → pr = progressOf L.total s'.counter ∧ b = shouldReport s'.lastProgress pr)
    (hlp0 : 0 ≤ s'.lastProgress) (hlp1 : s'.lastProgress ≤ progressOf L.total s'.counter)
    (hlog : s'.log.Pairwise (· < ·)) (hlogb : ∀ x ∈ s'.log, 0 < x ∧ x ≤ s'.lastProgress ∧ x ≤ 100) : Inv L s0 s' := by
  have hself : s'.workers w = { s.workers w with phase := p' } := by rw [hworkers, Function.update_self]
  have hother : ∀ w', w' ≠ w → s'.workers w' = s.workers w' := fun w' hne => by rw [hworkers, Function.update_of_ne hne]
  -- nobody else holds a lock that this worker holds
  have hexcl : (s.workers w).phase.holdsC = true → ∀ w' < L.n, w' ≠ w → (s.workers w').phase.holdsC = false := by
    intro hc w' hw' hne
    by_contra hcon
    have h1 := (h.lockC w hw).2 hc
    have h2 := (h.lockC w' hw').2 (by simpa using hcon)
    rw [h1] at h2
    exact hne (Option.some.inj h2).symm
  constructor
  · intro w' hw' hs
    by_cases hne : w' = w
    · subst hne; rw [hself] at hs; exact absurd hs hslots
    · rw [hother w' hne] at hs ⊢; exact h.phase_ok w' hw' hs
  · intro w' hw'
    by_cases hne : w' = w
    · subst hne; rw [hself]; exact h.suffix w' hw'
    · rw [hother w' hne]; exact h.suffix w' hw'
  · intro w' hw'
    by_cases hne : w' = w
    · subst hne
      rw [hself]
      rcases hC with ⟨h1, h2, -⟩ | ⟨h1, -, h2⟩ | ⟨h1, h3, h2⟩
      · simp [h1, h2]
      · simp [h1, h2]
      · rw [h2]
        have := h.lockC w' hw'
        rw [h3] at this
        simp only [h1]
        exact this
    · rw [hother w' hne, ← h.lockC w' hw']
      rcases hC with ⟨-, h2, h3⟩ | ⟨-, h3, h2⟩ | ⟨-, -, h2⟩
      · rw [h2]
        constructor
        · intro hc; exact absurd (Option.some.inj hc).symm hne
        · intro hc
          rcases h3 with h3 | h3
          · rw [(h.lockC w hw).2 h3] at hc; exact absurd (Option.some.inj hc).symm hne
          · rw [h3] at hc; simp at hc
      · rw [h2, (h.lockC w hw).2 h3]
        simp only [reduceCtorEq, Option.some.injEq, false_iff]
        exact fun hc => hne hc.symm
      · rw [h2]
  · intro w' hw'
    rcases hC with ⟨-, h2, -⟩ | ⟨-, -, h2⟩ | ⟨-, -, h2⟩
    · rw [h2] at hw'; rw [← Option.some.inj hw']; exact hw
    · rw [h2] at hw'; simp at hw'
    · rw [h2] at hw'; exact h.lockC_lt w' hw'
  · intro w' hw'
    by_cases hne : w' = w
    · subst hne
      rw [hself]
      rcases hP with ⟨h1, h2, -⟩ | ⟨h1, -, h2⟩ | ⟨h1, h3, h2⟩
      · simp [h1, h2]
      · simp [h1, h2]
      · rw [h2]
        have := h.lockP w' hw'
        rw [h3] at this
        simp only [h1]
        exact this
    · rw [hother w' hne, ← h.lockP w' hw']
      rcases hP with ⟨-, h2, h3⟩ | ⟨-, h3, h2⟩ | ⟨-, -, h2⟩
      · rw [h2]
        constructor
        · intro hc; exact absurd (Option.some.inj hc).symm hne
        · intro hc
          rcases h3 with h3 | h3
          · rw [(h.lockP w hw).2 h3] at hc; exact absurd (Option.some.inj hc).symm hne
          · rw [h3] at hc; simp at hc
      · rw [h2, (h.lockP w hw).2 h3]
        simp only [reduceCtorEq, Option.some.injEq, false_iff]
        exact fun hc => hne hc.symm
      · rw [h2]
  · intro w' hw'
    rcases hP with ⟨-, h2, -⟩ | ⟨-, -, h2⟩ | ⟨-, -, h2⟩
    · rw [h2] at hw'; rw [← Option.some.inj hw']; exact hw
    · rw [h2] at hw'; simp at hw'
    · rw [h2] at hw'; exact h.lockP_lt w' hw'
  · intro w' hw' c hc
    by_cases hne : w' = w
    · subst hne; rw [hself] at hc; exact hloaded c hc
    · rw [hother w' hne] at hc
      rcases hsame with ⟨h1, -⟩ | h1
      · rw [h1]; exact h.loaded w' hw' c hc
      · have := hexcl h1 w' hw' hne
        rw [hc] at this; simp [Phase.holdsC] at this
  · intro w' hw' pr b hc
    by_cases hne : w' = w
    · subst hne; rw [hself] at hc; exact hreport pr b hc
    · rw [hother w' hne] at hc
      rcases hsame with ⟨h1, h2⟩ | h1
      · rw [h1, h2]; exact h.report w' hw' pr b hc
      · have := hexcl h1 w' hw' hne
        rw [hc] at this; simp [Phase.holdsC] at this
  · have hsum := sum_update hw s.workers { s.workers w with phase := p' } (fun i (k : Worker σ) => (s0.workers i).slots.length - k.slots.length + k.phase.counted)
    rw [← hworkers] at hsum
    simp only at hsum
    have hc := h.count
    have : ((∑ i ∈ Finset.range L.n, ((s0.workers i).slots.length - (s'.workers i).slots.length + (s'.workers i).phase.counted) : ℕ) : ℤ) +
        (s.workers w).phase.counted = s.counter + p'.counted := by
      rw [hc]
      have := congrArg (fun n : ℕ => (n : ℤ)) hsum
      push_cast at this ⊢
      linarith
    linarith
  · exact hlp0
  · exact hlp1
  · exact hlog
  · exact hlogb
  · intro w' hw' x v hx
    have := h.mem w' hw' x v hx
    rw [hmem]
    by_cases hne : w' = w
    · subst hne
      have : (s'.workers w').future L.compute = (s.workers w').future L.compute := by
        rw [hself]; unfold Worker.future; simp only [if_neg hp, if_neg hp']
      rw [this]; assumption
    · rw [hother w' hne]; exact this
  · intro x
    rw [hwrites, ← h.writes x]
    congr 1
    apply Finset.sum_congr rfl
    intro w' _
    by_cases hne : w' = w
    · subst hne
      have : (s'.workers w').pending = (s.workers w').pending := by
        rw [hself]; unfold Worker.pending; simp only [if_neg hp, if_neg hp']
      rw [this]
    · rw [hother w' hne]

/-- Releasing the counter at the end of an iteration. -/
theorem Inv.finishStep {L : Loop σ R} {s0 s s' : RState σ R} (h : Inv L s0 s) {w : Nat} (hw : w < L.n) {slot : Nat} {rest : List Nat}
    (hslots : (s.workers w).slots = slot :: rest) (hp : (s.workers w).phase = .unlockCounter)
    (hs' : s' = { s with counterLock := none
                         workers := Function.update s.workers w { s.workers w with pindex := (s.workers w).pindex + 1, slots := rest, phase := .compute } }) :
    Inv L s0 s' := by
  have hself : s'.workers w = { s.workers w with pindex := (s.workers w).pindex + 1, slots := rest, phase := .compute } := by rw [hs']; simp
  have hother : ∀ w', w' ≠ w → s'.workers w' = s.workers w' := fun w' hne => by rw [hs']; simp [Function.update_of_ne hne]
  have hhold : (s.workers w).phase.holdsC = true := by rw [hp]; rfl
  have hlock := (h.lockC w hw).2 hhold
  have hcounter : s'.counter = s.counter := by rw [hs']
  have hlp : s'.lastProgress = s.lastProgress := by rw [hs']
  have hlog : s'.log = s.log := by rw [hs']
  have hmem : s'.mem = s.mem := by rw [hs']
  have hwr : s'.writes = s.writes := by rw [hs']
  have hcl : s'.counterLock = none := by rw [hs']
  have hpl : s'.progressLock = s.progressLock := by rw [hs']
  constructor
  · intro w' hw' hs
    by_cases hne : w' = w
    · subst hne; rw [hself]
    · rw [hother w' hne] at hs ⊢; exact h.phase_ok w' hw' hs
  · intro w' hw'
    by_cases hne : w' = w
    · subst hne
      obtain ⟨d, hd⟩ := h.suffix w' hw'
      exact ⟨d ++ [slot], by rw [hself, hd, hslots]; simp⟩
    · rw [hother w' hne]; exact h.suffix w' hw'
  · intro w' hw'
    rw [hcl]
    by_cases hne : w' = w
    · subst hne; rw [hself]; simp [Phase.holdsC]
    · rw [hother w' hne, ← h.lockC w' hw', hlock]
      simp only [reduceCtorEq, Option.some.injEq, false_iff]
      exact fun hc => hne hc.symm
  · intro w' hw'; rw [hcl] at hw'; simp at hw'
  · intro w' hw'
    rw [hpl]
    by_cases hne : w' = w
    · subst hne
      rw [hself, h.lockP w' hw', hp]
      simp [Phase.holdsP]
    · rw [hother w' hne]; exact h.lockP w' hw'
  · intro w' hw'; rw [hpl] at hw'; exact h.lockP_lt w' hw'
  · intro w' hw' c hc
    by_cases hne : w' = w
    · subst hne; rw [hself] at hc; simp at hc
    · rw [hother w' hne] at hc; rw [hcounter]; exact h.loaded w' hw' c hc
  · intro w' hw' pr b hc
    by_cases hne : w' = w
    · subst hne; rw [hself] at hc; simp at hc
    · rw [hother w' hne] at hc; rw [hcounter, hlp]; exact h.report w' hw' pr b hc
  · rw [hcounter, h.count]
    norm_cast
    apply Finset.sum_congr rfl
    intro w' hw'
    by_cases hne : w' = w
    · subst hne
      obtain ⟨d, hd⟩ := h.suffix w' hw
      have hl := congrArg List.length hd
      rw [List.length_append, hslots] at hl
      rw [hself, hslots, hp]
      simp only [List.length_cons, Phase.counted] at hl ⊢
      omega
    · rw [hother w' hne]
  · rw [hlp]; exact h.lp_nonneg
  · rw [hlp, hcounter]; exact h.lp_le
  · rw [hlog]; exact h.log_sorted
  · rw [hlog, hlp]; exact h.log_bound
  · intro w' hw' x v hx
    have := h.mem w' hw' x v hx
    rw [hmem]
    by_cases hne : w' = w
    · subst hne
      have he : (s'.workers w').future L.compute = (s.workers w').future L.compute := by
        rw [hself]; unfold Worker.future; simp [hp, hslots]
      rw [he]; assumption
    · rw [hother w' hne]; exact this
  · intro x
    rw [hwr, ← h.writes x]
    congr 1
    apply Finset.sum_congr rfl
    intro w' _
    by_cases hne : w' = w
    · subst hne
      have he : (s'.workers w').pending = (s.workers w').pending := by
        rw [hself]; unfold Worker.pending; simp [hp, hslots]
      rw [he]
    · rw [hother w' hne]

/-- Computing and storing a pixel. -/
theorem Inv.computeStep {L : Loop σ R} {s0 s s' : RState σ R} (hr : Ready L s0) (h : Inv L s0 s) {w : Nat} (hw : w < L.n) {slot : Nat} {rest : List Nat}
    (hslots : (s.workers w).slots = slot :: rest) (hp : (s.workers w).phase = .compute)
    (hs' : s' = { s with mem := Function.update s.mem slot (L.compute (s.workers w).pindex (s.workers w).loc).1, writes := s.writes ++ [slot]
                         workers := Function.update s.workers w { s.workers w with loc := (L.compute (s.workers w).pindex (s.workers w).loc).2, phase := .lockCounter } }) :
    Inv L s0 s' := by
  have hself : s'.workers w = { s.workers w with loc := (L.compute (s.workers w).pindex (s.workers w).loc).2, phase := .lockCounter } := by rw [hs']; simp
  have hother : ∀ w', w' ≠ w → s'.workers w' = s.workers w' := fun w' hne => by rw [hs']; simp [Function.update_of_ne hne]
  have hcounter : s'.counter = s.counter := by rw [hs']
  have hlp : s'.lastProgress = s.lastProgress := by rw [hs']
  have hlog : s'.log = s.log := by rw [hs']
  have hcl : s'.counterLock = s.counterLock := by rw [hs']
  have hpl : s'.progressLock = s.progressLock := by rw [hs']
  obtain ⟨d, hd⟩ := h.suffix w hw
  have hnd := hr.nodup w hw
  rw [hd, hslots] at hnd
  have hslot_rest : slot ∉ rest := (List.nodup_cons.1 (List.nodup_append.1 hnd).2.1).1
  constructor
  · intro w' hw' hs
    by_cases hne : w' = w
    · subst hne; rw [hself] at hs; rw [hslots] at hs; simp at hs
    · rw [hother w' hne] at hs ⊢; exact h.phase_ok w' hw' hs
  · intro w' hw'
    by_cases hne : w' = w
    · subst hne; rw [hself]; exact h.suffix w' hw'
    · rw [hother w' hne]; exact h.suffix w' hw'
  · intro w' hw'
    rw [hcl]
    by_cases hne : w' = w
    · subst hne; rw [hself, h.lockC w' hw', hp]; simp [Phase.holdsC]
    · rw [hother w' hne]; exact h.lockC w' hw'
  · intro w' hw'; rw [hcl] at hw'; exact h.lockC_lt w' hw'
  · intro w' hw'
    rw [hpl]
    by_cases hne : w' = w
    · subst hne; rw [hself, h.lockP w' hw', hp]; simp [Phase.holdsP]
    · rw [hother w' hne]; exact h.lockP w' hw'
  · intro w' hw'; rw [hpl] at hw'; exact h.lockP_lt w' hw'
  · intro w' hw' c hc
    by_cases hne : w' = w
    · subst hne; rw [hself] at hc; simp at hc
    · rw [hother w' hne] at hc; rw [hcounter]; exact h.loaded w' hw' c hc
  · intro w' hw' pr b hc
    by_cases hne : w' = w
    · subst hne; rw [hself] at hc; simp at hc
    · rw [hother w' hne] at hc; rw [hcounter, hlp]; exact h.report w' hw' pr b hc
  · rw [hcounter, h.count]
    norm_cast
    apply Finset.sum_congr rfl
    intro w' hw'
    by_cases hne : w' = w
    · subst hne; rw [hself, hp]; simp [Phase.counted]
    · rw [hother w' hne]
  · rw [hlp]; exact h.lp_nonneg
  · rw [hlp, hcounter]; exact h.lp_le
  · rw [hlog]; exact h.log_sorted
  · rw [hlog, hlp]; exact h.log_bound
  · intro w' hw' x v hx
    have hm := h.mem w' hw' x v hx
    by_cases hne : w' = w
    · subst hne
      have he : (s'.workers w').future L.compute x = seqValue L.compute ((s.workers w').pindex + 1) rest (L.compute (s.workers w').pindex (s.workers w').loc).2 x := by
        rw [hself]; unfold Worker.future; simp [hslots]
      have hold : (s.workers w').future L.compute x = if x = slot then some (L.compute (s.workers w').pindex (s.workers w').loc).1 else
          seqValue L.compute ((s.workers w').pindex + 1) rest (L.compute (s.workers w').pindex (s.workers w').loc).2 x := by
        unfold Worker.future; rw [if_pos hp, hslots]; rfl
      rw [hold] at hm
      rw [he]
      by_cases hxs : x = slot
      · subst hxs
        rw [if_pos rfl] at hm
        rw [seqValue_none hslot_rest]
        simp only
        rw [hs']
        simp only [Function.update_self]
        exact hm
      · rw [if_neg hxs] at hm
        rw [hs']
        simp only [Function.update_of_ne hxs]
        exact hm
    · rw [hother w' hne]
      have hxin : x ∈ (s0.workers w').slots := by
        unfold Worker.future at hx
        rw [if_pos (hr.start w' hw')] at hx
        exact seqValue_some hx
      have hslotin : slot ∈ (s0.workers w).slots := by rw [hd, hslots]; simp
      have hxs : x ≠ slot := by
        rintro rfl
        exact hr.disjoint w hw w' hw' (Ne.symm hne) x hslotin hxin
      rw [hs']
      simp only [Function.update_of_ne hxs]
      exact hm
  · intro x
    have hsum := sum_update hw s.workers (s'.workers w) (fun _ (k : Worker σ) => k.pending.count x)
    have hupd : Function.update s.workers w (s'.workers w) = s'.workers := by rw [hs']; simp
    rw [hupd] at hsum
    have e1 : (s.workers w).pending = slot :: rest := by unfold Worker.pending; rw [if_pos hp, hslots]
    have e2 : (s'.workers w).pending = rest := by rw [hself]; unfold Worker.pending; simp [hslots]
    rw [e1, e2] at hsum
    have hw0 := h.writes x
    have hwr : s'.writes = s.writes ++ [slot] := by rw [hs']
    rw [hwr, List.count_append, List.count_singleton, ← hw0]
    rw [List.count_cons] at hsum
    omega

theorem shouldReport_spec {lp pr : ℚ} (h : shouldReport lp pr = true) (hle : lp ≤ pr) : lp + 1 < pr := by
  unfold shouldReport at h
  simp only [decide_eq_true_eq] at h
  rw [abs_of_nonneg (by linarith)] at h
  linarith [h.2]

/-- The invariant is preserved by every step of every worker. -/
theorem Inv.step {L : Loop σ R} {s0 s s' : RState σ R} (hr : Ready L s0) (h : Inv L s0 s) {w : Nat} (hs : L.step s w = some s') : Inv L s0 s' := by
  unfold Loop.step at hs
  split at hs
  swap
  · simp at hs
  rename_i hw
  simp only at hs
  cases hsl : (s.workers w).slots with
  | nil => rw [hsl] at hs; simp at hs
  | cons slot rest =>
    have hne : (s.workers w).slots ≠ [] := by rw [hsl]; simp
    rw [hsl] at hs
    simp only at hs
    cases hp : (s.workers w).phase with
    | compute =>
      rw [hp] at hs
      simp only [Option.some.injEq] at hs
      exact h.computeStep hr hw hsl hp (by rw [← hs]; simp only [hsl])
    | lockCounter =>
      rw [hp] at hs
      simp only at hs
      split at hs
      swap
      · simp at hs
      rename_i hlock
      simp only [Option.some.injEq] at hs
      subst hs
      refine h.phaseStep hw .loadCounter (by rw [hp]; simp) (by simp) hne (by simp only [hsl]) rfl rfl (Or.inl ⟨rfl, rfl, Or.inr hlock⟩)
        (Or.inr (Or.inr ⟨rfl, by rw [hp]; rfl, rfl⟩)) (by rw [hp]; rfl) (Or.inl ⟨rfl, rfl⟩) (by simp) (by simp)
        h.lp_nonneg h.lp_le h.log_sorted h.log_bound
    | loadCounter =>
      rw [hp] at hs
      simp only [Option.some.injEq] at hs
      subst hs
      have hl := (h.lockC w hw).2 (by rw [hp]; rfl)
      refine h.phaseStep hw (.storeCounter s.counter) (by rw [hp]; simp) (by simp) hne (by simp only [hsl]) rfl rfl (Or.inl ⟨rfl, hl, Or.inl (by rw [hp]; rfl)⟩)
        (Or.inr (Or.inr ⟨rfl, by rw [hp]; rfl, rfl⟩)) (by rw [hp]; rfl) (Or.inl ⟨rfl, rfl⟩) ?_ (by simp)
        h.lp_nonneg h.lp_le h.log_sorted h.log_bound
      intro c hc
      simp only [Phase.storeCounter.injEq] at hc
      exact hc.symm
    | storeCounter c =>
      rw [hp] at hs
      simp only [Option.some.injEq] at hs
      subst hs
      have hl := (h.lockC w hw).2 (by rw [hp]; rfl)
      have hc := h.loaded w hw c hp
      subst hc
      have hlt := h.counter_lt hr hw hne (by rw [hp]; rfl)
      have hsm := hr.small
      have hinc : incI32 s.counter = s.counter + 1 := by
        apply incI32_small (h.counter_le hr).1
        have : (L.total : ℤ) < 2 ^ 31 := by exact_mod_cast hsm
        omega
      refine h.phaseStep hw .lockProgress (by rw [hp]; simp) (by simp) hne (by simp only [hsl]) rfl rfl (Or.inl ⟨rfl, hl, Or.inl (by rw [hp]; rfl)⟩)
        (Or.inr (Or.inr ⟨rfl, by rw [hp]; rfl, rfl⟩)) ?_ (Or.inr (by rw [hp]; rfl)) (by simp) (by simp)
        h.lp_nonneg ?_ h.log_sorted h.log_bound
      · rw [hp]; simp only [hinc, Phase.counted]; push_cast; ring
      · simp only [hinc]
        exact h.lp_le.trans (progressOf_mono (by omega))
    | lockProgress =>
      rw [hp] at hs
      simp only at hs
      split at hs
      swap
      · simp at hs
      rename_i hlock
      simp only [Option.some.injEq] at hs
      subst hs
      have hl := (h.lockC w hw).2 (by rw [hp]; rfl)
      refine h.phaseStep hw .loadProgress (by rw [hp]; simp) (by simp) hne (by simp only [hsl]) rfl rfl (Or.inl ⟨rfl, hl, Or.inl (by rw [hp]; rfl)⟩)
        (Or.inl ⟨rfl, rfl, Or.inr hlock⟩) (by rw [hp]; rfl) (Or.inl ⟨rfl, rfl⟩) (by simp) (by simp)
        h.lp_nonneg h.lp_le h.log_sorted h.log_bound
    | loadProgress =>
      rw [hp] at hs
      simp only [Option.some.injEq] at hs
      subst hs
      have hl := (h.lockC w hw).2 (by rw [hp]; rfl)
      have hlp := (h.lockP w hw).2 (by rw [hp]; rfl)
      refine h.phaseStep hw (.report (progressOf L.total s.counter) (shouldReport s.lastProgress (progressOf L.total s.counter)))
        (by rw [hp]; simp) (by simp) hne (by simp only [hsl]) rfl rfl (Or.inl ⟨rfl, hl, Or.inl (by rw [hp]; rfl)⟩)
        (Or.inl ⟨rfl, hlp, Or.inl (by rw [hp]; rfl)⟩) (by rw [hp]; rfl) (Or.inl ⟨rfl, rfl⟩) (by simp) ?_
        h.lp_nonneg h.lp_le h.log_sorted h.log_bound
      intro pr b hc
      simp only [Phase.report.injEq] at hc
      obtain ⟨rfl, rfl⟩ := hc
      exact ⟨rfl, rfl⟩
    | report pr b =>
      rw [hp] at hs
      simp only [Option.some.injEq] at hs
      subst hs
      have hl := (h.lockC w hw).2 (by rw [hp]; rfl)
      have hlp := (h.lockP w hw).2 (by rw [hp]; rfl)
      obtain ⟨hpr, hb⟩ := h.report w hw pr b hp
      have hle := h.lp_le
      rw [← hpr] at hle
      have hpr100 : pr ≤ 100 := by rw [hpr]; exact progressOf_le (h.counter_le hr).2
      have hnew : b = true → s.lastProgress + 1 < pr := by
        intro hbt
        rw [hb] at hbt
        exact shouldReport_spec hbt hle
      refine h.phaseStep hw .unlockProgress
        (by rw [hp]; simp) (by simp) hne (by simp only [hsl]) rfl rfl (Or.inl ⟨rfl, hl, Or.inl (by rw [hp]; rfl)⟩)
        (Or.inl ⟨rfl, hlp, Or.inl (by rw [hp]; rfl)⟩) (by rw [hp]; rfl) (Or.inr (by rw [hp]; rfl)) (by simp) (by simp) ?_ ?_ ?_ ?_
      · simp only
        split
        · exact h.lp_nonneg.trans hle
        · exact h.lp_nonneg
      · simp only
        split
        · rw [hpr]
        · exact h.lp_le
      · simp only
        split
        · rename_i hbt
          rw [List.pairwise_append]
          refine ⟨h.log_sorted, List.pairwise_singleton _ _, ?_⟩
          intro x hx y hy
          rw [List.mem_singleton] at hy
          subst hy
          have := (h.log_bound x hx).2.1
          have := hnew hbt
          linarith
        · exact h.log_sorted
      · simp only
        intro x hx
        by_cases hbt : b = true
        · rw [if_pos hbt] at hx ⊢
          rw [List.mem_append, List.mem_singleton] at hx
          have hn := hnew hbt
          have h0 := h.lp_nonneg
          rcases hx with hx | rfl
          · obtain ⟨h1, h2, h3⟩ := h.log_bound x hx
            exact ⟨h1, by linarith, h3⟩
          · exact ⟨by linarith, le_rfl, hpr100⟩
        · rw [if_neg hbt] at hx ⊢
          exact h.log_bound x hx
    | unlockProgress =>
      rw [hp] at hs
      simp only [Option.some.injEq] at hs
      subst hs
      have hl := (h.lockC w hw).2 (by rw [hp]; rfl)
      refine h.phaseStep hw .unlockCounter
        (by rw [hp]; simp) (by simp) hne (by simp only [hsl]) rfl rfl (Or.inl ⟨rfl, hl, Or.inl (by rw [hp]; rfl)⟩)
        (Or.inr (Or.inl ⟨rfl, by rw [hp]; rfl, rfl⟩)) (by rw [hp]; rfl) (Or.inl ⟨rfl, rfl⟩) (by simp) (by simp)
        h.lp_nonneg h.lp_le h.log_sorted h.log_bound
    | unlockCounter =>
      rw [hp] at hs
      simp only [Option.some.injEq] at hs
      exact h.finishStep hw hsl hp hs.symm

theorem Inv.reach {L : Loop σ R} {s0 s : RState σ R} (hr : Ready L s0) {m : Nat} (h : L.Reach s0 m s) : Inv L s0 s := by
  induction h with
  | init => exact Inv.init hr
  | step _ hs ih => exact ih.step hr hs

/-! ### How far the display lags behind -/

namespace Phase

/-- Phases in which the worker has counted its pixel but not yet looked at the display. -/
def owes : Phase → Bool
  | lockProgress | loadProgress | report _ _ => true
  | _ => false

end Phase

/-- The last percentage shown. -/
def RState.shown (s : RState σ R) : ℚ := s.log.getLast?.getD 0

/-- Unless a worker is about to look at the display, it is at most one per cent behind the counter. -/
structure Lag (L : Loop σ R) (s : RState σ R) : Prop where
  shown : s.shown = s.lastProgress
  lag : (∀ w < L.n, (s.workers w).phase.owes = false) → progressOf L.total s.counter - s.lastProgress ≤ 1

theorem shouldReport_of_far {lp pr : ℚ} (hi : ∃ z : ℤ, pr = z) (h : lp + 1 < pr) : shouldReport lp pr = true := by
  obtain ⟨z, rfl⟩ := hi
  unfold shouldReport
  simp only [decide_eq_true_eq, Int.floor_intCast]
  rw [abs_of_nonneg (by linarith)]
  constructor <;> linarith

theorem Lag.step {L : Loop σ R} {s0 s s' : RState σ R} (h : Inv L s0 s) (hg : Lag L s) {w : Nat} (hs : L.step s w = some s') : Lag L s' := by
  unfold Loop.step at hs
  split at hs
  swap
  · simp at hs
  rename_i hw
  simp only at hs
  -- a step of a worker that owes nothing and changes neither counter nor display
  have keep : ∀ k : Worker σ, (s.workers w).phase.owes = false ∨ k.phase.owes = true → s'.workers = Function.update s.workers w k → s'.counter = s.counter → s'.lastProgress = s.lastProgress → s'.log = s.log → Lag L s' := by
    intro k hk hwk hc hl hlog
    refine ⟨by rw [hl, ← hg.shown, RState.shown, RState.shown, hlog], fun hq => ?_⟩
    rw [hc, hl]
    refine hg.lag fun w' hw' => ?_
    by_cases hne : w' = w
    · subst hne
      have := hq w' hw'
      rw [hwk, Function.update_self] at this
      rcases hk with hk | hk
      · exact hk
      · rw [hk] at this; simp at this
    · have := hq w' hw'
      rwa [hwk, Function.update_of_ne hne] at this
  cases hsl : (s.workers w).slots with
  | nil => rw [hsl] at hs; simp at hs
  | cons slot rest =>
    rw [hsl] at hs
    simp only at hs
    cases hp : (s.workers w).phase with
    | compute =>
      rw [hp] at hs
      simp only [Option.some.injEq] at hs
      subst hs
      exact keep _ (Or.inl (by rw [hp]; rfl)) rfl rfl rfl rfl
    | lockCounter =>
      rw [hp] at hs
      simp only at hs
      split at hs
      swap
      · simp at hs
      simp only [Option.some.injEq] at hs
      subst hs
      exact keep _ (Or.inl (by rw [hp]; rfl)) rfl rfl rfl rfl
    | loadCounter =>
      rw [hp] at hs
      simp only [Option.some.injEq] at hs
      subst hs
      exact keep _ (Or.inl (by rw [hp]; rfl)) rfl rfl rfl rfl
    | storeCounter c =>
      rw [hp] at hs
      simp only [Option.some.injEq] at hs
      subst hs
      refine ⟨hg.shown, fun hq => ?_⟩
      have := hq w hw
      simp [Phase.owes] at this
    | lockProgress =>
      rw [hp] at hs
      simp only at hs
      split at hs
      swap
      · simp at hs
      simp only [Option.some.injEq] at hs
      subst hs
      exact keep _ (Or.inr rfl) rfl rfl rfl rfl
    | loadProgress =>
      rw [hp] at hs
      simp only [Option.some.injEq] at hs
      subst hs
      exact keep _ (Or.inr rfl) rfl rfl rfl rfl
    | report pr b =>
      rw [hp] at hs
      simp only [Option.some.injEq] at hs
      subst hs
      obtain ⟨hpr, hb⟩ := h.report w hw pr b hp
      cases b with
      | true => exact ⟨by simp [RState.shown], fun _ => by simp [hpr]⟩
      | false =>
        refine ⟨hg.shown, fun _ => ?_⟩
        simp only [Bool.false_eq_true, if_false]
        rw [← hpr]
        by_contra hcon
        push Not at hcon
        rw [shouldReport_of_far ⟨round (100 * (s.counter : ℚ) / L.total), hpr⟩ (by linarith)] at hb
        simp at hb
    | unlockProgress =>
      rw [hp] at hs
      simp only [Option.some.injEq] at hs
      subst hs
      exact keep _ (Or.inl (by rw [hp]; rfl)) rfl rfl rfl rfl
    | unlockCounter =>
      rw [hp] at hs
      simp only [Option.some.injEq] at hs
      subst hs
      exact keep _ (Or.inl (by rw [hp]; rfl)) rfl rfl rfl rfl

theorem Lag.reach {L : Loop σ R} {s0 s : RState σ R} (hr : Ready L s0) {m : Nat} (h : L.Reach s0 m s) : Lag L s := by
  induction h with
  | init => exact ⟨by rw [RState.shown, hr.log, hr.progress]; rfl, fun _ => by rw [hr.progress, hr.counter, progressOf_zero]; norm_num⟩
  | step hp hs ih => exact Lag.step (Inv.reach hr hp) ih hs

/-- Whenever no worker holds the counter, the display is at most one per cent behind. -/
theorem Lag.free {L : Loop σ R} {s0 s : RState σ R} (hr : Ready L s0) {m : Nat} (h : L.Reach s0 m s) (hl : s.counterLock = none) : progressOf L.total s.counter - s.shown ≤ 1 := by
  have hg := Lag.reach hr h
  have hi := Inv.reach hr h
  rw [hg.shown]
  refine hg.lag fun w hw => ?_
  have := hi.lockC w hw
  rw [hl] at this
  simp only [reduceCtorEq, false_iff] at this
  cases hp : (s.workers w).phase <;> rw [hp] at this <;> simp_all [Phase.holdsC, Phase.owes]

theorem Inv.free_of_finished {L : Loop σ R} {s0 s : RState σ R} (h : Inv L s0 s) (hf : L.Finished s) : s.counterLock = none := by
  cases hl : s.counterLock with
  | none => rfl
  | some w =>
    have hw := h.lockC_lt w hl
    have := (h.lockC w hw).1 hl
    rw [h.phase_ok w hw (hf w hw)] at this
    simp [Phase.holdsC] at this

/-- What the display shows: never more than has been done, at most one per cent less whenever no worker is counting; in the end 99 or 100. -/
theorem Loop.Reach.display {L : Loop σ R} {s0 s : RState σ R} (hr : Ready L s0) {m : Nat} (h : L.Reach s0 m s) :
    0 ≤ s.shown ∧ s.shown ≤ progressOf L.total s.counter ∧ (s.counterLock = none → progressOf L.total s.counter ≤ s.shown + 1) ∧ (L.Finished s → progressOf L.total s.counter ≤ s.shown + 1) := by
  have hg := Lag.reach hr h
  have hi := Inv.reach hr h
  refine ⟨by rw [hg.shown]; exact hi.lp_nonneg, by rw [hg.shown]; exact hi.lp_le, fun hl => ?_, fun hf => ?_⟩
  · linarith [Lag.free hr h hl]
  · linarith [Lag.free hr h (hi.free_of_finished hf)]

theorem progressOf_total {total : Nat} (h : 0 < total) : progressOf total total = 100 := by
  unfold progressOf
  have : (100 * ((total : ℤ) : ℚ) / total) = ((100 : ℤ) : ℚ) := by
    have : (total : ℚ) ≠ 0 := by positivity
    push_cast; field_simp
  rw [this, round_intCast]
  norm_num

end Rendering
