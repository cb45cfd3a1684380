import Verif.Lemmas.Render
import Mathlib.Data.List.Range

/-!
# Consequences of the invariant: progress, number of steps, what is written
-/

set_option linter.unusedSectionVars false
namespace Rendering
variable {σ R : Type}

/-- In every reachable state with an unfinished worker, some worker can step. -/
theorem Inv.progress {L : Loop σ R} {s0 s : RState σ R} (h : Inv L s0 s) (hnf : ¬ L.Finished s) :
    ∃ w s', L.step s w = some s' := by
  cases hc : s.counterLock with
  | some w =>
    have hw := h.lockC_lt w hc
    have hph := (h.lockC w hw).1 hc
    have hne : (s.workers w).slots ≠ [] := by
      intro he
      rw [h.phase_ok w hw he] at hph
      simp [Phase.holdsC] at hph
    obtain ⟨slot, rest, hsl⟩ := List.exists_cons_of_ne_nil hne
    refine ⟨w, ?_⟩
    unfold Loop.step
    rw [if_pos hw]
    simp only [hsl]
    cases hp : (s.workers w).phase with
    | compute => rw [hp] at hph; simp [Phase.holdsC] at hph
    | lockCounter => rw [hp] at hph; simp [Phase.holdsC] at hph
    | lockProgress =>
      have hnone : s.progressLock = none := by
        cases hpl : s.progressLock with
        | none => rfl
        | some w' =>
          have hw' := h.lockP_lt w' hpl
          have hP := (h.lockP w' hw').1 hpl
          have hC : (s.workers w').phase.holdsC = true := by
            cases hp' : (s.workers w').phase <;> rw [hp'] at hP <;> simp [Phase.holdsP, Phase.holdsC] at hP ⊢
          have := (h.lockC w' hw').2 hC
          rw [hc] at this
          obtain rfl := Option.some.inj this
          rw [hp] at hP
          simp [Phase.holdsP] at hP
      simp only [hnone, if_true]
      exact ⟨_, rfl⟩
    | _ => exact ⟨_, rfl⟩
  | none =>
    unfold Loop.Finished at hnf
    push Not at hnf
    obtain ⟨w, hw, hne⟩ := hnf
    have hph : (s.workers w).phase.holdsC = false := by
      have := h.lockC w hw
      rw [hc] at this
      simpa using this
    obtain ⟨slot, rest, hsl⟩ := List.exists_cons_of_ne_nil hne
    refine ⟨w, ?_⟩
    unfold Loop.step
    rw [if_pos hw]
    simp only [hsl]
    cases hp : (s.workers w).phase with
    | compute => exact ⟨_, rfl⟩
    | lockCounter => simp only [hc, if_true]; exact ⟨_, rfl⟩
    | _ => rw [hp] at hph; simp [Phase.holdsC] at hph

/-- Steps done by a worker, 9 per finished slot plus those of the current one. -/
def Worker.done (total : Nat) (k : Worker σ) : Nat := 9 * (total - k.slots.length) + k.phase.rank

theorem step_worker {L : Loop σ R} {s s' : RState σ R} {w : Nat} (hs : L.step s w = some s') :
    w < L.n ∧ (s.workers w).slots ≠ [] ∧ (∀ w', w' ≠ w → s'.workers w' = s.workers w') ∧
    (((s'.workers w).slots = (s.workers w).slots ∧ (s'.workers w).phase.rank = (s.workers w).phase.rank + 1) ∨
     ((s'.workers w).slots = (s.workers w).slots.tail ∧ (s'.workers w).phase.rank = 0 ∧ (s.workers w).phase.rank = 8)) := by
  unfold Loop.step at hs
  split at hs
  swap
  · simp at hs
  rename_i hw
  refine ⟨hw, ?_⟩
  simp only at hs
  cases hsl : (s.workers w).slots with
  | nil => rw [hsl] at hs; simp at hs
  | cons slot rest =>
    rw [hsl] at hs
    refine ⟨by simp, ?_⟩
    simp only at hs
    cases hp : (s.workers w).phase <;> rw [hp] at hs <;> simp only at hs <;> (try split at hs) <;>
      (try simp only [Option.some.injEq, reduceCtorEq] at hs) <;> subst hs <;>
      refine ⟨fun w' hne => by simp [Function.update_of_ne hne], ?_⟩ <;> simp [Phase.rank, hsl]

/-- The number of steps taken so far is what the workers have done. -/
theorem Reach.steps {L : Loop σ R} {s0 s : RState σ R} (hr : Ready L s0) {m : Nat} (h : L.Reach s0 m s) :
    ∑ w ∈ Finset.range L.n, (s.workers w).done (s0.workers w).slots.length = m := by
  induction h with
  | init =>
    apply Finset.sum_eq_zero
    intro w hw
    simp [Worker.done, hr.start w (Finset.mem_range.1 hw), Phase.rank]
  | @step m s w s' hreach hs ih =>
    obtain ⟨hw, hne, hother, hself⟩ := step_worker hs
    have hinv := Inv.reach hr hreach
    have hupd : Function.update s.workers w (s'.workers w) = s'.workers := by
      funext w'
      by_cases he : w' = w
      · subst he; simp
      · rw [Function.update_of_ne he, hother w' he]
    have hsum := sum_update hw s.workers (s'.workers w) (fun i (k : Worker σ) => k.done (s0.workers i).slots.length)
    rw [hupd, ih] at hsum
    have hlen := List.length_pos_iff.2 hne
    obtain ⟨d, hd⟩ := hinv.suffix w hw
    have hl := congrArg List.length hd
    rw [List.length_append] at hl
    have : (s'.workers w).done (s0.workers w).slots.length = (s.workers w).done (s0.workers w).slots.length + 1 := by
      unfold Worker.done
      rcases hself with ⟨h1, h2⟩ | ⟨h1, h2, h3⟩
      · rw [h1, h2]; omega
      · rw [h1, h2, h3, List.length_tail]; omega
    omega

theorem Reach.steps_le {L : Loop σ R} {s0 s : RState σ R} (hr : Ready L s0) {m : Nat} (h : L.Reach s0 m s) : m ≤ 9 * L.total := by
  rw [← Reach.steps hr h, ← hr.total, Finset.mul_sum]
  apply Finset.sum_le_sum
  intro w hw
  have hw := Finset.mem_range.1 hw
  have hinv := Inv.reach hr h
  obtain ⟨d, hd⟩ := hinv.suffix w hw
  have hl := congrArg List.length hd
  rw [List.length_append] at hl
  unfold Worker.done
  cases hs : (s.workers w).slots with
  | nil => rw [hinv.phase_ok w hw hs]; simp [Phase.rank]
  | cons a l =>
    rw [hs] at hl
    simp only [List.length_cons] at hl ⊢
    have : (s.workers w).phase.rank ≤ 8 := by cases (s.workers w).phase <;> simp [Phase.rank]
    omega

theorem Reach.steps_finished {L : Loop σ R} {s0 s : RState σ R} (hr : Ready L s0) {m : Nat} (h : L.Reach s0 m s) (hf : L.Finished s) : m = 9 * L.total := by
  rw [← Reach.steps hr h, ← hr.total, Finset.mul_sum]
  apply Finset.sum_congr rfl
  intro w hw
  have hw := Finset.mem_range.1 hw
  have hinv := Inv.reach hr h
  unfold Worker.done
  rw [hinv.phase_ok w hw (hf w hw), hf w hw]
  simp [Phase.rank]

/-- Locations not in `writes` keep their initial value. -/
theorem Reach.untouched {L : Loop σ R} {s0 s : RState σ R} {m : Nat} (h : L.Reach s0 m s) (x : Nat) (hx : x ∉ s.writes) : s.mem x = s0.mem x := by
  induction h with
  | init => rfl
  | @step m s w s' hreach hs ih =>
    unfold Loop.step at hs
    split at hs
    swap
    · simp at hs
    simp only at hs
    cases hsl : (s.workers w).slots with
    | nil => rw [hsl] at hs; simp at hs
    | cons slot rest =>
      rw [hsl] at hs
      simp only at hs
      cases hp : (s.workers w).phase <;> rw [hp] at hs <;> simp only at hs <;> (try split at hs) <;>
        (try simp only [Option.some.injEq, reduceCtorEq] at hs) <;> subst hs <;> (try exact ih hx)
      simp only [List.mem_append, List.mem_singleton, not_or] at hx ⊢
      rw [Function.update_of_ne hx.2]
      exact ih hx.1

/-- At the end the counter is the total. -/
theorem Inv.counter_finished {L : Loop σ R} {s0 s : RState σ R} (hr : Ready L s0) (h : Inv L s0 s) (hf : L.Finished s) : s.counter = L.total := by
  rw [h.count, ← hr.total]
  norm_cast
  apply Finset.sum_congr rfl
  intro w hw
  have hw := Finset.mem_range.1 hw
  rw [h.phase_ok w hw (hf w hw), hf w hw]
  simp [Phase.counted]

/-- At the end a slot holds what its worker computes for it sequentially. -/
theorem Inv.mem_finished {L : Loop σ R} {s0 s : RState σ R} (hr : Ready L s0) (h : Inv L s0 s) (hf : L.Finished s) {w : Nat} (hw : w < L.n) {x : Nat} {v : R}
    (hx : seqValue L.compute (s0.workers w).pindex (s0.workers w).slots (s0.workers w).loc x = some v) : s.mem x = v := by
  have := h.mem w hw x v (by unfold Worker.future; rw [if_pos (hr.start w hw)]; exact hx)
  unfold Worker.future at this
  rw [if_pos (h.phase_ok w hw (hf w hw)), hf w hw] at this
  exact this

/-- At the end every slot has been written as often as it occurs among the initial slots. -/
theorem Inv.writes_finished {L : Loop σ R} {s0 s : RState σ R} (h : Inv L s0 s) (hf : L.Finished s) (x : Nat) :
    s.writes.count x = ∑ w ∈ Finset.range L.n, (s0.workers w).slots.count x := by
  rw [← h.writes x, Finset.sum_eq_zero, Nat.add_zero]
  intro w hw
  have hw := Finset.mem_range.1 hw
  unfold Worker.pending
  rw [if_pos (h.phase_ok w hw (hf w hw)), hf w hw]
  rfl

/-- A finished state is reached from every reachable state: schedules can always be completed. -/
theorem Reach.completes {L : Loop σ R} {s0 : RState σ R} (hr : Ready L s0) {m : Nat} {s : RState σ R} (h : L.Reach s0 m s) :
    ∃ m' s', L.Reach s0 m' s' ∧ L.Finished s' := by
  by_cases hf : L.Finished s
  · exact ⟨m, s, h, hf⟩
  · obtain ⟨w, s', hs⟩ := (Inv.reach hr h).progress hf
    have hstep := h.step hs
    have := Reach.steps_le hr hstep
    exact Reach.completes hr hstep
termination_by 9 * L.total - m
decreasing_by omega

/-! ### Chunks -/

theorem getElem?_chunksMut {α : Type} {n : Nat} (hn : 0 < n) (l : List α) (k : Nat) :
    (chunksMut n l)[k]? = if k * n < l.length then some ((l.drop (k * n)).take n) else none := by
  induction k generalizing l with
  | zero =>
    rw [chunksMut]
    split
    · rename_i h
      rcases h with h | h
      · omega
      · simp [h]
    · rename_i h
      rw [not_or] at h
      have := List.length_pos_iff.2 h.2
      simp [this]
  | succ k ih =>
    rw [chunksMut]
    split
    · rename_i h
      rcases h with h | h
      · omega
      · simp [h]
    · rename_i h
      rw [List.getElem?_cons_succ, ih, List.length_drop, List.drop_drop]
      have e : (k + 1) * n = n + k * n := by ring
      rw [e]
      by_cases hlt : n + k * n < l.length
      · rw [if_pos hlt, if_pos (by omega)]
      · rw [if_neg hlt, if_neg (by omega)]

theorem chunksMut_length {α : Type} {n : Nat} (hn : 0 < n) (l : List α) (k : Nat) : k < (chunksMut n l).length ↔ k * n < l.length := by
  have := getElem?_chunksMut hn l k
  constructor
  · intro h
    by_contra hc
    rw [if_neg hc, List.getElem?_eq_none_iff] at this
    omega
  · intro h
    rw [if_pos h] at this
    exact (List.getElem?_eq_some_iff.1 this).1

theorem take_drop_range (total a n : Nat) : ((List.range total).drop a).take n = List.range' a (min n (total - a)) := by
  apply List.ext_getElem
  · simp
  · intro i h1 h2
    simp

theorem sum_chunks {n : Nat} (hn : 0 < n) (total c : Nat) (hc : ∀ k, k < c ↔ k * n < total) : ∑ k ∈ Finset.range c, min n (total - k * n) = total := by
  have gen : ∀ c', c' ≤ c → ∑ k ∈ Finset.range c', min n (total - k * n) = min total (c' * n) := by
    intro c' hle
    induction c' with
    | zero => simp
    | succ c' ih =>
      rw [Finset.sum_range_succ, ih (by omega)]
      have := (hc c').1 (by omega)
      have e : (c' + 1) * n = c' * n + n := by ring
      rw [e]
      omega
  rw [gen c le_rfl]
  have := (hc c).not.1 (lt_irrefl c)
  omega

end Rendering
