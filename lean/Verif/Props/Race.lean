import Verif.Model.Race
import Mathlib.Tactic.FinCases
import Mathlib.Tactic.NormNum

/-!
C89. Threads that share a grid: every `Localization.inverse` that returns used the predictor of a sequential call, whatever the schedule;
none raises if the predictor was estimated before; but a thread can raise if two of them make the first call.
-/

namespace Shareloc
set_option linter.unusedSectionVars false
variable {K : Type*} [Field K] [LinearOrder K] [IsStrictOrderedRing K] [FloorRing K]

/-- Every attribute of the grid is `None` or what a sequential estimate stores. -/
def PredMem.Sound (p : Predictor K) (m : PredMem K) : Prop := ∀ k, m k = none ∨ m k = some (predAttr p k)

/-- The predictor was estimated before the threads start. -/
def PredMem.Estimated (p : Predictor K) (m : PredMem K) : Prop := ∀ k, m k = some (predAttr p k)

/-- A grid just loaded. -/
def PredMem.fresh : PredMem K := fun _ => none

/-- The loads left for the current point and those done make the loads of one point, all of the values of `p`. -/
structure ThreadOk (p : Predictor K) (points : ℕ) (t : InvThread K) : Prop where
  past : ∀ l ∈ t.past, l = predLoads.map (predAttr p)
  current : ∀ now n, t.pc = .load now n →
    (now = [] ∧ t.current = [] ∧ t.past.length + n = points) ∨
    (now ≠ [] ∧ (∃ done, done ++ now = predLoads ∧ t.current = done.map (predAttr p)) ∧ t.past.length + 1 + n = points)
  early : (t.pc = .test ∨ ∃ k, t.pc = .store k) → t.current = [] ∧ t.past = []

theorem start_ok (p : Predictor K) (points : ℕ) : ThreadOk p points (InvThread.start : InvThread K) where
  past := by simp [InvThread.start]
  current := by simp [InvThread.start]
  early := by simp [InvThread.start]

theorem step_sound (p : Predictor K) (points : ℕ) (m : PredMem K) (t : InvThread K) (hm : m.Sound p) (ht : ThreadOk p points t) :
    (t.step p points m).1.Sound p ∧ ThreadOk p points (t.step p points m).2 := by
  obtain ⟨pc, cur, past⟩ := t
  obtain ⟨h1, h2, h3⟩ := ht
  simp only at h1 h2 h3
  cases pc with
  | test =>
    obtain ⟨e1, e2⟩ := h3 (.inl rfl)
    subst e1 e2
    simp only [InvThread.step]
    split
    · exact ⟨hm, ⟨by simp, by simp, by simp⟩⟩
    · refine ⟨hm, ⟨by simp, ?_, by simp⟩⟩
      intro now n he
      simp only [ThreadPc.load.injEq] at he
      exact .inl ⟨he.1.symm, rfl, by simp [he.2]⟩
  | store k =>
    obtain ⟨e1, e2⟩ := h3 (.inr ⟨k, rfl⟩)
    subst e1 e2
    simp only [InvThread.step]
    refine ⟨?_, ?_⟩
    · intro j
      by_cases hj : j = k
      · subst hj; right; simp
      · rw [Function.update_of_ne hj]; exact hm j
    · split
      · exact ⟨by simp, by simp, by simp⟩
      · refine ⟨by simp, ?_, by simp⟩
        intro now n he
        simp only [ThreadPc.load.injEq] at he
        exact .inl ⟨he.1.symm, rfl, by simp [he.2]⟩
  | raised => exact ⟨hm, ⟨h1, h2, h3⟩⟩
  | load now n =>
    cases now with
    | nil =>
      cases n with
      | zero => exact ⟨hm, ⟨h1, h2, h3⟩⟩
      | succ n =>
        simp only [InvThread.step]
        refine ⟨hm, ⟨h1, ?_, by simp⟩⟩
        intro now' n' he
        simp only [ThreadPc.load.injEq] at he
        obtain ⟨rfl, rfl⟩ := he
        rcases h2 _ _ rfl with ⟨_, hc, hl⟩ | ⟨hne, _⟩
        · exact .inr ⟨by simp [predLoads], ⟨[], by simp, by simpa using hc⟩, by simp only; omega⟩
        · exact absurd rfl hne
    | cons k l =>
      rcases h2 _ _ rfl with ⟨he, _⟩ | ⟨_, ⟨done, hd, hc⟩, hl⟩
      · simp at he
      · simp only [InvThread.step]
        rcases hm k with hk | hk
        · rw [hk]
          exact ⟨hm, ⟨h1, by simp, by simp⟩⟩
        · rw [hk]
          cases l with
          | nil =>
            refine ⟨hm, ⟨?_, ?_, by simp⟩⟩
            · intro x hx
              rcases List.mem_append.1 hx with hx | hx
              · exact h1 x hx
              · rw [List.mem_singleton.1 hx, hc, ← hd]; simp
            · intro now' n' he
              simp only [ThreadPc.load.injEq] at he
              exact .inl ⟨he.1.symm, rfl, by simp only [List.length_append, List.length_singleton]; omega⟩
          | cons k' l' =>
            refine ⟨hm, ⟨h1, ?_, by simp⟩⟩
            intro now' n' he
            simp only [ThreadPc.load.injEq] at he
            obtain ⟨rfl, rfl⟩ := he
            exact .inr ⟨by simp, ⟨done ++ [k], by simpa using hd, by simp [hc]⟩, hl⟩

/-- The state of a run in which every thread starts. -/
theorem run_ok (p : Predictor K) (points : ℕ → ℕ) (schedule : List ℕ) (s : RaceState K) (hm : s.mem.Sound p)
    (ht : ∀ i, ThreadOk p (points i) (s.threads i)) :
    (s.run p points schedule).mem.Sound p ∧ ∀ i, ThreadOk p (points i) ((s.run p points schedule).threads i) := by
  induction schedule generalizing s with
  | nil => exact ⟨hm, ht⟩
  | cons i l ih =>
    have hs := step_sound p (points i) s.mem (s.threads i) hm (ht i)
    refine ih (s.step p points i) hs.1 ?_
    intro j
    simp only [RaceState.step]
    by_cases hj : j = i
    · subst hj; simpa using hs.2
    · rw [Function.update_of_ne hj]; exact ht j

theorem predictFrom_all (g : MultiGrid K) (p : Predictor K) (lon lat alt : K) :
    predictFrom g (predLoads.map (predAttr p)) lon lat alt = some ((gridPredict g p lon lat alt).1, (gridPredict g p lon lat alt).2.1) := rfl

/-- C89. Whatever the number of threads, the points of each and the schedule, from a grid on which an estimate is not made, is being made
or was made: a `Localization.inverse` that returns made one prediction for each of its points, and each of them is the prediction of
a sequential call. -/
theorem C89_returned_is_sequential (p : Predictor K) (points : ℕ → ℕ) (m : PredMem K) (hm : m.Sound p) (schedule : List ℕ) (i : ℕ)
    (hfin : ((RaceState.run p points ⟨m, fun _ => .start⟩ schedule).threads i).finished) :
    let past := ((RaceState.run p points ⟨m, fun _ => .start⟩ schedule).threads i).past
    past.length = points i ∧ ∀ l ∈ past, ∀ (g : MultiGrid K) (lon lat alt : K),
      predictFrom g l lon lat alt = some ((gridPredict g p lon lat alt).1, (gridPredict g p lon lat alt).2.1) := by
  obtain ⟨_, ht⟩ := run_ok p points schedule ⟨m, fun _ => .start⟩ hm (fun j => start_ok p (points j))
  have ht := ht i
  generalize (RaceState.run p points ⟨m, fun _ => .start⟩ schedule).threads i = t at *
  constructor
  · rcases ht.current _ _ hfin with ⟨_, _, hl⟩ | ⟨hne, _⟩
    · simpa using hl
    · exact absurd rfl hne
  · intro l hl g lon lat alt
    rw [ht.past l hl, predictFrom_all]

/-- An attribute once stored stays stored. -/
theorem step_keeps (p : Predictor K) (points : ℕ) (m : PredMem K) (t : InvThread K) (hm : m.Estimated p) :
    (t.step p points m).1.Estimated p ∧ (t.pc ≠ .raised → (t.step p points m).2.pc ≠ .raised) := by
  obtain ⟨pc, cur, past⟩ := t
  cases pc with
  | test =>
    simp only [InvThread.step]
    split <;> exact ⟨hm, by simp⟩
  | store k =>
    simp only [InvThread.step]
    refine ⟨?_, ?_⟩
    · intro j
      by_cases hj : j = k
      · subst hj; simp
      · rw [Function.update_of_ne hj]; exact hm j
    · intro _
      split <;> simp
  | raised => exact ⟨hm, by simp⟩
  | load now n =>
    cases now with
    | nil => cases n <;> exact ⟨hm, by simp [InvThread.step]⟩
    | cons k l =>
      simp only [InvThread.step, hm k]
      cases l <;> exact ⟨hm, by simp⟩

/-- C89. If the predictor was estimated before the threads start, no schedule makes a call raise. -/
theorem C89_estimated_first (p : Predictor K) (points : ℕ → ℕ) (m : PredMem K) (hm : m.Estimated p) (schedule : List ℕ) (i : ℕ) :
    ((RaceState.run p points ⟨m, fun _ => .start⟩ schedule).threads i).pc ≠ .raised := by
  suffices ∀ (s : RaceState K), s.mem.Estimated p → (∀ i, (s.threads i).pc ≠ .raised) →
      ∀ i, ((s.run p points schedule).threads i).pc ≠ .raised from
    this ⟨m, fun _ => .start⟩ hm (fun _ => by simp [InvThread.start]) i
  induction schedule with
  | nil => exact fun s _ h => h
  | cons j l ih =>
    intro s hs hr
    have hk := step_keeps p (points j) s.mem (s.threads j) hs
    refine ih (s.step p points j) hk.1 ?_
    intro k
    simp only [RaceState.step]
    by_cases hj : k = j
    · subst hj; simpa using hk.2 (hr k)
    · rw [Function.update_of_ne hj]; exact hr k

/-- A thread alone on the grid, from its start to some point of its call. -/
def AloneOk (p : Predictor K) (m : PredMem K) (t : InvThread K) : Prop :=
  match t.pc with
  | .test => m.Sound p ∧ (m 4 ≠ none → m.Estimated p)
  | .store k => ∀ j : Fin 8, j.val < k.val → m j = some (predAttr p j)
  | .load _ _ => m.Estimated p
  | .raised => False

theorem alone_step (p : Predictor K) (points : ℕ) (m : PredMem K) (t : InvThread K) (h : AloneOk p m t) :
    AloneOk p (t.step p points m).1 (t.step p points m).2 := by
  obtain ⟨pc, cur, past⟩ := t
  cases pc with
  | test =>
    simp only [AloneOk] at h
    simp only [InvThread.step]
    by_cases h4 : (m 4).isNone
    · rw [if_pos h4]
      simp [AloneOk]
    · rw [if_neg h4]
      simp only [AloneOk]
      exact h.2 (by simpa using h4)
  | store k =>
    simp only [AloneOk] at h
    simp only [InvThread.step]
    have key : ∀ j : Fin 8, j.val < k.val + 1 → Function.update m k (some (predAttr p k)) j = some (predAttr p j) := by
      intro j hj
      by_cases hjk : j = k
      · subst hjk; simp
      · rw [Function.update_of_ne hjk]
        exact h j (by have : j.val ≠ k.val := fun e => hjk (Fin.ext e); omega)
    split
    · simp only [AloneOk]
      intro j hj
      exact key j hj
    · simp only [AloneOk]
      intro j
      exact key j (by have := j.isLt; omega)
  | raised => exact h.elim
  | load now n =>
    simp only [AloneOk] at h
    cases now with
    | nil => cases n <;> simpa [InvThread.step, AloneOk] using h
    | cons k l =>
      simp only [InvThread.step, h k]
      cases l <;> simpa [AloneOk] using h

/-- C89. A thread alone never raises, on a grid just loaded as on a grid with a predictor. -/
theorem C89_alone (p : Predictor K) (points : ℕ → ℕ) (m : PredMem K) (hm : m = PredMem.fresh ∨ m.Estimated p) (i : ℕ) (n : ℕ) :
    ((RaceState.run p points ⟨m, fun _ => .start⟩ (List.replicate n i)).threads i).pc ≠ .raised := by
  suffices ∀ s : RaceState K, AloneOk p s.mem (s.threads i) →
      AloneOk p (s.run p points (List.replicate n i)).mem ((s.run p points (List.replicate n i)).threads i) by
    have h := this ⟨m, fun _ => .start⟩ (by
      simp only [AloneOk, InvThread.start]
      rcases hm with rfl | h
      · exact ⟨fun k => .inl rfl, fun h => absurd rfl h⟩
      · exact ⟨fun k => .inr (h k), fun _ => h⟩)
    intro hr
    unfold AloneOk at h
    rw [hr] at h
    exact h
  induction n with
  | zero => exact fun s h => h
  | succ n ih =>
    intro s h
    refine ih (s.step p points i) ?_
    simp only [RaceState.step, Function.update_self]
    exact alone_step p (points i) s.mem (s.threads i) h

/-- C89. On a grid just loaded, a second thread that makes its call while the first one stores the predictor can raise `TypeError`, although
both calls would return if they were made one after the other. -/
theorem C89_first_call_counterexample (p : Predictor K) :
    ((RaceState.run p (fun _ => 1) ⟨PredMem.fresh, fun _ => .start⟩ [0, 0, 0, 0, 0, 0, 1, 1, 1, 1, 1]).threads 1).pc = .raised := by
  simp [RaceState.run, RaceState.step, InvThread.step, InvThread.start, PredMem.fresh, predLoads, Function.update]

/-- A schedule in which two threads make the first call and both return. -/
example (p : Predictor K) : ((RaceState.run p (fun _ => 1) ⟨PredMem.fresh, fun _ => .start⟩
    (List.replicate 9 0 ++ [1] ++ (List.replicate 17 [0, 1]).flatten)).threads 1).finished := by
  simp [RaceState.run, RaceState.step, InvThread.step, InvThread.start, PredMem.fresh, predLoads, Function.update, InvThread.finished,
    List.replicate]

end Shareloc
