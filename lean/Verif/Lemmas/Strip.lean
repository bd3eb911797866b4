import Verif.Model.Rectification

/-! Lemmas on the strips of epipolar grids. -/

set_option linter.unusedSectionVars false

namespace Shareloc
variable {K : Type*} [Field K] [LinearOrder K] [IsStrictOrderedRing K]

/-- Specification of one layer obtained from the left positions and angles of the previous one: the left points are moved
by one step according to their angle, the right points are their colocalisation, the angles and baseline ratios are those
of the local epipolar lines at the new points. -/
def LayerStep (t : Trig K) (m : Stereo K) (spacing step off : K) (axis : ℤ) (left : List (ORow K))
    (angles : List (Option K)) (l : Layer K) : Prop :=
  l.left = List.zipWith (movePoint t spacing step axis) left angles ∧
  (∃ corr, m.l2r (l.left.map rowCol) = .ok corr ∧ l.right = corr.map fun c => c.1) ∧
  ∃ starts ends ground, localEpipolarLine m l.left off = .ok (starts, ends, ground) ∧
    l.angles = List.zipWith (epipolarAngle t) ends starts ∧ l.baseline = List.zipWith (baselineRatio t off) starts ends

/-- Every layer is one step away from the previous one. -/
def LayerChain (t : Trig K) (m : Stereo K) (spacing step off : K) (axis : ℤ) :
    List (ORow K) → List (Option K) → List (Layer K) → Prop
  | _, _, [] => True
  | left, angles, l :: ls => LayerStep t m spacing step off axis left angles l ∧
      LayerChain t m spacing step off axis l.left l.angles ls

theorem movingAlongAxis_ok {t : Trig K} {m : Stereo K} {cur : List (ORow K)} {spacing step : K} {angles : List (Option K)}
    {axis : ℤ} {nl nr ng : List (ORow K)} (h : movingAlongAxis t m cur spacing step angles axis = .ok (nl, nr, ng)) :
    (axis = 0 ∨ axis = 1) ∧ nl = List.zipWith (movePoint t spacing step axis) cur angles ∧
    ∃ corr, m.l2r (nl.map rowCol) = .ok corr ∧ nr = corr.map (fun c => c.1) ∧ ng = corr.map fun c => c.2 := by
  unfold movingAlongAxis at h
  split at h
  · simp at h
  · rename_i hx
    simp only at h
    cases hc : m.l2r ((List.zipWith (movePoint t spacing step axis) cur angles).map rowCol) with
    | error e => rw [hc] at h; simp at h
    | ok corr =>
      rw [hc] at h
      simp only [Except.ok.injEq, Prod.mk.injEq] at h
      obtain ⟨rfl, rfl, rfl⟩ := h
      refine ⟨?_, rfl, corr, hc, rfl, rfl⟩
      by_contra hcon
      push Not at hcon
      exact hx hcon

/-- A step without adaptive ratio. -/
theorem stripStep_plain {t : Trig K} {m : Stereo K} {spacing step off : K} {axis : ℤ} {st st' : StripState K} {l : Layer K}
    (h : stripStep t m spacing step off axis none st = .ok (l, st')) :
    LayerStep t m spacing step off axis st.left st.angles l ∧ l.ratio = [] ∧ st'.left = l.left ∧ st'.right = l.right ∧
    st'.angles = l.angles ∧ st'.sums = st.sums.map (fun s => s.map fun x => x + 1) := by
  unfold stripStep at h
  cases hm : movingAlongAxis t m st.left spacing step st.angles axis with
  | error e => rw [hm] at h; simp at h
  | ok r =>
    obtain ⟨nl, nr, ng⟩ := r
    rw [hm] at h
    simp only at h
    cases hl : localEpipolarLine m nl off with
    | error e => rw [hl] at h; simp at h
    | ok r =>
      obtain ⟨starts, ends, ground⟩ := r
      rw [hl] at h
      simp only [Except.ok.injEq, Prod.mk.injEq] at h
      obtain ⟨rfl, rfl⟩ := h
      obtain ⟨-, e1, corr, e2, e3, -⟩ := movingAlongAxis_ok hm
      exact ⟨⟨e1, ⟨corr, e2, e3⟩, starts, ends, ground, hl, rfl, rfl⟩, rfl, rfl, rfl, rfl, rfl⟩

theorem anyBelow_single (size k : ℕ) : anyBelow (K := K) size [some (k : K)] = decide (k < size) := by
  simp [anyBelow]

/-- The loop without adaptive ratio makes exactly `size - k` steps. -/
theorem stripLoop_plain (t : Trig K) (m : Stereo K) (spacing step off : K) (axis : ℤ) (size : ℕ) (room k : ℕ)
    (st : StripState K) (hs : st.sums = [some (k : K)]) (hroom : size - k ≤ room) :
    (∀ out, stripLoop t m spacing step off axis none size room st = .ok out →
      out.length = size - k ∧ LayerChain t m spacing step off axis st.left st.angles out ∧ ∀ l ∈ out, l.ratio = []) ∧
    (∀ e, stripLoop t m spacing step off axis none size room st = .error e → ∃ st', stripStep t m spacing step off axis none st' = .error e) := by
  induction room generalizing k st with
  | zero =>
    have hk : ¬ k < size := by omega
    unfold stripLoop
    rw [hs, anyBelow_single]
    simp only [hk, decide_false, Bool.false_eq_true, if_false]
    constructor
    · rintro out h
      simp only [Except.ok.injEq] at h
      subst h
      exact ⟨by simp; omega, trivial, by simp⟩
    · rintro e h; simp at h
  | succ room ih =>
    unfold stripLoop
    rw [hs, anyBelow_single]
    by_cases hk : k < size
    · simp only [hk, decide_true, if_true]
      cases h1 : stripStep t m spacing step off axis none st with
      | error e =>
        simp only
        exact ⟨fun out h => by simp at h, fun e' h => ⟨st, by simpa [h1] using h⟩⟩
      | ok r =>
        obtain ⟨l, st'⟩ := r
        obtain ⟨hstep, hr, e1, e2, e3, e4⟩ := stripStep_plain h1
        have hs' : st'.sums = [some ((k + 1 : ℕ) : K)] := by
          rw [e4, hs]; simp
        have := ih (k + 1) st' hs' (by omega)
        simp only
        cases h2 : stripLoop t m spacing step off axis none size room st' with
        | error e =>
          simp only
          refine ⟨fun out h => by simp at h, fun e' h => ?_⟩
          obtain ⟨s, hs⟩ := this.2 e h2
          exact ⟨s, by simpa [hs] using h⟩
        | ok ls =>
          simp only
          obtain ⟨i1, i2, i3⟩ := this.1 ls h2
          refine ⟨fun out h => ?_, fun e' h => by simp at h⟩
          simp only [Except.ok.injEq] at h
          subst h
          refine ⟨by simp [i1]; omega, ⟨hstep, ?_⟩, ?_⟩
          · rw [e1, e3] at i2; exact i2
          · intro x hx
            rcases List.mem_cons.1 hx with rfl | hx
            · exact hr
            · exact i3 x hx
    · simp only [hk, decide_false, Bool.false_eq_true, if_false]
      constructor
      · rintro out h
        simp only [Except.ok.injEq] at h
        subst h
        exact ⟨by simp; omega, trivial, by simp⟩
      · rintro e h; simp at h

theorem stripStep_no_indexError {t : Trig K} {m : Stereo K} {spacing step off : K} {axis : ℤ} {ad : Option (Adaptive K)}
    {st : StripState K} : stripStep t m spacing step off axis ad st ≠ .error .indexError := by
  unfold stripStep
  cases hm : movingAlongAxis t m st.left spacing step st.angles axis with
  | error e =>
    simp only [ne_eq, Except.error.injEq]
    rintro rfl
    unfold movingAlongAxis at hm
    split at hm
    · simp at hm
    · simp only at hm
      split at hm <;> simp at hm
  | ok r =>
    obtain ⟨nl, nr, ng⟩ := r
    simp only
    generalize hL : localEpipolarLine m _ off = x
    cases x with
    | ok r => simp
    | error e =>
      simp only [ne_eq, Except.error.injEq]
      rintro rfl
      unfold localEpipolarLine at hL
      split at hL
      · simp at hL
      · split at hL
        · simp at hL
        · split at hL <;> simp at hL

/-- A chain, layer by layer. -/
theorem LayerChain.getElem? {t : Trig K} {m : Stereo K} {spacing step off : K} {axis : ℤ} {left : List (ORow K)}
    {angles : List (Option K)} {ls : List (Layer K)} (h : LayerChain t m spacing step off axis left angles ls) :
    (∀ l, ls[0]? = some l → LayerStep t m spacing step off axis left angles l) ∧
    ∀ (k : ℕ) (l l' : Layer K), ls[k]? = some l → ls[k + 1]? = some l' →
      LayerStep t m spacing step off axis l.left l.angles l' := by
  induction ls generalizing left angles with
  | nil => simp
  | cons a as ih =>
    obtain ⟨h1, h2⟩ := h
    have := ih h2
    refine ⟨fun l hl => by simp at hl; subst hl; exact h1, fun k l l' hl hl' => ?_⟩
    cases k with
    | zero =>
      simp at hl
      subst hl
      exact this.1 l' (by simpa using hl')
    | succ k => exact this.2 k l l' (by simpa using hl) (by simpa using hl')

variable [FloorRing K]

theorem maxStripSize_plain (size : ℕ) : maxStripSize (K := K) none size = size := by
  simp [maxStripSize]

end Shareloc
