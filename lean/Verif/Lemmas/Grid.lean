import Verif.Prelude
import Verif.Model.Grid

/-! Lemmas on the grid model. -/

set_option linter.unusedSectionVars false

namespace Shareloc
variable {K : Type*} [Field K] [LinearOrder K] [IsStrictOrderedRing K] [FloorRing K]

/-- The altitudes of the `n` layers strictly decrease. -/
def Decreasing (n : ℕ) (alts : ℕ → K) : Prop := ∀ i j, i < j → j < n → alts j < alts i

theorem takeWhile_spec {α : Type*} (p : α → Bool) (l : List α) :
    (l.takeWhile p).length ≤ l.length ∧
    (∀ k (_ : k < (l.takeWhile p).length) (h' : k < l.length), p l[k] = true) ∧
    (∀ h : (l.takeWhile p).length < l.length, p l[(l.takeWhile p).length] = false) := by
  induction l with
  | nil => exact ⟨by simp, by simp, by simp⟩
  | cons a as ih =>
    obtain ⟨h1, h2, h3⟩ := ih
    by_cases hp : p a = true
    · simp only [List.takeWhile_cons, hp, if_true, List.length_cons]
      refine ⟨by omega, ?_, ?_⟩
      · intro k hk hk'
        cases k with
        | zero => simpa using hp
        | succ k => simpa using h2 k (by omega) (by omega)
      · intro h
        simpa using h3 (by omega)
    · have hp' : p a = false := by simpa using hp
      simp only [List.takeWhile_cons, hp', Bool.false_eq_true, if_false, List.length_nil]
      refine ⟨by simp, ?_, ?_⟩
      · intro k hk; omega
      · intro _; simpa using hp'

theorem takeWhile_range (p : ℕ → Bool) (n : ℕ) :
    ((List.range n).takeWhile p).length ≤ n ∧
    (∀ k < ((List.range n).takeWhile p).length, p k = true) ∧
    (((List.range n).takeWhile p).length < n → p ((List.range n).takeWhile p).length = false) := by
  obtain ⟨h1, h2, h3⟩ := takeWhile_spec p (List.range n)
  rw [List.length_range] at h1
  refine ⟨h1, ?_, ?_⟩
  · intro k hk
    have := h2 k hk (by rw [List.length_range]; omega)
    simpa using this
  · intro h
    have := h3 (by rw [List.length_range]; exact h)
    simpa using this

/-- For a predicate true exactly below `m`, the filter keeps `m` elements. -/
theorem filter_range_length (p : ℕ → Bool) (n m : ℕ) (hm : m ≤ n) (h : ∀ k < n, p k = true ↔ k < m) :
    ((List.range n).filter p).length = m := by
  induction n generalizing m with
  | zero => simp; omega
  | succ n ih =>
    rw [List.range_succ, List.filter_append, List.length_append]
    by_cases hn : p n = true
    · have : n < m := (h n (by omega)).1 hn
      have hm' : m = n + 1 := by omega
      subst hm'
      rw [ih n le_rfl fun k hk => ⟨fun _ => hk, fun _ => (h k (by omega)).2 (by omega)⟩]
      simp [hn]
    · have : ¬ n < m := fun h' => hn ((h n (by omega)).2 h')
      rw [ih m (by omega) fun k hk => h k (by omega)]
      simp [hn]

theorem altUp_eq (alts : ℕ → K) (n : ℕ) (alt : K) (hdec : Decreasing n alts) :
    ∃ m ≤ n, (∀ k < n, alts k ≥ alt ↔ k < m) ∧
      altUp alts n alt = min (m - 1) (n - 2) ∧
      ((List.range n).takeWhile fun i => decide (alts i ≥ alt)).length = m := by
  obtain ⟨h1, h2, h3⟩ := takeWhile_range (fun i => decide (alts i ≥ alt)) n
  refine ⟨_, h1, ?_, ?_, rfl⟩
  · intro k hk
    constructor
    · intro ha
      by_contra hge
      push Not at hge
      have hlt := h3 (by omega)
      simp only [decide_eq_false_iff_not, ge_iff_le, not_le] at hlt
      rcases Nat.eq_or_lt_of_le hge with h | h
      · rw [h] at hlt; exact absurd ha (not_le.2 hlt)
      · have := hdec _ _ h hk
        exact absurd ha (not_le.2 (this.trans hlt))
    · intro hm
      simpa using h2 k hm
  · unfold altUp
    rw [filter_range_length _ n _ h1]
    intro k hk
    constructor
    · intro ha
      by_contra hge
      push Not at hge
      have hlt := h3 (by omega)
      simp only [decide_eq_false_iff_not, ge_iff_le, not_le] at hlt
      simp only [decide_eq_true_eq, ge_iff_le] at ha
      rcases Nat.eq_or_lt_of_le hge with h | h
      · rw [h] at hlt; exact absurd ha (not_le.2 hlt)
      · have := hdec _ _ h hk
        exact absurd ha (not_le.2 (this.trans hlt))
    · intro hm
      exact h2 k hm

theorem gridCell_le (n : ℕ) (hn : 2 ≤ n) (t : K) : gridCell n t + 1 < n := by
  unfold gridCell; omega

/-- The cell of a coordinate in `[i, i+1)`, or in an outer cell. -/
theorem gridCell_eq (n : ℕ) (t : K) (i : ℕ) (hi : i + 1 < n) (hlo : i = 0 ∨ (i : K) ≤ t)
    (hhi : i + 2 = n ∨ t < (i : K) + 1) : gridCell n t = i := by
  unfold gridCell
  have h1 : i = 0 ∨ (i : ℤ) ≤ ⌊t⌋ := by
    rcases hlo with h | h
    · exact Or.inl h
    · exact Or.inr (Int.le_floor.2 (by simpa using h))
  have h2 : i + 2 = n ∨ ⌊t⌋ < (i : ℤ) + 1 := by
    rcases hhi with h | h
    · exact Or.inl h
    · exact Or.inr (Int.floor_lt.2 (by push_cast; exact h))
  omega

/-- On a closed cell, or beyond the outer ones, the interpolation is the line through the two nodes. -/
theorem lerp_eq (n : ℕ) (f : ℕ → K) (t : K) (i : ℕ) (hi : i + 1 < n) (hlo : i = 0 ∨ (i : K) ≤ t)
    (hhi : i + 2 = n ∨ t ≤ (i : K) + 1) : lerp n f t = f i + (t - i) * (f (i + 1) - f i) := by
  by_cases h : i + 2 = n ∨ t < (i : K) + 1
  · simp only [lerp, gridCell_eq n t i hi hlo h]
  · push Not at h
    have ht : t = (i : K) + 1 := by
      rcases hhi with h' | h'
      · exact absurd h' h.1
      · exact le_antisymm h' h.2
    have hc : gridCell n t = i + 1 := by
      apply gridCell_eq n t (i + 1) (by omega)
      · right; rw [ht]; push_cast; exact le_rfl
      · right; rw [ht]; push_cast; linarith
    simp only [lerp, hc]
    rw [ht]
    push_cast
    ring

theorem lerp_node (n : ℕ) (f : ℕ → K) (i : ℕ) (hn : 2 ≤ n) (hi : i < n) : lerp n f (i : K) = f i := by
  by_cases h : i + 1 < n
  · rw [lerp_eq n f _ i h (Or.inr le_rfl) (Or.inr (by linarith))]
    ring
  · have hi' : i = (n - 2) + 1 := by omega
    rw [lerp_eq n f _ (n - 2) (by omega)
      (Or.inr (by exact_mod_cast (by omega : n - 2 ≤ i))) (Or.inl (by omega))]
    rw [show f i = f (n - 2 + 1) by rw [← hi']]
    rw [show ((i : ℕ) : K) = ((n - 2 : ℕ) : K) + 1 by rw [hi']; push_cast; ring]
    ring

/-- Interpolation is linear in the values. -/
theorem lerp_mix (n : ℕ) (f h : ℕ → K) (a b t : K) :
    lerp n (fun i => a * f i + b * h i) t = a * lerp n f t + b * lerp n h t := by
  simp only [lerp]; ring

/-- Only the values at the nodes matter. -/
theorem lerp_congr (n : ℕ) (hn : 2 ≤ n) (f h : ℕ → K) (t : K) (e : ∀ i < n, f i = h i) : lerp n f t = lerp n h t := by
  have := gridCell_le n hn t
  simp only [lerp]
  rw [e _ (by omega), e _ (by omega)]

/-- Affine values are interpolated, and extrapolated, by the affine function. -/
theorem lerp_affine (n : ℕ) (hn : 2 ≤ n) (f : ℕ → K) (a b t : K) (e : ∀ i < n, f i = a + b * i) :
    lerp n f t = a + b * t := by
  rw [lerp_congr n hn f (fun i => a + b * i) t e]
  simp only [lerp]
  push_cast
  ring

/-- Row-major indexing of a flattened table. -/
theorem flatMap_range_getElem? {α : Type*} (F : ℕ → ℕ → α) (n m i j : ℕ) (hi : i < n) (hj : j < m) :
    ((List.range n).flatMap fun i => (List.range m).map (F i))[i * m + j]? = some (F i j) := by
  induction n with
  | zero => omega
  | succ n ih =>
    rw [List.range_succ, List.flatMap_append]
    have hlen : ((List.range n).flatMap fun i => (List.range m).map (F i)).length = n * m := by
      simp [List.length_flatMap]
    by_cases h : i < n
    · rw [List.getElem?_append_left, ih h]
      rw [hlen]
      calc i * m + j < i * m + m := by omega
        _ = (i + 1) * m := by ring
        _ ≤ n * m := Nat.mul_le_mul_right m (by omega)
    · have : i = n := by omega
      subst this
      rw [List.getElem?_append_right (by rw [hlen]; omega), hlen]
      simp [hj]

end Shareloc
