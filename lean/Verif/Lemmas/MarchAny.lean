import Verif.Lemmas.MarchLoop

/-!
The cell loop ends from any state: the position need not be in the current cell (in C++ the starting cell can be wrong).
-/

set_option linter.unusedSectionVars false

namespace Shareloc
variable {K : Type*} [Field K] [LinearOrder K] [IsStrictOrderedRing K] [FloorRing K]

open Spec

/-- Steps left across the main direction: towards the cell that contains `y`. -/
def stepsAcross (y : K) (nb r : ℤ) : ℤ := if y < r then r + 1 else if y > r + 1 then nb - r else 0

theorem stepsAcross_bounds (y : K) {nb r : ℤ} (h0 : 0 ≤ r) (h1 : r ≤ nb - 2) :
    0 ≤ stepsAcross y nb r ∧ stepsAcross y nb r ≤ nb := by
  unfold stepsAcross; split_ifs <;> omega

theorem stepsAcross_down {y : K} {nb r : ℤ} (h1 : r ≤ nb - 2) (hr : 0 ≤ r - 1) (h : y < r) :
    stepsAcross y nb (r - 1) < stepsAcross y nb r := by
  unfold stepsAcross
  rw [if_pos h]
  have : ¬ y > ((r - 1 : ℤ) : K) + 1 := by push_cast; linarith
  split_ifs <;> omega

theorem stepsAcross_up {y : K} {nb r : ℤ} (hr : r + 1 ≤ nb - 2) (h0 : 0 ≤ r) (h : y > r + 1) :
    stepsAcross y nb (r + 1) < stepsAcross y nb r := by
  unfold stepsAcross
  have h2 : ¬ y < (r : K) := by linarith
  have h3 : ¬ y < ((r + 1 : ℤ) : K) := by push_cast; linarith
  rw [if_neg h2, if_pos h, if_neg h3]
  split_ifs <;> omega

/-- Cells left before the loop ends, from any cell. -/
def cellsToGo (nr nc : ℤ) (v0 dir : V3 K) (c r : ℤ) : ℤ :=
  if dir.x = 0 then (if dir.y < 0 then r else nc - r)
  else if dir.y = 0 then (if dir.x < 0 then c else nr - c)
  else if dir.x < 0 ∧ dir.x ≤ dir.y ∧ dir.x ≤ -dir.y then
    c * (nc + 1) + stepsAcross (v0.y + ((c : K) - v0.x) / dir.x * dir.y) nc r
  else if dir.y > 0 ∧ dir.y ≥ dir.x ∧ dir.y ≥ -dir.x then
    (nc - 2 - r) * (nr + 1) + stepsAcross (v0.x + ((r : K) + 1 - v0.y) / dir.y * dir.x) nr c
  else if dir.x > 0 ∧ dir.x ≥ dir.y ∧ dir.x ≥ -dir.y then
    (nr - 2 - c) * (nc + 1) + stepsAcross (v0.y + ((c : K) + 1 - v0.x) / dir.x * dir.y) nc r
  else r * (nr + 1) + stepsAcross (v0.x + ((r : K) - v0.y) / dir.y * dir.x) nr c

theorem cellsToGo_bounds (nr nc : ℤ) (v0 dir : V3 K) {c r : ℤ} (h : IsCell nr nc c r) :
    0 ≤ cellsToGo nr nc v0 dir c r ∧ cellsToGo nr nc v0 dir c r ≤ nr * nc + nr + nc - 2 := by
  obtain ⟨a1, a2, a3, a4⟩ := h
  have bound : ∀ (m k w : ℤ) (y : K) (x : ℤ), 0 ≤ k → k ≤ m - 2 → 0 ≤ x → x ≤ w - 2 →
      0 ≤ k * (w + 1) + stepsAcross y w x ∧ k * (w + 1) + stepsAcross y w x ≤ m * w + m + w - 2 := by
    intro m k w y x hk0 hk1 hx0 hx1
    obtain ⟨s0, s1⟩ := stepsAcross_bounds y hx0 hx1
    have p : 0 ≤ k * (w + 1) := mul_nonneg hk0 (by omega)
    have q : k * (w + 1) ≤ (m - 2) * (w + 1) := mul_le_mul_of_nonneg_right hk1 (by omega)
    constructor
    · omega
    · nlinarith
  have hp : 0 ≤ nr * nc := mul_nonneg (by omega) (by omega)
  unfold cellsToGo
  split_ifs
  · omega
  · omega
  · omega
  · omega
  · exact bound nr c nc _ r a1 (by omega) a3 (by omega)
  · have := bound nc (nc - 2 - r) nr (v0.x + ((r : K) + 1 - v0.y) / dir.y * dir.x) c (by omega) (by omega) a1 (by omega)
    have e : nc * nr + nc + nr - 2 = nr * nc + nr + nc - 2 := by ring
    rwa [e] at this
  · exact bound nr (nr - 2 - c) nc _ r (by omega) (by omega) a3 (by omega)
  · have := bound nc r nr (v0.x + ((r : K) - v0.y) / dir.y * dir.x) c (by omega) (by omega) a1 (by omega)
    have e : nc * nr + nc + nr - 2 = nr * nc + nr + nc - 2 := by ring
    rwa [e] at this

/-- The directions are exhausted. -/
theorem last_direction {x y : K} (hx : x ≠ 0) (hy : y ≠ 0) (h1 : ¬ (x < 0 ∧ x ≤ y ∧ x ≤ -y)) (h2 : ¬ (y > 0 ∧ y ≥ x ∧ y ≥ -x))
    (h3 : ¬ (x > 0 ∧ x ≥ y ∧ x ≥ -y)) : y < 0 ∧ y ≤ x ∧ y ≤ -x := by
  rcases lt_trichotomy x 0 with a | a | a
  · rcases lt_trichotomy y 0 with b | b | b
    · refine ⟨b, ?_, by linarith⟩
      by_contra hc
      exact h1 ⟨a, by linarith [not_le.1 hc], by linarith⟩
    · exact absurd b hy
    · exfalso
      by_cases hc : x ≤ -y
      · exact h1 ⟨a, by linarith, hc⟩
      · exact h2 ⟨b, by linarith, by linarith [not_le.1 hc]⟩
  · exact absurd a hx
  · rcases lt_trichotomy y 0 with b | b | b
    · refine ⟨b, by linarith, ?_⟩
      by_contra hc
      exact h3 ⟨a, by linarith, by linarith [not_le.1 hc]⟩
    · exact absurd b hy
    · exfalso
      by_cases hc : y ≤ x
      · exact h3 ⟨a, hc, by linarith⟩
      · exact h2 ⟨b, by linarith [not_le.1 hc], by linarith⟩

/-- One axis of a step in a main direction: `k` counts the cells left along it, `x` is the cell across it. -/
theorem lex_step (k k' w x x' : ℤ) (y y' : K) (hx0 : 0 ≤ x) (hx1 : x ≤ w - 2) (hx0' : 0 ≤ x') (hx1' : x' ≤ w - 2) (hk : k' = k - 1) :
    k' * (w + 1) + stepsAcross y' w x' < k * (w + 1) + stepsAcross y w x := by
  have a := (stepsAcross_bounds y hx0 hx1).1
  have b := (stepsAcross_bounds y' hx0' hx1').2
  subst hk
  nlinarith

theorem cellsToGo_step (nr nc : ℤ) (v0 dir : V3 K) (hd : dir.x ≠ 0 ∨ dir.y ≠ 0) (s : March K) (h : IsCell nr nc s.colC s.rowC)
    (h' : IsCell nr nc (cellExit v0 dir s).colC (cellExit v0 dir s).rowC) :
    cellsToGo nr nc v0 dir (cellExit v0 dir s).colC (cellExit v0 dir s).rowC < cellsToGo nr nc v0 dir s.colC s.rowC := by
  obtain ⟨a1, a2, a3, a4⟩ := h
  by_cases hx : dir.x = 0
  · by_cases hy : dir.y < 0 <;> simp [cellsToGo, cellExit, hx, hy]
  by_cases hy : dir.y = 0
  · by_cases hx2 : dir.x < 0 <;> simp [cellsToGo, cellExit, hx, hy, hx2]
  by_cases c1 : dir.x < 0 ∧ dir.x ≤ dir.y ∧ dir.x ≤ -dir.y
  · unfold cellsToGo
    unfold cellExit at h' ⊢
    simp only [if_neg hx, if_neg hy, if_pos c1] at h' ⊢
    split_ifs at h' ⊢ with e1 e2 e3 e4 e5
    · obtain ⟨b1, b2, b3, b4⟩ := h'
      exact lex_step _ _ _ _ _ _ _ a3 (by omega) b3 (le_sub_iff_add_le.2 (by linarith [b4])) (by ring)
    · obtain ⟨b1, b2, b3, b4⟩ := h'
      have := stepsAcross_down (nb := nc) (by omega) b3 e2
      dsimp only
      omega
    · obtain ⟨b1, b2, b3, b4⟩ := h'
      have := stepsAcross_up (nb := nc) (by dsimp only at b4; omega) a3 e3
      dsimp only
      omega
    · obtain ⟨b1, b2, b3, b4⟩ := h'
      exact lex_step _ _ _ _ _ _ _ a3 (by omega) b3 (le_sub_iff_add_le.2 (by linarith [b4])) (by ring)
    · obtain ⟨b1, b2, b3, b4⟩ := h'
      exact lex_step _ _ _ _ _ _ _ a3 (by omega) b3 (le_sub_iff_add_le.2 (by linarith [b4])) (by ring)
    · exfalso
      rcases lt_trichotomy (v0.y + ((s.colC : K) - v0.x) / dir.x * dir.y) (s.rowC : K) with q | q | q
      · exact e2 q
      · exact e4 q
      · exact e1 ⟨q, lt_of_le_of_ne (not_lt.1 e3) e5⟩
  by_cases c2 : dir.y > 0 ∧ dir.y ≥ dir.x ∧ dir.y ≥ -dir.x
  · unfold cellsToGo
    unfold cellExit at h' ⊢
    simp only [if_neg hx, if_neg hy, if_neg c1, if_pos c2] at h' ⊢
    split_ifs at h' ⊢ with e1 e2 e3 e4 e5
    · obtain ⟨b1, b2, b3, b4⟩ := h'
      exact lex_step _ _ _ _ _ _ _ a1 (by omega) b1 (le_sub_iff_add_le.2 (by linarith [b2])) (by ring)
    · obtain ⟨b1, b2, b3, b4⟩ := h'
      have := stepsAcross_down (nb := nr) (by omega) b1 e2
      dsimp only
      omega
    · obtain ⟨b1, b2, b3, b4⟩ := h'
      have := stepsAcross_up (nb := nr) (by dsimp only at b2; omega) a1 e3
      dsimp only
      omega
    · obtain ⟨b1, b2, b3, b4⟩ := h'
      exact lex_step _ _ _ _ _ _ _ a1 (by omega) b1 (le_sub_iff_add_le.2 (by linarith [b2])) (by ring)
    · obtain ⟨b1, b2, b3, b4⟩ := h'
      exact lex_step _ _ _ _ _ _ _ a1 (by omega) b1 (le_sub_iff_add_le.2 (by linarith [b2])) (by ring)
    · exfalso
      rcases lt_trichotomy (v0.x + ((s.rowC : K) + 1 - v0.y) / dir.y * dir.x) (s.colC : K) with q | q | q
      · exact e2 q
      · exact e4 q
      · exact e1 ⟨q, lt_of_le_of_ne (not_lt.1 e3) e5⟩
  by_cases c3 : dir.x > 0 ∧ dir.x ≥ dir.y ∧ dir.x ≥ -dir.y
  · unfold cellsToGo
    unfold cellExit at h' ⊢
    simp only [if_neg hx, if_neg hy, if_neg c1, if_neg c2, if_pos c3] at h' ⊢
    split_ifs at h' ⊢ with e1 e2 e3 e4 e5
    · obtain ⟨b1, b2, b3, b4⟩ := h'
      exact lex_step _ _ _ _ _ _ _ a3 (by omega) b3 (le_sub_iff_add_le.2 (by linarith [b4])) (by ring)
    · obtain ⟨b1, b2, b3, b4⟩ := h'
      have := stepsAcross_down (nb := nc) (by omega) b3 e2
      dsimp only
      omega
    · obtain ⟨b1, b2, b3, b4⟩ := h'
      have := stepsAcross_up (nb := nc) (by dsimp only at b4; omega) a3 e3
      dsimp only
      omega
    · obtain ⟨b1, b2, b3, b4⟩ := h'
      exact lex_step _ _ _ _ _ _ _ a3 (by omega) b3 (le_sub_iff_add_le.2 (by linarith [b4])) (by ring)
    · obtain ⟨b1, b2, b3, b4⟩ := h'
      exact lex_step _ _ _ _ _ _ _ a3 (by omega) b3 (le_sub_iff_add_le.2 (by linarith [b4])) (by ring)
    · exfalso
      rcases lt_trichotomy (v0.y + ((s.colC : K) + 1 - v0.x) / dir.x * dir.y) (s.rowC : K) with q | q | q
      · exact e2 q
      · exact e4 q
      · exact e1 ⟨q, lt_of_le_of_ne (not_lt.1 e3) e5⟩
  have c4 := last_direction hx hy c1 c2 c3
  unfold cellsToGo
  unfold cellExit at h' ⊢
  simp only [if_neg hx, if_neg hy, if_neg c1, if_neg c2, if_neg c3, if_pos c4] at h' ⊢
  split_ifs at h' ⊢ with e1 e2 e3 e4 e5
  · obtain ⟨b1, b2, b3, b4⟩ := h'
    exact lex_step _ _ _ _ _ _ _ a1 (by omega) b1 (le_sub_iff_add_le.2 (by linarith [b2])) (by ring)
  · obtain ⟨b1, b2, b3, b4⟩ := h'
    have := stepsAcross_down (nb := nr) (by omega) b1 e2
    dsimp only
    omega
  · obtain ⟨b1, b2, b3, b4⟩ := h'
    have := stepsAcross_up (nb := nr) (by dsimp only at b2; omega) a1 e3
    dsimp only
    omega
  · obtain ⟨b1, b2, b3, b4⟩ := h'
    exact lex_step _ _ _ _ _ _ _ a1 (by omega) b1 (le_sub_iff_add_le.2 (by linarith [b2])) (by ring)
  · obtain ⟨b1, b2, b3, b4⟩ := h'
    exact lex_step _ _ _ _ _ _ _ a1 (by omega) b1 (le_sub_iff_add_le.2 (by linarith [b2])) (by ring)
  · exfalso
    rcases lt_trichotomy (v0.x + ((s.rowC : K) - v0.y) / dir.y * dir.x) (s.colC : K) with q | q | q
    · exact e2 q
    · exact e4 q
    · exact e1 ⟨q, lt_of_le_of_ne (not_lt.1 e3) e5⟩

/-- The cell loop never runs out of its fuel, from any state. -/
theorem marchCells_no_fuel_any (d : Dtm K) (N : ℕ) (v0 v1 : V3 K) (hd : v1.x - v0.x ≠ 0 ∨ v1.y - v0.y ≠ 0) :
    ∀ (n : ℕ) (s : March K), 0 < n →
      (marchInside d s = true → cellsToGo d.nbRows d.nbCols v0 (segDir v0 v1) s.colC s.rowC + 1 < n) →
      marchCells d N v0 v1 n s ≠ .inl .marchFuel := by
  intro n
  induction n with
  | zero => intro s h; exact absurd h (lt_irrefl 0)
  | succ n ih =>
    intro s _ hn
    rw [marchCells_succ]
    split_ifs with h1 h2
    · intro hcon
      injection hcon with hcon
      exact (falsi_not_marchFuel _ _ _ _ _ _).1 hcon
    · have hin := ((marchInside_iff d s).mp h1).2
      have hn := hn h1
      have hb := cellsToGo_bounds d.nbRows d.nbCols v0 (segDir v0 v1) hin
      refine ih _ (by push_cast at hn; omega) ?_
      intro h3
      have := cellsToGo_step d.nbRows d.nbCols v0 (segDir v0 v1) hd s hin ((marchInside_iff d _).mp h3).2
      push_cast at hn
      omega
    · simp

theorem cellsToGo_fuel (d : Dtm K) (v0 dir : V3 K) (s : March K) (h : marchInside d s = true) :
    cellsToGo d.nbRows d.nbCols v0 dir s.colC s.rowC + 1 < (cellFuel d : ℤ) := by
  have := (cellsToGo_bounds d.nbRows d.nbCols v0 dir ((marchInside_iff d s).mp h).2).2
  unfold cellFuel
  push_cast
  omega

end Shareloc
