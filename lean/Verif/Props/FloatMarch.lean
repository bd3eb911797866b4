import Verif.Model.FloatMarch
import Verif.Lemmas.MarchAny
import Verif.Props.March
import Verif.Props.FloatFalsi

/-!
C104: the march over the DTM cells ends, and visits no cell twice, whatever the rounding of the operations.
-/

set_option linter.unusedSectionVars false

namespace Shareloc
variable {K : Type*} [Field K] [LinearOrder K] [IsStrictOrderedRing K] [FloorRing K]

open Spec

/-- Steps left across the main direction, towards the cell that contains `y`. -/
def acrossA (y : K) (nb r : ℤ) : ℤ := if y < r then r else if y > r + 1 then nb - 2 - r else 0

theorem acrossA_bounds (y : K) {nb r : ℤ} (h0 : 0 ≤ r) (h1 : r ≤ nb - 2) : 0 ≤ acrossA y nb r ∧ acrossA y nb r ≤ nb - 2 := by
  unfold acrossA; split_ifs <;> omega

theorem acrossA_down {y : K} {nb r : ℤ} (h1 : r ≤ nb - 2) (hr : 0 ≤ r - 1) (h : y < r) :
    acrossA y nb (r - 1) < acrossA y nb r := by
  unfold acrossA
  rw [if_pos h]
  have : ¬ y > ((r - 1 : ℤ) : K) + 1 := by push_cast; linarith
  split_ifs <;> omega

theorem acrossA_up {y : K} {nb r : ℤ} (hr : r + 1 ≤ nb - 2) (h0 : 0 ≤ r) (h : y > r + 1) :
    acrossA y nb (r + 1) < acrossA y nb r := by
  unfold acrossA
  have h2 : ¬ y < (r : K) := by linarith
  have h3 : ¬ y < ((r + 1 : ℤ) : K) := by push_cast; linarith
  rw [if_neg h2, if_pos h, if_neg h3]
  split_ifs <;> omega

/-- Cells left before the loop ends, from any cell: the position across the main direction is computed by the program from the
index along it. -/
def toGoA (A : Arith K) (nr nc : ℤ) (v0 dir : V3 K) (c r : ℤ) : ℤ :=
  if dir.x = 0 then (if dir.y < 0 then r else nc - 2 - r)
  else if dir.y = 0 then (if dir.x < 0 then c else nr - 2 - c)
  else if dir.x < 0 ∧ dir.x ≤ dir.y ∧ dir.x ≤ -dir.y then
    c * (nc - 1) + acrossA (A.add v0.y (A.mul (A.div (A.sub (c : K) v0.x) dir.x) dir.y)) nc r
  else if dir.y > 0 ∧ dir.y ≥ dir.x ∧ dir.y ≥ -dir.x then
    (nc - 2 - r) * (nr - 1) + acrossA (A.add v0.x (A.mul (A.div (A.sub ((r : K) + 1) v0.y) dir.y) dir.x)) nr c
  else if dir.x > 0 ∧ dir.x ≥ dir.y ∧ dir.x ≥ -dir.y then
    (nr - 2 - c) * (nc - 1) + acrossA (A.add v0.y (A.mul (A.div (A.sub ((c : K) + 1) v0.x) dir.x) dir.y)) nc r
  else r * (nr - 1) + acrossA (A.add v0.x (A.mul (A.div (A.sub (r : K) v0.y) dir.y) dir.x)) nr c

theorem toGoA_bounds (A : Arith K) (nr nc : ℤ) (v0 dir : V3 K) {c r : ℤ} (h : IsCell nr nc c r) :
    0 ≤ toGoA A nr nc v0 dir c r ∧ toGoA A nr nc v0 dir c r ≤ (nr - 1) * (nc - 1) - 1 := by
  obtain ⟨a1, a2, a3, a4⟩ := h
  have bound : ∀ (m k w : ℤ) (y : K) (x : ℤ), 0 ≤ k → k ≤ m - 2 → 0 ≤ x → x ≤ w - 2 →
      0 ≤ k * (w - 1) + acrossA y w x ∧ k * (w - 1) + acrossA y w x ≤ (m - 1) * (w - 1) - 1 := by
    intro m k w y x hk0 hk1 hx0 hx1
    obtain ⟨s0, s1⟩ := acrossA_bounds y hx0 hx1
    have p : 0 ≤ k * (w - 1) := mul_nonneg hk0 (by omega)
    have q : k * (w - 1) ≤ (m - 2) * (w - 1) := mul_le_mul_of_nonneg_right hk1 (by omega)
    constructor
    · omega
    · nlinarith
  have e : (nc - 1) * (nr - 1) - 1 = (nr - 1) * (nc - 1) - 1 := by ring
  unfold toGoA
  split_ifs
  · exact ⟨a3, by nlinarith⟩
  · exact ⟨by omega, by nlinarith⟩
  · exact ⟨a1, by nlinarith⟩
  · exact ⟨by omega, by nlinarith⟩
  · exact bound nr c nc _ r a1 (by omega) a3 (by omega)
  · rw [← e]; exact bound nc (nc - 2 - r) nr _ c (by omega) (by omega) a1 (by omega)
  · exact bound nr (nr - 2 - c) nc _ r (by omega) (by omega) a3 (by omega)
  · rw [← e]; exact bound nc r nr _ c (by omega) (by omega) a1 (by omega)

theorem lexA_step (k k' w x x' : ℤ) (y y' : K) (hx0 : 0 ≤ x) (hx1 : x ≤ w - 2) (hx0' : 0 ≤ x') (hx1' : x' ≤ w - 2) (hk : k' = k - 1) :
    k' * (w - 1) + acrossA y' w x' < k * (w - 1) + acrossA y w x := by
  have a := (acrossA_bounds y hx0 hx1).1
  have b := (acrossA_bounds y' hx0' hx1').2
  subst hk
  nlinarith

theorem toGoA_step (A : Arith K) (nr nc : ℤ) (v0 dir : V3 K) (hd : dir.x ≠ 0 ∨ dir.y ≠ 0) (s : March K) (h : IsCell nr nc s.colC s.rowC)
    (h' : IsCell nr nc (cellExitA A v0 dir s).colC (cellExitA A v0 dir s).rowC) :
    toGoA A nr nc v0 dir (cellExitA A v0 dir s).colC (cellExitA A v0 dir s).rowC < toGoA A nr nc v0 dir s.colC s.rowC := by
  obtain ⟨a1, a2, a3, a4⟩ := h
  by_cases hx : dir.x = 0
  · by_cases hy : dir.y < 0 <;> simp [toGoA, cellExitA, hx, hy]
  by_cases hy : dir.y = 0
  · by_cases hx2 : dir.x < 0 <;> simp [toGoA, cellExitA, hx, hy, hx2]
  by_cases c1 : dir.x < 0 ∧ dir.x ≤ dir.y ∧ dir.x ≤ -dir.y
  · unfold toGoA
    unfold cellExitA at h' ⊢
    simp only [if_neg hx, if_neg hy, if_pos c1] at h' ⊢
    split_ifs at h' ⊢ with e1 e2 e3 e4 e5
    · obtain ⟨b1, b2, b3, b4⟩ := h'
      exact lexA_step _ _ _ _ _ _ _ a3 (by omega) b3 (le_sub_iff_add_le.2 (by linarith [b4])) (by ring)
    · obtain ⟨b1, b2, b3, b4⟩ := h'
      have := acrossA_down (nb := nc) (by omega) b3 e2
      dsimp only
      omega
    · obtain ⟨b1, b2, b3, b4⟩ := h'
      have := acrossA_up (nb := nc) (by dsimp only at b4; omega) a3 e3
      dsimp only
      omega
    · obtain ⟨b1, b2, b3, b4⟩ := h'
      exact lexA_step _ _ _ _ _ _ _ a3 (by omega) b3 (le_sub_iff_add_le.2 (by linarith [b4])) (by ring)
    · obtain ⟨b1, b2, b3, b4⟩ := h'
      exact lexA_step _ _ _ _ _ _ _ a3 (by omega) b3 (le_sub_iff_add_le.2 (by linarith [b4])) (by ring)
    · exfalso
      rcases lt_trichotomy (A.add v0.y (A.mul (A.div (A.sub ((s.colC : K)) v0.x) dir.x) dir.y)) (s.rowC : K) with q | q | q
      · exact e2 q
      · exact e4 q
      · exact e1 ⟨q, lt_of_le_of_ne (not_lt.1 e3) e5⟩
  by_cases c2 : dir.y > 0 ∧ dir.y ≥ dir.x ∧ dir.y ≥ -dir.x
  · unfold toGoA
    unfold cellExitA at h' ⊢
    simp only [if_neg hx, if_neg hy, if_neg c1, if_pos c2] at h' ⊢
    split_ifs at h' ⊢ with e1 e2 e3 e4 e5
    · obtain ⟨b1, b2, b3, b4⟩ := h'
      exact lexA_step _ _ _ _ _ _ _ a1 (by omega) b1 (le_sub_iff_add_le.2 (by linarith [b2])) (by ring)
    · obtain ⟨b1, b2, b3, b4⟩ := h'
      have := acrossA_down (nb := nr) (by omega) b1 e2
      dsimp only
      omega
    · obtain ⟨b1, b2, b3, b4⟩ := h'
      have := acrossA_up (nb := nr) (by dsimp only at b2; omega) a1 e3
      dsimp only
      omega
    · obtain ⟨b1, b2, b3, b4⟩ := h'
      exact lexA_step _ _ _ _ _ _ _ a1 (by omega) b1 (le_sub_iff_add_le.2 (by linarith [b2])) (by ring)
    · obtain ⟨b1, b2, b3, b4⟩ := h'
      exact lexA_step _ _ _ _ _ _ _ a1 (by omega) b1 (le_sub_iff_add_le.2 (by linarith [b2])) (by ring)
    · exfalso
      rcases lt_trichotomy (A.add v0.x (A.mul (A.div (A.sub ((s.rowC : K) + 1) v0.y) dir.y) dir.x)) (s.colC : K) with q | q | q
      · exact e2 q
      · exact e4 q
      · exact e1 ⟨q, lt_of_le_of_ne (not_lt.1 e3) e5⟩
  by_cases c3 : dir.x > 0 ∧ dir.x ≥ dir.y ∧ dir.x ≥ -dir.y
  · unfold toGoA
    unfold cellExitA at h' ⊢
    simp only [if_neg hx, if_neg hy, if_neg c1, if_neg c2, if_pos c3] at h' ⊢
    split_ifs at h' ⊢ with e1 e2 e3 e4 e5
    · obtain ⟨b1, b2, b3, b4⟩ := h'
      exact lexA_step _ _ _ _ _ _ _ a3 (by omega) b3 (le_sub_iff_add_le.2 (by linarith [b4])) (by ring)
    · obtain ⟨b1, b2, b3, b4⟩ := h'
      have := acrossA_down (nb := nc) (by omega) b3 e2
      dsimp only
      omega
    · obtain ⟨b1, b2, b3, b4⟩ := h'
      have := acrossA_up (nb := nc) (by dsimp only at b4; omega) a3 e3
      dsimp only
      omega
    · obtain ⟨b1, b2, b3, b4⟩ := h'
      exact lexA_step _ _ _ _ _ _ _ a3 (by omega) b3 (le_sub_iff_add_le.2 (by linarith [b4])) (by ring)
    · obtain ⟨b1, b2, b3, b4⟩ := h'
      exact lexA_step _ _ _ _ _ _ _ a3 (by omega) b3 (le_sub_iff_add_le.2 (by linarith [b4])) (by ring)
    · exfalso
      rcases lt_trichotomy (A.add v0.y (A.mul (A.div (A.sub ((s.colC : K) + 1) v0.x) dir.x) dir.y)) (s.rowC : K) with q | q | q
      · exact e2 q
      · exact e4 q
      · exact e1 ⟨q, lt_of_le_of_ne (not_lt.1 e3) e5⟩
  have c4 := last_direction hx hy c1 c2 c3
  unfold toGoA
  unfold cellExitA at h' ⊢
  simp only [if_neg hx, if_neg hy, if_neg c1, if_neg c2, if_neg c3, if_pos c4] at h' ⊢
  split_ifs at h' ⊢ with e1 e2 e3 e4 e5
  · obtain ⟨b1, b2, b3, b4⟩ := h'
    exact lexA_step _ _ _ _ _ _ _ a1 (by omega) b1 (le_sub_iff_add_le.2 (by linarith [b2])) (by ring)
  · obtain ⟨b1, b2, b3, b4⟩ := h'
    have := acrossA_down (nb := nr) (by omega) b1 e2
    dsimp only
    omega
  · obtain ⟨b1, b2, b3, b4⟩ := h'
    have := acrossA_up (nb := nr) (by dsimp only at b2; omega) a1 e3
    dsimp only
    omega
  · obtain ⟨b1, b2, b3, b4⟩ := h'
    exact lexA_step _ _ _ _ _ _ _ a1 (by omega) b1 (le_sub_iff_add_le.2 (by linarith [b2])) (by ring)
  · obtain ⟨b1, b2, b3, b4⟩ := h'
    exact lexA_step _ _ _ _ _ _ _ a1 (by omega) b1 (le_sub_iff_add_le.2 (by linarith [b2])) (by ring)
  · exfalso
    rcases lt_trichotomy (A.add v0.x (A.mul (A.div (A.sub ((s.rowC : K)) v0.y) dir.y) dir.x)) (s.colC : K) with q | q | q
    · exact e2 q
    · exact e4 q
    · exact e1 ⟨q, lt_of_le_of_ne (not_lt.1 e3) e5⟩


theorem marchInsideA_iff (G : GroundA K) (s : March K) : marchInsideA G s = true ↔ s.a2 < 1 ∧ IsCell G.nbRows G.nbCols s.colC s.rowC := by
  simp only [marchInsideA, Bool.and_eq_true, decide_eq_true_eq, IsCell]
  constructor
  · rintro ⟨⟨⟨⟨h1, h2⟩, h3⟩, h4⟩, h5⟩
    exact ⟨h1, by omega, by omega, by omega, by omega⟩
  · rintro ⟨h1, h2, h3, h4, h5⟩
    exact ⟨⟨⟨⟨h1, by omega⟩, by omega⟩, by omega⟩, by omega⟩

theorem falsiA_outcome (A : Arith K) (G : GroundA K) : ∀ (n : ℕ) (p1 p2 : V3 K) (a h : K),
    falsiA A G n p1 a p2 h ≠ .marchFuel ∧ falsiA A G n p1 a p2 h ≠ .notFound := by
  intro n
  induction n with
  | zero => intro p1 p2 a h; simp [falsiA]
  | succ n ih =>
    intro p1 p2 a h
    simp only [falsiA]
    split_ifs
    · simp
    · exact ih _ _ _ _
    · exact ih _ _ _ _
    · simp

/-- One turn of the cell loop. -/
theorem marchCellsA_succ (A : Arith K) (G : GroundA K) (N : ℕ) (v0 v1 dir : V3 K) (n : ℕ) (s : March K) :
    marchCellsA A G N v0 v1 dir (n + 1) s =
    if marchInsideA G s then
      if bIntersect v0.z v1.z (G.lowCell s.colC s.rowC) (G.highCell s.colC s.rowC) s.p2.z (cellExitA A v0 dir s).p2.z = true ∧
        A.mul (A.sub s.p2.z (G.interp s.p2.x s.p2.y)) (A.sub (cellExitA A v0 dir s).p2.z
          (G.interp (cellExitA A v0 dir s).p2.x (cellExitA A v0 dir s).p2.y)) ≤ 0 then
        .inl (falsiA A G N s.p2 (G.interp s.p2.x s.p2.y) (cellExitA A v0 dir s).p2
          (G.interp (cellExitA A v0 dir s).p2.x (cellExitA A v0 dir s).p2.y))
      else marchCellsA A G N v0 v1 dir n (cellExitA A v0 dir s)
    else .inr s := by
  rw [marchCellsA]
  simp only [ite_and]

theorem marchCellsA_no_fuel (A : Arith K) (G : GroundA K) (N : ℕ) (v0 v1 dir : V3 K) (hd : dir.x ≠ 0 ∨ dir.y ≠ 0) :
    ∀ (n : ℕ) (s : March K), 0 < n →
      (marchInsideA G s = true → toGoA A G.nbRows G.nbCols v0 dir s.colC s.rowC + 1 < n) →
      marchCellsA A G N v0 v1 dir n s ≠ .inl .marchFuel := by
  intro n
  induction n with
  | zero => intro s h; exact absurd h (lt_irrefl 0)
  | succ n ih =>
    intro s _ hn
    rw [marchCellsA_succ]
    split_ifs with h1 h2
    · intro hcon
      injection hcon with hcon
      exact (falsiA_outcome A G _ _ _ _ _).1 hcon
    · have hin := ((marchInsideA_iff G s).mp h1).2
      have hn := hn h1
      have hb := toGoA_bounds A G.nbRows G.nbCols v0 dir hin
      refine ih _ (by push_cast at hn; omega) ?_
      intro h3
      have := toGoA_step A G.nbRows G.nbCols v0 dir hd s hin ((marchInsideA_iff G _).mp h3).2
      push_cast at hn
      omega
    · simp

theorem toGoA_fuel (A : Arith K) (G : GroundA K) (v0 dir : V3 K) (s : March K) (h : marchInsideA G s = true) :
    toGoA A G.nbRows G.nbCols v0 dir s.colC s.rowC + 1 < (cellFuelA G : ℤ) := by
  have hc := ((marchInsideA_iff G s).mp h).2
  have := (toGoA_bounds A G.nbRows G.nbCols v0 dir hc).2
  obtain ⟨a1, a2, a3, a4⟩ := hc
  have e : ((cellFuelA G : ℕ) : ℤ) = ((G.nbRows : ℤ) - 1) * ((G.nbCols : ℤ) - 1) + 1 := by
    unfold cellFuelA
    rw [Nat.cast_add, Nat.cast_mul, Nat.cast_sub (by omega), Nat.cast_sub (by omega)]
    push_cast; ring
  omega

theorem marchPlanesA_no_fuel (A : Arith K) (impl : Impl) (G : GroundA K) (N : ℕ) (los : List (V3 K)) :
    ∀ (n : ℕ) (i0 : ℤ) (p2 : V3 K) (hp2 : K), (los.length : ℤ) - 1 - i0 < n → 0 < n →
      marchPlanesA A impl G N los n i0 p2 hp2 ≠ .marchFuel := by
  intro n
  induction n with
  | zero => intro i0 p2 hp2 _ h; exact absurd h (lt_irrefl 0)
  | succ n ih =>
    intro i0 p2 hp2 hn _
    rw [marchPlanesA]
    by_cases hlt : i0 < (los.length : ℤ) - 1
    swap
    · rw [if_neg hlt]; simp
    rw [if_pos hlt]
    push_cast at hn
    dsimp only
    generalize (if A.sub hp2 (i0 : K) ≥ 1 then 0 else A.sub hp2 (i0 : K)) = a2
    split_ifs with h2 h3 h4
    · simp
    · exact ih (i0 + 1) p2 hp2 (by omega) (by omega)
    · simp
    · have hdir : A.sub (pyGet los (i0 + 1)).x (pyGet los i0).x ≠ 0 ∨ A.sub (pyGet los (i0 + 1)).y (pyGet los i0).y ≠ 0 := by
        by_contra hcon
        push Not at hcon
        exact h2 hcon
      have hnf := fun s => marchCellsA_no_fuel A G N (pyGet los i0) (pyGet los (i0 + 1))
        ⟨A.sub (pyGet los (i0 + 1)).x (pyGet los i0).x, A.sub (pyGet los (i0 + 1)).y (pyGet los i0).y,
          A.sub (pyGet los (i0 + 1)).z (pyGet los i0).z⟩ hdir (cellFuelA G) s (Nat.succ_pos _) (fun h => toGoA_fuel A G _ _ s h)
      split
      · rename_i o ho
        intro hcon
        rw [hcon] at ho
        exact hnf _ ho
      · split_ifs
        · exact ih (i0 + 1) _ _ (by omega) (by omega)
        · simp

/-- C104. Whatever the four operations compute (rounded or not), whatever the interpolated altitudes and the altitudes of the cells, the
march ends by itself: on each segment of the line of sight the cell loop makes at most as many turns as the DTM has cells
(`cellFuelA`), and the segment loop at most one turn per vertex. -/
theorem C104_march_ends (A : Arith K) (impl : Impl) (G : GroundA K) (N : ℕ) (los : List (V3 K)) (pb : V3 K) (h : K) (h0 : -1 ≤ h) :
    intersectionA A impl G N los pb h ≠ .marchFuel := by
  unfold intersectionA
  split_ifs
  · simp
  have : -1 ≤ ⌊h⌋ := Int.le_floor.2 (by push_cast; exact h0)
  exact marchPlanesA_no_fuel A impl G N los _ _ pb h (by push_cast; omega) (by omega)

theorem toGoA_iterate (A : Arith K) (G : GroundA K) (v0 dir : V3 K) (hd : dir.x ≠ 0 ∨ dir.y ≠ 0) (s : March K) (k : ℕ) :
    ∀ m : ℕ, (∀ i ≤ k + (m + 1), marchInsideA G ((cellExitA A v0 dir)^[i] s) = true) →
      toGoA A G.nbRows G.nbCols v0 dir ((cellExitA A v0 dir)^[k + (m + 1)] s).colC ((cellExitA A v0 dir)^[k + (m + 1)] s).rowC <
        toGoA A G.nbRows G.nbCols v0 dir ((cellExitA A v0 dir)^[k] s).colC ((cellExitA A v0 dir)^[k] s).rowC := by
  intro m
  have one : ∀ j, marchInsideA G ((cellExitA A v0 dir)^[j] s) = true → marchInsideA G ((cellExitA A v0 dir)^[j + 1] s) = true →
      toGoA A G.nbRows G.nbCols v0 dir ((cellExitA A v0 dir)^[j + 1] s).colC ((cellExitA A v0 dir)^[j + 1] s).rowC <
        toGoA A G.nbRows G.nbCols v0 dir ((cellExitA A v0 dir)^[j] s).colC ((cellExitA A v0 dir)^[j] s).rowC := by
    intro j h1 h2
    rw [Function.iterate_succ_apply'] at h2 ⊢
    exact toGoA_step A G.nbRows G.nbCols v0 dir hd _ ((marchInsideA_iff G _).mp h1).2 ((marchInsideA_iff G _).mp h2).2
  induction m with
  | zero => intro h; exact one k (h _ (by omega)) (h _ (by omega))
  | succ m ih =>
    intro h
    have a := ih fun i hi => h i (by omega)
    have b := one (k + (m + 1)) (h _ (by omega)) (h _ (by omega))
    exact lt_trans b a

/-- C104. The cell loop on a segment visits no cell of the DTM twice, whatever the four operations compute, from any cell:
`(cellExitA A v0 dir)^[i] s` is the state of the loop after `i` turns. -/
theorem C104_no_cell_twice (A : Arith K) (G : GroundA K) (v0 dir : V3 K) (hd : dir.x ≠ 0 ∨ dir.y ≠ 0) (s : March K) (k l : ℕ)
    (hkl : k < l) (hin : ∀ i ≤ l, marchInsideA G ((cellExitA A v0 dir)^[i] s) = true) :
    ((cellExitA A v0 dir)^[k] s).colC ≠ ((cellExitA A v0 dir)^[l] s).colC ∨
      ((cellExitA A v0 dir)^[k] s).rowC ≠ ((cellExitA A v0 dir)^[l] s).rowC := by
  by_contra hcon
  push Not at hcon
  obtain ⟨m, rfl⟩ : ∃ m, l = k + (m + 1) := ⟨l - k - 1, by omega⟩
  have := toGoA_iterate A G v0 dir hd s k m hin
  rw [hcon.1, hcon.2] at this
  exact lt_irrefl _ this

/-! ### The points found -/

/-- What the regula falsi returns is within the tolerance of the altitude computed there. -/
theorem falsiA_found (A : Arith K) (G : GroundA K) (q : V3 K) : ∀ (n : ℕ) (p1 p2 : V3 K) (a h : K),
    falsiA A G n p1 a p2 h = .found q → |A.sub (G.interp q.x q.y) q.z| ≤ G.tol := by
  intro n
  induction n with
  | zero => intro p1 p2 a h hq; simp [falsiA] at hq
  | succ n ih =>
    intro p1 p2 a h hq
    simp only [falsiA] at hq
    split_ifs at hq with h1 h2 h3
    · exact ih _ _ _ _ hq
    · exact ih _ _ _ _ hq
    · simp only [Outcome.found.injEq] at hq
      subst hq
      exact not_lt.1 h2

theorem marchCellsA_found (A : Arith K) (G : GroundA K) (N : ℕ) (v0 v1 dir q : V3 K) : ∀ (n : ℕ) (s : March K),
    marchCellsA A G N v0 v1 dir n s = .inl (.found q) → ∃ p1 p2 a h, falsiA A G N p1 a p2 h = .found q ∧
      a = G.interp p1.x p1.y ∧ h = G.interp p2.x p2.y := by
  intro n
  induction n with
  | zero => intro s h; simp [marchCellsA] at h
  | succ n ih =>
    intro s h
    rw [marchCellsA_succ] at h
    split_ifs at h
    · exact ⟨_, _, _, _, Sum.inl.inj h, rfl, rfl⟩
    · exact ih _ h

theorem marchPlanesA_found (A : Arith K) (impl : Impl) (G : GroundA K) (N : ℕ) (los : List (V3 K)) (q : V3 K) :
    ∀ (n : ℕ) (i0 : ℤ) (p2 : V3 K) (hp2 : K), marchPlanesA A impl G N los n i0 p2 hp2 = .found q →
      q.z = G.interp q.x q.y ∨ ∃ p1 p2 a h, falsiA A G N p1 a p2 h = .found q ∧ a = G.interp p1.x p1.y ∧ h = G.interp p2.x p2.y := by
  intro n
  induction n with
  | zero => intro i0 p2 hp2 h; simp [marchPlanesA] at h
  | succ n ih =>
    intro i0 p2 hp2 h
    rw [marchPlanesA] at h
    by_cases hlt : i0 < (los.length : ℤ) - 1
    swap
    · rw [if_neg hlt] at h; simp at h
    rw [if_pos hlt] at h
    dsimp only at h
    generalize (if A.sub hp2 (i0 : K) ≥ 1 then 0 else A.sub hp2 (i0 : K)) = a2 at h
    split_ifs at h with h2 h3 h4
    · left
      simp only [Outcome.found.injEq] at h
      rw [← h]
    · exact ih _ _ _ h
    · split at h
      · rename_i o ho
        rw [h] at ho
        exact .inr (marchCellsA_found A G N _ _ _ q _ _ ho)
      · split_ifs at h
        exact ih _ _ _ h

theorem intersectionA_found (A : Arith K) (impl : Impl) (G : GroundA K) (N : ℕ) (los : List (V3 K)) (pb : V3 K) (h : K) (q : V3 K)
    (hq : intersectionA A impl G N los pb h = .found q) :
    q.z = G.interp q.x q.y ∨ ∃ p1 p2 a h, falsiA A G N p1 a p2 h = .found q ∧ a = G.interp p1.x p1.y ∧ h = G.interp p2.x p2.y := by
  unfold intersectionA at hq
  split_ifs at hq
  exact marchPlanesA_found A impl G N los q _ _ _ _ hq

/-- C104. Whatever the four operations compute, a point found has the altitude that the program computes there, or the difference that
it computes with it is at most its tolerance. -/
theorem C104_found (A : Arith K) (impl : Impl) (G : GroundA K) (N : ℕ) (los : List (V3 K)) (pb : V3 K) (h : K) (q : V3 K)
    (hq : intersectionA A impl G N los pb h = .found q) :
    q.z = G.interp q.x q.y ∨ |A.sub (G.interp q.x q.y) q.z| ≤ G.tol := by
  rcases intersectionA_found A impl G N los pb h q hq with e | ⟨p1, p2, a, b, e, -, -⟩
  · exact .inl e
  · exact .inr (falsiA_found A G q N p1 p2 a b e)

/-! ### Operations that round -/

/-- The four operations round with a relative error of at most `u`. -/
structure Arith.RoundsBy (A : Arith K) (u : K) : Prop where
  add : ∀ x y, Rounds u (x + y) (A.add x y)
  sub : ∀ x y, Rounds u (x - y) (A.sub x y)
  mul : ∀ x y, Rounds u (x * y) (A.mul x y)
  div : ∀ x y, y ≠ 0 → Rounds u (x / y) (A.div x y)

theorem falsiA_float {A : Arith K} {u : K} (hA : A.RoundsBy u) (G : GroundA K) (mat : ℤ → ℤ → K) (nr nc : ℤ)
    (hG : ∀ x y, FloatBilin u mat nr nc x y (G.interp x y)) (q : V3 K) : ∀ (n : ℕ) (p1 p2 : V3 K) (a h : K),
    falsiA A G n p1 a p2 h = .found q → FloatFalsi u G.tol mat nr nc p1 a p2 h q := by
  intro n
  induction n with
  | zero => intro p1 p2 a h hq; simp [falsiA] at hq
  | succ n ih =>
    intro p1 p2 a h hq
    simp only [falsiA] at hq
    by_cases h1 : A.sub (A.sub h a) (A.sub p2.z p1.z) = 0
    · rw [if_pos h1] at hq; simp at hq
    rw [if_neg h1] at hq
    have ht : ∀ p : V3 K, p = ⟨A.add p1.x (A.mul (A.div (A.sub p1.z a) (A.sub (A.sub h a) (A.sub p2.z p1.z))) (A.sub p2.x p1.x)),
        A.add p1.y (A.mul (A.div (A.sub p1.z a) (A.sub (A.sub h a) (A.sub p2.z p1.z))) (A.sub p2.y p1.y)),
        A.add p1.z (A.mul (A.div (A.sub p1.z a) (A.sub (A.sub h a) (A.sub p2.z p1.z))) (A.sub p2.z p1.z))⟩ →
        FloatTurn u mat nr nc p1 a p2 h p (G.interp p.x p.y) (A.sub (G.interp p.x p.y) p.z) := by
      intro p hp
      subst hp
      exact ⟨_, _, _, _, _, hA.sub _ _, hA.sub _ _, hA.sub _ _, hA.sub _ _, h1, hA.div _ _ h1,
        ⟨_, _, hA.sub _ _, hA.mul _ _, hA.add _ _⟩, ⟨_, _, hA.sub _ _, hA.mul _ _, hA.add _ _⟩,
        ⟨_, _, hA.sub _ _, hA.mul _ _, hA.add _ _⟩, hG _ _, hA.sub _ _⟩
    have ht := ht _ rfl
    split_ifs at hq with h2 h3
    · exact .top ht h2 h3 (ih _ _ _ _ hq)
    · exact .low ht h2 h3 (ih _ _ _ _ hq)
    · simp only [Outcome.found.injEq] at hq
      subst hq
      exact .stop ht (not_lt.1 h2)

/-- C104. When the four operations and the interpolation round as floating point ones do, the points found are among those of C91. -/
theorem C104_found_float {A : Arith K} {u : K} (hA : A.RoundsBy u) (impl : Impl) (G : GroundA K) (mat : ℤ → ℤ → K)
    (hG : ∀ x y, FloatBilin u mat G.nbRows G.nbCols x y (G.interp x y)) (N : ℕ) (los : List (V3 K)) (pb : V3 K) (h : K) (q : V3 K)
    (hq : intersectionA A impl G N los pb h = .found q) : FloatFound u G.tol mat G.nbRows G.nbCols q := by
  rcases intersectionA_found A impl G N los pb h q hq with e | ⟨p1, p2, a, b, e, -, -⟩
  · have := FloatFound.vertical (tol := G.tol) (hG q.x q.y)
    rw [← e] at this
    exact this
  · exact .crossing (falsiA_float hA G mat G.nbRows G.nbCols hG q N p1 p2 a b e)

/-- C104. The whole intersection in double precision: with at most a million rows and columns, an origin at most ten million pixels
away, altitudes of at most 10000 metres and steps of at most 1000 metres between neighbours, the ground point computed from a point
found, when inside the footprint of the pixel centres, has the altitude of the exact bilinear surface to 0.00015 metre. -/
theorem C104_altitude_double {A : Arith K} (hA : A.RoundsBy doubleUnit) (impl : Impl) (G : GroundA K) (mat : ℤ → ℤ → K)
    (hG : ∀ x y, FloatBilin doubleUnit mat G.nbRows G.nbCols x y (G.interp x y)) (htol : Rounds doubleUnit (1 / 10000) G.tol)
    (hn : 2 ≤ G.nbRows) (hm : 2 ≤ G.nbCols) (hn1 : G.nbRows ≤ 1000000) (hm1 : G.nbCols ≤ 1000000)
    (hH : ∀ a b, IsNode G.nbRows G.nbCols a b → |mat a b| ≤ 10000)
    (hS : ∀ i j i' j', IsNode G.nbRows G.nbCols i j → IsNode G.nbRows G.nbCols i' j' → |i' - i| + |j' - j| = 1 →
      |mat i' j' - mat i j| ≤ 1000)
    (t : Affine K) (hb : t.b = 0) (hd : t.d = 0) (ha : t.a ≠ 0) (he : t.e ≠ 0) (hc : |t.c / t.a| ≤ 10000000)
    (hf : |t.f / t.e| ≤ 10000000) (N : ℕ) (los : List (V3 K)) (pb : V3 K) (h : K) (q p : V3 K)
    (hq : intersectionA A impl G N los pb h = .found q) (hp : FloatIndexToPhysical doubleUnit t q.x q.y p.x p.y) (hz : p.z = q.z)
    (row col : K) (hcol : t.a * (col + 1 / 2) + t.c = p.x) (hrow : t.e * (row + 1 / 2) + t.f = p.y)
    (hr0 : 0 ≤ row) (hr1 : row ≤ G.nbRows - 1) (hc0 : 0 ≤ col) (hc1 : col ≤ G.nbCols - 1) :
    |p.z - interpolBilin mat G.nbRows G.nbCols row col| ≤ 15 / 100000 :=
  C91_altitude_double htol G.nbRows G.nbCols hn hm hn1 hm1 mat hH hS t hb hd ha he hc hf p
    ⟨q, C104_found_float hA impl G mat hG N los pb h q hq, hp, hz⟩ row col hcol hrow hr0 hr1 hc0 hc1

/-! ### The exact operations -/

theorem cellExitA_exact (v0 dir : V3 K) (s : March K) : cellExitA Arith.exact v0 dir s = cellExit v0 dir s := rfl

theorem falsiA_exact (d : Dtm K) : ∀ (n : ℕ) (p1 p2 : V3 K) (a h : K),
    falsiA Arith.exact d.ground n p1 a p2 h = falsi d.interpolate n p1 a p2 h := by
  intro n
  induction n with
  | zero => intro p1 p2 a h; rfl
  | succ n ih =>
    intro p1 p2 a h
    simp only [falsiA, falsi, ih]
    rfl

theorem marchCellsA_exact (d : Dtm K) (N : ℕ) (v0 v1 : V3 K) : ∀ (n : ℕ) (s : March K),
    marchCellsA Arith.exact d.ground N v0 v1 (segDir v0 v1) n s = marchCells d N v0 v1 n s := by
  intro n
  induction n with
  | zero => intro s; rfl
  | succ n ih =>
    intro s
    rw [marchCellsA_succ, marchCells_succ]
    simp only [cellExitA_exact, falsiA_exact, ih]
    rfl

theorem marchCells_more_fuel (d : Dtm K) (N : ℕ) (v0 v1 : V3 K) : ∀ (n : ℕ) (s : March K) (m : ℕ),
    marchCells d N v0 v1 n s ≠ .inl .marchFuel → n ≤ m → marchCells d N v0 v1 m s = marchCells d N v0 v1 n s := by
  intro n
  induction n with
  | zero => intro s m h; simp [marchCells] at h
  | succ n ih =>
    intro s m h hm
    obtain ⟨m, rfl⟩ : ∃ m', m = m' + 1 := ⟨m - 1, by omega⟩
    rw [marchCells_succ] at h
    rw [marchCells_succ, marchCells_succ]
    split_ifs at h ⊢
    · rfl
    · exact ih _ m h (by omega)
    · rfl

theorem marchPlanesA_exact (impl : Impl) (d : Dtm K) (N : ℕ) (los : List (V3 K)) :
    ∀ (n : ℕ) (i0 : ℤ) (p2 : V3 K) (hp2 : K),
      marchPlanesA Arith.exact impl d.ground N los n i0 p2 hp2 = marchPlanes impl d N los n i0 p2 hp2 := by
  intro n
  induction n with
  | zero => intro i0 p2 hp2; rfl
  | succ n ih =>
    intro i0 p2 hp2
    have hc : ∀ i s, ((pyGet los (i + 1)).x - (pyGet los i).x ≠ 0 ∨ (pyGet los (i + 1)).y - (pyGet los i).y ≠ 0) →
        marchCellsA Arith.exact d.ground N (pyGet los i) (pyGet los (i + 1))
          (segDir (pyGet los i) (pyGet los (i + 1))) (cellFuelA d.ground) s =
        marchCells d N (pyGet los i) (pyGet los (i + 1)) (cellFuel d) s := by
      intro i s hd
      rw [marchCellsA_exact]
      symm
      apply marchCells_more_fuel
      · rw [← marchCellsA_exact]
        exact marchCellsA_no_fuel _ _ _ _ _ _ hd _ _ (Nat.succ_pos _) (fun h => toGoA_fuel _ _ _ _ s h)
      · have h1 : (d.ground.nbRows - 1) * (d.ground.nbCols - 1) ≤ d.nbRows * d.nbCols :=
          Nat.mul_le_mul (Nat.sub_le _ _) (Nat.sub_le _ _)
        unfold cellFuelA cellFuel
        omega
    rw [marchPlanesA, marchPlanes]
    split_ifs with h1
    · dsimp only [Arith.exact]
      by_cases h2 : (pyGet los (i0 + 1)).x - (pyGet los i0).x = 0 ∧ (pyGet los (i0 + 1)).y - (pyGet los i0).y = 0
      · rw [if_pos h2, if_pos h2]
        split_ifs with h3 h4 h5
        · rfl
        · exact absurd h3 h4
        · exact absurd h5 h3
        · exact ih _ _ _
      · rw [if_neg h2, if_neg h2]
        have hd : (pyGet los (i0 + 1)).x - (pyGet los i0).x ≠ 0 ∨ (pyGet los (i0 + 1)).y - (pyGet los i0).y ≠ 0 := by
          by_contra hcon
          push Not at hcon
          exact h2 hcon
        have hcs := fun s => hc i0 s hd
        have ih' := ih
        simp only [segDir, Arith.exact] at hcs ih'
        simp only [hcs, ih']
        have hin : ∀ t : March K, marchInsideA d.ground t = marchInside d t := fun _ => rfl
        simp only [hin]
        generalize (if hp2 - (i0 : K) ≥ 1 then (0 : K) else hp2 - i0) = a2
        by_cases h3 : (!marchInside d ⟨p2, startCell impl p2.x ((pyGet los (i0 + 1)).x - (pyGet los i0).x),
          startCell impl p2.y ((pyGet los (i0 + 1)).y - (pyGet los i0).y), a2⟩) = true
        · rw [if_pos h3, if_pos h3]
        · rw [if_neg h3, if_neg h3]
          generalize marchCells d N (pyGet los i0) (pyGet los (i0 + 1)) (cellFuel d) _ = o
          cases o <;> rfl
    · rfl

/-- C104. With exact operations this is the intersection of C14 to C18. -/
theorem C104_exact (impl : Impl) (d : Dtm K) (N : ℕ) (los : List (V3 K)) (pb : V3 K) (h : K) :
    intersectionA Arith.exact impl d.ground N los pb h = intersectionIdx impl d N los pb h := by
  unfold intersectionA intersectionIdx
  rw [marchPlanesA_exact]
  rfl

/-! ### The hypotheses are met -/

/-- The operations in double precision (unbounded exponent). -/
def arith53 : Arith ℚ := ⟨fun x y => rnd53 (x + y), fun x y => rnd53 (x - y), fun x y => rnd53 (x * y), fun x y => rnd53 (x / y)⟩

theorem arith53_rounds : arith53.RoundsBy doubleUnit :=
  ⟨fun _ _ => rnd53_rounds _, fun _ _ => rnd53_rounds _, fun _ _ => rnd53_rounds _, fun _ _ _ => rnd53_rounds _⟩

/-- A slope of 10 metres per row and a third of a metre per column, interpolated in double precision. -/
def slopeGround : GroundA ℚ :=
  ⟨bilRun rnd53 slopeMat 5 5, altMinCellPy slopeMat, altMaxCellPy slopeMat, 5, 5, rnd53 (1 / 10000)⟩

theorem slopeGround_float (x y : ℚ) : FloatBilin doubleUnit slopeMat 5 5 x y (slopeGround.interp x y) :=
  ⟨_, _, _, rnd53_rounds _, rnd53_rounds _, .refl _, FExpr.run_computes rnd53_rounds _ _⟩

/-- A line of sight that leaves the first two rows and columns of cells before the regula falsi; the altitude found is not the exact one. -/
example : ∃ q, intersectionA arith53 .py slopeGround 10 [⟨1 / 3, 1 / 7, 200⟩, ⟨15 / 4, 11 / 3, 110⟩] ⟨1 / 3, 1 / 7, 200⟩ 0 = .found q ∧
    2 < q.x ∧ q.x < 4 ∧ 2 < q.y ∧ q.y < 4 ∧ q.z ≠ interpolBilin slopeMat 5 5 q.x q.y ∧
    |q.z - interpolBilin slopeMat 5 5 q.x q.y| ≤ 15 / 100000 := by
  refine ⟨(match intersectionA arith53 .py slopeGround 10 [⟨1 / 3, 1 / 7, 200⟩, ⟨15 / 4, 11 / 3, 110⟩] ⟨1 / 3, 1 / 7, 200⟩ 0 with
    | .found q => q | _ => ⟨0, 0, 0⟩), ?_⟩
  decide +kernel

/-- A division that always computes zero: the march ends. -/
example : intersectionA ⟨fun x y => x + y, fun x y => x - y, fun x y => x * y, fun _ _ => 0⟩ .py slopeGround 10
    [⟨1 / 3, 1 / 7, 200⟩, ⟨15 / 4, 11 / 3, 110⟩] ⟨1 / 3, 1 / 7, 200⟩ (0 : ℚ) ≠ .marchFuel :=
  C104_march_ends _ _ _ _ _ _ _ (by norm_num)

/-- Four turns of the cell loop inside the DTM in double precision. -/
example : ∀ i ≤ 4, marchInsideA slopeGround ((cellExitA arith53 ⟨1 / 3, 1 / 7, 200⟩ ⟨41 / 12, 74 / 21, -90⟩)^[i]
    ⟨⟨1 / 3, 1 / 7, 200⟩, 0, 0, 0⟩) = true := by
  decide +kernel

end Shareloc
