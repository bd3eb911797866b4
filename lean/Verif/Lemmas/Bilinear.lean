import Verif.Model.Bilinear
import Verif.Spec.Raster

set_option linter.unusedSectionVars false
/-! Helper lemmas about bilinear interpolation and envelopes. -/

namespace Shareloc
open Spec
variable {K : Type*} [Field K] [LinearOrder K] [IsStrictOrderedRing K] [FloorRing K]

theorem lowerShift_range {nb : ℤ} (h : 2 ≤ nb) (pos : K) :
    0 ≤ lowerShift nb pos ∧ lowerShift nb pos + 1 ≤ nb - 1 := by
  unfold lowerShift
  split
  · omega
  · rename_i h0
    split
    · omega
    · rename_i h1
      have h0' := not_lt.mp h0
      have h1' := not_le.mp h1
      have a : 0 ≤ ⌊pos⌋ := Int.floor_nonneg.mpr h0'
      have b : ⌊pos⌋ < nb - 1 := Int.floor_lt.mpr h1'
      omega

/-- Inside the raster the cell contains the position. -/
theorem lowerShift_inside {nb : ℤ} {pos : K} (h0 : 0 ≤ pos) (h1 : pos ≤ nb - 1) :
    (lowerShift nb pos : K) ≤ pos ∧ pos ≤ lowerShift nb pos + 1 := by
  unfold lowerShift
  rw [if_neg (not_lt.mpr h0)]
  split
  · rename_i h
    push_cast at h ⊢
    constructor <;> linarith
  · exact ⟨Int.floor_le _, (Int.lt_floor_add_one _).le⟩

/-- In the closed interval `[i, i+1]` of a cell, the lower shift is `i`, or `i+1` at the far end. -/
theorem lowerShift_cell {nb i : ℤ} (hi0 : 0 ≤ i) (hi1 : i + 1 ≤ nb - 1) {pos : K}
    (h0 : (i : K) ≤ pos) (h1 : pos ≤ i + 1) :
    lowerShift nb pos = i ∨ (lowerShift nb pos = i + 1 ∧ pos = i + 1) := by
  have hi0' : (0 : K) ≤ i := by exact_mod_cast hi0
  have hi1' : (i : K) + 1 ≤ nb - 1 := by exact_mod_cast hi1
  unfold lowerShift
  rw [if_neg (not_lt.mpr (hi0'.trans h0))]
  split
  · rename_i h
    push_cast at h
    left
    have : (nb : K) - 1 = i + 1 := by linarith
    have h2 : nb - 1 = i + 1 := by exact_mod_cast this
    omega
  · rcases eq_or_lt_of_le h1 with he | hl
    · right
      refine ⟨?_, he⟩
      rw [he]
      have : ((i : K) + 1) = ((i + 1 : ℤ) : K) := by push_cast; rfl
      rw [this, Int.floor_intCast]
    · left
      rw [Int.floor_eq_iff]
      exact ⟨h0, hl⟩

/-- The bilinear form of a cell. -/
theorem interOne_bilinear (mat : ℤ → ℤ → K) (i j : ℤ) :
    IsBilinear (fun row col => interOne mat col row j i) ∧
    MatchesCell mat i j (fun row col => interOne mat col row j i) := by
  constructor
  · refine ⟨mat i j + j * (mat i j) - j * mat i (j + 1) + i * (mat i j) - i * mat (i + 1) j +
      i * j * (mat i j - mat i (j + 1) - mat (i + 1) j + mat (i + 1) (j + 1)),
      mat (i + 1) j - mat i j - j * (mat i j - mat i (j + 1) - mat (i + 1) j + mat (i + 1) (j + 1)),
      mat i (j + 1) - mat i j - i * (mat i j - mat i (j + 1) - mat (i + 1) j + mat (i + 1) (j + 1)),
      mat i j - mat i (j + 1) - mat (i + 1) j + mat (i + 1) (j + 1), ?_⟩
    intro row col
    simp only [interOne]
    ring
  · refine ⟨?_, ?_, ?_, ?_⟩ <;> simp only [interOne] <;> ring

theorem interpolBilin_eq_interOne (mat : ℤ → ℤ → K) (nbRows nbCols : ℤ) (row col : K) :
    interpolBilin mat nbRows nbCols row col =
      interOne mat col row (lowerShift nbCols col) (lowerShift nbRows row) := rfl

/-- On any closed cell, the interpolation is the bilinear form of that cell. -/
theorem interpolBilin_cell (mat : ℤ → ℤ → K) (nbRows nbCols i j : ℤ) (hc : IsCell nbRows nbCols i j)
    (row col : K) (hin : InCell i j row col) :
    interpolBilin mat nbRows nbCols row col = interOne mat col row j i := by
  obtain ⟨a1, a2, a3, a4⟩ := hc
  obtain ⟨b1, b2, b3, b4⟩ := hin
  rw [interpolBilin_eq_interOne]
  rcases lowerShift_cell a1 a2 b1 b2 with hr | ⟨hr, er⟩ <;>
  rcases lowerShift_cell a3 a4 b3 b4 with hcc | ⟨hcc, ec⟩ <;> rw [hr, hcc]
  · rw [ec]; simp only [interOne]; push_cast; ring
  · rw [er]; simp only [interOne]; push_cast; ring
  · rw [er, ec]; simp only [interOne]; push_cast; ring

/-- A bilinear combination with weights in [0,1] stays within bounds. -/
theorem interOne_between (mat : ℤ → ℤ → K) (i j : ℤ) (row col lo hi : K) (hin : InCell i j row col)
    (h00 : lo ≤ mat i j ∧ mat i j ≤ hi) (h01 : lo ≤ mat i (j + 1) ∧ mat i (j + 1) ≤ hi)
    (h10 : lo ≤ mat (i + 1) j ∧ mat (i + 1) j ≤ hi)
    (h11 : lo ≤ mat (i + 1) (j + 1) ∧ mat (i + 1) (j + 1) ≤ hi) :
    lo ≤ interOne mat col row j i ∧ interOne mat col row j i ≤ hi := by
  obtain ⟨b1, b2, b3, b4⟩ := hin
  simp only [interOne]
  have u0 : 0 ≤ col - j := by linarith
  have u1 : 0 ≤ 1 - (col - j) := by linarith
  have v0 : 0 ≤ row - i := by linarith
  have v1 : 0 ≤ 1 - (row - i) := by linarith
  have w00 := mul_nonneg u1 v1
  have w01 := mul_nonneg u0 v1
  have w10 := mul_nonneg u1 v0
  have w11 := mul_nonneg u0 v0
  constructor
  · have e1 := mul_le_mul_of_nonneg_left h00.1 w00
    have e2 := mul_le_mul_of_nonneg_left h01.1 w01
    have e3 := mul_le_mul_of_nonneg_left h10.1 w10
    have e4 := mul_le_mul_of_nonneg_left h11.1 w11
    nlinarith
  · have e1 := mul_le_mul_of_nonneg_left h00.2 w00
    have e2 := mul_le_mul_of_nonneg_left h01.2 w01
    have e3 := mul_le_mul_of_nonneg_left h10.2 w10
    have e4 := mul_le_mul_of_nonneg_left h11.2 w11
    nlinarith

theorem foldl_min_le (xs : List K) (x : K) :
    xs.foldl min x ≤ x ∧ (∀ y ∈ xs, xs.foldl min x ≤ y) ∧ (xs.foldl min x = x ∨ xs.foldl min x ∈ xs) := by
  induction xs generalizing x with
  | nil => simp
  | cons a xs ih =>
    obtain ⟨h1, h2, h3⟩ := ih (min x a)
    simp only [List.foldl_cons]
    refine ⟨h1.trans (min_le_left _ _), ?_, ?_⟩
    · intro y hy
      rcases List.mem_cons.mp hy with rfl | hy
      · exact h1.trans (min_le_right _ _)
      · exact h2 y hy
    · rcases h3 with h3 | h3
      · rcases min_choice x a with hm | hm
        · left; rw [h3, hm]
        · right; rw [h3, hm]; exact List.mem_cons_self
      · right; exact List.mem_cons_of_mem _ h3

theorem le_foldl_max (xs : List K) (x : K) :
    x ≤ xs.foldl max x ∧ (∀ y ∈ xs, y ≤ xs.foldl max x) ∧ (xs.foldl max x = x ∨ xs.foldl max x ∈ xs) := by
  induction xs generalizing x with
  | nil => simp
  | cons a xs ih =>
    obtain ⟨h1, h2, h3⟩ := ih (max x a)
    simp only [List.foldl_cons]
    refine ⟨(le_max_left _ _).trans h1, ?_, ?_⟩
    · intro y hy
      rcases List.mem_cons.mp hy with rfl | hy
      · exact (le_max_right _ _).trans h1
      · exact h2 y hy
    · rcases h3 with h3 | h3
      · rcases max_choice x a with hm | hm
        · left; rw [h3, hm]
        · right; rw [h3, hm]; exact List.mem_cons_self
      · right; exact List.mem_cons_of_mem _ h3

theorem listMin_spec {l : List K} (h : l ≠ []) : listMin l ∈ l ∧ ∀ y ∈ l, listMin l ≤ y := by
  cases l with
  | nil => exact absurd rfl h
  | cons x xs =>
    obtain ⟨h1, h2, h3⟩ := foldl_min_le xs x
    refine ⟨?_, ?_⟩
    · rcases h3 with h3 | h3
      · simp only [listMin, h3]; exact List.mem_cons_self
      · exact List.mem_cons_of_mem _ h3
    · intro y hy
      rcases List.mem_cons.mp hy with rfl | hy
      · exact h1
      · exact h2 y hy

theorem listMax_spec {l : List K} (h : l ≠ []) : listMax l ∈ l ∧ ∀ y ∈ l, y ≤ listMax l := by
  cases l with
  | nil => exact absurd rfl h
  | cons x xs =>
    obtain ⟨h1, h2, h3⟩ := le_foldl_max xs x
    refine ⟨?_, ?_⟩
    · rcases h3 with h3 | h3
      · simp only [listMax, h3]; exact List.mem_cons_self
      · exact List.mem_cons_of_mem _ h3
    · intro y hy
      rcases List.mem_cons.mp hy with rfl | hy
      · exact h1
      · exact h2 y hy

theorem mem_altValues (alt : ℤ → ℤ → K) (nr nc : ℕ) (z : K) :
    z ∈ altValues alt nr nc ↔ ∃ i j : ℤ, IsNode nr nc i j ∧ z = alt i j := by
  simp only [altValues, List.mem_flatMap, List.mem_range, List.mem_map, IsNode]
  constructor
  · rintro ⟨i, hi, j, hj, rfl⟩
    exact ⟨i, j, ⟨by omega, by omega, by omega, by omega⟩, rfl⟩
  · rintro ⟨i, j, ⟨h1, h2, h3, h4⟩, rfl⟩
    refine ⟨i.toNat, by omega, j.toNat, by omega, ?_⟩
    rw [Int.toNat_of_nonneg h1, Int.toNat_of_nonneg h3]

/-- Entry `n*i+j` of a list built row by row with rows of length `n`. -/
theorem flatMap_map_getElem? {α β : Type*} (f : ℕ → ℕ → α) (g : α → β) (n : ℕ) :
    ∀ (m i j : ℕ), i < m → j < n →
      (((List.range m).flatMap fun i => (List.range n).map fun j => f i j).map g)[n * i + j]? =
        some (g (f i j)) := by
  intro m
  induction m with
  | zero => intro i j hi; omega
  | succ m ih =>
    intro i j hi hj
    rw [List.range_succ, List.flatMap_append, List.map_append]
    have hlen : (((List.range m).flatMap fun i => (List.range n).map fun j => f i j).map g).length = m * n := by
      simp [List.length_flatMap]
    by_cases him : i < m
    · rw [List.getElem?_append_left]
      · exact ih i j him hj
      · rw [hlen]
        calc n * i + j < n * i + n := by omega
          _ = (i + 1) * n := by ring
          _ ≤ m * n := Nat.mul_le_mul_right _ him
    · have : i = m := by omega
      subst this
      rw [List.getElem?_append_right]
      · rw [hlen]
        have : n * i + j - i * n = j := by rw [Nat.mul_comm n i]; omega
        rw [this]
        simp [hj]
      · rw [hlen, Nat.mul_comm n i]; omega

end Shareloc
