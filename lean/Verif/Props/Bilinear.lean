import Verif.Lemmas.Bilinear

set_option linter.unusedSectionVars false
/-! Properties C06 to C11: bilinear interpolation and altitude envelopes. -/

namespace Shareloc
open Spec
variable {K : Type*} [Field K] [LinearOrder K] [IsStrictOrderedRing K] [FloorRing K]

/-- C06: reading an `nbRows x nbCols` raster through a partial function that is defined exactly on its
nodes, the interpolation never fails, whatever the position. -/
theorem C06_never_out_of_range (get : ℤ → ℤ → Option K) (nbRows nbCols : ℤ) (hr : 2 ≤ nbRows)
    (hc : 2 ≤ nbCols) (hget : ∀ i j, IsNode nbRows nbCols i j → (get i j).isSome) (row col : K) :
    (interpolBilinChecked get nbRows nbCols row col).isSome := by
  obtain ⟨a1, a2⟩ := lowerShift_range hr row
  obtain ⟨b1, b2⟩ := lowerShift_range hc col
  obtain ⟨m00, h00⟩ := Option.isSome_iff_exists.mp (hget (lowerShift nbRows row) (lowerShift nbCols col)
    ⟨by omega, by omega, by omega, by omega⟩)
  obtain ⟨m01, h01⟩ := Option.isSome_iff_exists.mp
    (hget (lowerShift nbRows row) (lowerShift nbCols col + 1) ⟨by omega, by omega, by omega, by omega⟩)
  obtain ⟨m10, h10⟩ := Option.isSome_iff_exists.mp
    (hget (lowerShift nbRows row + 1) (lowerShift nbCols col) ⟨by omega, by omega, by omega, by omega⟩)
  obtain ⟨m11, h11⟩ := Option.isSome_iff_exists.mp
    (hget (lowerShift nbRows row + 1) (lowerShift nbCols col + 1)
      ⟨by omega, by omega, by omega, by omega⟩)
  simp [interpolBilinChecked, h00, h01, h10, h11]

/-- C06: the checked and the total interpolation agree, so the total one reads only raster nodes: it
does not depend on values outside the raster. -/
theorem C06_depends_on_nodes_only (mat mat' : ℤ → ℤ → K) (nbRows nbCols : ℤ) (hr : 2 ≤ nbRows)
    (hc : 2 ≤ nbCols) (heq : ∀ i j, IsNode nbRows nbCols i j → mat i j = mat' i j) (row col : K) :
    interpolBilin mat nbRows nbCols row col = interpolBilin mat' nbRows nbCols row col := by
  obtain ⟨a1, a2⟩ := lowerShift_range hr row
  obtain ⟨b1, b2⟩ := lowerShift_range hc col
  simp only [interpolBilin]
  rw [heq _ _ ⟨by omega, by omega, by omega, by omega⟩, heq _ _ ⟨by omega, by omega, by omega, by omega⟩,
    heq _ _ ⟨by omega, by omega, by omega, by omega⟩, heq _ _ ⟨by omega, by omega, by omega, by omega⟩]

theorem C06_checked_eq (mat : ℤ → ℤ → K) (get : ℤ → ℤ → Option K) (nbRows nbCols : ℤ) (hr : 2 ≤ nbRows)
    (hc : 2 ≤ nbCols) (hget : ∀ i j, IsNode nbRows nbCols i j → get i j = some (mat i j)) (row col : K) :
    interpolBilinChecked get nbRows nbCols row col = some (interpolBilin mat nbRows nbCols row col) := by
  obtain ⟨a1, a2⟩ := lowerShift_range hr row
  obtain ⟨b1, b2⟩ := lowerShift_range hc col
  simp only [interpolBilinChecked, interpolBilin]
  rw [hget _ _ ⟨by omega, by omega, by omega, by omega⟩, hget _ _ ⟨by omega, by omega, by omega, by omega⟩,
    hget _ _ ⟨by omega, by omega, by omega, by omega⟩, hget _ _ ⟨by omega, by omega, by omega, by omega⟩]
  rfl

/-- The bound `2` is sharp: on a single-row raster the code reads row `-1` (numpy wraps around). -/
theorem C06_single_row_reads_outside (get : ℤ → ℤ → Option ℚ) (hout : get (-1) 0 = none) :
    interpolBilinChecked get 1 2 (0 : ℚ) 0 = none := by
  have h1 : lowerShift 1 (0 : ℚ) = -1 := by decide +kernel
  have h2 : lowerShift 2 (0 : ℚ) = 0 := by decide +kernel
  simp [interpolBilinChecked, h1, h2, hout]

/-- Test raster: a 3x3 hill. -/
def hill : ℤ → ℤ → ℚ := fun i j => if i = 1 ∧ j = 1 then 10 else i + j

example : interpolBilinChecked (fun i j => if 0 ≤ i ∧ i < 3 ∧ 0 ≤ j ∧ j < 3 then some (hill i j) else none)
    3 3 (1/2 : ℚ) 5 = some (-13/2) := by decide +kernel

/-- C07: exactness at every node, including the last row and column. -/
theorem C07_exact_at_nodes (mat : ℤ → ℤ → K) (nbRows nbCols : ℤ) (hr : 2 ≤ nbRows) (hc : 2 ≤ nbCols)
    (i j : ℤ) (h : IsNode nbRows nbCols i j) :
    interpolBilin mat nbRows nbCols (i : K) (j : K) = mat i j := by
  obtain ⟨h1, h2, h3, h4⟩ := h
  -- choose a cell having (i, j) as a corner
  obtain ⟨ci, hci, hi⟩ : ∃ ci : ℤ, (0 ≤ ci ∧ ci + 1 ≤ nbRows - 1) ∧ (i = ci ∨ i = ci + 1) := by
    by_cases h : i + 1 ≤ nbRows - 1
    · exact ⟨i, ⟨h1, h⟩, .inl rfl⟩
    · exact ⟨i - 1, by omega, .inr (by omega)⟩
  obtain ⟨cj, hcj, hj⟩ : ∃ cj : ℤ, (0 ≤ cj ∧ cj + 1 ≤ nbCols - 1) ∧ (j = cj ∨ j = cj + 1) := by
    by_cases h : j + 1 ≤ nbCols - 1
    · exact ⟨j, ⟨h3, h⟩, .inl rfl⟩
    · exact ⟨j - 1, by omega, .inr (by omega)⟩
  have hin : InCell ci cj (i : K) (j : K) := by
    rcases hi with rfl | rfl <;> rcases hj with rfl | rfl <;> simp [InCell]
  rw [interpolBilin_cell mat nbRows nbCols ci cj ⟨hci.1, hci.2, hcj.1, hcj.2⟩ _ _ hin]
  rcases hi with rfl | rfl <;> rcases hj with rfl | rfl <;> simp [interOne]

example : interpolBilin hill 3 3 1 1 = 10 ∧ interpolBilin hill 3 3 2 2 = 4 := by decide +kernel

/-- C08: inside any cell of the raster the value is between any bounds of the four nodes of the cell;
in particular between their minimum and maximum. -/
theorem C08_between_surrounding_nodes (mat : ℤ → ℤ → K) (nbRows nbCols i j : ℤ)
    (hc : IsCell nbRows nbCols i j) (row col : K) (hin : InCell i j row col) :
    min (min (mat i j) (mat i (j + 1))) (min (mat (i + 1) j) (mat (i + 1) (j + 1))) ≤
      interpolBilin mat nbRows nbCols row col ∧
    interpolBilin mat nbRows nbCols row col ≤
      max (max (mat i j) (mat i (j + 1))) (max (mat (i + 1) j) (mat (i + 1) (j + 1))) := by
  rw [interpolBilin_cell mat nbRows nbCols i j hc row col hin]
  apply interOne_between mat i j row col _ _ hin <;> simp

/-- C08 covers every position of the raster: each position inside belongs to some cell. -/
theorem C08_every_inside_position_has_a_cell (nbRows nbCols : ℤ) (hr : 2 ≤ nbRows) (hc : 2 ≤ nbCols)
    (row col : K) (r0 : 0 ≤ row) (r1 : row ≤ nbRows - 1) (c0 : 0 ≤ col) (c1 : col ≤ nbCols - 1) :
    ∃ i j, IsCell nbRows nbCols i j ∧ InCell i j row col := by
  refine ⟨lowerShift nbRows row, lowerShift nbCols col, ?_, ?_⟩
  · have a := lowerShift_range hr row
    have b := lowerShift_range hc col
    exact ⟨a.1, a.2, b.1, b.2⟩
  · have a := lowerShift_inside r0 r1
    have b := lowerShift_inside c0 c1
    exact ⟨a.1, a.2, b.1, b.2⟩

example : IsCell 3 3 1 1 ∧ InCell 1 1 (3/2 : ℚ) (5/4) := by
  constructor <;> (constructor <;> norm_num)

/-- C09 (continuity): on every *closed* cell the interpolation is one and the same bilinear function
taking the node values at the four corners; hence neighbouring cells agree on their common edge. -/
theorem C09_bilinear_on_closed_cells (mat : ℤ → ℤ → K) (nbRows nbCols i j : ℤ)
    (hc : IsCell nbRows nbCols i j) :
    ∃ f, IsBilinear f ∧ MatchesCell mat i j f ∧
      ∀ row col, InCell i j row col → interpolBilin mat nbRows nbCols row col = f row col :=
  ⟨_, (interOne_bilinear mat i j).1, (interOne_bilinear mat i j).2,
    fun row col hin => interpolBilin_cell mat nbRows nbCols i j hc row col hin⟩

/-- The index of the cell of the raster nearest to a position along one axis. -/
def NearestCell (nb : ℤ) (pos : K) (i : ℤ) : Prop :=
  (pos ≤ 0 → i = 0) ∧ ((nb : K) - 1 ≤ pos → i = nb - 2) ∧
  (0 ≤ pos → pos ≤ nb - 1 → (i : K) ≤ pos ∧ pos ≤ i + 1)

/-- C09 (extension): at *any* position, inside or outside, the value is the bilinear function of the
nearest cell (outside, that of the nearest border cell). -/
theorem C09_extends_nearest_cell (mat : ℤ → ℤ → K) (nbRows nbCols : ℤ) (hr : 2 ≤ nbRows)
    (hc : 2 ≤ nbCols) (row col : K) :
    ∃ i j f, IsCell nbRows nbCols i j ∧ NearestCell nbRows row i ∧ NearestCell nbCols col j ∧
      IsBilinear f ∧ MatchesCell mat i j f ∧ interpolBilin mat nbRows nbCols row col = f row col := by
  have near : ∀ (nb : ℤ) (pos : K), 2 ≤ nb → NearestCell nb pos (lowerShift nb pos) := by
    intro nb pos hnb
    refine ⟨?_, ?_, fun h0 h1 => lowerShift_inside h0 h1⟩
    · intro h
      unfold lowerShift
      rcases eq_or_lt_of_le h with rfl | hl
      · rw [if_neg (lt_irrefl _), if_neg]
        · simp
        · rw [not_le]; exact_mod_cast (by omega : (0 : ℤ) < nb - 1)
      · rw [if_pos hl]
    · intro h
      unfold lowerShift
      have h0 : (0 : K) ≤ nb - 1 := by exact_mod_cast (by omega : (0 : ℤ) ≤ nb - 1)
      rw [if_neg (not_lt.mpr (h0.trans h)), if_pos]
      push_cast; exact h
  have a := lowerShift_range hr row
  have b := lowerShift_range hc col
  exact ⟨lowerShift nbRows row, lowerShift nbCols col, _, ⟨a.1, a.2, b.1, b.2⟩, near _ _ hr, near _ _ hc,
    (interOne_bilinear mat _ _).1, (interOne_bilinear mat _ _).2, rfl⟩

example : interpolBilin hill 3 3 (-1) 1 = -8 ∧ interpolBilin hill 3 3 (1/2) 1 = 11/2 := by decide +kernel

theorem lowerShiftVec_eq {nb : ℤ} (h : 1 ≤ nb) (pos : K) : lowerShiftVec nb pos = lowerShift nb pos := by
  unfold lowerShiftVec lowerShift
  by_cases h0 : pos < 0
  · have : ¬ pos ≥ ((nb - 1 : ℤ) : K) := by
      have : (0 : K) ≤ ((nb - 1 : ℤ) : K) := by exact_mod_cast (by omega : (0 : ℤ) ≤ nb - 1)
      exact not_le.mpr (h0.trans_le this)
    rw [if_pos h0, if_neg this, if_pos h0]
  · simp [h0]

/-- C10: the grid version is the scalar version applied to every layer. -/
theorem C10_grid_eq_scalar (mats : List (List (ℤ → ℤ → K))) (nbRows nbCols : ℤ) (row col : K) :
    interpolBilinGrid mats nbRows nbCols row col =
      mats.map fun layers => layers.map fun m => interpolBilin m nbRows nbCols row col := rfl

/-- C10: the vectorised version is the scalar version applied to every layer and every point. -/
theorem C10_vectorized_eq_scalar (mats : List (List (ℤ → ℤ → K))) (nbRows nbCols : ℤ) (hr : 1 ≤ nbRows)
    (hc : 1 ≤ nbCols) (pos : List (K × K)) :
    interpolBilinVectorized mats nbRows nbCols pos =
      mats.map fun layers => layers.map fun m => pos.map fun p =>
        interpolBilin m nbRows nbCols p.1 p.2 := by
  simp only [interpolBilinVectorized, interpolBilin_eq_interOne, lowerShiftVec_eq hr, lowerShiftVec_eq hc]

/-- C10: the C++ version on the row-major flattening of the raster is the Python version. -/
theorem C10_cpp_eq_python (mat : ℤ → ℤ → K) (data : ℤ → K) (nbRows nbCols : ℤ) (hr : 2 ≤ nbRows)
    (hc : 2 ≤ nbCols) (hflat : ∀ i j, IsNode nbRows nbCols i j → data (i * nbCols + j) = mat i j)
    (row col : K) :
    interpolateCpp data nbRows nbCols row col = interpolBilin mat nbRows nbCols row col := by
  obtain ⟨a1, a2⟩ := lowerShift_range hr row
  obtain ⟨b1, b2⟩ := lowerShift_range hc col
  have er : (if row < 0 then (0 : ℤ) else if row ≥ (nbRows : K) - 1 then nbRows - 2 else ⌊row⌋)
      = lowerShift nbRows row := by
    simp only [lowerShift]; push_cast; rfl
  have ec : (if col < 0 then (0 : ℤ) else if col ≥ (nbCols : K) - 1 then nbCols - 2 else ⌊col⌋)
      = lowerShift nbCols col := by
    simp only [lowerShift]; push_cast; rfl
  simp only [interpolateCpp, interpolBilin, er, ec]
  rw [hflat _ _ ⟨by omega, by omega, by omega, by omega⟩, hflat _ _ ⟨by omega, by omega, by omega, by omega⟩,
    hflat _ _ ⟨by omega, by omega, by omega, by omega⟩, hflat _ _ ⟨by omega, by omega, by omega, by omega⟩]

/-- A row-major flattening exists (hypothesis of `C10_cpp_eq_python`). -/
example : ∀ i j, IsNode 3 3 i j → (fun k : ℤ => hill (k / 3) (k % 3)) (i * 3 + j) = hill i j := by
  rintro i j ⟨h1, h2, h3, h4⟩
  have e1 : (i * 3 + j) / 3 = i := by omega
  have e2 : (i * 3 + j) % 3 = j := by omega
  simp only [e1, e2]

/-- C11: the per-cell table entries are integers enclosing the interpolated surface over the whole
closed cell, and within one unit of the nodes' range. -/
theorem C11_cell_envelope (alt : ℤ → ℤ → K) (nbRows nbCols i j : ℤ) (hc : IsCell nbRows nbCols i j) :
    (∃ n m : ℤ, altMinCellPy alt i j = n ∧ altMaxCellPy alt i j = m) ∧
    (∀ row col : K, InCell i j row col →
      altMinCellPy alt i j ≤ interpolBilin alt nbRows nbCols row col ∧
      interpolBilin alt nbRows nbCols row col ≤ altMaxCellPy alt i j) ∧
    (∀ z, z ≤ alt i j → z ≤ alt i (j + 1) → z ≤ alt (i + 1) j → z ≤ alt (i + 1) (j + 1) →
      z < altMinCellPy alt i j + 1) ∧
    (∀ z, alt i j ≤ z → alt i (j + 1) ≤ z → alt (i + 1) j ≤ z → alt (i + 1) (j + 1) ≤ z →
      altMaxCellPy alt i j < z + 1) := by
  refine ⟨⟨_, _, rfl, rfl⟩, ?_, ?_, ?_⟩
  · intro row col hin
    rw [interpolBilin_cell alt nbRows nbCols i j hc row col hin]
    have f := Int.floor_le (min (min (min (alt i j) (alt i (j + 1))) (alt (i + 1) j)) (alt (i + 1) (j + 1)))
    have g := Int.le_ceil (max (max (max (alt i j) (alt i (j + 1))) (alt (i + 1) j)) (alt (i + 1) (j + 1)))
    have f' := f
    simp only [le_min_iff] at f
    simp only [max_le_iff] at g
    exact interOne_between alt i j row col _ _ hin ⟨f.1.1.1, g.1.1.1⟩ ⟨f.1.1.2, g.1.1.2⟩
      ⟨f.1.2, g.1.2⟩ ⟨f.2, g.2⟩
  · intro z h1 h2 h3 h4
    refine lt_of_le_of_lt (le_min (le_min (le_min h1 h2) h3) h4) ?_
    exact Int.lt_floor_add_one _
  · intro z h1 h2 h3 h4
    have h := max_le (max_le (max_le h1 h2) h3) h4
    have := Int.ceil_lt_add_one (max (max (max (alt i j) (alt i (j + 1))) (alt (i + 1) j)) (alt (i + 1) (j + 1)))
    simp only [altMaxCellPy]
    linarith

/-- C11: the C++ tables hold, at the flat position `(nb_columns-1)*i+j`, the Python values. -/
theorem C11_cpp_tables (alt : ℤ → ℤ → K) (data : ℤ → K) (nbRows nbCols : ℕ)
    (hflat : ∀ i j, IsNode nbRows nbCols i j → data (nbCols * i + j) = alt i j)
    (i j : ℕ) (hi : i + 1 < nbRows) (hj : j + 1 < nbCols) :
    (initMinMaxCpp data nbRows nbCols).1[(nbCols - 1) * i + j]? = some (altMinCellPy alt i j) ∧
    (initMinMaxCpp data nbRows nbCols).2[(nbCols - 1) * i + j]? = some (altMaxCellPy alt i j) := by
  have h00 := hflat i j ⟨by omega, by omega, by omega, by omega⟩
  have h10 := hflat (i + 1) j ⟨by omega, by omega, by omega, by omega⟩
  have h01 := hflat i (j + 1) ⟨by omega, by omega, by omega, by omega⟩
  have h11 := hflat (i + 1) (j + 1) ⟨by omega, by omega, by omega, by omega⟩
  constructor
  · simp only [initMinMaxCpp]
    rw [flatMap_map_getElem? (fun i j => (i, j)) _ _ _ _ _ (by omega) (by omega)]
    simp only [h00, h10, h01, h11, altMinCellPy]
    rw [min_right_comm (alt (i : ℤ) (j : ℤ))]
  · simp only [initMinMaxCpp]
    rw [flatMap_map_getElem? (fun i j => (i, j)) _ _ _ _ _ (by omega) (by omega)]
    simp only [h00, h10, h01, h11, altMaxCellPy]
    rw [max_right_comm (alt (i : ℤ) (j : ℤ))]

/-- C11: the global bounds are attained and enclose every node, hence the surface everywhere inside
the DTM. -/
theorem C11_global_bounds (d : Dtm K) (hr : 2 ≤ d.nbRows) (hc : 2 ≤ d.nbCols) :
    (∃ i j, IsNode d.nbRows d.nbCols i j ∧ d.alt i j = d.altMin) ∧
    (∃ i j, IsNode d.nbRows d.nbCols i j ∧ d.alt i j = d.altMax) ∧
    (∀ i j, IsNode d.nbRows d.nbCols i j → d.altMin ≤ d.alt i j ∧ d.alt i j ≤ d.altMax) ∧
    (∀ row col : K, 0 ≤ row → row ≤ d.nbRows - 1 → 0 ≤ col → col ≤ d.nbCols - 1 →
      d.altMin ≤ d.interpolate row col ∧ d.interpolate row col ≤ d.altMax) := by
  have hne : altValues d.alt d.nbRows d.nbCols ≠ [] := by
    have : d.alt 0 0 ∈ altValues d.alt d.nbRows d.nbCols :=
      (mem_altValues _ _ _ _).mpr ⟨0, 0, ⟨by omega, by omega, by omega, by omega⟩, rfl⟩
    exact List.ne_nil_of_mem this
  obtain ⟨m1, m2⟩ := listMin_spec hne
  obtain ⟨x1, x2⟩ := listMax_spec hne
  have nodes : ∀ i j, IsNode d.nbRows d.nbCols i j → d.altMin ≤ d.alt i j ∧ d.alt i j ≤ d.altMax := by
    intro i j h
    exact ⟨m2 _ ((mem_altValues _ _ _ _).mpr ⟨i, j, h, rfl⟩), x2 _ ((mem_altValues _ _ _ _).mpr ⟨i, j, h, rfl⟩)⟩
  refine ⟨?_, ?_, nodes, ?_⟩
  · obtain ⟨i, j, h, e⟩ := (mem_altValues _ _ _ _).mp m1
    exact ⟨i, j, h, e.symm⟩
  · obtain ⟨i, j, h, e⟩ := (mem_altValues _ _ _ _).mp x1
    exact ⟨i, j, h, e.symm⟩
  · intro row col r0 r1 c0 c1
    obtain ⟨i, j, hcell, hin⟩ := C08_every_inside_position_has_a_cell (K := K) d.nbRows d.nbCols
      (by omega) (by omega) row col r0 (by exact_mod_cast r1) c0 (by exact_mod_cast c1)
    have hcell' := hcell
    obtain ⟨q1, q2, q3, q4⟩ := hcell
    rw [Dtm.interpolate, interpolBilin_cell d.alt d.nbRows d.nbCols i j hcell' row col hin]
    exact interOne_between d.alt i j row col _ _ hin
      (nodes _ _ ⟨by omega, by omega, by omega, by omega⟩) (nodes _ _ ⟨by omega, by omega, by omega, by omega⟩)
      (nodes _ _ ⟨by omega, by omega, by omega, by omega⟩) (nodes _ _ ⟨by omega, by omega, by omega, by omega⟩)

/-- Test DTM over `hill`, with 3 rows and 3 columns and unit pixels. -/
def hillDtm : Dtm ℚ := ⟨hill, 3, 3, ⟨1, 0, 0, 0, 1, 0⟩⟩

example : hillDtm.altMin = 0 ∧ hillDtm.altMax = 10 ∧ altMaxCellPy hill 0 0 = 10 := by decide +kernel

end Shareloc
