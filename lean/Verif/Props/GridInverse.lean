import Verif.Props.Grid
import Mathlib.Algebra.Order.BigOperators.Group.Finset
import Mathlib.LinearAlgebra.Matrix.ToLin
import Mathlib.LinearAlgebra.Matrix.ToLinearEquiv
import Mathlib.Tactic.NormNum
import Mathlib.Tactic.Linarith

/-!
# C33, C34, C61: inverse location by grid, its predictor, lines of sight of a grid
-/

set_option linter.unusedSectionVars false

namespace Shareloc
variable {K : Type*} [Field K] [LinearOrder K] [IsStrictOrderedRing K] [FloorRing K]

/-! ### Specification -/

/-- The ground position (lon, lat) that a grid gives, before validity check, at a row, a column and an altitude. -/
def gridLonLat (g : MultiGrid K) (row col alt : K) : K × K :=
  (gridInterp g g.lon (altNorm g alt) row col, gridInterp g g.lat (altNorm g alt) row col)

/-- `direct_loc_h` gives that position, unless the grid is geographic and the position is not a longitude and a
latitude. -/
theorem gridPoint_eq_gridLonLat (g : MultiGrid K) (row col alt : K)
    (hv : g.geographic = true → ValidLonLat (gridLonLat g row col alt).1 (gridLonLat g row col alt).2) :
    gridPoint g (some row) (some col) (some alt) =
      ⟨some (gridLonLat g row col alt).1, some (gridLonLat g row col alt).2, some alt⟩ := by
  simp only [gridPoint, gridLonLat] at hv ⊢
  cases hg : g.geographic with
  | false => simp
  | true => rw [if_pos rfl, checkRow_valid (hv hg)]

/-- One layer of a grid, bilinear in (row, col). -/
def gridLayer (g : MultiGrid K) (data : ℕ → ℕ → ℕ → K) (k : ℕ) (row col : K) : K :=
  lerp g.nbrow (fun i => lerp g.nbcol (fun j => data k i j) ((col - g.col0) / g.stepcol)) ((row - g.row0) / g.steprow)

theorem altUp_cond (g : MultiGrid K) (alt : K) (hn : 2 ≤ g.nbalt) (hdec : Decreasing g.nbalt g.alts) :
    (altUp g.alts g.nbalt alt = 0 ∨ alt ≤ g.alts (altUp g.alts g.nbalt alt)) ∧
    (altUp g.alts g.nbalt alt + 2 = g.nbalt ∨ g.alts (altUp g.alts g.nbalt alt + 1) ≤ alt) ∧
    altUp g.alts g.nbalt alt + 1 < g.nbalt := by
  obtain ⟨m, hm, hiff, hup, -⟩ := altUp_eq g.alts g.nbalt alt hdec
  refine ⟨?_, ?_, by omega⟩
  · rw [hup]
    by_cases h : min (m - 1) (g.nbalt - 2) = 0
    · exact Or.inl h
    · exact Or.inr ((hiff _ (by omega)).2 (by omega))
  · rw [hup]
    by_cases h : min (m - 1) (g.nbalt - 2) + 2 = g.nbalt
    · exact Or.inl h
    · right
      by_contra hlt
      push Not at hlt
      have := (hiff (min (m - 1) (g.nbalt - 2) + 1) (by omega)).1 hlt.le
      omega

theorem gridInterp_alt (g : MultiGrid K) (data : ℕ → ℕ → ℕ → K) (row col alt : K) (hn : 2 ≤ g.nbalt)
    (hdec : Decreasing g.nbalt g.alts) :
    gridInterp g data (altNorm g alt) row col =
      (alt - g.alts (altUp g.alts g.nbalt alt + 1)) /
          (g.alts (altUp g.alts g.nbalt alt) - g.alts (altUp g.alts g.nbalt alt + 1)) *
        gridLayer g data (altUp g.alts g.nbalt alt) row col +
      (1 - (alt - g.alts (altUp g.alts g.nbalt alt + 1)) /
          (g.alts (altUp g.alts g.nbalt alt) - g.alts (altUp g.alts g.nbalt alt + 1))) *
        gridLayer g data (altUp g.alts g.nbalt alt + 1) row col := by
  obtain ⟨h1, h2, h3⟩ := altUp_cond g alt hn hdec
  set u := altUp g.alts g.nbalt alt with hu
  have hd : 0 < g.alts u - g.alts (u + 1) := sub_pos.2 (hdec u (u + 1) (by omega) h3)
  have e : altNorm g alt = (u : K) + 1 - (alt - g.alts (u + 1)) / (g.alts u - g.alts (u + 1)) := by
    simp only [altNorm, ← hu]
  set h := (alt - g.alts (u + 1)) / (g.alts u - g.alts (u + 1)) with hh
  simp only [gridInterp]
  rw [e, lerp_eq g.nbalt _ _ u h3]
  · simp only [gridLayer]; ring
  · rcases h1 with h0 | h0
    · exact Or.inl h0
    · right
      have : h ≤ 1 := (div_le_one hd).2 (by linarith)
      linarith
  · rcases h2 with h0 | h0
    · exact Or.inl h0
    · right
      have : 0 ≤ h := div_nonneg (by linarith) hd.le
      linarith

theorem gridLayer_node (g : MultiGrid K) (data : ℕ → ℕ → ℕ → K) (k i j : ℕ) (hr : 2 ≤ g.nbrow) (hc : 2 ≤ g.nbcol)
    (hsr : g.steprow ≠ 0) (hsc : g.stepcol ≠ 0) (hi : i < g.nbrow) (hj : j < g.nbcol) :
    gridLayer g data k (g.row0 + g.steprow * i) (g.col0 + g.stepcol * j) = data k i j := by
  have e1 : (g.row0 + g.steprow * i - g.row0) / g.steprow = (i : K) := by field_simp; ring
  have e2 : (g.col0 + g.stepcol * j - g.col0) / g.stepcol = (j : K) := by field_simp; ring
  simp only [gridLayer, e1, e2, lerp_node _ _ _ hr hi, lerp_node _ _ _ hc hj]

/-- The Jacobian (microradians per pixel) of the direct location, estimated by forward differences of the located nodes
of the cell `(i, j)` at an altitude: columns are the displacement of one column, then of one row; rows are the
longitude, then the latitude. -/
def cellJacobian (g : MultiGrid K) (rad alt : K) (i j : ℕ) : Matrix (Fin 2) (Fin 2) K :=
  let node (a b : ℕ) : K × K := gridLonLat g (g.row0 + g.steprow * a) (g.col0 + g.stepcol * b) alt
  !![rad * ((node i (j + 1)).1 - (node i j).1) / g.stepcol, rad * ((node (i + 1) j).1 - (node i j).1) / g.steprow;
     rad * ((node i (j + 1)).2 - (node i j).2) / g.stepcol, rad * ((node (i + 1) j).2 - (node i j).2) / g.steprow]

/-- `(i, j)` is the cell of the position, the outer cells being extended outwards. -/
def InCell (g : MultiGrid K) (row col : K) (i j : ℕ) : Prop :=
  i + 1 < g.nbrow ∧ j + 1 < g.nbcol ∧
  (i = 0 ∨ (i : K) ≤ (row - g.row0) / g.steprow) ∧ (i + 2 = g.nbrow ∨ (row - g.row0) / g.steprow < (i : K) + 1) ∧
  (j = 0 ∨ (j : K) ≤ (col - g.col0) / g.stepcol) ∧ (j + 2 = g.nbcol ∨ (col - g.col0) / g.stepcol < (j : K) + 1)

theorem gridDiffs_eq (g : MultiGrid K) (row col alt : K) (i j : ℕ) (hn : 2 ≤ g.nbalt) (hr : 2 ≤ g.nbrow)
    (hc : 2 ≤ g.nbcol) (hdec : Decreasing g.nbalt g.alts) (hsr : g.steprow ≠ 0) (hsc : g.stepcol ≠ 0)
    (hcell : InCell g row col i j) (rad : K) :
    let d := gridDiffs g row col alt
    cellJacobian g rad alt i j = !![d.1 * rad, d.2.1 * rad; d.2.2.1 * rad, d.2.2.2 * rad] := by
  obtain ⟨hi, hj, hi1, hi2, hj1, hj2⟩ := hcell
  obtain ⟨u, hu, hu1, hu2, -, -⟩ := C30_bracketing g alt hn hdec
  have ei : gridCell g.nbrow ((row - g.row0) / g.steprow) = i := gridCell_eq _ _ i hi hi1 hi2
  have ej : gridCell g.nbcol ((col - g.col0) / g.stepcol) = j := gridCell_eq _ _ j hj hj1 hj2
  have p1 : pyIndex g.nbalt ((u : ℕ) : ℤ) = u := by unfold pyIndex; rw [if_neg (by omega)]; omega
  have p2 : pyIndex g.nbalt ((u + 1 : ℕ) : ℤ) = u + 1 := by unfold pyIndex; rw [if_neg (by omega)]; omega
  have hlon : ∀ data : ℕ → ℕ → ℕ → K, ∀ a b : ℕ, a < g.nbrow → b < g.nbcol →
      gridInterp g data (altNorm g alt) (g.row0 + g.steprow * a) (g.col0 + g.stepcol * b) =
      (alt - g.alts (u + 1)) / (g.alts u - g.alts (u + 1)) * data u a b +
      (1 - (alt - g.alts (u + 1)) / (g.alts u - g.alts (u + 1))) * data (u + 1) a b := by
    intro data a b ha hb
    rw [gridInterp_alt g data _ _ alt hn hdec, ← hu2, gridLayer_node g data _ a b hr hc hsr hsc ha hb,
      gridLayer_node g data _ a b hr hc hsr hsc ha hb]
  simp only [gridDiffs, ei, ej, hu, p1, p2]
  simp only [cellJacobian, gridLonLat]
  have l1 := hlon g.lon i j (by omega) (by omega)
  have l2 := hlon g.lon i (j + 1) (by omega) (by omega)
  have l3 := hlon g.lon (i + 1) j (by omega) (by omega)
  have m1 := hlon g.lat i j (by omega) (by omega)
  have m2 := hlon g.lat i (j + 1) (by omega) (by omega)
  have m3 := hlon g.lat (i + 1) j (by omega) (by omega)
  rw [l1, l2, l3, m1, m2, m3]
  congr 1
  ext a b
  fin_cases a <;> fin_cases b <;> simp <;> ring

theorem inv2 (a b c e : K) (h : a * e - b * c ≠ 0) :
    !![e / (a * e - b * c), -b / (a * e - b * c); -c / (a * e - b * c), a / (a * e - b * c)] * !![a, b; c, e] = 1 ∧
    !![a, b; c, e] * !![e / (a * e - b * c), -b / (a * e - b * c); -c / (a * e - b * c), a / (a * e - b * c)] = 1 := by
  have h1 := div_self h
  constructor
  · rw [Matrix.mul_fin_two, Matrix.one_fin_two]
    congr 1
    ext x y
    fin_cases x <;> fin_cases y <;> simp
    · linear_combination h1
    · ring
    · ring
    · linear_combination h1
  · rw [Matrix.mul_fin_two, Matrix.one_fin_two]
    congr 1
    ext x y
    fin_cases x <;> fin_cases y <;> simp
    · linear_combination h1
    · ring
    · ring
    · linear_combination h1

/-- C33. The matrix of `inverse_partial_derivative` is the inverse of the matrix of the forward differences, at the
requested altitude, of the located nodes of the cell of the position; there is no finite matrix only if that matrix is
singular. -/
theorem C33_inverse_jacobian (g : MultiGrid K) (rad row col alt : K) (i j : ℕ) (hn : 2 ≤ g.nbalt) (hr : 2 ≤ g.nbrow)
    (hc : 2 ≤ g.nbcol) (hdec : Decreasing g.nbalt g.alts) (hsr : g.steprow ≠ 0) (hsc : g.stepcol ≠ 0)
    (hcell : InCell g row col i j) :
    (∀ m, inversePartial g rad row col alt = some m →
      !![m.1, m.2.1; m.2.2.1, m.2.2.2] * cellJacobian g rad alt i j = 1 ∧
      cellJacobian g rad alt i j * !![m.1, m.2.1; m.2.2.1, m.2.2.2] = 1) ∧
    (inversePartial g rad row col alt = none ↔ (cellJacobian g rad alt i j).det = 0) := by
  rw [gridDiffs_eq g row col alt i j hn hr hc hdec hsr hsc hcell rad]
  set d := gridDiffs g row col alt with hd
  constructor
  · intro m hm
    simp only [inversePartial, ← hd] at hm
    split_ifs at hm with h0
    simp only [Option.some.injEq] at hm
    subst hm
    exact inv2 _ _ _ _ h0
  · simp only [inversePartial, ← hd, Matrix.det_fin_two_of]
    split_ifs with h0
    · simp [h0]
    · simp [h0]

/-- Every position is in a cell. -/
theorem exists_inCell (g : MultiGrid K) (row col : K) (hr : 2 ≤ g.nbrow) (hc : 2 ≤ g.nbcol) :
    ∃ i j, InCell g row col i j := by
  have main : ∀ (n : ℕ) (t : K), 2 ≤ n → ∃ i, i + 1 < n ∧ (i = 0 ∨ (i : K) ≤ t) ∧ (i + 2 = n ∨ t < (i : K) + 1) := by
    intro n t hn
    refine ⟨gridCell n t, gridCell_le n hn t, ?_, ?_⟩
    · by_cases h : gridCell n t = 0
      · exact Or.inl h
      · right
        have : ((gridCell n t : ℕ) : ℤ) ≤ ⌊t⌋ := by unfold gridCell at h ⊢; omega
        have := Int.le_floor.1 this
        simpa using this
    · by_cases h : gridCell n t + 2 = n
      · exact Or.inl h
      · right
        have : ⌊t⌋ < ((gridCell n t : ℕ) : ℤ) + 1 := by unfold gridCell at h ⊢; omega
        have := Int.floor_lt.1 this
        simpa using this
  obtain ⟨i, h1, h2, h3⟩ := main g.nbrow ((row - g.row0) / g.steprow) hr
  obtain ⟨j, h4, h5, h6⟩ := main g.nbcol ((col - g.col0) / g.stepcol) hc
  exact ⟨i, j, h1, h4, h2, h3, h5, h6⟩

example : InCell demoGrid 60 250 0 1 ∧ (inversePartial demoGrid 17453 60 250 100).isSome = true := by
  refine ⟨?_, by decide +kernel⟩
  unfold InCell demoGrid
  norm_num

/-! ### C33, the loop -/

/-- C33. At most `nb_iterations` updates. -/
theorem C33_bounded (g : MultiGrid K) (rad rtx coslat lon lat alt row col : K) (nb : ℕ) :
    (gridInverse g rad rtx coslat lon lat alt row col nb).2 ≤ nb := by
  have main : ∀ n s, (gridLoop g rad rtx coslat lon lat alt n s).2 ≤ n := by
    intro n
    induction n with
    | zero => intro s; simp [gridLoop]
    | succ n ih =>
      intro s
      simp only [gridLoop]
      split_ifs
      · have := ih (gridStep g rad rtx coslat lon lat alt s)
        simpa using this
      · simp
  simp only [gridInverse]
  split_ifs
  · simp
  · exact main _ _

/-- What the loop knows of its last turn. -/
def LastTurn (g : MultiGrid K) (rad rtx coslat lon lat alt : K) (s : GridIter K) : Prop :=
  ∃ prev : GridIter K, s = gridStep g rad rtx coslat lon lat alt prev

theorem gridLoop_lastTurn (g : MultiGrid K) (rad rtx coslat lon lat alt : K) (n : ℕ) (s : GridIter K) :
    let res := gridLoop g rad rtx coslat lon lat alt n s
    (res.2 ≠ 0 → LastTurn g rad rtx coslat lon lat alt res.1) ∧
    (res.2 = 0 → res.1 = s) ∧ (res.2 < n → gridErrBig res.1.err = false) := by
  induction n generalizing s with
  | zero => simp [gridLoop]
  | succ n ih =>
    simp only [gridLoop]
    split_ifs with h
    · obtain ⟨h1, h2, h3⟩ := ih (gridStep g rad rtx coslat lon lat alt s)
      refine ⟨fun _ => ?_, fun h0 => by simp at h0, fun hlt => h3 (by simpa using hlt)⟩
      by_cases hz : (gridLoop g rad rtx coslat lon lat alt n (gridStep g rad rtx coslat lon lat alt s)).2 = 0
      · rw [h2 hz]
        exact ⟨s, rfl⟩
      · exact h1 hz
    · exact ⟨fun h0 => by simp at h0, fun _ => rfl, fun _ => by simpa using h⟩

/-- C33. A finite answer `(row, col)` comes from a position `(row', col')` whose direct location was measured: its
distance to the requested ground point (in the metric of the code: microradians of latitude, and of longitude scaled
by the cosine of the latitude, times the square of the Earth radius) is the returned error, and the answer is
this position corrected by the inverse Jacobian applied to the ground difference.  If the loop stopped before the
maximum number of turns, that distance is at most 1e-6 square metre. -/
theorem C33_converged (g : MultiGrid K) (rad rtx coslat lon lat alt row0 col0 row col : K) (nb : ℕ)
    (hrow : (gridInverse g rad rtx coslat lon lat alt row0 col0 nb).1.row = some row)
    (hcol : (gridInverse g rad rtx coslat lon lat alt row0 col0 nb).1.col = some col) :
    ∃ row' col' plon plat : K, ∃ m : K × K × K × K,
      gridPoint g (some row') (some col') (some alt) = ⟨some plon, some plat, some alt⟩ ∧
      inversePartial g rad row' col' alt = some m ∧
      col = col' - (m.1 * ((plon - lon) * rad) + m.2.1 * ((plat - lat) * rad)) ∧
      row = row' - (m.2.2.1 * ((plon - lon) * rad) + m.2.2.2 * ((plat - lat) * rad)) ∧
      (gridInverse g rad rtx coslat lon lat alt row0 col0 nb).1.err =
        some (rtx * (((plat - lat) * rad) ^ 2 + ((plon - lon) * rad * coslat) ^ 2)) ∧
      ((gridInverse g rad rtx coslat lon lat alt row0 col0 nb).2 < nb →
        rtx * (((plat - lat) * rad) ^ 2 + ((plon - lon) * rad * coslat) ^ 2) ≤ 1 / 1000000) := by
  obtain ⟨h1, h2, h3⟩ := gridLoop_lastTurn g rad rtx coslat lon lat alt nb ⟨some row0, some col0, some 10⟩
  by_cases h0 : (gridLoop g rad rtx coslat lon lat alt nb ⟨some row0, some col0, some 10⟩).2 = 0
  · simp only [gridInverse] at hrow
    rw [if_pos h0] at hrow
    simp at hrow
  · have e : gridInverse g rad rtx coslat lon lat alt row0 col0 nb =
        gridLoop g rad rtx coslat lon lat alt nb ⟨some row0, some col0, some 10⟩ := by
      simp only [gridInverse]; rw [if_neg h0]
    rw [e] at hrow hcol ⊢
    obtain ⟨prev, hprev⟩ := h1 h0
    set s := gridLoop g rad rtx coslat lon lat alt nb ⟨some row0, some col0, some 10⟩ with hs
    rw [hprev] at hrow hcol
    obtain ⟨prow, pcol, perr⟩ := prev
    cases prow with
    | none => simp [gridStep] at hrow
    | some r =>
      cases pcol with
      | none => simp [gridStep] at hrow
      | some c =>
        have hz : ∀ p : ORow K, gridPoint g (some r) (some c) (some alt) = p → p.x ≠ none → p.z = some alt := by
          intro p hp hx
          subst hp
          simp only [gridPoint] at hx ⊢
          split_ifs at hx ⊢ with hg
          · simp only [checkRow] at hx ⊢
            split_ifs at hx ⊢ <;> simp_all [nanRow]
          · rfl
        cases hx : (gridPoint g (some r) (some c) (some alt)).x with
        | none => simp [gridStep, hx] at hrow
        | some plon =>
          cases hy : (gridPoint g (some r) (some c) (some alt)).y with
          | none => simp [gridStep, hx, hy] at hrow
          | some plat =>
            cases hm : inversePartial g rad r c alt with
            | none => simp [gridStep, hx, hy, hm] at hrow
            | some m =>
              have hp : gridPoint g (some r) (some c) (some alt) = ⟨some plon, some plat, some alt⟩ := by
                have hz' := hz _ rfl (by rw [hx]; simp)
                generalize gridPoint g (some r) (some c) (some alt) = q at hx hy hz'
                cases q
                simp_all
              have herr : s.1.err = some (rtx * (((plat - lat) * rad) ^ 2 + ((plon - lon) * rad * coslat) ^ 2)) := by
                rw [hprev]
                simp only [gridStep, hx, hy, hm]
              refine ⟨r, c, plon, plat, m, hp, hm, ?_, ?_, herr, ?_⟩
              · simp only [gridStep, hx, hy, hm, Option.some.injEq] at hcol
                exact hcol.symm
              · simp only [gridStep, hx, hy, hm, Option.some.injEq] at hrow
                exact hrow.symm
              · intro hlt
                have h4 := h3 hlt
                rw [herr] at h4
                simpa [gridErrBig] using h4

/-- The grid is affine in (row, col) at each layer. -/
def AffineLayers (g : MultiGrid K) (data : ℕ → ℕ → ℕ → K) : Prop :=
  ∃ a b c : ℕ → K, ∀ k < g.nbalt, ∀ i < g.nbrow, ∀ j < g.nbcol, data k i j = a k + b k * i + c k * j

theorem gridLayer_affine (g : MultiGrid K) (data : ℕ → ℕ → ℕ → K) (a b c : ℕ → K) (hr : 2 ≤ g.nbrow)
    (hc : 2 ≤ g.nbcol) (hd : ∀ k < g.nbalt, ∀ i < g.nbrow, ∀ j < g.nbcol, data k i j = a k + b k * i + c k * j)
    (k : ℕ) (hk : k < g.nbalt) (row col : K) :
    gridLayer g data k row col =
      a k + b k * ((row - g.row0) / g.steprow) + c k * ((col - g.col0) / g.stepcol) := by
  simp only [gridLayer]
  rw [lerp_affine g.nbrow hr _ (a k + c k * ((col - g.col0) / g.stepcol)) (b k)]
  · ring
  · intro i hi
    rw [lerp_affine g.nbcol hc _ (a k + b k * i) (c k)]
    · ring
    · intro j hj
      rw [hd k hk i hi j hj]

/-- The located position is affine in (row, col) with the differences of the code as coefficients. -/
theorem gridLonLat_affine (g : MultiGrid K) (hn : 2 ≤ g.nbalt) (hr : 2 ≤ g.nbrow)
    (hc : 2 ≤ g.nbcol) (hdec : Decreasing g.nbalt g.alts) (hlon : AffineLayers g g.lon) (hlat : AffineLayers g g.lat)
    (alt row col row' col' : K) :
    let d := gridDiffs g row col alt
    (gridLonLat g row' col' alt).1 - (gridLonLat g row col alt).1 = d.1 * (col' - col) + d.2.1 * (row' - row) ∧
    (gridLonLat g row' col' alt).2 - (gridLonLat g row col alt).2 = d.2.2.1 * (col' - col) + d.2.2.2 * (row' - row) := by
  obtain ⟨u, hu, hu1, hu2, -, -⟩ := C30_bracketing g alt hn hdec
  obtain ⟨a, b, c, hl⟩ := hlon
  obtain ⟨a', b', c', hl'⟩ := hlat
  have p1 : pyIndex g.nbalt ((u : ℕ) : ℤ) = u := by unfold pyIndex; rw [if_neg (by omega)]; omega
  have p2 : pyIndex g.nbalt ((u + 1 : ℕ) : ℤ) = u + 1 := by unfold pyIndex; rw [if_neg (by omega)]; omega
  have hci := gridCell_le g.nbrow hr ((row - g.row0) / g.steprow)
  have hcj := gridCell_le g.nbcol hc ((col - g.col0) / g.stepcol)
  simp only [gridLonLat, gridInterp_alt g _ _ _ alt hn hdec, ← hu2,
    gridLayer_affine g g.lon a b c hr hc hl u (by omega), gridLayer_affine g g.lon a b c hr hc hl (u + 1) hu1,
    gridLayer_affine g g.lat a' b' c' hr hc hl' u (by omega), gridLayer_affine g g.lat a' b' c' hr hc hl' (u + 1) hu1]
  simp only [gridDiffs, hu, p1, p2]
  set i := gridCell g.nbrow ((row - g.row0) / g.steprow) with hi
  set j := gridCell g.nbcol ((col - g.col0) / g.stepcol) with hj
  rw [hl u (by omega) i (by omega) j (by omega), hl u (by omega) (i + 1) (by omega) j (by omega),
    hl u (by omega) i (by omega) (j + 1) (by omega), hl (u + 1) (by omega) i (by omega) j (by omega),
    hl (u + 1) (by omega) (i + 1) (by omega) j (by omega), hl (u + 1) (by omega) i (by omega) (j + 1) (by omega),
    hl' u (by omega) i (by omega) j (by omega), hl' u (by omega) (i + 1) (by omega) j (by omega),
    hl' u (by omega) i (by omega) (j + 1) (by omega), hl' (u + 1) (by omega) i (by omega) j (by omega),
    hl' (u + 1) (by omega) (i + 1) (by omega) j (by omega), hl' (u + 1) (by omega) i (by omega) (j + 1) (by omega)]
  push_cast
  constructor <;> ring

/-- The hypotheses under which one update is exact. -/
structure AffineCase (g : MultiGrid K) (rad lon lat alt : K) : Prop where
  hn : 2 ≤ g.nbalt
  hr : 2 ≤ g.nbrow
  hc : 2 ≤ g.nbcol
  hdec : Decreasing g.nbalt g.alts
  hlon : AffineLayers g g.lon
  hlat : AffineLayers g g.lat
  /-- the requested point is a longitude and a latitude if the grid is geographic -/
  hvalid : g.geographic = true → ValidLonLat lon lat
  /-- the differences at the requested altitude are not degenerate (they do not depend on the position) -/
  hdet : ∀ row col, inversePartial g rad row col alt ≠ none

theorem solve2 (a b c e p q : K) (h : a * e - b * c ≠ 0) :
    a * (-(e / (a * e - b * c) * p + -b / (a * e - b * c) * q)) +
      b * (-(-c / (a * e - b * c) * p + a / (a * e - b * c) * q)) = -p ∧
    c * (-(e / (a * e - b * c) * p + -b / (a * e - b * c) * q)) +
      e * (-(-c / (a * e - b * c) * p + a / (a * e - b * c) * q)) = -q := by
  constructor
  · have : a * (-(e / (a * e - b * c) * p + -b / (a * e - b * c) * q)) +
      b * (-(-c / (a * e - b * c) * p + a / (a * e - b * c) * q)) = -((a * e - b * c) / (a * e - b * c) * p) := by ring
    rw [this, div_self h, one_mul]
  · have : c * (-(e / (a * e - b * c) * p + -b / (a * e - b * c) * q)) +
      e * (-(-c / (a * e - b * c) * p + a / (a * e - b * c) * q)) = -((a * e - b * c) / (a * e - b * c) * q) := by ring
    rw [this, div_self h, one_mul]

theorem gridStep_exact (g : MultiGrid K) (rad rtx coslat lon lat alt : K) (h : AffineCase g rad lon lat alt)
    (row col : K) (e : Option K)
    (hv : g.geographic = true → ValidLonLat (gridLonLat g row col alt).1 (gridLonLat g row col alt).2) :
    ∃ row' col' e', gridStep g rad rtx coslat lon lat alt ⟨some row, some col, e⟩ = ⟨some row', some col', some e'⟩ ∧
      gridLonLat g row' col' alt = (lon, lat) := by
  obtain ⟨m, hm⟩ := Option.ne_none_iff_exists'.1 (h.hdet row col)
  have hp := gridPoint_eq_gridLonLat g row col alt hv
  have haff := gridLonLat_affine g h.hn h.hr h.hc h.hdec h.hlon h.hlat alt row col
  set P := gridLonLat g row col alt with hP
  refine ⟨row - (m.2.2.1 * ((P.1 - lon) * rad) + m.2.2.2 * ((P.2 - lat) * rad)),
    col - (m.1 * ((P.1 - lon) * rad) + m.2.1 * ((P.2 - lat) * rad)),
    rtx * (((P.2 - lat) * rad) ^ 2 + ((P.1 - lon) * rad * coslat) ^ 2), ?_, ?_⟩
  · simp only [gridStep, hp, hm]
  · have h1 := haff (row - (m.2.2.1 * ((P.1 - lon) * rad) + m.2.2.2 * ((P.2 - lat) * rad)))
      (col - (m.1 * ((P.1 - lon) * rad) + m.2.1 * ((P.2 - lat) * rad)))
    obtain ⟨h2, h3⟩ := h1
    simp only [inversePartial] at hm
    set d := gridDiffs g row col alt with hd
    split_ifs at hm with h0
    simp only [Option.some.injEq] at hm
    have hrad : rad ≠ 0 := by rintro rfl; simp at h0
    subst hm
    obtain ⟨k1, k2⟩ := solve2 (d.1 * rad) (d.2.1 * rad) (d.2.2.1 * rad) (d.2.2.2 * rad) ((P.1 - lon) * rad)
      ((P.2 - lat) * rad) h0
    apply Prod.ext
    · apply sub_left_injective (b := P.1)
      apply mul_right_cancel₀ hrad
      simp only at h2 ⊢
      rw [h2]
      linear_combination k1
    · apply sub_left_injective (b := P.2)
      apply mul_right_cancel₀ hrad
      simp only at h3 ⊢
      rw [h3]
      linear_combination k2

/-- C33. On a grid affine in (row, col) at each layer, inverse location is exact from any predicted position: the
direct location of the answer at the same altitude is the requested point. -/
theorem C33_exact_on_affine_grid (g : MultiGrid K) (rad rtx coslat lon lat alt : K)
    (h : AffineCase g rad lon lat alt) (row0 col0 : K) (nb : ℕ) (hnb : 0 < nb)
    (hv : g.geographic = true → ValidLonLat (gridLonLat g row0 col0 alt).1 (gridLonLat g row0 col0 alt).2) :
    ∃ row col, (gridInverse g rad rtx coslat lon lat alt row0 col0 nb).1.row = some row ∧
      (gridInverse g rad rtx coslat lon lat alt row0 col0 nb).1.col = some col ∧
      gridPoint g (some row) (some col) (some alt) = ⟨some lon, some lat, some alt⟩ := by
  have main : ∀ (n : ℕ) (row col : K) (e : Option K), gridLonLat g row col alt = (lon, lat) →
      ∃ row' col' e' k, gridLoop g rad rtx coslat lon lat alt n ⟨some row, some col, e⟩ =
        (⟨some row', some col', e'⟩, k) ∧ gridLonLat g row' col' alt = (lon, lat) := by
    intro n
    induction n with
    | zero => intro row col e hp; exact ⟨row, col, e, 0, rfl, hp⟩
    | succ n ih =>
      intro row col e hp
      simp only [gridLoop]
      split_ifs with hb
      · obtain ⟨r, c, e', hs, hp'⟩ := gridStep_exact g rad rtx coslat lon lat alt h row col e
          (by rw [hp]; exact h.hvalid)
        rw [hs]
        obtain ⟨r', c', e'', k, hl, hp''⟩ := ih r c (some e') hp'
        rw [hl]
        exact ⟨r', c', e'', k + 1, rfl, hp''⟩
      · exact ⟨row, col, e, 0, rfl, hp⟩
  obtain ⟨n, rfl⟩ : ∃ n, nb = n + 1 := ⟨nb - 1, by omega⟩
  have hb : gridErrBig (some (10 : K)) = true := by
    simp only [gridErrBig, decide_eq_true_eq, gt_iff_lt]
    norm_num
  obtain ⟨r, c, e', hs, hp'⟩ := gridStep_exact g rad rtx coslat lon lat alt h row0 col0 (some 10) hv
  obtain ⟨r', c', e'', k, hl, hp''⟩ := main n r c (some e') hp'
  have e : gridInverse g rad rtx coslat lon lat alt row0 col0 (n + 1) = (⟨some r', some c', e''⟩, k + 1) := by
    simp only [gridInverse, gridLoop]
    rw [if_pos hb, hs, hl]
    simp
  refine ⟨r', c', by rw [e], by rw [e], ?_⟩
  rw [gridPoint_eq_gridLonLat g r' c' alt (by rw [hp'']; exact h.hvalid), hp'']

/-- An affine geographic grid. -/
def affineGrid : MultiGrid ℚ :=
  { demoGrid with
    lon := fun k i j => 2 + k / 10 + (1 + k / 10) * i / 100 + j / 50
    lat := fun k i j => 40 + k / 20 - i / 50 + (1 + k / 5) * j / 200 }

/-- Its differences are constant and not degenerate at altitude 100, and a start far from the answer is located. -/
theorem affineGrid_case : AffineCase affineGrid 17453 (5 / 2) 40 100 where
  hn := by decide
  hr := by decide
  hc := by decide
  hdec := by
    intro i j hij hj
    have hj' : j < 3 := hj
    interval_cases j <;> interval_cases i <;> decide +kernel
  hlon := ⟨fun k => 2 + k / 10, fun k => (1 + k / 10) / 100, fun _ => 1 / 50, fun k _ i _ j _ => by
    simp only [affineGrid]; ring⟩
  hlat := ⟨fun k => 40 + k / 20, fun _ => - 1 / 50, fun k => (1 + k / 5) / 200, fun k _ i _ j _ => by
    simp only [affineGrid]; ring⟩
  hvalid := fun _ => by constructor <;> norm_num [abs_le]
  hdet := by
    intro row col
    have : gridDiffs affineGrid row col 100 = gridDiffs affineGrid 0 0 100 := by
      simp only [gridDiffs]
      generalize gridCell affineGrid.nbrow ((row - affineGrid.row0) / affineGrid.steprow) = i
      generalize gridCell affineGrid.nbcol ((col - affineGrid.col0) / affineGrid.stepcol) = j
      generalize gridCell affineGrid.nbrow ((0 - affineGrid.row0) / affineGrid.steprow) = i'
      generalize gridCell affineGrid.nbcol ((0 - affineGrid.col0) / affineGrid.stepcol) = j'
      simp only [affineGrid]
      push_cast
      refine Prod.ext ?_ (Prod.ext ?_ (Prod.ext ?_ ?_)) <;> simp only <;> ring
    simp only [inversePartial, this]
    decide +kernel

example : 0 < 15 ∧ (affineGrid.geographic = true →
    ValidLonLat (gridLonLat affineGrid 1000 (-3000) 100).1 (gridLonLat affineGrid 1000 (-3000) 100).2) ∧
    (gridInverse affineGrid 17453 40678884 (766 / 1000) (5 / 2) 40 100 1000 (-3000) 15).2 = 2 := by
  refine ⟨by decide, fun _ => ?_, by decide +kernel⟩
  unfold ValidLonLat
  decide +kernel

/-! ### C34 -/

open Matrix in
/-- The design matrix of the fit: one row `[1, x, y, x^2, y^2, x y]` per measure. -/
def designMatrix {n : ℕ} (x y : Fin n → K) : Matrix (Fin n) (Fin 6) K :=
  Matrix.of fun m => ![1, x m, y m, x m ^ 2, y m ^ 2, x m * y m]

/-- The quadratic polynomial of coefficients `c`. -/
def quad6 (c : Fin 6 → K) (x y : K) : K := c 0 + c 1 * x + c 2 * y + c 3 * x ^ 2 + c 4 * y ^ 2 + c 5 * (x * y)

theorem designMatrix_mulVec {n : ℕ} (x y : Fin n → K) (c : Fin 6 → K) (m : Fin n) :
    (designMatrix x y).mulVec c m = quad6 c (x m) (y m) := by
  simp [designMatrix, Matrix.mulVec, dotProduct, quad6, Fin.sum_univ_succ]
  ring

theorem predFit_eq {n : ℕ} (x y b : Fin n → K) :
    predFit x y b = (((designMatrix x y).transpose * designMatrix x y)⁻¹ * (designMatrix x y).transpose).mulVec b := rfl

/-- C34. The fitted coefficients solve the normal equations. -/
theorem C34_normal_equations {n : ℕ} (x y b : Fin n → K)
    (hdet : ((designMatrix x y).transpose * designMatrix x y).det ≠ 0) :
    ((designMatrix x y).transpose * designMatrix x y).mulVec (predFit x y b) = (designMatrix x y).transpose.mulVec b := by
  rw [predFit_eq, Matrix.mulVec_mulVec, ← Matrix.mul_assoc, Matrix.mul_nonsing_inv _ (isUnit_iff_ne_zero.2 hdet),
    Matrix.one_mul]

/-- C34. The fitted quadratic minimises the sum of the squared residuals, and it is the only one. -/
theorem C34_least_squares {n : ℕ} (x y b : Fin n → K)
    (hdet : ((designMatrix x y).transpose * designMatrix x y).det ≠ 0) (c : Fin 6 → K) :
    ∑ m, (b m - quad6 (predFit x y b) (x m) (y m)) ^ 2 ≤ ∑ m, (b m - quad6 c (x m) (y m)) ^ 2 ∧
    (∑ m, (b m - quad6 c (x m) (y m)) ^ 2 = ∑ m, (b m - quad6 (predFit x y b) (x m) (y m)) ^ 2 →
      c = predFit x y b) := by
  set A := designMatrix x y with hA
  set p := predFit x y b with hp
  have hN := C34_normal_equations x y b hdet
  rw [← hA, ← hp] at hN
  set d : Fin n → K := A.mulVec (c - p) with hd
  have hq : ∀ m, quad6 c (x m) (y m) = quad6 p (x m) (y m) + d m := by
    intro m
    rw [← designMatrix_mulVec, ← designMatrix_mulVec, hd, ← hA, Matrix.mulVec_sub]
    simp
  have horth : ∑ m, d m * (b m - quad6 p (x m) (y m)) = 0 := by
    have h1 : A.transpose.mulVec (fun m => b m - quad6 p (x m) (y m)) = 0 := by
      have : (fun m => b m - quad6 p (x m) (y m)) = b - A.mulVec p := by
        ext m; rw [Pi.sub_apply, hA, designMatrix_mulVec]
      rw [this, Matrix.mulVec_sub, Matrix.mulVec_mulVec, hN, sub_self]
    have h2 : dotProduct (A.mulVec (c - p)) (fun m => b m - quad6 p (x m) (y m)) = 0 := by
      rw [dotProduct_comm, Matrix.dotProduct_mulVec, ← Matrix.mulVec_transpose, h1, zero_dotProduct]
    exact h2
  have hsum : ∑ m, (b m - quad6 c (x m) (y m)) ^ 2 =
      ∑ m, (b m - quad6 p (x m) (y m)) ^ 2 + ∑ m, d m ^ 2 := by
    have : ∀ m, (b m - quad6 c (x m) (y m)) ^ 2 =
        (b m - quad6 p (x m) (y m)) ^ 2 + d m ^ 2 - 2 * (d m * (b m - quad6 p (x m) (y m))) := by
      intro m; rw [hq]; ring
    rw [Finset.sum_congr rfl fun m _ => this m, Finset.sum_sub_distrib, Finset.sum_add_distrib, ← Finset.mul_sum, horth]
    ring
  have hpos : 0 ≤ ∑ m, d m ^ 2 := Finset.sum_nonneg fun m _ => sq_nonneg _
  refine ⟨by rw [hsum]; linarith, fun h => ?_⟩
  rw [hsum] at h
  have hz : ∑ m, d m ^ 2 = 0 := by linarith
  have hd0 : d = 0 := by
    ext m
    have := (Finset.sum_eq_zero_iff_of_nonneg fun m _ => sq_nonneg (d m)).1 hz m (Finset.mem_univ m)
    simpa using this
  have h3 : (A.transpose * A).mulVec (c - p) = 0 := by
    rw [← Matrix.mulVec_mulVec, ← hd, hd0, Matrix.mulVec_zero]
  have h4 := congrArg (fun v => ((A.transpose * A)⁻¹).mulVec v) h3
  simp only [Matrix.mulVec_mulVec, Matrix.nonsing_inv_mul _ (isUnit_iff_ne_zero.2 hdet), Matrix.one_mulVec,
    Matrix.mulVec_zero] at h4
  exact sub_eq_zero.1 h4

/-- C34. Values that are a quadratic function of the normalised positions are fitted by that function. -/
theorem C34_reproduces {n : ℕ} (x y b : Fin n → K) (q : Fin 6 → K)
    (hdet : ((designMatrix x y).transpose * designMatrix x y).det ≠ 0) (hq : ∀ m, b m = quad6 q (x m) (y m)) :
    predFit x y b = q := by
  have : b = (designMatrix x y).mulVec q := by
    ext m; rw [hq, designMatrix_mulVec]
  rw [predFit_eq, this, Matrix.mulVec_mulVec, Matrix.mul_assoc,
    Matrix.nonsing_inv_mul _ (isUnit_iff_ne_zero.2 hdet), Matrix.one_mulVec]

/-- C34. The normal matrix is invertible exactly when no quadratic curve contains all the normalised positions. -/
theorem C34_invertible_iff {n : ℕ} (x y : Fin n → K) :
    ((designMatrix x y).transpose * designMatrix x y).det ≠ 0 ↔
      ∀ c : Fin 6 → K, (∀ m, quad6 c (x m) (y m) = 0) → c = 0 := by
  set A := designMatrix x y with hA
  constructor
  · intro hdet c hc
    have h1 : A.mulVec c = 0 := by
      ext m; rw [hA, designMatrix_mulVec, hc]; rfl
    have h2 : (A.transpose * A).mulVec c = 0 := by
      rw [← Matrix.mulVec_mulVec, h1, Matrix.mulVec_zero]
    by_contra hne
    exact hdet (Matrix.exists_mulVec_eq_zero_iff.1 ⟨c, hne, h2⟩)
  · intro h hdet
    obtain ⟨v, hv, h0⟩ := Matrix.exists_mulVec_eq_zero_iff.2 hdet
    apply hv
    apply h
    have h1 : dotProduct (A.mulVec v) (A.mulVec v) = 0 := by
      rw [Matrix.dotProduct_mulVec, ← Matrix.mulVec_transpose, Matrix.mulVec_mulVec, h0, zero_dotProduct]
    have h2 : ∑ m, A.mulVec v m * A.mulVec v m = 0 := h1
    intro m
    have h3 := (Finset.sum_eq_zero_iff_of_nonneg fun m _ => mul_self_nonneg (A.mulVec v m)).1 h2 m (Finset.mem_univ m)
    rw [← designMatrix_mulVec, ← hA]
    exact mul_self_eq_zero.1 h3

/-- The sampled positions of one altitude `k`, normalised as the code does. -/
def normPos (v : ℕ → ℕ → ℕ → K) (vmin vmax : K) (k i j : ℕ) : K := (v k i j - (vmax + vmin) / 2) / ((vmax - vmin) / 2)

/-- C34. If, for one of the two altitudes, the sampled nodes are not on one quadratic curve and their normalised rows
and columns are quadratic functions of their normalised longitudes and latitudes, then the predicted position of
each node at that altitude is the node itself. -/
theorem C34_predictor_exact (g : MultiGrid K) (nbrow nbcol : ℕ) (lon lat : ℕ → ℕ → ℕ → K)
    (lonMin lonMax latMin latMax : K) (k : ℕ) (hk : k = 0 ∨ k = 1) (halt : g.alts 0 ≠ g.alts (g.nbalt - 1))
    (hr : 2 ≤ nbrow) (hc : 2 ≤ nbcol)
    (hgen : ∀ c : Fin 6 → K, (∀ i < nbrow, ∀ j < nbcol,
      quad6 c (normPos lon lonMin lonMax k i j) (normPos lat latMin latMax k i j) = 0) → c = 0)
    (qr qc : Fin 6 → K)
    (hqr : ∀ i < nbrow, ∀ j < nbcol, -1 + (i : K) * 2 / ((nbrow : K) - 1) =
      quad6 qr (normPos lon lonMin lonMax k i j) (normPos lat latMin latMax k i j))
    (hqc : ∀ i < nbrow, ∀ j < nbcol, -1 + (j : K) * 2 / ((nbcol : K) - 1) =
      quad6 qc (normPos lon lonMin lonMax k i j) (normPos lat latMin latMax k i j))
    (i j : ℕ) (hi : i < nbrow) (hj : j < nbcol) :
    let p := estimatePredictor g nbrow nbcol lon lat lonMin lonMax latMin latMax
    let alt := if k = 0 then g.alts 0 else g.alts (g.nbalt - 1)
    (gridPredict g p (lon k i j) (lat k i j) alt).1 =
      g.row0 + i * (g.steprow * ((g.nbrow : K) - 1) / ((nbrow : K) - 1)) ∧
    (gridPredict g p (lon k i j) (lat k i j) alt).2.1 =
      g.col0 + j * (g.stepcol * ((g.nbcol : K) - 1) / ((nbcol : K) - 1)) := by
  intro p alt
  let x (m : Fin (nbrow * nbcol)) : K := normPos lon lonMin lonMax k (m.val / nbcol) (m.val % nbcol)
  let y (m : Fin (nbrow * nbcol)) : K := normPos lat latMin latMax k (m.val / nbcol) (m.val % nbcol)
  have hm : ∀ m : Fin (nbrow * nbcol), m.val / nbcol < nbrow ∧ m.val % nbcol < nbcol := fun m =>
    ⟨(Nat.div_lt_iff_lt_mul (by omega)).2 m.isLt, Nat.mod_lt _ (by omega)⟩
  have hdet : ((designMatrix x y).transpose * designMatrix x y).det ≠ 0 := by
    rw [C34_invertible_iff]
    intro c hc0
    apply hgen
    intro i hi j hj
    have hlt : i * nbcol + j < nbrow * nbcol := by
      calc i * nbcol + j < i * nbcol + nbcol := by omega
        _ = (i + 1) * nbcol := by ring
        _ ≤ nbrow * nbcol := Nat.mul_le_mul_right _ hi
    have := hc0 ⟨i * nbcol + j, hlt⟩
    simp only [x, y] at this
    have e1 : (i * nbcol + j) / nbcol = i := by
      rw [Nat.add_comm, Nat.add_mul_div_right _ _ (by omega), Nat.div_eq_of_lt hj, Nat.zero_add]
    have e2 : (i * nbcol + j) % nbcol = j := by
      rw [Nat.add_comm, Nat.add_mul_mod_self_right, Nat.mod_eq_of_lt hj]
    rw [e1, e2] at this
    exact this
  have fr : predFit x y (fun m => linspace (-1) 1 nbrow (m.val / nbcol)) = qr := by
    apply C34_reproduces x y _ qr hdet
    intro m
    rw [← hqr _ (hm m).1 _ (hm m).2, linspace]
    ring
  have fc : predFit x y (fun m => linspace (-1) 1 nbcol (m.val % nbcol)) = qc := by
    apply C34_reproduces x y _ qc hdet
    intro m
    rw [← hqc _ (hm m).1 _ (hm m).2, linspace]
    ring
  have hquad : ∀ (c : Fin 6 → K) (a b : K), ∑ i, c i * predMonomials a b i = quad6 c a b := by
    intro c a b
    simp [predMonomials, quad6, Fin.sum_univ_succ]
    ring
  have hd : g.alts 0 - g.alts (g.nbalt - 1) ≠ 0 := sub_ne_zero.2 halt
  have n1 : (nbrow : K) - 1 ≠ 0 := by
    have : (2 : K) ≤ nbrow := by exact_mod_cast hr
    have : (0 : K) < (nbrow : K) - 1 := by linarith
    exact this.ne'
  have n2 : (nbcol : K) - 1 ≠ 0 := by
    have : (2 : K) ≤ nbcol := by exact_mod_cast hc
    have : (0 : K) < (nbcol : K) - 1 := by linarith
    exact this.ne'
  have vr : quad6 qr ((lon k i j - (lonMax + lonMin) / 2) / ((lonMax - lonMin) / 2))
      ((lat k i j - (latMax + latMin) / 2) / ((latMax - latMin) / 2)) = -1 + (i : K) * 2 / ((nbrow : K) - 1) :=
    (hqr i hi j hj).symm
  have vc : quad6 qc ((lon k i j - (lonMax + lonMin) / 2) / ((lonMax - lonMin) / 2))
      ((lat k i j - (latMax + latMin) / 2) / ((latMax - latMin) / 2)) = -1 + (j : K) * 2 / ((nbcol : K) - 1) :=
    (hqc i hi j hj).symm
  rcases hk with rfl | rfl
  · have fr' : p.rowMax = qr := fr
    have fc' : p.colMax = qc := fc
    have halt' : alt = g.alts 0 := if_pos rfl
    simp only [gridPredict, hquad, fr', fc', halt', div_self hd, sub_self, zero_mul, zero_add, one_mul]
    simp only [p, estimatePredictor, vr, vc]
    constructor <;> field_simp <;> ring
  · have fr' : p.rowMin = qr := fr
    have fc' : p.colMin = qc := fc
    have halt' : alt = g.alts (g.nbalt - 1) := if_neg (by decide)
    simp only [gridPredict, hquad, fr', fc', halt', sub_self, zero_div, sub_zero, one_mul, zero_mul, add_zero]
    simp only [p, estimatePredictor, vr, vc]
    constructor <;> field_simp <;> ring

/-- C34. Between the two altitudes the prediction is affine in the altitude. -/
theorem C34_affine_in_altitude (g : MultiGrid K) (p : Predictor K) (lon lat t : K)
    (halt : g.alts 0 ≠ g.alts (g.nbalt - 1)) :
    let lo := g.alts (g.nbalt - 1)
    let hi := g.alts 0
    let at' (a : K) := gridPredict g p lon lat a
    (at' ((1 - t) * lo + t * hi)).1 = (1 - t) * (at' lo).1 + t * (at' hi).1 ∧
    (at' ((1 - t) * lo + t * hi)).2.1 = (1 - t) * (at' lo).2.1 + t * (at' hi).2.1 := by
  have hd : g.alts 0 - g.alts (g.nbalt - 1) ≠ 0 := sub_ne_zero.2 halt
  have e : ((1 - t) * g.alts (g.nbalt - 1) + t * g.alts 0 - g.alts (g.nbalt - 1)) /
      (g.alts 0 - g.alts (g.nbalt - 1)) = t := by
    rw [div_eq_iff hd]; ring
  simp only [gridPredict, e, sub_self, zero_div, div_self hd]
  constructor <;> ring

/-- The nine nodes of `[-1, 0, 1] x [-1, 0, 1]` are on no quadratic curve. -/
theorem nine_nodes_generic (c : Fin 6 → ℚ) (h : ∀ i : ℕ, i < 3 → ∀ j : ℕ, j < 3 → quad6 c ((j : ℚ) - 1) (1 - (i : ℚ)) = 0) :
    c = 0 := by
  have h00 := h 0 (by decide) 0 (by decide)
  have h01 := h 0 (by decide) 1 (by decide)
  have h02 := h 0 (by decide) 2 (by decide)
  have h10 := h 1 (by decide) 0 (by decide)
  have h11 := h 1 (by decide) 1 (by decide)
  have h12 := h 1 (by decide) 2 (by decide)
  have h20 := h 2 (by decide) 0 (by decide)
  have h21 := h 2 (by decide) 1 (by decide)
  have h22 := h 2 (by decide) 2 (by decide)
  simp only [quad6] at *
  push_cast at *
  norm_num at *
  ext i
  fin_cases i <;> simp <;> linarith

/-- A case of `C34_predictor_exact`: nodes regularly spaced in longitude and latitude. -/
example : let lon : ℕ → ℕ → ℕ → ℚ := fun _ _ j => 2 + j / 10
    let lat : ℕ → ℕ → ℕ → ℚ := fun _ i _ => 40 - i / 5
    (∀ c : Fin 6 → ℚ, (∀ i < 3, ∀ j < 3, quad6 c (normPos lon 2 (11 / 5) 0 i j) (normPos lat (198 / 5) 40 0 i j) = 0) →
      c = 0) ∧
    (∀ i < 3, ∀ j < 3, -1 + ((i : ℕ) : ℚ) * 2 / (((3 : ℕ) : ℚ) - 1) =
      quad6 ![0, 0, -1, 0, 0, 0] (normPos lon 2 (11 / 5) 0 i j) (normPos lat (198 / 5) 40 0 i j)) ∧
    (∀ i < 3, ∀ j < 3, -1 + ((j : ℕ) : ℚ) * 2 / (((3 : ℕ) : ℚ) - 1) =
      quad6 ![0, 1, 0, 0, 0, 0] (normPos lon 2 (11 / 5) 0 i j) (normPos lat (198 / 5) 40 0 i j)) := by
  have e1 : ∀ k i j : ℕ, normPos (fun _ _ j => 2 + (j : ℚ) / 10) 2 (11 / 5) k i j = (j : ℚ) - 1 := by
    intro k i j; simp only [normPos]; field_simp; ring
  have e2 : ∀ k i j : ℕ, normPos (fun _ i _ => 40 - (i : ℚ) / 5) (198 / 5) 40 k i j = 1 - (i : ℚ) := by
    intro k i j; simp only [normPos]; field_simp; ring
  refine ⟨?_, ?_, ?_⟩
  · intro c h
    apply nine_nodes_generic
    intro i hi j hj
    have := h i hi j hj
    rwa [e1, e2] at this
  · intro i _ j _
    rw [e1, e2]
    simp [quad6]
    ring
  · intro i _ j _
    rw [e1, e2]
    simp [quad6]
    ring

/-! ### C61 -/

/-- C61. Vertex `k` of the line of sight of the point `n`: the position of the point at the altitude `k`, at that
altitude (the altitudes of the layers when none are given). -/
theorem C61_compute_los (g : MultiGrid K) (pts : List (K × K)) (alts : Option (List K)) (n k : ℕ) (p : K × K) (a : K)
    (hp : pts[n]? = some p) (ha : (alts.getD ((List.range g.nbalt).map g.alts))[k]? = some a) :
    gridComputeLos g pts alts n k =
      ((gridLonLat g p.1 p.2 a).1, (gridLonLat g p.1 p.2 a).2, a) := by
  set al := alts.getD ((List.range g.nbalt).map g.alts) with hal
  have hk : k < al.length := (List.getElem?_eq_some_iff.1 ha).1
  have hn : n < pts.length := (List.getElem?_eq_some_iff.1 hp).1
  have hrep : ∀ (l : List (K × K)) (m : ℕ), (l.flatMap fun p => List.replicate al.length p)[m * al.length + k]? = l[m]? := by
    intro l
    induction l with
    | nil => intro m; simp
    | cons b bs ih =>
      intro m
      rw [List.flatMap_cons]
      cases m with
      | zero =>
        rw [List.getElem?_append_left (by simp; omega)]
        simp [List.getElem?_replicate, hk]
      | succ m =>
        rw [List.getElem?_append_right (by simp; nlinarith)]
        rw [List.length_replicate]
        have : (m + 1) * al.length + k - al.length = m * al.length + k := by
          rw [Nat.add_mul, Nat.one_mul]; omega
        rw [this, ih m]
        simp
  have htil : ∀ (l : List K) (q m : ℕ), m < q → k < l.length →
      (List.replicate q l).flatten[m * l.length + k]? = l[k]? := by
    intro l q
    induction q with
    | zero => intro m hm; omega
    | succ q ih =>
      intro m hm hk
      rw [List.replicate_succ, List.flatten_cons]
      cases m with
      | zero => rw [List.getElem?_append_left (by omega)]; simp
      | succ m =>
        rw [List.getElem?_append_right (by nlinarith)]
        have : (m + 1) * l.length + k - l.length = m * l.length + k := by
          rw [Nat.add_mul, Nat.one_mul]; omega
        rw [this, ih m (by omega) hk]
  have h1 := hrep pts n
  rw [hp] at h1
  have h2 := htil (al.map (altNorm g)) pts.length n hn (by simpa using hk)
  rw [List.length_map, List.getElem?_map, ha] at h2
  simp only [gridComputeLos, gridPlani, ← hal]
  rw [List.getD_eq_getElem?_getD, List.getElem?_map,
    List.getElem?_zip_eq_some (z := (p, altNorm g a)) |>.2 ⟨h1, h2⟩, List.getD_eq_getElem?_getD, ha]
  rfl

/-- C61. The altitudes of the lines of sight intersected with a DTM are decreasing and their range contains both the
range of the grid and the (enlarged) range of the DTM. -/
theorem C61_dtm_altitudes (alts : List K) (hne : alts ≠ []) (hdec : alts.Pairwise (· > ·)) (minDtm maxDtm : K)
    (hmm : minDtm ≤ maxDtm) :
    (dtmAlts alts minDtm maxDtm).Pairwise (· > ·) ∧
    (∃ hi lo, (dtmAlts alts minDtm maxDtm).head? = some hi ∧ (dtmAlts alts minDtm maxDtm).getLast? = some lo ∧
      lo ≤ minDtm ∧ maxDtm ≤ hi) ∧
    (∀ a ∈ alts, a ∈ dtmAlts alts minDtm maxDtm) := by
  obtain ⟨h, t, rfl⟩ : ∃ h t, alts = h :: t := by
    cases alts with
    | nil => exact absurd rfl hne
    | cons h t => exact ⟨h, t, rfl⟩
  have hlast : ∀ a ∈ h :: t, (h :: t).getLast hne ≤ a := by
    intro a ha
    have key : ∀ (l : List K) (hl : l ≠ []), l.Pairwise (· > ·) → ∀ a ∈ l, l.getLast hl ≤ a := by
      intro l
      induction l with
      | nil => intro hl; exact absurd rfl hl
      | cons b bs ih =>
        intro hl hp a ha
        cases bs with
        | nil => simp at ha; simp [ha]
        | cons c cs =>
          rw [List.getLast_cons (by simp)]
          rcases List.mem_cons.1 ha with rfl | ha
          · have := (List.pairwise_cons.1 hp).1 _ (List.getLast_mem (l := c :: cs) (by simp))
            exact le_of_lt this
          · exact ih (by simp) (List.pairwise_cons.1 hp).2 a ha
    exact key _ hne hdec a ha
  have hhead : ∀ a ∈ h :: t, a ≤ h := by
    intro a ha
    rcases List.mem_cons.1 ha with rfl | ha
    · exact le_rfl
    · exact le_of_lt ((List.pairwise_cons.1 hdec).1 a ha)
  set lo := (h :: t).getLast hne with hlo
  have elo : (h :: t).getLastD 0 = lo := by rw [List.getLastD_eq_getLast?, List.getLast?_eq_getLast_of_ne_nil hne]; rfl
  have ehi : (h :: t).headD 0 = h := rfl
  have hloh : lo ≤ h := hlast h (by simp)
  simp only [dtmAlts, elo, ehi]
  by_cases h1 : minDtm < lo <;> by_cases h2 : maxDtm > h <;> simp only [h1, h2, if_true, if_false]
  · refine ⟨?_, ⟨maxDtm, minDtm, by simp, ?_, le_rfl, le_rfl⟩, fun a ha => by
      rcases List.mem_cons.1 ha with rfl | ha <;> simp [*]⟩
    · rw [List.pairwise_cons, List.pairwise_append]
      refine ⟨?_, hdec, by simp, ?_⟩
      · intro a ha
        rcases List.mem_append.1 ha with ha | ha
        · exact lt_of_le_of_lt (hhead a ha) h2
        · simp at ha; subst ha; linarith
      · intro a ha b hb
        simp at hb; subst hb
        exact lt_of_lt_of_le h1 (hlast a ha)
    · rw [← List.cons_append, List.getLast?_append]
      simp
  · refine ⟨?_, ⟨h, minDtm, by simp, ?_, le_rfl, not_lt.1 h2⟩, fun a ha => by
      rcases List.mem_cons.1 ha with rfl | ha <;> simp [*]⟩
    · rw [List.pairwise_append]
      refine ⟨hdec, by simp, ?_⟩
      intro a ha b hb
      simp at hb; subst hb
      exact lt_of_lt_of_le h1 (hlast a ha)
    · rw [List.getLast?_append]
      simp
  · refine ⟨?_, ⟨maxDtm, lo, by simp, ?_, not_lt.1 h1, le_rfl⟩, fun a ha => by
      rcases List.mem_cons.1 ha with rfl | ha <;> simp [*]⟩
    · rw [List.pairwise_cons]
      exact ⟨fun a ha => lt_of_le_of_lt (hhead a ha) h2, hdec⟩
    · rw [List.getLast?_cons, List.getLast?_eq_getLast_of_ne_nil hne]; rfl
  · exact ⟨hdec, ⟨h, lo, by simp, List.getLast?_eq_getLast_of_ne_nil hne, not_lt.1 h1, not_lt.1 h2⟩, fun a ha => ha⟩

example : dtmAlts ([500, 200, 10] : List ℚ) (-5) 800 = [800, 500, 200, 10, -5] ∧
    dtmAlts ([500, 200, 10] : List ℚ) 20 800 = [800, 500, 200, 10] ∧
    gridComputeLos demoGrid [(1 / 2, 3 / 2), (201 / 2, 403 / 2)] (some [200, 10]) 1 0 =
      (demoGrid.lon 1 1 1, demoGrid.lat 1 1 1, 200) := by
  decide +kernel

/-! ### Points are independent -/

theorem zip3_getElem? {α β γ : Type*} (a : List α) (b : List β) (c : List γ) (n : ℕ) (x : α) (y : β) (z : γ)
    (hx : a[n]? = some x) (hy : b[n]? = some y) (hz : c[n]? = some z) : (a.zip (b.zip c))[n]? = some (x, y, z) := by
  rw [List.getElem?_zip_eq_some]
  exact ⟨hx, List.getElem?_zip_eq_some.2 ⟨hy, hz⟩⟩

/-- C31. Each point of an array is located as if it were alone (one altitude per point). -/
theorem C31_pointwise (g : MultiGrid K) (row col alt : List (Option K)) (h1 : row.length = col.length)
    (h2 : alt.length = col.length) :
    ∃ out, gridDirectLocH g row col alt = .ok out ∧ out.length = col.length ∧
      ∀ (n : ℕ) r c a, row[n]? = some r → col[n]? = some c → alt[n]? = some a →
        ∃ q, out[n]? = some q ∧ gridDirectLocH g [r] [c] [a] = .ok [q] := by
  have hb : broadcastAlt col.length alt = .ok alt := by simp [broadcastAlt, h2]
  refine ⟨(row.zip (col.zip alt)).map fun t => gridPoint g t.1 t.2.1 t.2.2, ?_, ?_, ?_⟩
  · simp only [gridDirectLocH, hb]
    rw [if_pos h1]
  · simp [h1, h2]
  · intro n r c a hr hc ha
    refine ⟨gridPoint g r c a, ?_, ?_⟩
    · rw [List.getElem?_map, zip3_getElem? _ _ _ n r c a hr hc ha]; rfl
    · simp [gridDirectLocH, broadcastAlt]

/-- One point alone: it raises or is located. -/
theorem gridInverseLoc_one (g : MultiGrid K) (p : Predictor K) (rad rtx : K) (cosdeg : K → K) (x y a : Option K) (nb : ℕ) :
    gridInverseLoc g p rad rtx cosdeg [x] [y] [a] nb =
      if gridPointRaises g p rad rtx cosdeg nb x y a = true then .error .derivativeNan
      else .ok [gridInversePoint g p rad rtx cosdeg nb x y a] := by
  simp [gridInverseLoc, broadcastAlt]

theorem any_zip3 {α : Type*} (f : α → α → α → Bool) (l m n : List α) :
    ((l.zip (m.zip n)).any fun t => f t.1 t.2.1 t.2.2) = true ↔
      ∃ (k : ℕ) (x y a : α), l[k]? = some x ∧ m[k]? = some y ∧ n[k]? = some a ∧ f x y a = true := by
  rw [List.any_eq_true]
  constructor
  · rintro ⟨⟨x, y, a⟩, ht, hf⟩
    obtain ⟨k, hk⟩ := List.mem_iff_getElem?.1 ht
    rw [List.getElem?_zip_eq_some, List.getElem?_zip_eq_some] at hk
    exact ⟨k, x, y, a, hk.1, hk.2.1, hk.2.2, hf⟩
  · rintro ⟨k, x, y, a, hx, hy, ha, hf⟩
    exact ⟨(x, y, a), List.mem_of_getElem? (zip3_getElem? _ _ _ k x y a hx hy ha), hf⟩

/-- C33. Each point of an array is located back as if it were alone, if each point alone is answered; a point whose longitude or latitude is
NaN or out of range gives NaN. -/
theorem C33_pointwise (g : MultiGrid K) (p : Predictor K) (rad rtx : K) (cosdeg : K → K)
    (lon lat alt : List (Option K)) (nb : ℕ) (h1 : lat.length = lon.length) (h2 : alt.length = lon.length)
    (hok : ∀ (n : ℕ) x y a, lon[n]? = some x → lat[n]? = some y → alt[n]? = some a →
      ∃ l, gridInverseLoc g p rad rtx cosdeg [x] [y] [a] nb = .ok l) :
    ∃ out, gridInverseLoc g p rad rtx cosdeg lon lat alt nb = .ok out ∧ out.length = lon.length ∧
      ∀ (n : ℕ) x y a, lon[n]? = some x → lat[n]? = some y → alt[n]? = some a →
        ∃ q, out[n]? = some q ∧ gridInverseLoc g p rad rtx cosdeg [x] [y] [a] nb = .ok [q] ∧
          (¬ (∃ lo la, x = some lo ∧ y = some la ∧ |lo| ≤ 180 ∧ |la| ≤ 90) → q.x = none ∧ q.y = none) := by
  have hb : broadcastAlt lon.length alt = .ok alt := by simp [broadcastAlt, h2]
  have hone : ∀ x y a, (∃ l, gridInverseLoc g p rad rtx cosdeg [x] [y] [a] nb = .ok l) →
      ¬ gridPointRaises g p rad rtx cosdeg nb x y a = true := by
    rintro x y a ⟨l, hl⟩ hr
    rw [gridInverseLoc_one, if_pos hr] at hl
    cases hl
  have hany : ¬ ((lon.zip (lat.zip alt)).any fun t => gridPointRaises g p rad rtx cosdeg nb t.1 t.2.1 t.2.2) = true := by
    rw [any_zip3 (gridPointRaises g p rad rtx cosdeg nb)]
    rintro ⟨k, x, y, a, hx, hy, ha, hr⟩
    exact hone x y a (hok k x y a hx hy ha) hr
  refine ⟨(lon.zip (lat.zip alt)).map fun t => gridInversePoint g p rad rtx cosdeg nb t.1 t.2.1 t.2.2, ?_, ?_, ?_⟩
  · simp only [gridInverseLoc, hb]
    rw [if_pos h1.symm, if_neg hany]
  · simp [h1, h2]
  · intro n x y a hx hy ha
    refine ⟨gridInversePoint g p rad rtx cosdeg nb x y a, ?_, ?_, ?_⟩
    · rw [List.getElem?_map, zip3_getElem? _ _ _ n x y a hx hy ha]; rfl
    · rw [gridInverseLoc_one, if_neg (hone x y a (hok n x y a hx hy ha))]
    · intro hbad
      have hc : checkRow (⟨x, y, a⟩ : ORow K) = nanRow := by
        cases hx' : x with
        | none => exact checkRow_nan (Or.inl rfl)
        | some lo =>
          cases hy' : y with
          | none => exact checkRow_nan (Or.inr (Or.inl rfl))
          | some la =>
            cases a with
            | none => exact checkRow_nan (Or.inr (Or.inr rfl))
            | some al => exact checkRow_invalid fun hv => hbad ⟨lo, la, hx', hy', hv⟩
      simp [gridInversePoint, hc, nanRow]

/-- A loop that raises would have ended without position. -/
theorem gridRaises_none (g : MultiGrid K) (rad rtx coslat lon lat alt : K) : ∀ (n : ℕ) (s : GridIter K),
    gridRaises g rad rtx coslat lon lat alt n s = true →
      (gridLoop g rad rtx coslat lon lat alt n s).1.row = none ∧ (gridLoop g rad rtx coslat lon lat alt n s).1.col = none := by
  have stay : ∀ (n : ℕ) (s : GridIter K), s.row = none → s.col = none → (gridLoop g rad rtx coslat lon lat alt n s).1.row = none ∧
      (gridLoop g rad rtx coslat lon lat alt n s).1.col = none := by
    intro n
    induction n with
    | zero => intro s h1 h2; exact ⟨h1, h2⟩
    | succ n ih =>
      intro s h1 h2
      unfold gridLoop
      split_ifs
      · exact ih _ (by simp [gridStep, h1]) (by simp [gridStep, h1])
      · exact ⟨h1, h2⟩
  intro n
  induction n with
  | zero => intro s h; simp [gridRaises] at h
  | succ n ih =>
    intro s h
    unfold gridRaises at h
    by_cases hb : gridErrBig s.err = true
    swap
    · rw [if_neg hb] at h; cases h
    rw [if_pos hb] at h
    rcases s with ⟨_ | row, _ | col, err⟩ <;> simp only at h <;> try cases h
    unfold gridLoop
    rw [if_pos hb]
    dsimp only
    rw [Bool.or_eq_true] at h
    rcases h with h | h
    · simp only [Bool.and_eq_true] at h
      have hn : (gridStep g rad rtx coslat lon lat alt ⟨some row, some col, err⟩).row = none ∧
          (gridStep g rad rtx coslat lon lat alt ⟨some row, some col, err⟩).col = none := by
        have ht := h.1.1
        unfold gridTurnNan at ht
        unfold gridStep
        dsimp only at ht ⊢
        split at ht
        · rename_i plon plat hx hy
          simp only [Bool.and_eq_true, decide_eq_true_eq] at ht
          simp only [hx, hy, inversePartial]
          rw [if_pos ht.1]
          exact ⟨rfl, rfl⟩
        · cases ht
      exact stay n _ hn.1 hn.2
    · exact ih _ h

/-- A point whose answer is not NaN does not raise. -/
theorem not_raises_of_located {g : MultiGrid K} {p : Predictor K} {rad rtx : K} {cosdeg : K → K} {n : ℕ} {x y a : Option K}
    (h : (gridInversePoint g p rad rtx cosdeg n x y a).x ≠ none ∨ (gridInversePoint g p rad rtx cosdeg n x y a).y ≠ none) :
    gridPointRaises g p rad rtx cosdeg n x y a = false := by
  by_contra hcon
  rw [Bool.not_eq_false] at hcon
  unfold gridPointRaises at hcon
  unfold gridInversePoint gridInverse at h
  dsimp only at hcon h
  split at hcon
  · rename_i lo la al hx hy hz
    simp only [hx, hy, hz] at h
    have := gridRaises_none g rad rtx (cosdeg la) lo la al n _ hcon
    split_ifs at h
    · simp at h
    · rcases h with h | h
      · exact h this.1
      · exact h this.2
  · cases hcon

/-- A NaN or out of range point does not raise. -/
theorem not_raises_of_nan {g : MultiGrid K} {p : Predictor K} {rad rtx : K} {cosdeg : K → K} {n : ℕ} {x y a : Option K}
    (h : checkRow (⟨x, y, a⟩ : ORow K) = nanRow) : gridPointRaises g p rad rtx cosdeg n x y a = false := by
  simp [gridPointRaises, h, nanRow]

/-- Without null determinant nothing raises. -/
theorem not_raises_of_det {g : MultiGrid K} {rad alt : K} (hdet : ∀ row col, inversePartial g rad row col alt ≠ none) (rtx coslat lon lat : K) :
    ∀ (n : ℕ) (s : GridIter K), gridRaises g rad rtx coslat lon lat alt n s = false := by
  intro n
  induction n with
  | zero => intro s; rfl
  | succ n ih =>
    intro s
    unfold gridRaises
    split_ifs
    · rcases s with ⟨_ | row, _ | col, err⟩ <;> try rfl
      dsimp only
      rw [ih]
      have : gridTurnNan g rad lon lat alt row col = false := by
        unfold gridTurnNan
        dsimp only
        split
        · have := hdet row col
          unfold inversePartial at this
          dsimp only at this
          split_ifs at this with h0
          · exact absurd rfl this
          · rw [decide_eq_false h0]; rfl
        · rfl
      rw [this]
      rfl
    · rfl

example : (gridInverseLoc affineGrid ⟨fun _ => 0, fun _ => 0, fun _ => 0, fun _ => 0, 2, 1, 40, 1, 50, 50, 200, 200⟩
    17453 40678884 (fun _ => 766 / 1000) [some 2, none, some 200] [some 40, some 40, some 40]
    [some 100, some 100, some 100] 15).toOption.map (fun l => l.map fun q => q.x.isSome) = some [true, false, false] := by
  decide +kernel

end Shareloc
