import Verif.Model.Rectification

/-!
# C47: displacement grids, files and rectification grids
-/

set_option linter.unusedSectionVars false

namespace Shareloc
variable {K : Type*} [Field K] [LinearOrder K] [IsStrictOrderedRing K] [FloorRing K]

/-! ### Round trip at the nodes -/

/-- C47. The displacement at node (i, j) is the position minus (step i, step j); the altitude is unchanged. -/
theorem C47_displacement (step : K) (g : ℕ → ℕ → V3 K) (i j : ℕ) :
    toDisplacement step g i j = ⟨(g i j).x - step * i, (g i j).y - step * j, (g i j).z⟩ := by
  simp only [toDisplacement, indexToPhysical, Affine.apply, V3.mk.injEq, and_true]
  constructor <;> ring

/-- C47. Displacement grid, written with the default convention with the returned geotransform, then read as a displacement
grid: the nodes are the regular epipolar positions and the positions are the initial ones. -/
theorem C47_round_trip (step : K) (rows cols : ℕ) (g : ℕ → ℕ → V3 K) :
    let r := readRectGrid (writeEpipolarGrid rows cols (toDisplacement step g) (displacementTransform step) true) true
    r.nbRows = rows ∧ r.nbCols = cols ∧
    ∀ i j, r.rowNode i = step * i ∧ r.colNode j = step * j ∧ r.rowPos j i = (g i j).x ∧ r.colPos j i = (g i j).y := by
  refine ⟨rfl, rfl, fun i j => ?_⟩
  simp only [readRectGrid, writeEpipolarGrid, C47_displacement, displacementTransform, Affine.apply, if_true,
    show (2 : ℕ) ≠ 1 by decide, if_false]
  refine ⟨by ring, by ring, by ring, by ring⟩

/-- C47. A position grid written with the default convention with any geotransform is read back. -/
theorem C47_position_round_trip (t : Affine K) (rows cols : ℕ) (g : ℕ → ℕ → V3 K) :
    let r := readRectGrid (writeEpipolarGrid rows cols g t true) false
    r.nbRows = rows ∧ r.nbCols = cols ∧ ∀ i j, r.rowPos j i = (g i j).x ∧ r.colPos j i = (g i j).y :=
  ⟨rfl, rfl, fun _ _ => ⟨rfl, rfl⟩⟩

/-- The altitudes are in the third band whatever the convention. -/
theorem C47_altitude_band (step : K) (rows cols : ℕ) (g : ℕ → ℕ → V3 K) (xy : Bool) (t : Affine K) (i j : ℕ) :
    (writeEpipolarGrid rows cols (toDisplacement step g) t xy).band 3 i j = (g i j).z := by
  cases xy <;> simp [writeEpipolarGrid, C47_displacement]

/-- C47. A grid written with the other convention is not read back: rows and columns are exchanged. -/
theorem C47_yx_exchanges (step : K) (rows cols : ℕ) (g : ℕ → ℕ → V3 K) (i j : ℕ) :
    let r := readRectGrid (writeEpipolarGrid rows cols (toDisplacement step g) (displacementTransform step) false) true
    r.rowPos j i - step * i = (g i j).y - step * j ∧ r.colPos j i - step * j = (g i j).x - step * i := by
  simp only [readRectGrid, writeEpipolarGrid, C47_displacement, displacementTransform, Affine.apply, if_true,
    show (2 : ℕ) ≠ 1 by decide, if_false, Bool.false_eq_true]
  constructor <;> ring

/-! ### Interpolation -/

theorem filter_prefix (n : ℕ) (p : ℕ → Bool) (hp : ∀ a b, a ≤ b → p b = true → p a = true) :
    ∀ k, (k < ((List.range n).filter p).length ↔ k < n ∧ p k = true) := by
  induction n with
  | zero => simp
  | succ n ih =>
    intro k
    rw [List.range_succ, List.filter_append, List.length_append]
    cases hn : p n with
    | true =>
      have hall : (List.range n).filter p = List.range n := by
        rw [List.filter_eq_self]
        intro a ha
        exact hp a n (List.mem_range.1 ha).le hn
      simp only [hall, List.length_range, List.filter_cons, hn, if_true, List.filter_nil, List.length_cons, List.length_nil]
      constructor
      · intro h; exact ⟨by omega, hp k n (by omega) hn⟩
      · intro h; omega
    | false =>
      simp only [List.filter_cons, hn, Bool.false_eq_true, if_false, List.filter_nil, List.length_nil, Nat.add_zero]
      rw [ih k]
      constructor
      · rintro ⟨a, b⟩; exact ⟨by omega, b⟩
      · rintro ⟨a, b⟩
        refine ⟨?_, b⟩
        rcases Nat.lt_succ_iff_lt_or_eq.1 a with h | h
        · exact h
        · rw [h, hn] at b; cases b

/-- The interval chosen is inside the grid; the position is in it, except the ones before the first node and after the
last one, which use the first and last intervals. -/
theorem intervalIndex_spec (n : ℕ) (hn : 2 ≤ n) (node : ℕ → K) (hmono : StrictMono node) (x : K) :
    let k := intervalIndex n node x
    k + 1 < n ∧ (node k ≤ x ∨ k = 0) ∧ (x ≤ node (k + 1) ∨ k + 2 = n) := by
  intro k
  have hc := filter_prefix n (fun k => decide (node k < x)) (by
    intro a b hab hb
    simp only [decide_eq_true_eq] at hb ⊢
    exact lt_of_le_of_lt (hmono.monotone hab) hb)
  set c := ((List.range n).filter fun k => decide (node k < x)).length with hcdef
  have hk : k = min (c - 1) (n - 2) := rfl
  have hcn : c ≤ n := by
    rw [hcdef]
    exact (List.length_filter_le _ _).trans (by simp)
  refine ⟨by omega, ?_, ?_⟩
  · by_cases h0 : k = 0
    · exact Or.inr h0
    · left
      have : k < c := by omega
      have := ((hc k).1 this).2
      simp only [decide_eq_true_eq] at this
      exact this.le
  · by_cases h0 : k + 2 = n
    · exact Or.inr h0
    · left
      by_contra hlt
      push Not at hlt
      have : k + 1 < c := (hc (k + 1)).2 ⟨by omega, by simpa using hlt⟩
      omega

/-- Linear interpolation of `p` on the interval `k`. -/
def linOn (node p : ℕ → K) (k : ℕ) (x : K) : K :=
  let u := (x - node k) / (node (k + 1) - node k)
  p k * (1 - u) + p (k + 1) * u

theorem linOn_at (node p : ℕ → K) (hmono : StrictMono node) (k m : ℕ) (h : m = k ∨ m = k + 1) :
    linOn node p k (node m) = p m := by
  have hd : node (k + 1) - node k ≠ 0 := sub_ne_zero.2 (hmono (Nat.lt_succ_self k)).ne'
  rcases h with rfl | rfl
  · simp [linOn]
  · simp [linOn, div_self hd]

theorem linOn_between (node p : ℕ → K) (hmono : StrictMono node) (k : ℕ) (x lo hi : K) (h1 : node k ≤ x)
    (h2 : x ≤ node (k + 1)) (l0 : lo ≤ p k) (l1 : lo ≤ p (k + 1)) (u0 : p k ≤ hi) (u1 : p (k + 1) ≤ hi) :
    lo ≤ linOn node p k x ∧ linOn node p k x ≤ hi := by
  have hd : 0 < node (k + 1) - node k := sub_pos.2 (hmono (Nat.lt_succ_self k))
  simp only [linOn]
  set u := (x - node k) / (node (k + 1) - node k)
  have a0 : 0 ≤ u := div_nonneg (by linarith) hd.le
  have a1 : u ≤ 1 := by rw [div_le_one hd]; linarith
  constructor <;> nlinarith

theorem linOn_affine (node : ℕ → K) (hmono : StrictMono node) (k : ℕ) (x a b : K) :
    linOn node (fun m => a + b * node m) k x = a + b * x := by
  have hd : node (k + 1) - node k ≠ 0 := sub_ne_zero.2 (hmono (Nat.lt_succ_self k)).ne'
  simp only [linOn]
  have hu : (x - node k) / (node (k + 1) - node k) * (node (k + 1) - node k) = x - node k := div_mul_cancel₀ _ hd
  linear_combination b * hu

theorem linOn_choice (node p : ℕ → K) (hmono : StrictMono node) (k m : ℕ) (x : K) (h1 : node k ≤ x) (h2 : x ≤ node (k + 1))
    (h3 : node m ≤ x) (h4 : x ≤ node (m + 1)) : linOn node p k x = linOn node p m x := by
  rcases lt_trichotomy k m with h | h | h
  · have : node (k + 1) ≤ node m := hmono.monotone h
    have hx : x = node m := le_antisymm (h2.trans this) h3
    have hkm : k + 1 = m := by
      have : node (k + 1) = node m := le_antisymm this (hx ▸ h2)
      exact hmono.injective this
    rw [hx, linOn_at node p hmono k m (Or.inr hkm.symm), linOn_at node p hmono m m (Or.inl rfl)]
  · rw [h]
  · have : node (m + 1) ≤ node k := hmono.monotone h
    have hx : x = node k := le_antisymm (h4.trans this) h1
    have hkm : m + 1 = k := by
      have : node (m + 1) = node k := le_antisymm this (hx ▸ h4)
      exact hmono.injective this
    rw [hx, linOn_at node p hmono m k (Or.inr hkm.symm), linOn_at node p hmono k k (Or.inl rfl)]

/-- Bilinear interpolation of `p` on the cell (i, j). -/
def bilOn (g : RectGrid K) (p : ℕ → ℕ → K) (i j : ℕ) (col row : K) : K :=
  linOn g.colNode (fun a => linOn g.rowNode (p a) j row) i col

theorem rectInterpolate_eq (g : RectGrid K) (col row : K) :
    rectInterpolate g col row =
      (bilOn g g.colPos (intervalIndex g.nbCols g.colNode col) (intervalIndex g.nbRows g.rowNode row) col row,
       bilOn g g.rowPos (intervalIndex g.nbCols g.colNode col) (intervalIndex g.nbRows g.rowNode row) col row) := by
  simp only [rectInterpolate, bilOn, linOn, Prod.mk.injEq]
  constructor <;> ring

/-- A grid of at least two rows and two columns with increasing nodes. -/
structure RectGrid.Regular (g : RectGrid K) : Prop where
  cols : 2 ≤ g.nbCols
  rows : 2 ≤ g.nbRows
  colMono : StrictMono g.colNode
  rowMono : StrictMono g.rowNode

/-- The grid read from a file with positive steps is regular. -/
theorem readRectGrid_regular (f : EpiFile K) (d : Bool) (hr : 2 ≤ f.rows) (hc : 2 ≤ f.cols) (ha : 0 < f.transform.a)
    (he : 0 < f.transform.e) : (readRectGrid f d).Regular := by
  refine ⟨hc, hr, ?_, ?_⟩
  · intro a b hab
    simp only [readRectGrid]
    have : (a : K) < b := by exact_mod_cast hab
    nlinarith
  · intro a b hab
    simp only [readRectGrid]
    have : (a : K) < b := by exact_mod_cast hab
    nlinarith

/-- C47. Between nodes the result is the bilinear interpolation of any cell that contains the position (several do when the
position is on the edge of cells: they give the same value). -/
theorem C47_cell (g : RectGrid K) (hg : g.Regular) (i j : ℕ) (hi : i + 1 < g.nbCols) (hj : j + 1 < g.nbRows) (u v : K)
    (hu0 : 0 ≤ u) (hu1 : u ≤ 1) (hv0 : 0 ≤ v) (hv1 : v ≤ 1) :
    let f (p : ℕ → ℕ → K) := (1 - u) * ((1 - v) * p i j + v * p i (j + 1)) + u * ((1 - v) * p (i + 1) j + v * p (i + 1) (j + 1))
    rectInterpolate g ((1 - u) * g.colNode i + u * g.colNode (i + 1)) ((1 - v) * g.rowNode j + v * g.rowNode (j + 1)) =
      (f g.colPos, f g.rowPos) := by
  intro f
  have hc := hg.colMono (Nat.lt_succ_self i)
  have hr := hg.rowMono (Nat.lt_succ_self j)
  set x := (1 - u) * g.colNode i + u * g.colNode (i + 1) with hx
  set y := (1 - v) * g.rowNode j + v * g.rowNode (j + 1) with hy
  have x0 : g.colNode i ≤ x := by rw [hx]; nlinarith
  have x1 : x ≤ g.colNode (i + 1) := by rw [hx]; nlinarith
  have y0 : g.rowNode j ≤ y := by rw [hy]; nlinarith
  have y1 : y ≤ g.rowNode (j + 1) := by rw [hy]; nlinarith
  have ci := intervalIndex_spec g.nbCols hg.cols g.colNode hg.colMono x
  have cj := intervalIndex_spec g.nbRows hg.rows g.rowNode hg.rowMono y
  rw [rectInterpolate_eq]
  set I := intervalIndex g.nbCols g.colNode x
  set J := intervalIndex g.nbRows g.rowNode y
  have inCell : ∀ (node : ℕ → K) (n k m : ℕ) (z : K), StrictMono node → (k + 1 < n ∧ (node k ≤ z ∨ k = 0) ∧ (z ≤ node (k + 1) ∨ k + 2 = n)) →
      m + 1 < n → node m ≤ z → z ≤ node (m + 1) → node k ≤ z ∧ z ≤ node (k + 1) := by
    intro node n k m z hm hk hmn h1 h2
    constructor
    · rcases hk.2.1 with h | h
      · exact h
      · rw [h]; exact (hm.monotone (Nat.zero_le m)).trans h1
    · rcases hk.2.2 with h | h
      · exact h
      · exact h2.trans (hm.monotone (by omega))
  have dI := inCell g.colNode g.nbCols I i x hg.colMono ci hi x0 x1
  have dJ := inCell g.rowNode g.nbRows J j y hg.rowMono cj hj y0 y1
  have hd1 : g.colNode (i + 1) - g.colNode i ≠ 0 := (sub_pos.2 hc).ne'
  have hd2 : g.rowNode (j + 1) - g.rowNode j ≠ 0 := (sub_pos.2 hr).ne'
  have eu : (x - g.colNode i) / (g.colNode (i + 1) - g.colNode i) = u := by
    rw [div_eq_iff hd1, hx]; ring
  have ev : (y - g.rowNode j) / (g.rowNode (j + 1) - g.rowNode j) = v := by
    rw [div_eq_iff hd2, hy]; ring
  have key : ∀ p : ℕ → ℕ → K, bilOn g p I J x y = f p := by
    intro p
    unfold bilOn
    rw [linOn_choice g.colNode _ hg.colMono I i x dI.1 dI.2 x0 x1]
    have e : ∀ a, linOn g.rowNode (p a) J y = linOn g.rowNode (p a) j y := fun a =>
      linOn_choice g.rowNode _ hg.rowMono J j y dJ.1 dJ.2 y0 y1
    simp only [e]
    simp only [linOn, eu, ev, f]
    ring
  rw [key, key]

/-- C47. At the nodes the interpolation returns the positions of the grid. -/
theorem C47_exact_at_nodes (g : RectGrid K) (hg : g.Regular) (i j : ℕ) (hi : i < g.nbCols) (hj : j < g.nbRows) :
    rectInterpolate g (g.colNode i) (g.rowNode j) = (g.colPos i j, g.rowPos i j) := by
  have hc2 := hg.cols
  have hr2 := hg.rows
  rcases Nat.lt_or_ge (i + 1) g.nbCols with h1 | h1 <;> rcases Nat.lt_or_ge (j + 1) g.nbRows with h2 | h2
  · have := C47_cell g hg i j h1 h2 0 0 le_rfl zero_le_one le_rfl zero_le_one
    simpa using this
  · obtain ⟨j', rfl⟩ : ∃ j', j = j' + 1 := ⟨j - 1, by omega⟩
    have := C47_cell g hg i j' h1 (by omega) 0 1 le_rfl zero_le_one zero_le_one le_rfl
    simpa using this
  · obtain ⟨i', rfl⟩ : ∃ i', i = i' + 1 := ⟨i - 1, by omega⟩
    have := C47_cell g hg i' j (by omega) h2 1 0 zero_le_one le_rfl le_rfl zero_le_one
    simpa using this
  · obtain ⟨j', rfl⟩ : ∃ j', j = j' + 1 := ⟨j - 1, by omega⟩
    obtain ⟨i', rfl⟩ : ∃ i', i = i' + 1 := ⟨i - 1, by omega⟩
    have := C47_cell g hg i' j' (by omega) (by omega) 1 1 zero_le_one le_rfl zero_le_one le_rfl
    simpa using this

/-- C47. End to end: the displacement grid of the positions `g`, written and read, gives at the epipolar position of every
node (step col, step row) the sensor position of that node (column first). -/
theorem C47_end_to_end (step : K) (hstep : 0 < step) (rows cols : ℕ) (hr : 2 ≤ rows) (hc : 2 ≤ cols) (g : ℕ → ℕ → V3 K)
    (i j : ℕ) (hi : i < rows) (hj : j < cols) :
    rectInterpolate (readRectGrid (writeEpipolarGrid rows cols (toDisplacement step g) (displacementTransform step) true) true)
      (step * j) (step * i) = ((g i j).y, (g i j).x) := by
  set r := readRectGrid (writeEpipolarGrid rows cols (toDisplacement step g) (displacementTransform step) true) true with hrdef
  have hreg : r.Regular := readRectGrid_regular _ true hr hc hstep hstep
  have h := (C47_round_trip step rows cols g).2.2 i j
  simp only [← hrdef] at h
  have := C47_exact_at_nodes r hreg j i hj hi
  rw [h.1, h.2.1, h.2.2.1, h.2.2.2] at this
  exact this

/-- C47. Positions that are an affine function of the epipolar coordinates are reproduced everywhere, also outside of the
grid (extrapolation). -/
theorem C47_affine_reproduced (g : RectGrid K) (hg : g.Regular) (a b c a' b' c' : K)
    (h : ∀ i j, g.colPos i j = a + b * g.colNode i + c * g.rowNode j)
    (h' : ∀ i j, g.rowPos i j = a' + b' * g.colNode i + c' * g.rowNode j) (col row : K) :
    rectInterpolate g col row = (a + b * col + c * row, a' + b' * col + c' * row) := by
  have key : ∀ (p : ℕ → ℕ → K) (α β γ : K) (I J : ℕ), (∀ i j, p i j = α + β * g.colNode i + γ * g.rowNode j) →
      bilOn g p I J col row = α + β * col + γ * row := by
    intro p α β γ I J hp
    unfold bilOn
    have e : (fun a => linOn g.rowNode (p a) J row) = fun a => (α + γ * row) + β * g.colNode a := by
      funext a
      have : p a = fun m => (α + β * g.colNode a) + γ * g.rowNode m := by funext m; rw [hp]
      rw [this, linOn_affine g.rowNode hg.rowMono]; ring
    rw [e, linOn_affine g.colNode hg.colMono]; ring
  rw [rectInterpolate_eq, key _ a b c _ _ h, key _ a' b' c' _ _ h']

/-- C47. A grid without displacement is the identity on the plane: sensor and epipolar positions coincide. -/
theorem C47_zero_displacement (step : K) (hstep : 0 < step) (rows cols : ℕ) (hr : 2 ≤ rows) (hc : 2 ≤ cols) (t : Affine K)
    (ht : t = displacementTransform step) (col row : K) :
    rectInterpolate (readRectGrid (writeEpipolarGrid rows cols (fun _ _ => ⟨0, 0, 0⟩) t true) true) col row = (col, row) := by
  subst ht
  have hreg := readRectGrid_regular (writeEpipolarGrid rows cols (fun _ _ => (⟨0, 0, 0⟩ : V3 K)) (displacementTransform step) true)
    true hr hc hstep hstep
  have := C47_affine_reproduced _ hreg 0 1 0 0 0 1 (by intro i j; simp [readRectGrid, writeEpipolarGrid])
    (by intro i j; simp [readRectGrid, writeEpipolarGrid]) col row
  rw [this]
  simp

/-- C47. Inside the grid the interpolated positions are between those of the nodes of the cell. -/
theorem C47_between_nodes (g : RectGrid K) (hg : g.Regular) (col row : K) (hc0 : g.colNode 0 ≤ col)
    (hc1 : col ≤ g.colNode (g.nbCols - 1)) (hr0 : g.rowNode 0 ≤ row) (hr1 : row ≤ g.rowNode (g.nbRows - 1)) :
    ∃ i j, i + 1 < g.nbCols ∧ j + 1 < g.nbRows ∧ g.colNode i ≤ col ∧ col ≤ g.colNode (i + 1) ∧ g.rowNode j ≤ row ∧
      row ≤ g.rowNode (j + 1) ∧
      (∀ lo hi : K, (∀ a b, (a = i ∨ a = i + 1) → (b = j ∨ b = j + 1) → lo ≤ g.colPos a b ∧ g.colPos a b ≤ hi) →
        lo ≤ (rectInterpolate g col row).1 ∧ (rectInterpolate g col row).1 ≤ hi) ∧
      (∀ lo hi : K, (∀ a b, (a = i ∨ a = i + 1) → (b = j ∨ b = j + 1) → lo ≤ g.rowPos a b ∧ g.rowPos a b ≤ hi) →
        lo ≤ (rectInterpolate g col row).2 ∧ (rectInterpolate g col row).2 ≤ hi) := by
  have ci := intervalIndex_spec g.nbCols hg.cols g.colNode hg.colMono col
  have cj := intervalIndex_spec g.nbRows hg.rows g.rowNode hg.rowMono row
  rw [rectInterpolate_eq]
  set I := intervalIndex g.nbCols g.colNode col
  set J := intervalIndex g.nbRows g.rowNode row
  have dI : g.colNode I ≤ col ∧ col ≤ g.colNode (I + 1) := by
    obtain ⟨h1, h2, h3⟩ := ci
    refine ⟨?_, ?_⟩
    · rcases h2 with h | h
      · exact h
      · rw [h]; exact hc0
    · rcases h3 with h | h
      · exact h
      · rwa [show I + 1 = g.nbCols - 1 by omega]
  have dJ : g.rowNode J ≤ row ∧ row ≤ g.rowNode (J + 1) := by
    obtain ⟨h1, h2, h3⟩ := cj
    refine ⟨?_, ?_⟩
    · rcases h2 with h | h
      · exact h
      · rw [h]; exact hr0
    · rcases h3 with h | h
      · exact h
      · rwa [show J + 1 = g.nbRows - 1 by omega]
  have key : ∀ (p : ℕ → ℕ → K) (lo hi : K), (∀ a b, (a = I ∨ a = I + 1) → (b = J ∨ b = J + 1) → lo ≤ p a b ∧ p a b ≤ hi) →
      lo ≤ bilOn g p I J col row ∧ bilOn g p I J col row ≤ hi := by
    intro p lo hi h
    have inner : ∀ a, (a = I ∨ a = I + 1) → lo ≤ linOn g.rowNode (p a) J row ∧ linOn g.rowNode (p a) J row ≤ hi := fun a ha =>
      linOn_between g.rowNode (p a) hg.rowMono J row lo hi dJ.1 dJ.2 (h a J ha (Or.inl rfl)).1 (h a (J + 1) ha (Or.inr rfl)).1
        (h a J ha (Or.inl rfl)).2 (h a (J + 1) ha (Or.inr rfl)).2
    exact linOn_between g.colNode _ hg.colMono I col lo hi dI.1 dI.2 (inner I (Or.inl rfl)).1 (inner (I + 1) (Or.inr rfl)).1
      (inner I (Or.inl rfl)).2 (inner (I + 1) (Or.inr rfl)).2
  exact ⟨I, J, ci.1, cj.1, dI.1, dI.2, dJ.1, dJ.2, fun lo hi h => key _ lo hi h, fun lo hi h => key _ lo hi h⟩

/-- A 2 × 3 grid of step 10, read back and interpolated at a node, between nodes and outside. -/
def toyGrid (i j : ℕ) : V3 ℚ := ⟨3 * i + i * j, 7 + 2 * j, 5⟩

example : let r := readRectGrid (writeEpipolarGrid 2 3 (toDisplacement 10 toyGrid) (displacementTransform 10) true) true
    rectInterpolate r 20 10 = (11, 5) ∧ rectInterpolate r 15 5 = (10, 9 / 4) ∧ rectInterpolate r 30 20 = (13, 12) := by
  decide +kernel

/-- With the other convention the node (0, 1) of that grid is not read back. -/
example : let r := readRectGrid (writeEpipolarGrid 2 3 (toDisplacement 10 toyGrid) (displacementTransform 10) false) true
    (r.rowPos 1 0, r.colPos 1 0) = (-1, 10) ∧ ((toyGrid 0 1).x, (toyGrid 0 1).y) = (0, 9) := by decide +kernel

end Shareloc
