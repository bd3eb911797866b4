import Verif.Props.GridConverge
import Mathlib.Tactic.Ring
import Mathlib.Tactic.Positivity

/-! C75: number of turns of the inverse location by grid, and its uniqueness, on nearly affine grids. -/

set_option linter.unusedSectionVars false

namespace Shareloc
variable {K : Type*} [Field K] [LinearOrder K] [IsStrictOrderedRing K] [FloorRing K]

/-! ### Specification -/

/-- At an altitude, two neighbour nodes of a line are `(a, c)` degrees apart, up to `η` in longitude and in latitude, and two neighbour
nodes of a column are `(b, e)` degrees apart, up to `η`. -/
structure NearlyAffineAt (g : MultiGrid K) (alt a b c e η : K) : Prop where
  colLon : ∀ i j, i < g.nbrow → j + 1 < g.nbcol → |(nodeLonLat g alt i (j + 1)).1 - (nodeLonLat g alt i j).1 - a| ≤ η
  rowLon : ∀ i j, i + 1 < g.nbrow → j < g.nbcol → |(nodeLonLat g alt (i + 1) j).1 - (nodeLonLat g alt i j).1 - b| ≤ η
  colLat : ∀ i j, i < g.nbrow → j + 1 < g.nbcol → |(nodeLonLat g alt i (j + 1)).2 - (nodeLonLat g alt i j).2 - c| ≤ η
  rowLat : ∀ i j, i + 1 < g.nbrow → j < g.nbcol → |(nodeLonLat g alt (i + 1) j).2 - (nodeLonLat g alt i j).2 - e| ≤ η

/-- Moving by `x` nodes along the columns and `y` along the lines moves by at least `m` degrees per node. -/
def MovesBy (m a b c e : K) : Prop := ∀ x y : K, m * (|x| + |y|) ≤ |a * x + b * y| + |c * x + e * y|

/-- The distance, in nodes of the grid, between two image positions. -/
def nodeDist (g : MultiGrid K) (row col row' col' : K) : K := |(row - row') / g.steprow| + |(col - col') / g.stepcol|

/-- The position and those at a distance of at most `R` nodes in row and in column are in the grid. -/
def WellInGrid (g : MultiGrid K) (R row col : K) : Prop :=
  R ≤ (row - g.row0) / g.steprow ∧ (row - g.row0) / g.steprow + R ≤ (g.nbrow : K) - 1 ∧
  R ≤ (col - g.col0) / g.stepcol ∧ (col - g.col0) / g.stepcol + R ≤ (g.nbcol : K) - 1

/-- What the theorems assume of a grid at an altitude. -/
structure RegularAt (g : MultiGrid K) (alt a b c e η m : K) : Prop where
  hn : 2 ≤ g.nbalt
  hr : 2 ≤ g.nbrow
  hc : 2 ≤ g.nbcol
  hdec : Decreasing g.nbalt g.alts
  hsr : g.steprow ≠ 0
  hsc : g.stepcol ≠ 0
  /-- the nodes are longitudes and latitudes if the grid is geographic -/
  valid : g.geographic = true → ∀ i j, i < g.nbrow → j < g.nbcol → ValidLonLat (nodeLonLat g alt i j).1 (nodeLonLat g alt i j).2
  near : NearlyAffineAt g alt a b c e η
  moves : MovesBy m a b c e
  small : 6 * η < m

/-! ### Piecewise linear functions -/

theorem lerp_le_lerp (n : ℕ) (hn : 2 ≤ n) (f : ℕ → K) (h : ∀ i, i + 1 < n → f i ≤ f (i + 1)) (s t : K) (hst : s ≤ t) : lerp n f s ≤ lerp n f t := by
  have chain : ∀ i d, i + d < n → f i ≤ f (i + d) := by
    intro i d
    induction d with
    | zero => intro _; exact le_rfl
    | succ d ih => intro hd; exact (ih (by omega)).trans (h (i + d) (by omega))
  have hs := gridCell_le n hn s
  have ht := gridCell_le n hn t
  have hfl : ⌊s⌋ ≤ ⌊t⌋ := Int.floor_mono hst
  simp only [lerp]
  by_cases he : gridCell n s = gridCell n t
  · rw [he]
    have := mul_le_mul_of_nonneg_right (sub_le_sub_right hst (gridCell n t : K)) (sub_nonneg.2 (h _ ht))
    linarith
  · have hlt : gridCell n s < gridCell n t := by
      unfold gridCell at he ⊢; omega
    have h1 : s ≤ (gridCell n s : K) + 1 := by
      have : ⌊s⌋ < (gridCell n s : ℤ) + 1 := by unfold gridCell at hlt ht ⊢; omega
      have := Int.floor_lt.1 this
      push_cast at this
      exact this.le
    have h2 : (gridCell n t : K) ≤ t := by
      have : (gridCell n t : ℤ) ≤ ⌊t⌋ := by unfold gridCell at hlt ht ⊢; omega
      have := Int.le_floor.1 this
      simpa using this
    have e1 := mul_le_mul_of_nonneg_right (sub_le_iff_le_add'.2 h1) (sub_nonneg.2 (h _ hs))
    have e2 := mul_nonneg (sub_nonneg.2 h2) (sub_nonneg.2 (h _ ht))
    have e3 := chain (gridCell n s + 1) (gridCell n t - (gridCell n s + 1)) (by omega)
    rw [show gridCell n s + 1 + (gridCell n t - (gridCell n s + 1)) = gridCell n t by omega] at e3
    linarith

theorem lerp_lipschitz (n : ℕ) (hn : 2 ≤ n) (f : ℕ → K) (η : K) (h : ∀ i, i + 1 < n → |f (i + 1) - f i| ≤ η) (s t : K) :
    |lerp n f t - lerp n f s| ≤ η * |t - s| := by
  have key : ∀ s t, s ≤ t → |lerp n f t - lerp n f s| ≤ η * (t - s) := by
    intro s t hst
    have id1 : ∀ t, lerp n (fun i : ℕ => (i : K)) t = t := fun t => by
      have := lerp_affine n hn (fun i : ℕ => (i : K)) 0 1 t (fun i _ => by ring)
      rw [this]; ring
    have h1 := lerp_le_lerp n hn (fun i => η * (i : K) + 1 * f i) (fun i hi => by
      have := (_root_.abs_le.1 (h i hi)).1; push_cast; linarith) s t hst
    have h2 := lerp_le_lerp n hn (fun i => η * (i : K) + (-1) * f i) (fun i hi => by
      have := (_root_.abs_le.1 (h i hi)).2; push_cast; linarith) s t hst
    rw [lerp_mix n (fun i : ℕ => (i : K)) f, lerp_mix n (fun i : ℕ => (i : K)) f, id1, id1] at h1 h2
    rw [_root_.abs_le]
    constructor <;> linarith
  rcases le_total s t with hst | hst
  · rw [_root_.abs_of_nonneg (sub_nonneg.2 hst)]; exact key s t hst
  · rw [abs_sub_comm, abs_sub_comm t s, _root_.abs_of_nonneg (sub_nonneg.2 hst)]; exact key t s hst

theorem lerp_bound (n : ℕ) (hn : 2 ≤ n) (f : ℕ → K) (M : K) (h : ∀ i, i < n → |f i| ≤ M) (t : K) (h0 : 0 ≤ t) (h1 : t ≤ (n : K) - 1) :
    |lerp n f t| ≤ M := by
  have ht := gridCell_le n hn t
  have a1 : (gridCell n t : K) ≤ t := by
    have hf : 0 ≤ ⌊t⌋ := Int.floor_nonneg.2 h0
    have : (gridCell n t : ℤ) ≤ ⌊t⌋ := by unfold gridCell; omega
    have := Int.le_floor.1 this
    simpa using this
  have a2 : t ≤ (gridCell n t : K) + 1 := by
    by_cases he : gridCell n t + 2 = n
    · have : ((gridCell n t : ℕ) : K) + 2 = n := by exact_mod_cast he
      linarith
    · have : ⌊t⌋ < (gridCell n t : ℤ) + 1 := by unfold gridCell at he ht ⊢; omega
      have := Int.floor_lt.1 this
      push_cast at this
      exact this.le
  obtain ⟨b1, b2⟩ := _root_.abs_le.1 (h _ (by omega : gridCell n t < n))
  obtain ⟨c1, c2⟩ := _root_.abs_le.1 (h _ ht)
  have e : lerp n f t = (1 - (t - gridCell n t)) * f (gridCell n t) + (t - gridCell n t) * f (gridCell n t + 1) := by simp only [lerp]; ring
  have w1 : 0 ≤ 1 - (t - (gridCell n t : K)) := by linarith
  have w2 : 0 ≤ t - (gridCell n t : K) := by linarith
  rw [e, _root_.abs_le]
  constructor
  · have := mul_le_mul_of_nonneg_left b1 w1
    have := mul_le_mul_of_nonneg_left c1 w2
    linarith
  · have := mul_le_mul_of_nonneg_left b2 w1
    have := mul_le_mul_of_nonneg_left c2 w2
    linarith

/-- Bilinear interpolation of a table. -/
def bilerp (n m : ℕ) (F : ℕ → ℕ → K) (s t : K) : K := lerp n (fun i => lerp m (fun j => F i j) t) s

theorem bilerp_lipschitz (n m : ℕ) (hn : 2 ≤ n) (hm : 2 ≤ m) (F : ℕ → ℕ → K) (η : K)
    (hcol : ∀ i j, i < n → j + 1 < m → |F i (j + 1) - F i j| ≤ η) (hrow : ∀ i j, i + 1 < n → j < m → |F (i + 1) j - F i j| ≤ η)
    (s t s' t' : K) (hs0 : 0 ≤ s) (hs1 : s ≤ (n : K) - 1) (ht0 : 0 ≤ t') (ht1 : t' ≤ (m : K) - 1) :
    |bilerp n m F s t - bilerp n m F s' t'| ≤ η * (|t - t'| + |s - s'|) := by
  have h1 : |bilerp n m F s t - bilerp n m F s t'| ≤ η * |t - t'| := by
    have e : bilerp n m F s t - bilerp n m F s t' = lerp n (fun i => 1 * lerp m (fun j => F i j) t + (-1) * lerp m (fun j => F i j) t') s := by
      rw [lerp_mix]; simp only [bilerp]; ring
    rw [e]
    refine lerp_bound n hn _ _ (fun i hi => ?_) s hs0 hs1
    have := lerp_lipschitz m hm (fun j => F i j) η (fun j hj => hcol i j hi hj) t' t
    have e2 : 1 * lerp m (fun j => F i j) t + (-1) * lerp m (fun j => F i j) t' = lerp m (fun j => F i j) t - lerp m (fun j => F i j) t' := by ring
    rw [e2]
    exact this
  have h2 : |bilerp n m F s t' - bilerp n m F s' t'| ≤ η * |s - s'| := by
    refine lerp_lipschitz n hn _ η (fun i hi => ?_) s' s
    have e : lerp m (fun j => F (i + 1) j) t' - lerp m (fun j => F i j) t' = lerp m (fun j => 1 * F (i + 1) j + (-1) * F i j) t' := by
      rw [lerp_mix m (fun j => F (i + 1) j) (fun j => F i j)]; ring
    rw [e]
    refine lerp_bound m hm _ _ (fun j hj => ?_) t' ht0 ht1
    have e2 : 1 * F (i + 1) j + (-1) * F i j = F (i + 1) j - F i j := by ring
    rw [e2]
    exact hrow i j hi hj
  have := abs_sub_le (bilerp n m F s t) (bilerp n m F s t') (bilerp n m F s' t')
  linarith

/-- The grid at an altitude is the bilinear interpolation of its nodes at this altitude. -/
theorem gridLonLat_bilerp (g : MultiGrid K) (hn : 2 ≤ g.nbalt) (hr : 2 ≤ g.nbrow) (hc : 2 ≤ g.nbcol) (hdec : Decreasing g.nbalt g.alts)
    (hsr : g.steprow ≠ 0) (hsc : g.stepcol ≠ 0) (alt row col : K) :
    (gridLonLat g row col alt).1 = bilerp g.nbrow g.nbcol (fun i j => (nodeLonLat g alt i j).1) ((row - g.row0) / g.steprow)
      ((col - g.col0) / g.stepcol) ∧
    (gridLonLat g row col alt).2 = bilerp g.nbrow g.nbcol (fun i j => (nodeLonLat g alt i j).2) ((row - g.row0) / g.steprow)
      ((col - g.col0) / g.stepcol) := by
  have key : ∀ data : ℕ → ℕ → ℕ → K, gridInterp g data (altNorm g alt) row col =
      bilerp g.nbrow g.nbcol (fun i j => gridInterp g data (altNorm g alt) (g.row0 + g.steprow * i) (g.col0 + g.stepcol * j))
        ((row - g.row0) / g.steprow) ((col - g.col0) / g.stepcol) := by
    intro data
    unfold bilerp
    rw [gridInterp_alt g data row col alt hn hdec]
    have e : ∀ i < g.nbrow, lerp g.nbcol (fun j => gridInterp g data (altNorm g alt) (g.row0 + g.steprow * i) (g.col0 + g.stepcol * j))
        ((col - g.col0) / g.stepcol) = _ := fun i hi => by
      rw [lerp_congr g.nbcol hc _ (fun j => _ * data (altUp g.alts g.nbalt alt) i j + _ * data (altUp g.alts g.nbalt alt + 1) i j) _ (fun j hj => by
        rw [gridInterp_alt g data _ _ alt hn hdec, gridLayer_node g data _ i j hr hc hsr hsc hi hj, gridLayer_node g data _ i j hr hc hsr hsc hi hj]),
        lerp_mix]
    rw [lerp_congr g.nbrow hr _ _ _ e, lerp_mix]
    rfl
  exact ⟨key g.lon, key g.lat⟩

/-! ### One turn of the loop -/

variable {g : MultiGrid K} {alt a b c e η m : K}

theorem RegularAt.eta_nonneg (h : RegularAt g alt a b c e η m) : 0 ≤ η :=
  le_trans (abs_nonneg _) (h.near.colLon 0 0 (by have := h.hr; omega) (by have := h.hc; omega))

/-- The ground displacement between two positions of the grid. -/
theorem NearlyAffineAt.displacement (h : NearlyAffineAt g alt a b c e η) (hn : 2 ≤ g.nbalt) (hr : 2 ≤ g.nbrow) (hc : 2 ≤ g.nbcol)
    (hdec : Decreasing g.nbalt g.alts) (hsr : g.steprow ≠ 0) (hsc : g.stepcol ≠ 0) (row col row' col' : K) (h0 : WellInGrid g 0 row col)
    (h1 : WellInGrid g 0 row' col') :
    |(gridLonLat g row col alt).1 - (gridLonLat g row' col' alt).1 - (a * ((col - col') / g.stepcol) + b * ((row - row') / g.steprow))|
        ≤ η * nodeDist g row col row' col' ∧
    |(gridLonLat g row col alt).2 - (gridLonLat g row' col' alt).2 - (c * ((col - col') / g.stepcol) + e * ((row - row') / g.steprow))|
        ≤ η * nodeDist g row col row' col' := by
  obtain ⟨p1, p2⟩ := gridLonLat_bilerp g hn hr hc hdec hsr hsc alt row col
  obtain ⟨q1, q2⟩ := gridLonLat_bilerp g hn hr hc hdec hsr hsc alt row' col'
  obtain ⟨x1, x2, x3, x4⟩ := h0
  obtain ⟨y1, y2, y3, y4⟩ := h1
  rw [add_zero] at x2 x4 y2 y4
  have es : (row - row') / g.steprow = (row - g.row0) / g.steprow - (row' - g.row0) / g.steprow := by ring
  have et : (col - col') / g.stepcol = (col - g.col0) / g.stepcol - (col' - g.col0) / g.stepcol := by ring
  have sub : ∀ (F : ℕ → ℕ → K) (p q s t : K), bilerp g.nbrow g.nbcol (fun i j => F i j - (p * j + q * i)) s t =
      bilerp g.nbrow g.nbcol F s t - (p * t + q * s) := by
    intro F p q s t
    unfold bilerp
    have e1 : ∀ i < g.nbrow, lerp g.nbcol (fun j => F i j - (p * j + q * i)) t = 1 * lerp g.nbcol (fun j => F i j) t + (-1) * (p * t + q * i) := by
      intro i _
      have : (fun j : ℕ => F i j - (p * j + q * i)) = fun j => 1 * F i j + (-1) * (q * i + p * j) := by funext j; ring
      rw [this, lerp_mix, lerp_affine g.nbcol hc (fun j : ℕ => q * i + p * (j : K)) (q * i) p t (fun j _ => rfl)]
      ring
    rw [lerp_congr g.nbrow hr _ (fun i => 1 * lerp g.nbcol (fun j => F i j) t + (-1) * (p * t + q * i)) s e1, lerp_mix,
      lerp_affine g.nbrow hr (fun i : ℕ => p * t + q * (i : K)) (p * t) q s (fun i _ => rfl)]
    ring
  have main : ∀ (F : ℕ → ℕ → K) (p q : K), (∀ i j, i < g.nbrow → j + 1 < g.nbcol → |F i (j + 1) - F i j - p| ≤ η) →
      (∀ i j, i + 1 < g.nbrow → j < g.nbcol → |F (i + 1) j - F i j - q| ≤ η) →
      |bilerp g.nbrow g.nbcol F ((row - g.row0) / g.steprow) ((col - g.col0) / g.stepcol) -
        bilerp g.nbrow g.nbcol F ((row' - g.row0) / g.steprow) ((col' - g.col0) / g.stepcol) -
        (p * ((col - col') / g.stepcol) + q * ((row - row') / g.steprow))| ≤ η * nodeDist g row col row' col' := by
    intro F p q hp hq
    have := bilerp_lipschitz g.nbrow g.nbcol hr hc (fun i j => F i j - (p * j + q * i)) η (fun i j hi hj => by
      have := hp i j hi hj
      have e : F i (j + 1) - (p * ((j + 1 : ℕ) : K) + q * i) - (F i j - (p * j + q * i)) = F i (j + 1) - F i j - p := by push_cast; ring
      rw [e]; exact this) (fun i j hi hj => by
      have := hq i j hi hj
      have e : F (i + 1) j - (p * j + q * ((i + 1 : ℕ) : K)) - (F i j - (p * j + q * i)) = F (i + 1) j - F i j - q := by push_cast; ring
      rw [e]; exact this) ((row - g.row0) / g.steprow) ((col - g.col0) / g.stepcol) ((row' - g.row0) / g.steprow) ((col' - g.col0) / g.stepcol)
      x1 x2 y3 y4
    rw [sub, sub, ← es, ← et] at this
    unfold nodeDist
    rw [add_comm |(row - row') / g.steprow|]
    refine le_trans (le_of_eq ?_) this
    congr 1
    rw [es, et]; ring
  rw [p1, p2, q1, q2]
  exact ⟨main _ a b h.colLon h.rowLon, main _ c e h.colLat h.rowLat⟩

/-- The ground displacement between two positions of a regular grid. -/
theorem RegularAt.displacement (h : RegularAt g alt a b c e η m) (row col row' col' : K) (h0 : WellInGrid g 0 row col)
    (h1 : WellInGrid g 0 row' col') :
    |(gridLonLat g row col alt).1 - (gridLonLat g row' col' alt).1 - (a * ((col - col') / g.stepcol) + b * ((row - row') / g.steprow))|
        ≤ η * nodeDist g row col row' col' ∧
    |(gridLonLat g row col alt).2 - (gridLonLat g row' col' alt).2 - (c * ((col - col') / g.stepcol) + e * ((row - row') / g.steprow))|
        ≤ η * nodeDist g row col row' col' :=
  h.near.displacement h.hn h.hr h.hc h.hdec h.hsr h.hsc row col row' col' h0 h1

theorem near_apply {p q A B x y η : K} (h1 : |A - p| ≤ η) (h2 : |B - q| ≤ η) : |A * x + B * y - (p * x + q * y)| ≤ η * (|x| + |y|) := by
  have e : A * x + B * y - (p * x + q * y) = (A - p) * x + (B - q) * y := by ring
  rw [e]
  refine (abs_add_le _ _).trans ?_
  rw [abs_mul, abs_mul]
  have := mul_le_mul_of_nonneg_right h1 (abs_nonneg x)
  have := mul_le_mul_of_nonneg_right h2 (abs_nonneg y)
  linarith

/-- The differences of the code are near the common ones. -/
theorem RegularAt.diffs (h : RegularAt g alt a b c e η m) (row col : K) :
    |(gridDiffs g row col alt).1 * g.stepcol - a| ≤ η ∧ |(gridDiffs g row col alt).2.1 * g.steprow - b| ≤ η ∧
    |(gridDiffs g row col alt).2.2.1 * g.stepcol - c| ≤ η ∧ |(gridDiffs g row col alt).2.2.2 * g.steprow - e| ≤ η := by
  obtain ⟨i, j, hcell⟩ := exists_inCell g row col h.hr h.hc
  have hJ := gridDiffs_eq g row col alt i j h.hn h.hr h.hc h.hdec h.hsr h.hsc hcell 1
  obtain ⟨hi, hj, -⟩ := hcell
  have e00 := congrFun (congrFun hJ 0) 0
  have e01 := congrFun (congrFun hJ 0) 1
  have e10 := congrFun (congrFun hJ 1) 0
  have e11 := congrFun (congrFun hJ 1) 1
  simp only [cellJacobian, Matrix.of_apply, Matrix.cons_val', Matrix.cons_val_zero, Matrix.cons_val_one, one_mul, mul_one,
    Matrix.cons_val_fin_one] at e00 e01 e10 e11
  have k1 := h.near.colLon i j (by omega) hj
  have k2 := h.near.rowLon i j hi (by omega)
  have k3 := h.near.colLat i j (by omega) hj
  have k4 := h.near.rowLat i j hi (by omega)
  unfold nodeLonLat at k1 k2 k3 k4
  refine ⟨?_, ?_, ?_, ?_⟩
  · rw [← e00, div_mul_cancel₀ _ h.hsc]; exact k1
  · rw [← e01, div_mul_cancel₀ _ h.hsr]; exact k2
  · rw [← e10, div_mul_cancel₀ _ h.hsc]; exact k3
  · rw [← e11, div_mul_cancel₀ _ h.hsr]; exact k4

theorem null_det {A B C E : K} (h : A * E - B * C = 0) : ∃ x y : K, (x ≠ 0 ∨ y ≠ 0) ∧ A * x + B * y = 0 ∧ C * x + E * y = 0 := by
  by_cases h1 : A ≠ 0 ∨ B ≠ 0
  · exact ⟨B, -A, by rcases h1 with h1 | h1 <;> simp [h1], by ring, by linear_combination -h⟩
  · push Not at h1
    obtain ⟨rfl, rfl⟩ := h1
    by_cases h2 : C ≠ 0 ∨ E ≠ 0
    · exact ⟨E, -C, by rcases h2 with h2 | h2 <;> simp [h2], by ring, by ring⟩
    · push Not at h2
      obtain ⟨rfl, rfl⟩ := h2
      exact ⟨1, 0, by simp, by ring, by ring⟩

theorem RegularAt.inverts (h : RegularAt g alt a b c e η m) (rad : K) (hrad : rad ≠ 0) (row col : K) : inversePartial g rad row col alt ≠ none := by
  obtain ⟨d1, d2, d3, d4⟩ := h.diffs row col
  have he := h.eta_nonneg
  have hs := h.small
  simp only [inversePartial]
  split_ifs with h0
  · exfalso
    set d := gridDiffs g row col alt
    have hdet : d.1 * g.stepcol * (d.2.2.2 * g.steprow) - d.2.1 * g.steprow * (d.2.2.1 * g.stepcol) = 0 := by
      have : (d.1 * d.2.2.2 - d.2.1 * d.2.2.1) * (rad * rad) = 0 := by linear_combination h0
      have := (mul_eq_zero.1 this).resolve_right (mul_ne_zero hrad hrad)
      linear_combination (g.stepcol * g.steprow) * this
    obtain ⟨x, y, hxy, z1, z2⟩ := null_det hdet
    have n1 := near_apply (x := x) (y := y) d1 d2
    have n2 := near_apply (x := x) (y := y) d3 d4
    rw [z1, zero_sub, abs_neg] at n1
    rw [z2, zero_sub, abs_neg] at n2
    have hm := h.moves x y
    have hpos : 0 < |x| + |y| := by
      rcases hxy with hx | hy
      · have := abs_pos.2 hx; have := abs_nonneg y; linarith
      · have := abs_pos.2 hy; have := abs_nonneg x; linarith
    have : (m - 2 * η) * (|x| + |y|) ≤ 0 := by linarith
    have : 0 < (m - 2 * η) * (|x| + |y|) := mul_pos (by linarith) hpos
    linarith
  · simp

/-- Positions are determined by their ground position. -/
theorem RegularAt.expands (h : RegularAt g alt a b c e η m) (row col row' col' : K) (h0 : WellInGrid g 0 row col) (h1 : WellInGrid g 0 row' col') :
    (m - 2 * η) * nodeDist g row col row' col' ≤ |(gridLonLat g row col alt).1 - (gridLonLat g row' col' alt).1| +
      |(gridLonLat g row col alt).2 - (gridLonLat g row' col' alt).2| := by
  obtain ⟨x1, x2⟩ := h.displacement row col row' col' h0 h1
  have hm := h.moves ((col - col') / g.stepcol) ((row - row') / g.steprow)
  have t1 := abs_sub_abs_le_abs_sub (a * ((col - col') / g.stepcol) + b * ((row - row') / g.steprow)) ((gridLonLat g row col alt).1 - (gridLonLat g row' col' alt).1)
  have t2 := abs_sub_abs_le_abs_sub (c * ((col - col') / g.stepcol) + e * ((row - row') / g.steprow)) ((gridLonLat g row col alt).2 - (gridLonLat g row' col' alt).2)
  rw [abs_sub_comm _ (_ - _)] at t1 t2
  have : |(col - col') / g.stepcol| + |(row - row') / g.steprow| = nodeDist g row col row' col' := by unfold nodeDist; ring
  rw [this] at hm
  linarith

/-- The rate of convergence. -/
def rate (η m : K) : K := 4 * η / (m - 2 * η)

theorem RegularAt.rate_lt (h : RegularAt g alt a b c e η m) : 0 ≤ rate η m ∧ rate η m < 1 := by
  have he := h.eta_nonneg
  have hs := h.small
  have : 0 < m - 2 * η := by linarith
  exact ⟨div_nonneg (by linarith) this.le, (div_lt_one this).2 (by linarith)⟩

theorem WellInGrid.ball {R row col row' col' : K} (h : WellInGrid g R row col) (hd : nodeDist g row' col' row col ≤ R) : WellInGrid g 0 row' col' := by
  obtain ⟨h1, h2, h3, h4⟩ := h
  have es : (row' - g.row0) / g.steprow = (row - g.row0) / g.steprow + (row' - row) / g.steprow := by ring
  have et : (col' - g.col0) / g.stepcol = (col - g.col0) / g.stepcol + (col' - col) / g.stepcol := by ring
  unfold nodeDist at hd
  have p1 := abs_nonneg ((row' - row) / g.steprow)
  have p2 := abs_nonneg ((col' - col) / g.stepcol)
  have q1 := neg_abs_le ((row' - row) / g.steprow)
  have q2 := le_abs_self ((row' - row) / g.steprow)
  have q3 := neg_abs_le ((col' - col) / g.stepcol)
  have q4 := le_abs_self ((col' - col) / g.stepcol)
  unfold WellInGrid
  rw [es, et]
  refine ⟨?_, ?_, ?_, ?_⟩ <;> linarith

/-- A position of the grid is located. -/
theorem RegularAt.located (h : RegularAt g alt a b c e η m) (row col : K) (h0 : WellInGrid g 0 row col) :
    gridPoint g (some row) (some col) (some alt) = ⟨some (gridLonLat g row col alt).1, some (gridLonLat g row col alt).2, some alt⟩ := by
  refine gridPoint_eq_gridLonLat g row col alt (fun hg => ?_)
  obtain ⟨p1, p2⟩ := gridLonLat_bilerp g h.hn h.hr h.hc h.hdec h.hsr h.hsc alt row col
  obtain ⟨x1, x2, x3, x4⟩ := h0
  rw [add_zero] at x2 x4
  have hv := h.valid hg
  rw [p1, p2]
  exact ⟨lerp_bound _ h.hr _ _ (fun i hi => lerp_bound _ h.hc _ _ (fun j hj => (hv i j hi hj).1) _ x3 x4) _ x1 x2,
    lerp_bound _ h.hr _ _ (fun i hi => lerp_bound _ h.hc _ _ (fun j hj => (hv i j hi hj).2) _ x3 x4) _ x1 x2⟩

/-- The error announced for a position. -/
def announced (g : MultiGrid K) (rad rtx coslat lon lat alt row col : K) : K :=
  rtx * ((((gridLonLat g row col alt).2 - lat) * rad) ^ 2 + (((gridLonLat g row col alt).1 - lon) * rad * coslat) ^ 2)

/-- One turn brings the position nearer to the one sought. -/
theorem RegularAt.turn (h : RegularAt g alt a b c e η m) (rad rtx coslat lon lat : K) (hrad : rad ≠ 0) (row0 col0 : K) (h0 : WellInGrid g 0 row0 col0)
    (hp : gridLonLat g row0 col0 alt = (lon, lat)) (row col : K) (h1 : WellInGrid g 0 row col) (err : Option K) :
    ∃ row' col', gridStep g rad rtx coslat lon lat alt ⟨some row, some col, err⟩ =
        ⟨some row', some col', some (announced g rad rtx coslat lon lat alt row col)⟩ ∧
      nodeDist g row' col' row0 col0 ≤ rate η m * nodeDist g row col row0 col0 := by
  obtain ⟨M, hM⟩ := Option.ne_none_iff_exists'.1 (h.inverts rad hrad row col)
  have hl := h.located row col h1
  obtain ⟨d1, d2, d3, d4⟩ := h.diffs row col
  have he := h.eta_nonneg
  have hs := h.small
  set P := gridLonLat g row col alt with hP
  have hstep : gridStep g rad rtx coslat lon lat alt ⟨some row, some col, err⟩ =
      ⟨some (row - (M.2.2.1 * ((P.1 - lon) * rad) + M.2.2.2 * ((P.2 - lat) * rad))),
       some (col - (M.1 * ((P.1 - lon) * rad) + M.2.1 * ((P.2 - lat) * rad))),
       some (announced g rad rtx coslat lon lat alt row col)⟩ := by
    simp only [gridStep, hl, hM, announced, ← hP]
  refine ⟨_, _, hstep, ?_⟩
  set row' := row - (M.2.2.1 * ((P.1 - lon) * rad) + M.2.2.2 * ((P.2 - lat) * rad)) with hrow'
  set col' := col - (M.1 * ((P.1 - lon) * rad) + M.2.1 * ((P.2 - lat) * rad)) with hcol'
  -- the update cancels the ground difference
  have hup : (gridDiffs g row col alt).1 * (col' - col) + (gridDiffs g row col alt).2.1 * (row' - row) = lon - P.1 ∧
      (gridDiffs g row col alt).2.2.1 * (col' - col) + (gridDiffs g row col alt).2.2.2 * (row' - row) = lat - P.2 := by
    simp only [inversePartial] at hM
    set d := gridDiffs g row col alt with hd
    split_ifs at hM with hz
    simp only [Option.some.injEq] at hM
    subst hM
    obtain ⟨k1, k2⟩ := solve2 (d.1 * rad) (d.2.1 * rad) (d.2.2.1 * rad) (d.2.2.2 * rad) ((P.1 - lon) * rad) ((P.2 - lat) * rad) hz
    constructor
    · apply mul_right_cancel₀ hrad
      rw [hcol', hrow']
      linear_combination k1
    · apply mul_right_cancel₀ hrad
      rw [hcol', hrow']
      linear_combination k2
  obtain ⟨u1, u2⟩ := hup
  obtain ⟨x1, x2⟩ := h.displacement row col row0 col0 h1 h0
  rw [hp] at x1 x2
  simp only [← hP] at x1 x2
  set A := (gridDiffs g row col alt).1 * g.stepcol with hA
  set B := (gridDiffs g row col alt).2.1 * g.steprow with hB
  set C := (gridDiffs g row col alt).2.2.1 * g.stepcol with hC
  set E := (gridDiffs g row col alt).2.2.2 * g.steprow with hE
  set t := (col - col0) / g.stepcol with ht
  set s := (row - row0) / g.steprow with hs'
  set t' := (col' - col0) / g.stepcol with ht'
  set s' := (row' - row0) / g.steprow with hs''
  have hsc := h.hsc
  have hsr := h.hsr
  have v1 : A * t' + B * s' = A * t + B * s - (P.1 - lon) := by
    have e1 : A * (t' - t) = (gridDiffs g row col alt).1 * (col' - col) := by rw [hA, ht, ht']; field_simp; ring
    have e2 : B * (s' - s) = (gridDiffs g row col alt).2.1 * (row' - row) := by rw [hB, hs', hs'']; field_simp; ring
    linear_combination e1 + e2 + u1
  have v2 : C * t' + E * s' = C * t + E * s - (P.2 - lat) := by
    have e1 : C * (t' - t) = (gridDiffs g row col alt).2.2.1 * (col' - col) := by rw [hC, ht, ht']; field_simp; ring
    have e2 : E * (s' - s) = (gridDiffs g row col alt).2.2.2 * (row' - row) := by rw [hE, hs', hs'']; field_simp; ring
    linear_combination e1 + e2 + u2
  have hD : nodeDist g row col row0 col0 = |t| + |s| := by unfold nodeDist; rw [← hs', ← ht]; ring
  have hD' : nodeDist g row' col' row0 col0 = |t'| + |s'| := by unfold nodeDist; rw [← hs'', ← ht']; ring
  rw [hD] at x1 x2 ⊢
  rw [hD']
  have n1 := near_apply (x := t) (y := s) d1 d2
  have n2 := near_apply (x := t) (y := s) d3 d4
  have n3 := near_apply (x := t') (y := s') d1 d2
  have n4 := near_apply (x := t') (y := s') d3 d4
  have hm := h.moves t' s'
  have bound : ∀ (A B p q D : K), |A * t + B * s - (p * t + q * s)| ≤ η * (|t| + |s|) → |A * t' + B * s' - (p * t' + q * s')| ≤ η * (|t'| + |s'|) →
      A * t' + B * s' = A * t + B * s - D → |D - (p * t + q * s)| ≤ η * (|t| + |s|) → |p * t' + q * s'| ≤ 2 * η * (|t| + |s|) + η * (|t'| + |s'|) := by
    intro A B p q D b1 b2 b3 b4
    have e : p * t' + q * s' = (A * t + B * s - (p * t + q * s)) - (D - (p * t + q * s)) - (A * t' + B * s' - (p * t' + q * s')) := by
      linear_combination b3
    obtain ⟨c1, c2⟩ := _root_.abs_le.1 b1
    obtain ⟨c3, c4⟩ := _root_.abs_le.1 b2
    obtain ⟨c5, c6⟩ := _root_.abs_le.1 b4
    rw [e, _root_.abs_le]
    constructor <;> linarith
  have w1 := bound A B a b (P.1 - lon) n1 n3 v1 x1
  have w2 := bound C E c e (P.2 - lat) n2 n4 v2 x2
  unfold rate
  rw [div_mul_eq_mul_div, le_div_iff₀ (by linarith)]
  linarith

/-! ### The loop -/

/-- A bound of the error announced by the distance to the position sought. -/
theorem RegularAt.announced_le (h : RegularAt g alt a b c e η m) (L : K) (ha : |a| + η ≤ L) (hb : |b| + η ≤ L) (hc : |c| + η ≤ L) (he : |e| + η ≤ L)
    (rad rtx coslat lon lat : K) (hrtx : 0 ≤ rtx) (row0 col0 : K) (h0 : WellInGrid g 0 row0 col0) (hp : gridLonLat g row0 col0 alt = (lon, lat))
    (row col : K) (h1 : WellInGrid g 0 row col) :
    announced g rad rtx coslat lon lat alt row col ≤ rtx * rad ^ 2 * (1 + coslat ^ 2) * (L * nodeDist g row col row0 col0) ^ 2 := by
  obtain ⟨x1, x2⟩ := h.displacement row col row0 col0 h1 h0
  rw [hp] at x1 x2
  set P := gridLonLat g row col alt with hP
  set t := (col - col0) / g.stepcol with ht
  set s := (row - row0) / g.steprow with hs'
  have hD : nodeDist g row col row0 col0 = |s| + |t| := rfl
  rw [hD] at *
  have key : ∀ (p q v : K), |p| + η ≤ L → |q| + η ≤ L → |v - (p * t + q * s)| ≤ η * (|s| + |t|) → v ^ 2 ≤ (L * (|s| + |t|)) ^ 2 := by
    intro p q v hp hq hv
    have k1 : |p * t + q * s| ≤ |p| * |t| + |q| * |s| := by
      refine (abs_add_le _ _).trans ?_
      rw [abs_mul, abs_mul]
    have k2 := abs_sub_abs_le_abs_sub v (p * t + q * s)
    have k3 := mul_le_mul_of_nonneg_right hp (abs_nonneg t)
    have k4 := mul_le_mul_of_nonneg_right hq (abs_nonneg s)
    have : |v| ≤ L * (|s| + |t|) := by linarith
    rw [← sq_abs v]
    exact pow_le_pow_left₀ (abs_nonneg v) this 2
  have y1 := key a b (P.1 - lon) ha hb x1
  have y2 := key c e (P.2 - lat) hc he x2
  unfold announced
  rw [← hP]
  have z1 := mul_le_mul_of_nonneg_left y1 (mul_nonneg (sq_nonneg rad) (sq_nonneg coslat))
  have z2 := mul_le_mul_of_nonneg_left y2 (sq_nonneg rad)
  have : (((P.2 - lat) * rad) ^ 2 + ((P.1 - lon) * rad * coslat) ^ 2) ≤ rad ^ 2 * (1 + coslat ^ 2) * (L * (|s| + |t|)) ^ 2 := by
    linarith
  have := mul_le_mul_of_nonneg_left this hrtx
  linarith

/-- What the loop gives, from a position at a distance of at most `R` of the one sought. -/
theorem RegularAt.loop (h : RegularAt g alt a b c e η m) (rad rtx coslat lon lat : K) (hrad : rad ≠ 0) (row0 col0 R : K) (hR : 0 ≤ R)
    (h0 : WellInGrid g R row0 col0) (hp : gridLonLat g row0 col0 alt = (lon, lat)) : ∀ (n : ℕ) (row col : K) (err : Option K), nodeDist g row col row0 col0 ≤ R →
    ∃ row' col' err' k, gridLoop g rad rtx coslat lon lat alt n ⟨some row, some col, err⟩ = (⟨some row', some col', err'⟩, k) ∧
      nodeDist g row' col' row0 col0 ≤ rate η m ^ k * nodeDist g row col row0 col0 ∧ k ≤ n ∧
      (k = 0 → err' = err) ∧ (k < n → gridErrBig err' = false) ∧
      (k ≠ 0 → ∃ rp cp, WellInGrid g 0 rp cp ∧ err' = some (announced g rad rtx coslat lon lat alt rp cp) ∧
        nodeDist g row' col' row0 col0 ≤ rate η m * nodeDist g rp cp row0 col0) ∧
      (2 ≤ k → ∃ rp cp, WellInGrid g 0 rp cp ∧ 1 / 1000000 < announced g rad rtx coslat lon lat alt rp cp ∧
        nodeDist g rp cp row0 col0 ≤ rate η m ^ (k - 2) * nodeDist g row col row0 col0) := by
  obtain ⟨r0, r1⟩ := h.rate_lt
  have nn : ∀ r c : K, 0 ≤ nodeDist g r c row0 col0 := fun r c => add_nonneg (abs_nonneg _) (abs_nonneg _)
  have h00 : WellInGrid g 0 row0 col0 := h0.ball (by
    have : nodeDist g row0 col0 row0 col0 = 0 := by simp [nodeDist]
    rw [this]
    exact hR)
  intro n
  induction n with
  | zero => 
    intro row col err hd
    exact ⟨row, col, err, 0, rfl, by simp, le_rfl, fun _ => rfl, fun hk => absurd hk (lt_irrefl _), fun hk => absurd rfl hk, fun hk => by omega⟩
  | succ n ih =>
    intro row col err hd
    simp only [gridLoop]
    by_cases hbig : gridErrBig err = true
    · obtain ⟨row1, col1, hstep, hd1⟩ := h.turn rad rtx coslat lon lat hrad row0 col0 h00 hp row col (h0.ball hd) err
      have hle : nodeDist g row1 col1 row0 col0 ≤ nodeDist g row col row0 col0 :=
        hd1.trans (by have := mul_le_mul_of_nonneg_right r1.le (nn row col); linarith)
      obtain ⟨row', col', err', k, e1, e2, e3, e4, e5, e6, e7⟩ := ih row1 col1 (some (announced g rad rtx coslat lon lat alt row col)) (hle.trans hd)
      rw [if_pos hbig, hstep, e1]
      refine ⟨row', col', err', k + 1, rfl, ?_, by omega, fun hk => by omega, fun hk => e5 (by omega), fun _ => ?_, fun hk => ?_⟩
      · have := mul_le_mul_of_nonneg_left hd1 (pow_nonneg r0 k)
        rw [pow_succ]
        linarith
      · by_cases hk : k = 0
        · refine ⟨row, col, h0.ball hd, e4 hk, ?_⟩
          subst hk
          rw [pow_zero, one_mul] at e2
          exact e2.trans hd1
        · exact e6 hk
      · by_cases hk1 : k = 1
        · subst hk1
          refine ⟨row, col, h0.ball hd, ?_, by simp⟩
          by_contra hcon
          have : gridErrBig (some (announced g rad rtx coslat lon lat alt row col)) = false := by
            simp only [gridErrBig, gt_iff_lt, decide_eq_false_iff_not]; exact hcon
          cases n with
          | zero => omega
          | succ n =>
            have := congrArg Prod.snd e1
            simp only [gridLoop] at this
            rw [if_neg (by simp_all)] at this
            simp at this
        · obtain ⟨rp, cp, f1, f2, f3⟩ := e7 (by omega)
          refine ⟨rp, cp, f1, f2, f3.trans ?_⟩
          have := mul_le_mul_of_nonneg_left hd1 (pow_nonneg r0 (k - 2))
          rw [show k + 1 - 2 = (k - 2) + 1 by omega, pow_succ]
          linarith
    · rw [if_neg hbig]
      exact ⟨row, col, err, 0, rfl, by simp, by omega, fun _ => rfl, fun _ => by simpa using hbig, fun hk => absurd rfl hk, fun hk => by omega⟩

/-- C75. On a nearly affine grid, the inverse location of a ground point seen at `(row0, col0)`, started at a distance of `R` nodes from this position
which is at least as far from the edges of the grid, gives after `k` turns a position at a distance of at most `rate ^ k * R` nodes; the last
position measured was at a ground distance equal to the error announced, and the answer is nearer to the position sought than it by the same rate. -/
theorem C75_announced_error (h : RegularAt g alt a b c e η m) (rad rtx coslat lon lat : K) (hrad : rad ≠ 0) (row0 col0 R : K) (hR : 0 ≤ R)
    (h0 : WellInGrid g R row0 col0) (hp : gridPoint g (some row0) (some col0) (some alt) = ⟨some lon, some lat, some alt⟩) (row col : K)
    (hd : nodeDist g row col row0 col0 ≤ R) (nb : ℕ) (hnb : 0 < nb) :
    ∃ row' col' err k, gridInverse g rad rtx coslat lon lat alt row col nb = (⟨some row', some col', some err⟩, k) ∧ 1 ≤ k ∧ k ≤ nb ∧
      nodeDist g row' col' row0 col0 ≤ rate η m ^ k * R ∧ rate η m < 1 ∧
      (∃ rp cp plon plat, gridPoint g (some rp) (some cp) (some alt) = ⟨some plon, some plat, some alt⟩ ∧
        err = rtx * (((plat - lat) * rad) ^ 2 + ((plon - lon) * rad * coslat) ^ 2) ∧
        (m - 2 * η) * nodeDist g row' col' row0 col0 ≤ rate η m * (|plon - lon| + |plat - lat|)) ∧
      (k < nb → err ≤ 1 / 1000000) := by
  obtain ⟨r0, r1⟩ := h.rate_lt
  have h00 : WellInGrid g 0 row0 col0 := h0.ball (by simpa [nodeDist] using hR)
  have hl0 := h.located row0 col0 h00
  have hp' : gridLonLat g row0 col0 alt = (lon, lat) := by
    rw [hl0] at hp
    simp only [V3.mk.injEq, Option.some.injEq] at hp
    exact Prod.ext hp.1 hp.2.1
  obtain ⟨row', col', err', k, e1, e2, e3, e4, e5, e6, -⟩ := h.loop rad rtx coslat lon lat hrad row0 col0 R hR h0 hp' nb row col (some 10) hd
  have hk : k ≠ 0 := by
    rintro rfl
    have := e5 hnb
    rw [e4 rfl] at this
    simp only [gridErrBig, gt_iff_lt, decide_eq_false_iff_not] at this
    exact this (by norm_num)
  obtain ⟨rp, cp, f1, rfl, f3⟩ := e6 hk
  refine ⟨row', col', _, k, ?_, by omega, e3, e2.trans (mul_le_mul_of_nonneg_left hd (pow_nonneg r0 k)), r1,
    ⟨rp, cp, _, _, h.located rp cp f1, rfl, ?_⟩, fun hlt => ?_⟩
  · simp only [gridInverse, e1]
    rw [if_neg hk]
    rfl
  · have he := h.eta_nonneg
    have hs := h.small
    have hx := h.expands rp cp row0 col0 f1 h00
    rw [hp'] at hx
    have k1 := mul_le_mul_of_nonneg_left f3 (by linarith : 0 ≤ m - 2 * η)
    have k2 := mul_le_mul_of_nonneg_left hx r0
    linarith
  · have := e5 hlt
    simp only [gridErrBig, gt_iff_lt, decide_eq_false_iff_not, not_lt] at this
    exact this

/-- C75. The number of turns: the loop does more than one turn only while the bound of the error announced is above the threshold. -/
theorem C75_turns (h : RegularAt g alt a b c e η m) (L : K) (ha : |a| + η ≤ L) (hb : |b| + η ≤ L) (hc : |c| + η ≤ L) (he : |e| + η ≤ L)
    (rad rtx coslat lon lat : K) (hrad : rad ≠ 0) (hrtx : 0 ≤ rtx) (row0 col0 R : K) (hR : 0 ≤ R)
    (h0 : WellInGrid g R row0 col0) (hp : gridPoint g (some row0) (some col0) (some alt) = ⟨some lon, some lat, some alt⟩) (row col : K)
    (hd : nodeDist g row col row0 col0 ≤ R) (nb j : ℕ)
    (hj : rtx * rad ^ 2 * (1 + coslat ^ 2) * (L * (rate η m ^ j * R)) ^ 2 ≤ 1 / 1000000) :
    (gridInverse g rad rtx coslat lon lat alt row col nb).2 ≤ j + 1 := by
  obtain ⟨r0, r1⟩ := h.rate_lt
  have h00 : WellInGrid g 0 row0 col0 := h0.ball (by simpa [nodeDist] using hR)
  have hp' : gridLonLat g row0 col0 alt = (lon, lat) := by
    rw [h.located row0 col0 h00] at hp
    simp only [V3.mk.injEq, Option.some.injEq] at hp
    exact Prod.ext hp.1 hp.2.1
  obtain ⟨row', col', err', k, e1, -, -, -, -, -, e7⟩ := h.loop rad rtx coslat lon lat hrad row0 col0 R hR h0 hp' nb row col (some 10) hd
  have hk : (gridInverse g rad rtx coslat lon lat alt row col nb).2 = k := by
    simp only [gridInverse, e1]
    split_ifs with hz
    · exact hz.symm
    · rfl
  rw [hk]
  by_contra hcon
  push Not at hcon
  obtain ⟨rp, cp, f1, f2, f3⟩ := e7 (by omega)
  have hle := h.announced_le L ha hb hc he rad rtx coslat lon lat hrtx row0 col0 h00 hp' rp cp f1
  have hL : 0 ≤ L := le_trans (add_nonneg (abs_nonneg a) h.eta_nonneg) ha
  have nn : 0 ≤ nodeDist g rp cp row0 col0 := add_nonneg (abs_nonneg _) (abs_nonneg _)
  have g1 : nodeDist g rp cp row0 col0 ≤ rate η m ^ j * R := by
    refine f3.trans ?_
    have p1 : rate η m ^ (k - 2) ≤ rate η m ^ j := pow_le_pow_of_le_one r0 r1.le (by omega)
    exact mul_le_mul p1 hd (add_nonneg (abs_nonneg _) (abs_nonneg _)) (pow_nonneg r0 j)
  have g2 : (L * nodeDist g rp cp row0 col0) ^ 2 ≤ (L * (rate η m ^ j * R)) ^ 2 :=
    pow_le_pow_left₀ (mul_nonneg hL nn) (mul_le_mul_of_nonneg_left g1 hL) 2
  have g3 : 0 ≤ rtx * rad ^ 2 * (1 + coslat ^ 2) := by positivity
  have := mul_le_mul_of_nonneg_left g2 g3
  linarith

/-- C75. Two positions of the grid that see the same ground point at the altitude are the same. -/
theorem C75_unique (h : RegularAt g alt a b c e η m) (row col row' col' : K) (h0 : WellInGrid g 0 row col) (h1 : WellInGrid g 0 row' col')
    (hp : gridPoint g (some row) (some col) (some alt) = gridPoint g (some row') (some col') (some alt)) : row = row' ∧ col = col' := by
  rw [h.located row col h0, h.located row' col' h1] at hp
  simp only [V3.mk.injEq, Option.some.injEq] at hp
  have hx := h.expands row col row' col' h0 h1
  rw [hp.1, hp.2.1, sub_self, sub_self, abs_zero, add_zero] at hx
  have hs := h.small
  have he := h.eta_nonneg
  have p1 := abs_nonneg ((row - row') / g.steprow)
  have p2 := abs_nonneg ((col - col') / g.stepcol)
  have : nodeDist g row col row' col' ≤ 0 := by
    by_contra hcon
    push Not at hcon
    have := mul_pos (by linarith : 0 < m - 2 * η) hcon
    linarith
  unfold nodeDist at this
  have q1 : (row - row') / g.steprow = 0 := abs_eq_zero.1 (by linarith)
  have q2 : (col - col') / g.stepcol = 0 := abs_eq_zero.1 (by linarith)
  exact ⟨sub_eq_zero.1 ((div_eq_zero_iff.1 q1).resolve_right h.hsr), sub_eq_zero.1 ((div_eq_zero_iff.1 q2).resolve_right h.hsc)⟩

/-! ### The hypotheses are met -/

/-- A geographic grid whose columns are not parallel. -/
def twistGrid : MultiGrid ℚ :=
  { demoGrid with
    nbrow := 5
    nbcol := 6
    lon := fun k i j => 2 + k / 1000 + j / 50 + (k + 1) * i * j / 10000
    lat := fun k i _ => 40 - i / 50 + i * i * k / 10000 }

theorem twistGrid_regular : RegularAt twistGrid 150 (1 / 50) 0 0 (-1 / 50) (3 / 1000) (1 / 50) where
  hn := by decide
  hr := by decide
  hc := by decide
  hdec := by
    intro i j hij hj
    have hj' : j < 3 := hj
    interval_cases j <;> interval_cases i <;> decide +kernel
  hsr := by decide +kernel
  hsc := by decide +kernel
  valid := fun _ i j hi hj => (by decide +kernel : ∀ i < 5, ∀ j < 6, ValidLonLat (nodeLonLat twistGrid 150 i j).1 (nodeLonLat twistGrid 150 i j).2)
    i hi j hj
  near := {
    colLon := fun i j hi hj => (by decide +kernel : ∀ i < 5, ∀ j < 5,
      |(nodeLonLat twistGrid 150 i (j + 1)).1 - (nodeLonLat twistGrid 150 i j).1 - 1 / 50| ≤ 3 / 1000) i hi j (Nat.lt_of_succ_lt_succ hj)
    rowLon := fun i j hi hj => (by decide +kernel : ∀ i < 4, ∀ j < 6,
      |(nodeLonLat twistGrid 150 (i + 1) j).1 - (nodeLonLat twistGrid 150 i j).1 - 0| ≤ 3 / 1000) i (Nat.lt_of_succ_lt_succ hi) j hj
    colLat := fun i j hi hj => (by decide +kernel : ∀ i < 5, ∀ j < 5,
      |(nodeLonLat twistGrid 150 i (j + 1)).2 - (nodeLonLat twistGrid 150 i j).2 - 0| ≤ 3 / 1000) i hi j (Nat.lt_of_succ_lt_succ hj)
    rowLat := fun i j hi hj => (by decide +kernel : ∀ i < 4, ∀ j < 6,
      |(nodeLonLat twistGrid 150 (i + 1) j).2 - (nodeLonLat twistGrid 150 i j).2 - -1 / 50| ≤ 3 / 1000) i (Nat.lt_of_succ_lt_succ hi) j hj }
  moves := by
    intro x y
    have e1 : (1 / 50 : ℚ) * x + 0 * y = 1 / 50 * x := by ring
    have e2 : (0 : ℚ) * x + -1 / 50 * y = -(1 / 50 * y) := by ring
    rw [e1, e2, abs_neg, abs_mul, abs_mul, _root_.abs_of_pos (by norm_num : (0 : ℚ) < 1 / 50)]
    linarith
  small := by norm_num

/-- A position between the nodes of this grid, its ground position, and a start one node away from it: the other hypotheses of `C75_announced_error` hold; the
grid is not affine, so that the first turn does not give the position. -/
theorem C75_turns_inhabited : WellInGrid twistGrid (3 / 2) (1 / 2 + 220) (3 / 2 + 450) ∧
    (∃ lon lat, gridPoint twistGrid (some (1 / 2 + 220)) (some (3 / 2 + 450)) (some 150) = ⟨some lon, some lat, some 150⟩ ∧
      gridLonLat twistGrid (1 / 2 + 220) (3 / 2 + 450) 150 = (lon, lat) ∧
      ∃ row col err, gridInverse twistGrid 17453 40678884 (766 / 1000) lon lat 150 (1 / 2 + 150) (3 / 2 + 600) 1 = (⟨some row, some col, some err⟩, 1) ∧
        row ≠ 1 / 2 + 220) ∧
    nodeDist twistGrid (1 / 2 + 150) (3 / 2 + 600) (1 / 2 + 220) (3 / 2 + 450) ≤ 3 / 2 := by
  refine ⟨⟨by decide +kernel, by decide +kernel, by decide +kernel, by decide +kernel⟩,
    ⟨(gridLonLat twistGrid (1 / 2 + 220) (3 / 2 + 450) 150).1, (gridLonLat twistGrid (1 / 2 + 220) (3 / 2 + 450) 150).2, by decide +kernel, by decide +kernel,
      (match (gridInverse twistGrid 17453 40678884 (766 / 1000) (gridLonLat twistGrid (1 / 2 + 220) (3 / 2 + 450) 150).1
        (gridLonLat twistGrid (1 / 2 + 220) (3 / 2 + 450) 150).2 150 (1 / 2 + 150) (3 / 2 + 600) 1).1.row with | some x => x | none => 0),
      (match (gridInverse twistGrid 17453 40678884 (766 / 1000) (gridLonLat twistGrid (1 / 2 + 220) (3 / 2 + 450) 150).1
        (gridLonLat twistGrid (1 / 2 + 220) (3 / 2 + 450) 150).2 150 (1 / 2 + 150) (3 / 2 + 600) 1).1.col with | some x => x | none => 0),
      (match (gridInverse twistGrid 17453 40678884 (766 / 1000) (gridLonLat twistGrid (1 / 2 + 220) (3 / 2 + 450) 150).1
        (gridLonLat twistGrid (1 / 2 + 220) (3 / 2 + 450) 150).2 150 (1 / 2 + 150) (3 / 2 + 600) 1).1.err with | some x => x | none => 0),
      by decide +kernel, by decide +kernel⟩, by decide +kernel⟩

end Shareloc
