import Verif.Model.FloatRectGrid
import Verif.Props.FloatGrid
import Verif.Props.RectGrid

/-! C117: rounding of the displacement grids and of their interpolation. -/

namespace Shareloc
variable {K : Type*} [Field K] [LinearOrder K] [IsStrictOrderedRing K] [FloorRing K]

namespace Spec

/-- A position is between the first and the last nodes of a grid. -/
def OnGrid (g : RectGrid K) (col row : K) : Prop :=
  g.colNode 0 ≤ col ∧ col ≤ g.colNode (g.nbCols - 1) ∧ g.rowNode 0 ≤ row ∧ row ≤ g.rowNode (g.nbRows - 1)

/-- A position is at most `A` times the width of the outer cells, and `B` times their height, outside of a grid. -/
def NearGrid (g : RectGrid K) (A B col row : K) : Prop :=
  g.colNode 0 - A * (g.colNode 1 - g.colNode 0) ≤ col ∧
  col ≤ g.colNode (g.nbCols - 1) + A * (g.colNode (g.nbCols - 1) - g.colNode (g.nbCols - 2)) ∧
  g.rowNode 0 - B * (g.rowNode 1 - g.rowNode 0) ≤ row ∧
  row ≤ g.rowNode (g.nbRows - 1) + B * (g.rowNode (g.nbRows - 1) - g.rowNode (g.nbRows - 2))

end Spec

open Spec

/-- Roundings of the numbers of the formula. -/
def rectWeight : RectVar → ℕ
  | .node _ _ => 0
  | _ => 3

theorem rectSrc_weight : rectSrc.weight rectWeight + rectSrc.deg + rectSrc.terms - 2 ≤ 30 := by
  simp only [rectSrc, rectTerm, rectAxisWeight, HAdd.hAdd, HMul.hMul, HSub.hSub]
  simp only [Add.add, Mul.mul, Sub.sub, FExpr.weight, FExpr.deg, FExpr.terms, rectWeight, if_true, if_false, Bool.false_eq_true]
  simp

theorem rectSrc_val (p : ℕ → ℕ → K) (i j : ℕ) (a b : K) : rectSrc.val (rectEnv p i j a b) =
    p i j * ((1 - a) * (1 - b)) + p i (j + 1) * ((1 - a) * b) + p (i + 1) j * (a * (1 - b)) + p (i + 1) (j + 1) * (a * b) := by
  simp only [rectSrc, rectTerm, rectAxisWeight, val_hadd, val_hmul, val_hsub, FExpr.val, rectEnv, if_true, if_false, Bool.false_eq_true,
    Bool.toNat_true, Bool.toNat_false, Nat.cast_one, add_zero]
  ring

theorem rectSrc_mag (p : ℕ → ℕ → K) (i j : ℕ) (a b A B H : K) (hH : ∀ x y : Bool, |p (i + x.toNat) (j + y.toNat)| ≤ H) (ha : |a| ≤ A)
    (hb : |b| ≤ B) : rectSrc.mag (rectEnv p i j a b) ≤ (1 + 2 * A) * (1 + 2 * B) * H := by
  have hH0 : 0 ≤ H := le_trans (abs_nonneg _) (hH false false)
  have ha0 := abs_nonneg a
  have hb0 := abs_nonneg b
  simp only [rectSrc, rectTerm, rectAxisWeight, mag_hadd, mag_hmul, mag_hsub, FExpr.mag, rectEnv, if_true, if_false, Bool.false_eq_true,
    Nat.cast_one]
  generalize |a| = a at *
  generalize |b| = b at *
  have k1 := mul_le_mul_of_nonneg_right (hH false false) (show 0 ≤ (1 + a) * (1 + b) by positivity)
  have k2 := mul_le_mul_of_nonneg_right (hH false true) (show 0 ≤ (1 + a) * b by positivity)
  have k3 := mul_le_mul_of_nonneg_right (hH true false) (show 0 ≤ a * (1 + b) by positivity)
  have k4 := mul_le_mul_of_nonneg_right (hH true true) (show 0 ≤ a * b by positivity)
  have h1 : (1 + 2 * a) * (1 + 2 * b) ≤ (1 + 2 * A) * (1 + 2 * B) := mul_le_mul (by linarith) (by linarith) (by linarith) (by linarith)
  have h2 := mul_le_mul_of_nonneg_right h1 hH0
  have e : H * ((1 + a) * (1 + b)) + H * ((1 + a) * b) + H * (a * (1 + b)) + H * (a * b) = (1 + 2 * a) * (1 + 2 * b) * H := by ring
  linarith

/-- The cell of a position of the grid: a cell of the grid, in which the shifts are between zero and one. -/
theorem cell_inside (n : ℕ) (hn : 2 ≤ n) (node : ℕ → K) (hm : StrictMono node) (x : K) (h0 : node 0 ≤ x) (h1 : x ≤ node (n - 1)) :
    intervalIndex n node x + 1 < n ∧
    0 ≤ (x - node (intervalIndex n node x)) / (node (intervalIndex n node x + 1) - node (intervalIndex n node x)) ∧
    (x - node (intervalIndex n node x)) / (node (intervalIndex n node x + 1) - node (intervalIndex n node x)) ≤ 1 := by
  obtain ⟨a, b, c⟩ := intervalIndex_spec n hn node hm x
  set k := intervalIndex n node x
  have hd : 0 < node (k + 1) - node k := sub_pos.2 (hm (Nat.lt_succ_self k))
  have b' : node k ≤ x := by rcases b with b | b; exacts [b, by rw [b]; exact h0]
  have c' : x ≤ node (k + 1) := by
    rcases c with c | c
    · exact c
    · have : k + 1 = n - 1 := by omega
      rw [this]; exact h1
  exact ⟨a, div_nonneg (by linarith) hd.le, by rw [div_le_one hd]; linarith⟩

/-- The cell of a position near the grid. -/
theorem cell_near (n : ℕ) (hn : 2 ≤ n) (node : ℕ → K) (hm : StrictMono node) (A x : K) (hA : 0 ≤ A) (h0 : node 0 - A * (node 1 - node 0) ≤ x)
    (h1 : x ≤ node (n - 1) + A * (node (n - 1) - node (n - 2))) :
    intervalIndex n node x + 1 < n ∧
    |(x - node (intervalIndex n node x)) / (node (intervalIndex n node x + 1) - node (intervalIndex n node x))| ≤ 1 + A := by
  obtain ⟨a, b, c⟩ := intervalIndex_spec n hn node hm x
  set k := intervalIndex n node x
  have hd : 0 < node (k + 1) - node k := sub_pos.2 (hm (Nat.lt_succ_self k))
  have hAd := mul_nonneg hA hd.le
  refine ⟨a, ?_⟩
  rw [abs_div, abs_of_pos hd, div_le_iff₀ hd, abs_le]
  constructor
  · rcases b with b | b
    · linarith
    · rw [b] at hd hAd ⊢
      simp only [Nat.zero_add] at *
      linarith
  · rcases c with c | c
    · linarith
    · have e1 : k + 1 = n - 1 := by omega
      have e2 : k = n - 2 := by omega
      rw [← e1, ← e2] at h1
      linarith

/-- C117. For the positions on or near a rectification grid whose positions are bounded by `H`, extrapolated outside, both interpolated
coordinates are the exact ones up to `(3 + 2 A) (3 + 2 B) ((1+w)^30 - 1) H`, `w = u / (1 - u)`, in any order of evaluation. -/
theorem C117_extrapolation {u : K} (hu : 0 ≤ u) (hu1 : u < 1) (g : RectGrid K) (hg : g.Regular) (A B H col row : K) (hA : 0 ≤ A) (hB : 0 ≤ B)
    (hin : NearGrid g A B col row) (v w : K) (hv : FloatRectInterp u g g.colPos col row v) (hw : FloatRectInterp u g g.rowPos col row w)
    (hH : ∀ i < g.nbCols, ∀ j < g.nbRows, |g.colPos i j| ≤ H ∧ |g.rowPos i j| ≤ H) :
    |v - (rectInterpolate g col row).1| ≤ (3 + 2 * A) * (3 + 2 * B) * ((1 + unitInv u) ^ 30 - 1) * H ∧
    |w - (rectInterpolate g col row).2| ≤ (3 + 2 * A) * (3 + 2 * B) * ((1 + unitInv u) ^ 30 - 1) * H := by
  have hw' := unitInv_nonneg hu hu1
  obtain ⟨i1, a1⟩ := cell_near g.nbCols hg.cols g.colNode hg.colMono A col hA hin.1 hin.2.1
  obtain ⟨j1, b1⟩ := cell_near g.nbRows hg.rows g.rowNode hg.rowMono B row hB hin.2.2.1 hin.2.2.2
  have key : ∀ (p : ℕ → ℕ → K) (z : K), (∀ i < g.nbCols, ∀ j < g.nbRows, |p i j| ≤ H) → FloatRectInterp u g p col row z →
      |z - rectSrc.val (rectEnv p (intervalIndex g.nbCols g.colNode col) (intervalIndex g.nbRows g.rowNode row)
        ((col - g.colNode (intervalIndex g.nbCols g.colNode col)) /
          (g.colNode (intervalIndex g.nbCols g.colNode col + 1) - g.colNode (intervalIndex g.nbCols g.colNode col)))
        ((row - g.rowNode (intervalIndex g.nbRows g.rowNode row)) /
          (g.rowNode (intervalIndex g.nbRows g.rowNode row + 1) - g.rowNode (intervalIndex g.nbRows g.rowNode row))))| ≤
        (3 + 2 * A) * (3 + 2 * B) * ((1 + unitInv u) ^ 30 - 1) * H := by
    rintro p z hp ⟨tc, tr, e, htc, htr, he, hz⟩
    have r1 := (htc.rel hu hu1).approx hu1
    have r2 := (htr.rel hu hu1).approx hu1
    generalize intervalIndex g.nbCols g.colNode col = i at *
    generalize intervalIndex g.nbRows g.rowNode row = j at *
    generalize (col - g.colNode i) / (g.colNode (i + 1) - g.colNode i) = a at *
    generalize (row - g.rowNode j) / (g.rowNode (j + 1) - g.rowNode j) = b at *
    have up : ∀ {e : FExpr RectVar} {env : RectVar → K} {v : K}, e.Computes u env v → e.Computes (unitInv u) env v := by
      intro e env v h
      induction h with
      | var i => exact .var i
      | lit n => exact .lit n
      | neg _ h => exact .neg h
      | add _ _ hr h1 h2 => exact .add h1 h2 (hr.unitInv hu hu1)
      | mul _ _ hr h1 h2 => exact .mul h1 h2 (hr.unitInv hu hu1)
    have henv : ∀ x, Approx (unitInv u) (rectWeight x) |rectEnv p i j a b x| (rectEnv p i j a b x) (rectEnv p i j tc tr x) := by
      intro x
      cases x with
      | tc => exact r1
      | tr => exact r2
      | node k i => exact Approx.refl _ _
    have h := (he.approx hw' henv (up hz)).mono hw' rectSrc_weight le_rfl
    refine h.1.trans ?_
    have hm := rectSrc_mag p i j a b (1 + A) (1 + B) H (by
      intro x y
      exact hp _ (by cases x <;> simp <;> omega) _ (by cases y <;> simp <;> omega)) a1 b1
    have hg0 : 0 ≤ (1 + unitInv u) ^ 30 - 1 := sub_nonneg.2 (one_le_pow_u hw' 30)
    exact (mul_le_mul_of_nonneg_left hm hg0).trans (le_of_eq (by ring))
  refine ⟨?_, ?_⟩
  · have := key g.colPos v (fun i hi j hj => (hH i hi j hj).1) hv
    rw [rectSrc_val] at this
    exact this
  · have := key g.rowPos w (fun i hi j hj => (hH i hi j hj).2) hw
    rw [rectSrc_val] at this
    exact this

/-- C117. Inside a rectification grid whose positions are bounded by `H`, both interpolated coordinates are the exact bilinear ones up to
`9 ((1+w)^30 - 1) H`, `w = u / (1 - u)`, in any order of evaluation. -/
theorem C117_interpolation {u : K} (hu : 0 ≤ u) (hu1 : u < 1) (g : RectGrid K) (hg : g.Regular) (H col row : K) (hin : OnGrid g col row)
    (v w : K) (hv : FloatRectInterp u g g.colPos col row v) (hw : FloatRectInterp u g g.rowPos col row w)
    (hH : ∀ i < g.nbCols, ∀ j < g.nbRows, |g.colPos i j| ≤ H ∧ |g.rowPos i j| ≤ H) :
    |v - (rectInterpolate g col row).1| ≤ 9 * ((1 + unitInv u) ^ 30 - 1) * H ∧
    |w - (rectInterpolate g col row).2| ≤ 9 * ((1 + unitInv u) ^ 30 - 1) * H := by
  have := C117_extrapolation hu hu1 g hg 0 0 H col row le_rfl le_rfl (by simpa [NearGrid, OnGrid] using hin) v w hv hw hH
  norm_num at this ⊢
  exact this

/-- C117. A position written as a displacement and read back is the position up to `u |position| + u (1 + u) |displacement|`. -/
theorem C117_read_back {u : K} (hu : 0 ≤ u) {pos node p : K} (h : FloatReadBack u pos node p) :
    |p - pos| ≤ u * |pos| + u * (1 + u) * |pos - node| := by
  obtain ⟨d, hd, hp⟩ := h
  unfold Rounds at hd hp
  have e : p - pos = (p - (d + node)) + (d - (pos - node)) := by ring
  have e2 : d + node = pos + (d - (pos - node)) := by ring
  have h1 : |d + node| ≤ |pos| + |d - (pos - node)| := by rw [e2]; exact abs_add_le _ _
  rw [e]
  refine (abs_add_le _ _).trans ?_
  have h2 := mul_le_mul_of_nonneg_left (h1.trans (add_le_add_right hd _)) hu
  nlinarith

/-- C117. Without rounding the position is read back exactly. -/
theorem C117_read_back_exact {pos node p : K} (h : FloatReadBack 0 pos node p) : p = pos := by
  have := C117_read_back le_rfl h
  simp only [zero_mul, add_zero] at this
  exact sub_eq_zero.1 (abs_nonpos_iff.1 this)

theorem bil_near (p q : ℕ → ℕ → K) (i j : ℕ) (a b ε : K) (h : ∀ x y : Bool, |q (i + x.toNat) (j + y.toNat) - p (i + x.toNat) (j + y.toNat)| ≤ ε)
    (ha0 : 0 ≤ a) (ha : a ≤ 1) (hb0 : 0 ≤ b) (hb : b ≤ 1) :
    |rectSrc.val (rectEnv q i j a b) - rectSrc.val (rectEnv p i j a b)| ≤ ε := by
  rw [rectSrc_val, rectSrc_val]
  have h1 := abs_le.1 (h false false)
  have h2 := abs_le.1 (h false true)
  have h3 := abs_le.1 (h true false)
  have h4 := abs_le.1 (h true true)
  simp only [Bool.toNat_true, Bool.toNat_false, add_zero] at h1 h2 h3 h4
  have w1 : 0 ≤ (1 - a) * (1 - b) := mul_nonneg (by linarith) (by linarith)
  have w2 : 0 ≤ (1 - a) * b := mul_nonneg (by linarith) hb0
  have w3 : 0 ≤ a * (1 - b) := mul_nonneg ha0 (by linarith)
  have w4 : 0 ≤ a * b := mul_nonneg ha0 hb0
  have s : (1 - a) * (1 - b) + (1 - a) * b + a * (1 - b) + a * b = 1 := by ring
  generalize (1 - a) * (1 - b) = c1 at *
  generalize (1 - a) * b = c2 at *
  generalize a * (1 - b) = c3 at *
  generalize a * b = c4 at *
  have e : ε = ε * (c1 + c2 + c3 + c4) := by rw [s, mul_one]
  rw [abs_le]
  constructor
  · nlinarith [mul_le_mul_of_nonneg_right h1.1 w1, mul_le_mul_of_nonneg_right h2.1 w2, mul_le_mul_of_nonneg_right h3.1 w3,
      mul_le_mul_of_nonneg_right h4.1 w4]
  · nlinarith [mul_le_mul_of_nonneg_right h1.2 w1, mul_le_mul_of_nonneg_right h2.2 w2, mul_le_mul_of_nonneg_right h3.2 w3,
      mul_le_mul_of_nonneg_right h4.2 w4]

/-- C117. From the positions of a grid, written as displacements, read back and interpolated at a position of the grid, to the exact
bilinear interpolation of the initial positions: `g` holds the initial positions, `r` the ones read back at the same nodes. -/
theorem C117_end_to_end {u : K} (hu : 0 ≤ u) (hu1 : u < 1) (g r : RectGrid K) (hg : g.Regular) (hrc : r.nbCols = g.nbCols)
    (hrr : r.nbRows = g.nbRows) (hnc : r.colNode = g.colNode) (hnr : r.rowNode = g.rowNode) (H E : K)
    (hH : ∀ i < g.nbCols, ∀ j < g.nbRows, |g.colPos i j| ≤ H ∧ |g.rowPos i j| ≤ H)
    (hE : ∀ i < g.nbCols, ∀ j < g.nbRows, |g.colPos i j - g.colNode i| ≤ E ∧ |g.rowPos i j - g.rowNode j| ≤ E)
    (hread : ∀ i < g.nbCols, ∀ j < g.nbRows, FloatReadBack u (g.colPos i j) (g.colNode i) (r.colPos i j) ∧
      FloatReadBack u (g.rowPos i j) (g.rowNode j) (r.rowPos i j))
    (col row : K) (hin : OnGrid g col row) (v w : K) (hv : FloatRectInterp u r r.colPos col row v) (hw : FloatRectInterp u r r.rowPos col row w) :
    |v - (rectInterpolate g col row).1| ≤ 9 * ((1 + unitInv u) ^ 30 - 1) * (H + (u * H + u * (1 + u) * E)) + (u * H + u * (1 + u) * E) ∧
    |w - (rectInterpolate g col row).2| ≤ 9 * ((1 + unitInv u) ^ 30 - 1) * (H + (u * H + u * (1 + u) * E)) + (u * H + u * (1 + u) * E) := by
  have near : ∀ i < g.nbCols, ∀ j < g.nbRows, |r.colPos i j - g.colPos i j| ≤ u * H + u * (1 + u) * E ∧
      |r.rowPos i j - g.rowPos i j| ≤ u * H + u * (1 + u) * E := by
    intro i hi j hj
    have hu2 : 0 ≤ u * (1 + u) := by positivity
    exact ⟨(C117_read_back hu (hread i hi j hj).1).trans (add_le_add (mul_le_mul_of_nonneg_left (hH i hi j hj).1 hu)
        (mul_le_mul_of_nonneg_left (hE i hi j hj).1 hu2)),
      (C117_read_back hu (hread i hi j hj).2).trans (add_le_add (mul_le_mul_of_nonneg_left (hH i hi j hj).2 hu)
        (mul_le_mul_of_nonneg_left (hE i hi j hj).2 hu2))⟩
  have hr : r.Regular := ⟨hrc ▸ hg.cols, hrr ▸ hg.rows, hnc ▸ hg.colMono, hnr ▸ hg.rowMono⟩
  have hinr : OnGrid r col row := by
    unfold OnGrid
    rw [hrc, hrr, hnc, hnr]
    exact hin
  have big : ∀ x y e m : K, |x - y| ≤ e → |y| ≤ m → |x| ≤ m + e := by
    intro x y e m h1 h2
    have := abs_sub_abs_le_abs_sub x y
    linarith
  obtain ⟨k1, k2⟩ := C117_interpolation hu hu1 r hr (H + (u * H + u * (1 + u) * E)) col row hinr v w hv hw (by
    rw [hrc, hrr]
    intro i hi j hj
    exact ⟨big _ _ _ _ (near i hi j hj).1 (hH i hi j hj).1, big _ _ _ _ (near i hi j hj).2 (hH i hi j hj).2⟩)
  obtain ⟨i1, a0, a1⟩ := cell_inside g.nbCols hg.cols g.colNode hg.colMono col hin.1 hin.2.1
  obtain ⟨j1, b0, b1⟩ := cell_inside g.nbRows hg.rows g.rowNode hg.rowMono row hin.2.2.1 hin.2.2.2
  have c1 := bil_near g.colPos r.colPos (intervalIndex g.nbCols g.colNode col) (intervalIndex g.nbRows g.rowNode row) _ _ _
    (fun x y => (near _ (by cases x <;> simp <;> omega) _ (by cases y <;> simp <;> omega)).1) a0 a1 b0 b1
  have c2 := bil_near g.rowPos r.rowPos (intervalIndex g.nbCols g.colNode col) (intervalIndex g.nbRows g.rowNode row) _ _ _
    (fun x y => (near _ (by cases x <;> simp <;> omega) _ (by cases y <;> simp <;> omega)).2) a0 a1 b0 b1
  rw [rectSrc_val, rectSrc_val] at c1 c2
  simp only [rectInterpolate, hrc, hrr, hnc, hnr] at k1 k2 ⊢
  have tri : ∀ x y z e m : K, |x - y| ≤ e → |y - z| ≤ m → |x - z| ≤ e + m := fun x y z e m h1 h2 =>
    (abs_sub_le x y z).trans (add_le_add h1 h2)
  exact ⟨tri _ _ _ _ _ k1 c1, tri _ _ _ _ _ k2 c2⟩

/-- C117. In double precision, positions and displacements of at most a million pixels give the interpolated position to 10⁻⁷ pixel. -/
theorem C117_double (H E : K) (hH0 : 0 ≤ H) (hE0 : 0 ≤ E) (hH : H ≤ 1000000) (hE : E ≤ 1000000) :
    9 * ((1 + unitInv (doubleUnit : K)) ^ 30 - 1) * (H + (doubleUnit * H + doubleUnit * (1 + doubleUnit) * E)) +
      (doubleUnit * H + doubleUnit * (1 + doubleUnit) * E) ≤ 1 / 10 ^ 7 := by
  have e : (doubleUnit : K) = 1 / 9007199254740992 := by unfold doubleUnit; norm_num
  have w : unitInv (doubleUnit : K) = 1 / 9007199254740991 := by unfold unitInv; rw [e]; norm_num
  have hg : (1 + unitInv (doubleUnit : K)) ^ 30 - 1 ≤ 31 / 9007199254740991 := by
    have := pow_u_le (u := (1 / 9007199254740991 : K)) (by norm_num) (by norm_num) 30 (by norm_num)
    rw [w]
    norm_num at this ⊢
  have hg0 : 0 ≤ (1 + unitInv (doubleUnit : K)) ^ 30 - 1 := by
    rw [w]; exact sub_nonneg.2 (one_le_pow₀ (by norm_num))
  generalize (1 + unitInv (doubleUnit : K)) ^ 30 - 1 = q at *
  rw [e]
  have h1 : 1 / 9007199254740992 * H + 1 / 9007199254740992 * (1 + 1 / 9007199254740992) * E ≤ 1 / 10 ^ 9 := by
    norm_num
    linarith
  have h2 : 0 ≤ 1 / 9007199254740992 * H + 1 / 9007199254740992 * (1 + 1 / 9007199254740992) * E := by positivity
  generalize 1 / 9007199254740992 * H + 1 / 9007199254740992 * (1 + 1 / 9007199254740992) * E = z at *
  have h3 : 9 * q * (H + z) ≤ 9 * (31 / 9007199254740991) * (1000000 + 1) :=
    mul_le_mul (by linarith) (by norm_num at h1; linarith) (by linarith) (by norm_num)
  refine (add_le_add h3 h1).trans ?_
  norm_num

/-! ### The hypotheses are met -/

/-- The interpolation in the order written, with a rounding function. -/
def runRectInterp (rnd : K → K) (g : RectGrid K) (p : ℕ → ℕ → K) (col row : K) : K :=
  let i := intervalIndex g.nbCols g.colNode col
  let j := intervalIndex g.nbRows g.rowNode row
  rectSrc.run rnd (rectEnv p i j (runShift rnd (g.colNode i) (g.colNode (i + 1)) col) (runShift rnd (g.rowNode j) (g.rowNode (j + 1)) row))

/-- A grid of three columns and two rows with a step of 30, before and after the file with the rounding of doubles. -/
def thirdsGrid (rnd : ℚ → ℚ) : RectGrid ℚ where
  nbCols := 3
  nbRows := 2
  colNode i := 30 * i
  rowNode j := 30 * j
  rowPos i j := rnd (rnd (1000 / 3 + 29 * j + i / 7 - 30 * j) + 30 * j)
  colPos i j := rnd (rnd (2000 / 3 + 31 * i - j / 7 - 30 * i) + 30 * i)

theorem thirdsGrid_regular (rnd : ℚ → ℚ) : (thirdsGrid rnd).Regular := by
  refine ⟨by simp [thirdsGrid], by simp [thirdsGrid], ?_, ?_⟩ <;>
  · intro a b h
    have : (a : ℚ) < b := by exact_mod_cast h
    simp only [thirdsGrid]
    linarith

example : |runRectInterp rnd53 (thirdsGrid rnd53) (thirdsGrid rnd53).colPos 47 11 - (rectInterpolate (thirdsGrid id) 47 11).1| ≤ 1 / 10 ^ 7 ∧
    |runRectInterp rnd53 (thirdsGrid rnd53) (thirdsGrid rnd53).rowPos 47 11 - (rectInterpolate (thirdsGrid id) 47 11).2| ≤ 1 / 10 ^ 7 := by
  have hd : (0 : ℚ) ≤ doubleUnit ∧ (doubleUnit : ℚ) < 1 := by unfold doubleUnit; norm_num
  have hfl : ∀ p : ℕ → ℕ → ℚ, FloatRectInterp doubleUnit (thirdsGrid rnd53) p 47 11 (runRectInterp rnd53 (thirdsGrid rnd53) p 47 11) := fun p =>
    ⟨_, _, _, ⟨_, _, rnd53_rounds _, rnd53_rounds _, rnd53_rounds _⟩, ⟨_, _, rnd53_rounds _, rnd53_rounds _, rnd53_rounds _⟩, .refl _,
      FExpr.run_computes rnd53_rounds _ _⟩
  have h := C117_end_to_end hd.1 hd.2 (thirdsGrid id) (thirdsGrid rnd53) (thirdsGrid_regular id) rfl rfl rfl rfl 1000 1000 (by decide +kernel)
    (by decide +kernel) (by
      intro i _ j _
      have e1 : (thirdsGrid id).colPos i j = 2000 / 3 + 31 * i - j / 7 := by simp [thirdsGrid]
      have e2 : (thirdsGrid id).rowPos i j = 1000 / 3 + 29 * j + i / 7 := by simp [thirdsGrid]
      rw [e1, e2]
      exact ⟨⟨_, rnd53_rounds _, rnd53_rounds _⟩, ⟨_, rnd53_rounds _, rnd53_rounds _⟩⟩)
    47 11 (by unfold OnGrid; decide +kernel) _ _ (hfl _) (hfl _)
  have hb := C117_double (K := ℚ) 1000 1000 (by norm_num) (by norm_num) (by norm_num) (by norm_num)
  exact ⟨h.1.trans hb, h.2.trans hb⟩

/-- A position outside of the grid, extrapolated. -/
example : |runRectInterp rnd53 (thirdsGrid rnd53) (thirdsGrid rnd53).colPos (-20) 40 - (rectInterpolate (thirdsGrid rnd53) (-20) 40).1| ≤
    5 * 5 * ((1 + unitInv doubleUnit) ^ 30 - 1) * 1000 := by
  have hd : (0 : ℚ) ≤ doubleUnit ∧ (doubleUnit : ℚ) < 1 := by unfold doubleUnit; norm_num
  have hfl : ∀ p : ℕ → ℕ → ℚ, FloatRectInterp doubleUnit (thirdsGrid rnd53) p (-20) 40 (runRectInterp rnd53 (thirdsGrid rnd53) p (-20) 40) :=
    fun p => ⟨_, _, _, ⟨_, _, rnd53_rounds _, rnd53_rounds _, rnd53_rounds _⟩, ⟨_, _, rnd53_rounds _, rnd53_rounds _, rnd53_rounds _⟩, .refl _,
      FExpr.run_computes rnd53_rounds _ _⟩
  have h := (C117_extrapolation hd.1 hd.2 (thirdsGrid rnd53) (thirdsGrid_regular _) 1 1 1000 (-20) 40 (by norm_num) (by norm_num)
    (by unfold NearGrid; decide +kernel) _ _ (hfl _) (hfl _) (by decide +kernel)).1
  norm_num at h ⊢
  exact h

/-- C117. The round trip through the file is not exact: the double nearest to a tenth of a pixel at the node 30000 comes back as another
double, at the distance `C117_read_back` allows. -/
theorem C117_not_exact : rnd53 (rnd53 (rnd53 (1 / 10) - 30000) + 30000) ≠ rnd53 (1 / 10 : ℚ) ∧
    FloatReadBack doubleUnit (rnd53 (1 / 10 : ℚ)) 30000 (rnd53 (rnd53 (rnd53 (1 / 10) - 30000) + 30000)) :=
  ⟨by decide +kernel, _, rnd53_rounds _, rnd53_rounds _⟩

end Shareloc
