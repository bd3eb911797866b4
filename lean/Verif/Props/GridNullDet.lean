import Verif.Props.GridLocalization
import Verif.Props.GridNan

/-!
C106: `Grid.inverse_loc` after a null determinant.  When the determinant of the local differences is null, the next position is NaN and the
turn after it ends on `int(nan)`: `ValueError`, and the whole batch is lost (grid.py:704-705, 744, 813-824).
-/

set_option linter.unusedSectionVars false

namespace Shareloc

open Spec

variable {K : Type*} [Field K] [LinearOrder K] [IsStrictOrderedRing K] [FloorRing K]

/-- C106. For arrays of the same size, `inverse_loc` raises exactly when one of the points alone makes it raise, and the exception is the
same; otherwise it answers for the whole array. -/
theorem C106_batch (g : MultiGrid K) (p : Predictor K) (rad rtx : K) (cosdeg : K → K) (lon lat alt : List (Option K)) (nb : ℕ)
    (h1 : lat.length = lon.length) (h2 : alt.length = lon.length) :
    ((∃ e, gridInverseLoc g p rad rtx cosdeg lon lat alt nb = .error e) ↔
      ∃ (n : ℕ) (x y a : Option K), lon[n]? = some x ∧ lat[n]? = some y ∧ alt[n]? = some a ∧
        gridInverseLoc g p rad rtx cosdeg [x] [y] [a] nb = .error .derivativeNan) ∧
    ∀ e, gridInverseLoc g p rad rtx cosdeg lon lat alt nb = .error e → e = .derivativeNan := by
  have hb : broadcastAlt lon.length alt = .ok alt := by simp [broadcastAlt, h2]
  have hone : ∀ x y a, gridInverseLoc g p rad rtx cosdeg [x] [y] [a] nb = .error .derivativeNan ↔
      gridPointRaises g p rad rtx cosdeg nb x y a = true := by
    intro x y a
    rw [gridInverseLoc_one]
    split_ifs with hr <;> simp [hr]
  have hall : gridInverseLoc g p rad rtx cosdeg lon lat alt nb =
      if ((lon.zip (lat.zip alt)).any fun t => gridPointRaises g p rad rtx cosdeg nb t.1 t.2.1 t.2.2) = true then .error .derivativeNan
      else .ok ((lon.zip (lat.zip alt)).map fun t => gridInversePoint g p rad rtx cosdeg nb t.1 t.2.1 t.2.2) := by
    simp only [gridInverseLoc, hb]
    rw [if_pos h1.symm]
  have hany := any_zip3 (gridPointRaises g p rad rtx cosdeg nb) lon lat alt
  constructor
  · simp only [hone]
    rw [← hany, hall]
    constructor
    · rintro ⟨e, he⟩
      by_contra hcon
      rw [if_neg hcon] at he
      cases he
    · intro h
      exact ⟨_, if_pos h⟩
  · intro e he
    rw [hall] at he
    split_ifs at he
    cases he
    rfl

/-- C106. One turn at most never raises: the NaN position is returned. -/
theorem C106_one_turn (g : MultiGrid K) (p : Predictor K) (rad rtx : K) (cosdeg : K → K) (x y a : Option K) (nb : ℕ) (hnb : nb ≤ 1) :
    ∃ q, gridInverseLoc g p rad rtx cosdeg [x] [y] [a] nb = .ok [q] := by
  rw [gridInverseLoc_one, if_neg]
  · exact ⟨_, rfl⟩
  · unfold gridPointRaises
    dsimp only
    split
    · rcases nb with _ | nb
      · simp [gridRaises]
      · obtain rfl : nb = 0 := by omega
        simp [gridRaises, gridErrBig]
    · simp

/-- C106. Without null determinant (`inverse_partial_derivative` finite at every position, at the altitude of the point) nothing raises. -/
theorem C106_regular (g : MultiGrid K) (p : Predictor K) (rad rtx : K) (cosdeg : K → K) (lon lat alt : List (Option K)) (nb : ℕ)
    (h1 : lat.length = lon.length) (h2 : alt.length = lon.length)
    (hdet : ∀ a, some a ∈ alt → ∀ row col, inversePartial g rad row col a ≠ none) :
    ∃ out, gridInverseLoc g p rad rtx cosdeg lon lat alt nb = .ok out ∧ out.length = lon.length := by
  obtain ⟨hiff, -⟩ := C106_batch g p rad rtx cosdeg lon lat alt nb h1 h2
  have hno : ∀ (n : ℕ) x y a, lon[n]? = some x → lat[n]? = some y → alt[n]? = some a →
      ∃ l, gridInverseLoc g p rad rtx cosdeg [x] [y] [a] nb = .ok l := by
    intro n x y a _ _ ha
    rw [gridInverseLoc_one, if_neg]
    · exact ⟨_, rfl⟩
    · unfold gridPointRaises
      dsimp only
      split
      · rename_i lo la al hx hy hz
        have hal : a = some al := by
          cases x <;> cases y <;> cases a <;> simp [checkRow, nanRow] at hz ⊢
          split_ifs at hz
          simpa using hz
        rw [not_raises_of_det (hdet al (hal ▸ List.mem_of_getElem? ha))]
        decide
      · simp
  obtain ⟨out, ho, hlen, -⟩ := C33_pointwise g p rad rtx cosdeg lon lat alt nb h1 h2 hno
  exact ⟨out, ho, hlen⟩

/-- Specification: the cell `(i, j)` of a position has the same two rows, or the same two columns, of nodes (first corner and next one), in
every layer: a line or a column of the grid is repeated. -/
def RepeatedLine (g : MultiGrid K) (row col : K) : Prop :=
  ∃ i j, CellOf g.nbrow ((row - g.row0) / g.steprow) i ∧ CellOf g.nbcol ((col - g.col0) / g.stepcol) j ∧
    ((∀ k, g.lon k (i + 1) j = g.lon k i j ∧ g.lat k (i + 1) j = g.lat k i j) ∨
      (∀ k, g.lon k i (j + 1) = g.lon k i j ∧ g.lat k i (j + 1) = g.lat k i j))

theorem turnNan_of_repeated {g : MultiGrid K} {row col : K} (h2 : 2 ≤ g.nbrow) (h3 : 2 ≤ g.nbcol) (h : RepeatedLine g row col)
    (rad lon lat alt plon plat : K) (hp : gridPoint g (some row) (some col) (some alt) = ⟨some plon, some plat, some alt⟩) :
    gridTurnNan g rad lon lat alt row col = true := by
  obtain ⟨i, j, hi, hj, hrep⟩ := h
  rw [cellOf_iff _ h2] at hi
  rw [cellOf_iff _ h3] at hj
  unfold gridTurnNan gridDiffs
  rw [hp]
  dsimp only
  rw [← hi, ← hj]
  rcases hrep with hrep | hrep
  · simp [hrep, nullNan]
  · simp [hrep, nullNan]

/-- C106. A repeated line: if the predicted position of a point is in a cell with a repeated row or column of nodes, and is located at more
than the threshold from the point, then any call with two turns or more, whose batch holds this point, raises. -/
theorem C106_repeated_line (g : MultiGrid K) (h2 : 2 ≤ g.nbrow) (h3 : 2 ≤ g.nbcol) (p : Predictor K) (rad rtx : K) (cosdeg : K → K)
    (lon lat alt : List (Option K)) (nb : ℕ) (h1 : lat.length = lon.length) (h1' : alt.length = lon.length) (hnb : 2 ≤ nb)
    (n : ℕ) (lo la a : K) (hlo : lon[n]? = some (some lo)) (hla : lat[n]? = some (some la)) (ha : alt[n]? = some (some a))
    (hv : ValidLonLat lo la) (row col : K) (ext : Bool) (hpred : gridPredict g p lo la a = (row, col, ext)) (hrep : RepeatedLine g row col)
    (plon plat : K) (hloc : gridDirectLocH g [some row] [some col] [some a] = .ok [⟨some plon, some plat, some a⟩])
    (herr : 1 / 1000000 < rtx * (((plat - la) * rad) ^ 2 + ((plon - lo) * rad * cosdeg la) ^ 2)) :
    gridInverseLoc g p rad rtx cosdeg lon lat alt nb = .error .derivativeNan := by
  have hp : gridPoint g (some row) (some col) (some a) = ⟨some plon, some plat, some a⟩ := by
    simpa [gridDirectLocH, broadcastAlt] using hloc
  have hr : gridPointRaises g p rad rtx cosdeg nb (some lo) (some la) (some a) = true := by
    unfold gridPointRaises
    simp only [checkRow_valid hv, hpred]
    obtain ⟨m, rfl⟩ : ∃ m, nb = m + 2 := ⟨nb - 2, by omega⟩
    unfold gridRaises
    rw [if_pos (by simp [gridErrBig]; norm_num)]
    dsimp only
    rw [turnNan_of_repeated h2 h3 hrep rad lo la a plon plat hp]
    have hbig : gridErrBig (gridStep g rad rtx (cosdeg la) lo la a ⟨some row, some col, some 10⟩).err = true := by
      unfold gridStep
      simp only [hp]
      have hd : decide (rtx * (((plat - la) * rad) ^ 2 + ((plon - lo) * rad * cosdeg la) ^ 2) > 1 / 1000000) = true := decide_eq_true herr
      cases inversePartial g rad row col a with
      | none => exact hd
      | some m => exact hd
    rw [hbig]
    simp
  obtain ⟨hiff, hall⟩ := C106_batch g p rad rtx cosdeg lon lat alt nb h1 h1'
  obtain ⟨e, he⟩ := hiff.2 ⟨n, _, _, _, hlo, hla, ha, by rw [gridInverseLoc_one, if_pos hr]⟩
  rw [he, hall e he]

/-! ### Null determinant in general -/

/-- Specification: a floating point value, with infinities and NaN. -/
inductive Ext (K : Type*)
  | fin (x : K)
  | inf (neg : Bool)
  | nan

/-- Specification: `x / 0`, the sign of the zero being `neg` (IEEE 754). -/
def Ext.divZero (neg : Bool) (x : K) : Ext K := if x = 0 then .nan else .inf (neg ^^ decide (x < 0))

/-- Specification: product by a number. -/
def Ext.mulNum : Ext K → K → Ext K
  | .fin x, y => .fin (x * y)
  | .inf n, y => if y = 0 then .nan else .inf (n ^^ decide (y < 0))
  | .nan, _ => .nan

/-- Specification: sum. -/
def Ext.plus : Ext K → Ext K → Ext K
  | .fin x, .fin y => .fin (x + y)
  | .inf n, .inf m => if n = m then .inf n else .nan
  | .inf n, .fin _ => .inf n
  | .fin _, .inf n => .inf n
  | _, _ => .nan

/-- Specification: `(p / 0) * dl + (q / 0) * dt`. -/
def Ext.rowTimes (neg : Bool) (p q dl dt : K) : Ext K := ((Ext.divZero neg p).mulNum dl).plus ((Ext.divZero neg q).mulNum dt)

theorem nullNan_iff (neg : Bool) (p q dl dt : K) : nullNan p q dl dt = true ↔ Ext.rowTimes neg p q dl dt = .nan := by
  unfold nullNan Ext.rowTimes Ext.divZero
  rw [decide_eq_true_eq]
  by_cases hp : p = 0
  · simp only [hp, if_true, true_or, true_iff]
    rfl
  by_cases hq : q = 0
  · simp only [hp, hq, if_true, true_or, or_true, true_iff, if_false]
    by_cases hl : dl = 0 <;> simp [Ext.mulNum, hl, Ext.plus]
  by_cases hl : dl = 0
  · simp [hp, hq, hl, Ext.mulNum, Ext.plus]
  by_cases ht : dt = 0
  · simp [hp, hq, hl, ht, Ext.mulNum, Ext.plus]
  simp only [hp, hq, hl, ht, if_false, Ext.mulNum, Ext.plus, false_or]
  rcases lt_or_gt_of_ne hp with h1 | h1 <;> rcases lt_or_gt_of_ne hq with h2 | h2 <;> rcases lt_or_gt_of_ne hl with h3 | h3 <;>
    rcases lt_or_gt_of_ne ht with h4 | h4 <;>
    cases neg <;> simp only [h1, h2, h3, h4, not_lt_of_gt h1, not_lt_of_gt h2, not_lt_of_gt h3, not_lt_of_gt h4, decide_true, decide_false,
      Bool.false_xor, Bool.true_xor, Bool.xor_true, Bool.xor_false, Bool.not_true, Bool.not_false, if_true, if_false, reduceCtorEq, iff_false,
      iff_true, not_lt, Bool.true_eq_false, Bool.false_eq_true] <;>
    first
      | exact le_of_lt (mul_pos (mul_pos_of_neg_of_neg h1 h3) (mul_pos_of_neg_of_neg h2 h4))
      | exact le_of_lt (mul_pos (mul_pos_of_neg_of_neg h1 h3) (mul_pos h2 h4))
      | exact le_of_lt (mul_pos (mul_pos h1 h3) (mul_pos_of_neg_of_neg h2 h4))
      | exact le_of_lt (mul_pos (mul_pos h1 h3) (mul_pos h2 h4))
      | exact le_of_lt (mul_pos_of_neg_of_neg (mul_neg_of_neg_of_pos h1 h3) (mul_neg_of_neg_of_pos h2 h4))
      | exact le_of_lt (mul_pos_of_neg_of_neg (mul_neg_of_neg_of_pos h1 h3) (mul_neg_of_pos_of_neg h2 h4))
      | exact le_of_lt (mul_pos_of_neg_of_neg (mul_neg_of_pos_of_neg h1 h3) (mul_neg_of_neg_of_pos h2 h4))
      | exact le_of_lt (mul_pos_of_neg_of_neg (mul_neg_of_pos_of_neg h1 h3) (mul_neg_of_pos_of_neg h2 h4))
      | exact mul_neg_of_neg_of_pos (mul_neg_of_neg_of_pos h1 h3) (mul_pos_of_neg_of_neg h2 h4)
      | exact mul_neg_of_neg_of_pos (mul_neg_of_neg_of_pos h1 h3) (mul_pos h2 h4)
      | exact mul_neg_of_neg_of_pos (mul_neg_of_pos_of_neg h1 h3) (mul_pos_of_neg_of_neg h2 h4)
      | exact mul_neg_of_neg_of_pos (mul_neg_of_pos_of_neg h1 h3) (mul_pos h2 h4)
      | exact mul_neg_of_pos_of_neg (mul_pos_of_neg_of_neg h1 h3) (mul_neg_of_neg_of_pos h2 h4)
      | exact mul_neg_of_pos_of_neg (mul_pos_of_neg_of_neg h1 h3) (mul_neg_of_pos_of_neg h2 h4)
      | exact mul_neg_of_pos_of_neg (mul_pos h1 h3) (mul_neg_of_neg_of_pos h2 h4)
      | exact mul_neg_of_pos_of_neg (mul_pos h1 h3) (mul_neg_of_pos_of_neg h2 h4)

/-- C106. A null determinant at the predicted position of a point, located further than the threshold, with two turns or more: the call raises
exactly when the column or the row of the product of the matrix `[[dlat_l, -dlon_l], [-dlat_c, dlon_c]] / 0` by `[dlon, dlat]` is NaN with
the rules of IEEE 754, whatever the sign of the zero; with infinite numbers it answers NaN. -/
theorem C106_null_determinant (g : MultiGrid K) (p : Predictor K) (rad rtx : K) (cosdeg : K → K) (nb : ℕ) (hnb : 2 ≤ nb) (neg : Bool)
    (lo la a : K) (hv : ValidLonLat lo la) (row col : K) (ext : Bool) (hpred : gridPredict g p lo la a = (row, col, ext))
    (plon plat : K) (hloc : gridDirectLocH g [some row] [some col] [some a] = .ok [⟨some plon, some plat, some a⟩])
    (herr : 1 / 1000000 < rtx * (((plat - la) * rad) ^ 2 + ((plon - lo) * rad * cosdeg la) ^ 2))
    (dlonCol dlonRow dlatCol dlatRow : K) (hd : gridDiffs g row col a = (dlonCol, dlonRow, dlatCol, dlatRow))
    (hdet : inversePartial g rad row col a = none) :
    gridInverseLoc g p rad rtx cosdeg [some lo] [some la] [some a] nb =
      open Classical in
      if Ext.rowTimes neg (dlatRow * rad) (-(dlonRow * rad)) ((plon - lo) * rad) ((plat - la) * rad) = .nan ∨
          Ext.rowTimes neg (-(dlatCol * rad)) (dlonCol * rad) ((plon - lo) * rad) ((plat - la) * rad) = .nan
      then .error .derivativeNan else .ok [⟨none, none, some a⟩] := by
  have hp : gridPoint g (some row) (some col) (some a) = ⟨some plon, some plat, some a⟩ := by
    simpa [gridDirectLocH, broadcastAlt] using hloc
  have hd0 : dlonCol * rad * (dlatRow * rad) - dlonRow * rad * (dlatCol * rad) = 0 := by
    unfold inversePartial at hdet
    rw [hd] at hdet
    dsimp only at hdet
    by_contra h0
    rw [if_neg h0] at hdet
    cases hdet
  obtain ⟨m, rfl⟩ : ∃ m, nb = m + 2 := ⟨nb - 2, by omega⟩
  have hs : gridStep g rad rtx (cosdeg la) lo la a ⟨some row, some col, some 10⟩ =
      ⟨none, none, some (rtx * (((plat - la) * rad) ^ 2 + ((plon - lo) * rad * cosdeg la) ^ 2))⟩ := by
    unfold gridStep
    simp only [hp, hdet]
  have hb : gridErrBig (some (rtx * (((plat - la) * rad) ^ 2 + ((plon - lo) * rad * cosdeg la) ^ 2))) = true := decide_eq_true herr
  have h10 : gridErrBig (some (10 : K)) = true := by simp [gridErrBig]; norm_num
  have ht : gridPointRaises g p rad rtx cosdeg (m + 2) (some lo) (some la) (some a) = true ↔
      (Ext.rowTimes neg (dlatRow * rad) (-(dlonRow * rad)) ((plon - lo) * rad) ((plat - la) * rad) = .nan ∨
        Ext.rowTimes neg (-(dlatCol * rad)) (dlonCol * rad) ((plon - lo) * rad) ((plat - la) * rad) = .nan) := by
    rw [← nullNan_iff, ← nullNan_iff]
    unfold gridPointRaises
    simp only [checkRow_valid hv, hpred]
    unfold gridRaises
    rw [if_pos h10]
    dsimp only
    rw [hs]
    dsimp only
    rw [hb]
    have hrest : gridRaises g rad rtx (cosdeg la) lo la a (m + 1)
        ⟨none, none, some (rtx * (((plat - la) * rad) ^ 2 + ((plon - lo) * rad * cosdeg la) ^ 2))⟩ = false := by
      unfold gridRaises
      dsimp only
      split_ifs <;> rfl
    rw [hrest]
    unfold gridTurnNan
    simp only [hp, hd]
    rw [decide_eq_true hd0]
    simp
  rw [gridInverseLoc_one]
  by_cases hr : gridPointRaises g p rad rtx cosdeg (m + 2) (some lo) (some la) (some a) = true
  · rw [if_pos hr, if_pos (ht.1 hr)]
  · rw [if_neg hr, if_neg (fun h => hr (ht.2 h))]
    have hstay : ∀ n (e : K), (gridLoop g rad rtx (cosdeg la) lo la a n ⟨none, none, some e⟩).1.row = none ∧
        (gridLoop g rad rtx (cosdeg la) lo la a n ⟨none, none, some e⟩).1.col = none := by
      intro n e
      cases n with
      | zero => exact ⟨rfl, rfl⟩
      | succ n =>
        unfold gridLoop
        split_ifs
        · dsimp only
          have : gridStep g rad rtx (cosdeg la) lo la a ⟨none, none, some e⟩ = ⟨none, none, none⟩ := rfl
          rw [this]
          cases n with
          | zero => exact ⟨rfl, rfl⟩
          | succ n => unfold gridLoop; rw [if_neg (by simp [gridErrBig])]; exact ⟨rfl, rfl⟩
        · exact ⟨rfl, rfl⟩
    simp only [gridInversePoint, checkRow_valid hv, hpred, gridInverse]
    unfold gridLoop
    rw [if_pos h10, hs]
    dsimp only
    rw [if_neg (by omega)]
    dsimp only
    rw [(hstay _ _).1, (hstay _ _).2]

/-! ### A case -/

/-- A geographic grid whose second and third lines are the same. -/
def repeatedGrid : MultiGrid ℚ :=
  { demoGrid with
    nbrow := 4
    lon := fun k i j => 2 + k / 10 + (if i ≤ 1 then (i : ℚ) else i - 1) / 100 + j / 50
    lat := fun k i j => 40 + k / 20 - (if i ≤ 1 then (i : ℚ) else i - 1) / 50 + j / 200 }

/-- A predictor that puts the longitude 2.02 in the first cell and the longitude 2.03 in the cell with the repeated line. -/
def repeatedPredictor : Predictor ℚ :=
  { colMin := fun _ => 0, rowMin := fun i => if i = 1 then 1 else 0, colMax := fun _ => 0, rowMax := fun i => if i = 1 then 1 else 0,
    lonOff := 202 / 100, lonScale := 1 / 100, latOff := 40, latScale := 1, rowOff := 50, rowScale := 100, colOff := 150, colScale := 200 }

/-- C106, loss of a batch: the point alone is located, with another one in a cell with a repeated line nothing is. -/
theorem C106_batch_lost :
    (∃ row col, gridInverseLoc repeatedGrid repeatedPredictor 17453 40 (fun _ => 766 / 1000) [some (202 / 100)] [some (3999 / 100)] [some 500] 15 =
      .ok [⟨some row, some col, some 500⟩]) ∧
    gridInverseLoc repeatedGrid repeatedPredictor 17453 40 (fun _ => 766 / 1000) [some (202 / 100), some (203 / 100)]
      [some (3999 / 100), some (3999 / 100)] [some 500, some 500] 15 = .error .derivativeNan := by
  constructor
  · refine ⟨1 / 2 + 200 / 3, 3 / 2 + 400 / 3, ?_⟩
    decide +kernel
  · refine C106_repeated_line repeatedGrid (by decide) (by decide) repeatedPredictor 17453 40 _ _ _ _ 15 rfl rfl (by norm_num) 1 (203 / 100)
      (3999 / 100) 500 rfl rfl rfl (by unfold ValidLonLat; decide +kernel) 150 150 false (by decide +kernel)
      ⟨1, 0, by unfold CellOf; decide +kernel, by unfold CellOf; decide +kernel, .inl fun k => ?_⟩ (2 + 1 / 100 + 297 / 20000) (40 - 1 / 50 + 297 / 80000)
      (by decide +kernel) (by norm_num)
    simp [repeatedGrid]
    norm_num

/-- A grid whose rows and columns go in the same direction: a null determinant without null difference. -/
def alignedGrid : MultiGrid ℚ :=
  { demoGrid with lon := fun _ i j => 2 + i / 100 + j / 50, lat := fun _ i j => 40 + i / 100 + j / 50 }

/-- The hypotheses of `C106_null_determinant`, with the two answers: infinite numbers (NaN), and their difference (the exception). -/
example :
    gridInverseLoc alignedGrid repeatedPredictor 17453 40 (fun _ => 766 / 1000) [some (202 / 100)] [some 40] [some 500] 15 =
      .ok [⟨none, none, some 500⟩] ∧
    gridInverseLoc alignedGrid repeatedPredictor 17453 40 (fun _ => 766 / 1000) [some 2] [some 40] [some 500] 15 =
      .error .derivativeNan := by
  have h1 := C106_null_determinant alignedGrid repeatedPredictor 17453 40 (fun _ => 766 / 1000) 15 (by norm_num) false (202 / 100) 40 500
    (by unfold ValidLonLat; decide +kernel) 50 150 false (by decide +kernel) (20198 / 10000) (400198 / 10000) (by decide +kernel) (by decide +kernel)
    (1 / 10000) (1 / 10000) (1 / 10000) (1 / 10000) (by decide +kernel) (by decide +kernel)
  have h2 := C106_null_determinant alignedGrid repeatedPredictor 17453 40 (fun _ => 766 / 1000) 15 (by norm_num) false 2 40 500
    (by unfold ValidLonLat; decide +kernel) (-150) 150 true (by decide +kernel) (19998 / 10000) (399998 / 10000) (by decide +kernel)
    (by decide +kernel) (1 / 10000) (1 / 10000) (1 / 10000) (1 / 10000) (by decide +kernel) (by decide +kernel)
  constructor
  · rw [h1, if_neg]
    rw [← nullNan_iff, ← nullNan_iff]
    decide +kernel
  · rw [h2, if_pos]
    rw [← nullNan_iff, ← nullNan_iff]
    decide +kernel

/-- The hypotheses of `C106_regular`. -/
example : ∀ a, some a ∈ [some (100 : ℚ), none] → ∀ row col, inversePartial affineGrid 17453 row col a ≠ none := by
  intro a ha
  simp at ha
  subst ha
  exact affineGrid_case.hdet

end Shareloc
