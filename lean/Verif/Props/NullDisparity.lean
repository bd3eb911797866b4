import Verif.Props.TriangulationError
import Verif.Props.RectGrid
import Verif.Props.PipelineDefined

/-!
# C95: a null disparity is the elevation of the rectification

The whole chain: epipolar grids from two models and an elevation, their files, the interpolation of the grids at the pixels of a disparity
map, the lines of sight of the two models and their triangulation.
-/

set_option linter.unusedSectionVars false

namespace Shareloc
variable {K δ : Type*} [Field K] [LinearOrder K] [IsStrictOrderedRing K] [FloorRing K]

/-- What the lines of sight (los.py:74-82) use of a model: location at one altitude for all the points, range of altitudes.  The models
`RPCoptim` and `Grid` do not use `fill_nan`; for `RPC` this is `fill_nan=False`. -/
def Geo.los (m : Geo K δ) (alts : K × K) : LosModel K := ⟨fun row col alt _ => m.directH row col [some alt], alts⟩

theorem Geo.los_locates {m : Geo K δ} (hm : ByPoint m) (alts : K × K) :
    (m.los alts).LocatesBy fun alt _ r c => pointH m r c (some alt) :=
  fun row col alt _ out hl h => hm.oneAlt row col (some alt) out hl h

/-- `RectificationGrid.interpolate` (rectification_grid.py:95-105) of one position, NaN if it is not a number. -/
def gridLookup (g : RectGrid K) (p : Option K × Option K) : Option K × Option K :=
  match p with
  | (some c, some r) => (some (rectInterpolate g c r).1, some (rectInterpolate g c r).2)
  | _ => (none, none)

/-- The grid read from the file written with displacements `g`. -/
def gridOfFile (step : K) (rows cols : ℕ) (g : ℕ → ℕ → V3 K) : RectGrid K :=
  readRectGrid (writeEpipolarGrid rows cols g (displacementTransform step) true) true

theorem gridOfFile_node (step : K) (hstep : 0 < step) (rows cols : ℕ) (hr : 2 ≤ rows) (hc : 2 ≤ cols) (g : ℕ → ℕ → V3 K) (i j : ℕ)
    (hi : i < rows) (hj : j < cols) :
    gridLookup (gridOfFile step rows cols g) (some (step * j), some (step * i)) = (some ((g i j).y + step * j), some ((g i j).x + step * i)) := by
  have e : g = toDisplacement step fun i j => ⟨(g i j).x + step * i, (g i j).y + step * j, (g i j).z⟩ := by
    funext i j
    rw [C47_displacement]
    simp
  have h := C47_end_to_end step hstep rows cols hr hc (fun i j => ⟨(g i j).x + step * i, (g i j).y + step * j, (g i j).z⟩) i j hi hj
  rw [← e] at h
  simp only [gridLookup, gridOfFile, h]

/-- C95. The displacement grids of two models and an elevation, written and read back, and a disparity map with a null disparity at the epipolar
position of the node `(i, j)`.  `G` is the ground point of the left node on the elevation, in WGS84, `P` in geocentric coordinates.  If `P` is at
squared distance at most `e` of the straight line through the locations of the left node at the two extreme altitudes, and at most `e'` of
the line of the position of `G` in the right image, the point triangulated at this pixel is within the bound of C94 of `P`, and `P` itself
when both are null. -/
theorem C95_null_disparity (t : Trig K) (conv : ℕ → ℕ → ORow K → ORow K) (left right : Geo K δ) (hl : ByPoint left) (hr : ByPoint right)
    (el : UserElevation K δ) (im : LeftImage K) (epiStep off : K) (hst : 0 < epiStep) (margin : ℤ) (hmg : 0 ≤ margin) (grids : RectResult K)
    (h : stereoRectification t conv left right el.arg im epiStep off true margin none = .ok grids)
    (rows cols : ℕ) (hrows : 2 ≤ rows) (hcols : 2 ≤ cols) (gl gr : ℕ → ℕ → V3 K)
    (hgl : ∀ i j : ℕ, i < rows → j < cols → gridNode grids.left i j = some (gl i j).toRow)
    (hgr : ∀ i j : ℕ, i < rows → j < cols → gridNode grids.right i j = some (gr i j).toRow)
    (sqrt : K → K) (hs : IsSqrt sqrt) (altsL altsR : K × K) (d : DispMap K) (mask : Option (ℕ → ℕ → K)) (minMaxL minMaxR : Option (K × K))
    (fill : Bool) (ecef wgs : List (ORow K)) (res : List (Option K))
    (htri : epipolarTriangulation sqrt (conv 4326 4978) (conv 4978 4326) (left.los altsL) (right.los altsR)
      (gridLookup (gridOfFile epiStep rows cols gl)) (gridLookup (gridOfFile epiStep rows cols gr)) (.disp d) mask minMaxL minMaxR true fill =
      .ok (ecef, wgs, res))
    (i j : ℕ) (hi : i < rows) (hj : j < cols) (k l : ℕ) (hk : d.rows[k]? = some (epiStep * i)) (hl' : d.cols[l]? = some (epiStep * j))
    (hdisp : d.disp k l = some 0) (hmask : ∀ m, mask = some m → m k l > 0)
    (row col : K) (hrow : row = (gl i j).x + epiStep * i) (hcol : col = (gl i j).y + epiStep * j)
    (G : ORow K) (hG : G = groundAt (pointH left) (pointDtm left) el (some row) (some col)) (a b a' b' P : V3 K)
    (hP : conv 4326 4978 G = P.toRow) (hab : a ≠ b) (hab' : a' ≠ b')
    (ha : conv 4326 4978 (pointH left (some row) (some col) (some (minMaxL.getD altsL).2)) = a.toRow)
    (hb : conv 4326 4978 (pointH left (some row) (some col) (some (minMaxL.getD altsL).1)) = b.toRow)
    (ha' : conv 4326 4978 (pointH right (pointInv right G).1 (pointInv right G).2 (some (minMaxR.getD altsR).2)) = a'.toRow)
    (hb' : conv 4326 4978 (pointH right (pointInv right G).1 (pointInv right G).2 (some (minMaxR.getD altsR).1)) = b'.toRow)
    (e e' : K) (he : NearLine a b P e) (he' : NearLine a' b' P e') :
    ∃ (p : V3 K) (ρ : K), ecef[k * d.cols.length + l]? = some p.toRow ∧ wgs[k * d.cols.length + l]? = some (conv 4978 4326 p.toRow) ∧
      res[k * d.cols.length + l]? = some (some ρ) ∧ 0 ≤ ρ ∧ 2 * ρ ^ 2 ≤ e + e' ∧
      (∀ cos, cos ^ 2 * (sqDist a b * sqDist a' b') = (a.minus b).dot (a'.minus b') ^ 2 → (1 - |cos|) * sqDist p P ≤ e + e') ∧
      (e + e' ≤ 0 → p = P ∧ ρ = 0 ∧ wgs[k * d.cols.length + l]? = some (conv 4978 4326 (conv 4326 4978 G))) := by
  obtain ⟨ang, Pr, pos, -, -, l1, l2, l3, l4, -, -, hnode, -⟩ :=
    C69_whenever_returned t conv left right hl hr el im epiStep off hst.le true margin hmg grids h
  -- the sizes
  have hin : ∀ (g : List (List (ORow K))) (p : ORow K) (R C : ℤ), (g.length : ℤ) = C → (∀ l ∈ g, (l.length : ℤ) = R) →
      gridNode g i j = some p → (i : ℤ) < R ∧ (j : ℤ) < C := by
    intro g p R C h1 h2 h3
    unfold gridNode at h3
    cases hc : g[j]? with
    | none => rw [hc] at h3; cases h3
    | some line =>
      rw [hc] at h3
      simp only [Option.bind_some] at h3
      have := (List.getElem?_eq_some_iff.1 hc).1
      have h5 := (List.getElem?_eq_some_iff.1 h3).1
      have h6 := h2 line (List.mem_of_getElem? hc)
      omega
  obtain ⟨i1, j1⟩ := hin _ _ _ _ l1 l3 (hgl i j hi hj)
  obtain ⟨nl, nr⟩ := hnode i j i1 j1
  rw [hgl i j hi hj] at nl
  rw [hgr i j hi hj] at nr
  have inv : ∀ (v : V3 K) (q : ORow K), some v.toRow = some (written true epiStep i j q) →
      q.x = some (v.x + epiStep * i) ∧ q.y = some (v.y + epiStep * j) := by
    intro v q hq
    simp only [written, if_true, V3.toRow, Option.some.injEq, V3.mk.injEq] at hq
    obtain ⟨q1, q2, -⟩ := hq
    constructor
    · cases hx : q.x with
      | none => rw [hx] at q1; cases q1
      | some x =>
        rw [hx] at q1
        simp only [Option.map_some, Option.some.injEq] at q1
        rw [q1]; simp
    · cases hy : q.y with
      | none => rw [hy] at q2; cases q2
      | some y =>
        rw [hy] at q2
        simp only [Option.map_some, Option.some.injEq] at q2
        rw [q2]; simp
  obtain ⟨p1, p2⟩ := inv _ _ nl
  rw [← hrow] at p1
  rw [← hcol] at p2
  obtain ⟨q1, q2⟩ := inv _ _ nr
  have q1' : (pointInv right G).1 = some ((gr i j).x + epiStep * i) := by
    rw [← q1, p1, p2, hG]; rfl
  have q2' : (pointInv right G).2 = some ((gr i j).y + epiStep * j) := by
    rw [← q2, p1, p2, hG]; rfl
  rw [q1', q2'] at ha' hb'
  obtain ⟨p, ρ, k1, k2, k3, k4, k5, k6, k7⟩ := C94_disparity_map sqrt hs (conv 4326 4978) (conv 4978 4326) (left.los altsL) (right.los altsR) _ _
    (Geo.los_locates hl altsL) (Geo.los_locates hr altsR) _ _ d mask minMaxL minMaxR fill ecef wgs res htri k l _ _ 0 hk hl' hdisp hmask
    (some col) (some row) _ _
    (by rw [gridOfFile_node epiStep hst rows cols hrows hcols gl i j hi hj, hrow, hcol])
    (by rw [add_zero, gridOfFile_node epiStep hst rows cols hrows hcols gr i j hi hj])
    a b a' b' hab hab' ha hb ha' hb' P e e' he he'
  refine ⟨p, ρ, k1, k2, k3, k4, k5, k6, fun hz => ⟨(k7 hz).1, (k7 hz).2, ?_⟩⟩
  rw [k2, (k7 hz).1, hP]

end Shareloc
