import Verif.Lemmas.Pipeline
import Verif.Props.EpipolarSize

/-!
# C69: the complete computation of the epipolar grids from two geometric models

A model is any object that locates each point by itself; `ground r c z` is the ground point of the pixel (r, c) at altitude z,
`groundDtm d r c` its ground point on the DTM d and `sensor p` the pixel (row, col) of the ground point p.
-/

set_option linter.unusedSectionVars false

namespace Shareloc
variable {K δ : Type*} [Field K] [LinearOrder K] [IsStrictOrderedRing K] [FloorRing K]

/-- Specification of a geometric model that locates each point by itself. -/
structure LocatesEachPoint (m : Geo K δ) (ground : Option K → Option K → Option K → ORow K)
    (groundDtm : δ → Option K → Option K → ORow K) (sensor : ORow K → Option K × Option K) : Prop where
  oneAlt : ∀ row col a, row.length = col.length → m.directH row col [a] = .ok (List.zipWith (fun r c => ground r c a) row col)
  eachAlt : ∀ p : List (ORow K), m.directH (p.map fun q => q.x) (p.map fun q => q.y) (p.map fun q => q.z) =
    .ok (p.map fun q => ground q.x q.y q.z)
  dtm : ∀ row col d, row.length = col.length → m.directDtm row col d = .ok (List.zipWith (groundDtm d) row col)
  inv : ∀ g : List (ORow K), m.inverse (g.map fun p => p.x) (g.map fun p => p.y) (g.map fun p => p.z) = .ok (some (g.map sensor))

/-- The elevation given by the user: nothing (altitude 0), one altitude, or a DTM. -/
inductive UserElevation (K δ : Type*)
  | missing
  | altitude (a : K)
  | dtm (epsg : ℕ) (d : δ)

/-- As the argument of the functions. -/
def UserElevation.arg : UserElevation K δ → Elevation K δ
  | .missing => .missing
  | .altitude a => .value [some a]
  | .dtm e d => .dtm e d

/-- The ground point of a pixel with an elevation. -/
def groundAt (ground : Option K → Option K → Option K → ORow K) (groundDtm : δ → Option K → Option K → ORow K)
    (el : UserElevation K δ) (r c : Option K) : ORow K :=
  match el with
  | .missing => ground r c (some 0)
  | .altitude a => ground r c (some a)
  | .dtm _ d => groundDtm d r c

/-- The position in an image, with its altitude, of a ground point. -/
def seenAt (sensor : ORow K → Option K × Option K) (g : ORow K) : ORow K := ⟨(sensor g).1, (sensor g).2, g.z⟩

theorem direct_points {m : Geo K δ} {gr : Option K → Option K → Option K → ORow K}
    {gd : δ → Option K → Option K → ORow K} {se : ORow K → Option K × Option K} (hm : LocatesEachPoint m gr gd se)
    (conv : ℕ → ℕ → ORow K → ORow K) (el : UserElevation K δ) (pts : List (Option K × Option K)) :
    Localization.direct conv ⟨m, el.arg, none, none⟩ (pts.map fun p => p.1) (pts.map fun p => p.2) none false =
      .ok (pts.map fun p => groundAt gr gd el p.1 p.2) := by
  have hz : ∀ f : Option K → Option K → ORow K,
      List.zipWith f (pts.map fun p => p.1) (pts.map fun p => p.2) = pts.map fun p => f p.1 p.2 := by
    intro f; rw [List.zipWith_map, List.zipWith_self]
  cases el with
  | missing =>
    simp only [Localization.direct, Localization.toPhysical, Localization.modelDirect, UserElevation.arg,
      Localization.defaultElevation]
    rw [hm.oneAlt _ _ _ (by simp), hz]; rfl
  | altitude a =>
    simp only [Localization.direct, Localization.toPhysical, Localization.modelDirect, UserElevation.arg,
      Localization.defaultElevation]
    rw [hm.oneAlt _ _ _ (by simp), hz]; rfl
  | dtm e d =>
    simp only [Localization.direct, Localization.toPhysical, Localization.modelDirect, UserElevation.arg]
    rw [hm.dtm _ _ _ (by simp), hz]; rfl

theorem direct_altitudes {m : Geo K δ} {gr : Option K → Option K → Option K → ORow K}
    {gd : δ → Option K → Option K → ORow K} {se : ORow K → Option K × Option K} (hm : LocatesEachPoint m gr gd se)
    (conv : ℕ → ℕ → ORow K → ORow K) (pts : List (ORow K)) :
    Localization.direct conv ⟨m, .value (pts.map fun p => p.z), none, none⟩ (pts.map fun p => p.x) (pts.map fun p => p.y) none false =
      .ok (pts.map fun p => gr p.x p.y p.z) := by
  simp only [Localization.direct, Localization.toPhysical, Localization.modelDirect, Localization.defaultElevation, hm.eachAlt]

theorem coloc_of_direct {m1 m2 : Geo K δ} {gr : Option K → Option K → Option K → ORow K}
    {gd : δ → Option K → Option K → ORow K} {se : ORow K → Option K × Option K} (hm : LocatesEachPoint m2 gr gd se)
    (conv : ℕ → ℕ → ORow K → ORow K) (el : Elevation K δ) (row col : List (Option K)) (hlen : row.length = col.length)
    (g : List (ORow K)) (hd : Localization.direct conv ⟨m1, el, none, none⟩ row col none false = .ok g) :
    coloc conv m1 m2 row col el none none false = .ok (g.map (seenAt se), g) := by
  have hi : Localization.inverse conv ⟨m2, el, none, none⟩ (g.map fun p => p.x) (g.map fun p => p.y)
      (some (g.map fun p => p.z)) false = .ok (some (g.map se), g.map fun p => p.z) := by
    simp only [Localization.inverse, Localization.toModel, Option.getD_some, hm.inv]
  unfold coloc
  rw [hd]
  simp only [hlen, ne_eq, not_true, if_false]
  rw [hi]
  simp only [Option.getD_some, Except.ok.injEq, Prod.mk.injEq, and_true]
  rw [List.zip_map', List.map_map]
  rfl

/-- The colocalisations of the module work point by point. -/
theorem stereoOf_points {left right : Geo K δ} {gl gr : Option K → Option K → Option K → ORow K}
    {dl dr : δ → Option K → Option K → ORow K} {sl sr : ORow K → Option K × Option K} (hl : LocatesEachPoint left gl dl sl)
    (hr : LocatesEachPoint right gr dr sr) (conv : ℕ → ℕ → ORow K → ORow K) (el : UserElevation K δ) :
    (stereoOf conv left right el.arg).PointByPoint
      (fun p => (seenAt sr (groundAt gl dl el p.1 p.2), groundAt gl dl el p.1 p.2))
      (fun p => seenAt sl (gr p.x p.y p.z)) := by
  refine ⟨fun l => ?_, fun l => ?_, fun l => ?_⟩
  · simp only [stereoOf]
    rw [coloc_of_direct hr conv el.arg _ _ (by simp) _ (direct_points hl conv el l)]
    simp only [Except.ok.injEq, List.map_map]
    rw [List.zip_map']
    rfl
  · simp only [stereoOf]
    rw [coloc_of_direct hl conv _ _ _ (by simp) _ (direct_altitudes hr conv l)]
    simp only [List.map_map]
    rfl
  · simp only [stereoOf]
    rw [direct_points hl conv el l]

theorem twoStrips_plain (t : Trig K) (m : Stereo K) (startL startR : ORow K) (spacing step off : K) (rows cols : ℕ) :
    twoStrips t m startL startR spacing step off rows cols none none =
      stereoGrids t m startL startR spacing step off rows cols := rfl

/-- The node at row `i` and column `j` of a grid given by columns. -/
def gridNode (g : List (List (ORow K))) (i j : ℕ) : Option (ORow K) := (g[j]?).bind fun l => l[i]?

theorem outputGrid_node (disp : Bool) (step : K) (g : List (List (ORow K))) (i j : ℕ) :
    gridNode (outputGrid disp step g) i j =
      (gridNode g i j).map fun p => if disp then nodeDisplacement step i j p else p := by
  cases disp with
  | false => simp [outputGrid, gridNode]
  | true =>
    simp only [outputGrid, if_true, gridNode, List.getElem?_mapIdx]
    cases h : g[j]? with
    | none => simp
    | some l => simp [List.getElem?_mapIdx]

theorem gridNode_map (f : Layer K → List (ORow K)) (cols : List (Layer K)) (i j : ℕ) :
    gridNode (cols.map f) i j = nodeAt f cols i j := by
  simp only [gridNode, nodeAt, List.getElem?_map]
  cases cols[j]? <;> rfl

/-- The origin of the left image, where the epipolar direction of the whole grid is estimated. -/
def leftOrigin (im : LeftImage K) : ORow K :=
  ⟨some (indexToPhysical im.transform 0 0).1, some (indexToPhysical im.transform 0 0).2, none⟩

/-- What `init_inputs_rectification` gives for models that locate each point by itself. -/
theorem initInputs_points (t : Trig K) {m : Stereo K} {fr : Option K × Option K → ORow K × ORow K} {fl : ORow K → ORow K}
    (hm : m.PointByPoint fr fl) (im : LeftImage K) (epiStep off : K) (margin : ℤ) (a : K)
    (ha : angleAt t fr fl off (leftOrigin im) = some a) (hsp : meanSpacing im ≠ 0) (hst : epiStep ≠ 0) :
    initInputs t m im epiStep off margin =
      .ok ⟨⟨some (prepareRectification (t.cos a) (t.sin a) 0 im epiStep margin).start.x,
            some (prepareRectification (t.cos a) (t.sin a) 0 im epiStep margin).start.y,
            olift2 (fun u v => (u + v) / 2) (lineStart fr fl off (leftOrigin im)).z (lineEnd fr fl off (leftOrigin im)).z⟩,
          (fr (some (prepareRectification (t.cos a) (t.sin a) 0 im epiStep margin).start.x,
            some (prepareRectification (t.cos a) (t.sin a) 0 im epiStep margin).start.y)).1,
          meanSpacing im, (prepareRectification (t.cos a) (t.sin a) 0 im epiStep margin).gridRows,
          (prepareRectification (t.cos a) (t.sin a) 0 im epiStep margin).gridCols,
          (prepareRectification (t.cos a) (t.sin a) 0 im epiStep margin).imageRows,
          (prepareRectification (t.cos a) (t.sin a) 0 im epiStep margin).imageCols⟩ := by
  have hp : prepareOf t m im epiStep off margin = .ok (prepareRectification (t.cos a) (t.sin a) 0 im epiStep margin,
      olift2 (fun u v => (u + v) / 2) (lineStart fr fl off (leftOrigin im)).z (lineEnd fr fl off (leftOrigin im)).z) := by
    unfold prepareOf
    simp only
    rw [show (⟨some (indexToPhysical im.transform 0 0).1, some (indexToPhysical im.transform 0 0).2, none⟩ : ORow K) = leftOrigin im
      from rfl, localEpipolarLine_points hm]
    simp only [List.map_cons, List.map_nil]
    unfold angleAt at ha
    rw [ha]
    simp [hsp, hst]
  unfold initInputs
  rw [hp]
  simp only [hm.l2r, List.map_cons, List.map_nil]

theorem prepared_sizes (c s alt : K) (im : LeftImage K) (hsp : 0 < meanSpacing im) {epiStep : K} (hst : 0 < epiStep) {margin : ℤ}
    (hmg : 0 ≤ margin) : 2 ≤ (prepareRectification c s alt im epiStep margin).gridRows ∧
      2 ≤ (prepareRectification c s alt im epiStep margin).gridCols := by
  have hb := C46_box_size c s im
  have h1 : 0 ≤ (epipolarBox c s im).maxy - (epipolarBox c s im).miny := by rw [hb.2]; positivity
  have h2 : 0 ≤ (epipolarBox c s im).maxx - (epipolarBox c s im).minx := by rw [hb.1]; positivity
  have key : ∀ d : K, 0 ≤ d → 2 ≤ pyInt ((pyInt (d / meanSpacing im) : K) / epiStep + 2) + 2 * margin := by
    intro d hd
    have e1 : (0 : ℤ) ≤ pyInt (d / meanSpacing im) := by
      rw [pyInt_floor (div_nonneg hd hsp.le)]
      exact Int.floor_nonneg.2 (div_nonneg hd hsp.le)
    have e2 : (0 : K) ≤ (pyInt (d / meanSpacing im) : K) / epiStep := div_nonneg (by exact_mod_cast e1) hst.le
    have e3 : 2 ≤ pyInt ((pyInt (d / meanSpacing im) : K) / epiStep + 2) := by
      rw [pyInt_floor (by linarith)]
      rw [Int.le_floor]
      push_cast
      linarith
    omega
  exact ⟨key _ h1, key _ h2⟩

/-- Specification of what is written at the node of row `i` and column `j`: the position, or with displacement grids the position
minus `(step i, step j)`; the altitude is the same. -/
def written (disp : Bool) (step : K) (i j : ℕ) (p : ORow K) : ORow K :=
  if disp then ⟨p.x.map fun x => x - step * i, p.y.map fun y => y - step * j, p.z⟩ else p

theorem written_eq (disp : Bool) (step : K) (i j : ℕ) (p : ORow K) :
    (if disp then nodeDisplacement step i j p else p) = written disp step i j p := by
  unfold written
  cases disp with
  | false => rfl
  | true =>
    simp only [if_true, nodeDisplacement, displacementTransform, indexToPhysical, Affine.apply, V3.mk.injEq, and_true]
    constructor <;> congr 1 <;> funext x <;> ring

/-- C69. For two models that locate each point by itself, a positive spacing and step and a margin that is not negative, the
computation succeeds as soon as the epipolar angle at the origin of the left image is defined.  The grids have the announced
size; the first left node is the starting point of the preparation, at the mean altitude of the ends of the epipolar line; down the first column each left node is one step across the
local epipolar line from the previous one, along each row one step along it; and every right node is the position in the right
image of the ground point of the left node, at the elevation given by the user.  With displacement grids the same positions are
written minus the position of the node in the regular grid. -/
theorem C69_grids (t : Trig K) (conv : ℕ → ℕ → ORow K → ORow K) (left right : Geo K δ)
    (gl gr : Option K → Option K → Option K → ORow K) (dl dr : δ → Option K → Option K → ORow K)
    (sl sr : ORow K → Option K × Option K) (hl : LocatesEachPoint left gl dl sl) (hr : LocatesEachPoint right gr dr sr)
    (el : UserElevation K δ) (im : LeftImage K) (hsp : 0 < meanSpacing im) (epiStep off : K) (hst : 0 < epiStep) (disp : Bool)
    (margin : ℤ) (hmg : 0 ≤ margin) (fr : Option K × Option K → ORow K × ORow K) (fl : ORow K → ORow K)
    (hfr : fr = fun p => (seenAt sr (groundAt gl dl el p.1 p.2), groundAt gl dl el p.1 p.2))
    (hfl : fl = fun p => seenAt sl (gr p.x p.y p.z))
    (a : K) (ha : angleAt t fr fl off (leftOrigin im) = some a) (P : Prepared K)
    (hP : P = prepareRectification (t.cos a) (t.sin a) 0 im epiStep margin) :
    ∃ (res : RectResult K) (pos : ℕ → ℕ → ORow K),
      stereoRectification t conv left right el.arg im epiStep off disp margin none = .ok res ∧
      (res.left.length : ℤ) = P.gridCols ∧ (res.right.length : ℤ) = P.gridCols ∧
      (∀ l ∈ res.left, (l.length : ℤ) = P.gridRows) ∧ (∀ l ∈ res.right, (l.length : ℤ) = P.gridRows) ∧
      res.imageRows = P.imageRows ∧ res.imageCols = P.imageCols ∧
      (∀ i j : ℕ, (i : ℤ) < P.gridRows → (j : ℤ) < P.gridCols →
        gridNode res.left i j = some (written disp epiStep i j (pos i j)) ∧
        gridNode res.right i j = some (written disp epiStep i j (seenAt sr (groundAt gl dl el (pos i j).x (pos i j).y)))) ∧
      (pos 0 0).x = some P.start.x ∧ (pos 0 0).y = some P.start.y ∧
      (pos 0 0).z = olift2 (fun u v => (u + v) / 2) (lineStart fr fl off (leftOrigin im)).z (lineEnd fr fl off (leftOrigin im)).z ∧
      (∀ i : ℕ, ((i + 1 : ℕ) : ℤ) < P.gridRows →
        pos (i + 1) 0 = movePoint t (meanSpacing im) epiStep 0 (pos i 0) (angleAt t fr fl off (pos i 0))) ∧
      (∀ i j : ℕ, (i : ℤ) < P.gridRows → ((j + 1 : ℕ) : ℤ) < P.gridCols →
        pos i (j + 1) = movePoint t (meanSpacing im) epiStep 1 (pos i j) (angleAt t fr fl off (pos i j))) := by
  have hm : (stereoOf conv left right el.arg).PointByPoint fr fl := by
    rw [hfr, hfl]; exact stereoOf_points hl hr conv el
  obtain ⟨n1, n2⟩ := prepared_sizes (t.cos a) (t.sin a) 0 im hsp hst hmg
  have hin := initInputs_points t hm im epiStep off margin a ha hsp.ne' hst.ne'
  rw [← hP] at n1 n2 hin
  obtain ⟨rows, hrows⟩ := Int.eq_ofNat_of_zero_le (show 0 ≤ P.gridRows by omega)
  obtain ⟨cols, hcols⟩ := Int.eq_ofNat_of_zero_le (show 0 ≤ P.gridCols by omega)
  set startL : ORow K := ⟨some P.start.x, some P.start.y,
    olift2 (fun u v => (u + v) / 2) (lineStart fr fl off (leftOrigin im)).z (lineEnd fr fl off (leftOrigin im)).z⟩ with hsL
  have hr1 : 1 ≤ rows := by omega
  have hc1 : 1 ≤ cols := by omega
  obtain ⟨g, hg⟩ := stereoGrids_succeeds t hm startL (fr (startL.x, startL.y)).1 (meanSpacing im) epiStep off
    (rows := rows) (cols := cols) hr1 (by omega)
  have hok := stereoGrids_ok hm hr1 hc1 hg
  obtain ⟨c1, c2, c3, -, c5, c6⟩ := C44_grids t _ hm.keepsLength startL _ (meanSpacing im) epiStep off rows cols hr1 hc1 g hg
  have hnode : ∀ i j : ℕ, i < rows → j < cols → ∃ p, nodeAt Layer.left g.columns i j = some p ∧
      nodeAt Layer.right g.columns i j = some (fr (p.x, p.y)).1 ∧ nodeAt Layer.angles g.columns i j = some (angleAt t fr fl off p) := by
    intro i j hi hj
    obtain ⟨l, hl'⟩ : ∃ l, g.columns[j]? = some l := ⟨_, List.getElem?_eq_getElem (by omega)⟩
    have hmem := List.mem_of_getElem? hl'
    obtain ⟨q1, q2⟩ := hok l hmem
    obtain ⟨p, hp⟩ : ∃ p, l.left[i]? = some p := ⟨_, List.getElem?_eq_getElem (by rw [(c2 l hmem).1]; omega)⟩
    refine ⟨p, by simp [nodeAt, hl', hp], ?_, ?_⟩
    · simp [nodeAt, hl', q1, hp]
    · simp [nodeAt, hl', q2, hp]
  refine ⟨⟨outputGrid disp epiStep (g.columns.map fun l => l.left), outputGrid disp epiStep (g.columns.map fun l => l.right),
    P.imageRows, P.imageCols, g.mean⟩, fun i j => (nodeAt Layer.left g.columns i j).getD nanRow, ?_, ?_, ?_, ?_, ?_, rfl, rfl, ?_, ?_, ?_, ?_, ?_, ?_⟩
  · unfold stereoRectification
    simp only
    rw [hin]
    simp only [hrows, hcols]
    rw [if_neg (by omega)]
    simp only [Int.toNat_natCast, twoStrips_plain]
    rw [show (fr (some P.start.x, some P.start.y)).1 = (fr (startL.x, startL.y)).1 from rfl, hg]
    simp
  · simp only [outputGrid]; split <;> simp [c1, hcols]
  · simp only [outputGrid]; split <;> simp [c1, hcols]
  · intro l hmem
    simp only [outputGrid] at hmem
    split at hmem
    · obtain ⟨k, hk, rfl⟩ := List.mem_mapIdx.1 hmem
      simp only [List.length_mapIdx, List.getElem_map]
      rw [(c2 _ (List.getElem_mem _)).1, hrows]
    · obtain ⟨l', h', rfl⟩ := List.mem_map.1 hmem
      rw [(c2 _ h').1, hrows]
  · intro l hmem
    simp only [outputGrid] at hmem
    split at hmem
    · obtain ⟨k, hk, rfl⟩ := List.mem_mapIdx.1 hmem
      simp only [List.length_mapIdx, List.getElem_map]
      rw [(c2 _ (List.getElem_mem _)).2.1, hrows]
    · obtain ⟨l', h', rfl⟩ := List.mem_map.1 hmem
      rw [(c2 _ h').2.1, hrows]
  · intro i j hi hj
    obtain ⟨p, p1, p2, -⟩ := hnode i j (by omega) (by omega)
    simp only [outputGrid_node, gridNode_map, p1, Option.map_some, Option.getD_some, written_eq]
    rw [show nodeAt (fun l => l.right) g.columns i j = some (fr (p.x, p.y)).1 from p2]
    simp [hfr]
  · simp only [c3, Option.getD_some]; rfl
  · simp only [c3, Option.getD_some]; rfl
  · simp only [c3, Option.getD_some]; rfl
  · intro i hi
    obtain ⟨p, a', e1, e2, e3⟩ := c5 i (by omega)
    obtain ⟨p', p1, -, p3⟩ := hnode i 0 (by omega) (by omega)
    rw [p1] at e1; rw [p3] at e2
    simp only [Option.some.injEq] at e1 e2
    subst e1 e2
    simp only [e3, p1, Option.getD_some]
  · intro i j hi hj
    obtain ⟨p, a', e1, e2, e3⟩ := c6 i j (by omega) (by omega)
    obtain ⟨p', p1, -, p3⟩ := hnode i j (by omega) (by omega)
    rw [p1] at e1; rw [p3] at e2
    simp only [Option.some.injEq] at e1 e2
    subst e1 e2
    simp only [e3, p1, Option.getD_some]

/-! A concrete pair: a sensor that sees the ground point (x, y, z) at row y and column x - k z. The DTM is a step of height 4 at
x = 3 when its parameter is true, and flat otherwise. -/

/-- Altitude of the step. -/
def stepAlt (b : Bool) (x : ℚ) : ℚ := if b ∧ 3 ≤ x then 4 else 0

/-- A slanted sensor; its location on the DTM is exact for k = 0. -/
def slantGeo (k : ℚ) : Geo ℚ Bool where
  epsg := 4326
  bounds := ((0, 0), (10, 10))
  directH := fun row col h =>
    match h with
    | [a] => .ok (List.zipWith (fun r c => ⟨olift2 (fun c z => c + k * z) c a, r, a⟩) row col)
    | h => .ok ((row.zip (col.zip h)).map fun p => ⟨olift2 (fun c z => c + k * z) p.2.1 p.2.2, p.1, p.2.2⟩)
  directDtm := fun row col d => .ok (List.zipWith (fun r c => ⟨c, r, c.map (stepAlt d)⟩) row col)
  inverse := fun lon lat h => .ok (some ((lon.zip (lat.zip h)).map fun p => (p.2.1, olift2 (fun x z => x - k * z) p.1 p.2.2)))

/-- The usual functions at the only values met: the angles 0 and a right angle (of measure 1), exact square roots. -/
def exactTrig : Trig ℚ := ⟨fun x => if x = 0 then 1 else 0, fun x => if x = 0 then 0 else 1, fun _ => 0,
  fun x => if x = 25 then 5 else if x = 9 then 3 else if x = 100 then 10 else 0, 2⟩

theorem slantGeo_points (k : ℚ) : LocatesEachPoint (slantGeo k) (fun r c a => ⟨olift2 (fun c z => c + k * z) c a, r, a⟩)
    (fun d r c => ⟨c, r, c.map (stepAlt d)⟩) (fun p => (p.y, olift2 (fun x z => x - k * z) p.x p.z)) := by
  refine ⟨fun row col a _ => rfl, fun p => ?_, fun row col d _ => rfl, fun g => ?_⟩
  · have key : ∀ p : List (ORow ℚ), ((p.map fun q => q.x).zip ((p.map fun q => q.y).zip (p.map fun q => q.z))) =
        p.map fun q => (q.x, q.y, q.z) := by
      intro p; rw [List.zip_map', List.zip_map']
    match p with
    | [] => rfl
    | [q] => rfl
    | q :: q' :: l =>
      have := key (q :: q' :: l)
      simp only [slantGeo, List.map_cons] at this ⊢
      rw [this]
      simp
  · simp only [slantGeo]
    rw [List.zip_map', List.zip_map']
    simp

/-- An image of one pixel, for grids of 2 x 2 nodes. -/
def onePixel : LeftImage ℚ := ⟨1, 1, 1, 1, ⟨1, 0, -1 / 2, 0, 1, -1 / 2⟩⟩

/-- The hypotheses of `C69_grids` are met. -/
example : 0 < meanSpacing onePixel ∧
    angleAt exactTrig
      (fun p => (seenAt (fun p => (p.y, olift2 (fun x z => x - 1 / 10 * z) p.x p.z)) (groundAt (δ := Bool) (fun r c a => ⟨olift2 (fun c z => c + 0 * z) c a, r, a⟩)
        (fun d r c => ⟨c, r, c.map (stepAlt d)⟩) (.dtm 4326 false) p.1 p.2),
        groundAt (fun r c a => ⟨olift2 (fun c z => c + 0 * z) c a, r, a⟩) (fun d r c => ⟨c, r, c.map (stepAlt d)⟩) (.dtm 4326 false) p.1 p.2))
      (fun p => seenAt (fun p => (p.y, olift2 (fun x z => x - 0 * z) p.x p.z)) (⟨olift2 (fun c z => c + 1 / 10 * z) p.y p.z, p.x, p.z⟩))
      50 (leftOrigin onePixel) = some 0 := by
  constructor <;> decide +kernel

/-- The grids of the pair without adaptive step. -/
example : stereoRectification exactTrig (fun _ _ p => p) (slantGeo 0) (slantGeo (1 / 10)) (.dtm 4326 true) onePixel 3 50 false 0 none =
    .ok ⟨[[pos3 0 0 0, pos3 3 0 0], [pos3 0 3 0, pos3 3 3 0]],
      [[pos3 0 0 0, pos3 3 0 0], [pos3 0 (26 / 10) 4, pos3 3 (26 / 10) 4]], 1, 1, some (1 / 10)⟩ := by
  decide +kernel

/-- C69, limit: with the adaptive step the right node is interpolated and not colocalised: at the left node (row 0, column 9/7),
where the altitude is 0 and the right position is (0, 9/7), the right grid contains another column and altitude. -/
theorem C69_adaptive_not_homologous :
    ∃ res : RectResult ℚ, stereoRectification exactTrig (fun _ _ p => p) (slantGeo 0) (slantGeo (1 / 10)) (.dtm 4326 true) onePixel
        3 50 false 0 (some (1, 3)) = .ok res ∧
      gridNode res.left 0 1 = some (pos3 0 (9 / 7) 0) ∧
      gridNode res.right 0 1 = some (pos3 0 (39 / 35) (12 / 7)) ∧
      coloc (fun _ _ p => p) (slantGeo 0) (slantGeo (1 / 10)) [some 0] [some (9 / 7)] (.dtm 4326 true) none none false =
        .ok ([pos3 0 (9 / 7) 0], [pos3 (9 / 7) 0 0]) := by
  refine ⟨match stereoRectification exactTrig (fun _ _ p => p) (slantGeo 0) (slantGeo (1 / 10)) (.dtm 4326 true) onePixel
        3 50 false 0 (some (1, 3)) with
    | .ok r => r
    | .error _ => ⟨[], [], 0, 0, none⟩, ?_, ?_, ?_, ?_⟩ <;> decide +kernel

end Shareloc
