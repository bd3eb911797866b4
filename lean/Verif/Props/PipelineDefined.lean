import Verif.Lemmas.Defined
import Verif.Props.PipelineAdaptive
import Verif.Props.Extent
import Verif.Props.ColocCpp
import Verif.Props.OptimDtmOther

/-!
# C69, C72, C77 for the models of the library

`LocatesEachPoint` asks for an answer at every point.  The models of the library raise on some points.  Here a model only has to treat
the points of a call one by one when it answers, and the theorems say what the rectification returns when it returns.
-/

set_option linter.unusedSectionVars false

namespace Shareloc
variable {K δ : Type*} [Field K] [LinearOrder K] [IsStrictOrderedRing K] [FloorRing K]

/-- The ground point that a model gives for one pixel alone, at an altitude. -/
def pointH (m : Geo K δ) (r c a : Option K) : ORow K :=
  match m.directH [r] [c] [a] with
  | .ok [p] => p
  | _ => nanRow

/-- The ground point that a model gives for one pixel alone, on a DTM. -/
def pointDtm (m : Geo K δ) (d : δ) (r c : Option K) : ORow K :=
  match m.directDtm [r] [c] d with
  | .ok [p] => p
  | _ => nanRow

/-- The pixel that a model gives for one ground point alone. -/
def pointInv (m : Geo K δ) (p : ORow K) : Option K × Option K :=
  match m.inverse [p.x] [p.y] [p.z] with
  | .ok (some [rc]) => rc
  | _ => (none, none)

/-- Specification of a model whose calls on several points, when they return, return what the calls on each point alone return. -/
structure ByPoint (m : Geo K δ) : Prop where
  oneAlt : ∀ row col a g, row.length = col.length → m.directH row col [a] = .ok g →
    g = List.zipWith (fun r c => pointH m r c a) row col
  eachAlt : ∀ (p : List (ORow K)) g, m.directH (p.map fun q => q.x) (p.map fun q => q.y) (p.map fun q => q.z) = .ok g →
    g = p.map fun q => pointH m q.x q.y q.z
  dtm : ∀ row col d g, row.length = col.length → m.directDtm row col d = .ok g → g = List.zipWith (pointDtm m d) row col
  inv : ∀ (p : List (ORow K)) g, m.inverse (p.map fun q => q.x) (p.map fun q => q.y) (p.map fun q => q.z) = .ok g →
    g = some (p.map (pointInv m))

/-- The model completed where it raises by the answers for each point alone. -/
def Geo.completed (m : Geo K δ) : Geo K δ where
  epsg := m.epsg
  bounds := m.bounds
  directH := fun row col h =>
    match m.directH row col h with
    | .ok g => .ok g
    | .error _ =>
      match h with
      | [a] => .ok (List.zipWith (fun r c => pointH m r c a) row col)
      | _ => .ok ((row.zip (col.zip h)).map fun t => pointH m t.1 t.2.1 t.2.2)
  directDtm := fun row col d =>
    match m.directDtm row col d with
    | .ok g => .ok g
    | .error _ => .ok (List.zipWith (pointDtm m d) row col)
  inverse := fun lon lat h =>
    match m.inverse lon lat h with
    | .ok g => .ok g
    | .error _ => .ok (some ((lon.zip (lat.zip h)).map fun t => pointInv m ⟨t.1, t.2.1, t.2.2⟩))

theorem Geo.refined_completed (m : Geo K δ) : m.Refined m.completed := by
  refine ⟨rfl, fun row col h g hg => ?_, fun row col d g hg => ?_, fun lon lat h g hg => ?_⟩
  · simp only [Geo.completed, hg]
  · simp only [Geo.completed, hg]
  · simp only [Geo.completed, hg]

theorem zip_rows (p : List (ORow K)) : ((p.map fun q => q.x).zip ((p.map fun q => q.y).zip (p.map fun q => q.z))) =
    p.map fun q => (q.x, q.y, q.z) := by
  rw [List.zip_map', List.zip_map']

theorem ByPoint.completed {m : Geo K δ} (h : ByPoint m) :
    LocatesEachPoint m.completed (pointH m) (pointDtm m) (pointInv m) := by
  refine ⟨fun row col a hl => ?_, fun p => ?_, fun row col d hl => ?_, fun p => ?_⟩
  · simp only [Geo.completed]
    cases hm : m.directH row col [a] with
    | ok g => simp only [h.oneAlt row col a g hl hm]
    | error e => rfl
  · simp only [Geo.completed]
    cases hm : m.directH (p.map fun q => q.x) (p.map fun q => q.y) (p.map fun q => q.z) with
    | ok g => simp only [h.eachAlt p g hm]
    | error e =>
      match p with
      | [] => rfl
      | [q] => rfl
      | q :: q' :: l =>
        have := zip_rows (q :: q' :: l)
        simp only [List.map_cons] at this ⊢
        rw [this]
        simp
  · simp only [Geo.completed]
    cases hm : m.directDtm row col d with
    | ok g => simp only [h.dtm row col d g hl hm]
    | error e => rfl
  · simp only [Geo.completed]
    cases hm : m.inverse (p.map fun q => q.x) (p.map fun q => q.y) (p.map fun q => q.z) with
    | ok g => simp only [h.inv p g hm]
    | error e =>
      simp only [zip_rows, List.map_map]
      rfl

/-- When the preparation succeeds the epipolar angle at the origin is defined. -/
theorem angle_of_prepare {t : Trig K} {m : Stereo K} {fr : Option K × Option K → ORow K × ORow K} {fl : ORow K → ORow K}
    (hm : m.PointByPoint fr fl) {im : LeftImage K} {epiStep off : K} {margin : ℤ} {v : Prepared K × Option K}
    (h : prepareOf t m im epiStep off margin = .ok v) :
    (∃ a, angleAt t fr fl off (leftOrigin im) = some a) ∧ meanSpacing im ≠ 0 ∧ epiStep ≠ 0 := by
  unfold prepareOf at h
  simp only at h
  rw [show (⟨some (indexToPhysical im.transform 0 0).1, some (indexToPhysical im.transform 0 0).2, none⟩ : ORow K) = leftOrigin im
    from rfl, localEpipolarLine_points hm] at h
  simp only [List.map_cons, List.map_nil] at h
  unfold angleAt
  cases ha : epipolarAngle t (lineEnd fr fl off (leftOrigin im)) (lineStart fr fl off (leftOrigin im)) with
  | none => simp only [ha] at h; cases h
  | some a =>
    simp only [ha] at h
    split_ifs at h with h1 h2
    exact ⟨⟨a, rfl⟩, h1, h2⟩

theorem angle_of_rectification {t : Trig K} {conv : ℕ → ℕ → ORow K → ORow K} {left right : Geo K δ} {el : Elevation K δ}
    {im : LeftImage K} {epiStep off : K} {disp : Bool} {margin : ℤ} {ad : Option (K × K)} {res : RectResult K}
    {fr : Option K × Option K → ORow K × ORow K} {fl : ORow K → ORow K} (hm : (stereoOf conv left right el).PointByPoint fr fl)
    (h : stereoRectification t conv left right el im epiStep off disp margin ad = .ok res) :
    (∃ a, angleAt t fr fl off (leftOrigin im) = some a) ∧ meanSpacing im ≠ 0 ∧ epiStep ≠ 0 := by
  unfold stereoRectification at h
  simp only at h
  cases hi : initInputs t (stereoOf conv left right el) im epiStep off margin with
  | error e => simp only [hi] at h; cases h
  | ok inp =>
    unfold initInputs at hi
    cases hp : prepareOf t (stereoOf conv left right el) im epiStep off margin with
    | error e => simp only [hp] at hi; cases hi
    | ok v => exact angle_of_prepare hm hp

/-- The right position and the ground point of a left position, each model being called on this point alone. -/
def colocPoint (left right : Geo K δ) (el : UserElevation K δ) (p : Option K × Option K) : ORow K × ORow K :=
  (seenAt (pointInv right) (groundAt (pointH left) (pointDtm left) el p.1 p.2), groundAt (pointH left) (pointDtm left) el p.1 p.2)

/-- The left position of a right position at its altitude. -/
def backPoint (left right : Geo K δ) (p : ORow K) : ORow K := seenAt (pointInv left) (pointH right p.x p.y p.z)

/-- C69. For two models whose calls treat the points one by one: whenever the computation of the grids returns, the epipolar angle at the
origin of the left image is defined, the grids have the size of the preparation, the first left node is its starting point, the nodes
follow one step across the local epipolar line down the first column and one step along it in each row, and every right node is the
position in the right image of the ground point of the left node. -/
theorem C69_whenever_returned (t : Trig K) (conv : ℕ → ℕ → ORow K → ORow K) (left right : Geo K δ) (hl : ByPoint left) (hr : ByPoint right)
    (el : UserElevation K δ) (im : LeftImage K) (epiStep off : K) (hst : 0 ≤ epiStep) (disp : Bool)
    (margin : ℤ) (hmg : 0 ≤ margin) (res : RectResult K)
    (h : stereoRectification t conv left right el.arg im epiStep off disp margin none = .ok res) :
    ∃ (a : K) (P : Prepared K) (pos : ℕ → ℕ → ORow K),
      angleAt t (colocPoint left right el) (backPoint left right) off (leftOrigin im) = some a ∧
      P = prepareRectification (t.cos a) (t.sin a) 0 im epiStep margin ∧
      (res.left.length : ℤ) = P.gridCols ∧ (res.right.length : ℤ) = P.gridCols ∧
      (∀ l ∈ res.left, (l.length : ℤ) = P.gridRows) ∧ (∀ l ∈ res.right, (l.length : ℤ) = P.gridRows) ∧
      res.imageRows = P.imageRows ∧ res.imageCols = P.imageCols ∧
      (∀ i j : ℕ, (i : ℤ) < P.gridRows → (j : ℤ) < P.gridCols →
        gridNode res.left i j = some (written disp epiStep i j (pos i j)) ∧
        gridNode res.right i j = some (written disp epiStep i j (colocPoint left right el ((pos i j).x, (pos i j).y)).1)) ∧
      (pos 0 0).x = some P.start.x ∧ (pos 0 0).y = some P.start.y ∧
      (pos 0 0).z = olift2 (fun u v => (u + v) / 2) (lineStart (colocPoint left right el) (backPoint left right) off (leftOrigin im)).z
        (lineEnd (colocPoint left right el) (backPoint left right) off (leftOrigin im)).z ∧
      (∀ i : ℕ, ((i + 1 : ℕ) : ℤ) < P.gridRows →
        pos (i + 1) 0 = movePoint t (meanSpacing im) epiStep 0 (pos i 0)
          (angleAt t (colocPoint left right el) (backPoint left right) off (pos i 0))) ∧
      (∀ i j : ℕ, (i : ℤ) < P.gridRows → ((j + 1 : ℕ) : ℤ) < P.gridCols →
        pos i (j + 1) = movePoint t (meanSpacing im) epiStep 1 (pos i j)
          (angleAt t (colocPoint left right el) (backPoint left right) off (pos i j))) := by
  have h' := stereoRectification_refined left.refined_completed right.refined_completed t conv el.arg im epiStep off disp margin none res h
  have hm := stereoOf_points hl.completed hr.completed conv el
  obtain ⟨⟨a, ha⟩, hs1, hs2⟩ := angle_of_rectification hm h'
  have hsp : 0 < meanSpacing im := lt_of_le_of_ne (by unfold meanSpacing; positivity) (Ne.symm hs1)
  obtain ⟨res', pos, e1, e2, e3, e4, e5, e6, e7, e8, e9, e10, e11, e12, e13⟩ := C69_grids t conv left.completed right.completed _ _ _ _ _ _
    hl.completed hr.completed el im hsp epiStep off (lt_of_le_of_ne hst (Ne.symm hs2)) disp margin hmg _ _ rfl rfl a ha _ rfl
  rw [h'] at e1
  cases e1
  exact ⟨a, _, pos, ha, rfl, e2, e3, e4, e5, e6, e7, e8, e9, e10, e11, e12, e13⟩

/-- C77. The same with the adaptive step: whenever the computation returns, its nodes are the successive adaptive steps from the starting
point of the preparation, which cover the announced sizes with no step more than needed. -/
theorem C77_whenever_returned (t : Trig K) (conv : ℕ → ℕ → ORow K → ORow K) (left right : Geo K δ) (hl : ByPoint left) (hr : ByPoint right)
    (el : UserElevation K δ) (im : LeftImage K) (epiStep off : K) (disp : Bool)
    (margin : ℤ) (scale maxRatio : K) (onGround : ORow K → ORow K)
    (hground : onGround = fun p => conv left.epsg 4978 (pointH left p.x p.y p.z)) (res : RectResult K)
    (h : stereoRectification t conv left right el.arg im epiStep off disp margin (some (scale, maxRatio)) = .ok res)
    (fr : Option K × Option K → ORow K × ORow K) (hfr : fr = colocPoint left right el)
    (fl : ORow K → ORow K) (hfl : fl = backPoint left right) :
    ∃ (a : K) (P : Prepared K) (start : ORow K) (d0 d1 : K) (rows cols : ℕ) (down along : Walk K),
      angleAt t fr fl off (leftOrigin im) = some a ∧ P = prepareRectification (t.cos a) (t.sin a) 0 im epiStep margin ∧
      start = ⟨some P.start.x, some P.start.y,
        olift2 (fun u v => (u + v) / 2) (lineStart fr fl off (leftOrigin im)).z (lineEnd fr fl off (leftOrigin im)).z⟩ ∧
      oDist t (onGround start) (onGround (movePoint t (meanSpacing im) epiStep 0 start (angleAt t fr fl off start))) = some d0 ∧
      oDist t (onGround start) (onGround (movePoint t (meanSpacing im) epiStep 1 start (angleAt t fr fl off start))) = some d1 ∧
      down = ⟨t, fr, fl, meanSpacing im, epiStep, off, 0, ⟨d0, scale, maxRatio⟩⟩ ∧
      along = ⟨t, fr, fl, meanSpacing im, epiStep, off, 1, ⟨d1, scale, maxRatio⟩⟩ ∧
      1 ≤ rows ∧ 1 ≤ cols ∧ res.left.length = cols ∧ res.right.length = cols ∧
      (∀ l ∈ res.left, l.length = rows) ∧ (∀ l ∈ res.right, l.length = rows) ∧
      (∀ i j : ℕ, i < rows → j < cols →
        gridNode res.left i j = some (written disp epiStep i j (adaptiveNode down along (start, (fr (start.x, start.y)).1) i j).1) ∧
        gridNode res.right i j = some (written disp epiStep i j (adaptiveNode down along (start, (fr (start.x, start.y)).1) i j).2)) ∧
      (∀ x, down.covered (start, (fr (start.x, start.y)).1) (rows - 1) = some x → (P.gridRows : K) ≤ x) ∧
      (∀ i < rows, ∀ x, along.covered (down.next^[i] (start, (fr (start.x, start.y)).1)) (cols - 1) = some x → (P.gridCols : K) ≤ x) ∧
      (∀ k < rows - 1, ∃ x, down.covered (start, (fr (start.x, start.y)).1) k = some x ∧ x < P.gridRows) ∧
      (∀ k < cols - 1, ∃ i < rows, ∃ x, along.covered (down.next^[i] (start, (fr (start.x, start.y)).1)) k = some x ∧ x < P.gridCols) ∧
      res.imageRows = pyInt ((rows : K) * epiStep - epiStep / 2 - 2 * epiStep * margin) ∧
      res.imageCols = pyInt ((cols : K) * epiStep - epiStep / 2 - 2 * epiStep * margin) := by
  have h' := stereoRectification_refined left.refined_completed right.refined_completed t conv el.arg im epiStep off disp margin _ res h
  have hm := stereoOf_points hl.completed hr.completed conv el
  obtain ⟨⟨a, ha⟩, hs1, hs2⟩ := angle_of_rectification hm h'
  obtain ⟨d0, d1, rows, cols, down, along, e⟩ := C77_adaptive_grids t conv left.completed right.completed _ _ _ _ _ _
    hl.completed hr.completed el im hs1 epiStep off hs2 disp margin scale maxRatio fr fl hfr hfl a (by rw [hfr, hfl]; exact ha) _ rfl _ rfl
    onGround hground res h'
  exact ⟨a, _, _, d0, d1, rows, cols, down, along, by rw [hfr, hfl]; exact ha, rfl, rfl, e⟩

/-- C72. Whenever the extent is returned, the four corners of the grid have ground positions at altitude 0, and the extent is the smallest
box, latitudes first, that contains them, widened by the additional margin. -/
theorem C72_whenever_returned {δ : Type*} (conv : ℕ → ℕ → ORow ℝ → ORow ℝ) (left right : Geo ℝ δ) (hl : ByPoint left) (hr : ByPoint right)
    (el : UserElevation ℝ δ) (im : LeftImage ℝ) (epiStep off : ℝ) (hst : 0 ≤ epiStep) (margin : ℤ) (additional : ℝ)
    (v : ℝ × ℝ × ℝ × ℝ) (h : extentOf realTrig conv left right el.arg im epiStep off margin additional = .ok v) :
    ∃ (a : ℝ) (P : Prepared ℝ) (lon lat : V3 ℝ → ℝ) (latMin lonMin latMax lonMax : ℝ),
      angleAt realTrig (colocPoint left right el) (backPoint left right) off (leftOrigin im) = some a ∧
      P = prepareRectification (Real.cos a) (Real.sin a) 0 im epiStep margin ∧
      (∀ q ∈ P.footprint, ∃ z, pointH left (some q.x) (some q.y) (some 0) = ⟨some (lon q), some (lat q), z⟩) ∧
      v = (latMin - additional, lonMin - additional, latMax + additional, lonMax + additional) ∧
      (∀ q ∈ P.footprint, lonMin ≤ lon q ∧ lon q ≤ lonMax ∧ latMin ≤ lat q ∧ lat q ≤ latMax) ∧
      (∃ q ∈ P.footprint, lon q = lonMin) ∧ (∃ q ∈ P.footprint, lon q = lonMax) ∧
      (∃ q ∈ P.footprint, lat q = latMin) ∧ (∃ q ∈ P.footprint, lat q = latMax) := by
  have h' := extentOf_refined left.refined_completed right.refined_completed realTrig conv el.arg im epiStep off margin additional v h
  have hm := stereoOf_points hl.completed hr.completed conv el
  have h0 := h'
  unfold extentOf at h0
  cases hp : prepareOf realTrig (stereoOf conv left.completed right.completed el.arg) im epiStep off margin with
  | error e => simp only [hp] at h0; cases h0
  | ok w =>
    obtain ⟨⟨a, ha⟩, hs1, hs2⟩ := angle_of_prepare hm hp
    have hsp : 0 < meanSpacing im := lt_of_le_of_ne (by unfold meanSpacing; positivity) (Ne.symm hs1)
    have hw : w.1 = prepareRectification (Real.cos a) (Real.sin a) 0 im epiStep margin := by
      unfold prepareOf at hp
      simp only at hp
      rw [show (⟨some (indexToPhysical im.transform 0 0).1, some (indexToPhysical im.transform 0 0).2, none⟩ : ORow ℝ) = leftOrigin im
        from rfl, localEpipolarLine_points hm] at hp
      simp only [List.map_cons, List.map_nil] at hp
      unfold angleAt at ha
      rw [ha] at hp
      simp only [hs1, hs2, if_false, Except.ok.injEq] at hp
      rw [← hp]; rfl
    obtain ⟨p, alt⟩ := w
    simp only at hw
    subst hw
    simp only [hp] at h0
    have hd : Localization.direct conv ⟨left.completed, .missing, some ⟨im.transform, im.nbRows, im.nbCols⟩, none⟩
        ((prepareRectification (Real.cos a) (Real.sin a) 0 im epiStep margin).footprint.map fun v => some v.x)
        ((prepareRectification (Real.cos a) (Real.sin a) 0 im epiStep margin).footprint.map fun v => some v.y) (some [some 0]) false =
        .ok ((prepareRectification (Real.cos a) (Real.sin a) 0 im epiStep margin).footprint.map fun q =>
          pointH left (some q.x) (some q.y) (some 0)) := by
      simp only [Localization.direct, Localization.toPhysical, Localization.modelDirect]
      rw [hl.completed.oneAlt _ _ _ (by simp), List.zipWith_map, List.zipWith_self]
    rw [hd] at h0
    simp only at h0
    split_ifs at h0 with hnan
    have hg : ∀ q ∈ (prepareRectification (Real.cos a) (Real.sin a) 0 im epiStep margin).footprint, ∃ z,
        pointH left (some q.x) (some q.y) (some 0) = ⟨some ((pointH left (some q.x) (some q.y) (some 0)).x.getD 0),
          some ((pointH left (some q.x) (some q.y) (some 0)).y.getD 0), z⟩ := by
      intro q hq
      have : ¬ (lonLat (pointH left (some q.x) (some q.y) (some 0))).isNone := by
        intro hn
        exact hnan (List.any_eq_true.2 ⟨_, List.mem_map.2 ⟨q, hq, rfl⟩, hn⟩)
      rcases hpt : pointH left (some q.x) (some q.y) (some 0) with ⟨_ | x, _ | y, z⟩
      · rw [hpt] at this; exact absurd rfl this
      · rw [hpt] at this; exact absurd rfl this
      · rw [hpt] at this; exact absurd rfl this
      · exact ⟨z, rfl⟩
    obtain ⟨latMin, lonMin, latMax, lonMax, e1, e2, e3, e4, e5, e6⟩ := C72_extent conv left.completed right.completed _ _ _ _ _ _
      hl.completed hr.completed el im hsp epiStep off (lt_of_le_of_ne hst (Ne.symm hs2)) margin additional a ha
      (fun q => (pointH left (some q.x) (some q.y) (some 0)).x.getD 0) (fun q => (pointH left (some q.x) (some q.y) (some 0)).y.getD 0) hg
    rw [h'] at e1
    exact ⟨a, _, _, _, latMin, lonMin, latMax, lonMax, ha, rfl, hg, Except.ok.inj e1, e2, e3, e4, e5, e6⟩

/-! ### The models of the library -/

theorem zipWith_pairs {α β γ : Type*} (f : α → β → γ) (a : List α) (b : List β) : List.zipWith f a b = (a.zip b).map fun t => f t.1 t.2 := by
  rw [List.zip, List.map_zipWith]

theorem iter_oneAlt (r : Rpc K) (q : RatCoefs K) (hq : r.inverse = some q) (row col : List (Option K)) (a : Option K)
    (hl : row.length = col.length) :
    directLocHOptim r row col [a] false false = .ok (List.zipWith (fun x y => checkRow (iterPointCpp r q false (x, y, a))) row col) := by
  simp only [directLocHOptim, hq, broadcastAlt_single, hl, min_self]
  rw [broadcastAlt_eq (by simp)]
  simp only [Except.ok.injEq, checkLonLat, List.map_map]
  have key : ∀ (r c : List (Option K)), r.length = c.length →
      (r.zip (c.zip (List.replicate c.length a))) = (r.zip c).map fun t => (t.1, t.2, a) := by
    intro r
    induction r with
    | nil => intro c _; rfl
    | cons x r ih =>
      intro c h
      cases c with
      | nil => simp at h
      | cons y c => simp only [List.length_cons, List.replicate_succ, List.zip_cons_cons, List.map_cons, ih c (by simpa using h)]
  rw [key row col hl, List.map_map, zipWith_pairs]
  rfl

theorem pointH_optim (conv : ℕ → ℕ → ORow K → ORow K) (N : ℕ) (r : Rpc K) (q : RatCoefs K) (hq : r.inverse = some q) (x y a : Option K) :
    pointH (rpcOptimGeo conv N r) x y a = checkRow (iterPointCpp r q false (x, y, a)) := by
  simp only [pointH, rpcOptimGeo, iter_oneAlt r q hq [x] [y] a rfl, List.zipWith_cons_cons, List.zipWith_nil_left]

theorem mapExcept_mem {α β : Type*} {f : α → Except RpcError β} {l : List α} {out : List β} (h : mapExcept f l = .ok out) :
    ∀ a ∈ l, ∃ b, f a = .ok b := by
  induction l generalizing out with
  | nil => intro a ha; cases ha
  | cons a as ih =>
    simp only [mapExcept] at h
    cases hf : f a with
    | error e => simp [hf] at h
    | ok b =>
      cases hr : mapExcept f as with
      | error e => simp [hf, hr] at h
      | ok bs =>
        intro c hc
        rcases List.mem_cons.1 hc with rfl | hc
        · exact ⟨b, hf⟩
        · exact ih hr c hc

theorem optimDtm_points (conv : ℕ → ℕ → ORow K → ORow K) (N : ℕ) (r : Rpc K) (e : ℕ) (d : Dtm K) (row col : List (Option K))
    (hl : row.length = col.length) (l : List (DtmPoint K)) (h : rpcOptimDirectDtmAny conv N r e d row col = .ok l) :
    ∃ F : Option K → Option K → DtmPoint K, l = List.zipWith F row col ∧
      ∀ t ∈ row.zip col, rpcOptimDirectDtmAny conv N r e d [t.1] [t.2] = .ok [F t.1 t.2] := by
  unfold rpcOptimDirectDtmAny at h ⊢
  split_ifs at h ⊢ with he
  · unfold rpcOptimDirectDtm at h ⊢
    rw [if_pos hl] at h
    have hF : ∀ t b, rpcOptimDtmPoint N r d t = .ok b → b =
        (match rpcOptimDtmPoint N r d (t.1, t.2) with | .ok v => v | .error _ => DtmPoint.nan) := by
      intro t b hb
      simp only [Prod.mk.eta, hb]
    refine ⟨fun x y => match rpcOptimDtmPoint N r d (x, y) with | .ok v => v | .error _ => .nan, ?_, fun t ht => ?_⟩
    · rw [zipWith_pairs]
      exact mapExcept_eq_map hF h
    · obtain ⟨b, hb⟩ := mapExcept_mem h t ht
      simp only [List.length_singleton, if_true, List.zip_cons_cons, List.zip_nil_right, mapExcept, Prod.mk.eta, hb]
  · cases hq : r.inverse with
    | none =>
      exfalso
      unfold rpcOptimDirectDtmOther losExtremaOptim at h
      simp only [hl, if_true, hq] at h
      split at h <;> cases h
    | some q =>
      refine ⟨optimOtherPoint conv N r e d, ?_, fun t _ => ?_⟩
      · obtain ⟨out, h1, h2, h3⟩ := optimOther_get conv N r q hq e d row col hl.symm
        rw [h] at h1
        cases h1
        apply List.ext_getElem?
        intro i
        by_cases hi : i < row.length
        · rw [h3 i row[i] (col[i]'(by omega)) (List.getElem?_eq_getElem hi) (List.getElem?_eq_getElem (by omega))]
          rw [List.getElem?_zipWith, List.getElem?_eq_getElem hi, List.getElem?_eq_getElem (show i < col.length by omega)]
        · rw [List.getElem?_eq_none (by omega), List.getElem?_eq_none (by rw [List.length_zipWith]; omega)]
      · obtain ⟨out, h1, h2, h3⟩ := optimOther_get conv N r q hq e d [t.1] [t.2] rfl
        rw [h1]
        have h4 := h3 0 t.1 t.2 rfl rfl
        match out, h2, h4 with
        | [o], _, h4 => simp only [List.getElem?_cons_zero, Option.some.injEq] at h4; rw [h4]

theorem dtmRows_one {l : List (DtmPoint K)} {g : List (ORow K)} (h : dtmRows l = .ok g) {p : DtmPoint K} (hp : p ∈ l) :
    dtmRows [p] = .ok [p.toRow] := by
  unfold dtmRows at h ⊢
  split_ifs at h with hn
  rw [if_neg]
  · rfl
  · intro hb
    apply hn
    simp only [List.any_cons, List.any_nil, Bool.or_false] at hb
    exact List.any_eq_true.2 ⟨p, hp, hb⟩

/-- Locations on a DTM made point by point, and read as rows. -/
theorem dtm_byPoint {F : Option K → Option K → DtmPoint K} {row col : List (Option K)} {l : List (DtmPoint K)} {g : List (ORow K)}
    (hF : l = List.zipWith F row col) (h : dtmRows l = .ok g) {pt : Option K → Option K → ORow K}
    (hpt : ∀ t ∈ row.zip col, dtmRows [F t.1 t.2] = .ok [(F t.1 t.2).toRow] → pt t.1 t.2 = (F t.1 t.2).toRow) :
    g = List.zipWith pt row col := by
  obtain ⟨rfl, -⟩ := dtmRows_ok h
  rw [hF, zipWith_pairs, zipWith_pairs, List.map_map]
  apply List.map_congr_left
  intro t ht
  exact (hpt t ht (dtmRows_one h (by rw [hF, zipWith_pairs]; exact List.mem_map.2 ⟨t, ht, rfl⟩))).symm

theorem optimGeo_dtm (conv : ℕ → ℕ → ORow K → ORow K) (N : ℕ) (r : Rpc K) (row col : List (Option K)) (d : ℕ × Dtm K) (g : List (ORow K))
    (hl : row.length = col.length) (h : (rpcOptimGeo conv N r).directDtm row col d = .ok g) :
    g = List.zipWith (pointDtm (rpcOptimGeo conv N r) d) row col := by
  simp only [rpcOptimGeo] at h
  cases ha : rpcOptimDirectDtmAny conv N r d.1 d.2 row col with
  | error e => simp only [ha] at h; cases h
  | ok l =>
    simp only [ha] at h
    obtain ⟨F, h1, h2⟩ := optimDtm_points conv N r d.1 d.2 row col hl l ha
    refine dtm_byPoint h1 h (fun t ht hd => ?_)
    simp only [pointDtm, rpcOptimGeo, h2 t ht, hd]

/-- The C++ RPC treats the points of a call one by one. -/
theorem C69_optim_rpc_by_point (conv : ℕ → ℕ → ORow K → ORow K) (N : ℕ) (r : Rpc K) : ByPoint (rpcOptimGeo conv N r) := by
  cases hq : r.inverse with
  | none =>
    refine ⟨fun row col a g hl h => ?_, fun p g h => ?_, fun row col d g hl h => ?_, fun p g h => ?_⟩
    · simp only [rpcOptimGeo, directLocHOptim, hq, broadcastAlt_single, hl, min_self] at h
      rw [broadcastAlt_eq (by simp)] at h
      cases h
    · simp only [rpcOptimGeo, directLocHOptim, hq, List.length_map, min_self] at h
      rw [broadcastAlt_eq (by simp)] at h
      simp only at h
      rw [broadcastAlt_eq (by simp)] at h
      cases h
    · exact optimGeo_dtm conv N r row col d g hl h
    · simp only [rpcOptimGeo, hq] at h
      cases h
  | some q =>
    refine ⟨fun row col a g hl h => ?_, fun p g h => ?_, fun row col d g hl h => ?_, fun p g h => ?_⟩
    · simp only [pointH_optim conv N r q hq]
      simp only [rpcOptimGeo, iter_oneAlt r q hq row col a hl, Except.ok.injEq] at h
      exact h.symm
    · simp only [pointH_optim conv N r q hq]
      simp only [rpcOptimGeo, directLocHOptim, hq, List.length_map, min_self] at h
      rw [broadcastAlt_eq (by simp)] at h
      simp only at h
      rw [broadcastAlt_eq (by simp)] at h
      simp only [Except.ok.injEq, checkLonLat, zip_rows, List.map_map] at h
      exact h.symm
    · exact optimGeo_dtm conv N r row col d g hl h
    · have h1 : ∀ p : ORow K, (∃ o, invPointCppThrow r q (checkRow p) = .ok o) →
          pointInv (rpcOptimGeo conv N r) p = ((invPointCpp r q (checkRow p)).x, (invPointCpp r q (checkRow p)).y) := by
        rintro p ⟨o, ho⟩
        simp only [pointInv, rpcOptimGeo, hq, inverseLocOptim]
        rw [show stack3 [p.x] [p.y] [p.z] = .ok [p] from rfl]
        simp only [checkLonLat, List.map_cons, List.map_nil, mapExcept, ho, cppThrow_value ho]
      simp only [rpcOptimGeo, hq, inverseLocOptim, stack3_rows] at h
      cases hm : mapExcept (invPointCppThrow r q) (checkLonLat p) with
      | error e => simp only [hm] at h; cases h
      | ok l =>
        simp only [hm, Except.ok.injEq] at h
        rw [← h, mapExcept_eq_map (g := invPointCpp r q) (fun a b hab => cppThrow_value hab) hm]
        simp only [checkLonLat, List.map_map]
        congr 1
        apply List.map_congr_left
        intro x hx
        rw [h1 x (mapExcept_mem hm _ (List.mem_map.2 ⟨x, hx, rfl⟩))]
        rfl

/-- A grid treats the points of a call one by one. -/
theorem C69_grid_by_point (conv : ℕ → ℕ → ORow K → ORow K) (N : ℕ) (g : MultiGrid K) (p : Predictor K) (rad rtx : K) (cosdeg : K → K)
    (e : ℕ) : ByPoint (gridGeo conv N g p rad rtx cosdeg e) := by
  have hH : ∀ x y a, pointH (gridGeo conv N g p rad rtx cosdeg e) x y a = gridPoint g x y a := by
    intro x y a
    simp only [pointH, gridGeo, gridDirectLocH_pts g [x] [y] a rfl, List.zip_cons_cons, List.zip_nil_right, List.map_cons, List.map_nil]
  refine ⟨fun row col a o hl h => ?_, fun l o h => ?_, fun row col d o hl h => ?_, fun l o h => ?_⟩
  · simp only [hH]
    simp only [gridGeo, gridDirectLocH_pts g row col a hl.symm, Except.ok.injEq] at h
    rw [← h, zipWith_pairs]
  · simp only [hH]
    simp only [gridGeo, gridDirectLocH, List.length_map] at h
    rw [broadcastAlt_eq (by simp)] at h
    simp only [if_true, zip_rows, List.map_map, Except.ok.injEq] at h
    exact h.symm
  · simp only [gridGeo] at h
    unfold gridDirectLocDtm at h
    split_ifs at h with hd
    cases hr : dtmRange conv d.1 e d.2 with
    | none => simp only [hr] at h; cases h
    | some b =>
      simp only [hr] at h
      obtain ⟨out, ho, hlen, hget⟩ := C65_pointwise .py N g d.2 b.1 b.2 row col hl.symm
      rw [ho] at h
      simp only at h
      set F : Option K → Option K → DtmPoint K := fun x y =>
        match x, y with
        | some x, some y => gridDtmValue .py N g d.2 (sightLine g x y (dtmAlts (layers g) b.1 b.2))
        | _, _ => .nan with hF
      have hval : ∀ (row col : List (Option K)) out, col.length = row.length → gridDirectDtm .py N g d.2 b.1 b.2 row col = .ok out →
          out = List.zipWith F row col := by
        intro row col out hl ho
        obtain ⟨out', ho', hlen, hget⟩ := C65_pointwise .py N g d.2 b.1 b.2 row col hl
        rw [ho] at ho'
        cases ho'
        apply List.ext_getElem?
        intro i
        by_cases hi : i < row.length
        · have hg := hget i row[i] (col[i]'(by omega)) (List.getElem?_eq_getElem hi) (List.getElem?_eq_getElem (by omega))
          rw [List.getElem?_zipWith, List.getElem?_eq_getElem hi, List.getElem?_eq_getElem (show i < col.length by omega)]
          simp only [hF]
          rcases hx : row[i] with _ | x
          · exact hg.1 (Or.inl hx)
          · rcases hy : (col[i]'(by omega)) with _ | y
            · exact hg.1 (Or.inr hy)
            · exact hg.2 x y hx hy
        · rw [List.getElem?_eq_none (by omega), List.getElem?_eq_none (by rw [List.length_zipWith]; omega)]
      refine dtm_byPoint (hval row col out hl.symm ho) h (fun t ht hdr => ?_)
      obtain ⟨o1, ho1, -, -⟩ := C65_pointwise .py N g d.2 b.1 b.2 [t.1] [t.2] rfl
      have h1 := hval [t.1] [t.2] o1 rfl ho1
      simp only [pointDtm, gridGeo, gridDirectLocDtm, if_neg hd, hr, ho1, h1, List.zipWith_cons_cons, List.zipWith_nil_left, hdr]
  · simp only [gridGeo, gridInverseLoc_all] at h
    by_cases hr : (l.any fun q => gridPointRaises g p rad rtx cosdeg 15 q.x q.y q.z) = true
    · rw [if_pos hr] at h; cases h
    rw [if_neg hr] at h
    simp only [Except.ok.injEq] at h
    rw [← h, List.map_map]
    congr 1
    apply List.map_congr_left
    intro q hq
    have hq' : ¬ gridPointRaises g p rad rtx cosdeg 15 q.x q.y q.z = true := fun hc => hr (List.any_eq_true.2 ⟨q, hq, hc⟩)
    simp only [Function.comp, pointInv, gridGeo, gridInverseLoc_one]
    rw [if_neg hq']
    rfl

/-- C69, limit: the Python RPC does not treat the points of a call one by one, as soon as their altitudes differ. -/
theorem C69_python_rpc_counterexample : ¬ ByPoint (rpcGeo noConv 50 demoRpc 4326) := by
  intro h
  have h1 := h.eachAlt [⟨some 300, some 500, some 100⟩, ⟨some 300, some 500, some 200⟩]
    [⟨some 10, some 20, some 100⟩, ⟨some 10, some 20, some 200⟩] C24_python_altitude_counterexample.1
  have h2 : pointH (rpcGeo noConv 50 demoRpc 4326) (some 300) (some 500) (some 200) = ⟨some 9, some (39 / 2), some 200⟩ := by
    simp only [pointH, rpcGeo, C24_python_altitude_counterexample.2]
  simp only [List.map_cons, List.map_nil, h2] at h1
  have h3 := congrArg (fun l => (l[1]?).map V3.x) h1
  simp only [List.getElem?_cons_succ, List.getElem?_cons_zero, Option.map_some, Option.some.injEq] at h3
  exact absurd h3 (by decide +kernel)

/-- An image of one pixel in the middle of the scene. -/
def centrePixel : LeftImage ℚ := ⟨1, 1, 1, 1, ⟨1, 0, 999 / 2, 0, 1, 599 / 2⟩⟩

/-- The hypotheses of `C69_whenever_returned` are met by two RPCs over a slope. -/
example : stereoRectification toyTrig noConv (rpcOptimGeo noConv 50 demoRpc) (rpcOptimGeo noConv 50 demoRight)
    (UserElevation.dtm 4326 (4326, slopeDtm)).arg centrePixel 3 50 false 0 none =
    .ok ⟨[[pos3 300 500 (2400 / 19), pos3 303 500 (2400 / 19)], [pos3 300 503 (2400 / 19), pos3 303 503 (2400 / 19)]],
      [[pos3 300 (4500 / 19) (2400 / 19), pos3 303 (4520 / 19) (2398 / 19)],
       [pos3 300 (4557 / 19) (2400 / 19), pos3 303 (4577 / 19) (2398 / 19)]], 1, 1, some 10000⟩ := by
  decide +kernel

/-- `toyTrig` with the square roots of the squares. -/
def squareTrig : Trig ℚ := { toyTrig with sqrt := fun x => (Nat.sqrt x.num.toNat : ℚ) / Nat.sqrt x.den }

/-- The hypotheses of `C77_whenever_returned` are met by the same RPCs. -/
example : ∃ res, stereoRectification squareTrig noConv (rpcOptimGeo noConv 50 demoRpc) (rpcOptimGeo noConv 50 demoRight)
    (UserElevation.altitude 150 : UserElevation ℚ (ℕ × Dtm ℚ)).arg centrePixel 3 50 true 0 (some (1, 2)) = .ok res := by
  refine ⟨(match stereoRectification squareTrig noConv (rpcOptimGeo noConv 50 demoRpc) (rpcOptimGeo noConv 50 demoRight)
    (UserElevation.altitude 150 : UserElevation ℚ (ℕ × Dtm ℚ)).arg centrePixel 3 50 true 0 (some (1, 2)) with
    | .ok g => g
    | .error _ => ⟨[], [], 0, 0, none⟩), ?_⟩
  decide +kernel

end Shareloc
