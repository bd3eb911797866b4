import Verif.Model.Rectification

/-!
# C46: the epipolar grid covers the image
-/

set_option linter.unusedSectionVars false

namespace Shareloc
variable {K : Type*} [Field K] [LinearOrder K] [IsStrictOrderedRing K] [FloorRing K]

/-- Width of the left image, in its pixel units (signed). -/
def LeftImage.width (im : LeftImage K) : K := (im.nbCols : K) * im.pixelSizeCol

/-- Height of the left image, in its pixel units (signed). -/
def LeftImage.height (im : LeftImage K) : K := (im.nbRows : K) * im.pixelSizeRow

theorem box4 (p q : K) : min (min (min p q) (p + q)) 0 = min p 0 + min q 0 ∧
    max (max (max p q) (p + q)) 0 = max p 0 + max q 0 := by
  constructor
  · simp only [min_def]; split_ifs <;> linarith
  · simp only [max_def]; split_ifs <;> linarith

theorem box_eq (c s : K) (im : LeftImage K) : epipolarBox c s im =
    ⟨min (c * im.width) 0 + min (s * im.height) 0, min (-s * im.width) 0 + min (c * im.height) 0,
     max (c * im.width) 0 + max (s * im.height) 0, max (-s * im.width) 0 + max (c * im.height) 0⟩ := by
  have h1 := box4 (c * im.width) (s * im.height)
  have h2 := box4 (-s * im.width) (c * im.height)
  unfold epipolarBox LeftImage.width LeftImage.height at *
  simp only [h1.1, h1.2, h2.1, h2.2]

theorem max_sub_min (p : K) : max p 0 - min p 0 = |p| := by
  rcases le_total p 0 with h | h
  · rw [max_eq_right h, min_eq_left h, abs_of_nonpos h]; ring
  · rw [max_eq_left h, min_eq_right h, abs_of_nonneg h]; ring

/-- C46. The size of the bounding box is that of the rotated image. -/
theorem C46_box_size (c s : K) (im : LeftImage K) :
    (epipolarBox c s im).maxx - (epipolarBox c s im).minx = |c| * |im.width| + |s| * |im.height| ∧
    (epipolarBox c s im).maxy - (epipolarBox c s im).miny = |s| * |im.width| + |c| * |im.height| := by
  rw [box_eq]
  constructor
  · have h1 := max_sub_min (c * im.width)
    have h2 := max_sub_min (s * im.height)
    rw [abs_mul] at h1 h2
    linarith
  · have h1 := max_sub_min (-s * im.width)
    have h2 := max_sub_min (c * im.height)
    rw [abs_mul, abs_neg] at h1
    rw [abs_mul] at h2
    linarith

theorem between_scale (p th : K) (h0 : 0 ≤ th) (h1 : th ≤ 1) : min p 0 ≤ th * p ∧ th * p ≤ max p 0 := by
  rcases le_total p 0 with h | h
  · rw [min_eq_left h, max_eq_right h]; constructor <;> nlinarith
  · rw [min_eq_right h, max_eq_left h]; constructor <;> nlinarith

/-- C46. Every point of the image, at the fraction `th` of its width and `ph` of its height from the origin, has its epipolar
coordinates in the bounding box (whatever the signs of the pixel sizes). -/
theorem C46_image_in_box (c s : K) (im : LeftImage K) (th ph : K) (h0 : 0 ≤ th) (h1 : th ≤ 1) (h2 : 0 ≤ ph) (h3 : ph ≤ 1) :
    let w := th * im.width
    let h := ph * im.height
    (epipolarBox c s im).minx ≤ c * w + s * h ∧ c * w + s * h ≤ (epipolarBox c s im).maxx ∧
    (epipolarBox c s im).miny ≤ -s * w + c * h ∧ -s * w + c * h ≤ (epipolarBox c s im).maxy := by
  intro w h
  rw [box_eq]
  have a1 := between_scale (c * im.width) th h0 h1
  have a2 := between_scale (s * im.height) ph h2 h3
  have a3 := between_scale (-s * im.width) th h0 h1
  have a4 := between_scale (c * im.height) ph h2 h3
  have e1 : c * w = th * (c * im.width) := by simp only [w]; ring
  have e2 : s * h = ph * (s * im.height) := by simp only [h]; ring
  have e3 : -s * w = th * (-s * im.width) := by simp only [w]; ring
  have e4 : c * h = ph * (c * im.height) := by simp only [h]; ring
  rw [e1, e2, e3, e4]
  exact ⟨by linarith [a1.1, a2.1], by linarith [a1.2, a2.2], by linarith [a3.1, a4.1], by linarith [a3.2, a4.2]⟩

/-- The image is not rotated and its pixel sizes are those of the geotransform (image.py). -/
def LeftImage.Straight (im : LeftImage K) : Prop :=
  im.transform.b = 0 ∧ im.transform.d = 0 ∧ im.transform.a = im.pixelSizeCol ∧ im.transform.e = im.pixelSizeRow

/-- C46. Every pixel of the image lies in the footprint of the grid: its (row, column) is the image of epipolar coordinates
between those of the first corner (which is the starting point) and those of the opposite one. -/
theorem C46_pixel_in_footprint (c s alt : K) (hcs : c * c + s * s = 1) (im : LeftImage K) (him : im.Straight)
    (epiStep : K) (hstep : 0 ≤ epiStep) (margin : ℤ) (hmg : 0 ≤ margin) (i j : ℕ) (hi : i < im.nbRows) (hj : j < im.nbCols) :
    ∃ x0 y0 x1 y1 x y, let o := indexToPhysical im.transform 0 0
      (prepareRectification c s alt im epiStep margin).start = epiToImage c s o alt x0 y0 ∧
      (prepareRectification c s alt im epiStep margin).footprint =
        [epiToImage c s o alt x0 y0, epiToImage c s o alt x1 y0, epiToImage c s o alt x1 y1, epiToImage c s o alt x0 y1] ∧
      x0 ≤ x ∧ x ≤ x1 ∧ y0 ≤ y ∧ y ≤ y1 ∧
      indexToPhysical im.transform (i : K) (j : K) = ((epiToImage c s o alt x y).x, (epiToImage c s o alt x y).y) := by
  obtain ⟨t1, t2, t3, t4⟩ := him
  have hC : (0 : K) < im.nbCols := by exact_mod_cast (by omega : 0 < im.nbCols)
  have hR : (0 : K) < im.nbRows := by exact_mod_cast (by omega : 0 < im.nbRows)
  have hj' : (j : K) ≤ im.nbCols := by exact_mod_cast hj.le
  have hi' : (i : K) ≤ im.nbRows := by exact_mod_cast hi.le
  have hbox := C46_image_in_box c s im ((j : K) / im.nbCols) ((i : K) / im.nbRows) (by positivity)
    (by rw [div_le_one hC]; exact hj') (by positivity) (by rw [div_le_one hR]; exact hi')
  have ew : (j : K) / im.nbCols * im.width = j * im.pixelSizeCol := by unfold LeftImage.width; field_simp
  have eh : (i : K) / im.nbRows * im.height = i * im.pixelSizeRow := by unfold LeftImage.height; field_simp
  simp only [ew, eh] at hbox
  obtain ⟨b1, b2, b3, b4⟩ := hbox
  have hsp : 0 ≤ meanSpacing im := by unfold meanSpacing; positivity
  have hmg' : (0 : K) ≤ (margin : K) * epiStep * meanSpacing im := by
    have : (0 : K) ≤ margin := by exact_mod_cast hmg
    positivity
  refine ⟨_, _, _, _, c * (j * im.pixelSizeCol) + s * (i * im.pixelSizeRow), -s * (j * im.pixelSizeCol) + c * (i * im.pixelSizeRow),
    rfl, rfl, by linarith, by linarith, by linarith, by linarith, ?_⟩
  simp only [indexToPhysical, Affine.apply, epiToImage, t1, t2, t3, t4, Prod.mk.injEq]
  constructor
  · linear_combination (-(i : K) * im.pixelSizeRow) * hcs
  · linear_combination (-(j : K) * im.pixelSizeCol) * hcs

theorem pyInt_floor {x : K} (h : 0 ≤ x) : pyInt x = ⌊x⌋ := by simp [pyInt, h]

/-- The number of nodes needed: the nodes of a grid of `n` elements and step `st` span `(n - 1) st`. -/
theorem grid_span (size : ℤ) (hs : 0 ≤ size) (st : K) (hst : 0 < st) :
    let n := pyInt ((size : K) / st + 2)
    2 ≤ n ∧ (size : K) < ((n : K) - 1) * st ∧ ((n : K) - 2) * st ≤ size := by
  have hs' : (0 : K) ≤ size := by exact_mod_cast hs
  have hq : 0 ≤ (size : K) / st := by positivity
  intro n
  have hn : n = ⌊(size : K) / st⌋ + 2 := by
    simp only [n]
    rw [pyInt_floor (by linarith), show (2 : K) = ((2 : ℤ) : K) by norm_num, Int.floor_add_intCast]
  have hf : 0 ≤ ⌊(size : K) / st⌋ := Int.floor_nonneg.2 hq
  have l1 := Int.floor_le ((size : K) / st)
  have l2 := Int.lt_floor_add_one ((size : K) / st)
  rw [hn]
  refine ⟨by omega, ?_, ?_⟩
  · push_cast
    rw [div_lt_iff₀ hst] at l2
    linarith
  · push_cast
    rw [le_div_iff₀ hst] at l1
    linarith

/-- C46. Size of the epipolar image: the integer part of the size of the bounding box over the spacing. The nodes of the
grid, margins excluded, span more than the size of the epipolar image and less than two steps more. -/
theorem C46_grid_covers_epipolar_image (c s alt : K) (im : LeftImage K) (epiStep : K) (hstep : 0 < epiStep) (margin : ℤ) :
    let p := prepareRectification c s alt im epiStep margin
    let b := epipolarBox c s im
    let sp := meanSpacing im
    p.imageRows = ⌊(b.maxy - b.miny) / sp⌋ ∧ p.imageCols = ⌊(b.maxx - b.minx) / sp⌋ ∧
    2 ≤ p.gridRows - 2 * margin ∧ 2 ≤ p.gridCols - 2 * margin ∧
    (p.imageRows : K) < ((p.gridRows : K) - 1 - 2 * margin) * epiStep ∧
    (p.imageCols : K) < ((p.gridCols : K) - 1 - 2 * margin) * epiStep ∧
    ((p.gridRows : K) - 2 - 2 * margin) * epiStep ≤ p.imageRows ∧ ((p.gridCols : K) - 2 - 2 * margin) * epiStep ≤ p.imageCols := by
  intro p b sp
  have hsp : 0 ≤ sp := by simp only [sp]; unfold meanSpacing; positivity
  have hx : 0 ≤ (b.maxx - b.minx) / sp := by
    apply div_nonneg _ hsp
    rw [(C46_box_size c s im).1]; positivity
  have hy : 0 ≤ (b.maxy - b.miny) / sp := by
    apply div_nonneg _ hsp
    rw [(C46_box_size c s im).2]; positivity
  have e1 : p.imageRows = ⌊(b.maxy - b.miny) / sp⌋ := pyInt_floor hy
  have e2 : p.imageCols = ⌊(b.maxx - b.minx) / sp⌋ := pyInt_floor hx
  obtain ⟨g1, g2, g3⟩ := grid_span p.imageRows (by rw [e1]; exact Int.floor_nonneg.2 hy) epiStep hstep
  obtain ⟨f1, f2, f3⟩ := grid_span p.imageCols (by rw [e2]; exact Int.floor_nonneg.2 hx) epiStep hstep
  have r1 : p.gridRows = pyInt ((p.imageRows : K) / epiStep + 2) + 2 * margin := rfl
  have r2 : p.gridCols = pyInt ((p.imageCols : K) / epiStep + 2) + 2 * margin := rfl
  refine ⟨e1, e2, by rw [r1]; omega, by rw [r2]; omega, ?_, ?_, ?_, ?_⟩
  · rw [r1]; push_cast; linarith [g2]
  · rw [r2]; push_cast; linarith [f2]
  · rw [r1]; push_cast; linarith [g3]
  · rw [r2]; push_cast; linarith [f3]

/-- C46. When the epipolar step is a whole number of pixels, the nodes of the grid (margins excluded) span the whole bounding
box of the image, not only its integer part: the last node is beyond the last corner. -/
theorem C46_grid_covers_box (c s alt : K) (im : LeftImage K) (hsp : 0 < meanSpacing im) (k : ℕ) (hk : 0 < k) (margin : ℤ) :
    let p := prepareRectification c s alt im (k : K) margin
    let b := epipolarBox c s im
    b.maxy - b.miny < ((p.gridRows : K) - 1 - 2 * margin) * (k * meanSpacing im) ∧
    b.maxx - b.minx < ((p.gridCols : K) - 1 - 2 * margin) * (k * meanSpacing im) := by
  intro p b
  have hk' : (0 : K) < k := by exact_mod_cast hk
  obtain ⟨e1, e2, -, -, c1, c2, -, -⟩ := C46_grid_covers_epipolar_image c s alt im (k : K) hk' margin
  change p.imageRows = _ at e1
  change p.imageCols = _ at e2
  change (p.imageRows : K) < ((p.gridRows : K) - 1 - 2 * margin) * k at c1
  change (p.imageCols : K) < ((p.gridCols : K) - 1 - 2 * margin) * k at c2
  have d1 : (p.imageRows : K) + 1 ≤ ((p.gridRows : K) - 1 - 2 * margin) * k := by
    have h : (p.imageRows : K) < (((p.gridRows - 1 - 2 * margin) * k : ℤ) : K) := by push_cast; exact c1
    have h' : p.imageRows + 1 ≤ (p.gridRows - 1 - 2 * margin) * k := by
      have := Int.cast_lt.1 h; omega
    have : ((p.imageRows + 1 : ℤ) : K) ≤ (((p.gridRows - 1 - 2 * margin) * k : ℤ) : K) := Int.cast_le.2 h'
    push_cast at this; exact this
  have d2 : (p.imageCols : K) + 1 ≤ ((p.gridCols : K) - 1 - 2 * margin) * k := by
    have h : (p.imageCols : K) < (((p.gridCols - 1 - 2 * margin) * k : ℤ) : K) := by push_cast; exact c2
    have h' : p.imageCols + 1 ≤ (p.gridCols - 1 - 2 * margin) * k := by
      have := Int.cast_lt.1 h; omega
    have : ((p.imageCols + 1 : ℤ) : K) ≤ (((p.gridCols - 1 - 2 * margin) * k : ℤ) : K) := Int.cast_le.2 h'
    push_cast at this; exact this
  have l1 := Int.lt_floor_add_one ((b.maxy - b.miny) / meanSpacing im)
  have l2 := Int.lt_floor_add_one ((b.maxx - b.minx) / meanSpacing im)
  have m1 : (b.maxy - b.miny) / meanSpacing im < ((p.gridRows : K) - 1 - 2 * margin) * k := by
    rw [e1] at d1; exact lt_of_lt_of_le l1 d1
  have m2 : (b.maxx - b.minx) / meanSpacing im < ((p.gridCols : K) - 1 - 2 * margin) * k := by
    rw [e2] at d2; exact lt_of_lt_of_le l2 d2
  rw [div_lt_iff₀ hsp] at m1 m2
  constructor <;> linarith

/-- A 100 × 200 image of pixel size 1 (rows downwards). -/
def toyImage : LeftImage ℚ := ⟨100, 200, 1, 1, ⟨1, 0, 0, 0, 1, 0⟩⟩

example : toyImage.Straight := by unfold LeftImage.Straight; decide +kernel

/-- The hypotheses of the theorems of C46 are met: angle of cosine 4/5 and sine 3/5, step 30, margin 1. -/
example : let p := prepareRectification (4 / 5 : ℚ) (3 / 5) 0 toyImage 30 1
    (p.gridRows, p.gridCols, p.imageRows, p.imageCols, p.start) = (10, 11, 200, 220, ⟨-275 / 2, 133 / 2, 0⟩) := by
  decide +kernel

/-- C46 needs a whole step: with step 1/2 a box of height 109/10 is only covered up to 21/2. -/
theorem C46_fractional_step_counterexample :
    let im : LeftImage ℚ := ⟨109, 10, 1 / 10, 19 / 10, ⟨19 / 10, 0, 0, 0, 1 / 10, 0⟩⟩
    let p := prepareRectification 1 0 0 im (1 / 2) 0
    let b := epipolarBox 1 0 im
    meanSpacing im = 1 ∧ b.maxy - b.miny = 109 / 10 ∧ ((p.gridRows : ℚ) - 1) * (1 / 2 * meanSpacing im) = 21 / 2 := by
  decide +kernel

/-! ### Extent -/

theorem foldl_minOf_le {β : Type*} (f : β → K) (l : List β) (a : K) :
    l.foldl (fun a q => min a (f q)) a ≤ a ∧ (∀ q ∈ l, l.foldl (fun a q => min a (f q)) a ≤ f q) ∧
    (l.foldl (fun a q => min a (f q)) a = a ∨ ∃ q ∈ l, l.foldl (fun a q => min a (f q)) a = f q) := by
  induction l generalizing a with
  | nil => simp
  | cons x xs ih =>
    obtain ⟨i1, i2, i3⟩ := ih (min a (f x))
    simp only [List.foldl_cons]
    refine ⟨i1.trans (min_le_left _ _), fun q hq => ?_, ?_⟩
    · rcases List.mem_cons.1 hq with rfl | hq
      · exact i1.trans (min_le_right _ _)
      · exact i2 q hq
    · rcases i3 with h | ⟨q, hq, h⟩
      · rcases min_choice a (f x) with h' | h'
        · left; rw [h, h']
        · right; exact ⟨x, by simp, by rw [h, h']⟩
      · right; exact ⟨q, by simp [hq], h⟩

theorem foldl_maxOf_ge {β : Type*} (f : β → K) (l : List β) (a : K) :
    a ≤ l.foldl (fun a q => max a (f q)) a ∧ (∀ q ∈ l, f q ≤ l.foldl (fun a q => max a (f q)) a) ∧
    (l.foldl (fun a q => max a (f q)) a = a ∨ ∃ q ∈ l, l.foldl (fun a q => max a (f q)) a = f q) := by
  induction l generalizing a with
  | nil => simp
  | cons x xs ih =>
    obtain ⟨i1, i2, i3⟩ := ih (max a (f x))
    simp only [List.foldl_cons]
    refine ⟨(le_max_left _ _).trans i1, fun q hq => ?_, ?_⟩
    · rcases List.mem_cons.1 hq with rfl | hq
      · exact (le_max_right _ _).trans i1
      · exact i2 q hq
    · rcases i3 with h | ⟨q, hq, h⟩
      · rcases max_choice a (f x) with h' | h'
        · left; rw [h, h']
        · right; exact ⟨x, by simp, by rw [h, h']⟩
      · right; exact ⟨q, by simp [hq], h⟩

/-- C46. The epipolar extent, returned as (lat min, lon min, lat max, lon max) (the documentation says longitude first), is
the smallest box containing the ground positions (lon, lat) of the four corners, enlarged by the margin. -/
theorem C46_extent (ground : List (K × K)) (mg latMin lonMin latMax lonMax : K)
    (h : epipolarExtent ground mg = some (latMin, lonMin, latMax, lonMax)) :
    (∀ p ∈ ground, lonMin + mg ≤ p.1 ∧ p.1 ≤ lonMax - mg ∧ latMin + mg ≤ p.2 ∧ p.2 ≤ latMax - mg) ∧
    (∃ p ∈ ground, p.1 = lonMin + mg) ∧ (∃ p ∈ ground, p.1 = lonMax - mg) ∧
    (∃ p ∈ ground, p.2 = latMin + mg) ∧ (∃ p ∈ ground, p.2 = latMax - mg) := by
  cases ground with
  | nil => simp [epipolarExtent] at h
  | cons p ps =>
    simp only [epipolarExtent, Option.some.injEq, Prod.mk.injEq] at h
    obtain ⟨rfl, rfl, rfl, rfl⟩ := h
    obtain ⟨a1, a2, a3⟩ := foldl_minOf_le (fun q : K × K => q.1) ps p.1
    obtain ⟨b1, b2, b3⟩ := foldl_maxOf_ge (fun q : K × K => q.1) ps p.1
    obtain ⟨c1, c2, c3⟩ := foldl_minOf_le (fun q : K × K => q.2) ps p.2
    obtain ⟨d1, d2, d3⟩ := foldl_maxOf_ge (fun q : K × K => q.2) ps p.2
    simp only [sub_add_cancel, add_sub_cancel_right]
    refine ⟨fun q hq => ?_, ?_, ?_, ?_, ?_⟩
    · rcases List.mem_cons.1 hq with rfl | hq
      · exact ⟨a1, b1, c1, d1⟩
      · exact ⟨a2 q hq, b2 q hq, c2 q hq, d2 q hq⟩
    · rcases a3 with h | ⟨q, hq, h⟩
      · exact ⟨p, by simp, h.symm⟩
      · exact ⟨q, by simp [hq], h.symm⟩
    · rcases b3 with h | ⟨q, hq, h⟩
      · exact ⟨p, by simp, h.symm⟩
      · exact ⟨q, by simp [hq], h.symm⟩
    · rcases c3 with h | ⟨q, hq, h⟩
      · exact ⟨p, by simp, h.symm⟩
      · exact ⟨q, by simp [hq], h.symm⟩
    · rcases d3 with h | ⟨q, hq, h⟩
      · exact ⟨p, by simp, h.symm⟩
      · exact ⟨q, by simp [hq], h.symm⟩

example : epipolarExtent [((1 : ℚ), 5), (3, 4), (2, 7)] (1 / 2) = some (7 / 2, 1 / 2, 15 / 2, 7 / 2) := by decide +kernel

end Shareloc
