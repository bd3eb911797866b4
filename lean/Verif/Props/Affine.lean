import Verif.Model.Affine

/-! Properties C01 to C05: index/physical conversions and image windows. -/

set_option linter.unusedSectionVars false

namespace Shareloc
variable {K : Type*} [Field K]

/-- Specification of a georeferenced pixel: the ground `(x, y)` of the *centre* of pixel
`(row, col)`, half a pixel being added once to each index. -/
def SpecPixelCentre (t : Affine K) (row col x y : K) : Prop :=
  x = t.a * (col + 1 / 2) + t.b * (row + 1 / 2) + t.c ∧
  y = t.d * (col + 1 / 2) + t.e * (row + 1 / 2) + t.f

/-- C01 (convention): the physical point returned is the pixel centre. -/
theorem C01_index_to_physical_is_pixel_centre (t : Affine K) (row col : K) :
    SpecPixelCentre t row col (indexToPhysical t row col).2 (indexToPhysical t row col).1 := by
  constructor <;> simp only [indexToPhysical, Affine.apply] <;> ring

/-- C01: index → physical → index is the identity for every invertible geotransform. -/
theorem C01_index_physical_index (t : Affine K) (h : t.a * t.e - t.b * t.d ≠ 0) (row col : K) :
    physicalToIndex t.inv (indexToPhysical t row col).1 (indexToPhysical t row col).2 = (row, col) := by
  simp only [physicalToIndex, indexToPhysical, Affine.apply, Affine.inv, Affine.det, Prod.mk.injEq]
  constructor <;> field_simp <;> ring

/-- C01: physical → index → physical is the identity for every invertible geotransform. -/
theorem C01_physical_index_physical (t : Affine K) (h : t.a * t.e - t.b * t.d ≠ 0) (y x : K) :
    indexToPhysical t (physicalToIndex t.inv y x).1 (physicalToIndex t.inv y x).2 = (y, x) := by
  simp only [physicalToIndex, indexToPhysical, Affine.apply, Affine.inv, Affine.det, Prod.mk.injEq]
  have hk : (t.a * t.e - t.b * t.d) * (1 / (t.a * t.e - t.b * t.d)) = 1 := mul_one_div_cancel h
  generalize 1 / (t.a * t.e - t.b * t.d) = k at hk
  constructor
  · linear_combination (y - t.f) * hk
  · linear_combination (x - t.c) * hk

/-- A rotated geotransform with negative row step meets the hypothesis. -/
example : (⟨2, 1, 100, 1/2, -3, 50⟩ : Affine ℚ).a * (⟨2, 1, 100, 1/2, -3, 50⟩ : Affine ℚ).e
    - (⟨2, 1, 100, 1/2, -3, 50⟩ : Affine ℚ).b * (⟨2, 1, 100, 1/2, -3, 50⟩ : Affine ℚ).d ≠ 0 := by
  norm_num

/-- C02: Python `index_to_ter` undoes `ter_to_index`. -/
theorem C02_py_index_to_ter_ter_to_index (t : Affine K) (h : t.a * t.e - t.b * t.d ≠ 0) (v : V3 K) :
    indexToTerPy t (terToIndexPy t v) = v := by
  have := C01_physical_index_physical t h v.y v.x
  simp only [indexToTerPy, terToIndexPy, this]

/-- C02: Python `ter_to_index` undoes `index_to_ter`. -/
theorem C02_py_ter_to_index_index_to_ter (t : Affine K) (h : t.a * t.e - t.b * t.d ≠ 0) (v : V3 K) :
    terToIndexPy t (indexToTerPy t v) = v := by
  have := C01_index_physical_index t h v.x v.y
  simp only [indexToTerPy, terToIndexPy, this]

/-- C02: the altitude is left unchanged. -/
theorem C02_alt_unchanged (t : Affine K) (v : V3 K) :
    (terToIndexPy t v).z = v.z ∧ (indexToTerPy t v).z = v.z := ⟨rfl, rfl⟩

/-- C02: the DTM ground point of an index is its pixel centre, x before y. -/
theorem C02_index_to_ter_is_pixel_centre (t : Affine K) (v : V3 K) :
    SpecPixelCentre t v.x v.y (indexToTerPy t v).x (indexToTerPy t v).y :=
  C01_index_to_physical_is_pixel_centre t v.x v.y

/-- C02: both implementations of `ter_to_index` agree on every input (no hypothesis needed). -/
theorem C02_cpp_ter_to_index (t : Affine K) (v : V3 K) :
    terToIndexCpp t.toGdal v = terToIndexPy t v := by
  simp only [terToIndexCpp, terToIndexPy, physicalToIndex, Affine.apply, Affine.inv, Affine.det,
    GdalTransform.inv, Affine.toGdal]

/-- C02: both implementations of `index_to_ter` agree on every input. -/
theorem C02_cpp_index_to_ter (t : Affine K) (v : V3 K) :
    indexToTerCpp t.toGdal v = indexToTerPy t v := by
  simp only [indexToTerCpp, indexToTerPy, indexToPhysical, Affine.apply, Affine.toGdal]

/-- C02: the C++ conversions are mutual inverses as well. -/
theorem C02_cpp_round_trips (t : Affine K) (h : t.a * t.e - t.b * t.d ≠ 0) (v : V3 K) :
    indexToTerCpp t.toGdal (terToIndexCpp t.toGdal v) = v ∧
    terToIndexCpp t.toGdal (indexToTerCpp t.toGdal v) = v := by
  rw [C02_cpp_ter_to_index, C02_cpp_index_to_ter, C02_cpp_index_to_ter, C02_cpp_ter_to_index]
  exact ⟨C02_py_index_to_ter_ter_to_index t h v, C02_py_ter_to_index_index_to_ter t h v⟩

/-- C02: the batch version converts each point on its own, in order. -/
theorem C02_batch_pointwise (t : Affine K) (vs : List (V3 K)) :
    (tersToIndexsPy t vs).length = vs.length ∧
    ∀ i (hi : i < vs.length), (tersToIndexsPy t vs)[i]? = some (terToIndexPy t vs[i]) := by
  constructor
  · simp [tersToIndexsPy]
  · intro i hi
    simp [tersToIndexsPy, hi]

example : terToIndexPy (⟨2, 1, 100, 1/2, -3, 50⟩ : Affine ℚ)
    (indexToTerPy (⟨2, 1, 100, 1/2, -3, 50⟩ : Affine ℚ) ⟨3, 4, 12⟩) = ⟨3, 4, 12⟩ := by decide +kernel

section Ordered
variable [LinearOrder K] [IsStrictOrderedRing K] [FloorRing K]

theorem pyInt_natural {x : K} (h : 0 ≤ x) : (pyInt x : K) ≤ x ∧ x < pyInt x + 1 := by
  simp only [pyInt, if_pos h]
  exact ⟨Int.floor_le x, Int.lt_floor_add_one x⟩

theorem pyInt_neg_ge {x : K} (h : x < 0) : x ≤ (pyInt x : K) ∧ pyInt x ≤ 0 := by
  simp only [pyInt, if_neg (not_le.mpr h)]
  refine ⟨Int.le_ceil x, ?_⟩
  exact_mod_cast Int.ceil_le.mpr (by simpa using h.le)

theorem pyInt_intCast (n : ℤ) : pyInt (n : K) = n := by
  unfold pyInt
  split <;> simp

/-- Interval specification: `p` is in `[lo, hi]`. -/
def Between (lo hi p : K) : Prop := lo ≤ p ∧ p ≤ hi

theorem mkWindow_ok {dsH dsW : ℤ} {co ro wi he : K} {w : Window K}
    (h : mkWindow dsH dsW co ro wi he = .ok w) :
    w.colOff = co ∧ w.rowOff = ro ∧ w.width = pyInt (min wi ((dsW : K) - co)) ∧
    w.height = pyInt (min he ((dsH : K) - ro)) ∧ 0 ≤ w.width ∧ 0 ≤ w.height := by
  simp only [mkWindow] at h
  split at h
  · exact absurd h (by simp)
  · rename_i hn
    rw [not_or, not_lt, not_lt] at hn
    injection h with h
    subst h
    exact ⟨rfl, rfl, rfl, rfl, hn.1, hn.2⟩

/-- Truncation leaves the result below the bound when the truncated value is positive or zero and
the bound is nonnegative. -/
theorem pyInt_le_of_nonneg {x b : K} (hx : x ≤ b) (hb : 0 ≤ b) : (pyInt x : K) ≤ b := by
  by_cases h : 0 ≤ x
  · exact (pyInt_natural h).1.trans hx
  · have := (pyInt_neg_ge (not_le.mp h)).2
    have h2 : ((pyInt x : ℤ) : K) ≤ 0 := by exact_mod_cast this
    exact h2.trans hb

/-- C03: for every dataset and every index ROI (integer or fractional, possibly outside), a window
that is returned lies inside the dataset and has non-negative sizes. -/
theorem C03_window_inside_dataset (dsH dsW : ℤ) (hH : 0 ≤ dsH) (hW : 0 ≤ dsW) (roi : Roi K)
    (w : Window K) (h : windowOfIndexRoi dsH dsW roi = .ok w) :
    0 ≤ w.colOff ∧ w.colOff + w.width ≤ dsW ∧ 0 ≤ w.rowOff ∧ w.rowOff + w.height ≤ dsH ∧
    0 ≤ w.width ∧ 0 ≤ w.height := by
  obtain ⟨h1, h2, h3, h4, h5, h6⟩ := mkWindow_ok h
  have hH' : (0 : K) ≤ dsH := by exact_mod_cast hH
  have hW' : (0 : K) ≤ dsW := by exact_mod_cast hW
  have a1 : 0 ≤ w.colOff := by rw [h1]; exact le_min (le_max_right _ _) hW'
  have a2 : 0 ≤ w.rowOff := by rw [h2]; exact le_min (le_max_right _ _) hH'
  have b1 : w.colOff ≤ dsW := by rw [h1]; exact min_le_right _ _
  have b2 : w.rowOff ≤ dsH := by rw [h2]; exact min_le_right _ _
  refine ⟨a1, ?_, a2, ?_, h5, h6⟩
  · have := pyInt_le_of_nonneg (x := min (roi.c1 - w.colOff) ((dsW : K) - w.colOff))
      (min_le_right _ _) (sub_nonneg.mpr b1)
    rw [← h1] at h3
    rw [h3]; linarith
  · have := pyInt_le_of_nonneg (x := min (roi.r1 - w.rowOff) ((dsH : K) - w.rowOff))
      (min_le_right _ _) (sub_nonneg.mpr b2)
    rw [← h2] at h4
    rw [h4]; linarith

/-- Pixel `(r, c)` belongs to the requested integer ROI (half-open, `[row_min,col_min,row_max,col_max]`). -/
def InRoi (roi : Roi ℤ) (r c : ℤ) : Prop := roi.r0 ≤ r ∧ r < roi.r1 ∧ roi.c0 ≤ c ∧ c < roi.c1

/-- Pixel `(r, c)` is a pixel of the dataset. -/
def InDataset (dsH dsW r c : ℤ) : Prop := 0 ≤ r ∧ r < dsH ∧ 0 ≤ c ∧ c < dsW

/-- Pixel `(r, c)` is read by the window. -/
def InWindow (w : Window K) (r c : ℤ) : Prop :=
  w.rowOff ≤ r ∧ (r : K) < w.rowOff + w.height ∧ w.colOff ≤ c ∧ (c : K) < w.colOff + w.width

/-- The integer ROI seen as an ROI of numbers. -/
def Roi.cast (roi : Roi ℤ) : Roi K := ⟨roi.r0, roi.c0, roi.r1, roi.c1⟩

theorem windowOfIndexRoi_int (dsH dsW : ℤ) (roi : Roi ℤ) :
    windowOfIndexRoi dsH dsW (roi.cast : Roi K) =
      (let ro := min (max roi.r0 0) dsH
       let co := min (max roi.c0 0) dsW
       let wi := min (roi.c1 - co) (dsW - co)
       let he := min (roi.r1 - ro) (dsH - ro)
       if wi < 0 ∨ he < 0 then .error .negativeWindow
       else .ok ⟨(co : K), (ro : K), wi, he⟩) := by
  have e1 : min (max ((roi.r0 : ℤ) : K) 0) (dsH : K) = ((min (max roi.r0 0) dsH : ℤ) : K) := by
    push_cast; rfl
  have e2 : min (max ((roi.c0 : ℤ) : K) 0) (dsW : K) = ((min (max roi.c0 0) dsW : ℤ) : K) := by
    push_cast; rfl
  simp only [windowOfIndexRoi, mkWindow, Roi.cast, e1, e2]
  have e3 : min ((roi.c1 : K) - ((min (max roi.c0 0) dsW : ℤ) : K))
      ((dsW : K) - ((min (max roi.c0 0) dsW : ℤ) : K)) =
      ((min (roi.c1 - min (max roi.c0 0) dsW) (dsW - min (max roi.c0 0) dsW) : ℤ) : K) := by
    push_cast; rfl
  have e4 : min ((roi.r1 : K) - ((min (max roi.r0 0) dsH : ℤ) : K))
      ((dsH : K) - ((min (max roi.r0 0) dsH : ℤ) : K)) =
      ((min (roi.r1 - min (max roi.r0 0) dsH) (dsH - min (max roi.r0 0) dsH) : ℤ) : K) := by
    push_cast; rfl
  simp only [e3, e4, pyInt_intCast]

/-- C03: for an integer ROI, the pixels read are exactly the pixels of the ROI that exist in the
dataset. -/
theorem C03_window_is_roi_inter_dataset (dsH dsW : ℤ) (roi : Roi ℤ)
    (w : Window K) (h : windowOfIndexRoi dsH dsW (roi.cast : Roi K) = .ok w) (r c : ℤ) :
    InWindow w r c ↔ InRoi roi r c ∧ InDataset dsH dsW r c := by
  rw [windowOfIndexRoi_int] at h
  dsimp only at h
  split at h
  · exact absurd h (by simp)
  · rename_i hn
    injection h with h
    subst h
    simp only [InWindow, InRoi, InDataset]
    norm_cast
    omega

/-- C03: an integer ROI is refused exactly when its far corner is before the (clamped) near corner:
then the ROI contains no pixel of the dataset. -/
theorem C03_error_only_if_empty (dsH dsW : ℤ) (hW : 0 ≤ dsW) (roi : Roi ℤ) :
    (windowOfIndexRoi dsH dsW (roi.cast : Roi K) = .error .negativeWindow ↔
      roi.r1 < min (max roi.r0 0) dsH ∨ roi.c1 < min (max roi.c0 0) dsW) ∧
    (windowOfIndexRoi dsH dsW (roi.cast : Roi K) = .error .negativeWindow →
      ∀ r c, ¬ (InRoi roi r c ∧ InDataset dsH dsW r c)) := by
  rw [windowOfIndexRoi_int]
  dsimp only
  constructor
  · split
    · simp; omega
    · simp; omega
  · intro h r c
    split at h
    · simp only [InRoi, InDataset]; omega
    · exact absurd h (by simp)

/-- C03: the pixel `(i, j)` of the opened image has the ground position of dataset pixel
`(i + row_off, j + col_off)`. -/
theorem C03_window_georeferencing (t : Affine K) (w : Window K) (i j : K) :
    indexToPhysical (windowTransform t w) i j = indexToPhysical t (i + w.rowOff) (j + w.colOff) := by
  simp only [indexToPhysical, windowTransform, Affine.apply, Prod.mk.injEq]
  constructor <;> ring

/-- C03: the whole constructor: image size and transform are those of the window. -/
theorem C03_open_image (dsH dsW : ℤ) (t : Affine K) (roi : Roi K) (g : ImageGeo K)
    (h : openImage dsH dsW t (some roi) false .auto = .ok g) :
    ∃ w, windowOfIndexRoi dsH dsW roi = .ok w ∧ g.nbRows = w.height ∧ g.nbCols = w.width ∧
      ∀ i j, indexToPhysical g.transform i j = indexToPhysical t (i + w.rowOff) (j + w.colOff) := by
  simp only [openImage, Bool.false_eq_true, if_false] at h
  split at h
  · exact absurd h (by simp)
  · rename_i w hw
    injection h with h
    subst h
    exact ⟨w, hw, rfl, rfl, fun i j => C03_window_georeferencing t w i j⟩

/-- A ROI overlapping the bottom right corner of a 10x8 dataset; one fully outside is refused. -/
example : windowOfIndexRoi 10 8 (⟨7, -2, 15, 5⟩ : Roi ℚ) = .ok ⟨0, 7, 5, 3⟩ := by decide +kernel
example : windowOfIndexRoi 10 8 (⟨-5, 0, -2, 4⟩ : Roi ℚ) = .error .negativeWindow := by decide +kernel

/-- A physical point `(x, y)` at corner-based index coordinates `(u, v)` of an axis-aligned transform. -/
def AtCornerIndex (t : Affine K) (x y v u : K) : Prop := x = t.a * u + t.c ∧ y = t.e * v + t.f

theorem physicalToIndex_axis (t : Affine K) (hb : t.b = 0) (hd : t.d = 0) (ha : t.a ≠ 0)
    (he : t.e ≠ 0) (y x : K) :
    (physicalToIndex t.inv y x).1 + 1 / 2 = (y - t.f) / t.e ∧
    (physicalToIndex t.inv y x).2 + 1 / 2 = (x - t.c) / t.a := by
  simp only [physicalToIndex, Affine.apply, Affine.inv, Affine.det, hb, hd]
  constructor <;> field_simp <;> ring

/-- Clamped one-dimensional window `[max (floor lo) 0, ...)` used in both directions. -/
theorem window_1d {lo hi : K} {n : ℤ} (off : K)
    (hoff : off = max ((⌊lo⌋ : ℤ) : K) 0)
    (len : ℤ) (hlen : len = pyInt (min ((⌈hi - off⌉ : ℤ) : K) ((n : K) - off))) :
    (∀ u, lo ≤ u → u ≤ hi → 0 ≤ u → u ≤ n → off ≤ u ∧ u ≤ off + len) ∧
    0 ≤ off ∧ off + len ≤ n ∧ off + len < hi + 1 ∧ (off = 0 ∨ lo < off + 1) := by
  obtain ⟨k, hk, hk0⟩ : ∃ k : ℤ, off = (k : K) ∧ 0 ≤ k := by
    refine ⟨max ⌊lo⌋ 0, ?_, le_max_right _ _⟩
    rw [hoff]; push_cast; rfl
  have hmin : min ((⌈hi - off⌉ : ℤ) : K) ((n : K) - off) = ((min ⌈hi - off⌉ (n - k) : ℤ) : K) := by
    rw [hk]; push_cast; rfl
  rw [hmin, pyInt_intCast] at hlen
  have hkl : k + len ≤ n := by have := min_le_right ⌈hi - off⌉ (n - k); omega
  have hc := Int.ceil_lt_add_one (hi - off)
  have hc2 := Int.le_ceil (hi - off)
  have h3 : (len : K) ≤ (⌈hi - off⌉ : ℤ) := by
    have : len ≤ ⌈hi - off⌉ := by rw [hlen]; exact min_le_left _ _
    exact_mod_cast this
  have hfl : off = 0 ∨ lo < off + 1 := by
    rcases max_choice ((⌊lo⌋ : ℤ) : K) 0 with hm | hm
    · right
      rw [hoff, hm]
      exact Int.lt_floor_add_one lo
    · left
      rw [hoff, hm]
  refine ⟨?_, ?_, ?_, by linarith, hfl⟩
  · intro u h1 h2 h3 h4
    constructor
    · rw [hoff]
      exact max_le ((Int.floor_le lo).trans h1) h3
    · rcases le_total ⌈hi - off⌉ (n - k) with hle | hle
      · rw [min_eq_left hle] at hlen
        rw [hlen]; linarith
      · rw [min_eq_right hle] at hlen
        rw [hlen, hk]; push_cast; linarith
  · rw [hk]; exact_mod_cast hk0
  · rw [hk]; exact_mod_cast hkl

/-- C04: for an axis-aligned transform with positive column step and a non-zero row step of either
sign, every physical point of the requested box that is on the dataset is inside the window that is
opened, and the window is inside the dataset. -/
theorem C04_physical_roi_covers (dsH dsW : ℤ) (t : Affine K)
    (hb : t.b = 0) (hd : t.d = 0) (ha : 0 < t.a) (he : t.e ≠ 0) (roi : Roi K) (w : Window K)
    (h : windowOfPhysicalRoi dsH dsW t roi = .ok w) :
    (∀ x y u v, AtCornerIndex t x y v u → roi.c0 ≤ x → x ≤ roi.c1 → roi.r0 ≤ y → y ≤ roi.r1 →
      0 ≤ u → u ≤ dsW → 0 ≤ v → v ≤ dsH →
      w.colOff ≤ u ∧ u ≤ w.colOff + w.width ∧ w.rowOff ≤ v ∧ v ≤ w.rowOff + w.height) ∧
    (0 ≤ w.colOff ∧ w.colOff + w.width ≤ dsW ∧ 0 ≤ w.rowOff ∧ w.rowOff + w.height ≤ dsH) := by
  obtain ⟨h1, h2, h3, h4, h5, h6⟩ := mkWindow_ok h
  obtain ⟨p01, p02⟩ := physicalToIndex_axis t hb hd ha.ne' he roi.r0 roi.c0
  obtain ⟨p11, p12⟩ := physicalToIndex_axis t hb hd ha.ne' he roi.r1 roi.c1
  rw [p02] at h1 h3
  rw [p12] at h3
  rw [p01, p11] at h2 h4
  have hcol := window_1d w.colOff h1 w.width (by rw [h3, ← h1])
  have hrow := window_1d (lo := if (roi.r0 - t.f) / t.e > (roi.r1 - t.f) / t.e then
      (roi.r1 - t.f) / t.e else (roi.r0 - t.f) / t.e) (hi := if (roi.r0 - t.f) / t.e >
      (roi.r1 - t.f) / t.e then (roi.r0 - t.f) / t.e else (roi.r1 - t.f) / t.e)
      w.rowOff h2 w.height (by rw [h4, ← h2])
  refine ⟨?_, ⟨hcol.2.1, hcol.2.2.1, hrow.2.1, hrow.2.2.1⟩⟩
  · rintro x y u v ⟨hx, hy⟩ x0 x1 y0 y1 u0 u1 v0 v1
    have hu : u = (x - t.c) / t.a := by rw [hx]; field_simp; ring
    have hv : v = (y - t.f) / t.e := by rw [hy]; field_simp; ring
    have c1 : (roi.c0 - t.c) / t.a ≤ u := by rw [hu]; gcongr
    have c2 : u ≤ (roi.c1 - t.c) / t.a := by rw [hu]; gcongr
    obtain ⟨q1, q2⟩ := hcol.1 u c1 c2 u0 u1
    have hvv : (if (roi.r0 - t.f) / t.e > (roi.r1 - t.f) / t.e then (roi.r1 - t.f) / t.e
        else (roi.r0 - t.f) / t.e) ≤ v ∧ v ≤ (if (roi.r0 - t.f) / t.e > (roi.r1 - t.f) / t.e then
        (roi.r0 - t.f) / t.e else (roi.r1 - t.f) / t.e) := by
      rcases lt_or_gt_of_ne he with hneg | hpos
      · have e1 : (roi.r1 - t.f) / t.e ≤ v := by
          rw [hv]; exact div_le_div_of_nonpos_of_le hneg.le (by linarith)
        have e2 : v ≤ (roi.r0 - t.f) / t.e := by
          rw [hv]; exact div_le_div_of_nonpos_of_le hneg.le (by linarith)
        split
        · exact ⟨e1, e2⟩
        · rename_i hc
          have := not_lt.mp hc
          exact ⟨by linarith, by linarith⟩
      · have e1 : (roi.r0 - t.f) / t.e ≤ v := by rw [hv]; gcongr
        have e2 : v ≤ (roi.r1 - t.f) / t.e := by rw [hv]; gcongr
        split
        · rename_i hc
          exact ⟨by linarith, by linarith⟩
        · exact ⟨e1, e2⟩
    obtain ⟨q3, q4⟩ := hrow.1 v hvv.1 hvv.2 v0 v1
    exact ⟨q1, q2, q3, q4⟩

/-- C04: the window is tight: each of its sides exceeds the requested box by less than one pixel
(unless it is the border of the dataset), for both row directions. -/
theorem C04_window_tight (dsH dsW : ℤ) (t : Affine K)
    (hb : t.b = 0) (hd : t.d = 0) (ha : 0 < t.a) (he : t.e ≠ 0) (roi : Roi K) (hroi : roi.r0 ≤ roi.r1)
    (w : Window K) (h : windowOfPhysicalRoi dsH dsW t roi = .ok w) :
    t.a * (w.colOff + w.width - 1) + t.c < roi.c1 ∧
    (w.colOff = 0 ∨ roi.c0 < t.a * (w.colOff + 1) + t.c) ∧
    (0 < t.e → t.e * (w.rowOff + w.height - 1) + t.f < roi.r1 ∧
      (w.rowOff = 0 ∨ roi.r0 < t.e * (w.rowOff + 1) + t.f)) ∧
    (t.e < 0 → roi.r0 < t.e * (w.rowOff + w.height - 1) + t.f ∧
      (w.rowOff = 0 ∨ t.e * (w.rowOff + 1) + t.f < roi.r1)) := by
  obtain ⟨h1, h2, h3, h4, h5, h6⟩ := mkWindow_ok h
  obtain ⟨p01, p02⟩ := physicalToIndex_axis t hb hd ha.ne' he roi.r0 roi.c0
  obtain ⟨p11, p12⟩ := physicalToIndex_axis t hb hd ha.ne' he roi.r1 roi.c1
  rw [p02] at h1 h3
  rw [p12] at h3
  rw [p01, p11] at h2 h4
  have hcol := window_1d w.colOff h1 w.width (by rw [h3, ← h1])
  have hrow := window_1d (lo := if (roi.r0 - t.f) / t.e > (roi.r1 - t.f) / t.e then
      (roi.r1 - t.f) / t.e else (roi.r0 - t.f) / t.e) (hi := if (roi.r0 - t.f) / t.e >
      (roi.r1 - t.f) / t.e then (roi.r0 - t.f) / t.e else (roi.r1 - t.f) / t.e)
      w.rowOff h2 w.height (by rw [h4, ← h2])
  obtain ⟨-, -, -, c1, c2⟩ := hcol
  obtain ⟨-, -, -, r1, r2⟩ := hrow
  refine ⟨?_, ?_, ?_, ?_⟩
  · have h7 : w.colOff + w.width - 1 < (roi.c1 - t.c) / t.a := by linarith
    have h8 := (lt_div_iff₀ ha).mp h7
    linarith
  · rcases c2 with c2 | c2
    · exact .inl c2
    · have h8 := (div_lt_iff₀ ha).mp c2
      right; linarith
  · intro hpos
    have hle : (roi.r0 - t.f) / t.e ≤ (roi.r1 - t.f) / t.e := by gcongr
    rw [if_neg (not_lt.mpr hle)] at r1 r2
    constructor
    · have h7 : w.rowOff + w.height - 1 < (roi.r1 - t.f) / t.e := by linarith
      have h8 := (lt_div_iff₀ hpos).mp h7
      linarith
    · rcases r2 with c2 | c2
      · exact .inl c2
      · have h8 := (div_lt_iff₀ hpos).mp c2
        right; linarith
  · intro hneg
    have hle : (roi.r1 - t.f) / t.e ≤ (roi.r0 - t.f) / t.e :=
      div_le_div_of_nonpos_of_le hneg.le (by linarith)
    have hi : (if (roi.r0 - t.f) / t.e > (roi.r1 - t.f) / t.e then (roi.r0 - t.f) / t.e
        else (roi.r1 - t.f) / t.e) = (roi.r0 - t.f) / t.e := by
      split
      · rfl
      · rename_i hc; exact le_antisymm hle (not_lt.mp hc)
    have lo : (if (roi.r0 - t.f) / t.e > (roi.r1 - t.f) / t.e then (roi.r1 - t.f) / t.e
        else (roi.r0 - t.f) / t.e) = (roi.r1 - t.f) / t.e := by
      split
      · rfl
      · rename_i hc; exact le_antisymm (not_lt.mp hc) hle
    rw [hi] at r1
    rw [lo] at r2
    constructor
    · have h7 : w.rowOff + w.height - 1 < (roi.r0 - t.f) / t.e := by linarith
      have h8 := (lt_div_iff_of_neg hneg).mp h7
      linarith
    · rcases r2 with c2 | c2
      · exact .inl c2
      · have h8 := (div_lt_iff_of_neg hneg).mp c2
        right; linarith

/-- C04, the error branch: with a positive column step, a box that meets the dataset is never
refused. -/
theorem C04_no_error_when_overlapping (dsH dsW : ℤ) (t : Affine K)
    (hb : t.b = 0) (hd : t.d = 0) (ha : 0 < t.a) (he : t.e ≠ 0) (roi : Roi K)
    (x y u v : K) (hp : AtCornerIndex t x y v u) (x0 : roi.c0 ≤ x) (x1 : x ≤ roi.c1)
    (y0 : roi.r0 ≤ y) (y1 : y ≤ roi.r1) (u0 : 0 ≤ u) (u1 : u ≤ dsW) (v0 : 0 ≤ v) (v1 : v ≤ dsH) :
    ∃ w, windowOfPhysicalRoi dsH dsW t roi = .ok w := by
  obtain ⟨p01, p02⟩ := physicalToIndex_axis t hb hd ha.ne' he roi.r0 roi.c0
  obtain ⟨p11, p12⟩ := physicalToIndex_axis t hb hd ha.ne' he roi.r1 roi.c1
  obtain ⟨hx, hy⟩ := hp
  have hu : u = (x - t.c) / t.a := by rw [hx]; field_simp; ring
  have hv : v = (y - t.f) / t.e := by rw [hy]; field_simp; ring
  have c1 : (roi.c0 - t.c) / t.a ≤ u := by rw [hu]; gcongr
  have c2 : u ≤ (roi.c1 - t.c) / t.a := by rw [hu]; gcongr
  have key : ∀ (lo hi n z : K), lo ≤ z → z ≤ hi → 0 ≤ z → z ≤ n →
      0 ≤ pyInt (min ((⌈hi - max ((⌊lo⌋ : ℤ) : K) 0⌉ : ℤ) : K) (n - max ((⌊lo⌋ : ℤ) : K) 0)) := by
    intro lo hi n z a1 a2 a3 a4
    have h1 : max ((⌊lo⌋ : ℤ) : K) 0 ≤ z := max_le ((Int.floor_le lo).trans a1) a3
    have : 0 ≤ min ((⌈hi - max ((⌊lo⌋ : ℤ) : K) 0⌉ : ℤ) : K) (n - max ((⌊lo⌋ : ℤ) : K) 0) := by
      apply le_min
      · have := Int.le_ceil (hi - max ((⌊lo⌋ : ℤ) : K) 0)
        linarith
      · linarith
    unfold pyInt
    rw [if_pos this]
    exact Int.floor_nonneg.mpr this
  have hvv : (if (roi.r0 - t.f) / t.e > (roi.r1 - t.f) / t.e then (roi.r1 - t.f) / t.e
      else (roi.r0 - t.f) / t.e) ≤ v ∧ v ≤ (if (roi.r0 - t.f) / t.e > (roi.r1 - t.f) / t.e then
      (roi.r0 - t.f) / t.e else (roi.r1 - t.f) / t.e) := by
    rcases lt_or_gt_of_ne he with hneg | hpos
    · have e1 : (roi.r1 - t.f) / t.e ≤ v := by
        rw [hv]; exact div_le_div_of_nonpos_of_le hneg.le (by linarith)
      have e2 : v ≤ (roi.r0 - t.f) / t.e := by
        rw [hv]; exact div_le_div_of_nonpos_of_le hneg.le (by linarith)
      split
      · exact ⟨e1, e2⟩
      · rename_i hc
        have := not_lt.mp hc
        exact ⟨by linarith, by linarith⟩
    · have e1 : (roi.r0 - t.f) / t.e ≤ v := by rw [hv]; gcongr
      have e2 : v ≤ (roi.r1 - t.f) / t.e := by rw [hv]; gcongr
      split
      · rename_i hc
        exact ⟨by linarith, by linarith⟩
      · exact ⟨e1, e2⟩
  simp only [windowOfPhysicalRoi, mkWindow, p01, p02, p11, p12]
  rw [if_neg]
  · exact ⟨_, rfl⟩
  · rw [not_or, not_lt, not_lt]
    exact ⟨key _ _ _ u c1 c2 u0 u1, key _ _ _ v hvv.1 hvv.2 v0 v1⟩

/-- Non-vacuity of C04 (negative row step, fractional box), and the limitation it documents: with a
*negative column step* the code does not swap the columns and refuses a perfectly valid box. -/
example : windowOfPhysicalRoi 20 30 (⟨2, 0, 100, 0, -2, 50⟩ : Affine ℚ) ⟨31, 105, 41, 111⟩
    = .ok ⟨2, 4, 4, 6⟩ := by decide +kernel
theorem C04_negative_column_step_is_refused :
    windowOfPhysicalRoi 20 30 (⟨-2, 0, 100, 0, -2, 50⟩ : Affine ℚ) ⟨31, 80, 41, 90⟩
    = .error .negativeWindow := by decide +kernel

/-- C05: the requested sign of the row step is obtained (a zero row step has no sign to force). -/
theorem C05_sign_forced (t : Affine K) (he : t.e ≠ 0) :
    0 < (forceVertical .north t).e ∧ (forceVertical .south t).e < 0 ∧ forceVertical .auto t = t := by
  refine ⟨?_, ?_, rfl⟩
  · simp only [forceVertical]
    split
    · simp only [flipY]; linarith
    · rename_i h; exact lt_of_le_of_ne (not_lt.mp h) (Ne.symm he)
  · simp only [forceVertical]
    split
    · simp only [flipY]; linarith
    · rename_i h; exact lt_of_le_of_ne (not_lt.mp h) he

/-- C05: ground coordinates after forcing: x is unchanged, y is unchanged when the direction was
already the requested one and negated otherwise. -/
theorem C05_ground_effect (dir : VDir) (t : Affine K) :
    (∀ row col, indexToPhysical (forceVertical dir t) row col = indexToPhysical t row col) ∧
      forceVertical dir t = t ∨
    (∀ row col, indexToPhysical (forceVertical dir t) row col =
      (-(indexToPhysical t row col).1, (indexToPhysical t row col).2)) ∧
      ((dir = .north ∧ t.e < 0) ∨ (dir = .south ∧ 0 < t.e)) := by
  cases dir
  · left; exact ⟨fun _ _ => rfl, rfl⟩
  · by_cases h : t.e < 0
    · right
      refine ⟨fun r c => ?_, .inl ⟨rfl, h⟩⟩
      simp only [forceVertical, if_pos h, indexToPhysical, Affine.apply, flipY, Prod.mk.injEq]
      exact ⟨by ring, trivial⟩
    · left
      simp only [forceVertical, if_neg h]
      exact ⟨fun _ _ => trivial, trivial⟩
  · by_cases h : t.e > 0
    · right
      refine ⟨fun r c => ?_, .inr ⟨rfl, h⟩⟩
      simp only [forceVertical, if_pos h, indexToPhysical, Affine.apply, flipY, Prod.mk.injEq]
      exact ⟨by ring, trivial⟩
    · left
      simp only [forceVertical, if_neg h]
      exact ⟨fun _ _ => trivial, trivial⟩

/-- C05: forcing a direction twice is forcing it once; forcing the current direction is a no-op. -/
theorem C05_idempotent (dir : VDir) (t : Affine K) :
    forceVertical dir (forceVertical dir t) = forceVertical dir t := by
  cases dir
  · rfl
  · simp only [forceVertical]
    by_cases h : t.e < 0
    · simp only [if_pos h]
      rw [if_neg]
      simp only [flipY]; linarith
    · simp only [if_neg h]
  · simp only [forceVertical]
    by_cases h : t.e > 0
    · simp only [if_pos h]
      rw [if_neg]
      simp only [flipY]; linarith
    · simp only [if_neg h]

theorem C05_noop_when_already (t : Affine K) :
    (0 < t.e → forceVertical .north t = t) ∧ (t.e < 0 → forceVertical .south t = t) := by
  constructor
  · intro h; simp only [forceVertical]; rw [if_neg]; linarith
  · intro h; simp only [forceVertical]; rw [if_neg]; linarith

/-- C05 keeps the geotransform invertible, so C01 still applies to the opened image. -/
theorem C05_invertible (dir : VDir) (t : Affine K) (h : t.a * t.e - t.b * t.d ≠ 0) :
    (forceVertical dir t).a * (forceVertical dir t).e
      - (forceVertical dir t).b * (forceVertical dir t).d ≠ 0 := by
  have h2 : t.a * -t.e - t.b * -t.d ≠ 0 := by
    intro h3; apply h; linear_combination -h3
  cases dir <;> simp only [forceVertical]
  · exact h
  · split
    · exact h2
    · exact h
  · split
    · exact h2
    · exact h

example : (forceVertical .north (⟨2, 0, 100, 0, -2, 50⟩ : Affine ℚ)) = ⟨2, 0, 100, 0, 2, -50⟩ := by
  decide +kernel

/-- C05: the whole constructor, with or without ROI, in index or physical coordinates: pixel `(i, j)` of the opened image has the
x of the dataset pixel it comes from, and its y negated exactly when the row step had to change sign; the row step of the image has
the requested sign. -/
theorem C05_open_image (dsH dsW : ℤ) (t : Affine K) (he : t.e ≠ 0) (roi : Option (Roi K)) (physical : Bool) (dir : VDir)
    (g : ImageGeo K) (h : openImage dsH dsW t roi physical dir = .ok g) :
    (dir = .north → 0 < g.transform.e) ∧ (dir = .south → g.transform.e < 0) ∧
    ∀ i j, indexToPhysical g.transform i j =
      ((if (dir = .north ∧ t.e < 0) ∨ (dir = .south ∧ 0 < t.e) then
          -(indexToPhysical t (i + (match g.window with | some w => w.rowOff | none => 0))
            (j + (match g.window with | some w => w.colOff | none => 0))).1
        else (indexToPhysical t (i + (match g.window with | some w => w.rowOff | none => 0))
            (j + (match g.window with | some w => w.colOff | none => 0))).1),
       (indexToPhysical t (i + (match g.window with | some w => w.rowOff | none => 0))
            (j + (match g.window with | some w => w.colOff | none => 0))).2) := by
  have key : ∀ t' : Affine K, t'.e = t.e → ∀ i j, indexToPhysical (forceVertical dir t') i j =
      ((if (dir = .north ∧ t.e < 0) ∨ (dir = .south ∧ 0 < t.e) then -(indexToPhysical t' i j).1
        else (indexToPhysical t' i j).1), (indexToPhysical t' i j).2) := by
    intro t' ht i j
    rcases C05_ground_effect dir t' with ⟨h1, h2⟩ | ⟨h1, h2⟩
    · rw [if_neg, h1]
      rintro (⟨rfl, hlt⟩ | ⟨rfl, hlt⟩)
      · have := (C05_sign_forced t' (by rw [ht]; exact he)).1
        rw [h2, ht] at this
        linarith
      · have := (C05_sign_forced t' (by rw [ht]; exact he)).2.1
        rw [h2, ht] at this
        linarith
    · rw [ht] at h2
      rw [if_pos h2, h1]
  have sgn : ∀ t' : Affine K, t'.e = t.e → (dir = .north → 0 < (forceVertical dir t').e) ∧
      (dir = .south → (forceVertical dir t').e < 0) := by
    intro t' ht
    have := C05_sign_forced t' (by rw [ht]; exact he)
    exact ⟨fun hd => by rw [hd]; exact this.1, fun hd => by rw [hd]; exact this.2.1⟩
  unfold openImage at h
  split at h
  · injection h with h
    subst h
    refine ⟨(sgn t rfl).1, (sgn t rfl).2, fun i j => ?_⟩
    rw [key t rfl]
    simp only [add_zero]
  · split at h
    · exact absurd h (by simp)
    · rename_i w hw
      injection h with h
      subst h
      refine ⟨(sgn (windowTransform t w) rfl).1, (sgn (windowTransform t w) rfl).2, fun i j => ?_⟩
      rw [key (windowTransform t w) rfl, C03_window_georeferencing]

/-- C05 on a window: rows 4 to 6 of a south oriented image opened northwards. -/
example : openImage 10 8 (⟨2, 0, 100, 0, -2, 50⟩ : Affine ℚ) (some ⟨4, 1, 7, 5⟩) false .north =
    .ok ⟨⟨2, 0, 102, 0, 2, -42⟩, 3, 4, some ⟨1, 4, 4, 3⟩⟩ := by decide +kernel

end Ordered
end Shareloc
