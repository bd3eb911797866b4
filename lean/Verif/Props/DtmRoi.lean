import Verif.Model.DtmRead
import Verif.Lemmas.Bilinear
import Verif.Props.Affine
import Verif.Props.DtmFill
import Verif.Props.Geoid

/-!
# C98: a region of interest does not change the terrain
-/

set_option linter.unusedSectionVars false

namespace Shareloc
variable {K : Type*} [Field K] [LinearOrder K] [IsStrictOrderedRing K] [FloorRing K]

/-! ### Specification -/

namespace Spec

/-- The file has a value, and a mask if a no-data value is declared, for each cell. -/
def DtmFile.Complete (f : DtmFile K) : Prop :=
  f.data.length = f.nbRows * f.nbCols ∧ (f.nodata ≠ none → f.mask.length = f.nbRows * f.nbCols)

/-- Cell (i, j) of the file has data: the number z. -/
def HasValue (f : DtmFile K) (i j : ℕ) (z : K) : Prop :=
  i < f.nbRows ∧ j < f.nbCols ∧ f.data[i * f.nbCols + j]? = some (some z) ∧
    (f.nodata ≠ none → f.mask[i * f.nbCols + j]? ≠ some 0)

/-- The centre (longitude, latitude) of cell (i, j), or more generally the ground position of fractional indices. -/
def groundOf (t : Affine K) (row col : K) : K × K :=
  (t.a * (col + 1 / 2) + t.b * (row + 1 / 2) + t.c, t.d * (col + 1 / 2) + t.e * (row + 1 / 2) + t.f)

/-- `n` is the height of the geoid at the centre of cell (i, j): zero without geoid, else what the geoid file says there, the
position being converted to EPSG 4326 if the DTM is in another system. -/
def HasHeight (conv : ℕ → Option K × Option K → Option K × Option K) (f : DtmFile K) (geoid : Option (GeoidImage K)) (i j : ℕ) (n : K) :
    Prop :=
  match geoid with
  | none => n = 0
  | some g =>
    let p := groundOf f.transform (i : K) (j : K)
    interpolateGeoidHeight g [if f.epsg = 4326 then (some p.1, some p.2) else conv f.epsg (some p.1, some p.2)] = .ok [some n]

/-- Cell (i, j) of the file is in the region of interest: no region; its row and column are in the index region (bounds
`[row_min, col_min, row_max, col_max]`, the maxima excluded); a point of the interior of the cell is in the physical region (`[y_min,
x_min, y_max, x_max]`), for a file whose rows and columns are aligned with the axes, columns going east. -/
def InRegion (f : DtmFile K) (roi : RoiArg K) (i j : ℕ) : Prop :=
  i < f.nbRows ∧ j < f.nbCols ∧
  match roi with
  | .whole => True
  | .index r => r.r0 ≤ i ∧ (i : ℤ) < r.r1 ∧ r.c0 ≤ j ∧ (j : ℤ) < r.c1
  | .physical r => f.transform.b = 0 ∧ f.transform.d = 0 ∧ 0 < f.transform.a ∧ f.transform.e ≠ 0 ∧
      ∃ s t x y : K, 0 < s ∧ s < 1 ∧ 0 < t ∧ t < 1 ∧ x = f.transform.a * (j + s) + f.transform.c ∧ y = f.transform.e * (i + t) + f.transform.f ∧
        r.c0 ≤ x ∧ x ≤ r.c1 ∧ r.r0 ≤ y ∧ y ≤ r.r1

/-- What the filling strategy of the user must respect: `rasterio.fill.fillnodata` keeps the cells of non-zero mask, and the mask
marks the cells that have the no-data value.  Nothing for the other strategies. -/
def FillOk (ext : List (Option K) → List ℕ → List (Option K)) (f : DtmFile K) (strategy : Option FillStrategy) : Prop :=
  strategy = some .rioFillnodata → (∀ data mask, KeepsValid ext data mask) ∧ MaskMarks f.nodata f.mask f.data

end Spec
open Spec

/-! ### Cropping -/

/-- The window as natural numbers: origin and size. -/
structure NatWindow (H W : ℕ) (w : Window K) (r0 c0 h wd : ℕ) : Prop where
  row : w.rowOff = (r0 : K)
  col : w.colOff = (c0 : K)
  height : w.height = (h : ℤ)
  width : w.width = (wd : ℤ)
  rows : r0 + h ≤ H
  cols : c0 + wd ≤ W

theorem mkWindow_nat (H W : ℕ) (co ro wi he : ℤ) (hco : 0 ≤ co) (hro : 0 ≤ ro) (w : Window K)
    (h : mkWindow (H : ℤ) (W : ℤ) (co : K) (ro : K) (wi : K) (he : K) = .ok w) :
    ∃ r0 c0 hh wd : ℕ, NatWindow H W w r0 c0 hh wd ∧ (r0 : ℤ) = ro ∧ (c0 : ℤ) = co ∧ (hh : ℤ) = min he (H - ro) ∧
      (wd : ℤ) = min wi (W - co) := by
  obtain ⟨h1, h2, h3, h4, h5, h6⟩ := mkWindow_ok h
  have e3 : min (wi : K) (((W : ℤ) : K) - (co : K)) = ((min wi ((W : ℤ) - co) : ℤ) : K) := by push_cast; rfl
  have e4 : min (he : K) (((H : ℤ) : K) - (ro : K)) = ((min he ((H : ℤ) - ro) : ℤ) : K) := by push_cast; rfl
  rw [e3, pyInt_intCast] at h3
  rw [e4, pyInt_intCast] at h4
  rw [h3] at h5
  rw [h4] at h6
  refine ⟨ro.toNat, co.toNat, w.height.toNat, w.width.toNat, ⟨?_, ?_, ?_, ?_, ?_, ?_⟩, by omega, by omega, by omega, by omega⟩
  · rw [h2, ← Int.cast_natCast, Int.toNat_of_nonneg hro]
  · rw [h1, ← Int.cast_natCast, Int.toNat_of_nonneg hco]
  · omega
  · omega
  · omega
  · omega

theorem cropCells_get {α : Type*} [Inhabited α] (H W : ℕ) (w : Window K) (r0 c0 h wd : ℕ) (hw : NatWindow H W w r0 c0 h wd) (l : List α)
    (hl : l.length = H * W) (i j : ℕ) (hi : i < h) (hj : j < wd) :
    (cropCells W (some w) l)[i * wd + j]? = l[(r0 + i) * W + (c0 + j)]? := by
  obtain ⟨e1, e2, e3, e4, e5, e6⟩ := hw
  have hf1 : ⌊w.rowOff⌋.toNat = r0 := by rw [e1]; simp
  have hf2 : ⌊w.colOff⌋.toNat = c0 := by rw [e2]; simp
  have hf3 : w.height.toNat = h := by omega
  have hf4 : w.width.toNat = wd := by omega
  have hk : i * wd + j < h * wd := by
    have := Nat.mul_le_mul_right wd (Nat.succ_le_of_lt hi)
    rw [Nat.succ_mul] at this
    omega
  have hq : (i * wd + j) / wd = i := by
    rw [Nat.mul_comm, Nat.mul_add_div (by omega), Nat.div_eq_of_lt hj, Nat.add_zero]
  have hr : (i * wd + j) % wd = j := by rw [Nat.mul_comm, Nat.mul_add_mod, Nat.mod_eq_of_lt hj]
  simp only [cropCells, hf1, hf2, hf3, hf4, List.getElem?_map, List.getElem?_range hk, Option.map_some, hq, hr]
  have hin : (r0 + i) * W + (c0 + j) < l.length := by
    rw [hl]
    have := Nat.mul_le_mul_right W (show r0 + i + 1 ≤ H by omega)
    rw [Nat.add_mul, Nat.one_mul] at this
    omega
  simp [List.getD, List.getElem?_eq_getElem hin]

theorem cropCells_length {α : Type*} [Inhabited α] (H W : ℕ) (w : Window K) (r0 c0 h wd : ℕ) (hw : NatWindow H W w r0 c0 h wd) (l : List α) :
    (cropCells W (some w) l).length = h * wd := by
  obtain ⟨e1, e2, e3, e4, e5, e6⟩ := hw
  simp [cropCells, e3, e4]

/-! ### Altitudes of the cells with data -/

/-- Whatever the strategy, a cell with data keeps its value. -/
theorem readAltitudes_keeps (ext : List (Option K) → List ℕ → List (Option K)) (t : DType) (nodata : Option (Option K)) (read : List ℕ)
    (data : List (Option K)) (strategy : Option FillStrategy) (fill : Option (Option K))
    (hl : nodata ≠ none → read.length = data.length)
    (hrio : strategy = some .rioFillnodata → KeepsValid ext data (dtmMask nodata read data) ∧ MaskMarks nodata read data)
    (out : List (Option K)) (h : readAltitudes ext t nodata read data strategy fill = .ok out) :
    out.length = data.length ∧ ∀ i, i < data.length → ¬ NoData nodata read data i → out[i]? = data[i]? := by
  by_cases hv : validValues nodata read data = []
  · rw [C58_no_valid_cell ext t nodata read data fill strategy hl hv] at h
    simp at h
  have stat : ∀ st, (st = .min ∨ st = .max ∨ st = .mean ∨ st = .median) → readAltitudes ext t nodata read data (some st) fill = .ok out →
      out.length = data.length ∧ ∀ i, i < data.length → ¬ NoData nodata read data i → out[i]? = data[i]? := by
    intro st hst h
    obtain ⟨out', v, w, e, e1, -, -, e2⟩ := C58_statistic ext t nodata read data fill st hst hl hv
    rw [e, Except.ok.injEq] at h
    subst h
    exact ⟨e1, fun i hi => (e2 i hi).2⟩
  match strategy with
  | none =>
    rw [C58_untouched ext t nodata read data fill none (.inl rfl) hl hv, Except.ok.injEq] at h
    subst h
    exact ⟨rfl, fun _ _ _ => rfl⟩
  | some .other =>
    rw [C58_untouched ext t nodata read data fill _ (.inr rfl) hl hv, Except.ok.injEq] at h
    subst h
    exact ⟨rfl, fun _ _ _ => rfl⟩
  | some .min => exact stat .min (by simp) h
  | some .max => exact stat .max (by simp) h
  | some .mean => exact stat .mean (by simp) h
  | some .median => exact stat .median (by simp) h
  | some .rioFillnodata =>
    exact C58_rio_keeps_valid_partial ext t nodata read data fill hl (hrio rfl).2 (hrio rfl).1 out h
  | some .constant =>
    have hlen := dtmMask_length nodata read data hl
    have fin : ∀ v, out = fillMasked (dtmMask nodata read data) data v →
        out.length = data.length ∧ ∀ i, i < data.length → ¬ NoData nodata read data i → out[i]? = data[i]? := by
      rintro v rfl
      refine ⟨fillMasked_length _ _ _ hlen, fun i hi hn => (fillMasked_get _ _ _ hlen i hi).2 fun e => hn ?_⟩
      exact (dtmMask_zero nodata read data hl i hi).1 e
    unfold readAltitudes at h
    cases hs : dtmStats (validData (dtmMask nodata read data) data) with
    | error e => rw [hs] at h; simp [bind, Except.bind] at h
    | ok s =>
      rw [hs] at h
      simp only [bind, Except.bind, fillNodata, DtmStats.get] at h
      match fill, t, h with
      | none, .float, h => simp only [pure, Except.pure, Except.ok.injEq] at h; exact fin _ h.symm
      | some v, t, h =>
        cases hst : t.store v with
        | error e => simp [hst] at h
        | ok v' =>
          simp only [hst, pure, Except.pure, Except.ok.injEq] at h
          exact fin _ h.symm

/-! ### The cells of the opened file -/

/-- What is read: the cells of the file from row `r0` and column `c0`, at the same ground positions. -/
structure Opened (f f' : DtmFile K) (r0 c0 : ℕ) : Prop where
  dtype : f'.dtype = f.dtype
  nodata : f'.nodata = f.nodata
  epsg : f'.epsg = f.epsg
  rows : r0 + f'.nbRows ≤ f.nbRows
  cols : c0 + f'.nbCols ≤ f.nbCols
  complete : DtmFile.Complete f'
  data : ∀ i j, i < f'.nbRows → j < f'.nbCols → f'.data[i * f'.nbCols + j]? = f.data[(r0 + i) * f.nbCols + (c0 + j)]?
  mask : ∀ i j, i < f'.nbRows → j < f'.nbCols → f.nodata ≠ none → f'.mask[i * f'.nbCols + j]? = f.mask[(r0 + i) * f.nbCols + (c0 + j)]?
  ground : ∀ row col : K, indexToPhysical f'.transform row col = indexToPhysical f.transform (row + r0) (col + c0)
  det : f'.transform.det = f.transform.det

theorem windowOfPhysicalRoi_nat (H W : ℕ) (t : Affine K) (r : Roi K) (w : Window K) (h : windowOfPhysicalRoi (H : ℤ) (W : ℤ) t r = .ok w) :
    ∃ r0 c0 hh wd : ℕ, NatWindow H W w r0 c0 hh wd := by
  unfold windowOfPhysicalRoi at h
  dsimp only at h
  have e : ∀ x : K, max ((⌊x⌋ : ℤ) : K) 0 = ((max ⌊x⌋ 0 : ℤ) : K) := fun x => by push_cast; rfl
  simp only [e] at h
  obtain ⟨r0, c0, hh, wd, hw, -⟩ := mkWindow_nat H W _ _ _ _ (le_max_right _ _) (le_max_right _ _) w h
  exact ⟨r0, c0, hh, wd, hw⟩

theorem windowOfIndexRoi_nat (H W : ℕ) (r : Roi ℤ) (w : Window K)
    (h : windowOfIndexRoi (H : ℤ) (W : ℤ) (⟨(r.r0 : K), (r.c0 : K), (r.r1 : K), (r.c1 : K)⟩ : Roi K) = .ok w) :
    ∃ r0 c0 hh wd : ℕ, NatWindow H W w r0 c0 hh wd := by
  rw [show (⟨(r.r0 : K), (r.c0 : K), (r.r1 : K), (r.c1 : K)⟩ : Roi K) = r.cast from rfl, windowOfIndexRoi_int] at h
  dsimp only at h
  split at h
  · simp at h
  · rename_i hn
    injection h with h
    subst h
    have nz : ∀ z : ℤ, 0 ≤ z → (z : K) = ((z.toNat : ℕ) : K) := fun z hz => by
      rw [← Int.cast_natCast z.toNat, Int.toNat_of_nonneg hz]
    refine ⟨(min (max r.r0 0) (H : ℤ)).toNat, (min (max r.c0 0) (W : ℤ)).toNat, _, _, ⟨?_, ?_, (Int.toNat_of_nonneg ?_).symm, (Int.toNat_of_nonneg ?_).symm, ?_, ?_⟩⟩
    · exact nz _ (by omega)
    · exact nz _ (by omega)
    all_goals dsimp only; omega

theorem opened_window (f : DtmFile K) (hf : DtmFile.Complete f) (w : Window K) (r0 c0 h wd : ℕ) (hw : NatWindow f.nbRows f.nbCols w r0 c0 h wd) :
    Opened f (f.read ⟨forceVertical .auto (windowTransform f.transform w), w.height, w.width, some w⟩) r0 c0 := by
  have e3 : w.height.toNat = h := by rw [hw.height]; simp
  have e4 : w.width.toNat = wd := by rw [hw.width]; simp
  refine ⟨rfl, rfl, rfl, ?_, ?_, ⟨?_, ?_⟩, ?_, ?_, ?_, ?_⟩
  · simp only [DtmFile.read, e3]; exact hw.rows
  · simp only [DtmFile.read, e4]; exact hw.cols
  · simp only [DtmFile.read, e3, e4]
    exact cropCells_length _ _ _ _ _ _ _ hw _
  · intro _
    simp only [DtmFile.read, e3, e4]
    exact cropCells_length _ _ _ _ _ _ _ hw _
  · intro i j hi hj
    simp only [DtmFile.read, e3, e4] at hi hj ⊢
    exact cropCells_get _ _ _ _ _ _ _ hw _ hf.1 i j hi hj
  · intro i j hi hj hn
    simp only [DtmFile.read, e3, e4] at hi hj ⊢
    exact cropCells_get _ _ _ _ _ _ _ hw _ (hf.2 hn) i j hi hj
  · intro row col
    rw [← hw.row, ← hw.col]
    exact C03_window_georeferencing f.transform w row col
  · simp [DtmFile.read, forceVertical, windowTransform, Affine.det]

/-- What is read when a region of interest is accepted, and that it contains the cells of the region. -/
theorem opened_of_open (f : DtmFile K) (hf : DtmFile.Complete f) (roi : RoiArg K) (g : ImageGeo K)
    (h : roi.open f.nbRows f.nbCols f.transform = .ok g) :
    ∃ r0 c0 : ℕ, Opened f (f.read g) r0 c0 ∧
      ∀ i j, InRegion f roi i j → r0 ≤ i ∧ i < r0 + (f.read g).nbRows ∧ c0 ≤ j ∧ j < c0 + (f.read g).nbCols := by
  cases roi with
  | whole =>
    simp only [RoiArg.open, openImage, Except.ok.injEq] at h
    subst h
    refine ⟨0, 0, ⟨rfl, rfl, rfl, ?_, ?_, ⟨?_, ?_⟩, ?_, ?_, ?_, rfl⟩, ?_⟩
    · simp [DtmFile.read]
    · simp [DtmFile.read]
    · simpa [DtmFile.read, cropCells] using hf.1
    · intro hn
      simpa [DtmFile.read, cropCells] using hf.2 hn
    · intro i j _ _
      simp [DtmFile.read, cropCells]
    · intro i j _ _ _
      simp [DtmFile.read, cropCells]
    · intro row col
      simp [DtmFile.read, forceVertical]
    · rintro i j ⟨h1, h2, -⟩
      simp [DtmFile.read, h1, h2]
  | index r =>
    simp only [RoiArg.open, openImage, Bool.false_eq_true, if_false] at h
    split at h
    · simp at h
    · rename_i w hw
      injection h with h
      subst h
      obtain ⟨r0, c0, hh, wd, hn⟩ := windowOfIndexRoi_nat _ _ r w hw
      refine ⟨r0, c0, opened_window f hf w r0 c0 hh wd hn, ?_⟩
      rintro i j ⟨h1, h2, h3, h4, h5, h6⟩
      have := (C03_window_is_roi_inter_dataset _ _ r w hw (i : ℤ) (j : ℤ)).2 ⟨⟨h3, h4, h5, h6⟩, by omega, by omega, by omega, by omega⟩
      obtain ⟨a1, a2, a3, a4⟩ := this
      rw [hn.row] at a1 a2
      rw [hn.col] at a3 a4
      rw [hn.height] at a2
      rw [hn.width] at a4
      simp only [DtmFile.read, hn.height, hn.width, Int.toNat_natCast]
      exact ⟨by exact_mod_cast a1, by exact_mod_cast a2, by exact_mod_cast a3, by exact_mod_cast a4⟩
  | physical r =>
    simp only [RoiArg.open, openImage, if_true] at h
    split at h
    · simp at h
    · rename_i w hw
      injection h with h
      subst h
      obtain ⟨r0, c0, hh, wd, hn⟩ := windowOfPhysicalRoi_nat _ _ _ r w hw
      refine ⟨r0, c0, opened_window f hf w r0 c0 hh wd hn, ?_⟩
      rintro i j ⟨h1, h2, hb, hd, ha, he, s, t, x, y, s0, s1, t0, t1, rfl, rfl, b1, b2, b3, b4⟩
      have hi : (i : K) + 1 ≤ f.nbRows := by exact_mod_cast h1
      have hj : (j : K) + 1 ≤ f.nbCols := by exact_mod_cast h2
      have hi0 : (0 : K) ≤ i := by positivity
      have hj0 : (0 : K) ≤ j := by positivity
      have := (C04_physical_roi_covers _ _ f.transform hb hd ha he r w hw).1 (f.transform.a * (j + s) + f.transform.c) (f.transform.e * (i + t) + f.transform.f) (j + s) (i + t)
        ⟨rfl, rfl⟩ b1 b2 b3 b4 (by linarith) (by push_cast; linarith) (by linarith) (by push_cast; linarith)
      obtain ⟨a1, a2, a3, a4⟩ := this
      rw [hn.row] at a3 a4
      rw [hn.col] at a1 a2
      rw [hn.height] at a4
      rw [hn.width] at a2
      push_cast at a2 a4
      have c1 : (c0 : K) < ((j + 1 : ℕ) : K) := by push_cast; linarith
      have c2 : (j : K) < ((c0 + wd : ℕ) : K) := by push_cast; linarith
      have c3 : (r0 : K) < ((i + 1 : ℕ) : K) := by push_cast; linarith
      have c4 : (i : K) < ((r0 + hh : ℕ) : K) := by push_cast; linarith
      rw [Nat.cast_lt] at c1 c2 c3 c4
      simp only [DtmFile.read, hn.height, hn.width, Int.toNat_natCast]
      omega

/-! ### Altitudes of the opened file -/

/-- The term of the geoid at a ground position. -/
def geoidTerm (conv : ℕ → Option K × Option K → Option K × Option K) (epsg : ℕ) (geoid : Option (GeoidImage K)) (lon lat : K) : Option K :=
  match geoid with
  | none => some 0
  | some g => g.overlap.heightAt (if epsg = 4326 then (some lon, some lat) else conv epsg (some lon, some lat))

theorem hasHeight_term (conv : ℕ → Option K × Option K → Option K × Option K) (f : DtmFile K) (geoid : Option (GeoidImage K)) (i j : ℕ) (n : K)
    (h : HasHeight conv f geoid i j n) :
    geoidTerm conv f.epsg geoid (groundOf f.transform (i : K) (j : K)).1 (groundOf f.transform (i : K) (j : K)).2 = some n := by
  cases geoid with
  | none => simp only [HasHeight] at h; simp [geoidTerm, h]
  | some g =>
    simp only [HasHeight, interpolateGeoidHeight] at h
    split_ifs at h with h1 h2
    · simpa [geoidTerm, h1] using h
    · simpa [geoidTerm, h1] using h

theorem groundOf_eq (t : Affine K) (row col : K) : groundOf t row col = ((indexToPhysical t row col).2, (indexToPhysical t row col).1) := by
  simp only [groundOf, indexToPhysical, Affine.apply, Prod.mk.injEq]
  constructor <;> ring

theorem dtmReader_cells (ext : List (Option K) → List ℕ → List (Option K)) (conv : ℕ → Option K × Option K → Option K × Option K)
    (f : DtmFile K) (geoid : Option (GeoidImage K)) (strategy : Option FillStrategy) (fill : Option (Option K)) (out : List (Option K))
    (h : dtmReader ext conv f geoid strategy fill = .ok out) :
    ∃ alt, readAltitudes ext f.dtype f.nodata f.mask f.data strategy fill = .ok alt ∧ (alt.length = f.nbRows * f.nbCols →
      ∀ i j, i < f.nbRows → j < f.nbCols → ∀ a, alt[i * f.nbCols + j]? = some a →
        out[i * f.nbCols + j]? = some (olift2 (fun a b => a + b) a
          (geoidTerm conv f.epsg geoid (groundOf f.transform (i : K) (j : K)).1 (groundOf f.transform (i : K) (j : K)).2))) := by
  cases ha : readAltitudes ext f.dtype f.nodata f.mask f.data strategy fill with
  | error e => unfold dtmReader at h; rw [ha] at h; simp [bind, Except.bind] at h
  | ok alt =>
    refine ⟨alt, rfl, fun hlen i j hi hj a haj => ?_⟩
    cases geoid with
    | none =>
      rw [C59_no_geoid, ha, Except.ok.injEq] at h
      subst h
      rw [haj]
      cases a <;> simp [geoidTerm, olift2]
    | some g =>
      obtain ⟨-, hc⟩ := C59_added_pointwise ext conv f g strategy fill alt ha hlen out h
      obtain ⟨hgt, e1, e2⟩ := hc i j hi hj a haj
      rw [e2]
      simp only [interpolateGeoidHeight] at e1
      by_cases h4 : f.epsg = 4326
      · simp only [h4, ne_eq, not_true_eq_false, if_false, id_eq] at e1
        split_ifs at e1
        simp only [List.map_cons, List.map_nil, Except.ok.injEq, List.cons.injEq, and_true] at e1
        rw [← e1, groundOf_eq]
        simp [geoidTerm, h4]
      · simp only [h4, ne_eq, not_false_eq_true, if_true] at e1
        split_ifs at e1
        simp only [List.map_cons, List.map_nil, Except.ok.injEq, List.cons.injEq, and_true] at e1
        rw [← e1, groundOf_eq]
        simp [geoidTerm, h4]

theorem Opened.complete_len {f f' : DtmFile K} {r0 c0 : ℕ} (h : Opened f f' r0 c0) : f'.nodata ≠ none → f'.mask.length = f'.data.length :=
  fun hn => (h.complete.2 hn).trans h.complete.1.symm

theorem Opened.maskMarks {f f' : DtmFile K} {r0 c0 : ℕ} (h : Opened f f' r0 c0) (hm : MaskMarks f.nodata f.mask f.data) :
    MaskMarks f'.nodata f'.mask f'.data := by
  intro k n v hn hk hr
  have hk' : k < f'.nbRows * f'.nbCols := by
    rw [← h.complete.1]
    exact (List.getElem?_eq_some_iff.1 hk).1
  have hc : 0 < f'.nbCols := by
    rcases Nat.eq_zero_or_pos f'.nbCols with e | e
    · rw [e] at hk'; simp at hk'
    · exact e
  have hi : k / f'.nbCols < f'.nbRows := by rw [Nat.div_lt_iff_lt_mul hc]; exact hk'
  have hj : k % f'.nbCols < f'.nbCols := Nat.mod_lt _ hc
  have hkk : k / f'.nbCols * f'.nbCols + k % f'.nbCols = k := by rw [Nat.mul_comm]; exact Nat.div_add_mod _ _
  have hnn : f.nodata ≠ none := by rw [← h.nodata, hn]; simp
  have a := h.data _ _ hi hj
  have b := h.mask _ _ hi hj hnn
  rw [hkk] at a b
  exact hm _ n v (by rw [← h.nodata]; exact hn) (by rw [← a]; exact hk) (by rw [← b]; exact hr)

theorem opened_ground {f f' : DtmFile K} {r0 c0 : ℕ} (h : Opened f f' r0 c0) (i j : ℕ) :
    groundOf f'.transform (i : K) (j : K) = groundOf f.transform ((r0 + i : ℕ) : K) ((c0 + j : ℕ) : K) := by
  rw [groundOf_eq, groundOf_eq, h.ground]
  push_cast
  rw [add_comm (i : K), add_comm (j : K)]

/-- A cell with data: its altitude in the DTM is its value plus the height of the geoid. -/
theorem loaded_cell (ext : List (Option K) → List ℕ → List (Option K)) (conv : ℕ → Option K × Option K → Option K × Option K)
    (f f' : DtmFile K) (r0 c0 : ℕ) (ho : Opened f f' r0 c0) (geoid : Option (GeoidImage K)) (strategy : Option FillStrategy)
    (fill : Option (Option K)) (hfill : FillOk ext f strategy) (out : List (Option K))
    (h : dtmReader ext conv f' geoid strategy fill = .ok out) (i j : ℕ) (hi : i < f'.nbRows) (hj : j < f'.nbCols) (z n : K)
    (hz : HasValue f (r0 + i) (c0 + j) z) (hn : HasHeight conv f geoid (r0 + i) (c0 + j) n) :
    out[i * f'.nbCols + j]? = some (some (z + n)) := by
  obtain ⟨alt, ha, hc⟩ := dtmReader_cells ext conv f' geoid strategy fill out h
  obtain ⟨k1, k2⟩ := readAltitudes_keeps ext f'.dtype f'.nodata f'.mask f'.data strategy fill ho.complete_len
    (fun e => ⟨(hfill e).1 _ _, ho.maskMarks (hfill e).2⟩) alt ha
  have hk : i * f'.nbCols + j < f'.data.length := by
    rw [ho.complete.1]
    have := Nat.mul_le_mul_right f'.nbCols (Nat.succ_le_of_lt hi)
    rw [Nat.succ_mul] at this
    omega
  have hd := ho.data i j hi hj
  obtain ⟨-, -, z1, z2⟩ := hz
  have hno : ¬ NoData f'.nodata f'.mask f'.data (i * f'.nbCols + j) := by
    rintro (e | ⟨e1, e2⟩)
    · rw [hd, z1] at e; simp at e
    · have hnn : f.nodata ≠ none := by rw [← ho.nodata]; exact e1
      rw [ho.mask i j hi hj hnn] at e2
      exact z2 hnn e2
  rw [hc (by rw [k1, ho.complete.1]) i j hi hj (some z) (by rw [k2 _ hk hno, hd, z1]), opened_ground ho, ho.epsg,
    hasHeight_term conv f geoid _ _ n hn]
  rfl

/-! ### Interpolation -/

theorem lowerShift_floor (nb : ℕ) (i : ℕ) (hi : i + 1 < nb) (u : K) (h0 : 0 ≤ u) (h1 : u < 1) : lowerShift (nb : ℤ) ((i : K) + u) = (i : ℤ) := by
  have hp : (0 : K) ≤ i := by positivity
  have hn : (i : K) + 1 ≤ ((nb - 1 : ℤ) : K) := by
    have : ((i + 1 : ℤ) : K) ≤ ((nb - 1 : ℤ) : K) := by exact_mod_cast (by omega : (i + 1 : ℤ) ≤ (nb : ℤ) - 1)
    simpa using this
  unfold lowerShift
  rw [if_neg (by linarith), if_neg (by linarith), Int.floor_eq_iff]
  exact ⟨by simpa using h0, by simpa using h1⟩

theorem altitudeAt_cell (d : LoadedDtm K) (hdet : d.transform.det ≠ 0) (i j : ℕ) (hi : i + 1 < d.nbRows) (hj : j + 1 < d.nbCols) (u v : K)
    (u0 : 0 ≤ u) (u1 : u < 1) (v0 : 0 ≤ v) (v1 : v < 1) (lon lat : K)
    (hg : (lon, lat) = ((indexToPhysical d.transform (i + u) (j + v)).2, (indexToPhysical d.transform (i + u) (j + v)).1)) :
    d.altitudeAt lon lat = (do
      let m00 ← (d.alt[i * d.nbCols + j]?).join
      let m01 ← (d.alt[i * d.nbCols + (j + 1)]?).join
      let m10 ← (d.alt[(i + 1) * d.nbCols + j]?).join
      let m11 ← (d.alt[(i + 1) * d.nbCols + (j + 1)]?).join
      return (1 - v) * (1 - u) * m00 + v * (1 - u) * m01 + (1 - v) * u * m10 + v * u * m11) := by
  simp only [Prod.mk.injEq] at hg
  obtain ⟨rfl, rfl⟩ := hg
  have hrt := C01_index_physical_index d.transform (by simpa [Affine.det] using hdet) ((i : K) + u) ((j : K) + v)
  simp only [LoadedDtm.altitudeAt, hrt, interpolBilinChecked, lowerShift_floor _ i hi u u0 u1, lowerShift_floor _ j hj v v0 v1]
  have c : ∀ a b : ℕ, a < d.nbRows → b < d.nbCols → d.cell (a : ℤ) (b : ℤ) = (d.alt[a * d.nbCols + b]?).join := by
    intro a b ha hb
    simp [LoadedDtm.cell, ha, hb]
  have c00 := c i j (by omega) (by omega)
  have c01 := c i (j + 1) (by omega) hj
  have c10 := c (i + 1) j hi (by omega)
  have c11 := c (i + 1) (j + 1) hi hj
  push_cast at c01 c10 c11
  rw [c00, c01, c10, c11]
  simp

/-! ### Cells without data -/

/-- The value written by strategy "constant". -/
def constantFill (t : DType) (fill : Option (Option K)) : Option K :=
  match fill with
  | none => none
  | some v =>
    match t.store v with
    | .ok w => w
    | .error _ => none

/-- With no filling, an unknown strategy or strategy "constant", each altitude depends on its own cell only. -/
theorem readAltitudes_local (ext : List (Option K) → List ℕ → List (Option K)) (t : DType) (nodata : Option (Option K)) (read : List ℕ)
    (data : List (Option K)) (strategy : Option FillStrategy) (hst : strategy = none ∨ strategy = some .other ∨ strategy = some .constant)
    (fill : Option (Option K)) (hl : nodata ≠ none → read.length = data.length) (out : List (Option K))
    (h : readAltitudes ext t nodata read data strategy fill = .ok out) (i : ℕ) (hi : i < data.length) :
    (strategy = some .constant ∧ NoData nodata read data i → out[i]? = some (constantFill t fill)) ∧
    (¬ (strategy = some .constant ∧ NoData nodata read data i) → out[i]? = data[i]?) := by
  by_cases hv : validValues nodata read data = []
  · rw [C58_no_valid_cell ext t nodata read data fill strategy hl hv] at h
    simp at h
  rcases hst with rfl | rfl | rfl
  · rw [C58_untouched ext t nodata read data fill none (.inl rfl) hl hv, Except.ok.injEq] at h
    subst h
    simp
  · rw [C58_untouched ext t nodata read data fill _ (.inr rfl) hl hv, Except.ok.injEq] at h
    subst h
    simp
  · have hlen := dtmMask_length nodata read data hl
    have fin : out = fillMasked (dtmMask nodata read data) data (constantFill t fill) →
        (NoData nodata read data i → out[i]? = some (constantFill t fill)) ∧ (¬ NoData nodata read data i → out[i]? = data[i]?) := by
      rintro rfl
      obtain ⟨f1, f2⟩ := fillMasked_get (dtmMask nodata read data) data (constantFill t fill) hlen i hi
      exact ⟨fun hn => f1 ((dtmMask_zero nodata read data hl i hi).2 hn), fun hn => f2 fun e => hn ((dtmMask_zero nodata read data hl i hi).1 e)⟩
    simp only [true_and]
    apply fin
    unfold readAltitudes at h
    cases hs : dtmStats (validData (dtmMask nodata read data) data) with
    | error e => rw [hs] at h; simp [bind, Except.bind] at h
    | ok s =>
      rw [hs] at h
      simp only [bind, Except.bind, fillNodata, DtmStats.get] at h
      match fill, t, h with
      | none, .float, h => simp only [pure, Except.pure, Except.ok.injEq] at h; exact h.symm
      | some v, t, h =>
        cases hst : t.store v with
        | error e => simp [hst] at h
        | ok v' =>
          simp only [hst, pure, Except.pure, Except.ok.injEq] at h
          simp only [constantFill, hst]
          exact h.symm

/-- A cell whose altitude does not depend on the cells that are read with it: it has data, or the strategy does not look at the
other cells. -/
def OwnAltitude (f : DtmFile K) (strategy : Option FillStrategy) (i j : ℕ) : Prop :=
  (∃ z, HasValue f i j z) ∨ strategy = none ∨ strategy = some .other ∨ strategy = some .constant

/-- Such a cell has the same altitude in all the DTM read from the file. -/
theorem loaded_cell_own (ext : List (Option K) → List ℕ → List (Option K)) (conv : ℕ → Option K × Option K → Option K × Option K)
    (f : DtmFile K) (geoid : Option (GeoidImage K)) (strategy : Option FillStrategy)
    (fill : Option (Option K)) (hfill : FillOk ext f strategy) (i j : ℕ) (hown : OwnAltitude f strategy i j) :
    ∃ a : Option K, ∀ (f' : DtmFile K) (r0 c0 i' j' : ℕ), Opened f f' r0 c0 → i = r0 + i' → j = c0 + j' → i' < f'.nbRows → j' < f'.nbCols →
      ∀ out, dtmReader ext conv f' geoid strategy fill = .ok out → out[i' * f'.nbCols + j']? = some a := by
  have key : ∃ b : Option K, ∀ (f' : DtmFile K) (r0 c0 i' j' : ℕ), Opened f f' r0 c0 → i = r0 + i' → j = c0 + j' → i' < f'.nbRows → j' < f'.nbCols →
      ∀ alt, readAltitudes ext f'.dtype f'.nodata f'.mask f'.data strategy fill = .ok alt →
        alt.length = f'.nbRows * f'.nbCols ∧ alt[i' * f'.nbCols + j']? = some b := by
    have hk : ∀ (f' : DtmFile K) (r0 c0 i' j' : ℕ), Opened f f' r0 c0 → i' < f'.nbRows → j' < f'.nbCols → i' * f'.nbCols + j' < f'.data.length := by
      intro f' r0 c0 i' j' ho hi hj
      rw [ho.complete.1]
      have := Nat.mul_le_mul_right f'.nbCols (Nat.succ_le_of_lt hi)
      rw [Nat.succ_mul] at this
      omega
    have hlen : ∀ (f' : DtmFile K) (r0 c0 : ℕ), Opened f f' r0 c0 → ∀ alt, readAltitudes ext f'.dtype f'.nodata f'.mask f'.data strategy fill = .ok alt →
        alt.length = f'.nbRows * f'.nbCols ∧ ∀ i, i < f'.data.length → ¬ NoData f'.nodata f'.mask f'.data i → alt[i]? = f'.data[i]? := by
      intro f' r0 c0 ho alt ha
      obtain ⟨k1, k2⟩ := readAltitudes_keeps ext f'.dtype f'.nodata f'.mask f'.data strategy fill ho.complete_len
        (fun e => ⟨(hfill e).1 _ _, ho.maskMarks (hfill e).2⟩) alt ha
      exact ⟨k1.trans ho.complete.1, k2⟩
    have hnd : ∀ (f' : DtmFile K) (r0 c0 i' j' : ℕ), Opened f f' r0 c0 → i = r0 + i' → j = c0 + j' → i' < f'.nbRows → j' < f'.nbCols →
        (NoData f'.nodata f'.mask f'.data (i' * f'.nbCols + j') ↔ NoData f.nodata f.mask f.data (i * f.nbCols + j)) := by
      rintro f' r0 c0 i' j' ho rfl rfl hi hj
      unfold NoData
      rw [ho.data i' j' hi hj, ho.nodata]
      by_cases hn : f.nodata = none
      · simp [hn]
      · rw [ho.mask i' j' hi hj hn]
    rcases hown with ⟨z, -, -, z1, z2⟩ | hst
    · refine ⟨some z, fun f' r0 c0 i' j' ho ei ej hi hj alt ha => ?_⟩
      obtain ⟨l1, l2⟩ := hlen f' r0 c0 ho alt ha
      refine ⟨l1, ?_⟩
      rw [l2 _ (hk f' r0 c0 i' j' ho hi hj), ho.data i' j' hi hj, ← ei, ← ej, z1]
      rw [hnd f' r0 c0 i' j' ho ei ej hi hj]
      rintro (e | ⟨e1, e2⟩)
      · rw [z1] at e; simp at e
      · exact z2 e1 e2
    · by_cases hc : strategy = some .constant ∧ NoData f.nodata f.mask f.data (i * f.nbCols + j)
      · refine ⟨constantFill f.dtype fill, fun f' r0 c0 i' j' ho ei ej hi hj alt ha => ⟨(hlen f' r0 c0 ho alt ha).1, ?_⟩⟩
        rw [(readAltitudes_local ext f'.dtype f'.nodata f'.mask f'.data strategy hst fill ho.complete_len alt ha _ (hk f' r0 c0 i' j' ho hi hj)).1
          ⟨hc.1, (hnd f' r0 c0 i' j' ho ei ej hi hj).2 hc.2⟩, ho.dtype]
      · refine ⟨(f.data[i * f.nbCols + j]?).join, fun f' r0 c0 i' j' ho ei ej hi hj alt ha => ⟨(hlen f' r0 c0 ho alt ha).1, ?_⟩⟩
        have hin := hk f' r0 c0 i' j' ho hi hj
        have e := (readAltitudes_local ext f'.dtype f'.nodata f'.mask f'.data strategy hst fill ho.complete_len alt ha _ hin).2
          (fun hh => hc ⟨hh.1, (hnd f' r0 c0 i' j' ho ei ej hi hj).1 hh.2⟩)
        have e2 := ho.data i' j' hi hj
        rw [← ei, ← ej] at e2
        rw [← e2, e, List.getElem?_eq_getElem hin]
        rfl
  obtain ⟨b, hb⟩ := key
  refine ⟨olift2 (fun a b => a + b) b (geoidTerm conv f.epsg geoid (groundOf f.transform (i : K) (j : K)).1 (groundOf f.transform (i : K) (j : K)).2), ?_⟩
  intro f' r0 c0 i' j' ho ei ej hi hj out h
  obtain ⟨alt, ha, hc⟩ := dtmReader_cells ext conv f' geoid strategy fill out h
  obtain ⟨l1, l2⟩ := hb f' r0 c0 i' j' ho ei ej hi hj alt ha
  rw [hc l1 i' j' hi hj b l2, opened_ground ho, ho.epsg, ← ei, ← ej]

/-! ### C98 -/

theorem readDtm_ok (ext : List (Option K) → List ℕ → List (Option K)) (conv : ℕ → Option K × Option K → Option K × Option K)
    (f : DtmFile K) (hf : DtmFile.Complete f) (roi : RoiArg K) (geoid : Option (GeoidImage K)) (strategy : Option FillStrategy)
    (fill : Option (Option K)) (d : LoadedDtm K) (h : readDtm ext conv f roi geoid strategy fill = .ok d) :
    ∃ f' r0 c0, Opened f f' r0 c0 ∧ dtmReader ext conv f' geoid strategy fill = .ok d.alt ∧ d.transform = f'.transform ∧
      d.nbRows = f'.nbRows ∧ d.nbCols = f'.nbCols ∧
      ∀ i j, InRegion f roi i j → r0 ≤ i ∧ i < r0 + f'.nbRows ∧ c0 ≤ j ∧ j < c0 + f'.nbCols := by
  unfold readDtm at h
  split at h
  · simp at h
  · rename_i g hg
    dsimp only at h
    split_ifs at h
    split at h
    · simp at h
    · rename_i alt halt
      simp only [Except.ok.injEq] at h
      subst h
      obtain ⟨r0, c0, ho, hr⟩ := opened_of_open f hf roi g hg
      exact ⟨f.read g, r0, c0, ho, halt, rfl, rfl, rfl, hr⟩

/-- C98. The coordinate system of the loaded DTM is that of the file, whatever the region and the options. -/
theorem C98_epsg (ext : List (Option K) → List ℕ → List (Option K)) (conv : ℕ → Option K × Option K → Option K × Option K)
    (f : DtmFile K) (roi : RoiArg K) (geoid : Option (GeoidImage K)) (strategy : Option FillStrategy) (fill : Option (Option K))
    (d : LoadedDtm K) (h : readDtm ext conv f roi geoid strategy fill = .ok d) : d.epsg = f.epsg := by
  unfold readDtm at h
  split at h
  · simp at h
  · dsimp only at h
    split_ifs at h
    split at h
    · simp at h
    · simp only [Except.ok.injEq] at h
      subst h
      rfl

/-- C98. The altitude of the DTM at a ground position.  Whatever the region of interest (by indices or by coordinates), the filling
strategy and the geoid: if the four cells of the file around the position are in the region and have data, the altitude is the
bilinear interpolation of their values plus the heights of the geoid at their centres. -/
theorem C98_altitude (ext : List (Option K) → List ℕ → List (Option K)) (conv : ℕ → Option K × Option K → Option K × Option K)
    (f : DtmFile K) (hf : DtmFile.Complete f) (hdet : f.transform.a * f.transform.e - f.transform.b * f.transform.d ≠ 0)
    (roi : RoiArg K) (geoid : Option (GeoidImage K)) (strategy : Option FillStrategy) (fill : Option (Option K))
    (hfill : FillOk ext f strategy) (d : LoadedDtm K) (h : readDtm ext conv f roi geoid strategy fill = .ok d)
    (i j : ℕ) (hr : ∀ p q, p ≤ 1 → q ≤ 1 → InRegion f roi (i + p) (j + q)) (z n : ℕ → ℕ → K)
    (hz : ∀ p q, p ≤ 1 → q ≤ 1 → HasValue f (i + p) (j + q) (z p q)) (hn : ∀ p q, p ≤ 1 → q ≤ 1 → HasHeight conv f geoid (i + p) (j + q) (n p q))
    (u v : K) (u0 : 0 ≤ u) (u1 : u < 1) (v0 : 0 ≤ v) (v1 : v < 1) :
    d.altitudeAt (groundOf f.transform (i + u) (j + v)).1 (groundOf f.transform (i + u) (j + v)).2 =
      some ((1 - u) * ((1 - v) * (z 0 0 + n 0 0) + v * (z 0 1 + n 0 1)) + u * ((1 - v) * (z 1 0 + n 1 0) + v * (z 1 1 + n 1 1))) := by
  obtain ⟨f', r0, c0, ho, hrd, et, er, ec, hin⟩ := readDtm_ok ext conv f hf roi geoid strategy fill d h
  have h00 := hin _ _ (hr 0 0 (by omega) (by omega))
  have h11 := hin _ _ (hr 1 1 (by omega) (by omega))
  obtain ⟨i', rfl⟩ : ∃ i', i = r0 + i' := ⟨i - r0, by omega⟩
  obtain ⟨j', rfl⟩ : ∃ j', j = c0 + j' := ⟨j - c0, by omega⟩
  have cell : ∀ p q, p ≤ 1 → q ≤ 1 → d.alt[(i' + p) * d.nbCols + (j' + q)]? = some (some (z p q + n p q)) := by
    intro p q hp hq
    rw [ec]
    exact loaded_cell ext conv f f' r0 c0 ho geoid strategy fill hfill d.alt hrd (i' + p) (j' + q) (by omega) (by omega) _ _
      (by rw [← Nat.add_assoc, ← Nat.add_assoc]; exact hz p q hp hq) (by rw [← Nat.add_assoc, ← Nat.add_assoc]; exact hn p q hp hq)
  have hdd : d.transform.det ≠ 0 := by rw [et, ho.det]; exact hdet
  rw [altitudeAt_cell d hdd i' j' (by rw [er]; omega) (by rw [ec]; omega) u v u0 u1 v0 v1]
  · have a00 := cell 0 0 (by omega) (by omega)
    have a01 := cell 0 1 (by omega) (by omega)
    have a10 := cell 1 0 (by omega) (by omega)
    have a11 := cell 1 1 (by omega) (by omega)
    simp only [Nat.add_zero] at a00 a01 a10
    rw [a00, a01, a10, a11]
    simp only [Option.join, Option.bind_some, id_eq, bind, pure, Option.some.injEq]
    ring
  · rw [groundOf_eq, et, ho.ground]
    push_cast
    rw [show (r0 : K) + i' + u = i' + u + r0 by ring, show (c0 : K) + j' + v = j' + v + c0 by ring]

/-- C98. With and without a region of interest, or with two regions: the same altitude (or NaN) at each ground position whose four cells are
in both regions, if these cells have data, or if the strategy is none or "constant". -/
theorem C98_roi_transparent (ext : List (Option K) → List ℕ → List (Option K)) (conv : ℕ → Option K × Option K → Option K × Option K)
    (f : DtmFile K) (hf : DtmFile.Complete f) (hdet : f.transform.a * f.transform.e - f.transform.b * f.transform.d ≠ 0)
    (roi roi' : RoiArg K) (geoid : Option (GeoidImage K)) (strategy : Option FillStrategy) (fill : Option (Option K))
    (hfill : FillOk ext f strategy) (d d' : LoadedDtm K) (h : readDtm ext conv f roi geoid strategy fill = .ok d)
    (h' : readDtm ext conv f roi' geoid strategy fill = .ok d')
    (i j : ℕ) (hr : ∀ p q, p ≤ 1 → q ≤ 1 → InRegion f roi (i + p) (j + q) ∧ InRegion f roi' (i + p) (j + q))
    (hz : (∀ p q, p ≤ 1 → q ≤ 1 → ∃ z, HasValue f (i + p) (j + q) z) ∨ strategy = none ∨ strategy = some .other ∨ strategy = some .constant)
    (u v : K) (u0 : 0 ≤ u) (u1 : u < 1) (v0 : 0 ≤ v) (v1 : v < 1) :
    d'.altitudeAt (groundOf f.transform (i + u) (j + v)).1 (groundOf f.transform (i + u) (j + v)).2 =
      d.altitudeAt (groundOf f.transform (i + u) (j + v)).1 (groundOf f.transform (i + u) (j + v)).2 := by
  have hown : ∀ p q, p ≤ 1 → q ≤ 1 → OwnAltitude f strategy (i + p) (j + q) := fun p q hp hq => hz.imp (fun e => e p q hp hq) id
  choose! a ha using fun p q hp hq => loaded_cell_own ext conv f geoid strategy fill hfill (i + p) (j + q) (hown p q hp hq)
  have main : ∀ (roi : RoiArg K) (d : LoadedDtm K), readDtm ext conv f roi geoid strategy fill = .ok d →
      (∀ p q, p ≤ 1 → q ≤ 1 → InRegion f roi (i + p) (j + q)) →
      d.altitudeAt (groundOf f.transform (i + u) (j + v)).1 (groundOf f.transform (i + u) (j + v)).2 = (do
        let m00 ← a 0 0
        let m01 ← a 0 1
        let m10 ← a 1 0
        let m11 ← a 1 1
        return (1 - v) * (1 - u) * m00 + v * (1 - u) * m01 + (1 - v) * u * m10 + v * u * m11) := by
    intro roi d h hr
    obtain ⟨f', r0, c0, ho, hrd, et, er, ec, hin⟩ := readDtm_ok ext conv f hf roi geoid strategy fill d h
    have h00 := hin _ _ (hr 0 0 (by omega) (by omega))
    have h11 := hin _ _ (hr 1 1 (by omega) (by omega))
    obtain ⟨i', hi'⟩ : ∃ i', i = r0 + i' := ⟨i - r0, by omega⟩
    obtain ⟨j', hj'⟩ : ∃ j', j = c0 + j' := ⟨j - c0, by omega⟩
    have cell : ∀ p q, p ≤ 1 → q ≤ 1 → d.alt[(i' + p) * d.nbCols + (j' + q)]? = some (a p q) := by
      intro p q hp hq
      rw [ec]
      exact ha p q hp hq f' r0 c0 (i' + p) (j' + q) ho (by omega) (by omega) (by omega) (by omega) d.alt hrd
    have hdd : d.transform.det ≠ 0 := by rw [et, ho.det]; exact hdet
    rw [altitudeAt_cell d hdd i' j' (by rw [er]; omega) (by rw [ec]; omega) u v u0 u1 v0 v1]
    · have a00 := cell 0 0 (by omega) (by omega)
      have a01 := cell 0 1 (by omega) (by omega)
      have a10 := cell 1 0 (by omega) (by omega)
      have a11 := cell 1 1 (by omega) (by omega)
      simp only [Nat.add_zero] at a00 a01 a10
      rw [a00, a01, a10, a11]
      rfl
    · rw [groundOf_eq, et, ho.ground, hi', hj']
      push_cast
      rw [show (r0 : K) + i' + u = i' + u + r0 by ring, show (c0 : K) + j' + v = j' + v + c0 by ring]
  rw [main roi d h fun p q hp hq => (hr p q hp hq).1, main roi' d' h' fun p q hp hq => (hr p q hp hq).2]

/-! ### Acceptance of a region -/

/-- Whether the altitudes are computed depends on the type, the strategy and the fill value, once there is a valid cell. -/
theorem readAltitudes_ok (ext : List (Option K) → List ℕ → List (Option K)) (t : DType) (strategy : Option FillStrategy) (fill : Option (Option K))
    (hrio : strategy = some .rioFillnodata → t = .float)
    (nodata : Option (Option K)) (read read' : List ℕ) (data data' : List (Option K)) (hl : nodata ≠ none → read.length = data.length)
    (hl' : nodata ≠ none → read'.length = data'.length) (out : List (Option K))
    (h : readAltitudes ext t nodata read data strategy fill = .ok out) (hv : validValues nodata read' data' ≠ []) :
    ∃ out', readAltitudes ext t nodata read' data' strategy fill = .ok out' := by
  have stat : ∀ st, (st = .min ∨ st = .max ∨ st = .mean ∨ st = .median) → ∃ out', readAltitudes ext t nodata read' data' (some st) fill = .ok out' := by
    intro st hst
    obtain ⟨o, v, w, e, -⟩ := C58_statistic ext t nodata read' data' fill st hst hl' hv
    exact ⟨o, e⟩
  match strategy, hrio with
  | none, _ => exact ⟨_, C58_untouched ext t nodata read' data' fill none (.inl rfl) hl' hv⟩
  | some .other, _ => exact ⟨_, C58_untouched ext t nodata read' data' fill _ (.inr rfl) hl' hv⟩
  | some .min, _ => exact stat .min (by simp)
  | some .max, _ => exact stat .max (by simp)
  | some .mean, _ => exact stat .mean (by simp)
  | some .median, _ => exact stat .median (by simp)
  | some .rioFillnodata, hrio =>
    obtain rfl := hrio rfl
    cases hs : dtmStats (validData (dtmMask nodata read' data') data') with
    | error e =>
      rw [validData_eq nodata read' data' hl'] at hs
      cases hvv : validValues nodata read' data' with
      | nil => exact absurd hvv hv
      | cons a l => rw [hvv] at hs; simp [dtmStats] at hs
    | ok s =>
      rw [rio_unfold ext .float nodata read' data' fill s hs]
      split_ifs
      · exact ⟨_, rfl⟩
      · exact ⟨_, rfl⟩
  | some .constant, _ =>
    unfold readAltitudes at h ⊢
    cases hs : dtmStats (validData (dtmMask nodata read data) data) with
    | error e => rw [hs] at h; simp [bind, Except.bind] at h
    | ok s =>
      cases hs' : dtmStats (validData (dtmMask nodata read' data') data') with
      | error e =>
        rw [validData_eq nodata read' data' hl'] at hs'
        cases hvv : validValues nodata read' data' with
        | nil => exact absurd hvv hv
        | cons a l => rw [hvv] at hs'; simp [dtmStats] at hs'
      | ok s' =>
        rw [hs] at h
        simp only [bind, Except.bind, fillNodata, DtmStats.get] at h ⊢
        match fill, t, h with
        | none, .float, h => exact ⟨_, rfl⟩
        | some v, t, h =>
          cases hst : t.store v with
          | error e => simp [hst] at h
          | ok v' => simp only [hst]; exact ⟨_, rfl⟩

theorem mem_cellPositions (t : Affine K) (H W : ℕ) (p : Option K × Option K) :
    p ∈ cellPositions t H W ↔ ∃ i j : ℕ, i < H ∧ j < W ∧ p = (some (groundOf t (i : K) (j : K)).1, some (groundOf t (i : K) (j : K)).2) := by
  simp only [cellPositions, List.mem_map, List.mem_range]
  constructor
  · rintro ⟨k, hk, rfl⟩
    have hW : 0 < W := by
      rcases Nat.eq_zero_or_pos W with e | e
      · rw [e] at hk; simp at hk
      · exact e
    exact ⟨k / W, k % W, by rw [Nat.div_lt_iff_lt_mul hW]; exact hk, Nat.mod_lt _ hW, by rw [groundOf_eq]⟩
  · rintro ⟨i, j, hi, hj, rfl⟩
    refine ⟨i * W + j, ?_, ?_⟩
    · have := Nat.mul_le_mul_right W (Nat.succ_le_of_lt hi)
      rw [Nat.succ_mul] at this
      omega
    · have hq : (i * W + j) / W = i := by rw [Nat.mul_comm, Nat.mul_add_div (by omega), Nat.div_eq_of_lt hj, Nat.add_zero]
      have hr : (i * W + j) % W = j := by rw [Nat.mul_comm, Nat.mul_add_mod, Nat.mod_eq_of_lt hj]
      simp only [hq, hr, groundOf_eq]

/-- The geoid is sampled at the positions of the region, if it is at those of the file. -/
theorem addGeoid_ok (conv : ℕ → Option K × Option K → Option K × Option K) (f f' : DtmFile K) (r0 c0 : ℕ) (ho : Opened f f' r0 c0) (g : GeoidImage K)
    (alt alt' out : List (Option K)) (h : addGeoid conv f.epsg f.transform f.nbRows f.nbCols g alt = .ok out) :
    ∃ out', addGeoid conv f'.epsg f'.transform f'.nbRows f'.nbCols g alt' = .ok out' := by
  have hsub : ∀ p ∈ cellPositions f'.transform f'.nbRows f'.nbCols, p ∈ cellPositions f.transform f.nbRows f.nbCols := by
    intro p hp
    rw [mem_cellPositions] at hp ⊢
    obtain ⟨i, j, hi, hj, rfl⟩ := hp
    refine ⟨r0 + i, c0 + j, ?_, ?_, ?_⟩
    · have := ho.rows; omega
    · have := ho.cols; omega
    · rw [opened_ground ho]
  have hsub' : ∀ p ∈ (if f'.epsg ≠ 4326 then (cellPositions f'.transform f'.nbRows f'.nbCols).map (conv f'.epsg) else cellPositions f'.transform f'.nbRows f'.nbCols),
      p ∈ (if f.epsg ≠ 4326 then (cellPositions f.transform f.nbRows f.nbCols).map (conv f.epsg) else cellPositions f.transform f.nbRows f.nbCols) := by
    intro p hp
    rw [ho.epsg] at hp
    split_ifs at hp ⊢ with h4
    · rw [List.mem_map] at hp ⊢
      obtain ⟨a, ha, rfl⟩ := hp
      exact ⟨a, hsub a ha, rfl⟩
    · exact hsub p hp
  unfold addGeoid at h ⊢
  dsimp only at h ⊢
  generalize (if f'.epsg ≠ 4326 then (cellPositions f'.transform f'.nbRows f'.nbCols).map (conv f'.epsg) else cellPositions f'.transform f'.nbRows f'.nbCols) = l' at hsub' ⊢
  generalize (if f.epsg ≠ 4326 then (cellPositions f.transform f.nbRows f.nbCols).map (conv f.epsg) else cellPositions f.transform f.nbRows f.nbCols) = l at hsub' h
  simp only [interpolateGeoidHeight] at h ⊢
  by_cases hany : (l.any fun p => beyondPole p.2) = true
  · rw [if_pos hany] at h; simp [bind, Except.bind] at h
  · have : ¬ (l'.any fun p => beyondPole p.2) = true := by
      intro ha
      rw [List.any_eq_true] at ha hany
      obtain ⟨p, hp, hb⟩ := ha
      exact hany ⟨p, hsub' p hp, hb⟩
    rw [if_neg this]
    exact ⟨_, rfl⟩

/-- C98. A region by indices with at least two rows and two columns of the file and one valid cell (mask 255 if a no-data value is declared)
is read, if the whole file is; with "rio_fillnodata" this is claimed for floating-point files only. -/
theorem C98_region_accepted (ext : List (Option K) → List ℕ → List (Option K)) (conv : ℕ → Option K × Option K → Option K × Option K)
    (f : DtmFile K) (hf : DtmFile.Complete f) (geoid : Option (GeoidImage K)) (strategy : Option FillStrategy) (fill : Option (Option K))
    (hrio : strategy = some .rioFillnodata → f.dtype = .float) (d : LoadedDtm K) (h : readDtm ext conv f .whole geoid strategy fill = .ok d)
    (r : Roi ℤ) (a b : ℕ) (ha : InRegion f (.index r) a b) (hb : InRegion f (.index r) (a + 1) (b + 1))
    (i j : ℕ) (z : K) (hij : InRegion f (.index r) i j) (hz : f.data[i * f.nbCols + j]? = some (some z))
    (hm : f.nodata ≠ none → f.mask[i * f.nbCols + j]? = some 255) :
    ∃ d', readDtm ext conv f (.index r) geoid strategy fill = .ok d' := by
  have hwhole : f.read ⟨forceVertical .auto f.transform, (f.nbRows : ℤ), (f.nbCols : ℤ), none⟩ = f := by
    cases f; simp [DtmFile.read, cropCells, forceVertical]
  have hd : ∃ out, dtmReader ext conv f geoid strategy fill = .ok out := by
    simp only [readDtm, RoiArg.open, openImage, hwhole] at h
    split_ifs at h
    cases hr : dtmReader ext conv f geoid strategy fill with
    | error e => rw [hr] at h; simp at h
    | ok out => exact ⟨out, rfl⟩
  obtain ⟨out, hout⟩ := hd
  -- the window
  have hopen : ∃ g, (RoiArg.index r : RoiArg K).open f.nbRows f.nbCols f.transform = .ok g := by
    simp only [RoiArg.open, openImage, Bool.false_eq_true, if_false]
    cases hw : windowOfIndexRoi (f.nbRows : ℤ) (f.nbCols : ℤ) (⟨(r.r0 : K), (r.c0 : K), (r.r1 : K), (r.c1 : K)⟩ : Roi K) with
    | ok w => exact ⟨_, rfl⟩
    | error e =>
      cases e
      exfalso
      obtain ⟨h1, h2, h3, h4, h5, h6⟩ := ha
      exact (C03_error_only_if_empty (K := K) (f.nbRows : ℤ) (f.nbCols : ℤ) (by omega) r).2 hw a b ⟨⟨h3, h4, h5, h6⟩, by omega, by omega, by omega, by omega⟩
  obtain ⟨g, hg⟩ := hopen
  obtain ⟨r0, c0, ho, hin⟩ := opened_of_open f hf (.index r) g hg
  have ha' := hin _ _ ha
  have hb' := hin _ _ hb
  have hij' := hin _ _ hij
  generalize hfg : f.read g = f' at ho hin ha' hb' hij'
  -- a valid cell
  have hv : validValues f.nodata f'.mask f'.data ≠ [] := by
    have e1 := ho.data (i - r0) (j - c0) (by omega) (by omega)
    rw [show r0 + (i - r0) = i by omega, show c0 + (j - c0) = j by omega, hz] at e1
    unfold validValues
    cases hn : f.nodata with
    | none =>
      intro hnil
      have : z ∈ f'.data.filterMap id := by
        rw [List.mem_filterMap]
        exact ⟨some z, List.mem_of_getElem? e1, rfl⟩
      simp only at hnil
      rw [hnil] at this
      simp at this
    | some n =>
      intro hnil
      have e2 := ho.mask (i - r0) (j - c0) (by omega) (by omega) (by rw [hn]; simp)
      rw [show r0 + (i - r0) = i by omega, show c0 + (j - c0) = j by omega, hm (by rw [hn]; simp)] at e2
      have : z ∈ (f'.mask.zip f'.data).filterMap fun p => if p.1 = 255 then p.2 else none := by
        rw [List.mem_filterMap]
        refine ⟨(255, some z), ?_, by simp⟩
        apply List.mem_of_getElem? (i := (i - r0) * f'.nbCols + (j - c0))
        rw [List.getElem?_zip_eq_some]
        exact ⟨e2, e1⟩
      simp only at hnil
      rw [hnil] at this
      simp at this
  -- the reader
  have hread : ∃ out', dtmReader ext conv f' geoid strategy fill = .ok out' := by
    unfold dtmReader at hout ⊢
    cases hal : readAltitudes ext f.dtype f.nodata f.mask f.data strategy fill with
    | error e => rw [hal] at hout; simp [bind, Except.bind] at hout
    | ok alt =>
      rw [hal] at hout
      obtain ⟨alt', hal'⟩ := readAltitudes_ok ext f.dtype strategy fill hrio f.nodata f.mask f'.mask f.data f'.data
        (fun hn => (hf.2 hn).trans hf.1.symm) (by have := ho.complete_len; rwa [ho.nodata] at this) alt hal hv
      rw [ho.dtype, ho.nodata, hal']
      simp only [bind, Except.bind] at hout ⊢
      cases geoid with
      | none => exact ⟨_, rfl⟩
      | some gd => exact addGeoid_ok conv f f' r0 c0 ho gd alt alt' out hout
  obtain ⟨out', hout'⟩ := hread
  unfold readDtm
  rw [hg]
  simp only [hfg]
  rw [if_neg (by omega), hout']
  exact ⟨_, rfl⟩

/-! ### What depends on the region -/

/-- A DTM of 4 rows and 4 columns, one cell without data, for the examples. -/
def roiFile : DtmFile ℚ :=
  ⟨.float, some (some (-9)), 4326, ⟨1, 0, 10, 0, -1, 50⟩, 4, 4,
    [255, 255, 255, 255, 255, 255, 255, 255, 255, 0, 255, 255, 255, 255, 255, 255],
    [some 1, some 2, some 3, some 4, some 5, some 6, some 7, some 8, some 9, some (-9), some 11, some 12, some 13, some 14, some 15, some 17]⟩

/-- C98, what is not claimed: a cell without data filled by a statistic gets another altitude with a region of interest, since the
statistic is that of the region. -/
theorem C98_statistic_depends_on_region :
    ∃ (d d' : LoadedDtm ℚ), readDtm (fun x _ => x) (fun _ p => p) roiFile .whole none (some .min) none = .ok d ∧
      readDtm (fun x _ => x) (fun _ p => p) roiFile (.index ⟨2, 0, 4, 4⟩) none (some .min) none = .ok d' ∧
      InRegion roiFile (.index ⟨2, 0, 4, 4⟩) 2 1 ∧
      d.altitudeAt (23 / 2) (95 / 2) = some 1 ∧ d'.altitudeAt (23 / 2) (95 / 2) = some 9 := by
  refine ⟨⟨4326, ⟨1, 0, 10, 0, -1, 50⟩, 4, 4, [some 1, some 2, some 3, some 4, some 5, some 6, some 7, some 8, some 9, some 1, some 11, some 12, some 13, some 14, some 15, some 17]⟩,
    ⟨4326, ⟨1, 0, 10, 0, -1, 48⟩, 2, 4, [some 9, some 9, some 11, some 12, some 13, some 14, some 15, some 17]⟩, ?_, ?_, ?_, ?_, ?_⟩
  · decide +kernel
  · decide +kernel
  · simp [InRegion, roiFile]
  · decide +kernel
  · decide +kernel

/-- C98, what is not claimed: in the half cell along the border of the region, a position of the physical region gets the altitude
extrapolated from the cells of the region. -/
theorem C98_border_is_extrapolated :
    ∃ (d d' : LoadedDtm ℚ), readDtm (fun x _ => x) (fun _ p => p) roiFile .whole none none none = .ok d ∧
      readDtm (fun x _ => x) (fun _ p => p) roiFile (.physical ⟨46, 12, 48, 14⟩) none none none = .ok d' ∧
      d.altitudeAt (27 / 2) (479 / 10) = some (104 / 10) ∧ d'.altitudeAt (27 / 2) (479 / 10) = some 10 := by
  refine ⟨⟨4326, ⟨1, 0, 10, 0, -1, 50⟩, 4, 4, roiFile.data⟩, ⟨4326, ⟨1, 0, 12, 0, -1, 48⟩, 2, 2, [some 11, some 12, some 15, some 17]⟩, ?_, ?_, ?_, ?_⟩
  · decide +kernel
  · decide +kernel
  · decide +kernel
  · decide +kernel

/-- C98. A region that keeps one row or one column of the file is refused with `IndexError`, whatever the file and the options. -/
theorem C98_single_row_refused (ext : List (Option K) → List ℕ → List (Option K)) (conv : ℕ → Option K × Option K → Option K × Option K)
    (f : DtmFile K) (r : Roi ℤ) (geoid : Option (GeoidImage K)) (strategy : Option FillStrategy) (fill : Option (Option K))
    (h0 : 0 ≤ r.r0) (h1 : r.r0 < f.nbRows) (h2 : r.r1 = r.r0 + 1) (h3 : 0 ≤ r.c0) (h4 : r.c0 ≤ r.c1) (h5 : r.c1 ≤ f.nbCols) :
    readDtm ext conv f (.index r) geoid strategy fill = .error .indexError := by
  have hw := windowOfIndexRoi_int (K := K) (f.nbRows : ℤ) (f.nbCols : ℤ) r
  dsimp only at hw
  rw [if_neg (by omega)] at hw
  have hw' : windowOfIndexRoi (f.nbRows : ℤ) (f.nbCols : ℤ) (⟨(r.r0 : K), (r.c0 : K), (r.r1 : K), (r.c1 : K)⟩ : Roi K) = _ := hw
  unfold readDtm
  simp only [RoiArg.open, openImage, Bool.false_eq_true, if_false, hw']
  rw [if_pos]
  left
  simp only [DtmFile.read]
  omega

/-- The hypotheses of `C98_altitude` and `C98_roi_transparent` are met: a physical region, a geoid, strategy "min", a position between cells
(0, 1), (0, 2), (1, 1) and (1, 2). -/
example : DtmFile.Complete roiFile ∧ FillOk (fun x _ => x) roiFile (some .min) ∧
    (∀ p q, p ≤ 1 → q ≤ 1 → InRegion roiFile (.physical ⟨46, 21 / 2, 50, 13⟩) (0 + p) (1 + q)) ∧
    (∀ p q, p ≤ 1 → q ≤ 1 → ∃ z, HasValue roiFile (0 + p) (1 + q) z) ∧
    (∀ p q, p ≤ 1 → q ≤ 1 → ∃ n, HasHeight (fun _ p => p) roiFile (some geoidEx) (0 + p) (1 + q) n) ∧
    (∃ d, readDtm (fun x _ => x) (fun _ p => p) roiFile (.physical ⟨46, 21 / 2, 50, 13⟩) (some geoidEx) (some .min) none = .ok d) := by
  have c : ∀ p : ℕ, p ≤ 1 → p = 0 ∨ p = 1 := fun p hp => by omega
  refine ⟨by simp [DtmFile.Complete, roiFile], by simp [FillOk], ?_, ?_, ?_, ?_⟩
  · intro p q hp hq
    refine ⟨by simp only [roiFile]; omega, by simp only [roiFile]; omega, rfl, rfl, by simp [roiFile], by simp [roiFile], 1 / 2, 1 / 2, _, _, by norm_num, by norm_num, by norm_num,
      by norm_num, rfl, rfl, ?_⟩
    rcases c p hp with rfl | rfl <;> rcases c q hq with rfl | rfl <;> norm_num [roiFile]
  · intro p q hp hq
    rcases c p hp with rfl | rfl <;> rcases c q hq with rfl | rfl <;> simp [HasValue, roiFile]
  · intro p q hp hq
    rcases c p hp with rfl | rfl <;> rcases c q hq with rfl | rfl
    · exact ⟨1193 / 180, by unfold HasHeight; decide +kernel⟩
    · exact ⟨239 / 36, by unfold HasHeight; decide +kernel⟩
    · exact ⟨1213 / 180, by unfold HasHeight; decide +kernel⟩
    · exact ⟨27 / 4, by unfold HasHeight; decide +kernel⟩
  · refine ⟨⟨4326, ⟨1, 0, 10, 0, -1, 50⟩, 4, 3, [some (457 / 60), some (1553 / 180), some (347 / 36), some (2111 / 180), some (2293 / 180),
      some (55 / 4), some (2851 / 180), some (157 / 20), some (643 / 36), some (399 / 20), some (3773 / 180), some (791 / 36)]⟩, ?_⟩
    decide +kernel

end Shareloc
