import Verif.Model.FloatSize
import Verif.Props.EpipolarSize
import Verif.Props.FloatMarch
import Verif.Props.FloatNodes

/-!
C114: the sizes of the rectification grids in floating point.
-/

set_option linter.unusedSectionVars false

namespace Shareloc
variable {K : Type*} [Field K] [LinearOrder K] [IsStrictOrderedRing K] [FloorRing K]
variable {A : Arith K} {u : K}

/-- Size of the bounding box of the rotated image along the epipolar lines, in pixels of the epipolar image (see `C46_box_size`). -/
def epiWidth (c s : K) (im : LeftImage K) : K := (|c| * |im.width| + |s| * |im.height|) / meanSpacing im

/-- Size of the bounding box of the rotated image across the epipolar lines, in pixels of the epipolar image. -/
def epiHeight (c s : K) (im : LeftImage K) : K := (|s| * |im.width| + |c| * |im.height|) / meanSpacing im

theorem rounds_abs {x v : K} (h : Rounds u x v) : (1 - u) * |x| ≤ |v| ∧ |v| ≤ (1 + u) * |x| := by
  unfold Rounds at h
  have h1 := abs_sub_abs_le_abs_sub v x
  have h2 := abs_sub_abs_le_abs_sub x v
  rw [abs_sub_comm x v] at h2
  exact ⟨by linarith, by linarith⟩

theorem rounds_abs2 (hA : A.RoundsBy u) (hu0 : 0 ≤ u) (hu : u ≤ 1 / 100) (a b c : K) :
    (1 - u) ^ 2 * |a * (b * c)| ≤ |A.mul (A.mul a b) c| ∧ |A.mul (A.mul a b) c| ≤ (1 + u) ^ 2 * |a * (b * c)| := by
  obtain ⟨h1, h2⟩ := rounds_abs (hA.mul a b)
  obtain ⟨h3, h4⟩ := rounds_abs (hA.mul (A.mul a b) c)
  rw [abs_mul (A.mul a b)] at h3 h4
  have e : |a * (b * c)| = |a * b| * |c| := by rw [← abs_mul, mul_assoc]
  have hc := abs_nonneg c
  rw [e]
  constructor
  · refine le_trans ?_ h3
    rw [show (1 - u) ^ 2 * (|a * b| * |c|) = (1 - u) * ((1 - u) * |a * b| * |c|) by ring]
    exact mul_le_mul_of_nonneg_left (mul_le_mul_of_nonneg_right h1 hc) (by linarith)
  · refine le_trans h4 ?_
    rw [show (1 + u) ^ 2 * (|a * b| * |c|) = (1 + u) * ((1 + u) * |a * b| * |c|) by ring]
    exact mul_le_mul_of_nonneg_left (mul_le_mul_of_nonneg_right h2 hc) (by linarith)

/-- The extent of the three corners and 0 when the third one is a rounded sum. -/
theorem extent_near (hu0 : 0 ≤ u) (hu : u ≤ 1 / 100) {p q r : K} (hr : Rounds u (p + q) r) :
    (1 - u) * (|p| + |q|) ≤ max (max (max p q) r) 0 - min (min (min p q) r) 0 ∧
    max (max (max p q) r) 0 - min (min (min p q) r) 0 ≤ (1 + u) * (|p| + |q|) := by
  unfold Rounds at hr
  have hr' := abs_le.1 hr
  set M := max (max (max p q) r) 0 with hM
  set m := min (min (min p q) r) 0 with hm
  have M1 : p ≤ M := (le_max_left _ _).trans ((le_max_left _ _).trans (le_max_left _ _))
  have M2 : q ≤ M := (le_max_right _ _).trans ((le_max_left _ _).trans (le_max_left _ _))
  have M3 : r ≤ M := (le_max_right _ _).trans (le_max_left _ _)
  have M4 : 0 ≤ M := le_max_right _ _
  have m1 : m ≤ p := (min_le_left _ _).trans ((min_le_left _ _).trans (min_le_left _ _))
  have m2 : m ≤ q := (min_le_left _ _).trans ((min_le_left _ _).trans (min_le_right _ _))
  have m3 : m ≤ r := (min_le_left _ _).trans (min_le_right _ _)
  have m4 : m ≤ 0 := min_le_right _ _
  have up : ∀ b : K, p ≤ b → q ≤ b → r ≤ b → 0 ≤ b → M ≤ b := fun b h1 h2 h3 h4 => max_le (max_le (max_le h1 h2) h3) h4
  have lo : ∀ b : K, b ≤ p → b ≤ q → b ≤ r → b ≤ 0 → b ≤ m := fun b h1 h2 h3 h4 => le_min (le_min (le_min h1 h2) h3) h4
  clear_value M m
  have up0 : ∀ x : K, 0 ≤ x → 0 ≤ u * x ∧ u * x ≤ 1 / 100 * x := fun x hx => ⟨mul_nonneg hu0 hx, mul_le_mul_of_nonneg_right hu hx⟩
  have un0 : ∀ x : K, x ≤ 0 → u * x ≤ 0 ∧ 1 / 100 * x ≤ u * x := fun x hx => by
    have := up0 (-x) (by linarith)
    exact ⟨by linarith [this.1], by linarith [this.2]⟩
  rcases le_total 0 p with hp | hp <;> rcases le_total 0 q with hq | hq
  · rw [abs_of_nonneg hp, abs_of_nonneg hq]
    obtain ⟨x1, x2⟩ := up0 p hp
    obtain ⟨y1, y2⟩ := up0 q hq
    rw [abs_of_nonneg (add_nonneg hp hq)] at hr'
    have a1 := up ((1 + u) * (p + q)) (by linarith) (by linarith) (by linarith) (by linarith)
    have a2 := lo 0 hp hq (by linarith) le_rfl
    constructor <;> linarith
  · rw [abs_of_nonneg hp, abs_of_nonpos hq]
    obtain ⟨x1, x2⟩ := up0 p hp
    obtain ⟨y1, y2⟩ := un0 q hq
    rcases le_total 0 (p + q) with hpq | hpq
    · rw [abs_of_nonneg hpq] at hr'
      have a1 := up ((1 + u) * p) (by linarith) (by linarith) (by linarith) (by linarith)
      have a2 := lo q (by linarith) le_rfl (by linarith) hq
      constructor <;> linarith
    · rw [abs_of_nonpos hpq] at hr'
      have a1 := up p le_rfl (by linarith) (by linarith) hp
      have a2 := lo ((1 + u) * q) (by linarith) (by linarith) (by linarith) (by linarith)
      constructor <;> linarith
  · rw [abs_of_nonpos hp, abs_of_nonneg hq]
    obtain ⟨x1, x2⟩ := un0 p hp
    obtain ⟨y1, y2⟩ := up0 q hq
    rcases le_total 0 (p + q) with hpq | hpq
    · rw [abs_of_nonneg hpq] at hr'
      have a1 := up ((1 + u) * q) (by linarith) (by linarith) (by linarith) (by linarith)
      have a2 := lo p le_rfl (by linarith) (by linarith) hp
      constructor <;> linarith
    · rw [abs_of_nonpos hpq] at hr'
      have a1 := up q (by linarith) le_rfl (by linarith) hq
      have a2 := lo ((1 + u) * p) (by linarith) (by linarith) (by linarith) (by linarith)
      constructor <;> linarith
  · rw [abs_of_nonpos hp, abs_of_nonpos hq]
    obtain ⟨x1, x2⟩ := un0 p hp
    obtain ⟨y1, y2⟩ := un0 q hq
    rw [abs_of_nonpos (add_nonpos hp hq)] at hr'
    have a1 := up 0 hp hq (by linarith) le_rfl
    have a2 := lo ((1 + u) * (p + q)) (by linarith) (by linarith) (by linarith) (by linarith)
    constructor <;> linarith

theorem size_low (hu0 : 0 ≤ u) (hu : u ≤ 1 / 100) : 1 - 8 * u ≤ (1 - u) ^ 5 / (1 + u) ^ 2 := by
  rw [le_div_iff₀ (by positivity)]
  have h2 : 0 ≤ u * u := mul_nonneg hu0 hu0
  have h3 : 0 ≤ u * u * u := mul_nonneg h2 hu0
  have h5 : u * u * u ≤ 1 / 100 * (u * u) := by nlinarith
  have h6 : u * u * u * u * u ≤ 1 / 100 * (u * u * u * u) := by nlinarith [mul_nonneg h3 hu0]
  nlinarith [mul_nonneg h3 hu0]

theorem size_high (hu0 : 0 ≤ u) (hu : u ≤ 1 / 100) : (1 + u) ^ 5 / (1 - u) ^ 2 ≤ 1 + 8 * u := by
  rw [div_le_iff₀ (pow_pos (by linarith) 2)]
  have h2 : u * u ≤ 1 / 100 * u := mul_le_mul_of_nonneg_right hu hu0
  have h3 : u * u * u ≤ 1 / 100 * u := by nlinarith
  have h4 : u * u * u * u ≤ 1 / 100 * u := by nlinarith
  have h5 : u * u * u * u * u ≤ 1 / 100 * u := by nlinarith
  nlinarith

/-- One dimension of the box, divided by the spacing. -/
theorem dim_near (hA : A.RoundsBy u) (hu0 : 0 ≤ u) (hu : u ≤ 1 / 100) (a b n m px py : K) (hs : 0 < |px| + |py|) :
    let p := A.mul (A.mul a n) px
    let q := A.mul (A.mul b m) py
    let r := A.add p q
    let v := A.div (A.sub (max (max (max p q) r) 0) (min (min (min p q) r) 0)) (A.mul (1 / 2) (A.add |px| |py|))
    let w := (|a * (n * px)| + |b * (m * py)|) / ((1 / 2) * (|px| + |py|))
    0 ≤ v ∧ |v - w| ≤ 8 * u * w := by
  intro p q r v w
  obtain ⟨p1, p2⟩ := rounds_abs2 hA hu0 hu a n px
  obtain ⟨q1, q2⟩ := rounds_abs2 hA hu0 hu b m py
  obtain ⟨e1, e2⟩ := extent_near hu0 hu (hA.add p q)
  change (1 - u) * (|p| + |q|) ≤ max (max (max p q) r) 0 - min (min (min p q) r) 0 at e1
  change max (max (max p q) r) 0 - min (min (min p q) r) 0 ≤ (1 + u) * (|p| + |q|) at e2
  set E := max (max (max p q) r) 0 - min (min (min p q) r) 0 with hE
  have hd := hA.sub (max (max (max p q) r) 0) (min (min (min p q) r) 0)
  rw [← hE] at hd
  set S := |a * (n * px)| + |b * (m * py)| with hS
  have hS0 : 0 ≤ S := add_nonneg (abs_nonneg _) (abs_nonneg _)
  have hu1 : 0 < 1 - u := by linarith
  have k1 : (1 - u) ^ 3 * S ≤ E := by
    refine le_trans ?_ e1
    rw [show (1 - u) ^ 3 * S = (1 - u) * ((1 - u) ^ 2 * S) by ring]
    exact mul_le_mul_of_nonneg_left (by rw [hS]; linarith) hu1.le
  have k2 : E ≤ (1 + u) ^ 3 * S := by
    refine le_trans e2 ?_
    rw [show (1 + u) ^ 3 * S = (1 + u) * ((1 + u) ^ 2 * S) by ring]
    exact mul_le_mul_of_nonneg_left (by rw [hS]; linarith) (by linarith)
  have hE0 : 0 ≤ E := le_trans (mul_nonneg (pow_nonneg hu1.le 3) hS0) k1
  unfold Rounds at hd
  rw [abs_of_nonneg hE0] at hd
  have hd' := abs_le.1 hd
  set N := A.sub (max (max (max p q) r) 0) (min (min (min p q) r) 0) with hN
  have n1 : (1 - u) ^ 4 * S ≤ N := by
    have : (1 - u) * ((1 - u) ^ 3 * S) ≤ (1 - u) * E := mul_le_mul_of_nonneg_left k1 hu1.le
    rw [show (1 - u) ^ 4 * S = (1 - u) * ((1 - u) ^ 3 * S) by ring]
    linarith
  have n2 : N ≤ (1 + u) ^ 4 * S := by
    have : (1 + u) * E ≤ (1 + u) * ((1 + u) ^ 3 * S) := mul_le_mul_of_nonneg_left k2 (by linarith)
    rw [show (1 + u) ^ 4 * S = (1 + u) * ((1 + u) ^ 3 * S) by ring]
    linarith
  have hN0 : 0 ≤ N := le_trans (mul_nonneg (pow_nonneg hu1.le 4) hS0) n1
  set T := (1 / 2) * (|px| + |py|) with hT
  have hT0 : 0 < T := by rw [hT]; linarith
  have ha := hA.add |px| |py|
  unfold Rounds at ha
  rw [abs_of_pos hs] at ha
  have ha' := abs_le.1 ha
  set B := A.add |px| |py|
  have hB0 : 0 ≤ B := by nlinarith
  have hm := hA.mul (1 / 2) B
  unfold Rounds at hm
  rw [abs_of_nonneg (by linarith : 0 ≤ 1 / 2 * B)] at hm
  have hm' := abs_le.1 hm
  set D := A.mul (1 / 2) B with hD
  have d1 : (1 - u) ^ 2 * T ≤ D := by
    have : (1 - u) * ((1 - u) * T) ≤ (1 - u) * (1 / 2 * B) := mul_le_mul_of_nonneg_left (by rw [hT]; linarith) hu1.le
    rw [show (1 - u) ^ 2 * T = (1 - u) * ((1 - u) * T) by ring]
    linarith
  have d2 : D ≤ (1 + u) ^ 2 * T := by
    have : (1 + u) * (1 / 2 * B) ≤ (1 + u) * ((1 + u) * T) := mul_le_mul_of_nonneg_left (by rw [hT]; linarith) (by linarith)
    rw [show (1 + u) ^ 2 * T = (1 + u) * ((1 + u) * T) by ring]
    linarith
  have hD0 : 0 < D := lt_of_lt_of_le (mul_pos (pow_pos hu1 2) hT0) d1
  have hv := hA.div N D hD0.ne'
  unfold Rounds at hv
  have hND : 0 ≤ N / D := div_nonneg hN0 hD0.le
  rw [abs_of_nonneg hND] at hv
  change |v - N / D| ≤ u * (N / D) at hv
  have hv' := abs_le.1 hv
  have hw : w = S / T := rfl
  have hw0 : 0 ≤ w := div_nonneg hS0 hT0.le
  have f1 : (1 - u) ^ 4 / (1 + u) ^ 2 * w ≤ N / D := by
    rw [hw, div_mul_div_comm]
    exact div_le_div₀ hN0 n1 hD0 d2
  have f2 : N / D ≤ (1 + u) ^ 4 / (1 - u) ^ 2 * w := by
    rw [hw, div_mul_div_comm]
    exact div_le_div₀ (mul_nonneg (by positivity) hS0) n2 (mul_pos (pow_pos hu1 2) hT0) d1
  have g1 : (1 - u) ^ 5 / (1 + u) ^ 2 * w ≤ v := by
    have : (1 - u) * ((1 - u) ^ 4 / (1 + u) ^ 2 * w) ≤ (1 - u) * (N / D) := mul_le_mul_of_nonneg_left f1 hu1.le
    rw [show (1 - u) ^ 5 / (1 + u) ^ 2 * w = (1 - u) * ((1 - u) ^ 4 / (1 + u) ^ 2 * w) by ring]
    linarith
  have g2 : v ≤ (1 + u) ^ 5 / (1 - u) ^ 2 * w := by
    have : (1 + u) * (N / D) ≤ (1 + u) * ((1 + u) ^ 4 / (1 - u) ^ 2 * w) := mul_le_mul_of_nonneg_left f2 (by linarith)
    rw [show (1 + u) ^ 5 / (1 - u) ^ 2 * w = (1 + u) * ((1 + u) ^ 4 / (1 - u) ^ 2 * w) by ring]
    linarith
  have i1 := mul_le_mul_of_nonneg_right (size_low hu0 hu) hw0
  have i2 := mul_le_mul_of_nonneg_right (size_high hu0 hu) hw0
  exact ⟨le_trans (mul_nonneg (by linarith) hw0) (i1.trans g1), abs_le.2 ⟨by linarith, by linarith⟩⟩

theorem pyInt_bounds {v w e : K} (hv0 : 0 ≤ v) (hv : |v - w| ≤ e) :
    (∀ n : ℤ, (n : K) + e ≤ w → n ≤ pyInt v) ∧ (∀ n : ℤ, w + e < n + 1 → pyInt v ≤ n) := by
  have h := abs_le.1 hv
  rw [pyInt_floor hv0]
  refine ⟨fun n hn => Int.le_floor.2 (by linarith), fun n hn => ?_⟩
  have : ⌊v⌋ < n + 1 := Int.floor_lt.2 (by push_cast; linarith)
  omega

/-- The two quotients whose integer parts are the size of the epipolar image. -/
theorem quotients_near (hA : A.RoundsBy u) (hu0 : 0 ≤ u) (hu : u ≤ 1 / 100) (c s : K) (im : LeftImage K)
    (hs : 0 < |im.pixelSizeCol| + |im.pixelSizeRow|) : ∃ vr vc : K, imageSizeA A c s im = (pyInt vr, pyInt vc) ∧ 0 ≤ vr ∧ 0 ≤ vc ∧
      |vr - epiHeight c s im| ≤ 8 * u * epiHeight c s im ∧ |vc - epiWidth c s im| ≤ 8 * u * epiWidth c s im := by
  have h1 := dim_near hA hu0 hu (-s) c im.nbCols im.nbRows im.pixelSizeCol im.pixelSizeRow hs
  have h2 := dim_near hA hu0 hu c s im.nbCols im.nbRows im.pixelSizeCol im.pixelSizeRow hs
  refine ⟨_, _, rfl, h1.1, h2.1, ?_, ?_⟩
  · have e : epiHeight c s im = (|-s * (im.nbCols * im.pixelSizeCol)| + |c * (im.nbRows * im.pixelSizeRow)|) /
        ((1 / 2) * (|im.pixelSizeCol| + |im.pixelSizeRow|)) := by
      simp only [epiHeight, LeftImage.width, LeftImage.height, meanSpacing, abs_mul, abs_neg]
    rw [e]
    exact h1.2
  · have e : epiWidth c s im = (|c * (im.nbCols * im.pixelSizeCol)| + |s * (im.nbRows * im.pixelSizeRow)|) /
        ((1 / 2) * (|im.pixelSizeCol| + |im.pixelSizeRow|)) := by
      simp only [epiWidth, LeftImage.width, LeftImage.height, meanSpacing, abs_mul]
    rw [e]
    exact h2.2

/-- C114. The size of the epipolar image computed in floating point counts at least the pixels that hold in the exact box reduced by a relative
`8 u`, and at most those of the box enlarged by as much. -/
theorem C114_image_size (hA : A.RoundsBy u) (hu0 : 0 ≤ u) (hu : u ≤ 1 / 100) (c s : K) (im : LeftImage K)
    (hs : 0 < |im.pixelSizeCol| + |im.pixelSizeRow|) (n : ℤ) :
    ((n : K) + 8 * u * epiWidth c s im ≤ epiWidth c s im → n ≤ (imageSizeA A c s im).2) ∧
    (epiWidth c s im + 8 * u * epiWidth c s im < n + 1 → (imageSizeA A c s im).2 ≤ n) ∧
    ((n : K) + 8 * u * epiHeight c s im ≤ epiHeight c s im → n ≤ (imageSizeA A c s im).1) ∧
    (epiHeight c s im + 8 * u * epiHeight c s im < n + 1 → (imageSizeA A c s im).1 ≤ n) := by
  obtain ⟨vr, vc, e, r0, c0, hr, hc⟩ := quotients_near hA hu0 hu c s im hs
  rw [e]
  exact ⟨(pyInt_bounds c0 hc).1 n, (pyInt_bounds c0 hc).2 n, (pyInt_bounds r0 hr).1 n, (pyInt_bounds r0 hr).2 n⟩

theorem epi_nonneg (c s : K) (im : LeftImage K) : 0 ≤ epiWidth c s im ∧ 0 ≤ epiHeight c s im := by
  unfold epiWidth epiHeight meanSpacing
  constructor <;> positivity

/-- C114. It differs by at most one pixel in each dimension from the integer parts of the exact dimensions of the box (the size of the exact model), as
long as the dimensions times `8 u` are below one pixel. -/
theorem C114_one_pixel (hA : A.RoundsBy u) (hu0 : 0 ≤ u) (hu : u ≤ 1 / 100) (c s alt : K) (im : LeftImage K)
    (hs : 0 < |im.pixelSizeCol| + |im.pixelSizeRow|) (h1 : 8 * u * epiWidth c s im < 1) (h2 : 8 * u * epiHeight c s im < 1) (epiStep : K)
    (margin : ℤ) :
    let p := prepareRectification c s alt im epiStep margin
    |(imageSizeA A c s im).2 - p.imageCols| ≤ 1 ∧ |(imageSizeA A c s im).1 - p.imageRows| ≤ 1 := by
  intro p
  obtain ⟨w0, w1⟩ := epi_nonneg c s im
  have e1 : p.imageCols = ⌊epiWidth c s im⌋ := by
    change pyInt (((epipolarBox c s im).maxx - (epipolarBox c s im).minx) / meanSpacing im) = _
    rw [(C46_box_size c s im).1]
    exact pyInt_floor w0
  have e2 : p.imageRows = ⌊epiHeight c s im⌋ := by
    change pyInt (((epipolarBox c s im).maxy - (epipolarBox c s im).miny) / meanSpacing im) = _
    rw [(C46_box_size c s im).2]
    exact pyInt_floor w1
  rw [e1, e2]
  have a1 := Int.floor_le (epiWidth c s im)
  have a2 := Int.lt_floor_add_one (epiWidth c s im)
  have b1 := Int.floor_le (epiHeight c s im)
  have b2 := Int.lt_floor_add_one (epiHeight c s im)
  have k1 := (C114_image_size hA hu0 hu c s im hs (⌊epiWidth c s im⌋ - 1)).1 (by push_cast; linarith)
  have k2 := (C114_image_size hA hu0 hu c s im hs (⌊epiWidth c s im⌋ + 1)).2.1 (by push_cast; linarith)
  have k3 := (C114_image_size hA hu0 hu c s im hs (⌊epiHeight c s im⌋ - 1)).2.2.1 (by push_cast; linarith)
  have k4 := (C114_image_size hA hu0 hu c s im hs (⌊epiHeight c s im⌋ + 1)).2.2.2 (by push_cast; linarith)
  exact ⟨abs_le.2 ⟨by linarith, by linarith⟩, abs_le.2 ⟨by linarith, by linarith⟩⟩

/-- The operations keep the results that are whole numbers of at most 53 bits. -/
structure Arith.KeepsWhole (A : Arith K) : Prop where
  add : ∀ (x y : K) (n : ℤ), |n| ≤ 2 ^ 53 → x + y = n → A.add x y = n
  div : ∀ (x y : K) (n : ℤ), |n| ≤ 2 ^ 53 → x / y = n → A.div x y = n

/-- C114. The number of nodes of a dimension, for an epipolar image of `size` pixels and a whole step: it is computed exactly. -/
theorem C114_grid_size (hA : A.RoundsBy u) (hw : A.KeepsWhole) (hu0 : 0 ≤ u) (size : ℤ) (h0 : 0 ≤ size) (h53 : size ≤ 2 ^ 52) (k : ℕ) (hk : 0 < k)
    (hu : u * (3 * size + 2 * k) < 1) (hu1 : u ≤ 1 / 100) (margin : ℤ) : gridSizeA A size (k : K) margin = size / (k : ℤ) + 2 + 2 * margin := by
  have hk' : (0 : K) < k := by exact_mod_cast hk
  have hkz : (0 : ℤ) < k := by exact_mod_cast hk
  have hs0 : (0 : K) ≤ size := by exact_mod_cast h0
  have hq0 : 0 ≤ size / (k : ℤ) := Int.ediv_nonneg h0 hkz.le
  have hq1 : size / (k : ℤ) ≤ size := Int.ediv_le_self _ h0
  have hdm := Int.mul_ediv_add_emod size k
  have hr0 := Int.emod_nonneg size hkz.ne'
  have hr1 := Int.emod_lt_of_pos size hkz
  unfold gridSizeA
  congr 1
  set q := size / (k : ℤ)
  set r := size % (k : ℤ)
  have hsK : (size : K) = k * q + r := by rw [← hdm]; push_cast; ring
  have hdiv : (size : K) / k = q + r / k := by rw [hsK]; field_simp
  by_cases hr : r = 0
  · have e : A.div (size : K) k = q := hw.div _ _ q (abs_le.2 ⟨by linarith, by linarith⟩) (by rw [hdiv, hr]; simp)
    rw [e, hw.add (q : K) 2 (q + 2) (abs_le.2 ⟨by linarith, by linarith⟩) (by push_cast; ring)]
    rw [pyInt_floor (by exact_mod_cast (by omega : 0 ≤ q + 2)), Int.floor_intCast]
  · have r1 : (1 : K) ≤ r := by exact_mod_cast (by omega : 1 ≤ r)
    have r2 : (r : K) ≤ k - 1 := by
      have : r ≤ (k : ℤ) - 1 := by omega
      have h : ((r : ℤ) : K) ≤ (((k : ℤ) - 1 : ℤ) : K) := by exact_mod_cast this
      simpa using h
    have hd := hA.div (size : K) k hk'.ne'
    have ha := hA.add (A.div (size : K) k) 2
    unfold Rounds at hd ha
    set x := (size : K) / k
    have hx0 : 0 ≤ x := div_nonneg hs0 hk'.le
    rw [abs_of_nonneg hx0] at hd
    have hd' := abs_le.1 hd
    set y := A.div (size : K) k
    have hux : u * x ≤ 1 / 100 * x := mul_le_mul_of_nonneg_right hu1 hx0
    have hy0 : 0 ≤ y := by linarith
    rw [abs_of_nonneg (by linarith : 0 ≤ y + 2)] at ha
    have ha' := abs_le.1 ha
    set z := A.add y 2
    have hyx : y ≤ 2 * x := by linarith
    have huy : u * y ≤ u * (2 * x) := mul_le_mul_of_nonneg_left hyx hu0
    have herr : |z - (x + 2)| ≤ u * (3 * x + 2) := abs_le.2 ⟨by linarith, by linarith⟩
    have hxk : x * k = size := div_mul_cancel₀ _ hk'.ne'
    have hsmall : u * (3 * x + 2) < 1 / k := by
      rw [lt_div_iff₀ hk']
      calc u * (3 * x + 2) * k = u * (3 * (x * k) + 2 * k) := by ring
        _ = u * (3 * size + 2 * k) := by rw [hxk]
        _ < 1 := hu
    have h' := abs_le.1 herr
    have hk1 : 1 / (k : K) ≤ r / k := div_le_div_of_nonneg_right r1 hk'.le
    have hk2 : (r : K) / k ≤ 1 - 1 / k := by
      have : (r : K) / k ≤ (k - 1) / k := div_le_div_of_nonneg_right r2 hk'.le
      rwa [sub_div, div_self hk'.ne'] at this
    have hq0' : (0 : K) ≤ q := by exact_mod_cast hq0
    have z1 : (q : K) + 2 ≤ z := by linarith
    have z2 : z < (q : K) + 2 + 1 := by linarith
    rw [pyInt_floor (by linarith)]
    exact Int.floor_eq_iff.2 ⟨by push_cast; linarith, by push_cast; linarith⟩

/-- C114. The nodes, margins excluded, span more than the exact box reduced by a relative `8 u`, even when the size of the epipolar image is one pixel
short. -/
theorem C114_covers (hA : A.RoundsBy u) (hw : A.KeepsWhole) (hu0 : 0 ≤ u) (hu : u ≤ 1 / 100) (c s : K) (im : LeftImage K)
    (hs : 0 < |im.pixelSizeCol| + |im.pixelSizeRow|) (k : ℕ) (hk : 0 < k) (margin : ℤ)
    (h1 : (imageSizeA A c s im).2 ≤ 2 ^ 52) (h2 : u * (3 * (imageSizeA A c s im).2 + 2 * k) < 1)
    (h3 : (imageSizeA A c s im).1 ≤ 2 ^ 52) (h4 : u * (3 * (imageSizeA A c s im).1 + 2 * k) < 1) :
    epiWidth c s im - 8 * u * epiWidth c s im < ((gridSizeA A (imageSizeA A c s im).2 (k : K) margin - 2 * margin : ℤ) - 1) * k ∧
    epiHeight c s im - 8 * u * epiHeight c s im < ((gridSizeA A (imageSizeA A c s im).1 (k : K) margin - 2 * margin : ℤ) - 1) * k := by
  obtain ⟨vr, vc, e, r0, c0, hr, hc⟩ := quotients_near hA hu0 hu c s im hs
  have hkz : (0 : ℤ) < k := by exact_mod_cast hk
  have key : ∀ v w : K, 0 ≤ v → |v - w| ≤ 8 * u * w → pyInt v ≤ 2 ^ 52 → u * (3 * (pyInt v : ℤ) + 2 * k) < 1 →
      w - 8 * u * w < ((gridSizeA A (pyInt v) (k : K) margin - 2 * margin : ℤ) - 1) * k := by
    intro v w hv0 hv h5 h6
    rw [pyInt_floor hv0] at h5 h6 ⊢
    rw [C114_grid_size hA hw hu0 ⌊v⌋ (Int.floor_nonneg.2 hv0) h5 k hk h6 hu margin]
    have hb : ⌊v⌋ + 1 ≤ (⌊v⌋ / (k : ℤ) + 1) * k := by
      have hdm := Int.mul_ediv_add_emod ⌊v⌋ k
      have hr1 := Int.emod_lt_of_pos ⌊v⌋ hkz
      nlinarith
    have hb' : ((⌊v⌋ : ℤ) : K) + 1 ≤ (((⌊v⌋ / (k : ℤ) : ℤ) : K) + 1) * k := by exact_mod_cast hb
    have hl := Int.lt_floor_add_one v
    have h7 := abs_le.1 hv
    push_cast
    rw [show (((⌊v⌋ / (k : ℤ) : ℤ) : K) + 2 + 2 * (margin : K) - 2 * margin - 1) * k = (((⌊v⌋ / (k : ℤ) : ℤ) : K) + 1) * k by ring]
    linarith
  rw [e] at h1 h2 h3 h4 ⊢
  exact ⟨key vc _ c0 hc h1 h2, key vr _ r0 hr h3 h4⟩

/-- C114, a defect: with doubles, an image of 30001 columns of size 7/10 whose epipolar lines are along its rows gives an epipolar image of 30000 columns,
and one of 43 columns of size 1/10 an epipolar image of 42 columns, although the boxes have exactly 30001 and 43 pixels. -/
theorem C114_loses_a_pixel :
    let im : ℕ → ℚ → LeftImage ℚ := fun n px => ⟨1000, n, px, px, Affine.mk px 0 0 0 px 0⟩
    imageSizeA arith53 1 0 (im 30001 (rnd53 (7 / 10))) = (1000, 30000) ∧ epiWidth 1 0 (im 30001 (rnd53 (7 / 10))) = 30001 ∧
    imageSizeA arith53 1 0 (im 43 (rnd53 (1 / 10))) = (1000, 42) ∧ epiWidth 1 0 (im 43 (rnd53 (1 / 10))) = 43 := by
  decide +kernel

/-- C114: with exact operations these are the sizes of `prepareRectification`. -/
theorem C114_exact (c s alt : K) (im : LeftImage K) (epiStep : K) (margin : ℤ) :
    let p := prepareRectification c s alt im epiStep margin
    imageSizeA Arith.exact c s im = (p.imageRows, p.imageCols) ∧ gridSizeA Arith.exact p.imageRows epiStep margin = p.gridRows ∧
      gridSizeA Arith.exact p.imageCols epiStep margin = p.gridCols := by
  intro p
  refine ⟨?_, rfl, rfl⟩
  simp only [imageSizeA, epipolarBoxA, meanSpacingA, Arith.exact, mul_assoc]
  rfl

/-- C114: doubles keep the whole numbers. -/
theorem arith53_keeps : arith53.KeepsWhole := by
  have h : ∀ (x : ℚ) (n : ℤ), |n| ≤ 2 ^ 53 → x = n → rnd53 x = n := by
    intro x n hn hx
    have := rnd53_keeps (K := ℚ) n 0 hn
    rw [hx]
    simpa using this
  exact ⟨fun x y n hn hx => h _ n hn hx, fun x y n hn hx => h _ n hn hx⟩

/-- C114, a case: a rotated image (cosine 3/5, sine 4/5) with doubles, step 30, margin 1. -/
example : let im : LeftImage ℚ := ⟨1000, 2000, 1 / 2, 1 / 2, ⟨1 / 2, 0, 0, 0, 1 / 2, 0⟩⟩
    (imageSizeA arith53 (rnd53 (3 / 5)) (rnd53 (4 / 5)) im).2 ≤ 2 ^ 52 ∧
    (doubleUnit : ℚ) * (3 * (imageSizeA arith53 (rnd53 (3 / 5)) (rnd53 (4 / 5)) im).2 + 2 * (30 : ℕ)) < 1 ∧
    0 < |im.pixelSizeCol| + |im.pixelSizeRow| ∧ 8 * doubleUnit * epiWidth (rnd53 (3 / 5)) (rnd53 (4 / 5)) im < 1 ∧
    gridSizeA arith53 (imageSizeA arith53 (rnd53 (3 / 5)) (rnd53 (4 / 5)) im).2 (30 : ℕ) 1 = 70 := by
  decide +kernel

end Shareloc
