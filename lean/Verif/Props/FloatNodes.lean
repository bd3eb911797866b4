import Verif.Model.FloatNodes
import Verif.Props.Float
import Verif.Props.RectGrid
import Verif.Props.Grid
import Mathlib.Tactic.Linarith
import Mathlib.Tactic.Ring
import Mathlib.Tactic.FieldSimp

/-! C92: the nodes of regular grids in floating point. -/

set_option linter.unusedSectionVars false

namespace Shareloc
variable {K : Type*} [Field K] [LinearOrder K] [IsStrictOrderedRing K] [FloorRing K]

/-- Rounding to the nearest keeps the numbers of 53 bits. -/
theorem rnd53_keeps : Keeps53 (rnd53 : K → K) := by
  intro a e ha
  unfold rnd53
  by_cases hx : (a : K) * 2 ^ e = 0
  · simp [hx]
  rw [if_neg hx]
  simp only
  have ha0 : a ≠ 0 := by rintro rfl; simp at hx
  have h2e : (0 : K) < 2 ^ e := by positivity
  have hx' : 0 < |(a : K) * 2 ^ e| := abs_pos.mpr hx
  have habs : |(a : K) * 2 ^ e| = (|a| : ℤ) * 2 ^ e := by rw [abs_mul, abs_of_pos h2e]; push_cast; ring
  set L := Int.log 2 |(a : K) * 2 ^ e| with hL
  have hlog : ((2 : ℕ) : K) ^ L ≤ |(a : K) * 2 ^ e| := Int.zpow_log_le_self (by norm_num) hx'
  have key : ∃ m : ℤ, (a : K) * 2 ^ e / 2 ^ (L - 52) = (m : K) := by
    by_cases hle : L - 52 ≤ e
    · obtain ⟨t, hk⟩ : ∃ t : ℕ, (t : ℤ) = e - (L - 52) := ⟨_, Int.toNat_of_nonneg (by linarith)⟩
      refine ⟨a * 2 ^ t, ?_⟩
      have : (2 : K) ^ e = 2 ^ (L - 52) * 2 ^ (e - (L - 52)) := by
        rw [← zpow_add₀ (by norm_num : (2 : K) ≠ 0)]; congr 1; ring
      rw [this, ← hk]
      push_cast
      rw [zpow_natCast]
      have h0 : (2 : K) ^ (L - 52) ≠ 0 := by positivity
      field_simp
    · have hge : e + 53 ≤ L := by omega
      -- then |a| = 2 ^ 53
      have h1 : (2 : K) ^ (e + 53) ≤ (|a| : ℤ) * 2 ^ e := by
        rw [← habs]; refine le_trans ?_ hlog; push_cast
        exact zpow_le_zpow_right₀ (by norm_num) hge
      have h3 : (2 : K) ^ 53 ≤ ((|a| : ℤ) : K) := by
        rw [zpow_add₀ (by norm_num : (2 : K) ≠ 0), mul_comm] at h1
        have := le_of_mul_le_mul_right h1 h2e
        exact_mod_cast this
      have h4 : |a| = 2 ^ 53 := by
        apply le_antisymm ha
        exact_mod_cast h3
      have h5 : L = e + 53 := by
        rw [hL, habs, h4]
        have : (((2 ^ 53 : ℤ)) : K) * 2 ^ e = ((2 : ℕ) : K) ^ (e + 53) := by
          push_cast
          rw [zpow_add₀ (by norm_num : (2 : K) ≠ 0)]; norm_cast; ring
        rw [this, Int.log_zpow (by norm_num)]
      have hz : (2 : K) ^ (L - 52) = 2 ^ e * 2 := by
        rw [h5, show e + 53 - 52 = e + 1 by ring, zpow_add₀ (by norm_num : (2 : K) ≠ 0)]; norm_num
      rcases abs_eq (by norm_num : (0 : ℤ) ≤ 2 ^ 53) |>.1 h4 with h | h
      · refine ⟨2 ^ 52, ?_⟩
        rw [hz, h]; push_cast; field_simp; norm_num
      · refine ⟨-2 ^ 52, ?_⟩
        rw [hz, h]; push_cast; field_simp; norm_num
  obtain ⟨m, hm⟩ := key
  rw [hm, round_intCast, ← hm]
  have h0 : (2 : K) ^ (L - 52) ≠ 0 := by positivity
  field_simp

/-! ### Exact nodes -/

theorem Keeps53.nat {rnd : K → K} (h : Keeps53 rnd) (n : ℕ) (hn : (n : ℤ) ≤ 2 ^ 53) : rnd (n : K) = n := by
  have := h (n : ℤ) 0 (by rw [abs_of_nonneg (by positivity)]; exact hn)
  simpa using this

/-- The sum of a dyadic start and of multiples of the step is kept. -/
theorem Dyadic53.keeps {rnd : K → K} (hk : Keeps53 rnd) {start step : K} {n : ℕ} (h : Dyadic53 start step n) :
    (∀ k ≤ n, rnd ((k : K) * step) = k * step ∧ rnd (start + k * step) = start + k * step) := by
  obtain ⟨e, a, b, rfl, rfl, hb⟩ := h
  intro k hkn
  have hk' : (k : ℤ) * |b| ≤ n * |b| := mul_le_mul_of_nonneg_right (by exact_mod_cast hkn) (abs_nonneg _)
  constructor
  · have := hk (k * b) e (by
      rw [abs_mul, abs_of_nonneg (by positivity : (0 : ℤ) ≤ k)]; linarith [abs_nonneg a])
    push_cast at this
    rw [← mul_assoc, this]
  · have := hk (a + k * b) e (by
      refine le_trans (abs_add_le _ _) ?_
      rw [abs_mul, abs_of_nonneg (by positivity : (0 : ℤ) ≤ k)]; linarith)
    push_cast at this
    rw [← mul_assoc, ← add_mul, this]

/-- C92. When the multiples of the step are numbers of 53 bits, there are as many nodes as asked, and they are exactly regular. -/
theorem C92_exact_nodes {rnd : K → K} (hk : Keeps53 rnd) (start step : K) (hs : step ≠ 0) (n : ℕ) (h : Dyadic53 start step n) :
    nodeCount rnd start step n = n ∧
    ∀ k < n, arangeNode rnd start step k = start + k * step ∧ mgridNode rnd start step k = start + k * step := by
  have hkeep := h.keeps hk
  have hcount : (n : ℤ) ≤ 2 ^ 53 := by
    obtain ⟨e, a, b, _, rfl, hb⟩ := h
    have hb0 : b ≠ 0 := by rintro rfl; simp at hs
    have : (1 : ℤ) ≤ |b| := Int.one_le_abs hb0
    have : (n : ℤ) * 1 ≤ n * |b| := mul_le_mul_of_nonneg_left this (by positivity)
    linarith [abs_nonneg a]
  constructor
  · unfold nodeCount arangeCount
    rw [mul_comm step, (hkeep n le_rfl).1, (hkeep n le_rfl).2, add_sub_cancel_left, (hkeep n le_rfl).1,
      mul_div_cancel_right₀ _ hs, hk.nat n hcount]
    simp
  · intro k hkn
    constructor
    · unfold arangeNode
      split
      · rename_i h0; simp [h0]
      split
      · rename_i h1; subst h1
        have := (hkeep 1 hkn.le).2
        simpa using this
      · have h1 : (1 : ℕ) ≤ n := by omega
        have e1 := hkeep 1 h1
        simp only [Nat.cast_one, one_mul] at e1
        rw [e1.2, add_sub_cancel_left, e1.1, (hkeep k hkn.le).1, (hkeep k hkn.le).2]
    · unfold mgridNode
      rw [(hkeep k hkn.le).1, add_comm, (hkeep k hkn.le).2]

/-- C92. In general there are as many nodes as asked or one more: never less, never two more, as long as the number of nodes and
the distance of the origin counted in steps are small compared to the precision. -/
theorem C92_one_more_at_most {u : K} (hu : 0 ≤ u) {rnd : K → K} (hr : ∀ x, Rounds u x (rnd x)) (start step : K) (hs : step ≠ 0)
    (n : ℕ) (hn : 1 ≤ n) (hb : 8 * u * (n + |start / step|) < 1) :
    nodeCount rnd start step n = n ∨ nodeCount rnd start step n = n + 1 := by
  have hs' := abs_pos.mpr hs
  have hn' : (1 : K) ≤ n := by exact_mod_cast hn
  have hA0 := abs_nonneg (start / step)
  have hA : |start| = |start / step| * |step| := by rw [← abs_mul, div_mul_cancel₀ _ hs]
  generalize |start / step| = A at hA hA0 hb
  have hu8 : 8 * u < 1 := by nlinarith
  set x1 := rnd (step * n) with hx1
  have h1 : |x1 - step * n| ≤ u * (|step| * n) := by
    have := hr (step * n)
    unfold Rounds at this
    rwa [abs_mul, Nat.abs_cast] at this
  set x2 := rnd (start + x1) with hx2
  have a1 : |x1| ≤ (1 + u) * (|step| * n) := by
    have := abs_add_le (x1 - step * n) (step * n)
    rw [sub_add_cancel, abs_mul, Nat.abs_cast] at this
    linarith
  have h2 : |x2 - (start + x1)| ≤ u * (A * |step| + (1 + u) * (|step| * n)) := by
    have := hr (start + x1)
    unfold Rounds at this
    refine le_trans this (mul_le_mul_of_nonneg_left ?_ hu)
    refine le_trans (abs_add_le _ _) ?_
    rw [hA]; linarith
  set x3 := rnd (x2 - start) with hx3
  set E := u * (A + (2 + u) * n) with hE
  have hE0 : 0 ≤ E := by positivity
  have h23 : |x2 - start - step * n| ≤ E * |step| := by
    have e : x2 - start - step * n = (x2 - (start + x1)) + (x1 - step * n) := by ring
    rw [e]
    refine le_trans (abs_add_le _ _) (le_trans (add_le_add h2 h1) (le_of_eq ?_))
    rw [hE]; ring
  have h23' : |x2 - start| ≤ (n + E) * |step| := by
    have := abs_add_le (x2 - start - step * n) (step * n)
    rw [sub_add_cancel, abs_mul, Nat.abs_cast] at this
    linarith
  have h3 : |x3 - (x2 - start)| ≤ u * ((n + E) * |step|) := by
    have := hr (x2 - start)
    unfold Rounds at this
    exact le_trans this (mul_le_mul_of_nonneg_left h23' hu)
  have h4 : |x3 / step - n| ≤ E + u * (n + E) := by
    have e : x3 / step - n = ((x3 - (x2 - start)) + (x2 - start - step * n)) / step := by field_simp; ring
    rw [e, abs_div, div_le_iff₀ hs']
    refine le_trans (abs_add_le _ _) ?_
    linarith
  have h4' : |x3 / step| ≤ n + E + u * (n + E) := by
    have := abs_add_le (x3 / step - n) (n : K)
    rw [sub_add_cancel, Nat.abs_cast] at this
    linarith
  have h5 : |rnd (x3 / step) - x3 / step| ≤ u * (n + E + u * (n + E)) := by
    have := hr (x3 / step)
    unfold Rounds at this
    exact le_trans this (mul_le_mul_of_nonneg_left h4' hu)
  have htot : |rnd (x3 / step) - n| ≤ E + u * (n + E) + u * (n + E + u * (n + E)) := by
    have e : rnd (x3 / step) - n = (rnd (x3 / step) - x3 / step) + (x3 / step - n) := by ring
    rw [e]
    refine le_trans (abs_add_le _ _) ?_
    linarith
  have hE1 : E ≤ u * A + 17 / 8 * (u * n) := by
    rw [hE]
    have : u * (u * n) ≤ 1 / 8 * (u * n) := mul_le_mul_of_nonneg_right (by linarith) (by positivity)
    linarith
  have huA : 0 ≤ u * A := by positivity
  have hun : 0 ≤ u * n := by positivity
  have hb' : 8 * (u * A) + 8 * (u * n) < 1 := by linarith
  have hEn : E ≤ n := by linarith
  have hlt : |rnd (x3 / step) - n| < 1 := by
    refine lt_of_le_of_lt htot ?_
    have hnE : u * (n + E) ≤ 2 * (u * n) := by
      have := mul_le_mul_of_nonneg_left hEn hu
      linarith
    have huu : u * (u * (n + E)) ≤ 1 / 8 * (2 * (u * n)) := by
      have := mul_le_mul (show u ≤ 1 / 8 by linarith) hnE (by positivity) (by norm_num)
      linarith
    have e : u * (n + E + u * (n + E)) = u * (n + E) + u * (u * (n + E)) := by ring
    rw [e]
    linarith
  rw [abs_lt] at hlt
  unfold nodeCount arangeCount
  rw [← hx1, ← hx2, ← hx3]
  have c1 : (n : ℤ) ≤ ⌈rnd (x3 / step)⌉ := by
    have : ((n : ℤ) - 1) < ⌈rnd (x3 / step)⌉ := by
      rw [Int.lt_ceil]; push_cast; linarith
    omega
  have c2 : ⌈rnd (x3 / step)⌉ ≤ (n : ℤ) + 1 := by
    rw [Int.ceil_le]; push_cast; linarith
  omega

/-! ### Rectification grids -/

theorem DyadicAxis.centre {rnd : K → K} (hk : Keeps53 rnd) {step rot origin : K} {n : ℕ} (h : DyadicAxis step rot origin n) :
    rnd (rnd (rnd (1 / 2 * step) + rnd (1 / 2 * rot)) + origin) = 1 / 2 * step + 1 / 2 * rot + origin ∧
    rnd (rnd (rnd (1 / 2 * rot) + rnd (1 / 2 * step)) + origin) = 1 / 2 * rot + 1 / 2 * step + origin ∧
    Dyadic53 (1 / 2 * step + 1 / 2 * rot + origin) step n := by
  obtain ⟨e, a, b, c, rfl, rfl, rfl, hb⟩ := h
  have hz : (2 : K) ^ e = 2 * 2 ^ (e - 1) := by
    rw [zpow_sub_one₀ (by norm_num : (2 : K) ≠ 0)]; field_simp
  have hn0 : (0 : ℤ) ≤ n * |a| := by positivity
  have h0a := abs_nonneg a
  have h0b := abs_nonneg b
  have h0c := abs_nonneg c
  have r1 := hk a (e - 1) (by linarith)
  have r2 := hk b (e - 1) (by linarith)
  have r3 := hk (a + b) (e - 1) (le_trans (abs_add_le _ _) (by linarith))
  have habs2 : |2 * c| = 2 * |c| := by rw [abs_mul]; norm_num
  have r4 := hk (a + b + 2 * c) (e - 1) (by
    refine le_trans (abs_add_le _ _) ?_
    have := abs_add_le a b
    linarith)
  push_cast at r3 r4
  have e1 : (1 / 2 : K) * ((a : K) * 2 ^ e) = a * 2 ^ (e - 1) := by rw [hz]; ring
  have e2 : (1 / 2 : K) * ((b : K) * 2 ^ e) = b * 2 ^ (e - 1) := by rw [hz]; ring
  have e3 : (a : K) * 2 ^ (e - 1) + b * 2 ^ (e - 1) = (a + b) * 2 ^ (e - 1) := by ring
  have e3' : (b : K) * 2 ^ (e - 1) + a * 2 ^ (e - 1) = (a + b) * 2 ^ (e - 1) := by ring
  have e4 : ((a : K) + b) * 2 ^ (e - 1) + c * 2 ^ e = (a + b + 2 * c) * 2 ^ (e - 1) := by rw [hz]; ring
  refine ⟨?_, ?_, e - 1, a + b + 2 * c, 2 * a, ?_, ?_, ?_⟩
  · rw [e1, e2, r1, r2, e3, r3, e4, r4]
  · rw [e1, e2, r1, r2, e3', r3, e4, r4]
  · rw [e1, e2, e3, e4]; push_cast; ring
  · rw [hz]; push_cast; ring
  · have := abs_add_le (a + b) (2 * c)
    have := abs_add_le a b
    have ha2 : |2 * a| = 2 * |a| := by rw [abs_mul]; norm_num
    rw [ha2]
    linarith

/-- C92. A grid whose geotransform and nodes are dyadic (whole, half... steps and origins) is read in floating point as in exact
arithmetic: same nodes; positions are those of the file, plus the nodes up to one rounding for displacement grids. -/
theorem C92_rectification_grid {rnd : K → K} (hk : Keeps53 rnd) {u : K} (hr : ∀ x, Rounds u x (rnd x)) (f : EpiFile K)
    (ha : f.transform.a ≠ 0) (he : f.transform.e ≠ 0)
    (hcol : DyadicAxis f.transform.a f.transform.b f.transform.c f.cols)
    (hrow : DyadicAxis f.transform.e f.transform.d f.transform.f f.rows) (displacement : Bool) :
    ∃ g, readRectGridFl rnd f displacement = .ok g ∧ g.nbCols = f.cols ∧ g.nbRows = f.rows ∧
      (∀ i < f.cols, g.colNode i = (readRectGrid f displacement).colNode i) ∧
      (∀ j < f.rows, g.rowNode j = (readRectGrid f displacement).rowNode j) ∧
      ∀ i < f.cols, ∀ j < f.rows,
        Rounds u ((readRectGrid f displacement).colPos i j) (g.colPos i j) ∧
        Rounds u ((readRectGrid f displacement).rowPos i j) (g.rowPos i j) ∧
        (displacement = false → g.colPos i j = f.band 1 j i ∧ g.rowPos i j = f.band 2 j i) := by
  obtain ⟨c1, -, d1⟩ := hcol.centre hk
  obtain ⟨-, c2, d2⟩ := hrow.centre hk
  rw [add_comm (1 / 2 * f.transform.e)] at d2
  have hu : 0 ≤ u := by
    have := hr 1
    unfold Rounds at this
    rw [abs_one, mul_one] at this
    exact le_trans (abs_nonneg _) this
  obtain ⟨n1, k1⟩ := C92_exact_nodes hk _ _ ha _ d1
  obtain ⟨n2, k2⟩ := C92_exact_nodes hk _ _ he _ d2
  simp only [readRectGridFl, centreFl, c1, c2, n1, n2, and_self, if_true]
  refine ⟨_, rfl, rfl, rfl, fun i hi => ?_, fun j hj => ?_, fun i hi j hj => ?_⟩
  · exact (k1 i hi).1
  · exact (k2 j hj).1
  · simp only [readRectGrid, Affine.apply, (k1 i hi).2, (k2 j hj).2]
    cases displacement
    · refine ⟨?_, ?_, fun _ => ⟨rfl, rfl⟩⟩ <;> (unfold Rounds; simp; positivity)
    · simp only [if_true]
      exact ⟨hr _, hr _, fun h => absurd h (by simp)⟩

/-- C92. The displacement grids of the library with a whole step (or half, quarter... of a whole step): what is written is read
with the exact nodes. -/
theorem C92_written_grid {rnd : K → K} (hk : Keeps53 rnd) {u : K} (hr : ∀ x, Rounds u x (rnd x)) (m : ℕ) (hm : 0 < m) (e : ℤ)
    (rows cols : ℕ) (hsize : 2 * m * (max rows cols + 2) ≤ 2 ^ 52) (disp : ℕ → ℕ → V3 K) :
    ∃ g, readRectGridFl rnd (writeEpipolarGrid rows cols disp (displacementTransform ((m : K) * 2 ^ e)) true) true = .ok g ∧
      (∀ i < cols, g.colNode i = (m : K) * 2 ^ e * i) ∧ (∀ j < rows, g.rowNode j = (m : K) * 2 ^ e * j) ∧
      ∀ i < cols, ∀ j < rows, Rounds u ((disp j i).y + (m : K) * 2 ^ e * i) (g.colPos i j) ∧
        Rounds u ((disp j i).x + (m : K) * 2 ^ e * j) (g.rowPos i j) := by
  have hz : (2 : K) ^ e = 2 * 2 ^ (e - 1) := by
    rw [zpow_sub_one₀ (by norm_num : (2 : K) ≠ 0)]; field_simp
  have hax (n : ℕ) (hn : n ≤ max rows cols) :
      DyadicAxis ((m : K) * 2 ^ e) 0 (-((m : K) * 2 ^ e * (1 / 2))) n := by
    refine ⟨e - 1, 2 * m, 0, -m, ?_, ?_, ?_, ?_⟩
    · rw [hz]; push_cast; ring
    · simp
    · rw [hz]; push_cast; ring
    · have h1 : |(2 * m : ℤ)| = 2 * m := abs_of_nonneg (by positivity)
      have h2 : |(-m : ℤ)| = m := by rw [abs_neg]; exact abs_of_nonneg (by positivity)
      rw [h1, h2, abs_zero]
      have h3 : 2 * m * (n + 2) ≤ 2 ^ 52 := le_trans (Nat.mul_le_mul_left _ (by omega)) hsize
      have h4 : (2 * m * (n + 2) : ℤ) ≤ 2 ^ 52 := by exact_mod_cast h3
      have : (0 : ℤ) ≤ m := by positivity
      linarith
  have hm0 : (m : K) * 2 ^ e ≠ 0 := by
    have : (m : K) ≠ 0 := by exact_mod_cast hm.ne'
    positivity
  obtain ⟨g, hg, -, -, h1, h2, h3⟩ := C92_rectification_grid hk hr
    (writeEpipolarGrid rows cols disp (displacementTransform ((m : K) * 2 ^ e)) true) hm0 hm0
    (hax cols (le_max_right _ _)) (hax rows (le_max_left _ _)) true
  have hn (k : ℕ) : 1 / 2 * ((m : K) * 2 ^ e) + 1 / 2 * 0 + -((m : K) * 2 ^ e * (1 / 2)) + k * ((m : K) * 2 ^ e) = (m : K) * 2 ^ e * k := by
    ring
  have hn' (k : ℕ) : 1 / 2 * 0 + 1 / 2 * ((m : K) * 2 ^ e) + -((m : K) * 2 ^ e * (1 / 2)) + k * ((m : K) * 2 ^ e) = (m : K) * 2 ^ e * k := by
    ring
  simp only [readRectGrid, writeEpipolarGrid, displacementTransform, Affine.apply, hn, hn', if_true] at h1 h2 h3
  refine ⟨g, hg, h1, h2, fun i hi j hj => ?_⟩
  obtain ⟨k1, k2, -⟩ := h3 i hi j hj
  exact ⟨by simpa using k1, by simpa using k2⟩

/-- C92, limit: with another step the grid that the library wrote may not be readable: the displacement grids of step 0.1 with three rows,
or with three columns. -/
theorem C92_tenth_step_counterexample (rows cols : ℕ) (hsize : rows = 3 ∨ cols = 3) (disp : ℕ → ℕ → V3 ℚ) :
    readRectGridFl rnd53 (writeEpipolarGrid rows cols disp (displacementTransform (rnd53 (1 / 10))) true) true = .error .valueError ∧
    nodeCount rnd53 (0 : ℚ) (rnd53 (1 / 10)) 3 = 4 := by
  have h1 : nodeCount rnd53 (0 : ℚ) (rnd53 (1 / 10)) 3 = 4 := by decide +kernel
  have h2 : centreFl (K := ℚ) rnd53 (displacementTransform (rnd53 (1 / 10))) = (0, 0) := by decide +kernel
  refine ⟨?_, h1⟩
  simp only [readRectGridFl, writeEpipolarGrid, h2]
  rw [if_neg]
  simp only [displacementTransform]
  rcases hsize with rfl | rfl
  · rw [h1]; omega
  · rw [h1]; omega

/-! ### Multilayer grids -/

/-- C92. The interpolator of a grid whose origin and steps are dyadic is made, on the exact nodes. -/
theorem C92_grid_nodes {rnd : K → K} (hk : Keeps53 rnd) (row0 col0 steprow stepcol : K) (nbrow nbcol : ℕ) (h1 : steprow ≠ 0)
    (h2 : stepcol ≠ 0) (hrow : Dyadic53 row0 steprow nbrow) (hcol : Dyadic53 col0 stepcol nbcol) :
    ∃ rows cols, gridNodesFl rnd row0 col0 steprow stepcol nbrow nbcol = .ok (rows, cols) ∧
      (∀ i < nbrow, rows i = row0 + i * steprow) ∧ ∀ j < nbcol, cols j = col0 + j * stepcol := by
  obtain ⟨n1, k1⟩ := C92_exact_nodes hk _ _ h1 _ hrow
  obtain ⟨n2, k2⟩ := C92_exact_nodes hk _ _ h2 _ hcol
  exact ⟨_, _, by simp only [gridNodesFl, n1, n2, and_self, if_true], fun i hi => (k1 i hi).1, fun j hj => (k2 j hj).1⟩

/-- C92, limit: a grid of 3 rows with steps of 0.1 cannot be loaded. -/
theorem C92_grid_counterexample : ∃ e, gridNodesFl (rnd53 : ℚ → ℚ) 0 0 (rnd53 (1 / 10)) 1 3 3 = .error e := by
  have h1 : nodeCount rnd53 (0 : ℚ) (rnd53 (1 / 10)) 3 = 4 := by decide +kernel
  refine ⟨.badSizes, ?_⟩
  simp only [gridNodesFl, h1]
  rw [if_neg (by omega)]

theorem gridDirectLocH_length (g : MultiGrid K) (pts : List (K × K)) (alt : K) :
    ∃ l, gridDirectLocH g (pts.map fun p => some p.1) (pts.map fun p => some p.2) [some alt] = .ok l ∧ l.length = pts.length := by
  have hb : broadcastAlt pts.length [some alt] = .ok (List.replicate pts.length (some alt)) := by
    by_cases h : pts.length = 1
    · simp [broadcastAlt, h]
    · simp only [broadcastAlt, List.length_cons, List.length_nil]
      rw [if_neg (by omega)]
  refine ⟨(List.map (fun t => gridPoint g t.1 t.2.1 t.2.2) ((pts.map fun p => some p.1).zip
    ((pts.map fun p => some p.2).zip (List.replicate pts.length (some alt))))), ?_, by simp⟩
  simp only [gridDirectLocH, List.length_map, hb, if_true]

/-- C92. With dyadic origin and steps, `direct_loc_grid_h` is the one of exact nodes (C32). -/
theorem C92_location_grid {rnd : K → K} (hk : Keeps53 rnd) (g : MultiGrid K) (row0 col0 steprow stepcol : K) (nbrow nbcol : ℕ)
    (alt : K) (h1 : steprow ≠ 0) (h2 : stepcol ≠ 0) (hrow : Dyadic53 row0 steprow nbrow) (hcol : Dyadic53 col0 stepcol nbcol) :
    gridDirectLocGridHFl rnd g row0 col0 steprow stepcol nbrow nbcol alt =
      gridDirectLocGridH g row0 col0 steprow stepcol nbrow nbcol alt := by
  obtain ⟨n1, k1⟩ := C92_exact_nodes hk _ _ h1 _ hrow
  obtain ⟨n2, k2⟩ := C92_exact_nodes hk _ _ h2 _ hcol
  have hpts : ((List.range nbrow).flatMap fun (i : ℕ) => (List.range nbcol).map fun (j : ℕ) =>
      (arangeNode rnd row0 steprow i, arangeNode rnd col0 stepcol j)) = meshIj row0 col0 steprow stepcol nbrow nbcol := by
    unfold meshIj
    apply List.flatMap_congr
    intro i hi
    apply List.map_congr_left
    intro j hj
    rw [(k1 i (List.mem_range.1 hi)).1, (k2 j (List.mem_range.1 hj)).1]
  obtain ⟨l, hl, hlen⟩ := gridDirectLocH_length g (meshIj row0 col0 steprow stepcol nbrow nbcol) alt
  have hm : (meshIj row0 col0 steprow stepcol nbrow nbcol).length = nbrow * nbcol := by
    simp [meshIj, List.length_flatMap]
  simp only [gridDirectLocGridHFl, gridDirectLocGridH, n1, n2, hpts, hl]
  rw [if_pos (by rw [hlen, hm])]

/-- C92. When one of the axes has one more node, `direct_loc_grid_h` raises. -/
theorem C92_location_grid_raises (rnd : K → K) (g : MultiGrid K) (row0 col0 steprow stepcol : K) (nbrow nbcol : ℕ) (alt : K)
    (hn : 1 ≤ nbrow) (hm : 1 ≤ nbcol)
    (hrow : nbrow ≤ nodeCount rnd row0 steprow nbrow) (hcol : nbcol ≤ nodeCount rnd col0 stepcol nbcol)
    (h : nbrow < nodeCount rnd row0 steprow nbrow ∨ nbcol < nodeCount rnd col0 stepcol nbcol) :
    gridDirectLocGridHFl rnd g row0 col0 steprow stepcol nbrow nbcol alt = .error .badSizes := by
  unfold gridDirectLocGridHFl
  generalize nodeCount rnd row0 steprow nbrow = nr at *
  generalize nodeCount rnd col0 stepcol nbcol = nc at *
  obtain ⟨l, hl, hlen⟩ := gridDirectLocH_length g ((List.range nr).flatMap fun (i : ℕ) => (List.range nc).map fun (j : ℕ) =>
    (arangeNode rnd row0 steprow i, arangeNode rnd col0 stepcol j)) alt
  have hp : l.length = nr * nc := by rw [hlen]; simp [List.length_flatMap]
  simp only [hl]
  rw [if_neg]
  rw [hp]
  rcases h with h | h
  · have h1 : nbrow * nbcol < nr * nbcol := Nat.mul_lt_mul_of_pos_right h hm
    have h2 : nr * nbcol ≤ nr * nc := Nat.mul_le_mul_left _ hcol
    omega
  · have h1 : nbrow * nbcol < nbrow * nc := Nat.mul_lt_mul_of_pos_left h hn
    have h2 : nbrow * nc ≤ nr * nc := Nat.mul_le_mul_right _ hrow
    omega

/-- The step of the default 3 by 3 nodes of a dyadic axis. -/
theorem default_axis {rnd : K → K} (hk : Keeps53 rnd) (start step : K) (hs : step ≠ 0) (n : ℕ) (hn : 2 ≤ n)
    (h : DyadicAxis step 0 start (2 * n)) :
    rnd (rnd (rnd (start + rnd (step * ((n : K) - 1))) - start) / (((3 : ℕ) : K) - 1)) = step * ((n : K) - 1) / 2 ∧
    step * ((n : K) - 1) / 2 ≠ 0 ∧ Dyadic53 start (step * ((n : K) - 1) / 2) 3 := by
  obtain ⟨e, a, b, c, rfl, -, rfl, hb⟩ := h
  obtain ⟨m, rfl⟩ : ∃ m, n = m + 1 := ⟨n - 1, by omega⟩
  have hz : (2 : K) ^ e = 2 * 2 ^ (e - 1) := by
    rw [zpow_sub_one₀ (by norm_num : (2 : K) ≠ 0)]; field_simp
  push_cast at hb
  have h0a := abs_nonneg a
  have h0b := abs_nonneg b
  have h0c := abs_nonneg c
  have hm0 : (0 : ℤ) ≤ m * |a| := by positivity
  have hma : |a * m| = m * |a| := by rw [abs_mul, Nat.abs_cast, mul_comm]
  have r1 := hk (a * m) e (by rw [hma]; linarith)
  have r2 := hk (c + a * m) e (by refine le_trans (abs_add_le _ _) ?_; rw [hma]; linarith)
  have r3 := hk (a * m) (e - 1) (by rw [hma]; linarith)
  push_cast at r1 r2 r3 ⊢
  have e0 : (a : K) * 2 ^ e * ((m : K) + 1 - 1) = a * m * 2 ^ e := by ring
  have e1 : (c : K) * 2 ^ e + a * m * 2 ^ e = (c + a * m) * 2 ^ e := by ring
  have e2 : ((c : K) + a * m) * 2 ^ e - c * 2 ^ e = a * m * 2 ^ e := by ring
  have e3 : (a : K) * m * 2 ^ e / (3 - 1) = a * m * 2 ^ (e - 1) := by rw [hz]; ring
  have e4 : (a : K) * m * 2 ^ e / 2 = a * m * 2 ^ (e - 1) := by rw [hz]; ring
  refine ⟨?_, ?_, e - 1, 2 * c, a * m, ?_, ?_, ?_⟩
  · rw [e0, r1, e1, r2, e2, r1, e3, r3, e4]
  · have : (m : K) ≠ 0 := by
      have : m ≠ 0 := by omega
      exact_mod_cast this
    rw [e0]
    refine div_ne_zero ?_ (by norm_num)
    rw [show (a : K) * m * 2 ^ e = a * 2 ^ e * m by ring]
    exact mul_ne_zero hs this
  · rw [hz]; push_cast; ring
  · rw [e0, e4]; push_cast; ring
  · have hc2 : |2 * c| = 2 * |c| := by rw [abs_mul]; norm_num
    rw [hma, hc2]
    push_cast
    linarith

/-- C92. The default 3 by 3 nodes of the predictor of a grid with a dyadic origin and dyadic steps are made without error, and are the
exact ones. -/
theorem C92_default_predictor_nodes {rnd : K → K} (hk : Keeps53 rnd) (g : MultiGrid K) (alt : K) (h1 : g.steprow ≠ 0)
    (h2 : g.stepcol ≠ 0) (hr : 2 ≤ g.nbrow) (hc : 2 ≤ g.nbcol) (hrow : DyadicAxis g.steprow 0 g.row0 (2 * g.nbrow))
    (hcol : DyadicAxis g.stepcol 0 g.col0 (2 * g.nbcol)) :
    ∃ f, gridInAltitudeFl rnd g 3 3 alt = .ok f ∧ ∀ i j : ℕ, i < 3 → j < 3 →
      gridDirectLocH g [some (g.row0 + g.steprow * ((g.nbrow : K) - 1) * i / 2)]
        [some (g.col0 + g.stepcol * ((g.nbcol : K) - 1) * j / 2)] [some alt] = .ok [f i j] := by
  obtain ⟨s1, p1, d1⟩ := default_axis hk _ _ h1 _ hr hrow
  obtain ⟨s2, p2, d2⟩ := default_axis hk _ _ h2 _ hc hcol
  obtain ⟨f, hf, hf'⟩ := C32_grid_is_pointwise g g.row0 g.col0 (g.steprow * ((g.nbrow : K) - 1) / 2)
    (g.stepcol * ((g.nbcol : K) - 1) / 2) 3 3 alt
  refine ⟨f, ?_, fun i j hi hj => ?_⟩
  · simp only [gridInAltitudeFl, s1, s2]
    rw [C92_location_grid hk g _ _ _ _ 3 3 alt p1 p2 d1 d2, hf]
  · rw [← hf' i hi j hj]
    congr 4 <;> ring

/-- C92, limit: other sizes may raise although the steps are whole: 6 by 6 nodes on a grid of 28 rows and columns of step 1. -/
theorem C92_predictor_counterexample (g : MultiGrid ℚ) (h0 : g.row0 = 0) (h0' : g.col0 = 0) (h1 : g.steprow = 1) (h1' : g.stepcol = 1)
    (h2 : g.nbrow = 28) (h2' : g.nbcol = 28) (alt : ℚ) : gridInAltitudeFl rnd53 g 6 6 alt = .error .badSizes := by
  have e : rnd53 (rnd53 (rnd53 ((0 : ℚ) + rnd53 (1 * (((28 : ℕ) : ℚ) - 1))) - 0) / (((6 : ℕ) : ℚ) - 1)) = rnd53 (27 / 5) := by
    decide +kernel
  have hc : nodeCount rnd53 (0 : ℚ) (rnd53 (27 / 5)) 6 = 7 := by decide +kernel
  unfold gridInAltitudeFl
  rw [h0, h0', h1, h1', h2, h2']
  simp only [e]
  exact C92_location_grid_raises rnd53 g 0 0 _ _ 6 6 alt (by norm_num) (by norm_num) (by omega) (by omega) (by omega)

/-! ### The hypotheses are met -/

example : Dyadic53 (1 / 2 : ℚ) 30 1000 := ⟨-1, 1, 60, by norm_num, by norm_num, by decide⟩

example : DyadicAxis (30 : ℚ) 0 (-15) 1000 := ⟨0, 30, 0, -15, by norm_num, by norm_num, by norm_num, by decide⟩

/-- A displacement grid of step 30 of the library, 2000 by 1000 nodes, is read in double precision. -/
example (disp : ℕ → ℕ → V3 ℚ) :
    ∃ g, readRectGridFl rnd53 (writeEpipolarGrid 2000 1000 disp (displacementTransform 30) true) true = .ok g ∧
      g.colNode 999 = 29970 := by
  obtain ⟨g, hg, h, -⟩ := C92_written_grid (K := ℚ) rnd53_keeps rnd53_rounds 30 (by norm_num) 0 2000 1000 (by norm_num) disp
  norm_num at hg h
  exact ⟨g, hg, by rw [h 999 (by norm_num)]; norm_num⟩

/-- The general bound for doubles: a million nodes, origin at most a billion steps away. -/
example (start step : ℚ) (hs : step ≠ 0) (n : ℕ) (hn : 1 ≤ n) (hn' : n ≤ 1000000) (h : |start / step| ≤ 1000000000) :
    nodeCount rnd53 start step n = n ∨ nodeCount rnd53 start step n = n + 1 := by
  refine C92_one_more_at_most (u := doubleUnit) (by unfold doubleUnit; positivity) rnd53_rounds start step hs n hn ?_
  have : (n : ℚ) ≤ 1000000 := by exact_mod_cast hn'
  unfold doubleUnit
  linarith

end Shareloc
