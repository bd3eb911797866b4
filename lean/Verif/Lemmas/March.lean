import Verif.Lemmas.Cube
import Verif.Lemmas.Bilinear

set_option linter.unusedSectionVars false
/-! Helper lemmas about one step of the DTM cell march. -/

namespace Shareloc
open Spec
variable {K : Type*} [Field K] [LinearOrder K] [IsStrictOrderedRing K] [FloorRing K]

/-- Along one axis: the position is in the closed cell and not on the side it moves towards. -/
structure AxisInv (p v : K) (c : ℤ) : Prop where
  lo : (c : K) ≤ p
  hi : p ≤ c + 1
  neg : v < 0 → (c : K) < p
  pos : 0 < v → p < c + 1

/-- What one step does along one axis. -/
def AxisMove (v : K) (c : ℤ) (p' : K) (c' : ℤ) : Prop :=
  (c' = c ∧ AxisInv p' v c) ∨ (v < 0 ∧ c' = c - 1 ∧ p' = c) ∨ (0 < v ∧ c' = c + 1 ∧ p' = c + 1)

theorem AxisMove.inv {v : K} {c c' : ℤ} {p' : K} (h : AxisMove v c p' c') : AxisInv p' v c' := by
  rcases h with ⟨rfl, h⟩ | ⟨hv, rfl, rfl⟩ | ⟨hv, rfl, rfl⟩
  · exact h
  · exact ⟨by push_cast; linarith, by push_cast; linarith, fun _ => by push_cast; linarith,
      fun h => absurd h (not_lt.mpr hv.le)⟩
  · exact ⟨by push_cast; linarith, by push_cast; linarith,
      fun h => absurd h (not_lt.mpr hv.le), fun _ => by push_cast; linarith⟩

theorem AxisMove.cell {v : K} {c c' : ℤ} {p' : K} (h : AxisMove v c p' c') : (c : K) ≤ p' ∧ p' ≤ c + 1 := by
  rcases h with ⟨rfl, h⟩ | ⟨hv, rfl, rfl⟩ | ⟨hv, rfl, rfl⟩
  · exact ⟨h.lo, h.hi⟩
  · exact ⟨le_refl _, by linarith⟩
  · exact ⟨by linarith, le_refl _⟩

theorem exit_low {p v e : K} {c : ℤ} (h : AxisInv p v c) (hv : v < 0) (he : p + e * v = c) :
    0 < e ∧ AxisMove v c (p + e * v) (c - 1) := by
  have := h.neg hv
  refine ⟨?_, .inr (.inl ⟨hv, rfl, he⟩)⟩
  by_contra hc
  have := mul_nonneg_of_nonpos_of_nonpos (not_lt.mp hc) hv.le
  linarith

theorem exit_high {p v e : K} {c : ℤ} (h : AxisInv p v c) (hv : 0 < v) (he : p + e * v = c + 1) :
    0 < e ∧ AxisMove v c (p + e * v) (c + 1) := by
  have := h.pos hv
  refine ⟨?_, .inr (.inr ⟨hv, rfl, he⟩)⟩
  by_contra hc
  have := mul_nonpos_of_nonpos_of_nonneg (not_lt.mp hc) hv.le
  linarith

theorem stay_open {p v e : K} {c : ℤ} (h1 : (c : K) < p + e * v) (h2 : p + e * v < c + 1) :
    AxisMove v c (p + e * v) c :=
  .inl ⟨rfl, h1.le, h2.le, fun _ => h1, fun _ => h2⟩

theorem stay_zero {p v e : K} {c : ℤ} (h : AxisInv p v c) (hv : v = 0) : AxisMove v c (p + e * v) c := by
  subst hv
  simp only [mul_zero, add_zero]
  exact .inl ⟨rfl, h⟩

theorem corner_low {p v e : K} {c : ℤ} (h : AxisInv p v c) (he : 0 < e) (hv : v ≠ 0) (hc : p + e * v = c) :
    AxisMove v c (p + e * v) (c - 1) := by
  have hneg : v < 0 := by
    rcases lt_or_gt_of_ne hv with h' | h'
    · exact h'
    · have := mul_pos he h'
      have := h.lo
      linarith
  exact (exit_low h hneg hc).2

theorem corner_high {p v e : K} {c : ℤ} (h : AxisInv p v c) (he : 0 < e) (hv : v ≠ 0) (hc : p + e * v = c + 1) :
    AxisMove v c (p + e * v) (c + 1) := by
  have hpos : 0 < v := by
    rcases lt_or_gt_of_ne hv with h' | h'
    · have := mul_neg_of_pos_of_neg he h'
      have := h.hi
      linarith
    · exact h'
  exact (exit_high h hpos hc).2

/-- Overshooting on the low side: the crossing of the low side comes before. -/
theorem over_low {p v e e' : K} {c : ℤ} (h : AxisInv p v c) (he : 0 < e) (hc : p + e * v < c)
    (he' : p + e' * v = c) : 0 < e' ∧ e' < e ∧ AxisMove v c (p + e' * v) (c - 1) := by
  have hneg : v < 0 := by
    by_contra h'
    have := mul_nonneg he.le (not_lt.mp h')
    have := h.lo
    linarith
  obtain ⟨h1, h2⟩ := exit_low h hneg he'
  refine ⟨h1, ?_, h2⟩
  by_contra h'
  have := mul_le_mul_of_nonpos_right (not_lt.mp h') hneg.le
  linarith

theorem over_high {p v e e' : K} {c : ℤ} (h : AxisInv p v c) (he : 0 < e) (hc : (c : K) + 1 < p + e * v)
    (he' : p + e' * v = c + 1) : 0 < e' ∧ e' < e ∧ AxisMove v c (p + e' * v) (c + 1) := by
  have hpos : 0 < v := by
    by_contra h'
    have := mul_nonpos_of_nonneg_of_nonpos he.le (not_lt.mp h')
    have := h.hi
    linarith
  obtain ⟨h1, h2⟩ := exit_high h hpos he'
  refine ⟨h1, ?_, h2⟩
  by_contra h'
  have := mul_le_mul_of_nonneg_right (not_lt.mp h') hpos.le
  linarith

/-- Before the crossing of the low side the axis stays strictly inside. -/
theorem before_low {p v e e' : K} {c : ℤ} (h : AxisInv p v c) (hv : v < 0) (hc : p + e * v = c)
    (h0 : 0 < e') (h1 : e' < e) : AxisMove v c (p + e' * v) c := by
  have := mul_lt_mul_of_neg_right h1 hv
  have := mul_neg_of_pos_of_neg h0 hv
  have := h.hi
  exact stay_open (by linarith) (by linarith)

theorem before_high {p v e e' : K} {c : ℤ} (h : AxisInv p v c) (hv : 0 < v) (hc : p + e * v = c + 1)
    (h0 : 0 < e') (h1 : e' < e) : AxisMove v c (p + e' * v) c := by
  have := mul_lt_mul_of_pos_right h1 hv
  have := mul_pos h0 hv
  have := h.lo
  exact stay_open (by linarith) (by linarith)

/-- Invariant of the cell loop: the current point is, horizontally, the point of parameter `α` of the
line carried by `v0` and `dir`, in the closed current cell, and not on a side it moves towards. -/
structure CellInv (v0 dir : V3 K) (s : March K) (α : K) : Prop where
  px : s.p2.x = v0.x + α * dir.x
  py : s.p2.y = v0.y + α * dir.y
  ax : AxisInv s.p2.x dir.x s.colC
  ay : AxisInv s.p2.y dir.y s.rowC

/-- What one step of the cell loop does. -/
structure StepSpec (v0 dir : V3 K) (s : March K) (α : K) (s' : March K) : Prop where
  lt : α < s'.a2
  px : s'.p2.x = v0.x + s'.a2 * dir.x
  py : s'.p2.y = v0.y + s'.a2 * dir.y
  pz : s'.p2.z = v0.z + s'.a2 * dir.z
  mx : AxisMove dir.x s.colC s'.p2.x s'.colC
  my : AxisMove dir.y s.rowC s'.p2.y s'.rowC
  moved : s'.colC ≠ s.colC ∨ s'.rowC ≠ s.rowC

theorem StepSpec.inv {v0 dir : V3 K} {s s' : March K} {α : K} (h : StepSpec v0 dir s α s') :
    CellInv v0 dir s' s'.a2 := ⟨h.px, h.py, h.mx.inv, h.my.inv⟩

theorem step_mk {v0 dir : V3 K} {s : March K} {α : K} (h : CellInv v0 dir s α) (a x y : K) (c r : ℤ)
    (ex : x = v0.x + a * dir.x) (ey : y = v0.y + a * dir.y) (he : 0 < a - α)
    (mx : AxisMove dir.x s.colC (s.p2.x + (a - α) * dir.x) c)
    (my : AxisMove dir.y s.rowC (s.p2.y + (a - α) * dir.y) r)
    (hm : c ≠ s.colC ∨ r ≠ s.rowC) :
    StepSpec v0 dir s α ⟨⟨x, y, v0.z + a * dir.z⟩, c, r, a⟩ := by
  have hx : s.p2.x + (a - α) * dir.x = x := by rw [h.px, ex]; ring
  have hy : s.p2.y + (a - α) * dir.y = y := by rw [h.py, ey]; ring
  rw [hx] at mx
  rw [hy] at my
  exact ⟨by simpa using he, ex, ey, rfl, mx, my, hm⟩

theorem cellExit_spec (v0 dir : V3 K) (s : March K) (α : K) (h : CellInv v0 dir s α)
    (hd : dir.x ≠ 0 ∨ dir.y ≠ 0) : StepSpec v0 dir s α (cellExit v0 dir s) := by
  have rx : ∀ a T : K, dir.x ≠ 0 → a = (T - v0.x) / dir.x → T = v0.x + a * dir.x ∧ s.p2.x + (a - α) * dir.x = T := by
    intro a T hv ha
    have e : a * dir.x = T - v0.x := by rw [ha]; field_simp
    exact ⟨by linarith, by rw [h.px]; linear_combination e⟩
  have ry : ∀ a T : K, dir.y ≠ 0 → a = (T - v0.y) / dir.y → T = v0.y + a * dir.y ∧ s.p2.y + (a - α) * dir.y = T := by
    intro a T hv ha
    have e : a * dir.y = T - v0.y := by rw [ha]; field_simp
    exact ⟨by linarith, by rw [h.py]; linear_combination e⟩
  have qx : ∀ a : K, v0.x + a * dir.x = s.p2.x + (a - α) * dir.x := by intro a; rw [h.px]; ring
  have qy : ∀ a : K, v0.y + a * dir.y = s.p2.y + (a - α) * dir.y := by intro a; rw [h.py]; ring
  have mlo : ∀ n : ℤ, n - 1 ≠ n := by intro n; omega
  have mhi : ∀ n : ℤ, n + 1 ≠ n := by intro n; omega
  unfold cellExit
  dsimp only
  by_cases hx0 : dir.x = 0
  · rw [if_pos hx0]
    have hy0 : dir.y ≠ 0 := by rcases hd with h' | h'; exact absurd hx0 h'; exact h'
    have ex : ∀ a : K, s.p2.x = v0.x + a * dir.x := by intro a; rw [h.px, hx0]; ring
    split_ifs with hy
    · obtain ⟨e1, e2⟩ := ry _ (s.rowC : K) hy0 rfl
      obtain ⟨e3, e4⟩ := exit_low h.ay hy e2
      exact step_mk h _ _ _ _ _ (ex _) e1 e3 (stay_zero h.ax hx0) e4 (.inr (mlo _))
    · have hy : 0 < dir.y := lt_of_le_of_ne (not_lt.mp hy) (Ne.symm hy0)
      obtain ⟨e1, e2⟩ := ry _ (s.rowC + 1 : K) hy0 rfl
      obtain ⟨e3, e4⟩ := exit_high h.ay hy e2
      exact step_mk h _ _ _ _ _ (ex _) e1 e3 (stay_zero h.ax hx0) e4 (.inr (mhi _))
  rw [if_neg hx0]
  by_cases hy0 : dir.y = 0
  · rw [if_pos hy0]
    have ey : ∀ a : K, s.p2.y = v0.y + a * dir.y := by intro a; rw [h.py, hy0]; ring
    split_ifs with hx
    · obtain ⟨e1, e2⟩ := rx _ (s.colC : K) hx0 rfl
      obtain ⟨e3, e4⟩ := exit_low h.ax hx e2
      exact step_mk h _ _ _ _ _ e1 (ey _) e3 e4 (stay_zero h.ay hy0) (.inl (mlo _))
    · have hx : 0 < dir.x := lt_of_le_of_ne (not_lt.mp hx) (Ne.symm hx0)
      obtain ⟨e1, e2⟩ := rx _ (s.colC + 1 : K) hx0 rfl
      obtain ⟨e3, e4⟩ := exit_high h.ax hx e2
      exact step_mk h _ _ _ _ _ e1 (ey _) e3 e4 (stay_zero h.ay hy0) (.inl (mhi _))
  rw [if_neg hy0]
  obtain ⟨xl1, xl2⟩ := rx _ (s.colC : K) hx0 rfl
  obtain ⟨xh1, xh2⟩ := rx _ (s.colC + 1 : K) hx0 rfl
  obtain ⟨yl1, yl2⟩ := ry _ (s.rowC : K) hy0 rfl
  obtain ⟨yh1, yh2⟩ := ry _ (s.rowC + 1 : K) hy0 rfl
  by_cases n1 : dir.x < 0 ∧ dir.x ≤ dir.y ∧ dir.x ≤ -dir.y
  · rw [if_pos n1]
    by_cases n2 : (v0.y + (s.colC - v0.x) / dir.x * dir.y) > (s.rowC : K) ∧ (v0.y + (s.colC - v0.x) / dir.x * dir.y) < (s.rowC : K) + 1
    · rw [if_pos n2]
      obtain ⟨e3, e4⟩ := exit_low h.ax n1.1 xl2
      rw [qy] at n2
      exact step_mk h _ _ _ _ _ xl1 rfl e3 e4 (stay_open n2.1 n2.2) (.inl (mlo _))
    rw [if_neg n2]
    by_cases n3 : (v0.y + (s.colC - v0.x) / dir.x * dir.y) < (s.rowC : K)
    · rw [if_pos n3]
      obtain ⟨e3, e4⟩ := exit_low h.ax n1.1 xl2
      rw [qy] at n3
      obtain ⟨f1, f2, f3⟩ := over_low h.ay e3 n3 yl2
      exact step_mk h _ _ _ _ _ rfl yl1 f1 (before_low h.ax n1.1 xl2 f1 f2) f3 (.inr (mlo _))
    rw [if_neg n3]
    by_cases n4 : (v0.y + (s.colC - v0.x) / dir.x * dir.y) > (s.rowC : K) + 1
    · rw [if_pos n4]
      obtain ⟨e3, e4⟩ := exit_low h.ax n1.1 xl2
      rw [qy] at n4
      obtain ⟨f1, f2, f3⟩ := over_high h.ay e3 n4 yh2
      exact step_mk h _ _ _ _ _ rfl yh1 f1 (before_low h.ax n1.1 xl2 f1 f2) f3 (.inr (mhi _))
    rw [if_neg n4]
    by_cases n5 : (v0.y + (s.colC - v0.x) / dir.x * dir.y) = (s.rowC : K)
    · rw [if_pos n5]
      obtain ⟨e3, e4⟩ := exit_low h.ax n1.1 xl2
      have n5' := n5
      rw [qy] at n5
      exact step_mk h _ _ _ _ _ xl1 n5'.symm e3 e4 (corner_low h.ay e3 hy0 n5) (.inl (mlo _))
    rw [if_neg n5]
    by_cases n6 : (v0.y + (s.colC - v0.x) / dir.x * dir.y) = (s.rowC : K) + 1
    · rw [if_pos n6]
      obtain ⟨e3, e4⟩ := exit_low h.ax n1.1 xl2
      have n6' := n6
      rw [qy] at n6
      exact step_mk h _ _ _ _ _ xl1 n6'.symm e3 e4 (corner_high h.ay e3 hy0 n6) (.inl (mlo _))
    rw [if_neg n6]
    exfalso
    rcases lt_trichotomy (v0.y + (s.colC - v0.x) / dir.x * dir.y) s.rowC with h' | h' | h'
    · exact n3 h'
    · exact n5 h'
    · rcases lt_trichotomy (v0.y + (s.colC - v0.x) / dir.x * dir.y) (s.rowC + 1) with h2 | h2 | h2
      · exact n2 ⟨h', h2⟩
      · exact n6 h2
      · exact n4 h2
  rw [if_neg n1]
  by_cases w1 : dir.y > 0 ∧ dir.y ≥ dir.x ∧ dir.y ≥ -dir.x
  · rw [if_pos w1]
    by_cases w2 : (v0.x + (s.rowC + 1 - v0.y) / dir.y * dir.x) > (s.colC : K) ∧ (v0.x + (s.rowC + 1 - v0.y) / dir.y * dir.x) < (s.colC : K) + 1
    · rw [if_pos w2]
      obtain ⟨e3, e4⟩ := exit_high h.ay w1.1 yh2
      rw [qx] at w2
      exact step_mk h _ _ _ _ _ rfl yh1 e3 (stay_open w2.1 w2.2) e4 (.inr (mhi _))
    rw [if_neg w2]
    by_cases w3 : (v0.x + (s.rowC + 1 - v0.y) / dir.y * dir.x) < (s.colC : K)
    · rw [if_pos w3]
      obtain ⟨e3, e4⟩ := exit_high h.ay w1.1 yh2
      rw [qx] at w3
      obtain ⟨f1, f2, f3⟩ := over_low h.ax e3 w3 xl2
      exact step_mk h _ _ _ _ _ xl1 rfl f1 f3 (before_high h.ay w1.1 yh2 f1 f2) (.inl (mlo _))
    rw [if_neg w3]
    by_cases w4 : (v0.x + (s.rowC + 1 - v0.y) / dir.y * dir.x) > (s.colC : K) + 1
    · rw [if_pos w4]
      obtain ⟨e3, e4⟩ := exit_high h.ay w1.1 yh2
      rw [qx] at w4
      obtain ⟨f1, f2, f3⟩ := over_high h.ax e3 w4 xh2
      exact step_mk h _ _ _ _ _ xh1 rfl f1 f3 (before_high h.ay w1.1 yh2 f1 f2) (.inl (mhi _))
    rw [if_neg w4]
    by_cases w5 : (v0.x + (s.rowC + 1 - v0.y) / dir.y * dir.x) = (s.colC : K)
    · rw [if_pos w5]
      obtain ⟨e3, e4⟩ := exit_high h.ay w1.1 yh2
      have w5' := w5
      rw [qx] at w5
      exact step_mk h _ _ _ _ _ w5'.symm yh1 e3 (corner_low h.ax e3 hx0 w5) e4 (.inr (mhi _))
    rw [if_neg w5]
    by_cases w6 : (v0.x + (s.rowC + 1 - v0.y) / dir.y * dir.x) = (s.colC : K) + 1
    · rw [if_pos w6]
      obtain ⟨e3, e4⟩ := exit_high h.ay w1.1 yh2
      have w6' := w6
      rw [qx] at w6
      exact step_mk h _ _ _ _ _ w6'.symm yh1 e3 (corner_high h.ax e3 hx0 w6) e4 (.inr (mhi _))
    rw [if_neg w6]
    exfalso
    rcases lt_trichotomy (v0.x + (s.rowC + 1 - v0.y) / dir.y * dir.x) s.colC with h' | h' | h'
    · exact w3 h'
    · exact w5 h'
    · rcases lt_trichotomy (v0.x + (s.rowC + 1 - v0.y) / dir.y * dir.x) (s.colC + 1) with h2 | h2 | h2
      · exact w2 ⟨h', h2⟩
      · exact w6 h2
      · exact w4 h2
  rw [if_neg w1]
  by_cases t1 : dir.x > 0 ∧ dir.x ≥ dir.y ∧ dir.x ≥ -dir.y
  · rw [if_pos t1]
    by_cases t2 : (v0.y + (s.colC + 1 - v0.x) / dir.x * dir.y) > (s.rowC : K) ∧ (v0.y + (s.colC + 1 - v0.x) / dir.x * dir.y) < (s.rowC : K) + 1
    · rw [if_pos t2]
      obtain ⟨e3, e4⟩ := exit_high h.ax t1.1 xh2
      rw [qy] at t2
      exact step_mk h _ _ _ _ _ xh1 rfl e3 e4 (stay_open t2.1 t2.2) (.inl (mhi _))
    rw [if_neg t2]
    by_cases t3 : (v0.y + (s.colC + 1 - v0.x) / dir.x * dir.y) < (s.rowC : K)
    · rw [if_pos t3]
      obtain ⟨e3, e4⟩ := exit_high h.ax t1.1 xh2
      rw [qy] at t3
      obtain ⟨f1, f2, f3⟩ := over_low h.ay e3 t3 yl2
      exact step_mk h _ _ _ _ _ rfl yl1 f1 (before_high h.ax t1.1 xh2 f1 f2) f3 (.inr (mlo _))
    rw [if_neg t3]
    by_cases t4 : (v0.y + (s.colC + 1 - v0.x) / dir.x * dir.y) > (s.rowC : K) + 1
    · rw [if_pos t4]
      obtain ⟨e3, e4⟩ := exit_high h.ax t1.1 xh2
      rw [qy] at t4
      obtain ⟨f1, f2, f3⟩ := over_high h.ay e3 t4 yh2
      exact step_mk h _ _ _ _ _ rfl yh1 f1 (before_high h.ax t1.1 xh2 f1 f2) f3 (.inr (mhi _))
    rw [if_neg t4]
    by_cases t5 : (v0.y + (s.colC + 1 - v0.x) / dir.x * dir.y) = (s.rowC : K)
    · rw [if_pos t5]
      obtain ⟨e3, e4⟩ := exit_high h.ax t1.1 xh2
      have t5' := t5
      rw [qy] at t5
      exact step_mk h _ _ _ _ _ xh1 t5'.symm e3 e4 (corner_low h.ay e3 hy0 t5) (.inl (mhi _))
    rw [if_neg t5]
    by_cases t6 : (v0.y + (s.colC + 1 - v0.x) / dir.x * dir.y) = (s.rowC : K) + 1
    · rw [if_pos t6]
      obtain ⟨e3, e4⟩ := exit_high h.ax t1.1 xh2
      have t6' := t6
      rw [qy] at t6
      exact step_mk h _ _ _ _ _ xh1 t6'.symm e3 e4 (corner_high h.ay e3 hy0 t6) (.inl (mhi _))
    rw [if_neg t6]
    exfalso
    rcases lt_trichotomy (v0.y + (s.colC + 1 - v0.x) / dir.x * dir.y) s.rowC with h' | h' | h'
    · exact t3 h'
    · exact t5 h'
    · rcases lt_trichotomy (v0.y + (s.colC + 1 - v0.x) / dir.x * dir.y) (s.rowC + 1) with h2 | h2 | h2
      · exact t2 ⟨h', h2⟩
      · exact t6 h2
      · exact t4 h2
  rw [if_neg t1]
  by_cases u1 : dir.y < 0 ∧ dir.y ≤ dir.x ∧ dir.y ≤ -dir.x
  · rw [if_pos u1]
    by_cases u2 : (v0.x + (s.rowC - v0.y) / dir.y * dir.x) > (s.colC : K) ∧ (v0.x + (s.rowC - v0.y) / dir.y * dir.x) < (s.colC : K) + 1
    · rw [if_pos u2]
      obtain ⟨e3, e4⟩ := exit_low h.ay u1.1 yl2
      rw [qx] at u2
      exact step_mk h _ _ _ _ _ rfl yl1 e3 (stay_open u2.1 u2.2) e4 (.inr (mlo _))
    rw [if_neg u2]
    by_cases u3 : (v0.x + (s.rowC - v0.y) / dir.y * dir.x) < (s.colC : K)
    · rw [if_pos u3]
      obtain ⟨e3, e4⟩ := exit_low h.ay u1.1 yl2
      rw [qx] at u3
      obtain ⟨f1, f2, f3⟩ := over_low h.ax e3 u3 xl2
      exact step_mk h _ _ _ _ _ xl1 rfl f1 f3 (before_low h.ay u1.1 yl2 f1 f2) (.inl (mlo _))
    rw [if_neg u3]
    by_cases u4 : (v0.x + (s.rowC - v0.y) / dir.y * dir.x) > (s.colC : K) + 1
    · rw [if_pos u4]
      obtain ⟨e3, e4⟩ := exit_low h.ay u1.1 yl2
      rw [qx] at u4
      obtain ⟨f1, f2, f3⟩ := over_high h.ax e3 u4 xh2
      exact step_mk h _ _ _ _ _ xh1 rfl f1 f3 (before_low h.ay u1.1 yl2 f1 f2) (.inl (mhi _))
    rw [if_neg u4]
    by_cases u5 : (v0.x + (s.rowC - v0.y) / dir.y * dir.x) = (s.colC : K)
    · rw [if_pos u5]
      obtain ⟨e3, e4⟩ := exit_low h.ay u1.1 yl2
      have u5' := u5
      rw [qx] at u5
      exact step_mk h _ _ _ _ _ u5'.symm yl1 e3 (corner_low h.ax e3 hx0 u5) e4 (.inr (mlo _))
    rw [if_neg u5]
    by_cases u6 : (v0.x + (s.rowC - v0.y) / dir.y * dir.x) = (s.colC : K) + 1
    · rw [if_pos u6]
      obtain ⟨e3, e4⟩ := exit_low h.ay u1.1 yl2
      have u6' := u6
      rw [qx] at u6
      exact step_mk h _ _ _ _ _ u6'.symm yl1 e3 (corner_high h.ax e3 hx0 u6) e4 (.inr (mlo _))
    rw [if_neg u6]
    exfalso
    rcases lt_trichotomy (v0.x + (s.rowC - v0.y) / dir.y * dir.x) s.colC with h' | h' | h'
    · exact u3 h'
    · exact u5 h'
    · rcases lt_trichotomy (v0.x + (s.rowC - v0.y) / dir.y * dir.x) (s.colC + 1) with h2 | h2 | h2
      · exact u2 ⟨h', h2⟩
      · exact u6 h2
      · exact u4 h2
  rw [if_neg u1]
  exfalso
  rcases lt_or_gt_of_ne hx0 with hx | hx <;> rcases lt_or_gt_of_ne hy0 with hy | hy
  · rcases le_total dir.x dir.y with h' | h'
    · exact n1 ⟨hx, h', by linarith⟩
    · exact u1 ⟨hy, h', by linarith⟩
  · rcases le_total dir.x (-dir.y) with h' | h'
    · exact n1 ⟨hx, by linarith, h'⟩
    · exact w1 ⟨hy, by linarith, by linarith⟩
  · rcases le_total dir.x (-dir.y) with h' | h'
    · exact u1 ⟨hy, by linarith, by linarith⟩
    · exact t1 ⟨hx, by linarith, h'⟩
  · rcases le_total dir.x dir.y with h' | h'
    · exact w1 ⟨hy, h', by linarith⟩
    · exact t1 ⟨hx, h', by linarith⟩

end Shareloc
