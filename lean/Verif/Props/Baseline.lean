import Verif.Props.Strip

/-!
# C48: mean baseline ratio
-/

set_option linter.unusedSectionVars false

namespace Shareloc
variable {K : Type*} [Field K] [LinearOrder K] [IsStrictOrderedRing K] [FloorRing K]

/-- Specification: the mean of the values which are not NaN, NaN if there is none. -/
def nanMean (l : List (Option K)) : Option K :=
  let v := l.filterMap id
  if v.length = 0 then none else some (v.sum / v.length)

theorem nansum_eq (l : List (Option K)) : nansum l = (l.filterMap id).sum := by
  induction l with
  | nil => rfl
  | cons a as ih =>
    cases a with
    | none => simpa [nansum] using ih
    | some x => simpa [nansum] using ih

theorem countNan_add (l : List (Option K)) : countNan l + (l.filterMap id).length = l.length := by
  induction l with
  | nil => rfl
  | cons a as ih =>
    cases a with
    | none => simp [countNan] at ih ⊢; omega
    | some x => simp [countNan] at ih ⊢; omega

theorem stripMean_eq (b : List (Option K)) (nodes already : ℕ) (h : b.length + already = nodes) :
    stripMean b nodes nodes already = nanMean b := by
  have hc := countNan_add b
  unfold stripMean nanMean
  have hd : ((nodes : K) - (countNan b : K) - already) = ((b.filterMap id).length : K) := by
    have : (nodes : K) = (countNan b : K) + ((b.filterMap id).length : K) + already := by
      rw [← h, ← hc]; push_cast; ring
    rw [this]; ring
  simp only [hd, nansum_eq]
  by_cases h0 : (b.filterMap id).length = 0
  · simp only [h0, Nat.cast_zero, if_true]
    split <;> rfl
  · have : countNan b ≠ nodes := by omega
    simp only [this, if_false, h0]
    rw [if_neg]
    exact_mod_cast h0

theorem stripBaselines_length (ls : List (Layer K)) (n : ℕ) (h : ∀ l ∈ ls, l.baseline.length = n) :
    (stripBaselines ls).length = ls.length * n := by
  induction ls with
  | nil => simp [stripBaselines]
  | cons a as ih =>
    have := ih fun l hl => h l (List.mem_cons_of_mem _ hl)
    simp only [stripBaselines, List.flatMap_cons, List.length_append, List.length_cons] at this ⊢
    rw [this, h a (List.mem_cons_self ..)]
    ring

/-- C48. The mean of a strip is the mean of the baseline ratios computed in that strip (those of the first layer being
excluded when its angles were given), NaN excluded, and the NaN are counted. -/
theorem C48_strip_mean (t : Trig K) (m : Stereo K) (hm : m.KeepsLength) (left right : List (ORow K)) (spacing : K)
    (axis : ℤ) (size : ℕ) (step off : K) (angles : Option (List (Option K))) (s : Strip K) (hsize : 1 ≤ size)
    (ha : ∀ a, angles = some a → a.length = left.length)
    (h : stripOfEpipolarGrid t m left right spacing axis size step off angles none = .ok s) :
    s.mean = nanMean (stripBaselines s.layers) ∧ s.nanCount = countNan (stripBaselines s.layers) ∧
    (stripBaselines s.layers).length = (if angles = none then size else size - 1) * left.length := by
  obtain ⟨l0, ls, e, hl, h1, h2, hch, h3, h4, h5, h6⟩ := strip_plain hsize h
  have hl0 : l0.angles.length = left.length := by
    cases angles with
    | some a => rw [(h3 a rfl).1, ha a rfl]
    | none =>
      obtain ⟨starts, ends, ground, g1, g2, -⟩ := h4 rfl
      have := localEpipolarLine_length hm g1
      rw [g2]; simp [this.1, this.2.1]
  have hrest := stripBaselines_length ls left.length fun l hmem => (hch.lengths hm hl0 l hmem).2.2.2
  have hsplit : (stripBaselines s.layers).length = l0.baseline.length + (size - 1) * left.length := by
    rw [e, ← hl, ← hrest]; simp [stripBaselines]
  have hlen : (stripBaselines s.layers).length = (if angles = none then size else size - 1) * left.length := by
    rw [hsplit]
    cases angles with
    | some a => rw [(h3 a rfl).2]; simp
    | none =>
      obtain ⟨starts, ends, ground, g1, -, g2⟩ := h4 rfl
      have := localEpipolarLine_length hm g1
      rw [g2]
      obtain ⟨k, rfl⟩ : ∃ k, size = k + 1 := ⟨size - 1, by omega⟩
      simp [this.1, this.2.1]; ring
  refine ⟨?_, h5, hlen⟩
  rw [h6]
  apply stripMean_eq
  rw [hlen]
  cases angles with
  | none => simp
  | some a =>
    obtain ⟨k, rfl⟩ : ∃ k, size = k + 1 := ⟨size - 1, by omega⟩
    simp [ha a rfl]; ring

/-- The two strips of a pair of grids. -/
theorem stereoGrids_split (t : Trig K) (m : Stereo K) (hm : m.KeepsLength) (startL startR : ORow K) (spacing step off : K)
    (rows cols : ℕ) (hr : 1 ≤ rows) (hc : 1 ≤ cols) (g : EpiGrids K)
    (h : stereoGrids t m startL startR spacing step off rows cols = .ok g) :
    ∃ s0 : Strip K, stripOfEpipolarGrid t m [startL] [startR] spacing 0 rows step off none none = .ok s0 ∧
      (stripBaselines s0.layers).length = rows ∧ (stripBaselines g.columns).length = (cols - 1) * rows ∧
      g.mean = globalMean rows cols (nanMean (stripBaselines g.columns)) (nanMean (stripBaselines s0.layers))
        (countNan (stripBaselines g.columns)) (countNan (stripBaselines s0.layers)) := by
  unfold stereoGrids at h
  cases h0 : stripOfEpipolarGrid t m [startL] [startR] spacing 0 rows step off none none with
  | error e => rw [h0] at h; simp at h
  | ok s0 =>
    rw [h0] at h
    simp only at h
    generalize hL : heads nanRow (s0.layers.map fun l => l.left) = L at h
    generalize hR : heads nanRow (s0.layers.map fun l => l.right) = R at h
    generalize hA : heads none (s0.layers.map fun l => l.angles) = A at h
    cases h1 : stripOfEpipolarGrid t m L R spacing 1 cols step off (some A) none with
    | error e => rw [h1] at h; simp at h
    | ok s1 =>
      rw [h1] at h
      simp only [Except.ok.injEq] at h
      subst h
      have hlay := (C44_strip t m [startL] [startR] spacing 0 rows step off none s0 hr h0).1
      have hLlen : L.length = rows := by rw [← hL]; simp [heads, hlay]
      have hAlen : A.length = rows := by rw [← hA]; simp [heads, hlay]
      obtain ⟨a1, a2, a3⟩ := C48_strip_mean t m hm [startL] [startR] spacing 0 rows step off none s0 hr (by simp) h0
      obtain ⟨b1, b2, b3⟩ := C48_strip_mean t m hm L R spacing 1 cols step off (some A) s1 hc (by
        intro a e; simp at e; subst e; rw [hAlen, hLlen]) h1
      refine ⟨s0, rfl, by simpa using a3, by simpa [hLlen] using b3, ?_⟩
      simp only [a1, a2, b1, b2]

/-- C48 (part that holds). For a square grid, when each strip has at least one ratio, the returned value is the mean of
all the ratios computed, NaN excluded. The full property asks for it for every grid: it is false, see
`C48_constant_ratio_bias`. -/
theorem C48_square_grid_partial (t : Trig K) (m : Stereo K) (hm : m.KeepsLength) (startL startR : ORow K)
    (spacing step off : K) (n : ℕ) (hn : 1 ≤ n) (g : EpiGrids K)
    (h : stereoGrids t m startL startR spacing step off n n = .ok g) :
    ∃ s0 : Strip K, stripOfEpipolarGrid t m [startL] [startR] spacing 0 n step off none none = .ok s0 ∧
      (nanMean (stripBaselines s0.layers) ≠ none → nanMean (stripBaselines g.columns) ≠ none →
        g.mean = nanMean (stripBaselines s0.layers ++ stripBaselines g.columns)) := by
  obtain ⟨s0, h0, l0, l1, hmean⟩ := stereoGrids_split t m hm startL startR spacing step off n n hn hn g h
  refine ⟨s0, h0, fun n0 n1 => ?_⟩
  rw [hmean]
  generalize stripBaselines s0.layers = b0 at *
  generalize stripBaselines g.columns = b1 at *
  have c0 := countNan_add b0
  have c1 := countNan_add b1
  unfold nanMean at n0 n1 ⊢
  have v0 : (b0.filterMap id).length ≠ 0 := fun e => n0 (if_pos e)
  have v1 : (b1.filterMap id).length ≠ 0 := fun e => n1 (if_pos e)
  have w0 : ((n : K) - (countNan b0 : K)) = ((b0.filterMap id).length : K) := by
    rw [← l0, ← c0]; push_cast; ring
  have w1 : ((n : K) * ((n : K) - 1) - (countNan b1 : K)) = ((b1.filterMap id).length : K) := by
    have : (((n - 1) * n : ℕ) : K) = (n : K) * ((n : K) - 1) := by
      rw [Nat.cast_mul, Nat.cast_sub hn]; push_cast; ring
    rw [← this, ← l1, ← c1]; push_cast; ring
  have w2 : ((n : K) * n - (countNan b1 : K) - (countNan b0 : K)) = ((b0.filterMap id).length : K) + ((b1.filterMap id).length : K) := by
    rw [← w0, ← w1]; ring
  have p0 : (0 : K) < ((b0.filterMap id).length : K) := by exact_mod_cast Nat.pos_of_ne_zero v0
  have p1 : (0 : K) < ((b1.filterMap id).length : K) := by exact_mod_cast Nat.pos_of_ne_zero v1
  simp only [v0, v1, if_false, globalMean, olift2, w0, w1, w2, List.filterMap_append, List.length_append, List.sum_append,
    show (b0.filterMap id).length + (b1.filterMap id).length ≠ 0 by omega, Nat.cast_add]
  congr 1
  rw [div_mul_cancel₀ _ p1.ne', div_mul_cancel₀ _ p0.ne', add_comm]

theorem filterMap_const (l : List (Option K)) (c : K) (h : ∀ o ∈ l, o = some c) :
    (l.filterMap id).length = l.length ∧ (l.filterMap id).sum = l.length * c ∧ countNan l = 0 := by
  induction l with
  | nil => simp [countNan]
  | cons a as ih =>
    obtain ⟨i1, i2, i3⟩ := ih fun o ho => h o (List.mem_cons_of_mem _ ho)
    have := h a (List.mem_cons_self ..)
    subst this
    have e : (some c :: as).filterMap id = c :: as.filterMap id := rfl
    rw [e]
    refine ⟨by simp only [List.length_cons, i1], ?_, by simpa [countNan] using i3⟩
    rw [List.sum_cons, i2, List.length_cons]
    push_cast; ring

/-- C48 is false in general: when every computed ratio is `c`, the returned value is not `c` but
`c (1 + (rows - cols) / (rows cols))`, because the second strip, computed on rows (cols - 1) nodes, is given the weight
cols (rows - 1). -/
theorem C48_constant_ratio_bias (t : Trig K) (m : Stereo K) (hm : m.KeepsLength) (startL startR : ORow K)
    (spacing step off : K) (rows cols : ℕ) (hr : 1 ≤ rows) (hc : 2 ≤ cols) (g : EpiGrids K) (s0 : Strip K)
    (h : stereoGrids t m startL startR spacing step off rows cols = .ok g)
    (h0 : stripOfEpipolarGrid t m [startL] [startR] spacing 0 rows step off none none = .ok s0) (c : K)
    (c0 : ∀ o ∈ stripBaselines s0.layers, o = some c) (c1 : ∀ o ∈ stripBaselines g.columns, o = some c) :
    g.mean = some (c * (1 + ((rows : K) - cols) / (rows * cols))) := by
  obtain ⟨s0', h0', l0, l1, hmean⟩ := stereoGrids_split t m hm startL startR spacing step off rows cols hr (by omega) g h
  rw [h0] at h0'
  simp only [Except.ok.injEq] at h0'
  subst h0'
  rw [hmean]
  obtain ⟨d1, d2, d3⟩ := filterMap_const _ c c0
  obtain ⟨f1, f2, f3⟩ := filterMap_const _ c c1
  have hr' : (0 : K) < rows := by exact_mod_cast hr
  have hc' : (0 : K) < cols := by exact_mod_cast (by omega : 0 < cols)
  have hne : (cols - 1) * rows ≠ 0 := by
    apply Nat.mul_ne_zero <;> omega
  simp only [nanMean, d1, d2, d3, f1, f2, f3, l0, l1, hne, show rows ≠ 0 by omega, if_false, globalMean, olift2]
  have e1 : (((cols - 1) * rows : ℕ) : K) * c / (((cols - 1) * rows : ℕ) : K) = c := by
    rw [mul_comm, mul_div_assoc, div_self (by exact_mod_cast hne), mul_one]
  have e2 : (rows : K) * c / (rows : K) = c := by field_simp
  rw [e1, e2]
  congr 1
  simp only [Nat.cast_zero, sub_zero]
  field_simp
  ring

/-- The bias shows on a 2 × 3 grid where all the ratios are 1/10: the result is 1/12. -/
example : (stereoGrids toyTrig toyStereo (pos3 0 0 0) (pos3 0 0 7) 1 30 50 2 3).map (fun g => (stripBaselines g.columns, g.mean)) =
    .ok ([some (1 / 10), some (1 / 10), some (1 / 10), some (1 / 10)], some (1 / 12)) := by
  decide +kernel

/-- C48, exact condition: when every computed ratio is the same `c ≠ 0` (and the grid has two columns at least), the returned mean is
`c` exactly for the square grids. -/
theorem C48_constant_ratio_iff_square (t : Trig K) (m : Stereo K) (hm : m.KeepsLength) (startL startR : ORow K)
    (spacing step off : K) (rows cols : ℕ) (hr : 1 ≤ rows) (hc : 2 ≤ cols) (g : EpiGrids K) (s0 : Strip K)
    (h : stereoGrids t m startL startR spacing step off rows cols = .ok g)
    (h0 : stripOfEpipolarGrid t m [startL] [startR] spacing 0 rows step off none none = .ok s0) (c : K) (hc0 : c ≠ 0)
    (c0 : ∀ o ∈ stripBaselines s0.layers, o = some c) (c1 : ∀ o ∈ stripBaselines g.columns, o = some c) :
    g.mean = some c ↔ rows = cols := by
  rw [C48_constant_ratio_bias t m hm startL startR spacing step off rows cols hr hc g s0 h h0 c c0 c1]
  have hr' : (rows : K) ≠ 0 := by
    have : (0 : K) < rows := by exact_mod_cast hr
    exact this.ne'
  have hc' : (cols : K) ≠ 0 := by
    have : (0 : K) < cols := by exact_mod_cast (by omega : 0 < cols)
    exact this.ne'
  rw [Option.some.injEq]
  constructor
  · intro e
    have e1 : c * (((rows : K) - cols) / (rows * cols)) = 0 := by linear_combination e
    have e2 := (mul_eq_zero.1 e1).resolve_left hc0
    rw [div_eq_zero_iff] at e2
    have e3 := e2.resolve_right (mul_ne_zero hr' hc')
    have e4 : (rows : K) = cols := by linear_combination e3
    exact_mod_cast e4
  · intro e
    subst e
    simp

/-- The hypotheses of `C48_constant_ratio_iff_square` are met by a grid of 2 rows and 3 columns, whose returned mean is not the ratio. -/
example : ∃ s0 g, stereoGrids toyTrig toyStereo (pos3 0 0 0) (pos3 0 0 7) 1 30 50 2 3 = .ok g ∧
    stripOfEpipolarGrid toyTrig toyStereo [pos3 0 0 0] [pos3 0 0 7] 1 0 2 30 50 none none = .ok s0 ∧
    (∀ o ∈ stripBaselines s0.layers, o = some (1 / 10)) ∧ (∀ o ∈ stripBaselines g.columns, o = some (1 / 10)) ∧
    g.mean = some (1 / 12) := by
  have key : (match stereoGrids toyTrig toyStereo (pos3 0 0 0) (pos3 0 0 7) 1 30 50 2 3,
      stripOfEpipolarGrid toyTrig toyStereo [pos3 0 0 0] [pos3 0 0 7] 1 0 2 30 50 none none with
    | .ok g, .ok s0 => (stripBaselines s0.layers).all (fun o => decide (o = some (1 / 10))) &&
        (stripBaselines g.columns).all (fun o => decide (o = some (1 / 10))) && decide (g.mean = some (1 / 12))
    | _, _ => false) = true := by decide +kernel
  split at key
  · rename_i g s0 h1 h2
    simp only [Bool.and_eq_true, List.all_eq_true, decide_eq_true_eq] at key
    exact ⟨s0, g, h1, h2, key.1.1, key.1.2, key.2⟩
  · exact absurd key (by simp)

/-- On a 2 × 2 grid the mean is right: the hypotheses of `C48_square_grid_partial` are met. -/
example : (stereoGrids toyTrig toyStereo (pos3 0 0 0) (pos3 0 0 7) 1 30 50 2 2).map (fun g => g.mean) = .ok (some (1 / 10)) := by
  decide +kernel

end Shareloc
