import Verif.Props.GridNan

set_option linter.unusedSectionVars false
/-! C101: the march along a line of sight of which a vertex is NaN (a grid with a hole in an inner layer). -/

namespace Shareloc
open Spec
variable {K : Type*} [Field K] [LinearOrder K] [IsStrictOrderedRing K] [FloorRing K]

/-- The line of the segment from `a` to `b` is strictly above the terrain from its point `α` to `b`; and in each cell that contains `b` (the
march looks at the whole of the last cell), either its extension is also above the terrain, or the line goes down and a whole number of metres
separates `b` from the four altitudes of the cell. -/
structure AboveUntil (f : Dtm K) (a b : V3 K) (α : K) : Prop where
  before : ∀ t, α ≤ t → t ≤ 1 → f.interpolate (Spec.lerp a b t).x (Spec.lerp a b t).y < (Spec.lerp a b t).z
  cell : ∀ i j, IsCell f.nbRows f.nbCols i j → Spec.InCell i j b.x b.y →
    (∀ t, 1 ≤ t → Spec.InCell i j (Spec.lerp a b t).x (Spec.lerp a b t).y →
      f.interpolate (Spec.lerp a b t).x (Spec.lerp a b t).y < (Spec.lerp a b t).z) ∨
    (b.z ≤ a.z ∧ ∃ m : ℤ, (m : K) < b.z ∧ f.alt i j ≤ m ∧ f.alt i (j + 1) ≤ m ∧ f.alt (i + 1) j ≤ m ∧ f.alt (i + 1) (j + 1) ≤ m)

/-- The cell of the march is one of the DTM as long as the end of the segment, inside the DTM, is not reached. -/
theorem march_isCell (d : Dtm K) (v0 v1 : V3 K) (hend : InFootprint d.nbRows d.nbCols v1) (s : March K) (α : K)
    (hinv : CellInv v0 (segDir v0 v1) s α) (hp : s.p2 = Spec.lerp v0 v1 α) (hα1 : α < 1) (hfoot : InFootprint d.nbRows d.nbCols (Spec.lerp v0 v1 α))
    (hx0 : v0.x = v1.x → 0 ≤ s.colC ∧ s.colC + 1 ≤ (d.nbRows : ℤ) - 1)
    (hy0 : v0.y = v1.y → 0 ≤ s.rowC ∧ s.rowC + 1 ≤ (d.nbCols : ℤ) - 1) : IsCell d.nbRows d.nbCols s.colC s.rowC := by
  have hpx : s.p2.x = (Spec.lerp v0 v1 α).x := by rw [hp]
  have hpy : s.p2.y = (Spec.lerp v0 v1 α).y := by rw [hp]
  have hx : 0 ≤ s.colC ∧ s.colC + 1 ≤ (d.nbRows : ℤ) - 1 := by
    by_cases h : v0.x = v1.x
    · exact hx0 h
    · refine axis_range hinv.ax (show (segDir v0 v1).x ≠ 0 from fun h' => h (by
        simp only [segDir] at h'; linarith)) (by rw [hpx]; exact hfoot.1) (by rw [hpx]; exact hfoot.2.1)
        hend.1 hend.2.1 (sub_pos.mpr hα1) ?_
      rw [hpx, lerp_x]; simp only [segDir]; ring
  have hy : 0 ≤ s.rowC ∧ s.rowC + 1 ≤ (d.nbCols : ℤ) - 1 := by
    by_cases h : v0.y = v1.y
    · exact hy0 h
    · refine axis_range hinv.ay (show (segDir v0 v1).y ≠ 0 from fun h' => h (by
        simp only [segDir] at h'; linarith)) (by rw [hpy]; exact hfoot.2.2.1) (by rw [hpy]; exact hfoot.2.2.2)
        hend.2.2.1 hend.2.2.2 (sub_pos.mpr hα1) ?_
      rw [hpy, lerp_y]; simp only [segDir]; ring
  exact ⟨hx.1, hx.2, hy.1, hy.2⟩

/-- A segment above the terrain is marched along until its end. -/
theorem marchCells_above_end (d : Dtm K) (N : ℕ) (v0 v1 : V3 K) (hdir : v1.x - v0.x ≠ 0 ∨ v1.y - v0.y ≠ 0)
    (hend : InFootprint d.nbRows d.nbCols v1) :
    ∀ (n : ℕ) (s : March K) (α : K), CellInv v0 (segDir v0 v1) s α → s.p2 = Spec.lerp v0 v1 α → s.a2 = α →
      α < 1 → AboveUntil d v0 v1 α → InFootprint d.nbRows d.nbCols (Spec.lerp v0 v1 α) →
      (v0.x = v1.x → 0 ≤ s.colC ∧ s.colC + 1 ≤ (d.nbRows : ℤ) - 1) →
      (v0.y = v1.y → 0 ≤ s.rowC ∧ s.rowC + 1 ≤ (d.nbCols : ℤ) - 1) →
      0 < n → cellsLeft d (segDir v0 v1) s < n →
      marchInside d s = true ∧ ∃ s', Shareloc.marchCells d N v0 v1 n s = .inr s' ∧ 1 ≤ s'.a2 := by
  intro n
  induction n with
  | zero => intro s α _ _ _ _ _ _ _ _ h; exact absurd h (lt_irrefl 0)
  | succ n ih =>
    intro s α hinv hp ha hα1 habove hfoot hx0 hy0 _ hn
    have st := cellExit_spec v0 (segDir v0 v1) s α hinv hdir
    have hcell := march_isCell d v0 v1 hend s α hinv hp hα1 hfoot hx0 hy0
    have hin : marchInside d s = true := (marchInside_iff d s).mpr ⟨by rw [ha]; exact hα1, hcell⟩
    refine ⟨hin, ?_⟩
    have hbounds := (cellsLeft_bounds (dir := segDir v0 v1) hcell).1
    have hdec := cellsLeft_step (d := d) st
    have i0 : Spec.InCell s.colC s.rowC (Spec.lerp v0 v1 α).x (Spec.lerp v0 v1 α).y := by rw [← hp]; exact hinv.inCell
    have i1 : Spec.InCell s.colC s.rowC (Spec.lerp v0 v1 (cellExit v0 (segDir v0 v1) s).a2).x (Spec.lerp v0 v1 (cellExit v0 (segDir v0 v1) s).a2).y := by
      rw [← st.p2_eq]; exact st.inCell
    have h1 : 0 < (Spec.lerp v0 v1 α).z - d.interpolate (Spec.lerp v0 v1 α).x (Spec.lerp v0 v1 α).y :=
      sub_pos.mpr (habove.before α le_rfl hα1.le)
    have hcond : ¬ (bIntersect v0.z v1.z (altMinCellPy d.alt s.colC s.rowC)
          (altMaxCellPy d.alt s.colC s.rowC) s.p2.z (cellExit v0 (segDir v0 v1) s).p2.z = true ∧
          (s.p2.z - d.interpolate s.p2.x s.p2.y) * ((cellExit v0 (segDir v0 v1) s).p2.z -
          d.interpolate (cellExit v0 (segDir v0 v1) s).p2.x (cellExit v0 (segDir v0 v1) s).p2.y) ≤ 0) := by
      rintro ⟨hb, h⟩
      have up : ¬ d.interpolate (Spec.lerp v0 v1 (cellExit v0 (segDir v0 v1) s).a2).x (Spec.lerp v0 v1 (cellExit v0 (segDir v0 v1) s).a2).y <
          (Spec.lerp v0 v1 (cellExit v0 (segDir v0 v1) s).a2).z := by
        intro h2
        rw [hp, st.p2_eq] at h
        exact absurd h (not_le.mpr (mul_pos h1 (sub_pos.mpr h2)))
      rcases le_or_gt (cellExit v0 (segDir v0 v1) s).a2 1 with hβ | hβ
      · exact up (habove.before _ st.lt.le hβ)
      · have hb1 : Spec.InCell s.colC s.rowC v1.x v1.y := by
          have := inCell_between v0 v1 _ _ hα1.le hβ.le i0 i1
          rwa [lerp_one] at this
        rcases habove.cell _ _ hcell hb1 with hc | ⟨hz, m, hm, m1, m2, m3, m4⟩
        · exact up (hc _ hβ.le i1)
        · have hS : altMaxCellPy d.alt s.colC s.rowC < v1.z := by
            refine lt_of_le_of_lt ?_ hm
            unfold altMaxCellPy
            exact_mod_cast Int.ceil_le.2 (max_le (max_le (max_le m1 m2) m3) m4)
          have hp1 : v1.z ≤ s.p2.z := by
            rw [hp]
            show v1.z ≤ v0.z + α * (v1.z - v0.z)
            nlinarith
          have hp2 : (cellExit v0 (segDir v0 v1) s).p2.z ≤ v1.z := by
            rw [st.p2_eq]
            show v0.z + _ * (v1.z - v0.z) ≤ v1.z
            nlinarith
          unfold bIntersect at hb
          have hA : altMaxCellPy d.alt s.colC s.rowC < s.p2.z := lt_of_lt_of_le hS hp1
          split_ifs at hb with c1 c2
          · exact absurd c1 (not_lt.mpr (hp2.trans hz))
          · simp [hA, hS] at hb
          · have hB : altMaxCellPy d.alt s.colC s.rowC < (cellExit v0 (segDir v0 v1) s).p2.z := lt_of_lt_of_le hS (not_lt.mp c2)
            simp [hA, hB] at hb
    rw [marchCells_succ, if_pos hin, if_neg hcond]
    push_cast at hn
    rcases lt_or_ge (cellExit v0 (segDir v0 v1) s).a2 1 with hlt | hge
    · have zx : v0.x = v1.x → (cellExit v0 (segDir v0 v1) s).colC = s.colC := by
        intro h
        have hz : (segDir v0 v1).x = 0 := by simp only [segDir]; linarith
        rcases st.mx with ⟨h', _⟩ | ⟨h', _⟩ | ⟨h', _⟩
        · exact h'
        · rw [hz] at h'; exact absurd h' (lt_irrefl 0)
        · rw [hz] at h'; exact absurd h' (lt_irrefl 0)
      have zy : v0.y = v1.y → (cellExit v0 (segDir v0 v1) s).rowC = s.rowC := by
        intro h
        have hz : (segDir v0 v1).y = 0 := by simp only [segDir]; linarith
        rcases st.my with ⟨h', _⟩ | ⟨h', _⟩ | ⟨h', _⟩
        · exact h'
        · rw [hz] at h'; exact absurd h' (lt_irrefl 0)
        · rw [hz] at h'; exact absurd h' (lt_irrefl 0)
      exact (ih _ _ st.inv st.p2_eq rfl hlt ⟨fun t h => habove.before t (st.lt.le.trans h), habove.cell⟩
        (by rw [← st.p2_eq]; exact inCell_footprint hcell st.inCell)
        (fun h => by rw [zx h]; exact hx0 h) (fun h => by rw [zy h]; exact hy0 h) (by omega) (by omega)).2
    · obtain ⟨m, rfl⟩ : ∃ m, n = m + 1 := ⟨n - 1, by omega⟩
      refine ⟨_, ?_, hge⟩
      rw [marchCells_succ, if_neg]
      intro h
      exact absurd ((marchInside_iff d _).mp h).1 (not_lt.mpr hge)

/-- A position inside the DTM, not on its last row or column. -/
def InsideCells (nr nc : ℕ) (p : V3 K) : Prop := 0 ≤ p.x ∧ p.x < (nr : K) - 1 ∧ 0 ≤ p.y ∧ p.y < (nc : K) - 1

theorem floor_inside {nr nc : ℕ} {p : V3 K} (h : InsideCells nr nc p) : IsCell nr nc ⌊p.x⌋ ⌊p.y⌋ := by
  obtain ⟨h1, h2, h3, h4⟩ := h
  have e1 : ⌊p.x⌋ < (nr : ℤ) - 1 := by rw [Int.floor_lt]; push_cast; exact h2
  have e2 : ⌊p.y⌋ < (nc : ℤ) - 1 := by rw [Int.floor_lt]; push_cast; exact h4
  exact ⟨Int.floor_nonneg.2 h1, by omega, Int.floor_nonneg.2 h3, by omega⟩

/-- Reaching a segment with a NaN vertex strictly above the terrain. -/
theorem NanDtm.marchPlanesNan_stuck (impl : Impl) (d : NanDtm K) (N turns : ℕ) (los : List (Option (V3 K))) (n : ℕ) (i0 : ℤ) (p2 : V3 K) (hp2 : K)
    (hi : i0 < (los.length : ℤ) - 1) (hnan : NanDtm.pyGetO los i0 = none ∨ NanDtm.pyGetO los (i0 + 1) = none)
    (hin : InsideCells d.nbRows d.nbCols p2) (hz : d.interpolate p2.x p2.y ≠ some p2.z) :
    d.marchPlanesNan impl N turns los (n + 1) i0 p2 hp2 = .marchFuel := by
  unfold NanDtm.marchPlanesNan
  rw [if_pos hi]
  dsimp only
  have hlt := a2_start_lt (hp2 - (i0 : K))
  generalize (if hp2 - (i0 : K) ≥ 1 then 0 else hp2 - (i0 : K)) = a2 at hlt ⊢
  have hins : marchInside d.sizes ⟨p2, ⌊p2.x⌋, ⌊p2.y⌋, a2⟩ = true := (marchInside_iff _ _).2 ⟨hlt, floor_inside hin⟩
  have key : (if (!marchInside d.sizes ⟨p2, ⌊p2.x⌋, ⌊p2.y⌋, a2⟩) = true then Outcome.notFound
      else match NanDtm.nanCells d turns ⟨p2, ⌊p2.x⌋, ⌊p2.y⌋, a2⟩ with
        | .inl o => o
        | .inr _ => .notFound) = Outcome.marchFuel := by
    rw [hins]
    cases turns with
    | zero => rfl
    | succ t =>
      rw [NanDtm.nanCells_eq d _ hins t, if_neg (show ¬ d.interpolate p2.x p2.y = some p2.z from hz)]
      rfl
  rcases hnan with h | h
  · rw [h]; exact key
  · rw [h]
    cases NanDtm.pyGetO los i0 <;> exact key

theorem NanDtm.pyGetO_nat (l : List (Option (V3 K))) (i : ℕ) (v : Option (V3 K)) (h : l[i]? = some v) : NanDtm.pyGetO l (i : ℤ) = v := by
  unfold NanDtm.pyGetO
  rw [if_neg (by omega)]
  simp [List.getD, h]

/-- C101: the intersection never returns, in either implementation, for a line of sight that enters the DTM along a segment between
two vertices with coordinates, at a point of it `a + α (b - a)`, that is strictly above the terrain until the second one, inside the DTM, and
whose next vertex is NaN: whatever the numbers of turns allowed to the root search and to the cell loop, there is no result after them.  (C++: the
line does not enter at a whole row or column other than 2 in the direction in which they decrease, C60.) -/
theorem C101_march_never_ends {d : NanDtm K} {f : Dtm K} (hf : Fills d f) (hr : 2 ≤ d.nbRows) (hc : 2 ≤ d.nbCols)
    (hfull : ∀ i j, IsNode d.nbRows d.nbCols i j → d.alt i j ≠ none) (impl : Impl) (los : List (Option (V3 K))) (i : ℕ) (a b : V3 K) (α : K)
    (ha : los[i]? = some (some a)) (hb : los[i + 1]? = some (some b)) (hnan : los[i + 2]? = some none)
    (h0 : 0 ≤ α) (h1 : α < 1) (hentry : InsideCells d.nbRows d.nbCols (Spec.lerp a b α)) (hend : InsideCells d.nbRows d.nbCols b)
    (habove : AboveUntil f a b α)
    (hcpp : impl = .cpp → (b.x < a.x → ∀ m : ℤ, (Spec.lerp a b α).x = m → m = 2) ∧ (b.y < a.y → ∀ m : ℤ, (Spec.lerp a b α).y = m → m = 2))
    (N turns : ℕ) :
    d.intersectionNan impl N turns los (Spec.lerp a b α) (i + α) = .marchFuel := by
  have hint := hf.interpolate_total hr hc hfull
  have hlen : i + 2 < los.length := by
    obtain ⟨h, -⟩ := List.getElem?_eq_some_iff.1 hnan; exact h
  have g0 := NanDtm.pyGetO_nat los i _ ha
  have g1 : NanDtm.pyGetO los ((i : ℤ) + 1) = some b := by
    have := NanDtm.pyGetO_nat los (i + 1) _ hb; push_cast at this; exact this
  have g2 : NanDtm.pyGetO los ((i : ℤ) + 1 + 1) = none := by
    have := NanDtm.pyGetO_nat los (i + 2) _ hnan; push_cast at this
    rw [show (i : ℤ) + 1 + 1 = i + 2 by ring]; exact this
  have hup : f.interpolate (Spec.lerp a b α).x (Spec.lerp a b α).y < (Spec.lerp a b α).z := habove.before α le_rfl h1.le
  have hupb : f.interpolate b.x b.y < b.z := by
    have := habove.before 1 h1.le le_rfl; rwa [lerp_one] at this
  have hfl : ⌊(i : K) + α⌋ = (i : ℤ) := by rw [Int.floor_natCast_add, Int.floor_eq_zero_iff.2 ⟨h0, h1⟩, add_zero]
  unfold NanDtm.intersectionNan
  rw [hint]
  dsimp only
  rw [if_neg (not_lt.mpr (sub_nonneg.mpr hup.le)), hfl]
  obtain ⟨n, hn⟩ : ∃ n, los.length + 2 = n + 1 + 1 := ⟨los.length, rfl⟩
  rw [hn]
  have hstuck : ∀ p hp2, InsideCells d.nbRows d.nbCols p → f.interpolate p.x p.y < p.z →
      d.marchPlanesNan impl N turns los (n + 1) ((i : ℤ) + 1) p hp2 = .marchFuel := by
    intro p hp2 hp hz
    refine NanDtm.marchPlanesNan_stuck impl d N turns los n _ p hp2 (by omega) (.inr g2) hp ?_
    rw [hint]
    intro h
    injection h with h
    exact hz.ne h
  unfold NanDtm.marchPlanesNan
  rw [if_pos (by omega), g0, g1]
  dsimp only
  by_cases hv : b.x - a.x = 0 ∧ b.y - a.y = 0
  · rw [if_pos hv, hint]
    dsimp only
    have ex : a.x = b.x := by linarith [hv.1]
    have ey : a.y = b.y := by linarith [hv.2]
    rw [if_neg (by rw [ex, ey]; exact not_le.mpr hupb)]
    exact hstuck _ _ hentry hup
  · rw [if_neg hv]
    have hdir : b.x - a.x ≠ 0 ∨ b.y - a.y ≠ 0 := by
      by_contra hcon
      push Not at hcon
      exact hv hcon
    have hstart : startCell impl (Spec.lerp a b α).x (b.x - a.x) = startCell .py (Spec.lerp a b α).x (b.x - a.x) ∧
        startCell impl (Spec.lerp a b α).y (b.y - a.y) = startCell .py (Spec.lerp a b α).y (b.y - a.y) := by
      cases impl with
      | py => exact ⟨rfl, rfl⟩
      | cpp =>
        exact ⟨startCell_impl _ _ fun h => (hcpp rfl).1 (by linarith), startCell_impl _ _ fun h => (hcpp rfl).2 (by linarith)⟩
    rw [hstart.1, hstart.2]
    have e2 : (if (i : K) + α - ((i : ℤ) : K) ≥ 1 then 0 else (i : K) + α - ((i : ℤ) : K)) = α := by
      rw [if_neg] <;> push_cast <;> [ring; linarith]
    rw [e2]
    have hfr := hf.rows
    have hfc := hf.cols
    have hfoot : ∀ p : V3 K, InsideCells d.nbRows d.nbCols p → InFootprint f.nbRows f.nbCols p := by
      intro p hp
      rw [hfr, hfc]
      exact ⟨hp.1, hp.2.1.le, hp.2.2.1, hp.2.2.2.le⟩
    have hx0 : a.x = b.x → 0 ≤ startCell .py (Spec.lerp a b α).x (b.x - a.x) ∧ startCell .py (Spec.lerp a b α).x (b.x - a.x) + 1 ≤ (f.nbRows : ℤ) - 1 := by
      intro h
      have := floor_inside hentry
      rw [show b.x - a.x = 0 by linarith]
      unfold startCell
      rw [if_neg (fun h => lt_irrefl _ h.2), hfr]
      exact ⟨this.1, this.2.1⟩
    have hy0 : a.y = b.y → 0 ≤ startCell .py (Spec.lerp a b α).y (b.y - a.y) ∧ startCell .py (Spec.lerp a b α).y (b.y - a.y) + 1 ≤ (f.nbCols : ℤ) - 1 := by
      intro h
      have := floor_inside hentry
      rw [show b.y - a.y = 0 by linarith]
      unfold startCell
      rw [if_neg (fun h => lt_irrefl _ h.2), hfc]
      exact ⟨this.2.2.1, this.2.2.2⟩
    have hcell := march_isCell f a b (hfoot b hend)
      ⟨Spec.lerp a b α, startCell .py (Spec.lerp a b α).x (b.x - a.x), startCell .py (Spec.lerp a b α).y (b.y - a.y), α⟩ α
      (start_inv a b _ α α rfl rfl) rfl h1 (hfoot _ hentry) hx0 hy0
    obtain ⟨hin, s', hs', h1'⟩ := marchCells_above_end f N a b hdir (hfoot b hend) (cellFuel f) _ α
      (start_inv a b _ α α rfl rfl) rfl rfl h1 habove (hfoot _ hentry) hx0 hy0 (by unfold cellFuel; omega)
      (cellsLeft_bounds (dir := segDir a b) hcell).2
    rw [NanDtm.inside_sizes hfr hfc, hin, NanDtm.fuel_sizes hfr hfc, hf.marchCells_total hr hc hfull, hs']
    dsimp only
    rw [if_pos h1']
    exact hstuck _ _ hend hupb

/-! ### A grid with a hole in an inner layer -/

/-- Six layers, from 25 m to 0 m; the node of the first row and column of the layer at 10 m has no longitude. -/
def holeGrid : NanGrid ℚ where
  nbalt := 6
  nbrow := 2
  nbcol := 2
  alts := fun k => 25 - 5 * k
  lon := fun k i j => if k = 3 ∧ i = 0 ∧ j = 0 then none else some (3 / 2 + j + k / 8)
  lat := fun k i _ => some (3 / 2 + i + k / 16)
  row0 := 0
  col0 := 0
  steprow := 1
  stepcol := 1
  geographic := true

/-- A flat DTM at 2 m with one summit at 22 m, far from the lines of sight of `holeGrid`. -/
def plainNan : NanDtm ℚ := ⟨fun i j => if i = 5 ∧ j = 5 then some 22 else some 2, 6, 6, ⟨1, 0, -1/2, 0, 1, -1/2⟩⟩

/-- The same DTM, in the model without NaN. -/
def plainDtm : Dtm ℚ := ⟨fun i j => if i = 5 ∧ j = 5 then 22 else 2, 6, 6, ⟨1, 0, -1/2, 0, 1, -1/2⟩⟩

theorem plain_full (i j : ℤ) : plainNan.alt i j = some (plainDtm.alt i j) := by
  simp only [plainNan, plainDtm]
  split_ifs <;> rfl

theorem plain_fills : Fills plainNan plainDtm :=
  ⟨rfl, rfl, rfl, fun i j _ z h => by rw [plain_full] at h; injection h, fun i j hn => ⟨i, j, _, hn, plain_full i j, le_rfl⟩,
    fun i j hn => ⟨i, j, _, hn, plain_full i j, le_rfl⟩⟩

theorem plain_low (x y : ℚ) (h0 : 2 ≤ x) (h1 : x ≤ 3) (h2 : 2 ≤ y) (h3 : y ≤ 3) : plainDtm.interpolate x y ≤ 2 := by
  have h := ((C11_cell_envelope plainDtm.alt 6 6 2 2 ⟨by norm_num, by norm_num, by norm_num, by norm_num⟩).2.1 x y
    ⟨by push_cast; exact h0, by push_cast; linarith, by push_cast; exact h2, by push_cast; linarith⟩).2
  have e : altMaxCellPy plainDtm.alt 2 2 = 2 := by decide +kernel
  rw [e] at h
  exact h

/-- The lines of sight of the pixel (1/2, 1/2), in rows and columns of the DTM. -/
def holeLine : List (Option (V3 ℚ)) :=
  (holeGrid.los (1 / 2) (1 / 2) (dtmAlts ((List.range holeGrid.nbalt).map holeGrid.alts) 1 23)).map fun v => v.map (terToIndexPy plainNan.transform)

/-- C101: `direct_loc_dtm` never returns for a pixel of the cell of a grid whose hole is in an inner layer: the line of sight enters the box of
the DTM between the layers at 25 m and 20 m, and its vertices at 15 m and 10 m are NaN.  The two vertices above them, and the two under them,
have coordinates. -/
theorem C101_inner_layer_hole_never_ends (impl : Impl) :
    holeLine = [some ⟨2, 2, 25⟩, some ⟨33/16, 17/8, 20⟩, none, none, some ⟨9/4, 5/2, 5⟩, some ⟨37/16, 21/8, 0⟩] ∧
    NanDtm.cubeOfIndex impl plainNan holeLine = .ok (some ⟨⟨163/80, 83/40, 22⟩, 3/5⟩) ∧
    ∀ N turns, plainNan.intersectionNan impl N turns holeLine ⟨163/80, 83/40, 22⟩ (3/5) = .marchFuel := by
  have hl : holeLine = [some ⟨2, 2, 25⟩, some ⟨33/16, 17/8, 20⟩, none, none, some ⟨9/4, 5/2, 5⟩, some ⟨37/16, 21/8, 0⟩] := by decide +kernel
  refine ⟨hl, by cases impl <;> decide +kernel, fun N turns => ?_⟩
  have h := C101_march_never_ends plain_fills (by decide) (by decide) (fun i j _ => by rw [plain_full]; simp) impl holeLine 0
    ⟨2, 2, 25⟩ ⟨33/16, 17/8, 20⟩ (3/5) (by rw [hl]; rfl) (by rw [hl]; rfl) (by rw [hl]; rfl) (by norm_num) (by norm_num)
    (by unfold InsideCells; decide +kernel) (by unfold InsideCells; decide +kernel) ⟨?_, ?_⟩ (by
      intro _
      exact ⟨fun h => absurd h (by norm_num), fun h => absurd h (by norm_num)⟩) N turns
  · have e1 : (Spec.lerp (⟨2, 2, 25⟩ : V3 ℚ) ⟨33/16, 17/8, 20⟩ (3/5)) = ⟨163/80, 83/40, 22⟩ := by decide +kernel
    rw [e1] at h
    simpa using h
  · intro t h0 h1
    refine lt_of_le_of_lt (plain_low _ _ ?_ ?_ ?_ ?_) ?_ <;> simp only [Spec.lerp] <;> linarith
  · intro i j hc hi
    refine .inr ⟨by norm_num, 2, by norm_num, ?_⟩
    have hi4 : i ≤ 3 := by
      have : (i : ℚ) ≤ 33/16 := hi.1
      by_contra hcon
      have : (4 : ℚ) ≤ i := by exact_mod_cast (by omega : (4 : ℤ) ≤ i)
      linarith
    simp only [plainDtm]
    rw [if_neg (by omega), if_neg (by omega), if_neg (by omega), if_neg (by omega)]
    norm_num

/-- The pixel has no result. -/
example : holeGrid.dtmPixel .py 5 plainNan 1 23 (1 / 2) (1 / 2) = .failure ∧ holeGrid.dtmPixel .cpp 5 plainNan 1 23 (1 / 2) (1 / 2) = .failure := by
  decide +kernel

end Shareloc
