import Verif.Lemmas.Falsi
import Verif.Props.Bilinear

set_option linter.unusedSectionVars false
/-! Helper lemmas about the cell loop of the DTM march. -/

namespace Shareloc
open Spec
variable {K : Type*} [Field K] [LinearOrder K] [IsStrictOrderedRing K] [FloorRing K]

/-- Direction of a segment. -/
def segDir (v0 v1 : V3 K) : V3 K := ⟨v1.x - v0.x, v1.y - v0.y, v1.z - v0.z⟩

theorem lerp_x (v0 v1 : V3 K) (t : K) : (lerp v0 v1 t).x = v0.x + t * (segDir v0 v1).x := rfl
theorem lerp_y (v0 v1 : V3 K) (t : K) : (lerp v0 v1 t).y = v0.y + t * (segDir v0 v1).y := rfl
theorem lerp_z (v0 v1 : V3 K) (t : K) : (lerp v0 v1 t).z = v0.z + t * (segDir v0 v1).z := rfl

theorem marchInside_iff (d : Dtm K) (s : March K) : marchInside d s = true ↔
    s.a2 < 1 ∧ IsCell d.nbRows d.nbCols s.colC s.rowC := by
  simp only [marchInside, Bool.and_eq_true, decide_eq_true_eq, IsCell]
  constructor
  · rintro ⟨⟨⟨⟨h1, h2⟩, h3⟩, h4⟩, h5⟩
    exact ⟨h1, by omega, by omega, by omega, by omega⟩
  · rintro ⟨h1, h2, h3, h4, h5⟩
    exact ⟨⟨⟨⟨h1, by omega⟩, by omega⟩, by omega⟩, by omega⟩

theorem inCell_footprint {nr nc : ℕ} {i j : ℤ} {p : V3 K} (hc : IsCell nr nc i j) (h : InCell i j p.x p.y) :
    InFootprint nr nc p := by
  obtain ⟨a1, a2, a3, a4⟩ := hc
  obtain ⟨b1, b2, b3, b4⟩ := h
  have e1 : (0 : K) ≤ i := by exact_mod_cast a1
  have e2 : (i : K) + 1 ≤ (nr : K) - 1 := by exact_mod_cast a2
  have e3 : (0 : K) ≤ j := by exact_mod_cast a3
  have e4 : (j : K) + 1 ≤ (nc : K) - 1 := by exact_mod_cast a4
  exact ⟨by linarith, by linarith, by linarith, by linarith⟩

theorem CellInv.inCell {v0 dir : V3 K} {s : March K} {α : K} (h : CellInv v0 dir s α) :
    InCell s.colC s.rowC s.p2.x s.p2.y := ⟨h.ax.lo, h.ax.hi, h.ay.lo, h.ay.hi⟩

theorem StepSpec.inCell {v0 dir : V3 K} {s s' : March K} {α : K} (h : StepSpec v0 dir s α s') :
    InCell s.colC s.rowC s'.p2.x s'.p2.y := ⟨h.mx.cell.1, h.mx.cell.2, h.my.cell.1, h.my.cell.2⟩

theorem affine_ge {p v s t u m : K} (h1 : s ≤ t) (h2 : t ≤ u) (a : m ≤ p + s * v) (b : m ≤ p + u * v) :
    m ≤ p + t * v := by
  rcases le_total 0 v with hv | hv
  · have := mul_le_mul_of_nonneg_right h1 hv; linarith
  · have := mul_le_mul_of_nonpos_right h2 hv; linarith

theorem affine_le {p v s t u m : K} (h1 : s ≤ t) (h2 : t ≤ u) (a : p + s * v ≤ m) (b : p + u * v ≤ m) :
    p + t * v ≤ m := by
  rcases le_total 0 v with hv | hv
  · have := mul_le_mul_of_nonneg_right h2 hv; linarith
  · have := mul_le_mul_of_nonpos_right h1 hv; linarith

theorem affine_gt {p v s t u m : K} (h1 : s ≤ t) (h2 : t ≤ u) (a : m < p + s * v) (b : m < p + u * v) :
    m < p + t * v := by
  rcases le_total 0 v with hv | hv
  · have := mul_le_mul_of_nonneg_right h1 hv; linarith
  · have := mul_le_mul_of_nonpos_right h2 hv; linarith

/-- The part of the line between two points of a cell is in the cell. -/
theorem inCell_between (v0 v1 : V3 K) (i j : ℤ) {s t u : K} (h1 : s ≤ t) (h2 : t ≤ u)
    (a : InCell i j (lerp v0 v1 s).x (lerp v0 v1 s).y) (b : InCell i j (lerp v0 v1 u).x (lerp v0 v1 u).y) :
    InCell i j (lerp v0 v1 t).x (lerp v0 v1 t).y := by
  obtain ⟨a1, a2, a3, a4⟩ := a
  obtain ⟨b1, b2, b3, b4⟩ := b
  exact ⟨affine_ge h1 h2 a1 b1, affine_le h1 h2 a2 b2, affine_ge h1 h2 a3 b3, affine_le h1 h2 a4 b4⟩

theorem marchCells_succ (d : Dtm K) (N : ℕ) (v0 v1 : V3 K) (n : ℕ) (s : March K) :
    marchCells d N v0 v1 (n + 1) s =
    if marchInside d s then
      if bIntersect v0.z v1.z (altMinCellPy d.alt s.colC s.rowC) (altMaxCellPy d.alt s.colC s.rowC) s.p2.z
          (cellExit v0 (segDir v0 v1) s).p2.z = true ∧
        (s.p2.z - d.interpolate s.p2.x s.p2.y) * ((cellExit v0 (segDir v0 v1) s).p2.z -
          d.interpolate (cellExit v0 (segDir v0 v1) s).p2.x (cellExit v0 (segDir v0 v1) s).p2.y) ≤ 0 then
        .inl (falsi d.interpolate N s.p2 (d.interpolate s.p2.x s.p2.y) (cellExit v0 (segDir v0 v1) s).p2
          (d.interpolate (cellExit v0 (segDir v0 v1) s).p2.x (cellExit v0 (segDir v0 v1) s).p2.y))
      else marchCells d N v0 v1 n (cellExit v0 (segDir v0 v1) s)
    else .inr s := by
  rw [marchCells]
  simp only [ite_and]
  rfl

/-- Cells left along one axis in the direction of travel. -/
def axisLeft (v : K) (nb : ℤ) (c : ℤ) : ℤ := if v < 0 then c + 1 else nb - 1 - c

theorem axisLeft_move {v : K} {nb c c' : ℤ} {p' : K} (h : AxisMove v c p' c') :
    axisLeft v nb c' = axisLeft v nb c ∧ c' = c ∨ axisLeft v nb c' = axisLeft v nb c - 1 := by
  unfold axisLeft
  rcases h with ⟨rfl, h⟩ | ⟨hv, rfl, rfl⟩ | ⟨hv, rfl, rfl⟩
  · exact .inl ⟨rfl, rfl⟩
  · rw [if_pos hv, if_pos hv]; right; omega
  · rw [if_neg (not_lt.mpr hv.le), if_neg (not_lt.mpr hv.le)]; right; omega

theorem axisLeft_pos {v : K} {nb c : ℤ} (h0 : 0 ≤ c) (h1 : c + 1 ≤ nb - 1) :
    1 ≤ axisLeft v nb c ∧ axisLeft v nb c ≤ nb - 1 := by
  unfold axisLeft; split_ifs <;> omega

/-- Cells left before the march leaves the DTM. -/
def cellsLeft (d : Dtm K) (dir : V3 K) (s : March K) : ℤ :=
  axisLeft dir.x d.nbRows s.colC + axisLeft dir.y d.nbCols s.rowC

theorem cellsLeft_step {d : Dtm K} {v0 dir : V3 K} {s s' : March K} {α : K} (h : StepSpec v0 dir s α s') :
    cellsLeft d dir s' ≤ cellsLeft d dir s - 1 := by
  unfold cellsLeft
  have hx := axisLeft_move (nb := d.nbRows) h.mx
  have hy := axisLeft_move (nb := d.nbCols) h.my
  have hm := h.moved
  rcases hx with ⟨h1, h2⟩ | h1 <;> rcases hy with ⟨h3, h4⟩ | h3
  · rcases hm with h' | h'
    · exact absurd h2 h'
    · exact absurd h4 h'
  all_goals omega

theorem cellsLeft_small {d : Dtm K} {dir : V3 K} {s : March K} (h : IsCell d.nbRows d.nbCols s.colC s.rowC) :
    cellsLeft d dir s < (d.nbRows + d.nbCols + 1 : ℕ) := by
  obtain ⟨a1, a2, a3, a4⟩ := h
  unfold cellsLeft
  have h1 := axisLeft_pos (v := dir.x) a1 a2
  have h2 := axisLeft_pos (v := dir.y) a3 a4
  push_cast
  omega

theorem cellsLeft_bounds {d : Dtm K} {dir : V3 K} {s : March K} (h : IsCell d.nbRows d.nbCols s.colC s.rowC) :
    2 ≤ cellsLeft d dir s ∧ cellsLeft d dir s < cellFuel d := by
  obtain ⟨a1, a2, a3, a4⟩ := h
  unfold cellsLeft cellFuel
  have h1 := axisLeft_pos (v := dir.x) a1 a2
  have h2 := axisLeft_pos (v := dir.y) a3 a4
  have h3 : (0 : ℤ) ≤ (d.nbRows : ℤ) * d.nbCols := by positivity
  push_cast
  omega

/-- The cell loop never runs out of its fuel. -/
theorem marchCells_no_fuel (d : Dtm K) (N : ℕ) (v0 v1 : V3 K) (hd : v1.x - v0.x ≠ 0 ∨ v1.y - v0.y ≠ 0) :
    ∀ (n : ℕ) (s : March K) (α : K), CellInv v0 (segDir v0 v1) s α → 0 < n →
      cellsLeft d (segDir v0 v1) s < n → marchCells d N v0 v1 n s ≠ .inl .marchFuel := by
  intro n
  induction n with
  | zero => intro s α _ h; exact absurd h (lt_irrefl 0)
  | succ n ih =>
    intro s α hinv _ hn
    rw [marchCells_succ]
    split_ifs with h1 h2
    · intro h
      injection h with h
      exact (falsi_not_marchFuel _ _ _ _ _ _).1 h
    · have st := cellExit_spec v0 (segDir v0 v1) s α hinv hd
      have hb := (cellsLeft_bounds (dir := segDir v0 v1) ((marchInside_iff d s).mp h1).2).1
      have := cellsLeft_step (d := d) st
      push_cast at hn
      exact ih _ _ st.inv (by omega) (by omega)
    · simp

/-- Skipping test: when the loop skips a cell entered at or above the terrain, the line of sight is
strictly above the cell's upper envelope over the whole part of the cell before the segment's end. -/
theorem skip_above_geo (d : Dtm K) (v0 v1 : V3 K) (i j : ℤ) (α β : K)
    (hcell : IsCell d.nbRows d.nbCols i j)
    (hin : InCell i j (lerp v0 v1 α).x (lerp v0 v1 α).y)
    (hd : 0 ≤ height d.interpolate v0 v1 α)
    (hb : bIntersect v0.z v1.z (altMinCellPy d.alt i j) (altMaxCellPy d.alt i j)
      (lerp v0 v1 α).z (lerp v0 v1 β).z = false) :
    ∀ t, α ≤ t → t ≤ β → t ≤ 1 → altMaxCellPy d.alt i j < (lerp v0 v1 t).z := by
  intro t t0 ta t1
  have hlow : ¬ (lerp v0 v1 α).z < altMinCellPy d.alt i j := by
    intro h
    have := ((C11_cell_envelope d.alt d.nbRows d.nbCols i j hcell).2.1 _ _ hin).1
    simp only [height, Dtm.interpolate] at hd
    linarith
  have hz1 : v1.z = (lerp v0 v1 1).z := by rw [lerp_one]
  unfold bIntersect at hb
  rw [lerp_z]
  split_ifs at hb with c1 c2
  · simp only [Bool.not_eq_false', Bool.or_eq_true, decide_eq_true_eq] at hb
    rcases hb with hb | hb
    · exact affine_gt t0 ta hb.1 (hb.2.trans c1)
    · exact absurd hb.1 hlow
  · simp only [Bool.not_eq_false', Bool.or_eq_true, decide_eq_true_eq] at hb
    rcases hb with hb | hb
    · exact affine_gt t0 t1 hb.1 (by rw [← lerp_z, ← hz1]; exact hb.2)
    · exact absurd hb.1 hlow
  · simp only [Bool.not_eq_false', Bool.or_eq_true, decide_eq_true_eq] at hb
    rcases hb with hb | hb
    · exact affine_gt t0 ta hb.1 hb.2
    · exact absurd hb.1 hlow

theorem StepSpec.p2_eq {v0 v1 : V3 K} {s s' : March K} {α : K} (st : StepSpec v0 (segDir v0 v1) s α s') :
    s'.p2 = lerp v0 v1 s'.a2 := by
  have e1 := st.px
  have e2 := st.py
  have e3 := st.pz
  cases hq : s'.p2
  simp only [hq] at e1 e2 e3
  simp only [lerp, V3.mk.injEq]
  exact ⟨e1, e2, e3⟩

theorem height_pos_of_skip_geo (d : Dtm K) (v0 v1 : V3 K) (i j : ℤ) (α β : K)
    (hcell : IsCell d.nbRows d.nbCols i j)
    (hin : InCell i j (lerp v0 v1 α).x (lerp v0 v1 α).y)
    (hin' : InCell i j (lerp v0 v1 β).x (lerp v0 v1 β).y)
    (hd : 0 ≤ height d.interpolate v0 v1 α)
    (hb : bIntersect v0.z v1.z (altMinCellPy d.alt i j) (altMaxCellPy d.alt i j)
      (lerp v0 v1 α).z (lerp v0 v1 β).z = false) (t : K) (t0 : α ≤ t) (ta : t ≤ β) (t1 : t ≤ 1) :
    0 < height d.interpolate v0 v1 t := by
  have h := skip_above_geo d v0 v1 i j α β hcell hin hd hb t t0 ta t1
  have := ((C11_cell_envelope d.alt d.nbRows d.nbCols i j hcell).2.1 _ _
    (inCell_between v0 v1 i j t0 ta hin hin')).2
  simp only [height, Dtm.interpolate]
  linarith

theorem height_pos_of_skip (d : Dtm K) (v0 v1 : V3 K) (s s' : March K) (α : K)
    (hcell : IsCell d.nbRows d.nbCols s.colC s.rowC)
    (hinv : CellInv v0 (segDir v0 v1) s α) (st : StepSpec v0 (segDir v0 v1) s α s')
    (hp : s.p2 = lerp v0 v1 α)
    (hd : 0 ≤ height d.interpolate v0 v1 α)
    (hb : bIntersect v0.z v1.z (altMinCellPy d.alt s.colC s.rowC) (altMaxCellPy d.alt s.colC s.rowC)
      s.p2.z s'.p2.z = false) (t : K) (t0 : α ≤ t) (ta : t ≤ s'.a2) (t1 : t ≤ 1) :
    0 < height d.interpolate v0 v1 t := by
  refine height_pos_of_skip_geo d v0 v1 s.colC s.rowC α s'.a2 hcell (by rw [← hp]; exact hinv.inCell)
    (by rw [← st.p2_eq]; exact st.inCell) hd (by rw [← hp, ← st.p2_eq]; exact hb) t t0 ta t1

/-- The call of the regula falsi made by the loop, entered at or above the terrain with a sign change. -/
theorem falsi_call_cases (f : K → K → K) (v0 v1 : V3 K) (N : ℕ) (α β : K) (hab : α ≤ β)
    (h0 : 0 ≤ height f v0 v1 α) (hprod : height f v0 v1 α * height f v0 v1 β ≤ 0) :
    (∃ t, α ≤ t ∧ t ≤ β ∧ falsi f N (lerp v0 v1 α) (f (lerp v0 v1 α).x (lerp v0 v1 α).y) (lerp v0 v1 β)
      (f (lerp v0 v1 β).x (lerp v0 v1 β).y) = .found (lerp v0 v1 t)) ∨
    falsi f N (lerp v0 v1 α) (f (lerp v0 v1 α).x (lerp v0 v1 α).y) (lerp v0 v1 β)
      (f (lerp v0 v1 β).x (lerp v0 v1 β).y) = .falsiFuel ∨
    (height f v0 v1 α = 0 ∧ height f v0 v1 β = 0 ∧
      falsi f N (lerp v0 v1 α) (f (lerp v0 v1 α).x (lerp v0 v1 α).y) (lerp v0 v1 β)
      (f (lerp v0 v1 β).x (lerp v0 v1 β).y) = .nonFinite) := by
  by_cases hβ : height f v0 v1 β ≤ 0
  · exact falsi_bracket_cases f v0 v1 N α β hab h0 hβ
  · have hβ := not_le.mp hβ
    have hα : height f v0 v1 α = 0 := by
      by_contra hne
      have := mul_pos (lt_of_le_of_ne h0 (Ne.symm hne)) hβ
      linarith
    cases N with
    | zero => right; left; simp [falsi]
    | succ n =>
      left
      refine ⟨α, le_refl _, hab, ?_⟩
      rw [falsi_step, if_neg (by rw [hα]; linarith)]
      simp [hα, tolZ_pos.le]

/-- Points found on one segment entered at or above the terrain: on the line, after the entry, within
the DTM footprint. -/
theorem marchCells_found_between (d : Dtm K) (N : ℕ) (v0 v1 : V3 K)
    (hdir : v1.x - v0.x ≠ 0 ∨ v1.y - v0.y ≠ 0) :
    ∀ (n : ℕ) (s : March K) (α : K), CellInv v0 (segDir v0 v1) s α → s.p2 = lerp v0 v1 α → s.a2 = α →
      (α < 1 → 0 ≤ height d.interpolate v0 v1 α) →
      ∀ p, marchCells d N v0 v1 n s = .inl (.found p) →
        ∃ t, α ≤ t ∧ p = lerp v0 v1 t ∧ InFootprint d.nbRows d.nbCols p := by
  intro n
  induction n with
  | zero => intro s α _ _ _ _ p h; simp [marchCells] at h
  | succ n ih =>
    intro s α hinv hp ha hd p h
    rw [marchCells_succ] at h
    have st := cellExit_spec v0 (segDir v0 v1) s α hinv hdir
    set s' := cellExit v0 (segDir v0 v1) s with hs'
    split_ifs at h with h1 h2
    · obtain ⟨hlt, hcell⟩ := (marchInside_iff d s).mp h1
      rw [ha] at hlt
      have hd := hd hlt
      injection h with h
      have hprod := h2.2
      rw [hp, st.p2_eq] at hprod h
      rcases falsi_call_cases d.interpolate v0 v1 N α s'.a2 st.lt.le hd hprod with ⟨t, t0, t1, ht⟩ | ht | ⟨_, _, ht⟩
      · rw [ht] at h
        injection h with h
        subst h
        exact ⟨t, t0, rfl, inCell_footprint hcell (inCell_between v0 v1 _ _ t0 t1
          (by rw [← hp]; exact hinv.inCell) (by rw [← st.p2_eq]; exact st.inCell))⟩
      · rw [ht] at h; exact absurd h (by simp)
      · rw [ht] at h; exact absurd h (by simp)
    · obtain ⟨hlt, hcell⟩ := (marchInside_iff d s).mp h1
      rw [ha] at hlt
      have hd := hd hlt
      obtain ⟨t, t0, ht, hf⟩ := ih s' s'.a2 st.inv st.p2_eq rfl (by
        intro hlt'
        by_cases hb : bIntersect v0.z v1.z (altMinCellPy d.alt s.colC s.rowC)
            (altMaxCellPy d.alt s.colC s.rowC) s.p2.z s'.p2.z = true
        · have hprod : ¬ height d.interpolate v0 v1 α * height d.interpolate v0 v1 s'.a2 ≤ 0 := by
            intro hc
            apply h2
            refine ⟨hb, ?_⟩
            rw [hp, st.p2_eq]
            exact hc
          by_contra hc
          exact hprod (mul_nonpos_of_nonneg_of_nonpos hd (not_le.mp hc).le)
        · exact (height_pos_of_skip d v0 v1 s s' α hcell hinv st hp hd (by simpa using hb) s'.a2 st.lt.le
            (le_refl _) hlt'.le).le) p h
      exact ⟨t, st.lt.le.trans t0, ht, hf⟩

/-- The interpolated surface is bilinear along the part of the line in one cell. -/
theorem cell_lipschitz (d : Dtm K) (P Q : V3 K) (i j : ℤ) (hc : IsCell d.nbRows d.nbCols i j)
    (hP : InCell i j P.x P.y) (hQ : InCell i j Q.x Q.y) :
    ∃ L, 0 < L ∧ ∀ s t, 0 ≤ s → s ≤ t → t ≤ 1 →
      height d.interpolate P Q s - height d.interpolate P Q t ≤ L * (t - s) := by
  refine height_lipschitz d.interpolate P Q (fun row col => interOne d.alt col row j i)
    (interOne_bilinear d.alt i j).1 ?_
  intro t t0 t1
  have hin := inCell_between P Q i j t0 t1 (by rw [lerp_zero]; exact hP) (by rw [lerp_one]; exact hQ)
  exact interpolBilin_cell d.alt d.nbRows d.nbCols i j hc _ _ hin

/-- A parameter at which the line of sight is certainly seen at or below the terrain: on a grid line it
goes across, or at or below the lowest altitude of the DTM on a non-ascending line. -/
def SeenBelow (d : Dtm K) (v0 v1 : V3 K) (T : K) : Prop :=
  T ≤ 1 ∧ InFootprint d.nbRows d.nbCols (lerp v0 v1 T) ∧ height d.interpolate v0 v1 T ≤ 0 ∧
  ((v0.x ≠ v1.x ∧ ∃ m : ℤ, (lerp v0 v1 T).x = m) ∨ (v0.y ≠ v1.y ∧ ∃ m : ℤ, (lerp v0 v1 T).y = m) ∨
    (v1.z ≤ v0.z ∧ (lerp v0 v1 T).z ≤ d.altMin))

theorem axis_range {p v q : K} {c : ℤ} {nb : ℕ} (h : AxisInv p v c) (hv : v ≠ 0) (p0 : 0 ≤ p)
    (p1 : p ≤ (nb : K) - 1) (q0 : 0 ≤ q) (q1 : q ≤ (nb : K) - 1) {e : K} (he : 0 < e) (hq : q = p + e * v) :
    0 ≤ c ∧ c + 1 ≤ (nb : ℤ) - 1 := by
  rcases lt_or_gt_of_ne hv with hv | hv
  · have h1 := mul_neg_of_pos_of_neg he hv
    have h2 := h.neg hv
    have h3 := h.hi
    have a : (-1 : K) < c := by linarith
    have b : (c : K) < (nb : K) - 1 := by linarith
    have a' : (-1 : ℤ) < c := by exact_mod_cast a
    have b' : c < (nb : ℤ) - 1 := by exact_mod_cast b
    omega
  · have h1 := mul_pos he hv
    have h2 := h.pos hv
    have h3 := h.lo
    have a : (-1 : K) < c := by linarith
    have b : (c : K) < (nb : K) - 1 := by linarith
    have a' : (-1 : ℤ) < c := by exact_mod_cast a
    have b' : c < (nb : ℤ) - 1 := by exact_mod_cast b
    omega

/-- A grid line crossed transversally inside the swept part of a cell is its exit side. -/
theorem grid_line_exit {p v e e' : K} {c m : ℤ} (h : AxisInv p v c) (hv : v ≠ 0) (he : 0 < e) (hle : e ≤ e')
    (hm : p + e * v = m) (hcell : (c : K) ≤ p + e' * v ∧ p + e' * v ≤ c + 1) : e = e' := by
  rcases lt_or_gt_of_ne hv with hv | hv
  · have h1 := mul_neg_of_pos_of_neg he hv
    have h3 := h.hi
    have hlt : (m : K) < c + 1 := by linarith
    have hlt' : m < c + 1 := by exact_mod_cast hlt
    have h4 := mul_le_mul_of_nonpos_right hle hv.le
    have hmc : (m : K) ≤ c := by exact_mod_cast (by omega : m ≤ c)
    have : (e - e') * v ≤ 0 := by linarith
    by_contra hne
    have : e - e' < 0 := lt_of_le_of_ne (by linarith) (fun h => hne (by linarith))
    have := mul_pos_of_neg_of_neg this hv
    linarith
  · have h1 := mul_pos he hv
    have h3 := h.lo
    have hlt : (c : K) < m := by linarith
    have hlt' : c < m := by exact_mod_cast hlt
    have hmc : (c : K) + 1 ≤ m := by exact_mod_cast (by omega : c + 1 ≤ m)
    by_contra hne
    have : 0 < e' - e := lt_of_le_of_ne (by linarith) (fun h => hne (by linarith))
    have := mul_pos this hv
    linarith

/-- Completeness of the cell loop. -/
theorem marchCells_eventually (d : Dtm K) (hr : 2 ≤ d.nbRows) (hc : 2 ≤ d.nbCols) (v0 v1 : V3 K)
    (hdir : v1.x - v0.x ≠ 0 ∨ v1.y - v0.y ≠ 0) (T : K) (hT : SeenBelow d v0 v1 T) :
    ∀ (n : ℕ) (s : March K) (α : K), CellInv v0 (segDir v0 v1) s α → s.p2 = lerp v0 v1 α → s.a2 = α →
      α < T → 0 ≤ height d.interpolate v0 v1 α → InFootprint d.nbRows d.nbCols (lerp v0 v1 α) →
      (v0.x = v1.x → 0 ≤ s.colC ∧ s.colC + 1 ≤ (d.nbRows : ℤ) - 1) →
      (v0.y = v1.y → 0 ≤ s.rowC ∧ s.rowC + 1 ≤ (d.nbCols : ℤ) - 1) →
      0 < n → cellsLeft d (segDir v0 v1) s < n →
      ∃ N0, ∀ N, N0 ≤ N → (∃ p, marchCells d N v0 v1 n s = .inl (.found p)) ∨
        (height d.interpolate v0 v1 α = 0 ∧ marchCells d N v0 v1 n s = .inl .nonFinite) := by
  obtain ⟨hT1, hTf, hTh, hTk⟩ := hT
  intro n
  induction n with
  | zero => intro s α _ _ _ _ _ _ _ _ h; exact absurd h (lt_irrefl 0)
  | succ n ih =>
    intro s α hinv hp ha hαT hd hfoot hx0 hy0 _ hn
    have st := cellExit_spec v0 (segDir v0 v1) s α hinv hdir
    -- the loop condition holds
    have hcell : IsCell d.nbRows d.nbCols s.colC s.rowC := by
      have hpx : s.p2.x = (lerp v0 v1 α).x := by rw [hp]
      have hpy : s.p2.y = (lerp v0 v1 α).y := by rw [hp]
      have hx : 0 ≤ s.colC ∧ s.colC + 1 ≤ (d.nbRows : ℤ) - 1 := by
        by_cases h : v0.x = v1.x
        · exact hx0 h
        · refine axis_range hinv.ax (show (segDir v0 v1).x ≠ 0 from fun h' => h (by
            simp only [segDir] at h'; linarith)) (by rw [hpx]; exact hfoot.1) (by rw [hpx]; exact hfoot.2.1)
            hTf.1 hTf.2.1 (sub_pos.mpr hαT) ?_
          rw [hpx, lerp_x, lerp_x]; ring
      have hy : 0 ≤ s.rowC ∧ s.rowC + 1 ≤ (d.nbCols : ℤ) - 1 := by
        by_cases h : v0.y = v1.y
        · exact hy0 h
        · refine axis_range hinv.ay (show (segDir v0 v1).y ≠ 0 from fun h' => h (by
            simp only [segDir] at h'; linarith)) (by rw [hpy]; exact hfoot.2.2.1) (by rw [hpy]; exact hfoot.2.2.2)
            hTf.2.2.1 hTf.2.2.2 (sub_pos.mpr hαT) ?_
          rw [hpy, lerp_y, lerp_y]; ring
      exact ⟨hx.1, hx.2, hy.1, hy.2⟩
    have hlt : α < 1 := lt_of_lt_of_le hαT hT1
    have hin : marchInside d s = true := (marchInside_iff d s).mpr ⟨by rw [ha]; exact hlt, hcell⟩
    have hbounds := (cellsLeft_bounds (dir := segDir v0 v1) hcell).1
    have hdec := cellsLeft_step (d := d) st
    -- the regula falsi, whenever it is called with a sign change
    have call : height d.interpolate v0 v1 (cellExit v0 (segDir v0 v1) s).a2 ≤ 0 →
        ∃ N0, ∀ N, N0 ≤ N → (∃ p, falsi d.interpolate N (lerp v0 v1 α)
            (d.interpolate (lerp v0 v1 α).x (lerp v0 v1 α).y) (lerp v0 v1 (cellExit v0 (segDir v0 v1) s).a2)
            (d.interpolate (lerp v0 v1 (cellExit v0 (segDir v0 v1) s).a2).x
              (lerp v0 v1 (cellExit v0 (segDir v0 v1) s).a2).y) = .found p) ∨
          (height d.interpolate v0 v1 α = 0 ∧ falsi d.interpolate N (lerp v0 v1 α)
            (d.interpolate (lerp v0 v1 α).x (lerp v0 v1 α).y) (lerp v0 v1 (cellExit v0 (segDir v0 v1) s).a2)
            (d.interpolate (lerp v0 v1 (cellExit v0 (segDir v0 v1) s).a2).x
              (lerp v0 v1 (cellExit v0 (segDir v0 v1) s).a2).y) = .nonFinite) := by
      intro hneg
      set β := (cellExit v0 (segDir v0 v1) s).a2
      by_cases hz : height d.interpolate v0 v1 α - height d.interpolate v0 v1 β = 0
      · refine ⟨1, fun N hN => .inr ⟨by linarith, ?_⟩⟩
        obtain ⟨k, rfl⟩ := Nat.exists_eq_add_of_le' hN
        rw [falsi_step, if_pos hz]
      · obtain ⟨L, hL, hlip⟩ := cell_lipschitz d (lerp v0 v1 α) (lerp v0 v1 β) s.colC s.rowC hcell
          (by rw [← hp]; exact hinv.inCell) (by rw [← st.p2_eq]; exact st.inCell)
        have e0 : height d.interpolate (lerp v0 v1 α) (lerp v0 v1 β) 0 = height d.interpolate v0 v1 α := by
          rw [height_lerp]; simp
        have e1 : height d.interpolate (lerp v0 v1 α) (lerp v0 v1 β) 1 = height d.interpolate v0 v1 β := by
          rw [height_lerp]; simp
        obtain ⟨N0, hN0⟩ := falsi_eventually d.interpolate (lerp v0 v1 α) (lerp v0 v1 β) L hL hlip
          (by rw [e0]; exact hd) (by rw [e1]; exact hneg) (by rw [e0, e1]; exact hz)
        refine ⟨N0, fun N hN => .inl ?_⟩
        obtain ⟨t, _, _, ht⟩ := hN0 N hN
        exact ⟨_, ht⟩
    by_cases hfin : T ≤ (cellExit v0 (segDir v0 v1) s).a2
    · -- the last cell
      have hneg : height d.interpolate v0 v1 (cellExit v0 (segDir v0 v1) s).a2 ≤ 0 := by
        have hpx : s.p2.x = (lerp v0 v1 α).x := by rw [hp]
        have hpy : s.p2.y = (lerp v0 v1 α).y := by rw [hp]
        rcases hTk with ⟨hne, m, hm⟩ | ⟨hne, m, hm⟩ | ⟨hdesc, hz⟩
        · have := grid_line_exit hinv.ax (show (segDir v0 v1).x ≠ 0 from fun h' => hne (by
            simp only [segDir] at h'; linarith)) (sub_pos.mpr hαT)
            (show T - α ≤ (cellExit v0 (segDir v0 v1) s).a2 - α by linarith) (m := m)
            (by rw [← hm, hpx, lerp_x, lerp_x]; ring)
            (by
              have h1 := st.mx.cell
              rw [st.px] at h1
              have e : s.p2.x + ((cellExit v0 (segDir v0 v1) s).a2 - α) * (segDir v0 v1).x =
                v0.x + (cellExit v0 (segDir v0 v1) s).a2 * (segDir v0 v1).x := by
                rw [hpx, lerp_x]; ring
              rw [e]; exact h1)
          have : T = (cellExit v0 (segDir v0 v1) s).a2 := by linarith
          rw [← this]; exact hTh
        · have := grid_line_exit hinv.ay (show (segDir v0 v1).y ≠ 0 from fun h' => hne (by
            simp only [segDir] at h'; linarith)) (sub_pos.mpr hαT)
            (show T - α ≤ (cellExit v0 (segDir v0 v1) s).a2 - α by linarith) (m := m)
            (by rw [← hm, hpy, lerp_y, lerp_y]; ring)
            (by
              have h1 := st.my.cell
              rw [st.py] at h1
              have e : s.p2.y + ((cellExit v0 (segDir v0 v1) s).a2 - α) * (segDir v0 v1).y =
                v0.y + (cellExit v0 (segDir v0 v1) s).a2 * (segDir v0 v1).y := by
                rw [hpy, lerp_y]; ring
              rw [e]; exact h1)
          have : T = (cellExit v0 (segDir v0 v1) s).a2 := by linarith
          rw [← this]; exact hTh
        · have hf := inCell_footprint hcell st.inCell
          have hlow := ((C11_global_bounds d hr hc).2.2.2 _ _ hf.1 hf.2.1 hf.2.2.1 hf.2.2.2).1
          rw [st.p2_eq] at hlow
          have hzz : (lerp v0 v1 (cellExit v0 (segDir v0 v1) s).a2).z ≤ (lerp v0 v1 T).z := by
            rw [lerp_z, lerp_z]
            have : (segDir v0 v1).z ≤ 0 := by simp only [segDir]; linarith
            have := mul_le_mul_of_nonpos_right hfin this
            linarith
          simp only [height]
          linarith
      have hbi : bIntersect v0.z v1.z (altMinCellPy d.alt s.colC s.rowC) (altMaxCellPy d.alt s.colC s.rowC)
          s.p2.z (cellExit v0 (segDir v0 v1) s).p2.z = true := by
        by_contra hb
        have := height_pos_of_skip d v0 v1 s _ α hcell hinv st hp hd (by simpa using hb) T hαT.le hfin hT1
        linarith
      have hprod : (s.p2.z - d.interpolate s.p2.x s.p2.y) * ((cellExit v0 (segDir v0 v1) s).p2.z -
          d.interpolate (cellExit v0 (segDir v0 v1) s).p2.x (cellExit v0 (segDir v0 v1) s).p2.y) ≤ 0 := by
        rw [hp, st.p2_eq]
        exact mul_nonpos_of_nonneg_of_nonpos hd hneg
      obtain ⟨N0, hN0⟩ := call hneg
      refine ⟨N0, fun N hN => ?_⟩
      rw [marchCells_succ, if_pos hin, if_pos ⟨hbi, hprod⟩, hp, st.p2_eq]
      rcases hN0 N hN with ⟨p, h⟩ | ⟨h, h'⟩
      · exact .inl ⟨p, by rw [h]⟩
      · exact .inr ⟨h, by rw [h']⟩
    · have hfin := not_le.mp hfin
      by_cases hcond : bIntersect v0.z v1.z (altMinCellPy d.alt s.colC s.rowC)
          (altMaxCellPy d.alt s.colC s.rowC) s.p2.z (cellExit v0 (segDir v0 v1) s).p2.z = true ∧
          (s.p2.z - d.interpolate s.p2.x s.p2.y) * ((cellExit v0 (segDir v0 v1) s).p2.z -
          d.interpolate (cellExit v0 (segDir v0 v1) s).p2.x (cellExit v0 (segDir v0 v1) s).p2.y) ≤ 0
      · by_cases hneg : height d.interpolate v0 v1 (cellExit v0 (segDir v0 v1) s).a2 ≤ 0
        · obtain ⟨N0, hN0⟩ := call hneg
          refine ⟨N0, fun N hN => ?_⟩
          rw [marchCells_succ, if_pos hin, if_pos hcond, hp, st.p2_eq]
          rcases hN0 N hN with ⟨p, h⟩ | ⟨h, h'⟩
          · exact .inl ⟨p, by rw [h]⟩
          · exact .inr ⟨h, by rw [h']⟩
        · -- on the terrain at the entry of the cell, above at its exit: the entry itself is found
          have hα : height d.interpolate v0 v1 α = 0 := by
            have h2 := hcond.2
            rw [hp, st.p2_eq] at h2
            by_contra hne
            have := mul_pos (lt_of_le_of_ne hd (Ne.symm hne)) (not_le.mp hneg)
            exact absurd h2 (not_le.mpr this)
          refine ⟨1, fun N hN => .inl ?_⟩
          obtain ⟨k, rfl⟩ := Nat.exists_eq_add_of_le' hN
          rw [marchCells_succ, if_pos hin, if_pos hcond, hp, st.p2_eq, falsi_step,
            if_neg (by rw [hα]; linarith [not_le.mp hneg])]
          refine ⟨lerp v0 v1 α, ?_⟩
          simp [hα, tolZ_pos.le]
      · have hpos : 0 < height d.interpolate v0 v1 (cellExit v0 (segDir v0 v1) s).a2 := by
          by_cases hb : bIntersect v0.z v1.z (altMinCellPy d.alt s.colC s.rowC)
            (altMaxCellPy d.alt s.colC s.rowC) s.p2.z (cellExit v0 (segDir v0 v1) s).p2.z = true
          · by_contra hc
            apply hcond
            refine ⟨hb, ?_⟩
            rw [hp, st.p2_eq]
            exact mul_nonpos_of_nonneg_of_nonpos hd (not_lt.mp hc)
          · exact height_pos_of_skip d v0 v1 s _ α hcell hinv st hp hd (by simpa using hb) _ st.lt.le
              (le_refl _) (hfin.le.trans hT1)
        have zx : v0.x = v1.x → (cellExit v0 (segDir v0 v1) s).colC = s.colC := by
          intro h
          have hz : (segDir v0 v1).x = 0 := by simp only [segDir]; linarith
          rcases st.mx with ⟨h', _⟩ | ⟨h', _⟩ | ⟨h', _⟩
          · exact h'
          · rw [hz] at h'; exact absurd h' (lt_irrefl 0)
          · rw [hz] at h'; exact absurd h' (lt_irrefl 0)
        have zy : v0.y = v1.y → (cellExit v0 (segDir v0 v1) s).rowC = s.rowC := by
          intro h
          have hz : (segDir v0 v1).y = 0 := by simp only [segDir]; linarith
          rcases st.my with ⟨h', _⟩ | ⟨h', _⟩ | ⟨h', _⟩
          · exact h'
          · rw [hz] at h'; exact absurd h' (lt_irrefl 0)
          · rw [hz] at h'; exact absurd h' (lt_irrefl 0)
        push_cast at hn
        obtain ⟨N0, hN0⟩ := ih _ _ st.inv st.p2_eq rfl hfin hpos.le
          (by rw [← st.p2_eq]; exact inCell_footprint hcell st.inCell)
          (fun h => by rw [zx h]; exact hx0 h) (fun h => by rw [zy h]; exact hy0 h) (by omega) (by omega)
        refine ⟨N0, fun N hN => ?_⟩
        rw [marchCells_succ, if_pos hin, if_neg hcond]
        rcases hN0 N hN with h | ⟨h, _⟩
        · exact .inl h
        · exact absurd h hpos.ne'

end Shareloc
