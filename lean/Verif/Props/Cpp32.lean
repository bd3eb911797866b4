import Verif.Model.Cpp32
import Verif.Props.CppDtm
import Verif.Props.Cube
import Verif.Props.StripCpp
import Verif.Spec.Float

/-!
C115: the 32 bits `int` of the C++ code.
-/

set_option linter.unusedSectionVars false
set_option linter.unusedVariables false

namespace Shareloc
open Spec
variable {K : Type} [Field K] [LinearOrder K] [IsStrictOrderedRing K] [FloorRing K]

/-- The values of type `int`. -/
def IsInt32 (x : ℤ) : Prop := -2 ^ 31 ≤ x ∧ x < 2 ^ 31

theorem isInt32_iff {x : ℤ} : IsInt32 x ↔ -2147483648 ≤ x ∧ x ≤ 2147483647 := by
  unfold IsInt32
  constructor <;> intro h <;> constructor <;> omega

theorem i32_ok {x : ℤ} (h : IsInt32 x) : i32 x = .ok x := if_pos (isInt32_iff.1 h)
theorem i32_over {x : ℤ} (h : ¬ IsInt32 x) : i32 x = .error .overflow := if_neg fun h' => h (isInt32_iff.2 h')

theorem i32_nonneg {x : ℤ} (h0 : 0 ≤ x) (h : x < 2 ^ 31) : i32 x = .ok x := i32_ok ⟨by norm_num; omega, h⟩

theorem up_bind {α β : Type} (x : Except CppFault α) (f : α → Except CppFault β) : up (x >>= f) = (up x >>= fun a => up (f a)) := by
  cases x <;> rfl

theorem up_pure {α : Type} (x : α) : up (pure x : Except CppFault α) = pure x := rfl
theorem up_ok {α : Type} (x : α) : up (.ok x : Except CppFault α) = .ok x := rfl

theorem up_ite {α : Type} (p : Prop) [Decidable p] (a b : Except CppFault α) : up (if p then a else b) = if p then up a else up b := by
  split_ifs <;> rfl

theorem bind_ok {ε α β : Type} (x : α) (f : α → Except ε β) : ((Except.ok x : Except ε α) >>= f) = f x := by
  cases h : f x <;> simp [bind, Except.bind, h]

theorem mapM_up {α β : Type} (f : α → Except Fault32 β) (g : α → Except CppFault β) : ∀ l : List α, (∀ x ∈ l, f x = up (g x)) →
    l.mapM f = up (l.mapM g)
  | [], _ => rfl
  | a :: l, h => by
    rw [List.mapM_cons, List.mapM_cons, up_bind, h a (by simp), mapM_up f g l fun x hx => h x (by simp [hx])]
    congr 1
    funext b
    rw [up_bind]
    rfl

namespace CppDtm

theorem at32_ok {n i j : ℤ} (hn : 0 ≤ n) (hi : 0 ≤ i) (hj : 0 ≤ j) (h : n * i + j < 2 ^ 31) : at32 n i j = .ok (n * i + j) := by
  have := mul_nonneg hn hi
  unfold at32 mul32 add32
  rw [i32_nonneg this (by omega), bind_ok, i32_nonneg (by omega) h]

theorem cellBounds32_ok (data : List K) (nr nc i j : ℕ) (hi : i + 1 < nr) (hj : j + 1 < nc) (h : (nr : ℤ) * nc ≤ 2 ^ 31) :
    cellBounds32 data nc i j = up (cellBounds data nc i j) := by
  have hb : (nc : ℤ) * (i + 1) + (j + 1) < 2 ^ 31 := by
    have : (nc : ℤ) * (i + 2) ≤ nc * nr := mul_le_mul_of_nonneg_left (by omega) (by omega)
    have e1 : (nc : ℤ) * (i + 2) = nc * (i + 1) + nc := by ring
    have e2 : (nc : ℤ) * nr = nr * nc := by ring
    omega
  have e : (nc : ℤ) * (i + 1) = nc * i + nc := by ring
  have n0 : (0 : ℤ) ≤ nc * i := by positivity
  have e2 : ((nc : ℤ) - 1) * i ≤ nc * i := by nlinarith [Int.natCast_nonneg i]
  have e3 : (0 : ℤ) ≤ ((nc : ℤ) - 1) * i := mul_nonneg (by omega) (by omega)
  have hc : (nc : ℤ) < 2 ^ 31 := by omega
  have hi1 : (i : ℤ) + 1 < 2 ^ 31 := by
    have : ((i : ℤ) + 1) * 1 ≤ (i + 1) * nc := mul_le_mul_of_nonneg_left (by omega) (by omega)
    have e4 : ((i : ℤ) + 1) * nc = nc * (i + 1) := by ring
    omega
  unfold cellBounds32 cellBounds
  rw [at32_ok (by omega) (by omega) (by omega) (by omega)]
  simp only [bind_ok, up_bind, up_pure, add32, sub32]
  rw [i32_nonneg (by omega : (0 : ℤ) ≤ (i : ℤ) + 1) hi1, i32_nonneg (by omega : (0 : ℤ) ≤ (j : ℤ) + 1) (by omega),
    i32_nonneg (by omega : (0 : ℤ) ≤ (nc : ℤ) - 1) (by omega)]
  simp only [bind_ok]
  rw [at32_ok (by omega) (by omega) (by omega) (by omega), at32_ok (by omega) (by omega) (by omega) (by omega),
    at32_ok (by omega) (by omega) (by omega) (by omega), at32_ok (by omega) (by omega) (by omega) (by omega)]
  simp only [bind_ok]

theorem mem_cells {nr nc : ℕ} {c : ℕ × ℕ} : c ∈ cells nr nc ↔ c.1 + 1 < nr ∧ c.2 + 1 < nc := by
  obtain ⟨a, b⟩ := c
  simp only [cells, List.mem_flatMap, List.mem_range, List.mem_map, Prod.mk.injEq]
  constructor
  · rintro ⟨i, hi, j, hj, rfl, rfl⟩
    exact ⟨by omega, by omega⟩
  · rintro ⟨h1, h2⟩
    exact ⟨a, by omega, b, by omega, rfl, rfl⟩

theorem initMinMax32_ok (data : List K) (nr nc : ℕ) (hr : 2 ≤ nr) (hc : 2 ≤ nc) (h : (nr : ℤ) * nc ≤ 2 ^ 31) :
    initMinMax32 data nr nc = up (initMinMax data nr nc) := by
  have h1 : 2 * (nr : ℤ) ≤ nr * nc := by nlinarith
  have h2 : 2 * (nc : ℤ) ≤ nr * nc := by nlinarith
  have h3 : ((nr : ℤ) - 1) * (nc - 1) = nr * nc - nr - nc + 1 := by ring
  have h4 : (0 : ℤ) ≤ ((nr : ℤ) - 1) * (nc - 1) := mul_nonneg (by omega) (by omega)
  unfold initMinMax32 initMinMax
  unfold sub32 mul32
  rw [i32_nonneg (by omega : (0 : ℤ) ≤ (nr : ℤ) - 1) (by omega), i32_nonneg (by omega : (0 : ℤ) ≤ (nc : ℤ) - 1) (by omega)]
  simp only [bind_ok]
  rw [i32_nonneg h4 (by omega), bind_ok]
  exact mapM_up _ _ _ fun c hcell => cellBounds32_ok data nr nc c.1 c.2 (mem_cells.1 hcell).1 (mem_cells.1 hcell).2 h

/-- On an array of the announced size, a cell fails by an overflow only, and the last one does when there are too many cells. -/
theorem cellBounds32_fault (alt : ℤ → ℤ → K) (nr nc i j : ℕ) (hi : i + 1 < nr) (hj : j + 1 < nc) (hr : (nr : ℤ) < 2 ^ 31) (hc : (nc : ℤ) < 2 ^ 31) :
    (∀ e, cellBounds32 (altValues alt nr nc) nc i j = .error e → e = .overflow) ∧
    (i + 2 = nr → j + 2 = nc → (2 : ℤ) ^ 31 < nr * nc → ∀ r, cellBounds32 (altValues alt nr nc) nc i j ≠ .ok r) := by
  have at_cases : ∀ n a b : ℤ, at32 n a b = .error .overflow ∨ at32 n a b = .ok (n * a + b) := by
    intro n a b
    unfold at32 mul32 add32
    by_cases h1 : IsInt32 (n * a)
    · rw [i32_ok h1, bind_ok]
      by_cases h2 : IsInt32 (n * a + b)
      · right; exact i32_ok h2
      · left; exact i32_over h2
    · left; rw [i32_over h1]; rfl
  have hi1 : i32 ((i : ℤ) + 1) = .ok ((i : ℤ) + 1) := i32_nonneg (by omega) (by omega)
  have hj1 : i32 ((j : ℤ) + 1) = .ok ((j : ℤ) + 1) := i32_nonneg (by omega) (by omega)
  have hc1 : i32 ((nc : ℤ) - 1) = .ok ((nc : ℤ) - 1) := i32_nonneg (by omega) (by omega)
  have r1 := altValues_rd alt nr nc i j (by omega) (by omega) (nc * i + j) rfl
  have r2 := altValues_rd alt nr nc (i + 1) j (by omega) (by omega) (nc * (i + 1) + j) (by push_cast; ring)
  have r3 := altValues_rd alt nr nc i (j + 1) (by omega) (by omega) (nc * i + (j + 1)) (by push_cast; ring)
  have r4 := altValues_rd alt nr nc (i + 1) (j + 1) (by omega) (by omega) (nc * (i + 1) + (j + 1)) (by push_cast; ring)
  unfold cellBounds32
  simp only [add32, sub32, hi1, hj1, hc1, bind_ok]
  rcases at_cases nc i j with h1 | h1 <;> rw [h1]
  · exact ⟨fun e h => by cases h; rfl, fun _ _ _ r h => by cases h⟩
  rw [bind_ok, r1, up_ok, bind_ok]
  rcases at_cases nc (i + 1) j with h2 | h2 <;> rw [h2]
  · exact ⟨fun e h => by cases h; rfl, fun _ _ _ r h => by cases h⟩
  rw [bind_ok, r2, up_ok, bind_ok]
  rcases at_cases nc i (j + 1) with h3 | h3 <;> rw [h3]
  · exact ⟨fun e h => by cases h; rfl, fun _ _ _ r h => by cases h⟩
  rw [bind_ok, r3, up_ok, bind_ok]
  by_cases hbig : i + 2 = nr ∧ j + 2 = nc ∧ (2 : ℤ) ^ 31 < nr * nc
  · obtain ⟨rfl, rfl, hb⟩ := hbig
    have hover : at32 (↑(j + 2)) ((i : ℤ) + 1) ((j : ℤ) + 1) = .error .overflow := by
      rcases at_cases (↑(j + 2)) ((i : ℤ) + 1) ((j : ℤ) + 1) with h4 | h4
      · exact h4
      · exfalso
        unfold at32 mul32 add32 at h4
        by_cases h5 : IsInt32 (↑(j + 2) * ((i : ℤ) + 1))
        · rw [i32_ok h5, bind_ok] at h4
          by_cases h6 : IsInt32 (↑(j + 2) * ((i : ℤ) + 1) + ((j : ℤ) + 1))
          · have hz : (2 : ℤ) ^ 31 < (i + 2) * (j + 2) := by push_cast at hb; exact hb
            have := h6.2
            push_cast at this
            have e : ((i : ℤ) + 2) * (j + 2) = (j + 2) * (i + 1) + (j + 2) := by ring
            omega
          · rw [i32_over h6] at h4; cases h4
        · rw [i32_over h5] at h4; cases h4
    rw [hover]
    exact ⟨fun e h => by cases h; rfl, fun _ _ _ r h => by cases h⟩
  · refine ⟨fun e h => ?_, fun a b c => absurd ⟨a, b, c⟩ hbig⟩
    rcases at_cases nc (i + 1) (j + 1) with h4 | h4 <;> rw [h4] at h
    · cases h; rfl
    rw [bind_ok, r4, up_ok, bind_ok] at h
    rcases at_cases ((nc : ℤ) - 1) i j with h5 | h5 <;> rw [h5] at h
    · cases h; rfl
    · cases h

/-- The sizes are those of an array of at least two rows and columns, and of at most 2^31 cells. -/
structure Small (o : CppDtm K) : Prop where
  rows2 : 2 ≤ o.nbRows
  cols2 : 2 ≤ o.nbCols
  cells : o.nbRows * o.nbCols ≤ 2 ^ 31

theorem Small.rows {o : CppDtm K} (h : Small o) : o.nbRows ≤ 2 ^ 30 := by
  have h1 := h.cells
  have : o.nbRows * 2 ≤ o.nbRows * o.nbCols := mul_le_mul_of_nonneg_left h.cols2 (by have := h.rows2; omega)
  omega

theorem Small.cols {o : CppDtm K} (h : Small o) : o.nbCols ≤ 2 ^ 30 := by
  have h1 := h.cells
  have : 2 * o.nbCols ≤ o.nbRows * o.nbCols := mul_le_mul_of_nonneg_right h.rows2 (by have := h.cols2; omega)
  omega

theorem lowerShift32_ok (nb : ℤ) (pos : K) (h : nb ≤ 2 ^ 31) : lowerShift32 nb pos = .ok (lowerShift nb pos) := by
  unfold lowerShift32 lowerShift
  split_ifs with h1 h2
  · rfl
  · rfl
  · have f0 : 0 ≤ ⌊pos⌋ := Int.floor_nonneg.2 (not_lt.1 h1)
    have f1 : ⌊pos⌋ < nb - 1 := by
      rw [Int.floor_lt]; push_cast; exact not_le.1 h2
    exact i32_nonneg f0 (by omega)

theorem interpolate32_ok (o : CppDtm K) (h : Small o) (row col : K) : o.interpolate32 row col = up (o.interpolate row col) := by
  have h1 := h.rows
  have h2 := h.cols
  unfold interpolate32 interpolate
  rw [lowerShift32_ok _ _ (by omega), lowerShift32_ok _ _ (by omega)]
  simp only [bind_ok, up_bind, up_pure]

theorem falsi32_ok (o : CppDtm K) (h : Small o) : ∀ (n : ℕ) (p1 : V3 K) (a1 : K) (p2 : V3 K) (h2 : K),
    o.falsi32 n p1 a1 p2 h2 = up (o.falsi n p1 a1 p2 h2)
  | 0, _, _, _, _ => rfl
  | n + 1, p1, a1, p2, h2 => by
    have ih := falsi32_ok o h n
    unfold falsi32 falsi
    split_ifs with h0
    · rfl
    · simp only [interpolate32_ok o h, up_bind, up_ite, ih, up_ok]

theorem inside32_ok (o : CppDtm K) (h : Small o) (s : March K) : o.inside32 s = .ok (o.inside s) := by
  have h1 := h.rows
  have h2 := h.cols
  have h3 := h.rows2
  have h4 := h.cols2
  unfold inside32 inside sub32
  rw [i32_nonneg (by omega) (by omega), bind_ok, i32_nonneg (by omega) (by omega), bind_ok]
  rfl

/-- The cell of `m` is that of `s`, or a neighbour. -/
def Neighbour (s m : March K) : Prop := |m.colC - s.colC| ≤ 1 ∧ |m.rowC - s.rowC| ≤ 1

theorem neighbour_ite {s a b : March K} {p : Prop} [Decidable p] (ha : Neighbour s a) (hb : Neighbour s b) : Neighbour s (if p then a else b) := by
  split_ifs <;> assumption

/-- The next cell is a neighbour. -/
theorem cellExit_neighbour (v0 dir : V3 K) (s : March K) : Neighbour s (cellExit v0 dir s) := by
  unfold cellExit
  dsimp only
  repeat' (with_reducible apply neighbour_ite)
  all_goals exact ⟨by simp, by simp⟩

theorem cellLoop32_ok (o : CppDtm K) (h : Small o) (N : ℕ) (v0 v1 : V3 K) : ∀ (n : ℕ) (s : March K),
    o.cellLoop32 N v0 v1 n s = up (o.cellLoop N v0 v1 n s)
  | 0, _ => rfl
  | n + 1, s => by
    have ih := cellLoop32_ok o h N v0 v1 n
    have h1 := h.rows
    have h2 := h.cols
    have h3 := h.rows2
    have h4 := h.cols2
    unfold cellLoop32 cellLoop
    rw [inside32_ok o h, bind_ok]
    by_cases hin : o.inside s = true
    · rw [if_pos hin, if_pos hin]
      simp only [inside, Bool.and_eq_true, decide_eq_true_eq] at hin
      obtain ⟨⟨⟨⟨-, c0⟩, c1⟩, r0⟩, r1⟩ := hin
      obtain ⟨n1, n2⟩ := cellExit_neighbour v0 ⟨v1.x - v0.x, v1.y - v0.y, v1.z - v0.z⟩ s
      rw [abs_le] at n1 n2
      have hk : s.colC * (o.nbCols - 1) + s.rowC < 2 ^ 31 := by
        have e1 : s.colC * (o.nbCols - 1) ≤ (o.nbRows - 2) * (o.nbCols - 1) := mul_le_mul_of_nonneg_right (by omega) (by omega)
        have e2 : (o.nbRows - 2) * (o.nbCols - 1) = o.nbRows * o.nbCols - o.nbRows - 2 * o.nbCols + 2 := by ring
        have := h.cells
        omega
      have e0 : sub32 o.nbCols 1 = .ok (o.nbCols - 1) := i32_nonneg (by omega) (by omega)
      rw [e0, bind_ok, at32_ok (by omega) (by omega) (by omega) hk, bind_ok]
      simp only [up_bind]
      congr 1
      funext hI
      congr 1
      funext hS
      rw [i32_ok ⟨by omega, by omega⟩, bind_ok, i32_ok ⟨by omega, by omega⟩, bind_ok]
      simp only [up_ite, up_bind, interpolate32_ok o h, falsi32_ok o h, ih]
      rfl
    · rw [if_neg hin, if_neg hin]
      rfl

theorem startCell32_ok (p dir : K) (h : IsInt32 ⌊p⌋) : startCell32 p dir = .ok (startCell p dir) := by
  unfold startCell32
  rw [i32_ok h, bind_ok]
  rfl

/-- Both coordinates are less than 2^31 cells from the first cell. -/
def Near (v : V3 K) : Prop := IsInt32 ⌊v.x⌋ ∧ IsInt32 ⌊v.y⌋

theorem rd_mem {α : Type} {l : List α} {i : ℤ} {x : α} (h : rd l i = .ok x) : x ∈ l := by
  unfold rd at h
  split_ifs at h
  cases hg : l[i.toNat]? with
  | none => rw [hg] at h; cases h
  | some y => rw [hg] at h; cases h; exact List.mem_of_getElem? hg

theorem segmentLoop32_ok (o : CppDtm K) (h : Small o) (N : ℕ) (los : List (V3 K)) (alti : List K) (hlos : ∀ v ∈ los, Near v) :
    ∀ (n : ℕ) (i0 : ℤ) (p2 : V3 K) (hp2 : K), Near p2 → o.segmentLoop32 N los alti n i0 p2 hp2 = up (o.segmentLoop N los alti n i0 p2 hp2)
  | 0, _, _, _, _ => rfl
  | n + 1, i0, p2, hp2, hp => by
    have ih := segmentLoop32_ok o h N los alti hlos n
    unfold segmentLoop32 segmentLoop
    by_cases hi : i0 < (los.length : ℤ) - 1
    · rw [if_pos hi, if_pos hi]
      simp only [up_bind]
      congr 1
      funext v0
      cases hv1 : rd los (i0 + 1) with
      | error e => rfl
      | ok v1 =>
        rw [up_ok]
        simp only [bind_ok]
        by_cases hv : v1.x - v0.x = 0 ∧ v1.y - v0.y = 0
        · rw [if_pos hv, if_pos hv]
          simp only [up_bind, up_ite, interpolate32_ok o h, ih _ _ _ hp, up_ok]
        · rw [if_neg hv, if_neg hv, startCell32_ok _ _ hp.1, startCell32_ok _ _ hp.2]
          simp only [bind_ok]
          rw [inside32_ok o h, bind_ok, up_ite]
          congr 1
          rw [cellLoop32_ok o h, up_bind]
          congr 1
          funext r
          rcases r with q | s'
          · rfl
          · simp only [up_ite]
            congr 1
            rw [up_bind]
            congr 1
            funext hh
            exact ih _ _ _ (hlos _ (rd_mem hv1))
    · rw [if_neg hi, if_neg hi]
      rfl

theorem intersection32_ok (o : CppDtm K) (h : Small o) (N : ℕ) (los : List (V3 K)) (hlos : ∀ v ∈ los, Near v) (pb : V3 K) (hb : Near pb) (hh : K) :
    o.intersection32 N los pb hh = up (o.intersection N los pb hh) := by
  unfold intersection32 intersection
  rw [interpolate32_ok o h, up_bind]
  congr 1
  funext a
  rw [up_ite, segmentLoop32_ok o h N los _ hlos _ _ _ _ hb]
  rfl

end CppDtm

theorem Represents.small {o : CppDtm K} {d : Dtm K} (h : Represents o d) (hs : (d.nbRows : ℤ) * d.nbCols ≤ 2 ^ 31) : o.Small :=
  ⟨by rw [h.rows]; exact_mod_cast h.rows2, by rw [h.cols]; exact_mod_cast h.cols2, by rw [h.rows, h.cols]; exact hs⟩

theorem Represents.locate32 {o : CppDtm K} {d : Dtm K} (h : Represents o d) (hs : (d.nbRows : ℤ) * d.nbCols ≤ 2 ^ 31)
    (hdet : d.transform.a * d.transform.e - d.transform.b * d.transform.d ≠ 0) (N : ℕ) (los : List (V3 K)) (hne : los ≠ [])
    (hlos : ∀ v ∈ los, CppDtm.Near (terToIndexPy d.transform v)) : o.locate32 N los = up (o.locate N los) := by
  have hsm := h.small hs
  unfold CppDtm.locate32 CppDtm.locate
  rw [h.cube los hne]
  cases hc : intersectDtmCube .cpp d los with
  | error e => rfl
  | ok r =>
    obtain ⟨c, li⟩ := r
    cases c with
    | none => rfl
    | some c =>
      have hbox := (C12_entry_on_line_and_in_box .cpp d hdet los li c hc).1
      have hli : li = los.map (terToIndexPy d.transform) := by
        simp only [intersectDtmCube] at hc
        split at hc
        · cases hc
        · cases hc; rfl
      have hr := hsm.rows
      have hcc := hsm.cols
      rw [h.rows] at hr
      rw [h.cols] at hcc
      have near : ∀ (x : K) (n : ℕ), (n : ℤ) ≤ 2 ^ 30 → 0 ≤ x → x ≤ (n : K) - 1 → IsInt32 ⌊x⌋ := by
        intro x n hn h0 h1
        have f0 : 0 ≤ ⌊x⌋ := Int.floor_nonneg.2 h0
        have f1 : ⌊x⌋ < n := by
          rw [Int.floor_lt]; push_cast; linarith
        exact ⟨by omega, by omega⟩
      have hnear : CppDtm.Near c.p := ⟨near _ _ hr hbox.1 hbox.2.1, near _ _ hcc hbox.2.2.1 hbox.2.2.2.1⟩
      have hl : ∀ v ∈ li, CppDtm.Near v := by
        rw [hli]
        intro v hv
        obtain ⟨w, hw, rfl⟩ := List.mem_map.1 hv
        exact hlos w hw
      simp only [cubeFault, up_bind, up_ok, bind_ok, CppDtm.intersection32_ok o hsm N li hl c.p hnear c.h]
      congr 1
      funext r
      cases r <;> rfl

/-! ### C115 -/

/-- C115, constructor: on an array of at least two rows and columns whose sizes are `int`, the object is built without overflow exactly when the
array has at most 2^31 values, and is then the object of unbounded integers (that of C109); otherwise an overflow occurs. -/
theorem C115_constructor (epsg : ℤ) (d : Dtm K) (hr : 2 ≤ d.nbRows) (hc : 2 ≤ d.nbCols) (hr32 : IsInt32 d.nbRows) (hc32 : IsInt32 d.nbCols) :
    ((d.nbRows : ℤ) * d.nbCols ≤ 2 ^ 31 → ∃ o,
      CppDtm.ctor32 epsg (altValues d.alt d.nbRows d.nbCols) d.nbRows d.nbCols d.transform.toGdal = .ok o ∧
      CppDtm.ctor epsg (altValues d.alt d.nbRows d.nbCols) d.nbRows d.nbCols d.transform.toGdal = .ok o) ∧
    ((2 : ℤ) ^ 31 < d.nbRows * d.nbCols →
      CppDtm.ctor32 epsg (altValues d.alt d.nbRows d.nbCols) d.nbRows d.nbCols d.transform.toGdal = .error .overflow) := by
  constructor
  · intro hs
    obtain ⟨o, ho, -⟩ := ctor_represents epsg d hr hc
    refine ⟨o, ?_, ho⟩
    unfold CppDtm.ctor32
    rw [CppDtm.initMinMax32_ok _ _ _ hr hc hs, ho]
    have : ∃ b, CppDtm.initMinMax (altValues d.alt d.nbRows d.nbCols) d.nbRows d.nbCols = .ok b := by
      unfold CppDtm.ctor at ho
      cases hb : CppDtm.initMinMax (altValues d.alt d.nbRows d.nbCols) d.nbRows d.nbCols with
      | ok b => exact ⟨b, rfl⟩
      | error e => rw [hb] at ho; cases ho
    obtain ⟨b, hb⟩ := this
    rw [hb, up_ok, bind_ok, up_ok]
  · intro hs
    have h3 : CppDtm.initMinMax32 (altValues d.alt d.nbRows d.nbCols) d.nbRows d.nbCols = .error .overflow := by
      have hr' := hr32.2
      have hc' := hc32.2
      have e1 : sub32 (d.nbRows : ℤ) 1 = .ok ((d.nbRows : ℤ) - 1) := i32_nonneg (by omega) (by omega)
      have e2 : sub32 (d.nbCols : ℤ) 1 = .ok ((d.nbCols : ℤ) - 1) := i32_nonneg (by omega) (by omega)
      unfold CppDtm.initMinMax32
      rw [e1, bind_ok, e2, bind_ok]
      by_cases hm : IsInt32 (((d.nbRows : ℤ) - 1) * ((d.nbCols : ℤ) - 1))
      · have e3 : mul32 ((d.nbRows : ℤ) - 1) ((d.nbCols : ℤ) - 1) = .ok (((d.nbRows : ℤ) - 1) * ((d.nbCols : ℤ) - 1)) := i32_ok hm
        rw [e3, bind_ok]
        have hlast : (d.nbRows - 2, d.nbCols - 2) ∈ CppDtm.cells d.nbRows d.nbCols := CppDtm.mem_cells.2 ⟨by simp only; omega, by simp only; omega⟩
        generalize hg : (List.mapM (fun c : ℕ × ℕ => CppDtm.cellBounds32 (altValues d.alt d.nbRows d.nbCols) (d.nbCols : ℤ) (c.1 : ℤ) (c.2 : ℤ))
          (CppDtm.cells d.nbRows d.nbCols) : Except Fault32 (List (K × K))) = res
        cases res with
        | ok r =>
          exfalso
          obtain ⟨k, hk⟩ := List.mem_iff_getElem?.1 hlast
          obtain ⟨y, -, hy⟩ := (mapM_ok_get _ _ _ hg).2 k _ hk
          exact (CppDtm.cellBounds32_fault d.alt d.nbRows d.nbCols (d.nbRows - 2) (d.nbCols - 2) (by omega) (by omega) hr' hc').2
            (by omega) (by omega) hs y hy
        | error e =>
          obtain ⟨k, x, hx, hf, -⟩ := (mapM_error _ e _).1 hg
          have hmem := CppDtm.mem_cells.1 (List.mem_of_getElem? hx)
          rw [(CppDtm.cellBounds32_fault d.alt d.nbRows d.nbCols x.1 x.2 hmem.1 hmem.2 hr' hc').1 e hf]
      · have e3 : mul32 ((d.nbRows : ℤ) - 1) ((d.nbCols : ℤ) - 1) = .error .overflow := i32_over hm
        rw [e3]
        rfl
    unfold CppDtm.ctor32
    rw [h3]
    rfl

/-- C115: once the object is built, no line of sight makes an `int` overflow, provided that its vertices are less than 2^31 cells from the first
cell, and the answer is that of C109: that of the intersection model. -/
theorem C115_line_of_sight (epsg : ℤ) (d : Dtm K) (hr : 2 ≤ d.nbRows) (hc : 2 ≤ d.nbCols) (hr32 : IsInt32 d.nbRows) (hc32 : IsInt32 d.nbCols)
    (hdet : d.transform.a * d.transform.e - d.transform.b * d.transform.d ≠ 0) (o : CppDtm K)
    (ho : CppDtm.ctor32 epsg (altValues d.alt d.nbRows d.nbCols) d.nbRows d.nbCols d.transform.toGdal = .ok o) (N : ℕ) (los : List (V3 K))
    (hne : los ≠ []) (hlos : ∀ v ∈ los, CppDtm.Near (terToIndexPy d.transform v)) :
    o.locate32 N los = up (o.locate N los) ∧ o.locate32 N los ≠ .error .overflow ∧
    (∀ p, o.locate32 N los = .ok p ↔ losDtm .cpp d N los = p ∧ p ≠ .failure) := by
  have hs : (d.nbRows : ℤ) * d.nbCols ≤ 2 ^ 31 := by
    by_contra hlt
    rw [(C115_constructor epsg d hr hc hr32 hc32).2 (not_le.1 hlt)] at ho
    cases ho
  obtain ⟨o1, h1, h2⟩ := (C115_constructor epsg d hr hc hr32 hc32).1 hs
  obtain ⟨o', ho', hR, -⟩ := ctor_represents epsg d hr hc
  obtain rfl : o1 = o := by rw [ho] at h1; injection h1 with h; exact h.symm
  obtain rfl : o' = o1 := by rw [h2] at ho'; injection ho' with h; exact h.symm
  have e := hR.locate32 hs hdet N los hne hlos
  refine ⟨e, ?_, fun p => ?_⟩
  · rw [e]
    cases o'.locate N los <;> simp [up]
  · rw [e, ← (C109_same_answer epsg d hr hc o' h2 N los hne).1 p]
    cases o'.locate N los <;> simp [up]

/-- C115, batch: with less than 2^31 / 3 lines of sight the call gives what it gives with unbounded integers (C109); with more it never returns
normally, as the number of coordinates of the result is not an `int`. -/
theorem C115_batch (epsg : ℤ) (d : Dtm K) (hr : 2 ≤ d.nbRows) (hc : 2 ≤ d.nbCols) (hr32 : IsInt32 d.nbRows) (hc32 : IsInt32 d.nbCols)
    (hdet : d.transform.a * d.transform.e - d.transform.b * d.transform.d ≠ 0) (o : CppDtm K)
    (ho : CppDtm.ctor32 epsg (altValues d.alt d.nbRows d.nbCols) d.nbRows d.nbCols d.transform.toGdal = .ok o) (N m : ℕ) (hm1 : 1 ≤ m)
    (hm32 : IsInt32 m) (lines : List (List (V3 K))) (hm : ∀ l ∈ lines, l.length = m)
    (hlos : ∀ l ∈ lines, ∀ v ∈ l, CppDtm.Near (terToIndexPy d.transform v)) :
    (3 * (lines.length : ℤ) < 2 ^ 31 → o.batch32 N (flatLines lines) lines.length m 3 = up (o.batch N (flatLines lines) lines.length m 3)) ∧
    ((2 : ℤ) ^ 31 ≤ 3 * lines.length → ∀ res, o.batch32 N (flatLines lines) lines.length m 3 ≠ .ok res) := by
  constructor
  · intro hn
    unfold CppDtm.batch32 CppDtm.batch
    rw [i32_nonneg (by omega) (by omega), bind_ok, i32_ok hm32, bind_ok, up_bind]
    have e : mul32 (lines.length : ℤ) 3 = .ok ((lines.length : ℤ) * 3) := i32_nonneg (by omega) (by omega)
    rw [mapM_up _ (fun i => do
        let los ← CppDtm.lineOf (flatLines lines) m 3 i
        let p ← o.locate N los
        return CppDtm.valsOf p)]
    · simp only [e, bind_ok]
      rfl
    · intro i hi
      obtain ⟨l, hl⟩ : ∃ l, lines[i]? = some l := ⟨_, List.getElem?_eq_getElem (List.mem_range.1 hi)⟩
      have hmem := List.mem_of_getElem? hl
      rw [lineOf_flat m lines hm i l hl, up_bind, up_ok]
      simp only [bind_ok]
      have hne : l ≠ [] := by
        intro h0
        have := hm l hmem
        rw [h0] at this
        simp at this
        omega
      rw [(C115_line_of_sight epsg d hr hc hr32 hc32 hdet o ho N l hne (hlos l hmem)).1, up_bind]
      rfl
  · intro hn res
    unfold CppDtm.batch32
    have e : mul32 (lines.length : ℤ) 3 = .error .overflow := i32_over fun h => by have := h.2; omega
    simp only [e]
    cases i32 (lines.length : ℤ) with
    | error e => simp [bind, Except.bind]
    | ok _ =>
      rw [bind_ok]
      cases i32 (m : ℤ) with
      | error e => simp [bind, Except.bind]
      | ok _ =>
        rw [bind_ok]
        generalize (List.mapM _ _ : Except Fault32 (List (V3 (CppDtm.CppVal K)))) = r
        cases r <;> simp [bind, Except.bind]

/-- C115: the positions read by the interpolation are computed in double, and are exact up to 2^53 values. -/
theorem C115_positions_in_double {rnd : K → K} (hk : Keeps53 rnd) (nr nc : ℤ) (h : nr * nc ≤ 2 ^ 53) (i j : ℤ) (hi0 : 0 ≤ i) (hi : i < nr)
    (hj0 : 0 ≤ j) (hj : j < nc) : rnd (rnd ((i : K) * nc) + j) = ((i * nc + j : ℤ) : K) := by
  have h1 : i * nc + nc ≤ nr * nc := by
    have : (i + 1) * nc ≤ nr * nc := mul_le_mul_of_nonneg_right (by omega) (by omega)
    have e : (i + 1) * nc = i * nc + nc := by ring
    omega
  have h0 : 0 ≤ i * nc := mul_nonneg hi0 (by omega)
  have k1 := hk (i * nc) 0 (by rw [abs_le]; constructor <;> omega)
  have k2 := hk (i * nc + j) 0 (by rw [abs_le]; constructor <;> omega)
  simp only [zpow_zero, mul_one] at k1 k2
  push_cast at k1 k2 ⊢
  rw [k1, k2]

/-- C115, strips: on the arrays that the rectification gives (one row of `n` points along axis 0, one column along axis 1), every `int` computed by
the C++ function is in range exactly when the `3 * size * n` coordinates of the grid can be counted with an `int`. -/
theorem C115_strip (axis : ℤ) (size n : ℕ) (hs : 1 ≤ size) (hn : 1 ≤ n) :
    (∀ x, StripComputes axis size (stripRows axis n) (stripCols axis n) x → IsInt32 x) ↔ 3 * ((size : ℤ) * n) < 2 ^ 31 := by
  constructor
  · intro h
    by_cases ha : axis = 0
    · have := (h ((size : ℤ) * n * 3) (Or.inl (by simp [ha, stripSizeInts, stripRows, stripCols]))).2
      omega
    · have := (h ((n : ℤ) * size * 3) (Or.inl (by simp [ha, stripSizeInts, stripRows, stripCols]))).2
      rw [mul_comm (n : ℤ)] at this
      omega
  · intro h x hx
    have hn0 : (n : ℤ) ≤ size * n := by nlinarith [Int.natCast_nonneg n]
    have hs0 : (size : ℤ) ≤ size * n := by nlinarith [Int.natCast_nonneg size]
    by_cases ha : axis = 0
    · simp only [StripComputes, ha, stripRows, stripCols, if_true] at hx
      rcases hx with hx | ⟨row, col, hr, hc, hx | ⟨point, hp1, hp2, hx⟩⟩
      · simp only [stripSizeInts, List.mem_cons, List.not_mem_nil, or_false] at hx
        rcases hx with rfl | rfl <;> exact ⟨by omega, by omega⟩
      · obtain rfl : row = 0 := by omega
        simp [stripPointInts, tripleInts] at hx
        constructor <;> omega
      · obtain rfl : row = 0 := by omega
        have hp : ((point : ℤ) + 1) * n ≤ size * n := mul_le_mul_of_nonneg_right (by omega) (by omega)
        have e : ((point : ℤ) + 1) * n = point * n + n := by ring
        have hp0 : (0 : ℤ) ≤ point * n := by positivity
        simp [stripStepInts] at hx
        constructor <;> omega
    · simp only [StripComputes, ha, stripRows, stripCols, if_false] at hx
      rw [mul_comm (size : ℤ)] at h hn0 hs0
      rcases hx with hx | ⟨row, col, hr, hc, hx | ⟨point, hp1, hp2, hx⟩⟩
      · simp only [stripSizeInts, List.mem_cons, List.not_mem_nil, or_false] at hx
        rcases hx with rfl | rfl <;> exact ⟨by omega, by omega⟩
      · obtain rfl : col = 0 := by omega
        have hp : ((row : ℤ) + 1) * size ≤ n * size := mul_le_mul_of_nonneg_right (by omega) (by omega)
        have e : ((row : ℤ) + 1) * size = row * size + size := by ring
        have hp0 : (0 : ℤ) ≤ row * size := by positivity
        simp [stripPointInts, tripleInts] at hx
        constructor <;> omega
      · obtain rfl : col = 0 := by omega
        have hp : ((row : ℤ) + 1) * size ≤ n * size := mul_le_mul_of_nonneg_right (by omega) (by omega)
        have e : ((row : ℤ) + 1) * size = row * size + size := by ring
        have hp0 : (0 : ℤ) ≤ row * size := by positivity
        simp [stripStepInts, ha] at hx
        constructor <;> omega

/-! ### Examples -/

/-- C115, finding: a square DTM is accepted up to 46340 rows; with more the constructor overflows. -/
theorem C115_largest_square (epsg : ℤ) (d : Dtm K) (hsq : d.nbCols = d.nbRows) (hr : 2 ≤ d.nbRows) (hr32 : IsInt32 d.nbRows) :
    (∃ o, CppDtm.ctor32 epsg (altValues d.alt d.nbRows d.nbCols) d.nbRows d.nbCols d.transform.toGdal = .ok o) ↔ d.nbRows ≤ 46340 := by
  have hc : 2 ≤ d.nbCols := by rw [hsq]; exact hr
  have hc32 : IsInt32 d.nbCols := by rw [hsq]; exact hr32
  obtain ⟨h1, h2⟩ := C115_constructor epsg d hr hc hr32 hc32
  rw [hsq] at h1 h2 ⊢
  constructor
  · rintro ⟨o, ho⟩
    by_contra hlt
    have h3 : (46341 : ℤ) * 46341 ≤ d.nbRows * d.nbRows := mul_le_mul (by omega) (by omega) (by omega) (by omega)
    rw [h2 (by omega)] at ho
    cases ho
  · intro hle
    have h3 : (d.nbRows : ℤ) * d.nbRows ≤ 46340 * 46340 := mul_le_mul (by omega) (by omega) (by omega) (by omega)
    obtain ⟨o, ho, -⟩ := h1 (by omega)
    exact ⟨o, ho⟩

/-- C115, a case of the batch: two lines on a 3 x 3 terrain, with checked integers. -/
example : (do
      let o ← CppDtm.ctor32 4326 [0, 1, 0, 1, 0, 1, 0, 1, 0] 3 3 (⟨0, 1, 0, 0, 0, 1⟩ : GdalTransform ℚ)
      o.batch32 10 [3 / 2, 3 / 2, 30, 3 / 2, 3 / 2, -5, 9, 9, 30, 9, 9, -5] 2 2 3) =
    .ok [.num (3 / 2), .nan, .num (3 / 2), .nan, .num 0, .nan] := by
  decide +kernel

/-- C115, a case of `Near`. -/
example : CppDtm.Near (terToIndexPy (⟨1, 0, 0, 0, 1, 0⟩ : Affine ℚ) ⟨3 / 2, 3 / 2, 30⟩) := by
  unfold CppDtm.Near IsInt32
  decide +kernel

/-- C115, a case of the strips: a grid of 1000 rows and 2000 columns. -/
example : ∀ x, StripComputes 1 2000 (stripRows 1 1000) (stripCols 1 1000) x → IsInt32 x :=
  (C115_strip 1 2000 1000 (by norm_num) (by norm_num)).2 (by norm_num)

end Shareloc
