import Verif.Props.March

set_option linter.unusedSectionVars false
/-! C18: which lines of sight are reported as NaN, exactly, and what the others that miss the terrain give. -/

namespace Shareloc
open Spec
variable {K : Type*} [Field K] [LinearOrder K] [IsStrictOrderedRing K] [FloorRing K]

/-- C18, exact condition of NaN: for a line of sight whose first vertex is on no face plane of the box of the DTM, NaN is reported
exactly when there are not two faces whose plane is first crossed by the line on the box itself. -/
theorem C18_nan_iff (impl : Impl) (d : Dtm K) (N : ℕ) (los : List (V3 K))
    (hoff : FirstOffPlanes d (los.map (terToIndexPy d.transform))) :
    losDtm impl d N los = .nan ↔ ¬ ∃ k1 k2 h1 h2 p1 p2, k1 ≠ k2 ∧
      FirstCrossing d.nbRows d.nbCols d.altMin d.altMax k1 (los.map (terToIndexPy d.transform)) h1 p1 ∧
      FirstCrossing d.nbRows d.nbCols d.altMin d.altMax k2 (los.map (terToIndexPy d.transform)) h2 p2 ∧
      InBox d.nbRows d.nbCols d.altMin d.altMax p1 ∧ InBox d.nbRows d.nbCols d.altMin d.altMax p2 := by
  obtain ⟨o, ho, hiff⟩ := C13_found_iff_two_faces impl d los hoff
  rw [← hiff]
  unfold losDtm
  simp only [ho]
  cases o with
  | none => simp
  | some c =>
    simp only [Option.isSome_some, not_true_eq_false, iff_false]
    cases intersectionIdx impl d N (los.map (terToIndexPy d.transform)) c.p c.h with
    | notFound => cases impl <;> simp
    | found p => simp
    | nonFinite => simp
    | falsiFuel => simp
    | marchFuel => simp

/-- Above the terrain the cell loop ends without a result. -/
theorem marchCells_above (d : Dtm K) (N : ℕ) (v0 v1 : V3 K) (hdir : v1.x - v0.x ≠ 0 ∨ v1.y - v0.y ≠ 0) :
    ∀ (n : ℕ) (s : March K) (α : K), CellInv v0 (segDir v0 v1) s α → s.p2 = lerp v0 v1 α → 0 < n →
      cellsLeft d (segDir v0 v1) s < n →
      (∀ t, α ≤ t → InFootprint d.nbRows d.nbCols (lerp v0 v1 t) →
        d.interpolate (lerp v0 v1 t).x (lerp v0 v1 t).y < (lerp v0 v1 t).z) →
      ∃ s', marchCells d N v0 v1 n s = .inr s' := by
  intro n
  induction n with
  | zero => intro s α _ _ h; exact absurd h (lt_irrefl 0)
  | succ n ih =>
    intro s α hinv hp _ hn habove
    rw [marchCells_succ]
    have st := cellExit_spec v0 (segDir v0 v1) s α hinv hdir
    split_ifs with h1 h2
    · exfalso
      have hcell := ((marchInside_iff d s).mp h1).2
      have u1 := habove α (le_refl _) (inCell_footprint hcell (by rw [← hp]; exact hinv.inCell))
      have u2 := habove _ st.lt.le (inCell_footprint hcell (by rw [← st.p2_eq]; exact st.inCell))
      have h2 := h2.2
      rw [hp, st.p2_eq] at h2
      have := mul_pos (sub_pos.mpr u1) (sub_pos.mpr u2)
      exact absurd h2 (not_le.mpr this)
    · have hb := (cellsLeft_bounds (dir := segDir v0 v1) ((marchInside_iff d s).mp h1).2).1
      have := cellsLeft_step (d := d) st
      push_cast at hn
      exact ih _ _ st.inv st.p2_eq (by omega) (by omega) (fun t ht => habove t (st.lt.le.trans ht))
    · exact ⟨s, rfl⟩

/-- C18, the missing part of the claim is false for every line, not only for an example: a straight line of sight (first vertex on
no face plane) that stays above the terrain as long as it is over the DTM is reported by Python as NaN when it does not cross two
faces of the box, and as the point (0, 0, 0) of the raster system when it does. -/
theorem C18_line_above_terrain (d : Dtm K) (hr : 2 ≤ d.nbRows) (hc : 2 ≤ d.nbCols) (N : ℕ) (A B : V3 K)
    (hoff : FirstOffPlanes d [terToIndexPy d.transform A, terToIndexPy d.transform B])
    (habove : ∀ t, 0 ≤ t → InFootprint d.nbRows d.nbCols (terToIndexPy d.transform (lerp A B t)) →
      d.interpolate (terToIndexPy d.transform (lerp A B t)).x (terToIndexPy d.transform (lerp A B t)).y < (lerp A B t).z) :
    (losDtm .py d N [A, B] = .nan ∧ ∃ li, intersectDtmCube .py d [A, B] = .ok (none, li)) ∨
    (losDtm .py d N [A, B] = .point ⟨0, 0, 0⟩ ∧ ∃ c li, intersectDtmCube .py d [A, B] = .ok (some c, li)) := by
  have hz : ∀ t, (lerp A B t).z = (lerp (terToIndexPy d.transform A) (terToIndexPy d.transform B) t).z := fun t => rfl
  simp only [terToIndex_lerp, hz] at habove
  obtain ⟨o, ho, -⟩ := C13_found_iff_two_faces .py d [A, B] hoff
  cases o with
  | none => exact .inl ⟨by simp [losDtm, ho], _, ho⟩
  | some c =>
    refine .inr ⟨?_, c, _, ho⟩
    unfold losDtm
    simp only [ho, List.map_cons, List.map_nil]
    simp only [intersectDtmCube, tersToIndexsPy, List.map_cons, List.map_nil] at ho
    split at ho
    · exact absurd ho (by simp)
    rename_i r hcube
    simp only [Except.ok.injEq, Prod.mk.injEq, and_true] at ho
    subst ho
    set a := terToIndexPy d.transform A with ha
    set b := terToIndexPy d.transform B with hb
    obtain ⟨hbox, hon⟩ := cubeOfIndex_entry .py d _ c hcube
    rcases hon with hon | ⟨-, -, hhead, k, hk⟩
    swap
    · exact absurd hk (hoff _ hhead k)
    obtain ⟨h0, h1, hp⟩ := (onPolyline_pair _ _ _ _).mp hon
    have key : intersectionIdx .py d N [a, b] c.p c.h = .notFound := by
      rcases eq_or_lt_of_le h1 with h1 | h1
      · rw [h1, intersectionIdx_pair_end]
      rw [intersectionIdx_pair .py d N a b c.p c.h h0 h1]
      have hfoot : InFootprint d.nbRows d.nbCols (lerp a b c.h) := by
        rw [hp] at hbox
        obtain ⟨u1, u2, u3, u4, -, -⟩ := hbox
        exact ⟨u1, u2, u3, u4⟩
      split_ifs with c1 c2 c3
      · rfl
      · exfalso
        have hx : ∀ t, (lerp a b t).x = a.x := fun t => by simp only [lerp]; rw [c2.1]; ring
        have hy : ∀ t, (lerp a b t).y = a.y := fun t => by simp only [lerp]; rw [c2.2]; ring
        have hfoot' : InFootprint d.nbRows d.nbCols (lerp a b 1) := by
          simp only [InFootprint, hx, hy] at hfoot ⊢; exact hfoot
        have := habove 1 zero_le_one hfoot'
        rw [hx, hy, lerp_one] at this
        exact absurd c3 (not_le.mpr this)
      · rfl
      · have hdir : b.x - a.x ≠ 0 ∨ b.y - a.y ≠ 0 := by
          by_contra hcon
          push Not at hcon
          exact c2 hcon
        have hinv := start_inv a b c.p c.h c.h (by rw [hp]) (by rw [hp])
        by_cases hin : IsCell d.nbRows d.nbCols (startCell .py c.p.x (b.x - a.x)) (startCell .py c.p.y (b.y - a.y))
        · obtain ⟨s', hs'⟩ := marchCells_above d N a b hdir (cellFuel d) _ c.h hinv hp (by unfold cellFuel; omega)
            (cellsLeft_bounds (d := d) (dir := segDir a b) (s := ⟨c.p, _, _, c.h⟩) hin).2 (fun t ht hf => habove t (h0.trans ht) hf)
          rw [hs']
        · rw [show cellFuel d = d.nbRows * d.nbCols + d.nbRows + d.nbCols + 1 from rfl, marchCells_succ, if_neg]
          intro h
          exact hin ((marchInside_iff d _).mp h).2
    rw [key]

/-- The hypotheses of `C18_line_above_terrain` are met by a line over the first rows of the ramp, and the second alternative occurs. -/
example : FirstOffPlanes rampDtm [terToIndexPy rampDtm.transform ⟨-1/2, 3/4, 19⟩, terToIndexPy rampDtm.transform ⟨7/2, 3/4, 15⟩] ∧
    (∀ t : ℚ, 0 ≤ t → InFootprint rampDtm.nbRows rampDtm.nbCols (terToIndexPy rampDtm.transform (lerp ⟨-1/2, 3/4, 19⟩ ⟨7/2, 3/4, 15⟩ t)) →
      rampDtm.interpolate (terToIndexPy rampDtm.transform (lerp ⟨-1/2, 3/4, 19⟩ ⟨7/2, 3/4, 15⟩ t)).x
        (terToIndexPy rampDtm.transform (lerp ⟨-1/2, 3/4, 19⟩ ⟨7/2, 3/4, 15⟩ t)).y < (lerp (⟨-1/2, 3/4, 19⟩ : V3 ℚ) ⟨7/2, 3/4, 15⟩ t).z) ∧
    losDtm .py rampDtm 50 [⟨-1/2, 3/4, 19⟩, ⟨7/2, 3/4, 15⟩] = .point ⟨0, 0, 0⟩ := by
  have hmin : rampDtm.altMin = 0 := by decide +kernel
  have hmax : rampDtm.altMax = 20 := by decide +kernel
  have hr : (rampDtm.nbRows : ℚ) = 3 := by decide +kernel
  have hc : (rampDtm.nbCols : ℚ) = 3 := by decide +kernel
  refine ⟨?_, ?_, by decide +kernel⟩
  · intro v hv k
    have hv : v = ⟨1/4, -1, 19⟩ := by
      simp only [List.head?_cons, Option.some.injEq] at hv
      rw [← hv]; decide +kernel
    subst hv
    fin_cases k <;> simp only [OnFacePlane, hmin, hmax, hr, hc] <;> norm_num
  · intro t ht hf
    have e1 : terToIndexPy rampDtm.transform ⟨-1/2, 3/4, 19⟩ = (⟨1/4, -1, 19⟩ : V3 ℚ) := by decide +kernel
    have e2 : terToIndexPy rampDtm.transform ⟨7/2, 3/4, 15⟩ = (⟨1/4, 3, 15⟩ : V3 ℚ) := by decide +kernel
    rw [terToIndex_lerp, e1, e2] at hf ⊢
    obtain ⟨f1, f2, f3, f4⟩ := hf
    obtain ⟨i, j, hcell, hin⟩ := C08_every_inside_position_has_a_cell (K := ℚ) 3 3 (by norm_num) (by norm_num)
      (lerp ⟨1/4, -1, 19⟩ ⟨1/4, 3, 15⟩ t).x (lerp ⟨1/4, -1, 19⟩ ⟨1/4, 3, 15⟩ t).y f1 (by rw [hr] at f2; exact_mod_cast f2)
      f3 (by rw [hc] at f4; exact_mod_cast f4)
    have hb := (C08_between_surrounding_nodes rampDtm.alt 3 3 i j hcell _ _ hin).2
    have hx : (lerp ⟨1/4, -1, 19⟩ ⟨1/4, 3, 15⟩ t : V3 ℚ).x = 1 / 4 := by simp [lerp]
    have hi : i = 0 := by
      have h1 := hin.1
      rw [hx] at h1
      have h2 : (i : ℚ) < 1 := by linarith
      have h3 : i < 1 := by exact_mod_cast h2
      have := hcell.1
      omega
    subst hi
    simp only [rampDtm] at hb
    norm_num at hb
    simp only [hc, lerp] at f4
    refine lt_of_le_of_lt hb ?_
    simp only [lerp]
    linarith

end Shareloc
