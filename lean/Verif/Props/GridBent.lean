import Verif.Props.GridDtm
import Verif.Props.BentLine

/-!
# C65 for grids with layers inside the range of altitudes of the DTM
-/

namespace Shareloc
open Spec
set_option linter.unusedSectionVars false

variable {K : Type*} [Field K] [LinearOrder K] [IsStrictOrderedRing K] [FloorRing K]

/-- C14 in terrain coordinates, for the reported point. -/
theorem losDtm_bent (d : Dtm K) (hdet : d.transform.a * d.transform.e - d.transform.b * d.transform.d ≠ 0) (N : ℕ)
    (los : List (V3 K)) (hoff : FirstOffPlanes d (los.map (terToIndexPy d.transform)))
    (hnv : ∀ (i : ℕ) A B, los[i]? = some A → los[i + 1]? = some B → A.x ≠ B.x ∨ A.y ≠ B.y) (P : V3 K)
    (h : losDtm .py d N los = .point P) (h0 : P ≠ ⟨0, 0, 0⟩) :
    ∃ (i : ℕ) (A B : V3 K), los[i]? = some A ∧ los[i + 1]? = some B ∧
      (d.interpolate (terToIndexPy d.transform A).x (terToIndexPy d.transform A).y ≤ A.z →
        InFootprint d.nbRows d.nbCols (terToIndexPy d.transform P) ∧
        ((∃ h, OnPolyline los h P) ∨ ∃ t, 1 < t ∧ P = Spec.lerp A B t ∧
          |(terToIndexPy d.transform P).x - (terToIndexPy d.transform B).x| ≤ 1 ∧
          |(terToIndexPy d.transform P).y - (terToIndexPy d.transform B).y| ≤ 1)) := by
  unfold losDtm intersectDtmCube at h
  simp only [show tersToIndexsPy d.transform los = los.map (terToIndexPy d.transform) from rfl] at h
  cases hcube : cubeOfIndex .py d (los.map (terToIndexPy d.transform)) with
  | error e => simp only [hcube] at h; cases h
  | ok o =>
    cases o with
    | none => simp only [hcube] at h; cases h
    | some c =>
      simp only [hcube] at h
      cases hx : intersectionIdx .py d N (los.map (terToIndexPy d.transform)) c.p c.h with
      | notFound => simp only [hx] at h; injection h with h; exact absurd h.symm h0
      | nonFinite => simp only [hx] at h; cases h
      | falsiFuel => simp only [hx] at h; cases h
      | marchFuel => simp only [hx] at h; cases h
      | found p =>
        simp only [hx] at h
        injection h with h
        have hp : terToIndexPy d.transform P = p := by rw [← h, C02_py_ter_to_index_index_to_ter d.transform hdet]
        have back : ∀ A B t, p = Spec.lerp (terToIndexPy d.transform A) (terToIndexPy d.transform B) t → P = Spec.lerp A B t := by
          intro A B t e
          rw [← h, e, ← terToIndex_lerp, C02_py_index_to_ter_ter_to_index d.transform hdet]
        obtain ⟨-, i, a, b, ha, hb, -, hres⟩ := C14_bent_line_partial d N _ c hcube hoff (by
          intro i a b ha hb
          rw [List.getElem?_map, Option.map_eq_some_iff] at ha hb
          obtain ⟨A, hA, rfl⟩ := ha
          obtain ⟨B, hB, rfl⟩ := hb
          by_contra hcon
          push Not at hcon
          have eA := C02_py_index_to_ter_ter_to_index d.transform hdet A
          have eB := C02_py_index_to_ter_ter_to_index d.transform hdet B
          have hx : A.x = B.x := by
            rw [← eA, ← eB]; simp only [indexToTerPy, hcon.1, hcon.2]
          have hy : A.y = B.y := by
            rw [← eA, ← eB]; simp only [indexToTerPy, hcon.1, hcon.2]
          rcases hnv i A B hA hB with h' | h'
          · exact h' hx
          · exact h' hy) p hx
        rw [List.getElem?_map, Option.map_eq_some_iff] at ha hb
        obtain ⟨A, hA, rfl⟩ := ha
        obtain ⟨B, hB, rfl⟩ := hb
        refine ⟨i, A, B, hA, hB, fun habove => ?_⟩
        rw [hp]
        obtain ⟨hfoot, hcase⟩ := hres (.inl habove)
        refine ⟨hfoot, ?_⟩
        rcases hcase with ⟨h, j, a, b, t, ha, hb, t0, t1, hh, hpt⟩ | ⟨t, ht, hpt, hx, hy⟩
        · left
          rw [List.getElem?_map, Option.map_eq_some_iff] at ha hb
          obtain ⟨A', hA', rfl⟩ := ha
          obtain ⟨B', hB', rfl⟩ := hb
          exact ⟨h, j, A', B', t, hA', hB', t0, t1, hh, back A' B' t hpt⟩
        · exact .inr ⟨t, ht, back A B t hpt, hx, hy⟩

/-- C65 with any layers, also in the range of altitudes of the DTM.  Let a pixel be seen at different planimetric positions at the
successive altitudes `alts` of its line of sight (the layers, the bounds of the DTM), and outside the lines of the border of the DTM at
the first one.  A location returned (other than the (0, 0, 0) of missed lines) was found between two successive altitudes `a > b`; if
the point seen at `a` is not under the terrain, then the location is over the DTM and is on the line of sight, or less than one row
and one column of the DTM away from the point seen at `b`.
Missing: the location may be off the line of sight (`C66_layer_inside_counterexample`). -/
theorem C65_any_layers_partial (N : ℕ) (g : MultiGrid K) (d : Dtm K)
    (hdet : d.transform.a * d.transform.e - d.transform.b * d.transform.d ≠ 0) (minDtm maxDtm : K) (row col : List (Option K))
    (out : List (DtmPoint K)) (h : gridDirectDtm .py N g d minDtm maxDtm row col = .ok out) (i : ℕ) (r c : K)
    (hrow : row[i]? = some (some r)) (hcol : col[i]? = some (some c)) (P : V3 K) (hP : out[i]? = some (.point P)) (h0 : P ≠ ⟨0, 0, 0⟩)
    (hoff : FirstOffPlanes d ((sightLine g r c (dtmAlts (layers g) minDtm maxDtm)).map (terToIndexPy d.transform)))
    (hnv : ∀ (k : ℕ) a b, (dtmAlts (layers g) minDtm maxDtm)[k]? = some a → (dtmAlts (layers g) minDtm maxDtm)[k + 1]? = some b →
      gridLonLat g r c a ≠ gridLonLat g r c b) :
    ∃ (k : ℕ) (a b : K), (dtmAlts (layers g) minDtm maxDtm)[k]? = some a ∧ (dtmAlts (layers g) minDtm maxDtm)[k + 1]? = some b ∧
      let A := terToIndexPy d.transform ⟨(gridLonLat g r c a).1, (gridLonLat g r c a).2, a⟩
      let B := terToIndexPy d.transform ⟨(gridLonLat g r c b).1, (gridLonLat g r c b).2, b⟩
      (d.interpolate A.x A.y ≤ a →
        InFootprint d.nbRows d.nbCols (terToIndexPy d.transform P) ∧
        ((∃ h, OnPolyline (sightLine g r c (dtmAlts (layers g) minDtm maxDtm)) h P) ∨
          |(terToIndexPy d.transform P).x - B.x| ≤ 1 ∧ |(terToIndexPy d.transform P).y - B.y| ≤ 1)) := by
  by_cases hs : row.length = col.length
  swap
  · rw [C65_bad_sizes .py N g d minDtm maxDtm row col hs] at h; cases h
  obtain ⟨out', h', hl, hget⟩ := C65_pointwise .py N g d minDtm maxDtm row col hs.symm
  rw [h] at h'
  injection h' with h'
  subst h'
  have hv := (hget i _ _ hrow hcol).2 r c rfl rfl
  rw [hP] at hv
  injection hv with hv
  have hv' : losDtm .py d N (sightLine g r c (dtmAlts (layers g) minDtm maxDtm)) = .point P := by
    unfold gridDtmValue at hv
    split_ifs at hv
    · cases hres : losDtm .py d N (sightLine g r c (dtmAlts (layers g) minDtm maxDtm)) with
      | point Q =>
        rw [hres] at hv
        simp only [checkDtmPoint] at hv
        split_ifs at hv
        rw [hv]
      | nan => rw [hres] at hv; cases hv
      | uninitialised => rw [hres] at hv; cases hv
      | failure => rw [hres] at hv; cases hv
    · exact hv.symm
  obtain ⟨k, A, B, hA, hB, hres⟩ := losDtm_bent d hdet N _ hoff (by
    intro k A B hA hB
    rw [sightLine, List.getElem?_map, Option.map_eq_some_iff] at hA hB
    obtain ⟨a, ha, rfl⟩ := hA
    obtain ⟨b, hb, rfl⟩ := hB
    have := hnv k a b ha hb
    by_contra hcon
    push Not at hcon
    exact this (Prod.ext hcon.1 hcon.2)) P hv' h0
  rw [sightLine, List.getElem?_map, Option.map_eq_some_iff] at hA hB
  obtain ⟨a, ha, rfl⟩ := hA
  obtain ⟨b, hb, rfl⟩ := hB
  refine ⟨k, a, b, ha, hb, fun habove => ?_⟩
  obtain ⟨hfoot, hcase⟩ := hres habove
  refine ⟨hfoot, hcase.imp_right ?_⟩
  rintro ⟨t, -, -, hx, hy⟩
  exact ⟨hx, hy⟩

/-- The pixel of `C66_layer_inside_counterexample` meets the hypotheses: the line of sight has the altitudes 500, 120 and 10. -/
example : dtmAlts (layers bentGrid) (slopeDtm.altMin - 1) (slopeDtm.altMax + 1) = [500, 120, 10] ∧
    gridLonLat bentGrid 40 0 500 ≠ gridLonLat bentGrid 40 0 120 ∧ gridLonLat bentGrid 40 0 120 ≠ gridLonLat bentGrid 40 0 10 ∧
    FirstOffPlanes slopeDtm ((sightLine bentGrid 40 0 [500, 120, 10]).map (terToIndexPy slopeDtm.transform)) ∧
    gridDirectDtm .py 50 bentGrid slopeDtm (slopeDtm.altMin - 1) (slopeDtm.altMax + 1) [some 40] [some 0] =
      .ok [.point ⟨9121 / 950, 207 / 10, 118⟩] := by
  have hmin : slopeDtm.altMin = 100 := by decide +kernel
  have hmax : slopeDtm.altMax = 140 := by decide +kernel
  have hr : (slopeDtm.nbRows : ℚ) = 5 := by decide +kernel
  have hc : (slopeDtm.nbCols : ℚ) = 5 := by decide +kernel
  refine ⟨by decide +kernel, by decide +kernel, by decide +kernel, ?_, by decide +kernel⟩
  intro v hv k
  simp only [sightLine, List.map_cons, List.map_nil, List.head?_cons, Option.some.injEq] at hv
  have e : terToIndexPy slopeDtm.transform ⟨(gridLonLat bentGrid 40 0 500).1, (gridLonLat bentGrid 40 0 500).2, 500⟩ =
      (⟨9/5, 2/5, 500⟩ : V3 ℚ) := by decide +kernel
  rw [e] at hv
  subst hv
  fin_cases k <;> simp only [OnFacePlane, hmin, hmax, hr, hc] <;> norm_num

end Shareloc
