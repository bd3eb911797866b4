import Verif.Model.Geos
import Verif.Props.DirectDtmReproj
import Verif.Props.DtmRange

/-!
# C67, C62: `RPCoptim.direct_loc_dtm` on a DTM in another system than EPSG 4326
-/

set_option linter.unusedSectionVars false

namespace Shareloc
open Spec
variable {K : Type*} [Field K] [LinearOrder K] [IsStrictOrderedRing K] [FloorRing K]

/-- The two points of the line of sight of one pixel (C++). -/
theorem losExtremaCpp_two (r : Rpc K) (q : RatCoefs K) (hq : r.inverse = some q) (lo hi : Option K) (f : Bool) (x y : Option K) :
    ∃ top bot, losExtremaCpp r x y lo hi f = .ok [top, bot] := by
  unfold losExtremaCpp
  simp only [hq]
  cases (losAltitudes r lo hi).2.2 with
  | none => exact ⟨_, _, rfl⟩
  | some b => exact ⟨_, _, rfl⟩

theorem losExtremaOptim_get (r : Rpc K) (q : RatCoefs K) (hq : r.inverse = some q) (lo hi : Option K) (f : Bool)
    (row col : List (Option K)) (hcol : col.length = row.length) :
    ∃ edges, losExtremaOptim r row col lo hi f = .ok edges ∧ edges.length = 2 * row.length ∧
      ∀ (i : ℕ) (x y : Option K), row[i]? = some x → col[i]? = some y →
        ∃ top bot, losExtremaCpp r x y lo hi f = .ok [top, bot] ∧ edges[2 * i]? = some top ∧ edges[2 * i + 1]? = some bot := by
  have hl : ∀ a b : Option K, (((dup row).zip ((dup col).zip (alternate row.length a b))).map (iterPointCpp r q f)).length
      = 2 * row.length := by
    intro a b
    simp [List.length_zip, dup_length, alternate_length, hcol]
  have hg : ∀ (a b : Option K) (i : ℕ) (x y : Option K), row[i]? = some x → col[i]? = some y →
      (((dup row).zip ((dup col).zip (alternate row.length a b))).map (iterPointCpp r q f))[2 * i]? = some (iterPointCpp r q f (x, y, a)) ∧
      (((dup row).zip ((dup col).zip (alternate row.length a b))).map (iterPointCpp r q f))[2 * i + 1]? =
        some (iterPointCpp r q f (x, y, b)) := by
    intro a b i x y hx hy
    have hi : i < row.length := (List.getElem?_eq_some_iff.mp hx).1
    obtain ⟨d1, d2⟩ := dup_get row i
    obtain ⟨d3, d4⟩ := dup_get col i
    obtain ⟨d5, d6⟩ := alternate_get row.length a b i hi
    constructor
    · rw [List.getElem?_map, (List.getElem?_zip_eq_some (z := (x, y, a))).2 ⟨d1.trans hx,
        (List.getElem?_zip_eq_some (z := (y, a))).2 ⟨d3.trans hy, d5⟩⟩]
      rfl
    · rw [List.getElem?_map, (List.getElem?_zip_eq_some (z := (x, y, b))).2 ⟨d2.trans hx,
        (List.getElem?_zip_eq_some (z := (y, b))).2 ⟨d4.trans hy, d6⟩⟩]
      rfl
  unfold losExtremaOptim losExtremaCpp
  simp only [hcol, if_true, hq]
  cases hb : (losAltitudes r lo hi).2.2 with
  | none =>
    refine ⟨_, rfl, hl _ _, fun i x y hx hy => ?_⟩
    exact ⟨_, _, rfl, hg _ _ i x y hx hy⟩
  | some b =>
    obtain ⟨h1, h2⟩ := extrapolateLos_get b.1 b.2 row.length _ (hl (some (losAltitudes r lo hi).2.1) (some (losAltitudes r lo hi).1))
    refine ⟨_, rfl, h1, fun i x y hx hy => ?_⟩
    obtain ⟨top, bot, g1, g2, g3, g4⟩ := h2 i (List.getElem?_eq_some_iff.mp hx).1
    obtain ⟨e1, e2⟩ := hg (some (losAltitudes r lo hi).2.1) (some (losAltitudes r lo hi).1) i x y hx hy
    rw [e1] at g1
    rw [e2] at g2
    injection g1 with g1
    injection g2 with g2
    refine ⟨_, _, ?_, g3, g4⟩
    rw [g1, g2]
    rfl

/-- The result for one pixel of a DTM in another system. -/
def optimOtherPoint (conv : ℕ → ℕ → ORow K → ORow K) (N : ℕ) (r : Rpc K) (eDtm : ℕ) (d : Dtm K) (x y : Option K) : DtmPoint K :=
  match dtmRange conv eDtm 4326 d with
  | some b =>
    match losExtremaCpp r x y (some b.1) (some b.2) false with
    | .ok [top, bot] => losDtmO .cpp d N [conv 4326 eDtm top, conv 4326 eDtm bot]
    | _ => .failure
  | none => .nan

theorem optimOther_get (conv : ℕ → ℕ → ORow K → ORow K) (N : ℕ) (r : Rpc K) (q : RatCoefs K) (hq : r.inverse = some q) (eDtm : ℕ)
    (d : Dtm K) (row col : List (Option K)) (hcol : col.length = row.length) :
    ∃ out, rpcOptimDirectDtmOther conv N r eDtm d row col = .ok out ∧ out.length = row.length ∧
      ∀ (i : ℕ) (x y : Option K), row[i]? = some x → col[i]? = some y → out[i]? = some (optimOtherPoint conv N r eDtm d x y) := by
  unfold rpcOptimDirectDtmOther optimOtherPoint
  cases hr : dtmRange conv eDtm 4326 d with
  | none =>
    simp only
    obtain ⟨edges, h1, h2, -⟩ := losExtremaOptim_get r q hq none none false row col hcol
    rw [h1]
    obtain ⟨hpl, hpg⟩ := pairs_get row.length (edges.map fun _ => (nanRow : ORow K)) (by simpa using h2)
    refine ⟨_, rfl, by rw [List.length_map, hpl], fun i x y hx hy => ?_⟩
    have hi : i < row.length := (List.getElem?_eq_some_iff.mp hx).1
    rw [List.getElem?_map, hpg i nanRow nanRow (by rw [List.getElem?_map, List.getElem?_eq_getElem (by omega)]; rfl)
      (by rw [List.getElem?_map, List.getElem?_eq_getElem (by omega)]; rfl)]
    rw [Option.map_some, losDtmO_cpp_nan d N nanRow nanRow rfl rfl]
  | some b =>
    simp only
    obtain ⟨edges, h1, h2, h3⟩ := losExtremaOptim_get r q hq (some b.1) (some b.2) false row col hcol
    rw [h1]
    obtain ⟨hpl, hpg⟩ := pairs_get row.length (edges.map (conv 4326 eDtm)) (by simpa using h2)
    refine ⟨_, rfl, by rw [List.length_map, hpl], fun i x y hx hy => ?_⟩
    obtain ⟨top, bot, e0, e1, e2⟩ := h3 i x y hx hy
    rw [List.getElem?_map, hpg i (conv 4326 eDtm top) (conv 4326 eDtm bot) (by rw [List.getElem?_map, e1]; rfl)
      (by rw [List.getElem?_map, e2]; rfl), e0]
    rfl

/-- C67. `RPCoptim.direct_loc_dtm` for a DTM in another system than EPSG 4326: one result per pixel, in order, that does not depend on
the other pixels.  The result is NaN when the bounds of `C67_range` cannot be computed; otherwise the two points of the line of sight of
the pixel are those of the C++ `los_extrema` at these bounds, converted from EPSG 4326 to the system of the DTM; the result is NaN when
neither can be, and when they are above and below the DTM and the line is regular (findings 4 and 18) it is as in `DtmAnswer`, in the
system of the DTM, or uninitialised memory instead of (0, 0, 0).  A point it returns is on the terrain to a tenth of a millimetre.
Different numbers of rows and columns are refused, as are models without inverse coefficients. -/
theorem C67_optim_line_in_dtm_system (conv : ℕ → ℕ → ORow K → ORow K) (N : ℕ) (r : Rpc K) (eDtm : ℕ) (hne : eDtm ≠ 4326)
    (d : Dtm K) (hr : 2 ≤ d.nbRows) (hc : 2 ≤ d.nbCols)
    (hdet : d.transform.a * d.transform.e - d.transform.b * d.transform.d ≠ 0) (row col : List (Option K)) :
    (col.length ≠ row.length → ∃ e, rpcOptimDirectDtmAny conv N r eDtm d row col = .error e) ∧
    (r.inverse = none → ∃ e, rpcOptimDirectDtmAny conv N r eDtm d row col = .error e) ∧
    ∀ q, r.inverse = some q → col.length = row.length →
    ∃ out, rpcOptimDirectDtmAny conv N r eDtm d row col = .ok out ∧ out.length = row.length ∧
      ∀ (i : ℕ) (x y : Option K), row[i]? = some x → col[i]? = some y →
        ∃ p, out[i]? = some p ∧ rpcOptimDirectDtmAny conv N r eDtm d [x] [y] = .ok [p] ∧
        (∀ v, p = .point v → |d.interpolate (terToIndexPy d.transform v).x (terToIndexPy d.transform v).y - v.z| ≤ 1 / 10000) ∧
        (dtmRange conv eDtm 4326 d = none → p = .nan) ∧
        ∀ lo hi, dtmRange conv eDtm 4326 d = some (lo, hi) →
          ∃ top bot, losExtremaCpp r x y (some lo) (some hi) false = .ok [top, bot] ∧
            (vertex (conv 4326 eDtm top) = none → vertex (conv 4326 eDtm bot) = none → p = .nan) ∧
            ∀ A B, vertex (conv 4326 eDtm top) = some A → vertex (conv 4326 eDtm bot) = some B →
              d.altMax < A.z → B.z ≤ d.altMin - 1 / 10000 → LineRegular d A B →
              p = .uninitialised ∨ DtmAnswer d False A B p := by
  refine ⟨fun hcol => ?_, fun hi => ?_, fun q hq hcol => ?_⟩
  · simp only [rpcOptimDirectDtmAny, if_neg hne, rpcOptimDirectDtmOther, losExtremaOptim, if_neg (Ne.symm hcol)]
    split <;> exact ⟨_, rfl⟩
  · simp only [rpcOptimDirectDtmAny, if_neg hne, rpcOptimDirectDtmOther, losExtremaOptim, hi]
    by_cases hcol : row.length = col.length
    · simp only [hcol, if_true]
      split <;> exact ⟨_, rfl⟩
    · simp only [if_neg hcol]
      split <;> exact ⟨_, rfl⟩
  · simp only [rpcOptimDirectDtmAny, if_neg hne]
    obtain ⟨out, h1, h2, h3⟩ := optimOther_get conv N r q hq eDtm d row col hcol
    refine ⟨out, h1, h2, fun i x y hx hy => ⟨_, h3 i x y hx hy, ?_, ?_, ?_, ?_⟩⟩
    · obtain ⟨out', g1, g2, g3⟩ := optimOther_get conv N r q hq eDtm d [x] [y] rfl
      rw [g1]
      have := g3 0 x y rfl rfl
      obtain ⟨p, rfl⟩ := List.length_eq_one_iff.mp g2
      simp only [List.getElem?_cons_zero, Option.some.injEq] at this
      rw [this]
    · intro v hv
      unfold optimOtherPoint at hv
      split at hv
      · split at hv
        · unfold losDtmO at hv
          split at hv
          · unfold losDtm at hv
            split at hv
            · cases hv
            · cases hv
            · split at hv
              · rename_i c li _ _ p hp
                injection hv with hv
                rw [← hv, C02_py_ter_to_index_index_to_ter d.transform hdet]
                exact C14_altitude_within_tolerance .cpp d N li c.p c.h p hp
              · cases hv
              · cases hv
          · split at hv <;> cases hv
        · cases hv
      · cases hv
    · intro h
      simp only [optimOtherPoint, h]
    · intro lo hi h
      obtain ⟨top, bot, hl⟩ := losExtremaCpp_two r q hq (some lo) (some hi) false x y
      refine ⟨top, bot, hl, ?_, ?_⟩
      · intro hA hB
        simp only [optimOtherPoint, h, hl]
        exact losDtmO_cpp_nan d N _ _ hA hB
      · intro A B hA hB hAz hBz hreg
        simp only [optimOtherPoint, h, hl]
        have hall : ∀ impl, losDtmO impl d N [conv 4326 eDtm top, conv 4326 eDtm bot] = losDtm impl d N [A, B] := by
          intro impl
          simp only [losDtmO, allVertices_pair, hA, hB]
        rcases losDtm_cpp_pair d N A B hAz hreg.1 hreg.2 with he | ⟨he, -⟩
        · right
          have := edgePoint_answer N eDtm d hr hc hdet _ _ A B hA hB hAz hBz
          simp only [edgePoint, if_neg hne] at this
          rw [hall, he, ← hall]
          rcases this with h | h | h | ⟨t, t0, t1, h, h', h'', -⟩
          · exact .inl h
          · exact .inr (.inl h)
          · exact .inr (.inr (.inl h))
          · exact .inr (.inr (.inr ⟨t, t0, t1, h, h', h'', False.elim⟩))
        · left
          rw [hall, he]

/-- The line of sight of the pixel (301, 502), in the system of the DTM, is regular. -/
theorem shifted_line_regular : LineRegular (flatDtm 100) ⟨4747 / 500, 11849 / 600, 101⟩ ⟨4757 / 500, 2371 / 120, 99⟩ := by
  refine ⟨?_, ?_⟩
  · intro v hv k
    simp only [List.head?_cons, Option.some.injEq] at hv
    subst hv
    fin_cases k
    · show ¬ (_ = _); decide +kernel
    · show ¬ (_ = _); decide +kernel
    · show ¬ (_ = _); decide +kernel
    · show ¬ (_ = _); decide +kernel
    · show ¬ (_ = _); decide +kernel
    · show ¬ (_ = _); decide +kernel
  · intro t t0 t1 _ _
    have hx : (terToIndexPy (flatDtm 100).transform (Spec.lerp ⟨4747 / 500, 11849 / 600, 101⟩ ⟨4757 / 500, 2371 / 120, 99⟩ t)).x =
        1651 / 600 - 1 / 100 * t := by
      have e := congrArg V3.x (terToIndex_lerp (flatDtm 100).transform (⟨4747 / 500, 11849 / 600, 101⟩ : V3 ℚ)
        ⟨4757 / 500, 2371 / 120, 99⟩ t)
      have e1 : (terToIndexPy (flatDtm 100).transform (⟨4747 / 500, 11849 / 600, 101⟩ : V3 ℚ)).x = 1651 / 600 := by decide +kernel
      have e2 : (terToIndexPy (flatDtm 100).transform (⟨4757 / 500, 2371 / 120, 99⟩ : V3 ℚ)).x = 329 / 120 := by decide +kernel
      rw [e]
      simp only [Spec.lerp]
      rw [e1, e2]; ring
    refine ⟨fun _ m hm => ?_, fun h => ?_⟩
    · rw [hx] at hm
      have h1 : (2 : ℚ) < m := by rw [← hm]; linarith
      have h2 : (m : ℚ) < 3 := by rw [← hm]; linarith
      have h1 : (2 : ℤ) < m := by exact_mod_cast h1
      have h2 : m < 3 := by exact_mod_cast h2
      omega
    · exact absurd h (by decide +kernel)

/-- A case that meets the hypotheses of `C67_optim_line_in_dtm_system`, and its results: the pixel (301, 502) is located on the terrain
and a NaN pixel is not. -/
example : dtmRange shiftConv 5773 4326 (flatDtm 100) = some (149, 151) ∧
    losExtremaCpp demoRpc (some 301) (some 502) (some 149) (some 151) false =
      .ok [⟨some (4747 / 500), some (11849 / 600), some 151⟩, ⟨some (4757 / 500), some (2371 / 120), some 149⟩] ∧
    vertex (shiftConv 4326 5773 ⟨some (4747 / 500), some (11849 / 600), some 151⟩) = some ⟨4747 / 500, 11849 / 600, 101⟩ ∧
    vertex (shiftConv 4326 5773 ⟨some (4757 / 500), some (2371 / 120), some 149⟩) = some ⟨4757 / 500, 2371 / 120, 99⟩ ∧
    (flatDtm 100).altMax < 101 ∧ 99 ≤ (flatDtm 100).altMin - 1 / 10000 ∧
    LineRegular (flatDtm 100) ⟨4747 / 500, 11849 / 600, 101⟩ ⟨4757 / 500, 2371 / 120, 99⟩ ∧
    rpcOptimDirectDtmAny shiftConv 50 demoRpc 5773 (flatDtm 100) [some 301, none] [some 502, some 3] =
      .ok [.point ⟨1188 / 125, 2963 / 150, 100⟩, .nan] := by
  refine ⟨by decide +kernel, by decide +kernel, by decide +kernel, by decide +kernel, by decide +kernel, by decide +kernel,
    shifted_line_regular, by decide +kernel⟩

end Shareloc
