import Verif.Props.DirectDtmReproj

/-!
Concrete cases for C62-C64 and the end to end effect of the first residual of `direct_loc_inverse_iterative`.
-/

namespace Shareloc
open Spec

/-- The coordinate conversion when there is nothing to convert. -/
def noConv : ℕ → ℕ → ORow ℚ → ORow ℚ := fun _ _ p => p

/-- A terrain of 5 by 5 nodes which rises by ten metres a row. -/
def slopeDtm : Dtm ℚ := ⟨fun i _ => 100 + 10 * i, 5, 5, ⟨1, 0, 17 / 2, 0, -1, 23⟩⟩

/-- A flat terrain of altitude `z`. -/
def flatDtm (z : ℚ) : Dtm ℚ := ⟨fun _ _ => z, 5, 5, ⟨1, 0, 17 / 2, 0, -1, 23⟩⟩

/-- Two pixels on the slope; the third is NaN. -/
example : rpcDirectDtm noConv .py 50 demoRpc 4326 4326 slopeDtm [some 300, some 450, none] [some 500, some 1000, some 1] =
    .ok [.point ⟨185 / 19, 755 / 38, 2400 / 19⟩, .point ⟨205 / 19, 775 / 38, 2300 / 19⟩, .nan] := by decide +kernel

/-- The same with the C++ class. -/
example : rpcOptimDirectDtm 50 demoRpc slopeDtm [some 300, some 450, none] [some 500, some 1000, some 1] =
    .ok [.point ⟨185 / 19, 755 / 38, 2400 / 19⟩, .point ⟨205 / 19, 775 / 38, 2300 / 19⟩, .nan] := by decide +kernel

/-- The hypotheses of `C63_located` hold for both pixels. -/
example :
    losExtrema demoRpc [some 300, some 450] [some 500, some 1000] (some (slopeDtm.altMin - 1)) (some (slopeDtm.altMax + 1)) false =
      .ok [⟨some (959 / 100), some (3959 / 200), some 141⟩, ⟨some (1001 / 100), some (4001 / 200), some 99⟩,
        ⟨some (1059 / 100), some (4059 / 200), some 141⟩, ⟨some (1101 / 100), some (4101 / 200), some 99⟩] ∧
    (1 / 42 : ℚ) * (slopeDtm.altMax - slopeDtm.altMin + 2) = 1 ∧
    (let A : V3 ℚ := ⟨959 / 100, 3959 / 200, 141⟩
     let B : V3 ℚ := ⟨1001 / 100, 4001 / 200, 99⟩
     let p := terToIndexPy slopeDtm.transform (Spec.lerp A B (1 / 42))
     let q := terToIndexPy slopeDtm.transform (Spec.lerp A B (1 - 1 / 42))
     (0 ≤ p.x ∧ p.x ≤ 4 ∧ 0 ≤ p.y ∧ p.y ≤ 4) ∧ (0 ≤ q.x ∧ q.x ≤ 4 ∧ 0 ≤ q.y ∧ q.y ≤ 4) ∧
      slopeDtm.interpolate p.x p.y < slopeDtm.altMax ∧
      (terToIndexPy slopeDtm.transform A).x ≠ (terToIndexPy slopeDtm.transform B).x ∧
      (terToIndexPy slopeDtm.transform A).y ≠ (terToIndexPy slopeDtm.transform B).y) := by decide +kernel

/-- The hypotheses of the C++ case: the line starts on no face plane; its row index decreases from 2.705 to
2.495 and its column index increases. -/
example :
    let a := terToIndexPy slopeDtm.transform (⟨959 / 100, 3959 / 200, 141⟩ : V3 ℚ)
    let b := terToIndexPy slopeDtm.transform (⟨1001 / 100, 4001 / 200, 99⟩ : V3 ℚ)
    (∀ k, eqPlan slopeDtm k a ≠ 0) ∧ (a.x, a.y) = (541 / 200, 59 / 100) ∧ (b.x, b.y) = (499 / 200, 101 / 100) := by
  decide +kernel

/-- The line of sight of the pixel (300, 500) of the demonstration model is regular. -/
theorem slope_line_regular : LineRegular slopeDtm ⟨959 / 100, 3959 / 200, 141⟩ ⟨1001 / 100, 4001 / 200, 99⟩ := by
  refine ⟨?_, ?_⟩
  · intro v hv k
    simp only [List.head?_cons, Option.some.injEq] at hv
    subst hv
    fin_cases k
    · show ¬ (_ = _); decide +kernel
    · show ¬ (_ = _); decide +kernel
    · show ¬ (_ = _); decide +kernel
    · show ¬ (_ = _); decide +kernel
    · show ¬ (_ = _); decide +kernel
    · show ¬ (_ = _); decide +kernel
  · intro t t0 t1 _ _
    have hx : (terToIndexPy slopeDtm.transform (Spec.lerp ⟨959 / 100, 3959 / 200, 141⟩ ⟨1001 / 100, 4001 / 200, 99⟩ t)).x =
        541 / 200 - 21 / 100 * t := by
      have e := congrArg V3.x (terToIndex_lerp slopeDtm.transform (⟨959 / 100, 3959 / 200, 141⟩ : V3 ℚ)
        ⟨1001 / 100, 4001 / 200, 99⟩ t)
      have e1 : (terToIndexPy slopeDtm.transform (⟨959 / 100, 3959 / 200, 141⟩ : V3 ℚ)).x = 541 / 200 := by decide +kernel
      have e2 : (terToIndexPy slopeDtm.transform (⟨1001 / 100, 4001 / 200, 99⟩ : V3 ℚ)).x = 499 / 200 := by decide +kernel
      rw [e]
      simp only [Spec.lerp]
      rw [e1, e2]; ring
    refine ⟨fun _ m hm => ?_, fun h => ?_⟩
    · rw [hx] at hm
      have h1 : (2 : ℚ) < m := by rw [← hm]; linarith
      have h2 : (m : ℚ) < 3 := by rw [← hm]; linarith
      have h1 : (2 : ℤ) < m := by exact_mod_cast h1
      have h2 : m < 3 := by exact_mod_cast h2
      omega
    · exact absurd h (by decide +kernel)

theorem demo_affine : AffineModel demoCoefs := ⟨by decide +kernel, by decide +kernel, by decide +kernel, by decide +kernel⟩

/-- The hypotheses of `C63_optim_affine_reprojection` hold for the demonstration model and the slope, and the line of sight of the
pixel (300, 500) is regular. -/
example : AffineModel demoCoefs ∧
    (∀ alt, (invDerivPy demoRpc demoCoefs 10 20 alt).1 * (invDerivPy demoRpc demoCoefs 10 20 alt).2.2.2 -
      (invDerivPy demoRpc demoCoefs 10 20 alt).2.2.1 * (invDerivPy demoRpc demoCoefs 10 20 alt).2.1 ≠ 0) ∧
    demoRpc.offAlt - demoRpc.scAlt ≤ slopeDtm.altMin - 1 ∧ slopeDtm.altMax + 1 ≤ demoRpc.offAlt + demoRpc.scAlt ∧
    LineRegular slopeDtm ⟨959 / 100, 3959 / 200, 141⟩ ⟨1001 / 100, 4001 / 200, 99⟩ := by
  refine ⟨demo_affine, ?_, by decide +kernel, by decide +kernel, slope_line_regular⟩
  intro alt
  have h : invDerivPy demoRpc demoCoefs 10 20 alt = (500, 0, 0, 300) := by
    simp [invDerivPy, polyPy, dLonPy, dLatPy, demoRpc, demoCoefs]
  rw [h]; norm_num

/-- A flat terrain (`C63_flat_exact`). -/
example : rpcDirectDtm noConv .py 50 demoRpc 4326 4326 (flatDtm 100) [some 300, some 450] [some 500, some 1000] =
    .ok [.point ⟨10, 20, 100⟩, .point ⟨11, 41 / 2, 100⟩] ∧ (flatDtm 100).altMin = (flatDtm 100).altMax := by decide +kernel

/-- C62, C20. The loss of the altitudes in the first residual (finding 1) reaches the result of `direct_loc_dtm`: on a flat
terrain the Python class gives for a pixel a point whose image is 5 columns away, although the convergence threshold is a
ten thousandth of a pixel, whereas the C++ class gives a point whose image is the pixel. -/
theorem C62_first_residual_counterexample :
    rpcDirectDtm noConv .py 50 demoRpc 4326 4326 (flatDtm 99) [some 300] [some 500] = .ok [.point ⟨10, 20, 99⟩] ∧
    (imgCol demoRpc demoCoefs 10 20 99, imgRow demoRpc demoCoefs 10 20 99) ≠ (500, 300) ∧
    imgCol demoRpc demoCoefs 10 20 99 = 495 ∧
    rpcOptimDirectDtm 50 demoRpc (flatDtm 99) [some 300] [some 500] = .ok [.point ⟨1001 / 100, 4001 / 200, 99⟩] ∧
    (imgCol demoRpc demoCoefs (1001 / 100) (4001 / 200) 99, imgRow demoRpc demoCoefs (1001 / 100) (4001 / 200) 99) = (500, 300) := by
  decide +kernel

/-- C64: a model without inverse coefficients. -/
example : rpcDirectDtm noConv .py 50 { demoRpc with inverse := none } 4326 4326 (flatDtm 99) [some 300] [some 500] =
    .error .coefficientsMismatch := by decide +kernel

/-- C62. A line that crosses the box of the DTM and leaves it by a side above the terrain is answered (0, 0, 0), which passes
the longitude and latitude check, so that the caller cannot tell it from a location; the C++ answer is uninitialised memory
(finding 3). -/
theorem C62_missed_line_is_origin :
    losExtrema demoRpc [some 1080] [some 1000] (some (slopeDtm.altMin - 1)) (some (slopeDtm.altMax + 1)) false =
      .ok [⟨some (1059 / 100), some (4479 / 200), some 141⟩, ⟨some (1101 / 100), some (4521 / 200), some 99⟩] ∧
    rpcDirectDtm noConv .py 50 demoRpc 4326 4326 slopeDtm [some 1080] [some 1000] = .ok [.point ⟨0, 0, 0⟩] ∧
    rpcOptimDirectDtm 50 demoRpc slopeDtm [some 1080] [some 1000] = .ok [.uninitialised] := by decide +kernel

end Shareloc
