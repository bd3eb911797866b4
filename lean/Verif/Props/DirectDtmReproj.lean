import Verif.Props.DirectDtmCpp

/-!
C63: the image of a point located on a DTM is the requested pixel.
-/

namespace Shareloc
open Spec
set_option linter.unusedSectionVars false

variable {K : Type*} [Field K] [LinearOrder K] [IsStrictOrderedRing K] [FloorRing K]

/-- Specification: the line of sight from `A` down to `B` starts on no face plane of the box of the DTM, and does not meet one,
on the box, at an integer row or column that it is decreasing along (the two situations where the C++ code differs from the Python
code: findings 4 and 18). -/
def LineRegular (d : Dtm K) (A B : V3 K) : Prop :=
  FirstOffPlanes d [terToIndexPy d.transform A, terToIndexPy d.transform B] ∧
  ∀ t, 0 ≤ t → t ≤ 1 → InBox d.nbRows d.nbCols d.altMin d.altMax (terToIndexPy d.transform (Spec.lerp A B t)) →
    (∃ k, OnFacePlane d.nbRows d.nbCols d.altMin d.altMax k (terToIndexPy d.transform (Spec.lerp A B t))) →
    ((terToIndexPy d.transform B).x < (terToIndexPy d.transform A).x →
      ∀ m : ℤ, (terToIndexPy d.transform (Spec.lerp A B t)).x ≠ m) ∧
    ((terToIndexPy d.transform B).y < (terToIndexPy d.transform A).y →
      ∀ m : ℤ, (terToIndexPy d.transform (Spec.lerp A B t)).y ≠ m)

theorem between_ends {a b x e δ t f : K} (t0 : 0 ≤ t) (t1 : t ≤ 1) (ha : |x - a| ≤ e) (hb : |x - b| ≤ e)
    (hf : |f - ((1 - t) * a + t * b)| ≤ δ) : |f - x| ≤ e + δ := by
  rw [abs_le] at *
  have := sub_nonneg.mpr t1
  constructor <;> nlinarith

/-- C63. `RPCoptim.direct_loc_dtm`: if the iterations at both ends of the line of sight of a pixel stop before their limit, and if
the image of the segment between them departs from uniform motion by at most `δ` pixels, then the image of the returned point is
within `δ` plus a millionth of a pixel of the pixel. -/
theorem C63_optim_reprojection (N : ℕ) (r : Rpc K) (q : RatCoefs K) (hq : r.inverse = some q) (d : Dtm K) (hr : 2 ≤ d.nbRows)
    (hc : 2 ≤ d.nbCols) (hdet : d.transform.a * d.transform.e - d.transform.b * d.transform.d ≠ 0) (row col : K)
    (hlo : r.offAlt - r.scAlt ≤ d.altMin - 1) (hhi : d.altMax + 1 ≤ r.offAlt + r.scAlt)
    (stopA : (iterCpp r q 10 ⟨row, col, some (d.altMax + 1)⟩).2 < 10) (stopB : (iterCpp r q 10 ⟨row, col, some (d.altMin - 1)⟩).2 < 10)
    (A B : V3 K) (hAB : losExtremaCpp r (some row) (some col) (some (d.altMin - 1)) (some (d.altMax + 1)) false =
      .ok [⟨some A.x, some A.y, some A.z⟩, ⟨some B.x, some B.y, some B.z⟩])
    (dA : RatDefined r q A.x A.y A.z) (dB : RatDefined r q B.x B.y B.z) (δ : K)
    (hδ : ∀ t, 0 ≤ t → t ≤ 1 →
      |imgCol r q (Spec.lerp A B t).x (Spec.lerp A B t).y (Spec.lerp A B t).z
        - ((1 - t) * imgCol r q A.x A.y A.z + t * imgCol r q B.x B.y B.z)| ≤ δ ∧
      |imgRow r q (Spec.lerp A B t).x (Spec.lerp A B t).y (Spec.lerp A B t).z
        - ((1 - t) * imgRow r q A.x A.y A.z + t * imgRow r q B.x B.y B.z)| ≤ δ)
    (hreg : LineRegular d A B) (v : V3 K) (hv : rpcOptimDirectDtm N r d [some row] [some col] = .ok [.point v])
    (hv0 : v ≠ ⟨0, 0, 0⟩) :
    |imgCol r q v.x v.y v.z - col| ≤ 1 / 1000000 + δ ∧ |imgRow r q v.x v.y v.z - row| ≤ 1 / 1000000 + δ := by
  obtain ⟨out, ho, -, hg⟩ := C62_optim_direct_loc_dtm_partial N r q hq d hr hc hdet [some row] [some col] rfl
  rw [hv] at ho
  injection ho with ho
  obtain ⟨p, hp, -, -, -, top, bot, hl, hall⟩ := hg 0 (some row) (some col) rfl rfl
  rw [← ho] at hp
  simp only [List.getElem?_cons_zero, Option.some.injEq] at hp
  rw [hAB] at hl
  simp only [Except.ok.injEq, List.cons.injEq, and_true] at hl
  obtain ⟨e1, e2⟩ := hl
  subst e1 e2
  obtain ⟨zA, zB, hans⟩ := hall A B rfl rfl
  have hans := hans hreg.1 hreg.2
  rw [← hp] at hans
  have hlos : losAltitudes r (some (d.altMin - 1)) (some (d.altMax + 1)) = (d.altMin - 1, d.altMax + 1, none) := by
    simp only [losAltitudes]; rw [if_pos ⟨hlo, hhi⟩]
  simp only [losExtremaCpp, hlos, hq, Except.ok.injEq, List.cons.injEq, and_true, iterPointCpp, V3.mk.injEq] at hAB
  obtain ⟨⟨a1, a2, -⟩, ⟨b1, b2, -⟩⟩ := hAB
  have cA := C23_cpp_certified r q 10 ⟨row, col, some (d.altMax + 1)⟩ A.x A.y A.z stopA a1 a2 (by rw [zA]) dA
  have cB := C23_cpp_certified r q 10 ⟨row, col, some (d.altMin - 1)⟩ B.x B.y B.z stopB b1 b2 (by rw [zB]) dB
  rcases hans with h | h | h | h | ⟨t, t0, t1, hpt, -⟩
  · cases h
  · cases h
  · cases h
  · injection h with h
    exact absurd h hv0
  · injection hpt with hpt
    rw [hpt]
    obtain ⟨h1, h2⟩ := hδ t t0 t1
    exact ⟨between_ends t0 t1 cA.1 cB.1 h1, between_ends t0 t1 cA.2 cB.2 h2⟩

/-- Specification: a model whose image coordinates are affine functions of the ground coordinates: numerators of degree one and
constant, nonzero denominators. -/
def AffineModel (q : RatCoefs K) : Prop :=
  (∀ i, 2 ≤ (rpc00bOrder i).1 + (rpc00bOrder i).2.1 + (rpc00bOrder i).2.2 → q.numA i = 0 ∧ q.numB i = 0) ∧
  (∀ i, 1 ≤ (rpc00bOrder i).1 + (rpc00bOrder i).2.1 + (rpc00bOrder i).2.2 → q.denA i = 0 ∧ q.denB i = 0) ∧
  q.denA 0 ≠ 0 ∧ q.denB 0 ≠ 0

theorem affine_poly (c : Coef K) (h : ∀ i, 2 ≤ (rpc00bOrder i).1 + (rpc00bOrder i).2.1 + (rpc00bOrder i).2.2 → c i = 0) (x y z : K) :
    rpcPoly c x y z = c 0 + c 1 * x + c 2 * y + c 3 * z := by
  rw [← polyPy_eq, (poly_affine c (fun i hi => h i (by omega)) x y z).1, h 5 (by decide), h 6 (by decide), h 9 (by decide),
    h 13 (by decide), h 16 (by decide), h 19 (by decide)]
  ring

theorem const_poly (c : Coef K) (h : ∀ i, 1 ≤ (rpc00bOrder i).1 + (rpc00bOrder i).2.1 + (rpc00bOrder i).2.2 → c i = 0) (x y z : K) :
    rpcPoly c x y z = c 0 := by
  rw [affine_poly c (fun i hi => h i (by omega)), h 1 (by decide), h 2 (by decide), h 3 (by decide)]
  ring

theorem AffineModel.defined {q : RatCoefs K} (h : AffineModel q) (r : Rpc K) (lon lat alt : K) : RatDefined r q lon lat alt := by
  constructor
  · rw [const_poly _ fun i hi => (h.2.1 i hi).1]; exact h.2.2.1
  · rw [const_poly _ fun i hi => (h.2.1 i hi).2]; exact h.2.2.2

theorem AffineModel.lonLat {q : RatCoefs K} (h : AffineModel q) : AffineInLonLat q :=
  ⟨fun i hi => h.1 i (by omega), fun i hi => h.2.1 i (by omega)⟩

theorem AffineModel.segment {q : RatCoefs K} (h : AffineModel q) (r : Rpc K) (A B : V3 K) (t : K) :
    imgCol r q (Spec.lerp A B t).x (Spec.lerp A B t).y (Spec.lerp A B t).z =
      (1 - t) * imgCol r q A.x A.y A.z + t * imgCol r q B.x B.y B.z ∧
    imgRow r q (Spec.lerp A B t).x (Spec.lerp A B t).y (Spec.lerp A B t).z =
      (1 - t) * imgRow r q A.x A.y A.z + t * imgRow r q B.x B.y B.z := by
  simp only [imgCol, imgRow, const_poly _ fun i hi => (h.2.1 i hi).1, const_poly _ fun i hi => (h.2.1 i hi).2,
    affine_poly _ fun i hi => (h.1 i hi).1, affine_poly _ fun i hi => (h.1 i hi).2, Spec.lerp]
  constructor <;> ring

/-- An affine model with regular derivatives: one iteration is enough, whatever the point. -/
theorem AffineModel.iter {q : RatCoefs K} (h : AffineModel q) (r : Rpc K) (hX : r.scX ≠ 0) (hY : r.scY ≠ 0)
    (hreg : ∀ alt, (invDerivPy r q r.offX r.offY alt).1 * (invDerivPy r q r.offX r.offY alt).2.2.2 -
      (invDerivPy r q r.offX r.offY alt).2.2.1 * (invDerivPy r q r.offX r.offY alt).2.1 ≠ 0) (row col alt : K) :
    (iterCpp r q 10 ⟨row, col, some alt⟩).2 < 10 ∧
    ∃ lon lat, (iterCpp r q 10 ⟨row, col, some alt⟩).1.lon = some lon ∧ (iterCpp r q 10 ⟨row, col, some alt⟩).1.lat = some lat := by
  have h0 : invPointCpp r q ⟨some r.offX, some r.offY, some alt⟩ = ⟨some (imgRow r q r.offX r.offY alt),
      some (imgCol r q r.offX r.offY alt), some alt⟩ := invPointCpp_defined r q (h.defined r _ _ _)
  obtain ⟨lon', lat', -, -, hstep, -⟩ := C22_affine_one_step r q h.lonLat hX hY ⟨row, col, some alt⟩ r.offX r.offY alt rfl
    (h.defined r _ _ _) (hreg alt)
  simp only [iterCpp, h0, osub, Option.map_some]
  by_cases hn : needsIter (⟨some r.offX, some r.offY, some (col - imgCol r q r.offX r.offY alt),
      some (row - imgRow r q r.offX r.offY alt)⟩ : Newton K) = true
  · rw [show (10 : ℕ) = 8 + 1 + 1 from rfl, loopCpp, if_pos hn, hstep, loopCpp, if_neg]
    · exact ⟨by simp, lon', lat', rfl, rfl⟩
    · simp [needsIter, overEps, newtonEps]
  · rw [show (10 : ℕ) = 9 + 1 from rfl, loopCpp, if_neg hn]
    exact ⟨by simp, r.offX, r.offY, rfl, rfl⟩

/-- C63. For an affine model every pixel has a line of sight, and the image of the point located on it by
`RPCoptim.direct_loc_dtm` is the pixel, to a millionth of a pixel. -/
theorem C63_optim_affine_reprojection (r : Rpc K) (q : RatCoefs K) (hq : r.inverse = some q) (haff : AffineModel q)
    (hX : r.scX ≠ 0) (hY : r.scY ≠ 0)
    (hinv : ∀ alt, (invDerivPy r q r.offX r.offY alt).1 * (invDerivPy r q r.offX r.offY alt).2.2.2 -
      (invDerivPy r q r.offX r.offY alt).2.2.1 * (invDerivPy r q r.offX r.offY alt).2.1 ≠ 0)
    (d : Dtm K) (hr : 2 ≤ d.nbRows) (hc : 2 ≤ d.nbCols)
    (hdet : d.transform.a * d.transform.e - d.transform.b * d.transform.d ≠ 0)
    (hlo : r.offAlt - r.scAlt ≤ d.altMin - 1) (hhi : d.altMax + 1 ≤ r.offAlt + r.scAlt) (row col : K) :
    ∃ A B : V3 K, losExtremaCpp r (some row) (some col) (some (d.altMin - 1)) (some (d.altMax + 1)) false =
        .ok [⟨some A.x, some A.y, some A.z⟩, ⟨some B.x, some B.y, some B.z⟩] ∧ A.z = d.altMax + 1 ∧ B.z = d.altMin - 1 ∧
      (LineRegular d A B → ∀ N v, rpcOptimDirectDtm N r d [some row] [some col] = .ok [.point v] → v ≠ ⟨0, 0, 0⟩ →
        |imgCol r q v.x v.y v.z - col| ≤ 1 / 1000000 ∧ |imgRow r q v.x v.y v.z - row| ≤ 1 / 1000000) := by
  obtain ⟨sA, lonA, latA, a1, a2⟩ := haff.iter r hX hY hinv row col (d.altMax + 1)
  obtain ⟨sB, lonB, latB, b1, b2⟩ := haff.iter r hX hY hinv row col (d.altMin - 1)
  have hlos : losAltitudes r (some (d.altMin - 1)) (some (d.altMax + 1)) = (d.altMin - 1, d.altMax + 1, none) := by
    simp only [losAltitudes]; rw [if_pos ⟨hlo, hhi⟩]
  have hAB : losExtremaCpp r (some row) (some col) (some (d.altMin - 1)) (some (d.altMax + 1)) false =
      .ok [⟨some lonA, some latA, some (d.altMax + 1)⟩, ⟨some lonB, some latB, some (d.altMin - 1)⟩] := by
    simp only [losExtremaCpp, hlos, hq, iterPointCpp, a1, a2, b1, b2]
  refine ⟨⟨lonA, latA, d.altMax + 1⟩, ⟨lonB, latB, d.altMin - 1⟩, hAB, rfl, rfl, fun hreg N v hv hv0 => ?_⟩
  have := C63_optim_reprojection N r q hq d hr hc hdet row col hlo hhi sA sB ⟨lonA, latA, d.altMax + 1⟩ ⟨lonB, latB, d.altMin - 1⟩
    hAB (haff.defined r _ _ _) (haff.defined r _ _ _) 0 (fun t _ _ => by
      obtain ⟨h1, h2⟩ := haff.segment r ⟨lonA, latA, d.altMax + 1⟩ ⟨lonB, latB, d.altMin - 1⟩ t
      rw [h1, h2, sub_self, sub_self, abs_zero]
      exact ⟨le_rfl, le_rfl⟩) hreg v hv hv0
  simpa using this

end Shareloc
