import Verif.Props.Rpc

/-!
# C22 (affine models), C23, C24: the iterative direct location by the inverse model
-/

set_option linter.unusedSectionVars false

namespace Shareloc
variable {K : Type*} [Field K] [LinearOrder K] [IsStrictOrderedRing K]

/-! ### C22: affine models -/

theorem poly_affine (c : Coef K) (h : ∀ i, 2 ≤ (rpc00bOrder i).1 + (rpc00bOrder i).2.1 → c i = 0) (x y z : K) :
    polyPy x y z c = (c 0 + c 3 * z + c 9 * z ^ 2 + c 19 * z ^ 3) + (c 1 + c 5 * z + c 13 * z ^ 2) * x +
      (c 2 + c 6 * z + c 16 * z ^ 2) * y ∧
    dLonPy x y z c = c 1 + c 5 * z + c 13 * z ^ 2 ∧ dLatPy x y z c = c 2 + c 6 * z + c 16 * z ^ 2 := by
  have h4 := h 4 (by decide)
  have h7 := h 7 (by decide)
  have h8 := h 8 (by decide)
  have h10 := h 10 (by decide)
  have h11 := h 11 (by decide)
  have h12 := h 12 (by decide)
  have h14 := h 14 (by decide)
  have h15 := h 15 (by decide)
  have h17 := h 17 (by decide)
  have h18 := h 18 (by decide)
  simp only [polyPy, dLonPy, dLatPy, h4, h7, h8, h10, h11, h12, h14, h15, h17, h18]
  refine ⟨by ring, by ring, by ring⟩

theorem poly_const (c : Coef K) (h : ∀ i, 1 ≤ (rpc00bOrder i).1 + (rpc00bOrder i).2.1 → c i = 0) (x y z : K) :
    polyPy x y z c = c 0 + c 3 * z + c 9 * z ^ 2 + c 19 * z ^ 3 ∧ dLonPy x y z c = 0 ∧ dLatPy x y z c = 0 := by
  obtain ⟨h1, h2, h3⟩ := poly_affine c (fun i hi => h i (by omega)) x y z
  rw [h1, h2, h3, h 1 (by decide), h 2 (by decide), h 5 (by decide), h 6 (by decide), h 13 (by decide),
    h 16 (by decide)]
  refine ⟨by ring, by ring, by ring⟩

theorem affine_quotient (num den : Coef K) (hn : ∀ i, 2 ≤ (rpc00bOrder i).1 + (rpc00bOrder i).2.1 → num i = 0)
    (hd : ∀ i, 1 ≤ (rpc00bOrder i).1 + (rpc00bOrder i).2.1 → den i = 0)
    (oX sX oY sY z sc off lon lat lon' lat' : K) (hX : sX ≠ 0) (hY : sY ≠ 0)
    (h0 : rpcPoly den ((lon - oX) / sX) ((lat - oY) / sY) z ≠ 0) :
    rpcPoly den ((lon' - oX) / sX) ((lat' - oY) / sY) z ≠ 0 ∧
    rpcPoly num ((lon' - oX) / sX) ((lat' - oY) / sY) z / rpcPoly den ((lon' - oX) / sX) ((lat' - oY) / sY) z * sc
        + off =
      (rpcPoly num ((lon - oX) / sX) ((lat - oY) / sY) z / rpcPoly den ((lon - oX) / sX) ((lat - oY) / sY) z * sc
        + off) +
      (sc / sX * (dLonPy ((lon - oX) / sX) ((lat - oY) / sY) z num * polyPy ((lon - oX) / sX) ((lat - oY) / sY) z den -
        dLonPy ((lon - oX) / sX) ((lat - oY) / sY) z den * polyPy ((lon - oX) / sX) ((lat - oY) / sY) z num) /
        polyPy ((lon - oX) / sX) ((lat - oY) / sY) z den ^ 2) * (lon' - lon) +
      (sc / sY * (dLatPy ((lon - oX) / sX) ((lat - oY) / sY) z num * polyPy ((lon - oX) / sX) ((lat - oY) / sY) z den -
        dLatPy ((lon - oX) / sX) ((lat - oY) / sY) z den * polyPy ((lon - oX) / sX) ((lat - oY) / sY) z num) /
        polyPy ((lon - oX) / sX) ((lat - oY) / sY) z den ^ 2) * (lat' - lat) := by
  simp only [← polyPy_eq] at h0 ⊢
  obtain ⟨p1, p2, p3⟩ := poly_affine num hn ((lon - oX) / sX) ((lat - oY) / sY) z
  obtain ⟨p1', -, -⟩ := poly_affine num hn ((lon' - oX) / sX) ((lat' - oY) / sY) z
  obtain ⟨q1, q2, q3⟩ := poly_const den hd ((lon - oX) / sX) ((lat - oY) / sY) z
  obtain ⟨q1', -, -⟩ := poly_const den hd ((lon' - oX) / sX) ((lat' - oY) / sY) z
  rw [p1, p1', p2, p3, q1', q2, q3]
  rw [q1] at h0 ⊢
  refine ⟨h0, ?_⟩
  generalize den 0 + den 3 * z + den 9 * z ^ 2 + den 19 * z ^ 3 = D at *
  field_simp
  ring

/-- C22. If the inverse model is affine in longitude and latitude, one step from any finite estimate reaches a
ground point whose image is exactly the requested point, and the residuals computed there are zero. -/
theorem C22_affine_one_step (r : Rpc K) (q : RatCoefs K) (haff : AffineInLonLat q) (hX : r.scX ≠ 0) (hY : r.scY ≠ 0)
    (p : ImgPt K) (lon lat alt : K) (halt : p.alt = some alt) (hd : RatDefined r q lon lat alt)
    (hdet : (invDerivPy r q lon lat alt).1 * (invDerivPy r q lon lat alt).2.2.2 -
      (invDerivPy r q lon lat alt).2.2.1 * (invDerivPy r q lon lat alt).2.1 ≠ 0) :
    ∃ lon' lat', imgCol r q lon' lat' alt = p.col ∧ imgRow r q lon' lat' alt = p.row ∧
      newtonStep (invPointCpp r q) (derivOptCpp r q) p
        ⟨some lon, some lat, some (p.col - imgCol r q lon lat alt), some (p.row - imgRow r q lon lat alt)⟩ =
        ⟨some lon', some lat', some 0, some 0⟩ ∧
      (ValidLonLat lon' lat' → newtonStep (invPointPy r q) (derivOptPy r q) p
        ⟨some lon, some lat, some (p.col - imgCol r q lon lat alt), some (p.row - imgRow r q lon lat alt)⟩ =
        ⟨some lon', some lat', some 0, some 0⟩) := by
  obtain ⟨lon', lat', h1, h2, _, h4, h5⟩ := C22_step r q p lon lat alt (p.col - imgCol r q lon lat alt)
    (p.row - imgRow r q lon lat alt) halt hd hdet
  obtain ⟨dA, eA⟩ := affine_quotient q.numA q.denA (fun i hi => (haff.1 i hi).1) (fun i hi => (haff.2 i hi).1)
    r.offX r.scX r.offY r.scY ((alt - r.offAlt) / r.scAlt) r.scCol r.offCol lon lat lon' lat' hX hY hd.1
  obtain ⟨dB, eB⟩ := affine_quotient q.numB q.denB (fun i hi => (haff.1 i hi).2) (fun i hi => (haff.2 i hi).2)
    r.offX r.scX r.offY r.scY ((alt - r.offAlt) / r.scAlt) r.scRow r.offRow lon lat lon' lat' hX hY hd.2
  have hcol : imgCol r q lon' lat' alt = p.col := by
    have : imgCol r q lon' lat' alt = imgCol r q lon lat alt + (invDerivPy r q lon lat alt).1 * (lon' - lon) +
      (invDerivPy r q lon lat alt).2.1 * (lat' - lat) := eA
    linear_combination this + h1
  have hrow : imgRow r q lon' lat' alt = p.row := by
    have : imgRow r q lon' lat' alt = imgRow r q lon lat alt + (invDerivPy r q lon lat alt).2.2.1 * (lon' - lon) +
      (invDerivPy r q lon lat alt).2.2.2 * (lat' - lat) := eB
    linear_combination this + h2
  refine ⟨lon', lat', hcol, hrow, ?_, ?_⟩
  · rw [h4 ⟨dA, dB⟩, hcol, hrow, sub_self, sub_self]
  · intro hv
    rw [h5 ⟨dA, dB⟩ hv, hcol, hrow, sub_self, sub_self]

/-- The demonstration model is affine, its scene centre defined and its Jacobian regular. -/
example : AffineInLonLat demoCoefs ∧ demoRpc.scX ≠ 0 ∧ demoRpc.scY ≠ 0 ∧ RatDefined demoRpc demoCoefs 10 20 100 ∧
    (invDerivPy demoRpc demoCoefs 10 20 100).1 * (invDerivPy demoRpc demoCoefs 10 20 100).2.2.2 -
      (invDerivPy demoRpc demoCoefs 10 20 100).2.2.1 * (invDerivPy demoRpc demoCoefs 10 20 100).2.1 ≠ 0 := by
  refine ⟨⟨by decide +kernel, by decide +kernel⟩, by decide +kernel, by decide +kernel, ?_, by decide +kernel⟩
  simp only [RatDefined, ← polyPy_eq]; decide +kernel

/-! ### C23 -/

/-- C23. At most `nmax` updates are done, for any model, point and altitude (C++). -/
theorem C23_cpp_bounded (r : Rpc K) (q : RatCoefs K) (nmax : ℕ) (p : ImgPt K) : (iterCpp r q nmax p).2 ≤ nmax := by
  have : ∀ n s, (loopCpp r q p n s).2 ≤ n := by
    intro n
    induction n with
    | zero => intro s; simp [loopCpp]
    | succ n ih =>
      intro s
      simp only [loopCpp]
      split
      · have := ih (newtonStep (invPointCpp r q) (derivOptCpp r q) p s)
        simp only; omega
      · simp
  exact this nmax _

/-- C23. At most `nmax` updates are done, for any batch (Python). -/
theorem C23_python_bounded (r : Rpc K) (q : RatCoefs K) (nmax : ℕ) (pts : List (ImgPt K)) :
    (iterPy r q nmax pts).2 ≤ nmax := by
  have : ∀ n l, (loopPy r q n l).2 ≤ n := by
    intro n
    induction n with
    | zero => intro s; simp [loopPy]
    | succ n ih =>
      intro l
      simp only [loopPy]
      split
      · have := ih (l.map fun t => (t.1, stepPy r q t.1 t.2))
        simp only; omega
      · simp
  exact this nmax _

/-- The residuals of a state are measured at its estimate with the point's altitude. -/
def ResidualOf (inv : ORow K → ORow K) (p : ImgPt K) (s : Newton K) : Prop :=
  s.dcol = osub p.col (inv ⟨s.lon, s.lat, p.alt⟩).y ∧ s.drow = osub p.row (inv ⟨s.lon, s.lat, p.alt⟩).x

theorem residualOf_step (inv : ORow K → ORow K) (deriv : K → K → K → Option (K × K × K × K)) (p : ImgPt K)
    (s : Newton K) : ResidualOf inv p (newtonStep inv deriv p s) := ⟨rfl, rfl⟩

theorem loopCpp_spec (r : Rpc K) (q : RatCoefs K) (p : ImgPt K) (n : ℕ) (s : Newton K)
    (hs : ResidualOf (invPointCpp r q) p s) :
    ResidualOf (invPointCpp r q) p (loopCpp r q p n s).1 ∧
    ((loopCpp r q p n s).2 < n → needsIter (loopCpp r q p n s).1 = false) := by
  induction n generalizing s with
  | zero => exact ⟨hs, fun h => absurd h (by simp)⟩
  | succ n ih =>
    simp only [loopCpp]
    split
    · obtain ⟨h1, h2⟩ := ih _ (residualOf_step (invPointCpp r q) (derivOptCpp r q) p s)
      exact ⟨h1, fun h => h2 (by simpa using h)⟩
    · rename_i h
      exact ⟨hs, fun _ => by simpa using h⟩

/-- C23. If the C++ iteration stops before the limit at a finite point where the model is defined, the image of
the returned ground point is within 1e-6 pixel of the requested point, in rows and in columns. -/
theorem C23_cpp_certified (r : Rpc K) (q : RatCoefs K) (nmax : ℕ) (p : ImgPt K) (lon lat alt : K)
    (hstop : (iterCpp r q nmax p).2 < nmax) (hlon : (iterCpp r q nmax p).1.lon = some lon)
    (hlat : (iterCpp r q nmax p).1.lat = some lat) (halt : p.alt = some alt) (hd : RatDefined r q lon lat alt) :
    |p.col - imgCol r q lon lat alt| ≤ 1 / 1000000 ∧ |p.row - imgRow r q lon lat alt| ≤ 1 / 1000000 := by
  obtain ⟨h1, h2⟩ := loopCpp_spec r q p nmax ⟨some r.offX, some r.offY,
    osub p.col (invPointCpp r q ⟨some r.offX, some r.offY, p.alt⟩).y,
    osub p.row (invPointCpp r q ⟨some r.offX, some r.offY, p.alt⟩).x⟩ ⟨rfl, rfl⟩
  have h2 := h2 hstop
  change ResidualOf (invPointCpp r q) p (iterCpp r q nmax p).1 at h1
  change needsIter (iterCpp r q nmax p).1 = false at h2
  generalize (iterCpp r q nmax p).1 = s at *
  obtain ⟨hc, hr⟩ := h1
  rw [hlon, hlat, halt, invPointCpp_defined r q hd] at hc hr
  simp only [osub, Option.map_some] at hc hr
  simp only [needsIter, hc, hr, overEps, Bool.or_eq_false_iff, decide_eq_false_iff_not, not_lt, newtonEps,
    gt_iff_lt] at h2
  exact h2

/-- C23. Once no point needs an update the Python loop has certified every point of the batch whose altitude is
the first one of the batch (in particular of a batch at one altitude), provided no residual of the batch is NaN.
Missing for the full claim: points at other altitudes than the first one, see `C23_python_counterexample`, and
batches with a NaN residual, see `C24_python_nan_counterexample`. -/
theorem C23_python_certified_partial (r : Rpc K) (q : RatCoefs K) (nmax : ℕ) (pts : List (ImgPt K)) (alt : K)
    (hall : ∀ p ∈ pts, p.alt = some alt) (hstop : (iterPy r q nmax pts).2 < nmax)
    (hfin : ∀ t ∈ (iterPy r q nmax pts).1, t.2.dcol.isSome = true ∧ t.2.drow.isSome = true) :
    ∀ t ∈ (iterPy r q nmax pts).1, ∃ lon lat, t.2.lon = some lon ∧ t.2.lat = some lat ∧ ValidLonLat lon lat ∧
      (RatDefined r q lon lat alt →
        |t.1.col - imgCol r q lon lat alt| ≤ 1 / 1000000 ∧ |t.1.row - imgRow r q lon lat alt| ≤ 1 / 1000000) := by
  have main : ∀ n l, (∀ t ∈ l, (t : ImgPt K × Newton K).1.alt = some alt ∧ ResidualOf (invPointPy r q) t.1 t.2) →
      (∀ t ∈ (loopPy r q n l).1, t.1.alt = some alt ∧ ResidualOf (invPointPy r q) t.1 t.2) ∧
      ((loopPy r q n l).2 < n → batchContinues (loopPy r q n l).1 = false) := by
    intro n
    induction n with
    | zero => intro l hl; exact ⟨hl, fun h => absurd h (by simp)⟩
    | succ n ih =>
      intro l hl
      simp only [loopPy]
      split
      · obtain ⟨h1, h2⟩ := ih (l.map fun t => (t.1, stepPy r q t.1 t.2)) (by
          intro t ht
          obtain ⟨u, hu, rfl⟩ := List.mem_map.1 ht
          refine ⟨(hl u hu).1, ?_⟩
          simp only [stepPy]
          split
          · exact residualOf_step _ _ _ _
          · exact (hl u hu).2)
        exact ⟨h1, fun h => h2 (by simpa using h)⟩
      · rename_i h
        exact ⟨hl, fun _ => by simpa using h⟩
  obtain ⟨h1, h2⟩ := main nmax (startPy r q pts) (by
    intro t ht
    cases pts with
    | nil => simp [startPy] at ht
    | cons p0 ps =>
      simp only [startPy, List.mem_map] at ht
      obtain ⟨p, hp, rfl⟩ := ht
      refine ⟨hall p hp, ?_⟩
      have : p0.alt = p.alt := by rw [hall p0 (by simp), hall p hp]
      rw [this]
      exact ⟨rfl, rfl⟩)
  have h2 := h2 hstop
  change ∀ t ∈ (iterPy r q nmax pts).1, _ at h1
  change batchContinues (iterPy r q nmax pts).1 = false at h2
  have hno : ∀ t ∈ (iterPy r q nmax pts).1, overEps t.2.dcol = false ∧ overEps t.2.drow = false := by
    simp only [batchContinues, maxOverEps, Bool.or_eq_false_iff, Bool.and_eq_false_iff] at h2
    have hs1 : ((iterPy r q nmax pts).1.map fun t => t.2.dcol).all Option.isSome = true := by
      rw [List.all_eq_true]; intro d hd
      obtain ⟨t, ht, rfl⟩ := List.mem_map.1 hd
      exact (hfin t ht).1
    have hs2 : ((iterPy r q nmax pts).1.map fun t => t.2.drow).all Option.isSome = true := by
      rw [List.all_eq_true]; intro d hd
      obtain ⟨t, ht, rfl⟩ := List.mem_map.1 hd
      exact (hfin t ht).2
    rw [hs1, hs2] at h2
    simp only [Bool.true_eq_false, false_or] at h2
    intro t ht
    constructor
    · have := h2.1
      rw [List.any_eq_false] at this
      simpa using this _ (List.mem_map.2 ⟨t, ht, rfl⟩)
    · have := h2.2
      rw [List.any_eq_false] at this
      simpa using this _ (List.mem_map.2 ⟨t, ht, rfl⟩)
  intro t ht
  obtain ⟨ha, hc, hr⟩ := h1 t ht
  obtain ⟨hfc, hfr⟩ := hfin t ht
  obtain ⟨hnc, hnr⟩ := hno t ht
  rw [ha] at hc hr
  -- the residual is finite, hence the estimate is finite and valid
  have hmask : checkRow (⟨t.2.lon, t.2.lat, some alt⟩ : ORow K) ≠ nanRow := by
    intro h
    rw [hc, invPointPy_masked r q h] at hfc
    simp [nanRow, osub] at hfc
  rcases hlon : t.2.lon with _ | lon
  · exact absurd (checkRow_nan (Or.inl hlon)) hmask
  rcases hlat : t.2.lat with _ | lat
  · exact absurd (checkRow_nan (Or.inr (Or.inl hlat))) hmask
  rw [hlon, hlat] at hmask hc hr
  have hv : ValidLonLat lon lat := by
    by_contra h
    exact hmask (checkRow_invalid h)
  refine ⟨lon, lat, rfl, rfl, hv, fun hd => ?_⟩
  rw [invPointPy_valid r q hv hd] at hc hr
  simp only [osub, Option.map_some] at hc hr
  rw [hc] at hnc
  rw [hr] at hnr
  simp only [overEps, decide_eq_false_iff_not, not_lt, newtonEps, gt_iff_lt] at hnc hnr
  exact ⟨hnc, hnr⟩

/-- The hypotheses hold for a batch of three points at one altitude, with the curved model, which stops early. -/
example : (iterPy demoRpc curvedCoefs 10 [⟨300, 500, some 100⟩, ⟨301, 502, some 100⟩, ⟨310, 480, some 100⟩]).2 < 10 ∧
    ((iterPy demoRpc curvedCoefs 10 [⟨300, 500, some 100⟩, ⟨301, 502, some 100⟩, ⟨310, 480, some 100⟩]).1.all
      fun t => t.2.dcol.isSome && t.2.drow.isSome) = true := by
  decide +kernel

/-- C23, negation for Python batches at several altitudes: the iteration stops at once, before its limit and with
finite residuals, although the image of the second returned ground point is 500 columns away from the requested
point.  The start residual of every point is computed with the altitude of the first point. -/
theorem C23_python_counterexample :
    let pts : List (ImgPt ℚ) := [⟨300, 500, some 100⟩, ⟨300, 500, some 200⟩]
    (iterPy demoRpc demoCoefs 10 pts).2 = 0 ∧
    (iterPy demoRpc demoCoefs 10 pts).1[1]? =
      some (⟨300, 500, some 200⟩, ⟨some 10, some 20, some 0, some 0⟩) ∧
    imgCol demoRpc demoCoefs 10 20 200 = 1000 := by
  refine ⟨by decide +kernel, by decide +kernel, ?_⟩
  simp only [imgCol, ← polyPy_eq]; decide +kernel

/-! ### C24 -/

theorem needsIter_single (p : ImgPt K) (s : Newton K) : batchContinues [(p, s)] = needsIter s := by
  rcases s with ⟨a, b, _ | c, _ | d⟩ <;> simp [batchContinues, maxOverEps, needsIter, overEps]

theorem stepPy_done (r : Rpc K) (q : RatCoefs K) (p : ImgPt K) (s : Newton K) (h : needsIter s = false) (n : ℕ) :
    (stepPy r q p)^[n] s = s := by
  induction n with
  | zero => rfl
  | succ n ih =>
    rw [Function.iterate_succ_apply]
    have : stepPy r q p s = s := by simp [stepPy, h]
    rw [this, ih]

theorem loopPy_single (r : Rpc K) (q : RatCoefs K) (p : ImgPt K) (s : Newton K) (n : ℕ) :
    (loopPy r q n [(p, s)]).1 = [(p, (stepPy r q p)^[n] s)] := by
  induction n generalizing s with
  | zero => rfl
  | succ n ih =>
    simp only [loopPy, needsIter_single]
    by_cases h : needsIter s = true
    · rw [if_pos h]
      simp only [List.map_cons, List.map_nil, ih]
      rw [Function.iterate_succ_apply]
    · rw [if_neg h, stepPy_done r q p s (by simpa using h)]

theorem loopPy_batch (r : Rpc K) (q : RatCoefs K) (n : ℕ) (l : List (ImgPt K × Newton K))
    (hfin : ∀ t ∈ l, ∀ m ≤ n, ((stepPy r q t.1)^[m] t.2).dcol.isSome = true ∧
      ((stepPy r q t.1)^[m] t.2).drow.isSome = true) :
    (loopPy r q n l).1 = l.map fun t => (t.1, (stepPy r q t.1)^[n] t.2) := by
  induction n generalizing l with
  | zero => simp [loopPy]
  | succ n ih =>
    simp only [loopPy]
    by_cases h : batchContinues l = true
    · rw [if_pos h]
      simp only
      rw [ih]
      · rw [List.map_map]
        rfl
      · intro t ht m hm
        obtain ⟨u, hu, rfl⟩ := List.mem_map.1 ht
        exact hfin u hu (m + 1) (by omega)
    · rw [if_neg h]
      have hdone : ∀ t ∈ l, needsIter t.2 = false := by
        intro t ht
        have h := (Bool.eq_false_iff).2 h
        simp only [batchContinues, maxOverEps, Bool.or_eq_false_iff, Bool.and_eq_false_iff] at h
        have hs1 : (l.map fun t => t.2.dcol).all Option.isSome = true := by
          rw [List.all_eq_true]; intro d hd
          obtain ⟨u, hu, rfl⟩ := List.mem_map.1 hd
          exact (hfin u hu 0 (by omega)).1
        have hs2 : (l.map fun t => t.2.drow).all Option.isSome = true := by
          rw [List.all_eq_true]; intro d hd
          obtain ⟨u, hu, rfl⟩ := List.mem_map.1 hd
          exact (hfin u hu 0 (by omega)).2
        rw [hs1, hs2] at h
        simp only [Bool.true_eq_false, false_or] at h
        have h1 := h.1
        have h2 := h.2
        rw [List.any_eq_false] at h1 h2
        have h1 := h1 _ (List.mem_map.2 ⟨t, ht, rfl⟩)
        have h2 := h2 _ (List.mem_map.2 ⟨t, ht, rfl⟩)
        simp only [needsIter]
        simpa using And.intro h1 h2
      conv_lhs => rw [← List.map_id l]
      apply List.map_congr_left
      intro t ht
      rw [stepPy_done r q t.1 t.2 (hdone t ht)]
      rfl

/-- The start state of a point alone. -/
theorem startPy_single (r : Rpc K) (q : RatCoefs K) (p : ImgPt K) :
    startPy r q [p] = [(p, ⟨some r.offX, some r.offY, osub p.col (invPointPy r q ⟨some r.offX, some r.offY, p.alt⟩).y,
      osub p.row (invPointPy r q ⟨some r.offX, some r.offY, p.alt⟩).x⟩)] := rfl

/-- C24 for Python. In a batch at one altitude, if none of the points alone ever meets a NaN residual within the
iteration limit, then the batch is solved as the points alone.  Missing for the full claim: batches at several
altitudes (`C24_python_altitude_counterexample`) and batches in which a point meets a NaN
(`C24_python_nan_counterexample`); the claim is false for both. -/
theorem C24_python_batch_partial (r : Rpc K) (q : RatCoefs K) (nmax : ℕ) (pts : List (ImgPt K)) (alt : Option K)
    (hall : ∀ p ∈ pts, p.alt = alt)
    (hfin : ∀ p ∈ pts, ∀ m ≤ nmax, ∀ t ∈ (iterPy r q m [p]).1, t.2.dcol.isSome = true ∧ t.2.drow.isSome = true) :
    (iterPy r q nmax pts).1 = pts.flatMap fun p => (iterPy r q nmax [p]).1 := by
  have hstart : startPy r q pts = pts.map fun p => (p, (⟨some r.offX, some r.offY,
      osub p.col (invPointPy r q ⟨some r.offX, some r.offY, p.alt⟩).y,
      osub p.row (invPointPy r q ⟨some r.offX, some r.offY, p.alt⟩).x⟩ : Newton K)) := by
    cases pts with
    | nil => rfl
    | cons p0 ps =>
      simp only [startPy]
      apply List.map_congr_left
      intro p hp
      rw [hall p0 (by simp), hall p hp]
  have hsolo : ∀ p m, (iterPy r q m [p]).1 = [(p, (stepPy r q p)^[m] ⟨some r.offX, some r.offY,
      osub p.col (invPointPy r q ⟨some r.offX, some r.offY, p.alt⟩).y,
      osub p.row (invPointPy r q ⟨some r.offX, some r.offY, p.alt⟩).x⟩)] := by
    intro p m
    simp only [iterPy, startPy_single, loopPy_single]
  simp only [iterPy]
  rw [hstart, loopPy_batch]
  · rw [List.map_map]
    have : ∀ p ∈ pts, (iterPy r q nmax [p]).1 = [((fun t : ImgPt K × Newton K => (t.1, (stepPy r q t.1)^[nmax] t.2)) ∘
        fun p : ImgPt K => (p, (⟨some r.offX, some r.offY,
      osub p.col (invPointPy r q ⟨some r.offX, some r.offY, p.alt⟩).y,
      osub p.row (invPointPy r q ⟨some r.offX, some r.offY, p.alt⟩).x⟩ : Newton K))) p] := by
      intro p _; rw [hsolo]; rfl
    change _ = pts.flatMap fun p => (iterPy r q nmax [p]).1
    rw [List.flatMap_congr this]
    clear this hstart hfin hall
    induction pts with
    | nil => rfl
    | cons p ps ih => rw [List.map_cons, List.flatMap_cons, ih]; rfl
  · intro t ht m hm
    obtain ⟨p, hp, rfl⟩ := List.mem_map.1 ht
    have := hfin p hp m hm
    rw [hsolo] at this
    exact this _ (List.mem_singleton.2 rfl)

/-- The hypotheses of the batch theorem on a batch of two points of the curved model. -/
example : ∀ p ∈ ([⟨301, 502, some 100⟩, ⟨310, 480, some 100⟩] : List (ImgPt ℚ)), ∀ m ≤ 3,
    ∀ t ∈ (iterPy demoRpc curvedCoefs m [p]).1, t.2.dcol.isSome = true ∧ t.2.drow.isSome = true := by
  decide +kernel

/-- C24, negation: the second point of a batch at two altitudes is not located where it is located alone. -/
theorem C24_python_altitude_counterexample :
    directLocH demoRpc [some 300, some 300] [some 500, some 500] [some 100, some 200] false false =
      .ok [⟨some 10, some 20, some 100⟩, ⟨some 10, some 20, some 200⟩] ∧
    directLocH demoRpc [some 300] [some 500] [some 200] false false =
      .ok [⟨some 9, some (39 / 2), some 200⟩] := by
  decide +kernel

/-- C24, negation: a point at a NaN altitude stops the iteration of its neighbour, whose image is then more than
1e-6 pixel away from the requested column although it converges when it is alone. -/
theorem C24_python_nan_counterexample :
    let p : ImgPt ℚ := ⟨310, 480, some 100⟩
    (iterPy demoRpc curvedCoefs 10 [p, ⟨301, 500, none⟩]).2 = 1 ∧
    ((iterPy demoRpc curvedCoefs 10 [p, ⟨301, 500, none⟩]).1.map fun t => overEps t.2.dcol) = [true, false] ∧
    ((iterPy demoRpc curvedCoefs 10 [p]).1.map fun t => overEps t.2.dcol) = [false] := by
  decide +kernel

theorem checkLonLat_getElem? (l : List (ORow K)) (i : ℕ) : (checkLonLat l)[i]? = (l[i]?).map checkRow := by
  simp [checkLonLat]

/-- C24 for C++ (`RPCoptim.direct_loc_h` by the inverse model), unconditionally: each point of a batch of rows,
columns and altitudes is located as it is located alone. -/
theorem C24_cpp_batch (r : Rpc K) (q : RatCoefs K) (hq : r.inverse = some q) (row col alt : List (Option K))
    (fillNan : Bool) (hcol : col.length = row.length) (halt : alt.length = row.length) :
    ∃ out, directLocHOptim r row col alt fillNan false = .ok out ∧ out.length = row.length ∧
      ∀ (i : ℕ) (x y z : Option K), row[i]? = some x → col[i]? = some y → alt[i]? = some z →
        ∃ o, directLocHOptim r [x] [y] [z] fillNan false = .ok [o] ∧ out[i]? = some o := by
  refine ⟨checkLonLat ((row.zip (col.zip alt)).map (iterPointCpp r q fillNan)), ?_, ?_, ?_⟩
  · simp only [directLocHOptim, broadcastAlt_eq (halt.trans hcol.symm), hq]
    rw [broadcastAlt_eq (by omega)]
  · simp [checkLonLat, hcol, halt]
  · intro i x y z hx hy hz
    refine ⟨checkRow (iterPointCpp r q fillNan (x, y, z)), ?_, ?_⟩
    · simp [directLocHOptim, broadcastAlt, hq, checkLonLat]
    · rw [checkLonLat_getElem?, List.getElem?_map, List.getElem?_zip_eq_some (z := (x, y, z)) |>.2]
      · rfl
      · exact ⟨hx, List.getElem?_zip_eq_some.2 ⟨hy, hz⟩⟩

/-- C24 for C++ on the batch that defeats the Python version. -/
example : directLocHOptim demoRpc [some 300, some 300, none] [some 500, some 500, some 1]
      [some 100, some 200, some 3] false false =
    .ok [⟨some 10, some 20, some 100⟩, ⟨some 9, some (39 / 2), some 200⟩, nanRow] := by
  decide +kernel

/-! The Python batch at API level. -/

/-- The rows written by `direct_loc_h` before the longitude/latitude check. -/
theorem directLocH_rows {β : Type*} (fill : β) (f : ImgPt K → β) (g : β → Option K → ORow K)
    (row col alt : List (Option K)) :
    ((scatter fill ((row.zip (col.zip alt)).map fun t => validPt t.1 t.2.1 t.2.2)
      ((((row.zip (col.zip alt)).map fun t => validPt t.1 t.2.1 t.2.2).filterMap id).map f)).zip alt).map
        (fun t => g t.1 t.2) =
    (row.zip (col.zip alt)).map fun t => g ((validPt t.1 t.2.1 t.2.2).elim fill f) t.2.2 := by
  rw [scatter_filterMap]
  induction row generalizing col alt with
  | nil => simp
  | cons x xs ih =>
    cases col with
    | nil => simp
    | cons y ys =>
      cases alt with
      | nil => simp
      | cons z zs =>
        simp only [List.zip_cons_cons, List.map_cons]
        rw [ih]

/-- C24 for Python at API level: a batch at one altitude, in which no point alone meets a NaN residual, is located
as the points alone; points with NaN row or column are filtered and do not matter.  Missing: as for
`C24_python_batch_partial`. -/
theorem C24_python_direct_loc_h_partial (r : Rpc K) (q : RatCoefs K) (hq : r.inverse = some q)
    (row col : List (Option K)) (a : Option K) (fillNan : Bool) (hcol : col.length = row.length)
    (hfin : ∀ (i : ℕ) (x y : K), row[i]? = some (some x) → col[i]? = some (some y) →
      ∀ m ≤ 10, ∀ t ∈ (iterPy r q m [⟨x, y, a⟩]).1, t.2.dcol.isSome = true ∧ t.2.drow.isSome = true) :
    ∃ out, directLocH r row col (List.replicate row.length a) fillNan false = .ok out ∧
      out.length = row.length ∧
      ∀ (i : ℕ) (x y : Option K), row[i]? = some x → col[i]? = some y →
        ∃ o, directLocH r [x] [y] [a] fillNan false = .ok [o] ∧ out[i]? = some o := by
  let solo : ImgPt K → Option K × Option K := fun p =>
    match (iterPy r q 10 [p]).1 with
    | t :: _ => (t.2.lon, t.2.lat)
    | [] => (none, none)
  have hsolo1 : ∀ p, ((iterPy r q 10 [p]).1.map fun t => (t.2.lon, t.2.lat)) = [solo p] := by
    intro p
    have h := loopPy_single r q p ⟨some r.offX, some r.offY,
      osub p.col (invPointPy r q ⟨some r.offX, some r.offY, p.alt⟩).y,
      osub p.row (invPointPy r q ⟨some r.offX, some r.offY, p.alt⟩).x⟩ 10
    simp only [solo, iterPy, startPy_single, h, List.map_cons, List.map_nil]
  let mask := ((row.zip (col.zip (List.replicate row.length a))).map fun t => validPt t.1 t.2.1 t.2.2)
  have hpts : ∀ p ∈ mask.filterMap id, p.alt = a ∧ ∃ i : ℕ, row[i]? = some (some p.row) ∧ col[i]? = some (some p.col) := by
    intro p hp
    simp only [mask, List.mem_filterMap, List.mem_map, id] at hp
    obtain ⟨m, ⟨⟨x, y, z⟩, ht, rfl⟩, hm⟩ := hp
    obtain ⟨i, hi⟩ := List.mem_iff_getElem?.1 ht
    obtain ⟨h1, h2⟩ := List.getElem?_zip_eq_some.1 hi
    obtain ⟨h2, h3⟩ := List.getElem?_zip_eq_some.1 h2
    simp only [List.getElem?_replicate] at h3
    split at h3
    · cases h3
      cases x with
      | none => simp [validPt] at hm
      | some x =>
        cases y with
        | none => simp [validPt] at hm
        | some y =>
          simp only [validPt, Option.some.injEq] at hm
          subst hm
          exact ⟨rfl, i, h1, h2⟩
    · cases h3
  have hvals : ((iterPy r q 10 (mask.filterMap id)).1.map fun t => (t.2.lon, t.2.lat)) =
      (mask.filterMap id).map solo := by
    rw [C24_python_batch_partial r q 10 (mask.filterMap id) a (fun p hp => (hpts p hp).1)]
    · generalize mask.filterMap id = l
      induction l with
      | nil => rfl
      | cons p ps ih => rw [List.flatMap_cons, List.map_append, ih, hsolo1]; rfl
    · intro p hp m hm
      obtain ⟨ha, i, h1, h2⟩ := hpts p hp
      have := hfin i p.row p.col h1 h2 m hm
      rw [← ha] at this
      exact this
  refine ⟨checkLonLat ((row.zip (col.zip (List.replicate row.length a))).map fun t =>
    ⟨((validPt t.1 t.2.1 t.2.2).elim (fillLonLat r fillNan) solo).1,
      ((validPt t.1 t.2.1 t.2.2).elim (fillLonLat r fillNan) solo).2, t.2.2⟩), ?_, ?_, ?_⟩
  · have hb : broadcastAlt row.length (List.replicate row.length a) = .ok (List.replicate row.length a) :=
      broadcastAlt_eq (by simp)
    simp only [directLocH, hb, hq, hcol, if_true]
    change Except.ok (checkLonLat (((scatter (fillLonLat r fillNan) mask
      ((iterPy r q 10 (mask.filterMap id)).1.map fun t => (t.2.lon, t.2.lat))).zip
        (List.replicate row.length a)).map fun t => ⟨t.1.1, t.1.2, t.2⟩)) = _
    rw [hvals]
    exact congrArg (fun l => Except.ok (checkLonLat l))
      (directLocH_rows (fillLonLat r fillNan) solo (fun b z => ⟨b.1, b.2, z⟩) row col _)
  · simp [checkLonLat, hcol]
  · intro i x y hx hy
    have hi : i < row.length := (List.getElem?_eq_some_iff.1 hx).1
    refine ⟨checkRow ⟨((validPt x y a).elim (fillLonLat r fillNan) solo).1,
      ((validPt x y a).elim (fillLonLat r fillNan) solo).2, a⟩, ?_, ?_⟩
    · have hone : ∀ p : ImgPt K, ((iterPy r q 10 (List.filterMap id [some p])).1.map fun t => (t.2.lon, t.2.lat)) =
          [solo p] := fun p => hsolo1 p
      have hnil : (iterPy r q 10 ([] : List (ImgPt K))).1 = [] := by
        simp [iterPy, startPy, loopPy, batchContinues, maxOverEps]
      simp only [directLocH, broadcastAlt, List.length_cons, List.length_nil, if_true, hq, List.zip_cons_cons,
        List.zip_nil_right, List.map_cons, List.map_nil]
      rcases hm : validPt x y a with _ | p
      · simp only [List.filterMap_cons, List.filterMap_nil, id, scatter, List.zip_cons_cons, List.zip_nil_right,
          List.map_cons, List.map_nil, Option.elim, checkLonLat]
      · rw [hone p]
        simp only [scatter, List.zip_cons_cons, List.zip_nil_right,
          List.map_cons, List.map_nil, Option.elim, checkLonLat]
    · rw [checkLonLat_getElem?, List.getElem?_map, List.getElem?_zip_eq_some (z := (x, y, a)) |>.2]
      · rfl
      · exact ⟨hx, List.getElem?_zip_eq_some.2 ⟨hy, by simp [hi]⟩⟩

end Shareloc
