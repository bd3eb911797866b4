import Verif.Props.RpcIter

set_option linter.unusedSectionVars false
/-! C23 for Python batches at any altitudes: exactly which points are not certified. -/

namespace Shareloc
variable {K : Type*} [Field K] [LinearOrder K] [IsStrictOrderedRing K] [FloorRing K]

/-- A finite residual below the threshold, measured at the altitude `a`, certifies the estimate at this altitude. -/
theorem small_residual_certifies (r : Rpc K) (q : RatCoefs K) (p : ImgPt K) (s : Newton K) (a : Option K)
    (hres : s.dcol = osub p.col (invPointPy r q ⟨s.lon, s.lat, a⟩).y ∧ s.drow = osub p.row (invPointPy r q ⟨s.lon, s.lat, a⟩).x)
    (hfc : s.dcol.isSome = true) (hnc : overEps s.dcol = false) (hnr : overEps s.drow = false) :
    ∃ lon lat alt, s.lon = some lon ∧ s.lat = some lat ∧ a = some alt ∧ ValidLonLat lon lat ∧
      (RatDefined r q lon lat alt →
        |p.col - imgCol r q lon lat alt| ≤ 1 / 1000000 ∧ |p.row - imgRow r q lon lat alt| ≤ 1 / 1000000) := by
  obtain ⟨hc, hr⟩ := hres
  have hmask : checkRow (⟨s.lon, s.lat, a⟩ : ORow K) ≠ nanRow := by
    intro h
    rw [hc, invPointPy_masked r q h] at hfc
    simp [nanRow, osub] at hfc
  rcases hlon : s.lon with _ | lon
  · exact absurd (checkRow_nan (Or.inl hlon)) hmask
  rcases hlat : s.lat with _ | lat
  · exact absurd (checkRow_nan (Or.inr (Or.inl hlat))) hmask
  rcases a with _ | alt
  · exact absurd (checkRow_nan (Or.inr (Or.inr rfl))) hmask
  rw [hlon, hlat] at hmask hc hr
  have hv : ValidLonLat lon lat := by
    by_contra h
    exact hmask (checkRow_invalid h)
  refine ⟨lon, lat, alt, rfl, rfl, rfl, hv, fun hd => ?_⟩
  rw [invPointPy_valid r q hv hd] at hc hr
  simp only [osub, Option.map_some] at hc hr
  rw [hc] at hnc
  rw [hr] at hnr
  simp only [overEps, decide_eq_false_iff_not, not_lt, newtonEps, gt_iff_lt] at hnc hnr
  exact ⟨hnc, hnr⟩

/-- C23, Python, batches at any altitudes.  When the iteration stops before its limit and no residual is NaN, every point is
certified at its own altitude, but those which were never moved: the point returned is then the centre of the scene, its altitude
is not the first one of the batch and the pixel is within 1e-6 of the image of the centre at the *first* altitude.
Missing for the full claim: these points (`C23_python_counterexample`) and batches with a NaN residual
(`C24_python_nan_counterexample`). -/
theorem C23_python_any_altitudes_partial (r : Rpc K) (q : RatCoefs K) (nmax : ℕ) (p0 : ImgPt K) (ps : List (ImgPt K))
    (hstop : (iterPy r q nmax (p0 :: ps)).2 < nmax)
    (hfin : ∀ t ∈ (iterPy r q nmax (p0 :: ps)).1, t.2.dcol.isSome = true ∧ t.2.drow.isSome = true) :
    ∀ t ∈ (iterPy r q nmax (p0 :: ps)).1, ∃ lon lat, t.2.lon = some lon ∧ t.2.lat = some lat ∧ ValidLonLat lon lat ∧
      ((∃ alt, t.1.alt = some alt ∧ (RatDefined r q lon lat alt →
          |t.1.col - imgCol r q lon lat alt| ≤ 1 / 1000000 ∧ |t.1.row - imgRow r q lon lat alt| ≤ 1 / 1000000)) ∨
       (lon = r.offX ∧ lat = r.offY ∧ t.1.alt ≠ p0.alt ∧ ∃ alt0, p0.alt = some alt0 ∧ (RatDefined r q lon lat alt0 →
          |t.1.col - imgCol r q lon lat alt0| ≤ 1 / 1000000 ∧ |t.1.row - imgRow r q lon lat alt0| ≤ 1 / 1000000))) := by
  have main : ∀ n l, (∀ t ∈ l, ResidualOf (invPointPy r q) (t : ImgPt K × Newton K).1 t.2 ∨ t ∈ startPy r q (p0 :: ps)) →
      (∀ t ∈ (loopPy r q n l).1, ResidualOf (invPointPy r q) t.1 t.2 ∨ t ∈ startPy r q (p0 :: ps)) ∧
      ((loopPy r q n l).2 < n → batchContinues (loopPy r q n l).1 = false) := by
    intro n
    induction n with
    | zero => intro l hl; exact ⟨hl, fun h => absurd h (by simp)⟩
    | succ n ih =>
      intro l hl
      simp only [loopPy]
      split
      · obtain ⟨h1, h2⟩ := ih (l.map fun t => (t.1, stepPy r q t.1 t.2)) (by
          intro t ht
          obtain ⟨u, hu, rfl⟩ := List.mem_map.1 ht
          simp only [stepPy]
          split
          · exact .inl (residualOf_step _ _ _ _)
          · exact hl u hu)
        exact ⟨h1, fun h => h2 (by simpa using h)⟩
      · rename_i h
        exact ⟨hl, fun _ => by simpa using h⟩
  obtain ⟨h1, h2⟩ := main nmax (startPy r q (p0 :: ps)) (fun t ht => .inr ht)
  have h2 := h2 hstop
  change ∀ t ∈ (iterPy r q nmax (p0 :: ps)).1, _ at h1
  change batchContinues (iterPy r q nmax (p0 :: ps)).1 = false at h2
  have hno : ∀ t ∈ (iterPy r q nmax (p0 :: ps)).1, overEps t.2.dcol = false ∧ overEps t.2.drow = false := by
    simp only [batchContinues, maxOverEps, Bool.or_eq_false_iff, Bool.and_eq_false_iff] at h2
    have hs1 : ((iterPy r q nmax (p0 :: ps)).1.map fun t => t.2.dcol).all Option.isSome = true := by
      rw [List.all_eq_true]; intro d hd
      obtain ⟨t, ht, rfl⟩ := List.mem_map.1 hd
      exact (hfin t ht).1
    have hs2 : ((iterPy r q nmax (p0 :: ps)).1.map fun t => t.2.drow).all Option.isSome = true := by
      rw [List.all_eq_true]; intro d hd
      obtain ⟨t, ht, rfl⟩ := List.mem_map.1 hd
      exact (hfin t ht).2
    rw [hs1, hs2] at h2
    simp only [Bool.true_eq_false, false_or] at h2
    intro t ht
    constructor
    · have := h2.1
      rw [List.any_eq_false] at this
      simpa using this _ (List.mem_map.2 ⟨t, ht, rfl⟩)
    · have := h2.2
      rw [List.any_eq_false] at this
      simpa using this _ (List.mem_map.2 ⟨t, ht, rfl⟩)
  intro t ht
  obtain ⟨hfc, -⟩ := hfin t ht
  obtain ⟨hnc, hnr⟩ := hno t ht
  have own : ResidualOf (invPointPy r q) t.1 t.2 → ∃ lon lat, t.2.lon = some lon ∧ t.2.lat = some lat ∧ ValidLonLat lon lat ∧
      ((∃ alt, t.1.alt = some alt ∧ (RatDefined r q lon lat alt →
          |t.1.col - imgCol r q lon lat alt| ≤ 1 / 1000000 ∧ |t.1.row - imgRow r q lon lat alt| ≤ 1 / 1000000)) ∨
       (lon = r.offX ∧ lat = r.offY ∧ t.1.alt ≠ p0.alt ∧ ∃ alt0, p0.alt = some alt0 ∧ (RatDefined r q lon lat alt0 →
          |t.1.col - imgCol r q lon lat alt0| ≤ 1 / 1000000 ∧ |t.1.row - imgRow r q lon lat alt0| ≤ 1 / 1000000))) := by
    intro hres
    obtain ⟨lon, lat, alt, e1, e2, e3, hv, hd⟩ := small_residual_certifies r q t.1 t.2 t.1.alt hres hfc hnc hnr
    exact ⟨lon, lat, e1, e2, hv, .inl ⟨alt, e3, hd⟩⟩
  rcases h1 t ht with hres | hst
  · exact own hres
  · simp only [startPy, List.mem_map] at hst
    obtain ⟨p, hp, rfl⟩ := hst
    by_cases halt : p.alt = p0.alt
    · refine own ?_
      rw [← halt]
      exact ⟨rfl, rfl⟩
    · obtain ⟨lon, lat, alt, e1, e2, e3, hv, hd⟩ := small_residual_certifies r q p _ p0.alt ⟨rfl, rfl⟩ hfc hnc hnr
      simp only [Option.some.injEq] at e1 e2
      refine ⟨lon, lat, by rw [e1], by rw [e2], hv, .inr ⟨e1.symm, e2.symm, halt, alt, e3, hd⟩⟩

/-- The hypotheses are met by a batch at three altitudes, in which the second alternative occurs for the second point. -/
example : (iterPy demoRpc demoCoefs 10 [⟨300, 500, some 100⟩, ⟨300, 500, some 200⟩, ⟨310, 480, some 50⟩]).2 < 10 ∧
    ((iterPy demoRpc demoCoefs 10 [⟨300, 500, some 100⟩, ⟨300, 500, some 200⟩, ⟨310, 480, some 50⟩]).1.all
      fun t => t.2.dcol.isSome && t.2.drow.isSome) = true ∧
    ((iterPy demoRpc demoCoefs 10 [⟨300, 500, some 100⟩, ⟨300, 500, some 200⟩, ⟨310, 480, some 50⟩]).1.map
      fun t => decide (t.2.lon = some 10)) = [true, true, false] := by
  decide +kernel

end Shareloc
