import Verif.Lemmas.Rpc
import Mathlib.Analysis.Calculus.Deriv.Pow
import Mathlib.Analysis.Calculus.Deriv.Mul
import Mathlib.Analysis.Calculus.Deriv.Inv
import Mathlib.Analysis.Calculus.Deriv.Comp
import Mathlib.Analysis.Calculus.Deriv.Add

/-!
# C19 - C22: the RPC polynomial, its derivatives, the inverse location and the Newton step
-/

set_option linter.unusedSectionVars false

namespace Shareloc
variable {K : Type*} [Field K] [LinearOrder K] [IsStrictOrderedRing K]

/-! ### C19 -/

/-- C19. The Python (numba) polynomial is the RPC00B cubic, for all coefficients and coordinates. -/
theorem C19_python_polynomial (c : Coef K) (x y z : K) : polyPy x y z c = rpcPoly c x y z := polyPy_eq c x y z

/-- C19. The C++ polynomial too. -/
theorem C19_cpp_polynomial (c : Coef K) (x y z : K) :
    polyCpp (preNorms x y z) c = rpcPoly c x y z := by rw [polyCpp_eq, polyPy_eq]

/-- C19. The twenty monomials of the table are distinct and are exactly the monomials of total degree at most
three. -/
theorem C19_monomials_complete :
    Function.Injective rpc00bOrder ∧
    ∀ a b c : ℕ, (∃ i, rpc00bOrder i = (a, b, c)) ↔ a + b + c ≤ 3 := by
  refine ⟨by decide +kernel, fun a b c => ⟨?_, ?_⟩⟩
  · rintro ⟨i, hi⟩
    have : ∀ i, (rpc00bOrder i).1 + (rpc00bOrder i).2.1 + (rpc00bOrder i).2.2 ≤ 3 := by decide +kernel
    simpa [hi] using this i
  · intro h
    have key : ∀ a b c : Fin 4, (a : ℕ) + b + c ≤ 3 → ∃ i, rpc00bOrder i = ((a : ℕ), (b : ℕ), (c : ℕ)) := by
      decide +kernel
    exact key ⟨a, by omega⟩ ⟨b, by omega⟩ ⟨c, by omega⟩ h

/-- C19. The table of monomials kept in the Python object lists the same monomials in the same order. -/
theorem C19_monomials_table (i : Fin 20) : monomesTable i = (1, rpc00bOrder i) := by
  revert i; decide +kernel

/-- C19. The coefficients are determined by the function: two coefficient vectors giving the same polynomial at
every point are equal (so that the order of the terms matters). -/
theorem C19_coefficients_identified (c d : Coef K) (h : ∀ x y z : K, rpcPoly c x y z = rpcPoly d x y z) :
    c = d := by
  have e : ∀ x y z : K, polyPy x y z c = polyPy x y z d := fun x y z => by rw [polyPy_eq, polyPy_eq, h]
  have h0 : c 0 = d 0 := by have := e 0 0 0; simpa [polyPy] using this
  have ha : ∀ x : K, c 1 * x + c 7 * x ^ 2 + c 11 * x ^ 3 = d 1 * x + d 7 * x ^ 2 + d 11 * x ^ 3 := fun x => by
    have := e x 0 0; simp only [polyPy] at this; linear_combination this - h0
  have hb : ∀ x : K, c 2 * x + c 8 * x ^ 2 + c 15 * x ^ 3 = d 2 * x + d 8 * x ^ 2 + d 15 * x ^ 3 := fun x => by
    have := e 0 x 0; simp only [polyPy] at this; linear_combination this - h0
  have hc : ∀ x : K, c 3 * x + c 9 * x ^ 2 + c 19 * x ^ 3 = d 3 * x + d 9 * x ^ 2 + d 19 * x ^ 3 := fun x => by
    have := e 0 0 x; simp only [polyPy] at this; linear_combination this - h0
  have hab : ∀ x y : K, c 4 * x * y + c 12 * x * y ^ 2 + c 14 * x ^ 2 * y =
      d 4 * x * y + d 12 * x * y ^ 2 + d 14 * x ^ 2 * y := fun x y => by
    have := e x y 0; simp only [polyPy] at this; linear_combination this - h0 - ha x - hb y
  have hac : ∀ x y : K, c 5 * x * y + c 13 * x * y ^ 2 + c 17 * x ^ 2 * y =
      d 5 * x * y + d 13 * x * y ^ 2 + d 17 * x ^ 2 * y := fun x y => by
    have := e x 0 y; simp only [polyPy] at this; linear_combination this - h0 - ha x - hc y
  have hbc : ∀ x y : K, c 6 * x * y + c 16 * x * y ^ 2 + c 18 * x ^ 2 * y =
      d 6 * x * y + d 16 * x * y ^ 2 + d 18 * x ^ 2 * y := fun x y => by
    have := e 0 x y; simp only [polyPy] at this; linear_combination this - h0 - hb x - hc y
  have h10 : c 10 = d 10 := by
    have := e 1 1 1; simp only [polyPy] at this
    linear_combination this - h0 - ha 1 - hb 1 - hc 1 - hab 1 1 - hac 1 1 - hbc 1 1
  have uni : ∀ p q s p' q' s' : K, (∀ x : K, p * x + q * x ^ 2 + s * x ^ 3 = p' * x + q' * x ^ 2 + s' * x ^ 3) →
      p = p' ∧ q = q' ∧ s = s' := by
    intro p q s p' q' s' h
    have h1 := h 1
    have h2 := h (-1)
    have h3 := h 2
    refine ⟨?_, ?_, ?_⟩ <;> linarith
  have biv : ∀ p q s p' q' s' : K, (∀ x y : K, p * x * y + q * x * y ^ 2 + s * x ^ 2 * y =
      p' * x * y + q' * x * y ^ 2 + s' * x ^ 2 * y) → p = p' ∧ q = q' ∧ s = s' := by
    intro p q s p' q' s' h
    have h1 := h 1 1
    have h2 := h 1 (-1)
    have h3 := h (-1) 1
    refine ⟨?_, ?_, ?_⟩ <;> linarith
  obtain ⟨h1, h7, h11⟩ := uni _ _ _ _ _ _ ha
  obtain ⟨h2, h8, h15⟩ := uni _ _ _ _ _ _ hb
  obtain ⟨h3, h9, h19⟩ := uni _ _ _ _ _ _ hc
  obtain ⟨h4, h12, h14⟩ := biv _ _ _ _ _ _ hab
  obtain ⟨h5, h13, h17⟩ := biv _ _ _ _ _ _ hac
  obtain ⟨h6, h16, h18⟩ := biv _ _ _ _ _ _ hbc
  funext i
  fin_cases i <;> assumption

/-- Two different coefficient vectors are really told apart. -/
example : rpcPoly (fun i => if i = 12 then 1 else 0) 2 3 5 ≠ rpcPoly (fun i => if i = 14 then (1 : ℚ) else 0) 2 3 5 := by
  rw [← polyPy_eq, ← polyPy_eq]; decide +kernel

/-! ### C20 -/

theorem hasDerivAt_cubic (a b c d x : ℝ) :
    HasDerivAt (fun t : ℝ => a + b * t + c * t ^ 2 + d * t ^ 3) (b + 2 * c * x + 3 * d * x ^ 2) x := by
  have h1 := (hasDerivAt_id' x).const_mul b
  have h2 := ((hasDerivAt_id' x).pow 2).const_mul c
  have h3 := ((hasDerivAt_id' x).pow 3).const_mul d
  have h := ((h1.const_add a).add h2).add h3
  refine h.congr_deriv ?_
  norm_num
  ring

/-- C20. The longitude derivative polynomial is the derivative of the RPC polynomial. -/
theorem C20_longitude_derivative (c : Coef ℝ) (x y z : ℝ) :
    HasDerivAt (fun t => rpcPoly c t y z) (dLonPy x y z c) x := by
  have h := hasDerivAt_cubic
    (c 0 + c 2 * y + c 3 * z + c 6 * y * z + c 8 * y ^ 2 + c 9 * z ^ 2 + c 15 * y ^ 3 + c 16 * y * z ^ 2
      + c 18 * y ^ 2 * z + c 19 * z ^ 3)
    (c 1 + c 4 * y + c 5 * z + c 10 * y * z + c 12 * y ^ 2 + c 13 * z ^ 2) (c 7 + c 14 * y + c 17 * z) (c 11) x
  convert h using 1
  · funext t
    rw [← polyPy_eq]
    simp only [polyPy]; ring
  · simp only [dLonPy]; ring

/-- C20. The latitude derivative polynomial is the derivative of the RPC polynomial. -/
theorem C20_latitude_derivative (c : Coef ℝ) (x y z : ℝ) :
    HasDerivAt (fun t => rpcPoly c x t z) (dLatPy x y z c) y := by
  have h := hasDerivAt_cubic
    (c 0 + c 1 * x + c 3 * z + c 5 * x * z + c 7 * x ^ 2 + c 9 * z ^ 2 + c 11 * x ^ 3 + c 13 * x * z ^ 2
      + c 17 * x ^ 2 * z + c 19 * z ^ 3)
    (c 2 + c 4 * x + c 6 * z + c 10 * x * z + c 14 * x ^ 2 + c 16 * z ^ 2) (c 8 + c 12 * x + c 18 * z) (c 15) y
  convert h using 1
  · funext t
    rw [← polyPy_eq]
    simp only [polyPy]; ring
  · simp only [dLatPy]; ring

/-- C20. The C++ derivative polynomials are the same functions. -/
theorem C20_cpp_derivatives (c : Coef K) (x y z : K) :
    dLonCpp x y z c = dLonPy x y z c ∧ dLatCpp x y z c = dLatPy x y z c :=
  ⟨dLonCpp_eq c x y z, dLatCpp_eq c x y z⟩

theorem hasDerivAt_quotient {N D : ℝ → ℝ} {N' D' : ℝ} (s o sc off l : ℝ)
    (hN : HasDerivAt N N' ((l - o) / s)) (hD : HasDerivAt D D' ((l - o) / s)) (h0 : D ((l - o) / s) ≠ 0) :
    HasDerivAt (fun t => N ((t - o) / s) / D ((t - o) / s) * sc + off)
      (sc / s * (N' * D ((l - o) / s) - D' * N ((l - o) / s)) / D ((l - o) / s) ^ 2) l := by
  have hl : HasDerivAt (fun t : ℝ => (t - o) / s) (1 / s) l :=
    ((hasDerivAt_id' l).sub_const o).div_const s
  have hNc : HasDerivAt (fun t => N ((t - o) / s)) (N' * (1 / s)) l := HasDerivAt.comp l hN hl
  have hDc : HasDerivAt (fun t => D ((t - o) / s)) (D' * (1 / s)) l := HasDerivAt.comp l hD hl
  have h := ((hNc.div hDc h0).mul_const sc).add_const off
  refine h.congr_deriv ?_
  ring

/-- C20. The four derivatives returned for the inverse model are the partial derivatives of the image
coordinates, scale factors included, wherever the denominators do not vanish. -/
theorem C20_inverse_derivatives (r : Rpc ℝ) (q : RatCoefs ℝ) (lon lat alt : ℝ)
    (hd : RatDefined r q lon lat alt) :
    HasDerivAt (fun t => imgCol r q t lat alt) (invDerivPy r q lon lat alt).1 lon ∧
    HasDerivAt (fun t => imgCol r q lon t alt) (invDerivPy r q lon lat alt).2.1 lat ∧
    HasDerivAt (fun t => imgRow r q t lat alt) (invDerivPy r q lon lat alt).2.2.1 lon ∧
    HasDerivAt (fun t => imgRow r q lon t alt) (invDerivPy r q lon lat alt).2.2.2 lat := by
  simp only [invDerivPy, polyPy_eq]
  refine ⟨?_, ?_, ?_, ?_⟩
  · exact hasDerivAt_quotient r.scX r.offX r.scCol r.offCol lon (C20_longitude_derivative q.numA _ _ _)
      (C20_longitude_derivative q.denA _ _ _) hd.1
  · exact hasDerivAt_quotient r.scY r.offY r.scCol r.offCol lat (C20_latitude_derivative q.numA _ _ _)
      (C20_latitude_derivative q.denA _ _ _) hd.1
  · exact hasDerivAt_quotient r.scX r.offX r.scRow r.offRow lon (C20_longitude_derivative q.numB _ _ _)
      (C20_longitude_derivative q.denB _ _ _) hd.2
  · exact hasDerivAt_quotient r.scY r.offY r.scRow r.offRow lat (C20_latitude_derivative q.numB _ _ _)
      (C20_latitude_derivative q.denB _ _ _) hd.2

/-- C20. The C++ derivatives are the same. -/
theorem C20_inverse_derivatives_cpp (r : Rpc K) (q : RatCoefs K) (lon lat alt : K) :
    invDerivCpp r q lon lat alt = invDerivPy r q lon lat alt := invDeriv_eq r q lon lat alt

/-- C20. The derivative tables kept in the Python object are the derivatives of the monomials: coefficient and
exponents of the derivative with respect to longitude and latitude. -/
theorem C20_derivative_tables (c : Coef ℝ) (x y z : ℝ) :
    dLonPy x y z c = ∑ i, c i * ((monomesDeriv1 i).1 * (x ^ (monomesDeriv1 i).2.1 * y ^ (monomesDeriv1 i).2.2.1 *
      z ^ (monomesDeriv1 i).2.2.2)) ∧
    dLatPy x y z c = ∑ i, c i * ((monomesDeriv2 i).1 * (x ^ (monomesDeriv2 i).2.1 * y ^ (monomesDeriv2 i).2.2.1 *
      z ^ (monomesDeriv2 i).2.2.2)) := by
  constructor
  · simp only [Fin.sum_univ_succ, Fin.sum_univ_zero, monomesDeriv1, dLonPy]
    simp [Fin.succ]
    ring
  · simp only [Fin.sum_univ_succ, Fin.sum_univ_zero, monomesDeriv2, dLatPy]
    simp [Fin.succ]
    ring

/-! ### An example model -/

/-- Coefficients with altitude dependence: column `lon + alt`, row `lat + alt / 2` in normalised coordinates. -/
def demoCoefs : RatCoefs ℚ where
  numA := fun i => if i = 1 then 1 else if i = 3 then 1 else 0
  denA := fun i => if i = 0 then 1 else 0
  numB := fun i => if i = 2 then 1 else if i = 3 then 1 / 2 else 0
  denB := fun i => if i = 0 then 1 else 0

/-- The same with curvature and nontrivial denominators. -/
def curvedCoefs : RatCoefs ℚ where
  numA := fun i => if i = 1 then 1 else if i = 3 then 1 else if i = 7 then 1 / 8 else 0
  denA := fun i => if i = 0 then 1 else if i = 2 then 1 / 4 else 0
  numB := fun i => if i = 2 then 1 else if i = 3 then 1 / 2 else if i = 12 then 1 / 8 else 0
  denB := fun i => if i = 0 then 1 else if i = 1 then 1 / 5 else 0

/-- The demonstration model. -/
def demoRpc : Rpc ℚ where
  inverse := some demoCoefs
  direct := none
  offX := 10
  scX := 1
  offY := 20
  scY := 1
  offAlt := 100
  scAlt := 100
  offCol := 500
  scCol := 500
  offRow := 300
  scRow := 300

example : RatDefined demoRpc curvedCoefs (21 / 2) (81 / 4) 150 := by
  simp only [RatDefined, ← polyPy_eq]; decide +kernel

/-! ### C21 -/

/-- C21. For every batch, `inverse_loc` returns one row per point; the row of a valid point where the rational
functions are defined is (row, col, alt) given by the normalised quotients, whatever the other points are; the row
of a point with a NaN or out of the longitude/latitude range is NaN. -/
theorem C21_inverse_loc (r : Rpc K) (q : RatCoefs K) (hq : r.inverse = some q) (lon lat alt : List (Option K))
    (hlat : lat.length = lon.length) (halt : alt.length = lon.length) :
    ∃ out, inverseLocPy r lon lat alt = .ok (.rows out) ∧ out.length = lon.length ∧
      ∀ (i : ℕ) (x y z : Option K), lon[i]? = some x → lat[i]? = some y → alt[i]? = some z →
        (∀ a b c, x = some a → y = some b → z = some c → ValidLonLat a b → RatDefined r q a b c →
          out[i]? = some ⟨some (imgRow r q a b c), some (imgCol r q a b c), some c⟩) ∧
        ((x = none ∨ y = none ∨ z = none ∨ ∃ a b, x = some a ∧ y = some b ∧ ¬ ValidLonLat a b) →
          out[i]? = some nanRow) := by
  refine ⟨(((lon.zip (lat.zip alt)).map fun t => (⟨t.1, t.2.1, t.2.2⟩ : ORow K)).map (invPointPy r q)), ?_, ?_, ?_⟩
  · simp only [inverseLocPy, hq, broadcastAlt_eq halt, stack3_ok hlat halt]
  · simp [hlat, halt]
  · intro i x y z hx hy hz
    have hrow : ((List.map (invPointPy r q) (List.map (fun t => (⟨t.1, t.2.1, t.2.2⟩ : ORow K))
        (lon.zip (lat.zip alt))))[i]?) = some (invPointPy r q ⟨x, y, z⟩) := by
      rw [List.getElem?_map, List.getElem?_map, List.getElem?_zip_eq_some (z := (x, y, z)) |>.2]
      · rfl
      · exact ⟨hx, List.getElem?_zip_eq_some.2 ⟨hy, hz⟩⟩
    rw [hrow]
    refine ⟨?_, ?_⟩
    · rintro a b c rfl rfl rfl hv hd
      rw [invPointPy_valid r q hv hd]
    · intro h
      rw [invPointPy_masked]
      rcases h with h | h | h | ⟨a, b, rfl, rfl, h⟩
      · exact checkRow_nan (Or.inl h)
      · exact checkRow_nan (Or.inr (Or.inl h))
      · exact checkRow_nan (Or.inr (Or.inr h))
      · cases z with
        | none => exact checkRow_nan (Or.inr (Or.inr rfl))
        | some c => exact checkRow_invalid h

theorem invPointCppThrow_ok (r : Rpc K) (q : RatCoefs K) (p : ORow K)
    (h : ∀ a b c, p = ⟨some a, some b, some c⟩ → ValidLonLat a b → RatDefined r q a b c) :
    invPointCppThrow r q (checkRow p) = .ok (invPointPy r q p) := by
  rw [← invPointCpp_check]
  rcases p with ⟨_ | x, _ | y, _ | z⟩ <;> try rfl
  by_cases hv : ValidLonLat x y
  · rw [checkRow_valid hv]
    have hd := h x y z rfl hv
    simp only [invPointCppThrow, polyCpp_eq, polyPy_eq]
    rw [if_pos ⟨hd.1, hd.2⟩]
  · rw [checkRow_invalid hv]; rfl

theorem invPointCppThrow_error (r : Rpc K) (q : RatCoefs K) (x y z : K)
    (hv : ValidLonLat x y) (hd : ¬ RatDefined r q x y z) :
    invPointCppThrow r q (checkRow ⟨some x, some y, some z⟩) = .error .zeroDivision := by
  rw [checkRow_valid hv]
  simp only [invPointCppThrow, polyCpp_eq, polyPy_eq]
  rw [if_neg]
  exact fun h => hd ⟨h.1, h.2⟩

/-- C21. Python and C++ (`RPCoptim.inverse_loc`) return the same rows when no denominator vanishes. -/
theorem C21_python_cpp_agree (r : Rpc K) (q : RatCoefs K) (hq : r.inverse = some q)
    (lon lat alt : List (Option K)) (hlat : lat.length = lon.length) (halt : alt.length = lon.length)
    (hdef : ∀ (i : ℕ) (a b c : K), lon[i]? = some (some a) → lat[i]? = some (some b) → alt[i]? = some (some c) →
      ValidLonLat a b → RatDefined r q a b c) :
    ∃ out, inverseLocPy r lon lat alt = .ok (.rows out) ∧ inverseLocOptim r q lon lat alt = .ok out := by
  refine ⟨(((lon.zip (lat.zip alt)).map fun t => (⟨t.1, t.2.1, t.2.2⟩ : ORow K)).map (invPointPy r q)), ?_, ?_⟩
  · simp only [inverseLocPy, hq, broadcastAlt_eq halt, stack3_ok hlat halt]
  · simp only [inverseLocOptim, stack3_ok hlat halt, checkLonLat]
    rw [mapExcept_ok _ (invPointCpp r q)]
    · simp only [List.map_map]
      congr 1
      apply List.map_congr_left
      intro t _
      exact invPointCpp_check r q _
    · intro p hp
      simp only [List.map_map, List.mem_map, Function.comp] at hp
      obtain ⟨t, ht, rfl⟩ := hp
      rw [invPointCpp_check, invPointCppThrow_ok]
      intro a b c h hv
      obtain ⟨i, hi⟩ := List.mem_iff_getElem?.1 ht
      obtain ⟨h1, h2⟩ := List.getElem?_zip_eq_some.1 hi
      obtain ⟨h2, h3⟩ := List.getElem?_zip_eq_some.1 h2
      rcases t with ⟨x, y, z⟩
      cases h
      exact hdef i a b c h1 h2 h3 hv

/-- C21. A valid point with a vanishing denominator makes the C++ version raise for the whole batch. -/
theorem C21_cpp_raises (r : Rpc K) (q : RatCoefs K) (lon lat alt : List (Option K))
    (hlat : lat.length = lon.length) (halt : alt.length = lon.length) (i : ℕ) (a b c : K)
    (ha : lon[i]? = some (some a)) (hb : lat[i]? = some (some b)) (hc : alt[i]? = some (some c))
    (hv : ValidLonLat a b) (hd : ¬ RatDefined r q a b c) :
    inverseLocOptim r q lon lat alt = .error .zeroDivision := by
  simp only [inverseLocOptim, stack3_ok hlat halt, checkLonLat]
  apply mapExcept_error
  · intro p hp
    simp only [List.map_map, List.mem_map, Function.comp] at hp
    obtain ⟨⟨x, y, z⟩, _, rfl⟩ := hp
    by_cases h : ∀ a b c, (⟨x, y, z⟩ : ORow K) = ⟨some a, some b, some c⟩ → ValidLonLat a b → RatDefined r q a b c
    · exact Or.inl ⟨_, invPointCppThrow_ok r q _ h⟩
    · push Not at h
      obtain ⟨a, b, c, h, hv, hd⟩ := h
      cases h
      exact Or.inr (invPointCppThrow_error r q a b c hv hd)
  · refine ⟨checkRow ⟨some a, some b, some c⟩, ?_, invPointCppThrow_error r q a b c hv hd⟩
    simp only [List.map_map, List.mem_map, Function.comp]
    refine ⟨(some a, some b, some c), ?_, rfl⟩
    exact List.mem_iff_getElem?.2 ⟨i, List.getElem?_zip_eq_some.2 ⟨ha, List.getElem?_zip_eq_some.2 ⟨hb, hc⟩⟩⟩

/-- The batch theorem on a batch mixing a valid point, a NaN and an out of range longitude. -/
example : (match inverseLocPy demoRpc [some (21 / 2), none, some 200] [some (81 / 4), some 1, some 1]
      [some 150, some 0, some 0] with
    | .ok (.rows l) => l
    | _ => []) = [⟨some 450, some 1000, some 150⟩, nanRow, nanRow] := by
  decide +kernel

/-! ### C22 -/

/-- C22. The update solves the linear system of the derivatives and the residual. -/
theorem C22_newton_update (a b c d lon lat dcol drow : K) (hdet : a * d - c * b ≠ 0) :
    ∃ lon' lat', newtonMove (a, b, c, d) lon lat dcol drow = some (lon', lat') ∧
      a * (lon' - lon) + b * (lat' - lat) = dcol ∧ c * (lon' - lon) + d * (lat' - lat) = drow ∧
      ∀ u v, a * u + b * v = dcol → c * u + d * v = drow → u = lon' - lon ∧ v = lat' - lat := by
  refine ⟨_, _, by simp only [newtonMove]; rw [if_neg hdet], ?_, ?_, ?_⟩
  · simp only [add_sub_cancel_left]
    rw [← mul_div_assoc, ← mul_div_assoc, ← add_div, div_eq_iff hdet]; ring
  · simp only [add_sub_cancel_left]
    rw [← mul_div_assoc, ← mul_div_assoc, ← add_div, div_eq_iff hdet]; ring
  · rintro u v rfl rfl
    simp only [add_sub_cancel_left]
    constructor
    · rw [eq_div_iff hdet]; ring
    · rw [eq_div_iff hdet]; ring

/-- C22. Where the Jacobian is singular no finite update exists (the quotient is not finite). -/
theorem C22_singular (a b c d lon lat dcol drow : K) (hdet : a * d - c * b = 0) :
    newtonMove (a, b, c, d) lon lat dcol drow = none := by
  simp only [newtonMove]; rw [if_pos hdet]

/-- C22. One step of the iteration from a finite state: new estimate by the Newton system of the derivatives at the
current estimate, new residual measured at the new estimate with the point's own altitude. -/
theorem C22_step (r : Rpc K) (q : RatCoefs K) (p : ImgPt K) (lon lat alt dcol drow : K) (halt : p.alt = some alt)
    (hd : RatDefined r q lon lat alt)
    (hdet : (invDerivPy r q lon lat alt).1 * (invDerivPy r q lon lat alt).2.2.2 -
      (invDerivPy r q lon lat alt).2.2.1 * (invDerivPy r q lon lat alt).2.1 ≠ 0) :
    ∃ lon' lat',
      (invDerivPy r q lon lat alt).1 * (lon' - lon) + (invDerivPy r q lon lat alt).2.1 * (lat' - lat) = dcol ∧
      (invDerivPy r q lon lat alt).2.2.1 * (lon' - lon) + (invDerivPy r q lon lat alt).2.2.2 * (lat' - lat) = drow ∧
      (∀ inv, newtonStep inv (derivOptPy r q) p ⟨some lon, some lat, some dcol, some drow⟩ =
        ⟨some lon', some lat', osub p.col (inv ⟨some lon', some lat', some alt⟩).y,
          osub p.row (inv ⟨some lon', some lat', some alt⟩).x⟩) ∧
      (RatDefined r q lon' lat' alt →
        newtonStep (invPointCpp r q) (derivOptCpp r q) p ⟨some lon, some lat, some dcol, some drow⟩ =
          ⟨some lon', some lat', some (p.col - imgCol r q lon' lat' alt), some (p.row - imgRow r q lon' lat' alt)⟩) ∧
      (RatDefined r q lon' lat' alt → ValidLonLat lon' lat' →
        newtonStep (invPointPy r q) (derivOptPy r q) p ⟨some lon, some lat, some dcol, some drow⟩ =
          ⟨some lon', some lat', some (p.col - imgCol r q lon' lat' alt), some (p.row - imgRow r q lon' lat' alt)⟩) := by
  obtain ⟨lon', lat', hm, h1, h2, _⟩ := C22_newton_update (invDerivPy r q lon lat alt).1
    (invDerivPy r q lon lat alt).2.1 (invDerivPy r q lon lat alt).2.2.1 (invDerivPy r q lon lat alt).2.2.2
    lon lat dcol drow hdet
  have hdo : derivOptPy r q lon lat alt = some (invDerivPy r q lon lat alt) := by
    simp only [derivOptPy, (denominatorsOk_iff r q lon lat alt).2 hd, if_true]
  have hstep : ∀ inv, newtonStep inv (derivOptPy r q) p ⟨some lon, some lat, some dcol, some drow⟩ =
        ⟨some lon', some lat', osub p.col (inv ⟨some lon', some lat', some alt⟩).y,
          osub p.row (inv ⟨some lon', some lat', some alt⟩).x⟩ := by
    intro inv
    simp only [newtonStep, halt, Option.bind_eq_bind, Option.bind_some, hdo]
    have hm' : newtonMove (invDerivPy r q lon lat alt) lon lat dcol drow = some (lon', lat') := hm
    rw [hm']
    rfl
  refine ⟨lon', lat', h1, h2, hstep, ?_, ?_⟩
  · intro hd'
    have hc : derivOptCpp r q = derivOptPy r q := by funext a b c; exact derivOpt_eq r q a b c
    rw [hc, hstep, invPointCpp_defined r q hd']
    rfl
  · intro hd' hv'
    rw [hstep, invPointPy_valid r q hv' hd']
    rfl

end Shareloc
