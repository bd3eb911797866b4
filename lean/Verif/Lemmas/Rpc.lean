import Verif.Prelude
import Verif.Spec.Rpc00b

/-! Lemmas on the RPC model. -/

set_option linter.unusedSectionVars false

namespace Shareloc
variable {K : Type*} [Field K] [LinearOrder K] [IsStrictOrderedRing K]

theorem polyPy_eq (c : Coef K) (x y z : K) : polyPy x y z c = rpcPoly c x y z := by
  simp only [rpcPoly, Fin.sum_univ_succ, Fin.sum_univ_zero, rpc00bOrder, polyPy]
  simp [Fin.succ]
  ring

theorem polyCpp_eq (c : Coef K) (x y z : K) : polyCpp (preNorms x y z) c = polyPy x y z c := by
  simp only [polyCpp, preNorms, polyPy]
  simp
  ring

theorem dLonCpp_eq (c : Coef K) (x y z : K) : dLonCpp x y z c = dLonPy x y z c := by
  simp only [dLonCpp, dLonPy]; ring

theorem dLatCpp_eq (c : Coef K) (x y z : K) : dLatCpp x y z c = dLatPy x y z c := by
  simp only [dLatCpp, dLatPy]; ring

theorem ratPoint_eq (q : RatCoefs K) (x y z a b c d : K) :
    ratPointCpp q x y z a b c d = ratPointPy q x y z a b c d := by
  simp only [ratPointCpp, ratPointPy, polyCpp_eq]

theorem invDeriv_eq (r : Rpc K) (q : RatCoefs K) (lon lat alt : K) :
    invDerivCpp r q lon lat alt = invDerivPy r q lon lat alt := by
  simp only [invDerivCpp, invDerivPy, polyCpp_eq, dLonCpp_eq, dLatCpp_eq, pow_two]

theorem derivOpt_eq (r : Rpc K) (q : RatCoefs K) (lon lat alt : K) :
    derivOptCpp r q lon lat alt = derivOptPy r q lon lat alt := by
  simp only [derivOptCpp, derivOptPy, invDeriv_eq]

theorem denominatorsOk_iff (r : Rpc K) (q : RatCoefs K) (lon lat alt : K) :
    denominatorsOk r q lon lat alt = true ↔ RatDefined r q lon lat alt := by
  simp [denominatorsOk, RatDefined, polyPy_eq]

theorem checkRow_valid {x y z : K} (h : ValidLonLat x y) :
    checkRow ⟨some x, some y, some z⟩ = ⟨some x, some y, some z⟩ := by
  have : ¬ (|x| > 180 ∨ |y| > 90) := by
    rintro (h' | h')
    · exact absurd h.1 (not_le.2 h')
    · exact absurd h.2 (not_le.2 h')
  simp only [checkRow, if_neg this]

theorem checkRow_invalid {x y z : K} (h : ¬ ValidLonLat x y) :
    checkRow ⟨some x, some y, some z⟩ = nanRow := by
  have : (|x| > 180 ∨ |y| > 90) := by
    by_contra h'
    push Not at h'
    exact h h'
  simp only [checkRow, if_pos this]

theorem checkRow_nan {p : ORow K} (h : p.x = none ∨ p.y = none ∨ p.z = none) : checkRow p = nanRow := by
  rcases p with ⟨_ | x, _ | y, _ | z⟩ <;> first | rfl | simp at h

theorem invPointPy_valid (r : Rpc K) (q : RatCoefs K) {x y z : K} (h : ValidLonLat x y)
    (hd : RatDefined r q x y z) :
    invPointPy r q ⟨some x, some y, some z⟩ = ⟨some (imgRow r q x y z), some (imgCol r q x y z), some z⟩ := by
  simp only [invPointPy, checkRow_valid h, ratPointPy, ratOut, fdiv, polyPy_eq]
  rw [if_neg hd.1, if_neg hd.2]
  rfl

theorem invPointPy_masked (r : Rpc K) (q : RatCoefs K) {p : ORow K} (h : checkRow p = nanRow) :
    invPointPy r q p = nanRow := by
  simp only [invPointPy, h, nanRow]

theorem invPointCpp_defined (r : Rpc K) (q : RatCoefs K) {x y z : K} (hd : RatDefined r q x y z) :
    invPointCpp r q ⟨some x, some y, some z⟩ = ⟨some (imgRow r q x y z), some (imgCol r q x y z), some z⟩ := by
  simp only [invPointCpp, ratPointCpp, ratOut, fdiv, polyCpp_eq, polyPy_eq]
  rw [if_neg hd.1, if_neg hd.2]
  rfl

/-- The C++ point after the check is the Python point. -/
theorem invPointCpp_check (r : Rpc K) (q : RatCoefs K) (p : ORow K) :
    invPointCpp r q (checkRow p) = invPointPy r q p := by
  have key : ∀ c : ORow K, invPointCpp r q c =
      (match c with
        | ⟨some lon, some lat, some alt⟩ =>
          let cr := ratPointPy q ((lon - r.offX) / r.scX) ((lat - r.offY) / r.scY) ((alt - r.offAlt) / r.scAlt)
            r.scCol r.offCol r.scRow r.offRow
          (⟨cr.2, cr.1, some alt⟩ : ORow K)
        | ⟨some _, some _, none⟩ => nanRow
        | ⟨_, _, a⟩ => ⟨none, none, a⟩) := by
    rintro ⟨_ | a, _ | b, _ | c⟩ <;> simp only [invPointCpp, ratPoint_eq]
  rw [key]
  rcases p with ⟨_ | x, _ | y, _ | z⟩ <;> try rfl
  by_cases hv : ValidLonLat x y
  · simp only [invPointPy, checkRow_valid hv]
  · simp only [invPointPy, checkRow_invalid hv, nanRow]

theorem checkRow_idem (p : ORow K) : checkRow (checkRow p) = checkRow p := by
  rcases p with ⟨_ | x, _ | y, _ | z⟩ <;> try rfl
  by_cases hv : ValidLonLat x y
  · rw [checkRow_valid hv, checkRow_valid hv]
  · rw [checkRow_invalid hv]; rfl

theorem mapExcept_ok {α β : Type*} (f : α → Except RpcError β) (g : α → β) (l : List α)
    (h : ∀ a ∈ l, f a = .ok (g a)) : mapExcept f l = .ok (l.map g) := by
  induction l with
  | nil => rfl
  | cons a as ih =>
    have ha := h a (by simp)
    have has := ih fun b hb => h b (by simp [hb])
    simp only [mapExcept, ha, has, List.map_cons]

theorem mapExcept_error {α β : Type*} (f : α → Except RpcError β) (e : RpcError) (l : List α)
    (hall : ∀ a ∈ l, (∃ b, f a = .ok b) ∨ f a = .error e) (h : ∃ a ∈ l, f a = .error e) :
    mapExcept f l = .error e := by
  induction l with
  | nil => obtain ⟨a, ha, _⟩ := h; simp at ha
  | cons a as ih =>
    rcases hall a (by simp) with ⟨b, hb⟩ | hb
    · have : ∃ a ∈ as, f a = .error e := by
        obtain ⟨c, hc, hce⟩ := h
        rcases List.mem_cons.1 hc with rfl | hc
        · rw [hb] at hce; cases hce
        · exact ⟨c, hc, hce⟩
      have := ih (fun c hc => hall c (by simp [hc])) this
      simp only [mapExcept, hb, this]
    · simp only [mapExcept, hb]

theorem stack3_ok {a b c : List (Option K)} (hb : b.length = a.length) (hc : c.length = a.length) :
    stack3 a b c = .ok ((a.zip (b.zip c)).map fun t => ⟨t.1, t.2.1, t.2.2⟩) := by
  simp [stack3, hb, hc]

theorem nanAltitude_same (row col alt : List (Option K)) : (row.zip (col.zip (alt.zip alt))).map nanAltitude = row.zip (col.zip alt) := by
  induction row generalizing col alt with
  | nil => rfl
  | cons x row ih =>
    cases col with
    | nil => rfl
    | cons y col =>
      cases alt with
      | nil => rfl
      | cons z alt =>
        simp only [List.zip_cons_cons, List.map_cons, ih, nanAltitude, ite_self]

theorem broadcastAlt_eq {n : ℕ} {alt : List (Option K)} (h : alt.length = n) :
    broadcastAlt n alt = .ok alt := by simp [broadcastAlt, h]

/-! ### Scatter -/

theorem scatter_filterMap {α β : Type*} (fill : β) (f : α → β) (mask : List (Option α)) :
    scatter fill mask ((mask.filterMap id).map f) = mask.map fun m => m.elim fill f := by
  induction mask with
  | nil => rfl
  | cons m ms ih =>
    cases m with
    | none => exact congrArg (fill :: ·) ih
    | some a => exact congrArg (f a :: ·) ih

end Shareloc
