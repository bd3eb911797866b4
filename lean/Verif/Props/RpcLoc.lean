import Verif.Props.RpcIter

/-!
# C25 - C28: masking of invalid points, line of sight extrema, choice of the coefficients, altitude arguments
-/

set_option linter.unusedSectionVars false

namespace Shareloc
variable {K : Type*} [Field K] [LinearOrder K] [IsStrictOrderedRing K]

/-! ### C25 -/

/-- C25. The check keeps the number of rows, leaves unchanged exactly the rows with three numbers and a longitude and
latitude in range, and makes the others NaN. -/
theorem C25_check_rows (l : List (ORow K)) :
    (checkLonLat l).length = l.length ∧
    ∀ (i : ℕ) (p : ORow K), l[i]? = some p →
      ((∃ x y z, p = ⟨some x, some y, some z⟩ ∧ |x| ≤ 180 ∧ |y| ≤ 90) → (checkLonLat l)[i]? = some p) ∧
      ((¬ ∃ x y z, p = ⟨some x, some y, some z⟩ ∧ |x| ≤ 180 ∧ |y| ≤ 90) →
        (checkLonLat l)[i]? = some ⟨none, none, none⟩) := by
  refine ⟨by simp [checkLonLat], fun i p hp => ⟨?_, ?_⟩⟩
  · rintro ⟨x, y, z, rfl, hx, hy⟩
    rw [checkLonLat_getElem?, hp, Option.map_some, checkRow_valid ⟨hx, hy⟩]
  · intro h
    rw [checkLonLat_getElem?, hp, Option.map_some]
    rcases p with ⟨_ | x, _ | y, _ | z⟩ <;> try rfl
    rw [checkRow_invalid]
    · rfl
    · exact fun hv => h ⟨x, y, z, rfl, hv.1, hv.2⟩

/-- C25. Checking twice is checking once. -/
theorem C25_check_idempotent (l : List (ORow K)) : checkLonLat (checkLonLat l) = checkLonLat l := by
  simp only [checkLonLat, List.map_map]
  exact List.map_congr_left fun p _ => checkRow_idem p

example : checkLonLat [⟨some (-180), some 90, some 7⟩, ⟨some (181 : ℚ), some 0, some 7⟩, ⟨some 1, none, some 7⟩] =
    [⟨some (-180), some 90, some 7⟩, nanRow, nanRow] := by decide +kernel

theorem scatter_length {α β : Type*} (fill : β) (mask : List (Option α)) (vals : List β) :
    (scatter fill mask vals).length = mask.length := by
  induction mask generalizing vals with
  | nil => cases vals <;> rfl
  | cons m ms ih =>
    cases m with
    | none => simp [scatter, ih]
    | some a => cases vals <;> simp [scatter, ih]

theorem scatter_none {α β : Type*} (fill : β) (mask : List (Option α)) (vals : List β) (i : ℕ)
    (h : mask[i]? = some none) : (scatter fill mask vals)[i]? = some fill := by
  induction mask generalizing vals i with
  | nil => simp at h
  | cons m ms ih =>
    cases i with
    | zero =>
      simp only [List.getElem?_cons_zero, Option.some.injEq] at h
      subst h
      simp [scatter]
    | succ i =>
      simp only [List.getElem?_cons_succ] at h
      cases m with
      | none => simp only [scatter, List.getElem?_cons_succ, ih vals i h]
      | some a => cases vals <;> simp only [scatter, List.getElem?_cons_succ, ih _ i h]

/-- The common shape of the results of `direct_loc_h`. -/
theorem directLocH_shape (r : Rpc K) (row col alt : List (Option K)) (fillNan useDirect : Bool)
    (hcol : col.length = row.length) (halt : alt.length = row.length) {out : List (ORow K)}
    (h : directLocH r row col alt fillNan useDirect = .ok out) :
    ∃ vals : List (Option K × Option K),
      out = checkLonLat (((scatter (fillLonLat r fillNan)
        ((row.zip (col.zip alt)).map fun t => validPt t.1 t.2.1 t.2.2) vals).zip alt).map
          fun t => ⟨t.1.1, t.1.2, t.2⟩) := by
  simp only [directLocH, broadcastAlt_eq (halt.trans hcol.symm)] at h
  rw [if_pos hcol.symm] at h
  split at h
  · exact ⟨_, (Except.ok.inj h).symm⟩
  · exact ⟨_, (Except.ok.inj h).symm⟩
  · cases h

/-- C25. `direct_loc_h` (Python, both methods): one row per point; a row is NaN or has a valid longitude, latitude and
the altitude of its point; the row of a point with a NaN row or column is NaN, or the scene centre at the altitude of
the point when `fill_nan` is set. -/
theorem C25_direct_loc_h (r : Rpc K) (row col alt : List (Option K)) (fillNan useDirect : Bool)
    (hcol : col.length = row.length) (halt : alt.length = row.length) {out : List (ORow K)}
    (h : directLocH r row col alt fillNan useDirect = .ok out) :
    out.length = row.length ∧
    (∀ (i : ℕ) (o : ORow K), out[i]? = some o →
      o = nanRow ∨ ∃ x y a, alt[i]? = some (some a) ∧ o = ⟨some x, some y, some a⟩ ∧ ValidLonLat x y) ∧
    (∀ (i : ℕ) (x y z : Option K), row[i]? = some x → col[i]? = some y → alt[i]? = some z → (x = none ∨ y = none) →
      out[i]? = some (if fillNan then checkRow ⟨some r.offX, some r.offY, z⟩ else nanRow)) := by
  obtain ⟨vals, rfl⟩ := directLocH_shape r row col alt fillNan useDirect hcol halt h
  refine ⟨?_, ?_, ?_⟩
  · simp [checkLonLat, scatter_length, hcol, halt]
  · intro i o ho
    rw [checkLonLat_getElem?, List.getElem?_map] at ho
    simp only [Option.map_map, Option.map_eq_some_iff, Function.comp] at ho
    obtain ⟨⟨⟨x, y⟩, z⟩, ht, rfl⟩ := ho
    have hz : alt[i]? = some z := (List.getElem?_zip_eq_some.1 ht).2
    rcases x with _ | x
    · exact Or.inl (checkRow_nan (Or.inl rfl))
    rcases y with _ | y
    · exact Or.inl (checkRow_nan (Or.inr (Or.inl rfl)))
    rcases z with _ | z
    · exact Or.inl (checkRow_nan (Or.inr (Or.inr rfl)))
    by_cases hv : ValidLonLat x y
    · exact Or.inr ⟨x, y, z, hz, checkRow_valid hv, hv⟩
    · exact Or.inl (checkRow_invalid hv)
  · intro i x y z hx hy hz hn
    have hm : ((row.zip (col.zip alt)).map fun t => validPt t.1 t.2.1 t.2.2)[i]? = some none := by
      rw [List.getElem?_map, List.getElem?_zip_eq_some (z := (x, y, z)) |>.2
        ⟨hx, List.getElem?_zip_eq_some.2 ⟨hy, hz⟩⟩]
      rcases hn with rfl | rfl
      · rfl
      · cases x <;> rfl
    rw [checkLonLat_getElem?, List.getElem?_map, List.getElem?_zip_eq_some (z := (fillLonLat r fillNan, z)) |>.2
      ⟨scatter_none _ _ _ i hm, hz⟩]
    cases fillNan with
    | true => rfl
    | false => exact congrArg some (checkRow_nan (Or.inl rfl))

/-- C25. The same for `RPCoptim.direct_loc_h` by the inverse model. -/
theorem C25_direct_loc_h_optim (r : Rpc K) (q : RatCoefs K) (hq : r.inverse = some q) (row col alt : List (Option K))
    (fillNan : Bool) (hcol : col.length = row.length) (halt : alt.length = row.length) :
    ∃ out, directLocHOptim r row col alt fillNan false = .ok out ∧ out.length = row.length ∧
    (∀ (i : ℕ) (o : ORow K), out[i]? = some o →
      o = nanRow ∨ ∃ x y a, alt[i]? = some (some a) ∧ o = ⟨some x, some y, some a⟩ ∧ ValidLonLat x y) ∧
    (∀ (i : ℕ) (x y z : Option K), row[i]? = some x → col[i]? = some y → alt[i]? = some z → (x = none ∨ y = none) →
      out[i]? = some (if fillNan then checkRow ⟨some r.offX, some r.offY, z⟩ else nanRow)) := by
  refine ⟨checkLonLat ((row.zip (col.zip alt)).map (iterPointCpp r q fillNan)), ?_, ?_, ?_, ?_⟩
  · simp only [directLocHOptim, broadcastAlt_eq (halt.trans hcol.symm), hq]
    rw [broadcastAlt_eq (by omega)]
  · simp [checkLonLat, hcol, halt]
  · intro i o ho
    rw [checkLonLat_getElem?, List.getElem?_map] at ho
    simp only [Option.map_map, Option.map_eq_some_iff, Function.comp] at ho
    obtain ⟨⟨x, y, z⟩, ht, rfl⟩ := ho
    have hz : alt[i]? = some z := (List.getElem?_zip_eq_some.1 (List.getElem?_zip_eq_some.1 ht).2).2
    have hz' : (iterPointCpp r q fillNan (x, y, z)).z = z := by
      cases x <;> cases y <;> rfl
    generalize hp : iterPointCpp r q fillNan (x, y, z) = p at *
    rcases p with ⟨_ | a, _ | b, _ | c⟩ <;> try exact Or.inl rfl
    by_cases hv : ValidLonLat a b
    · refine Or.inr ⟨a, b, c, ?_, checkRow_valid hv, hv⟩
      rw [hz, ← hz']
    · exact Or.inl (checkRow_invalid hv)
  · intro i x y z hx hy hz hn
    rw [checkLonLat_getElem?, List.getElem?_map, List.getElem?_zip_eq_some (z := (x, y, z)) |>.2
        ⟨hx, List.getElem?_zip_eq_some.2 ⟨hy, hz⟩⟩]
    have : iterPointCpp r q fillNan (x, y, z) = ⟨(fillLonLat r fillNan).1, (fillLonLat r fillNan).2, z⟩ := by
      rcases hn with rfl | rfl
      · rfl
      · cases x <;> rfl
    simp only [Option.map_some, this]
    cases fillNan with
    | true => rfl
    | false => exact congrArg some (checkRow_nan (Or.inl rfl))

/-! ### C26 -/

theorem dup_length {α : Type*} (l : List α) : (dup l).length = 2 * l.length := by
  induction l with
  | nil => rfl
  | cons a as ih => simp only [dup, List.length_cons, ih]; omega

theorem dup_get {α : Type*} (l : List α) (i : ℕ) : (dup l)[2 * i]? = l[i]? ∧ (dup l)[2 * i + 1]? = l[i]? := by
  induction l generalizing i with
  | nil => simp [dup]
  | cons a as ih =>
    cases i with
    | zero => simp [dup]
    | succ i =>
      have := ih i
      simp only [dup, Nat.mul_add, Nat.mul_one, List.getElem?_cons_succ]
      exact this

theorem alternate_length {α : Type*} (n : ℕ) (a b : α) : (alternate n a b).length = 2 * n := by
  induction n with
  | zero => rfl
  | succ n ih => simp only [alternate, List.length_cons, ih]; omega

theorem alternate_get {α : Type*} (n : ℕ) (a b : α) (i : ℕ) (h : i < n) :
    (alternate n a b)[2 * i]? = some a ∧ (alternate n a b)[2 * i + 1]? = some b := by
  induction n generalizing i with
  | zero => omega
  | succ n ih =>
    cases i with
    | zero => simp [alternate]
    | succ i =>
      have := ih i (by omega)
      simp only [alternate, Nat.mul_add, Nat.mul_one, List.getElem?_cons_succ]
      exact this

/-- What `extrapolateLos` does to a pair. -/
def extrapPair (lo hi : K) (top bot : ORow K) : ORow K × ORow K :=
  (⟨axpy bot.x (osub2 top.x bot.x) (altCoef hi bot.z (osub2 top.z bot.z)),
    axpy bot.y (osub2 top.y bot.y) (altCoef hi bot.z (osub2 top.z bot.z)),
    axpy bot.z (osub2 top.z bot.z) (altCoef hi bot.z (osub2 top.z bot.z))⟩,
   ⟨axpy bot.x (osub2 top.x bot.x) (altCoef lo bot.z (osub2 top.z bot.z)),
    axpy bot.y (osub2 top.y bot.y) (altCoef lo bot.z (osub2 top.z bot.z)),
    axpy bot.z (osub2 top.z bot.z) (altCoef lo bot.z (osub2 top.z bot.z))⟩)

theorem extrapolateLos_get (lo hi : K) (n : ℕ) (l : List (ORow K)) (hl : l.length = 2 * n) :
    (extrapolateLos lo hi l).length = 2 * n ∧
    ∀ i < n, ∃ top bot, l[2 * i]? = some top ∧ l[2 * i + 1]? = some bot ∧
      (extrapolateLos lo hi l)[2 * i]? = some (extrapPair lo hi top bot).1 ∧
      (extrapolateLos lo hi l)[2 * i + 1]? = some (extrapPair lo hi top bot).2 := by
  induction n generalizing l with
  | zero =>
    have : l = [] := List.length_eq_zero_iff.1 (by omega)
    subst this
    exact ⟨rfl, fun i hi => absurd hi (by omega)⟩
  | succ n ih =>
    match l, hl with
    | top :: bot :: rest, hl =>
      have hr : rest.length = 2 * n := by simp only [List.length_cons] at hl; omega
      obtain ⟨h1, h2⟩ := ih rest hr
      refine ⟨?_, ?_⟩
      · simp only [extrapolateLos, List.length_cons, h1]; omega
      · intro i hi'
        cases i with
        | zero => exact ⟨top, bot, rfl, rfl, rfl, rfl⟩
        | succ i =>
          obtain ⟨t, b, e1, e2, e3, e4⟩ := h2 i (by omega)
          refine ⟨t, b, ?_, ?_, ?_, ?_⟩ <;>
            simp only [extrapolateLos, Nat.mul_add, Nat.mul_one, List.getElem?_cons_succ] <;> assumption
    | [], hl => simp at hl
    | [a], hl => simp only [List.length_cons, List.length_nil] at hl; omega

/-- A pair of finite points at different altitudes is extrapolated along its line to exactly the bounds. -/
theorem extrapPair_finite (lo hi tx ty tz bx by' bz : K) (h : tz ≠ bz) :
    extrapPair lo hi ⟨some tx, some ty, some tz⟩ ⟨some bx, some by', some bz⟩ =
      (⟨some (bx + (tx - bx) * ((hi - bz) / (tz - bz))), some (by' + (ty - by') * ((hi - bz) / (tz - bz))), some hi⟩,
       ⟨some (bx + (tx - bx) * ((lo - bz) / (tz - bz))), some (by' + (ty - by') * ((lo - bz) / (tz - bz))), some lo⟩) := by
  have hd : tz - bz ≠ 0 := sub_ne_zero.2 h
  have e1 : bz + (tz - bz) * ((hi - bz) / (tz - bz)) = hi := by field_simp; ring
  have e2 : bz + (tz - bz) * ((lo - bz) / (tz - bz)) = lo := by field_simp; ring
  simp only [extrapPair, altCoef, osub2, axpy, fdiv, bind, Option.bind, pure, if_neg hd, e1, e2]

theorem extrapPair_nan (lo hi : K) (top bot : ORow K) (h : top = nanRow ∨ bot = nanRow) :
    extrapPair lo hi top bot = (nanRow, nanRow) := by
  rcases h with rfl | rfl
  · rcases bot with ⟨_ | a, _ | b, _ | c⟩ <;> rfl
  · rcases top with ⟨_ | a, _ | b, _ | c⟩ <;> rfl

/-- The altitudes announced to the user: the bounds when both are given, else the default ones. -/
def announcedAlt (r : Rpc K) (altMin altMax : Option K) : K × K :=
  match altMin, altMax with
  | some lo, some hi => (lo, hi)
  | _, _ => (r.offAlt - r.scAlt / 2, r.offAlt + r.scAlt / 2)

/-- C26. For every batch and all bounds, `los_extrema` returns two rows per image point, in the order of the points;
the first is NaN or at the maximum altitude, the second NaN or at the minimum altitude: exactly the bounds given when
both are given, inside or outside of the validity range of the model, and the default bounds otherwise. -/
theorem C26_los_extrema_altitudes (r : Rpc K) (row col : List (Option K)) (altMin altMax : Option K) (fillNan : Bool)
    (hcol : col.length = row.length) {out : List (ORow K)}
    (h : losExtrema r row col altMin altMax fillNan = .ok out) :
    out.length = 2 * row.length ∧
    ∀ i < row.length, ∃ top bot, out[2 * i]? = some top ∧ out[2 * i + 1]? = some bot ∧
      (top = nanRow ∨ top.z = some (announcedAlt r altMin altMax).2) ∧
      (bot = nanRow ∨ bot.z = some (announcedAlt r altMin altMax).1) := by
  simp only [losExtrema] at h
  have hdc : (dup col).length = (dup row).length := by rw [dup_length, dup_length, hcol]
  have hda : ∀ a b : Option K, (alternate row.length a b).length = (dup row).length := by
    intro a b; rw [dup_length, alternate_length]
  cases hdl : directLocH r (dup row) (dup col) (alternate row.length (some (losAltitudes r altMin altMax).2.1)
      (some (losAltitudes r altMin altMax).1)) fillNan false with
  | error e => rw [hdl] at h; cases h
  | ok edges =>
    rw [hdl] at h
    simp only at h
    obtain ⟨e1, e2, -⟩ := C25_direct_loc_h r _ _ _ fillNan false hdc (hda _ _) hdl
    rw [dup_length] at e1
    have hget : ∀ i < row.length, ∃ top bot, edges[2 * i]? = some top ∧ edges[2 * i + 1]? = some bot ∧
        (top = nanRow ∨ ∃ x y, top = ⟨some x, some y, some (losAltitudes r altMin altMax).2.1⟩) ∧
        (bot = nanRow ∨ ∃ x y, bot = ⟨some x, some y, some (losAltitudes r altMin altMax).1⟩) := by
      intro i hi
      have t1 : 2 * i < edges.length := by omega
      have t2 : 2 * i + 1 < edges.length := by omega
      refine ⟨edges[2 * i], edges[2 * i + 1], List.getElem?_eq_getElem t1, List.getElem?_eq_getElem t2, ?_, ?_⟩
      · rcases e2 (2 * i) _ (List.getElem?_eq_getElem t1) with h | ⟨x, y, a, ha, ho, -⟩
        · exact Or.inl h
        · rw [(alternate_get _ _ _ i hi).1] at ha
          cases ha
          exact Or.inr ⟨x, y, ho⟩
      · rcases e2 (2 * i + 1) _ (List.getElem?_eq_getElem t2) with h | ⟨x, y, a, ha, ho, -⟩
        · exact Or.inl h
        · rw [(alternate_get _ _ _ i hi).2] at ha
          cases ha
          exact Or.inr ⟨x, y, ho⟩
    cases hx : (losAltitudes r altMin altMax).2.2 with
    | none =>
      rw [hx] at h
      cases h
      have hann : (losAltitudes r altMin altMax).2.1 = (announcedAlt r altMin altMax).2 ∧
          (losAltitudes r altMin altMax).1 = (announcedAlt r altMin altMax).1 := by
        rcases altMin with _ | lo <;> rcases altMax with _ | hi <;>
          simp only [losAltitudes, announcedAlt, rpcAltMinMax, and_self]
        by_cases hc : lo ≥ r.offAlt - r.scAlt ∧ hi ≤ r.offAlt + r.scAlt
        · rw [if_pos hc]; exact ⟨rfl, rfl⟩
        · simp only [losAltitudes, if_neg hc] at hx
          cases hx
      refine ⟨e1, fun i hi => ?_⟩
      obtain ⟨top, bot, h1, h2, h3, h4⟩ := hget i hi
      refine ⟨top, bot, h1, h2, ?_, ?_⟩
      · rcases h3 with h3 | ⟨x, y, h3⟩
        · exact Or.inl h3
        · exact Or.inr (by rw [h3, hann.1])
      · rcases h4 with h4 | ⟨x, y, h4⟩
        · exact Or.inl h4
        · exact Or.inr (by rw [h4, hann.2])
    | some b =>
      rw [hx] at h
      cases h
      have hann : altMin = some b.1 ∧ altMax = some b.2 ∧ announcedAlt r altMin altMax = b ∧
          (losAltitudes r altMin altMax).2.1 = r.offAlt + r.scAlt / 2 ∧
          (losAltitudes r altMin altMax).1 = r.offAlt - r.scAlt / 2 := by
        rcases altMin with _ | lo
        · simp only [losAltitudes] at hx; cases hx
        rcases altMax with _ | hi
        · simp only [losAltitudes] at hx; cases hx
        by_cases hc : lo ≥ r.offAlt - r.scAlt ∧ hi ≤ r.offAlt + r.scAlt
        · simp only [losAltitudes, if_pos hc] at hx; cases hx
        · simp only [losAltitudes, if_neg hc] at hx ⊢
          cases hx
          exact ⟨rfl, rfl, rfl, rfl, rfl⟩
      obtain ⟨g1, g2⟩ := extrapolateLos_get b.1 b.2 row.length edges e1
      refine ⟨g1, fun i hi => ?_⟩
      obtain ⟨top, bot, h1, h2, h3, h4⟩ := hget i hi
      obtain ⟨top', bot', h1', h2', h5, h6⟩ := g2 i hi
      rw [h1] at h1'
      rw [h2] at h2'
      cases h1'
      cases h2'
      refine ⟨_, _, h5, h6, ?_⟩
      rcases h3 with h3 | ⟨x, y, h3⟩
      · rw [extrapPair_nan _ _ _ _ (Or.inl h3)]
        exact ⟨Or.inl rfl, Or.inl rfl⟩
      rcases h4 with h4 | ⟨x', y', h4⟩
      · rw [extrapPair_nan _ _ _ _ (Or.inr h4)]
        exact ⟨Or.inl rfl, Or.inl rfl⟩
      by_cases hs : r.offAlt + r.scAlt / 2 = r.offAlt - r.scAlt / 2
      · rw [h3, h4, hann.2.2.2.1, hann.2.2.2.2, hs]
        have : ∀ z : K, extrapPair b.1 b.2 ⟨some x, some y, some z⟩ ⟨some x', some y', some z⟩ = (nanRow, nanRow) := by
          intro z
          simp only [extrapPair, altCoef, osub2, axpy, fdiv, bind, Option.bind, pure, sub_self, if_true, nanRow]
        rw [this]
        exact ⟨Or.inl rfl, Or.inl rfl⟩
      · rw [h3, h4, hann.2.2.2.1, hann.2.2.2.2, extrapPair_finite _ _ _ _ _ _ _ _ hs, hann.2.2.1]
        exact ⟨Or.inr rfl, Or.inr rfl⟩

/-- C26. With bounds inside the validity range the rows are those of `direct_loc_h` for each point at the maximum
then at the minimum altitude; with bounds outside of it, each pair is the pair of points of the line through the two
direct locations (at the default altitudes) that have exactly the requested altitudes. -/
theorem C26_los_extrema_positions (r : Rpc K) (row col : List (Option K)) (lo hi : K) (fillNan : Bool)
    (hcol : col.length = row.length) :
    (r.offAlt - r.scAlt ≤ lo → hi ≤ r.offAlt + r.scAlt →
      losExtrema r row col (some lo) (some hi) fillNan =
        directLocH r (dup row) (dup col) (alternate row.length (some hi) (some lo)) fillNan false) ∧
    (¬ (r.offAlt - r.scAlt ≤ lo ∧ hi ≤ r.offAlt + r.scAlt) → ∀ edges,
      directLocH r (dup row) (dup col) (alternate row.length (some (r.offAlt + r.scAlt / 2))
        (some (r.offAlt - r.scAlt / 2))) fillNan false = .ok edges →
      ∃ out, losExtrema r row col (some lo) (some hi) fillNan = .ok out ∧
        ∀ i < row.length, ∀ tx ty tz bx by' bz, tz ≠ bz →
          edges[2 * i]? = some ⟨some tx, some ty, some tz⟩ → edges[2 * i + 1]? = some ⟨some bx, some by', some bz⟩ →
          ∃ s t : K, out[2 * i]? = some ⟨some (bx + s * (tx - bx)), some (by' + s * (ty - by')), some hi⟩ ∧
            bz + s * (tz - bz) = hi ∧
            out[2 * i + 1]? = some ⟨some (bx + t * (tx - bx)), some (by' + t * (ty - by')), some lo⟩ ∧
            bz + t * (tz - bz) = lo) := by
  refine ⟨?_, ?_⟩
  · intro h1 h2
    have : losAltitudes r (some lo) (some hi) = (lo, hi, none) := by
      simp only [losAltitudes]; rw [if_pos ⟨h1, h2⟩]
    simp only [losExtrema, this]
    cases directLocH r (dup row) (dup col) (alternate row.length (some hi) (some lo)) fillNan false <;> rfl
  · intro hn edges he
    have : losAltitudes r (some lo) (some hi) =
        (r.offAlt - r.scAlt / 2, r.offAlt + r.scAlt / 2, some (lo, hi)) := by
      simp only [losAltitudes]; rw [if_neg hn]; rfl
    refine ⟨extrapolateLos lo hi edges, ?_, ?_⟩
    · simp only [losExtrema, this, he]
    · intro i hi' tx ty tz bx by' bz hz h1 h2
      have hdc : (dup col).length = (dup row).length := by rw [dup_length, dup_length, hcol]
      have hda : ∀ a b : Option K, (alternate row.length a b).length = (dup row).length := by
        intro a b; rw [dup_length, alternate_length]
      obtain ⟨e1, -, -⟩ := C25_direct_loc_h r _ _ _ fillNan false hdc (hda _ _) he
      rw [dup_length] at e1
      obtain ⟨top, bot, g1, g2, g3, g4⟩ := (extrapolateLos_get lo hi row.length edges e1).2 i hi'
      rw [h1] at g1
      rw [h2] at g2
      cases g1
      cases g2
      rw [extrapPair_finite _ _ _ _ _ _ _ _ hz] at g3 g4
      have hd : tz - bz ≠ 0 := sub_ne_zero.2 hz
      refine ⟨(hi - bz) / (tz - bz), (lo - bz) / (tz - bz), ?_, by field_simp; ring, ?_, by field_simp; ring⟩
      · rw [g3]; simp only [mul_comm]
      · rw [g4]; simp only [mul_comm]

/-- C26 for C++: with bounds inside the validity range the two rows are the locations of the point alone at the
maximum and at the minimum altitude (before the longitude/latitude check). -/
theorem C26_los_extrema_cpp (r : Rpc K) (q : RatCoefs K) (hq : r.inverse = some q) (row col : Option K) (lo hi : K)
    (fillNan : Bool) (h1 : r.offAlt - r.scAlt ≤ lo) (h2 : hi ≤ r.offAlt + r.scAlt) :
    ∃ top bot, losExtremaCpp r row col (some lo) (some hi) fillNan = .ok [top, bot] ∧
      top.z = some hi ∧ bot.z = some lo ∧
      directLocHOptim r [row] [col] [some hi] fillNan false = .ok (checkLonLat [top]) ∧
      directLocHOptim r [row] [col] [some lo] fillNan false = .ok (checkLonLat [bot]) := by
  have : losAltitudes r (some lo) (some hi) = (lo, hi, none) := by
    simp only [losAltitudes]; rw [if_pos ⟨h1, h2⟩]
  refine ⟨iterPointCpp r q fillNan (row, col, some hi), iterPointCpp r q fillNan (row, col, some lo), ?_, ?_, ?_, ?_, ?_⟩
  · simp only [losExtremaCpp, this, hq]
  · cases row <;> cases col <;> rfl
  · cases row <;> cases col <;> rfl
  · simp [directLocHOptim, broadcastAlt, hq, checkLonLat]
  · simp [directLocHOptim, broadcastAlt, hq, checkLonLat]

/-- Extrema of two points, inside and outside of the validity range `[0, 200]` of the model: the second call
extrapolates. -/
example : losExtrema demoRpc [some 300, some 360] [some 500, some 600] (some 0) (some 200) false =
      .ok [⟨some 9, some (39 / 2), some 200⟩, ⟨some 11, some (41 / 2), some 0⟩,
        ⟨some (46 / 5), some (197 / 10), some 200⟩, ⟨some (56 / 5), some (207 / 10), some 0⟩] ∧
    losExtrema demoRpc [some 300] [some 500] (some (-100)) (some 300) false =
      .ok [⟨some 8, some 19, some 300⟩, ⟨some 12, some 21, some (-100)⟩] := by
  decide +kernel

/-- C26/C24, negation on Python: at the image of the scene centre at the maximum altitude, both extrema are the scene
centre, although the image of the second one is 1000 columns away; alone, the second is correctly located. -/
theorem C26_python_counterexample :
    losExtrema demoRpc [some 450] [some 1000] (some 0) (some 200) false =
      .ok [⟨some 10, some 20, some 200⟩, ⟨some 10, some 20, some 0⟩] ∧
    directLocH demoRpc [some 450] [some 1000] [some 0] false false = .ok [⟨some 12, some 21, some 0⟩] ∧
    imgCol demoRpc demoCoefs 10 20 0 = 0 ∧
    losExtremaCpp demoRpc (some 450) (some 1000) (some 0) (some 200) false =
      .ok [⟨some 10, some 20, some 200⟩, ⟨some 12, some 21, some 0⟩] := by
  refine ⟨by decide +kernel, by decide +kernel, ?_, by decide +kernel⟩
  simp only [imgCol, ← polyPy_eq]; decide +kernel

/-! ### C27 -/

/-- C27. `direct_loc_h` raises, in Python and in C++, exactly when the requested method lacks its coefficients: it
never falls back on the other one. -/
theorem C27_direct_raises (r : Rpc K) (row col alt : List (Option K)) (fillNan useDirect : Bool)
    (hcol : col.length = row.length) (halt : alt.length = row.length) :
    (directLocH r row col alt fillNan useDirect = .error .coefficientsMismatch ↔
      (useDirect = false ∧ r.inverse = none) ∨ (useDirect = true ∧ r.direct = none)) ∧
    (directLocHOptim r row col alt fillNan useDirect = .error .coefficientsMismatch ↔
      (useDirect = false ∧ r.inverse = none) ∨ (useDirect = true ∧ r.direct = none)) := by
  have hb : broadcastAlt col.length alt = .ok alt := broadcastAlt_eq (halt.trans hcol.symm)
  have hb2 : broadcastAlt (min col.length col.length) alt = .ok alt := broadcastAlt_eq (by omega)
  have hne : ∀ (q : RatCoefs K) (l : List (Option K × Option K × Option K)),
      mapExcept (directPointCpp r q fillNan) l ≠ .error .coefficientsMismatch := by
    intro q l
    induction l with
    | nil => intro h; cases h
    | cons t ts ih =>
      intro h
      have hp : directPointCpp r q fillNan t ≠ .error .coefficientsMismatch := by
        rcases t with ⟨_ | x, _ | y, _ | z⟩ <;> intro h <;> simp only [directPointCpp] at h <;> try cases h
        split at h <;> cases h
      simp only [mapExcept] at h
      cases h1 : directPointCpp r q fillNan t with
      | error e => rw [h1] at h hp; cases h; exact hp rfl
      | ok b =>
        rw [h1] at h
        simp only at h
        cases h2 : mapExcept (directPointCpp r q fillNan) ts with
        | error e => rw [h2] at h ih; cases h; exact ih rfl
        | ok bs => rw [h2] at h; cases h
  cases useDirect <;> cases hi : r.inverse <;> cases hd : r.direct <;>
    simp only [directLocH, directLocHOptim, hcol.symm, hb, hb2, hi, hd, if_true, Bool.false_eq_true, Bool.true_eq_false,
      reduceCtorEq, and_true, and_false, false_and, true_and, or_true, or_false, false_or, and_self, iff_true,
      iff_false, not_false_eq_true, false_iff]
  all_goals
    intro h
    split at h
    · rename_i e he
      cases h
      exact hne _ _ he
    · cases h

/-- C27. With `using_direct_coef` and direct coefficients, every point is the direct rational function of its row,
column and altitude (when it is defined and gives a valid longitude and latitude), in Python. -/
theorem C27_direct_coefficients (r : Rpc K) (q : RatCoefs K) (hq : r.direct = some q) (row col alt : List (Option K))
    (fillNan : Bool) (hcol : col.length = row.length) (halt : alt.length = row.length) :
    ∃ out, directLocH r row col alt fillNan true = .ok out ∧
      ∀ (i : ℕ) (x y z : K), row[i]? = some (some x) → col[i]? = some (some y) → alt[i]? = some (some z) →
        DirectDefined r q x y z →
        out[i]? = some (checkRow ⟨some (directLon r q x y z), some (directLat r q x y z), some z⟩) := by
  have hb : broadcastAlt col.length alt = .ok alt := broadcastAlt_eq (halt.trans hcol.symm)
  let f : ImgPt K → Option K × Option K := fun p =>
    match p.alt with
    | some a => ratPointPy q ((p.col - r.offCol) / r.scCol) ((p.row - r.offRow) / r.scRow)
        ((a - r.offAlt) / r.scAlt) r.scX r.offX r.scY r.offY
    | none => (none, none)
  refine ⟨checkLonLat ((row.zip (col.zip alt)).map fun t =>
    ⟨((validPt t.1 t.2.1 t.2.2).elim (fillLonLat r fillNan) f).1,
      ((validPt t.1 t.2.1 t.2.2).elim (fillLonLat r fillNan) f).2, t.2.2⟩), ?_, ?_⟩
  · have := directLocH_rows (fillLonLat r fillNan) f (fun b z => (⟨b.1, b.2, z⟩ : ORow K)) row col alt
    rw [← this]
    simp only [directLocH, hb]
    rw [if_pos hcol.symm, hq]
    cases r.inverse <;> rfl
  · intro i x y z hx hy hz hd
    rw [checkLonLat_getElem?, List.getElem?_map, List.getElem?_zip_eq_some (z := (some x, some y, some z)) |>.2
      ⟨hx, List.getElem?_zip_eq_some.2 ⟨hy, hz⟩⟩]
    have hval : f ⟨x, y, some z⟩ = (some (directLon r q x y z), some (directLat r q x y z)) := by
      simp only [f, ratPointPy, ratOut, fdiv, polyPy_eq]
      rw [if_neg hd.1, if_neg hd.2]
      rfl
    simp only [Option.map_some, validPt, Option.elim, hval]

/-- C27. The same for C++, when no quotient of the batch is undefined. -/
theorem C27_direct_coefficients_cpp (r : Rpc K) (q : RatCoefs K) (hq : r.direct = some q)
    (row col alt : List (Option K)) (fillNan : Bool) (hcol : col.length = row.length)
    (halt : alt.length = row.length)
    (hdef : ∀ (i : ℕ) (x y z : K), row[i]? = some (some x) → col[i]? = some (some y) → alt[i]? = some (some z) →
      DirectDefined r q x y z) :
    ∃ out, directLocHOptim r row col alt fillNan true = .ok out ∧
      ∀ (i : ℕ) (x y z : K), row[i]? = some (some x) → col[i]? = some (some y) → alt[i]? = some (some z) →
        out[i]? = some (checkRow ⟨some (directLon r q x y z), some (directLat r q x y z), some z⟩) := by
  have hb : broadcastAlt col.length alt = .ok alt := broadcastAlt_eq (halt.trans hcol.symm)
  have hb2 : broadcastAlt (min row.length col.length) alt = .ok alt := broadcastAlt_eq (by omega)
  let g : Option K × Option K × Option K → ORow K := fun t =>
    match t with
    | (some x, some y, some z) => ⟨some (directLon r q x y z), some (directLat r q x y z), some z⟩
    | (some _, some _, none) => nanRow
    | (_, _, z) => ⟨(fillLonLat r fillNan).1, (fillLonLat r fillNan).2, z⟩
  have hm : mapExcept (directPointCpp r q fillNan) (row.zip (col.zip alt)) =
      .ok ((row.zip (col.zip alt)).map g) := by
    apply mapExcept_ok
    rintro ⟨x, y, z⟩ ht
    obtain ⟨i, hi⟩ := List.mem_iff_getElem?.1 ht
    obtain ⟨h1, h2⟩ := List.getElem?_zip_eq_some.1 hi
    obtain ⟨h2, h3⟩ := List.getElem?_zip_eq_some.1 h2
    rcases x with _ | x <;> rcases y with _ | y <;> rcases z with _ | z <;> try rfl
    have hd := hdef i x y z h1 h2 h3
    simp only [directPointCpp, g, ratPointCpp, ratOut, fdiv, polyCpp_eq, polyPy_eq]
    rw [if_pos ⟨hd.1, hd.2⟩, if_neg hd.1, if_neg hd.2]
    rfl
  refine ⟨checkLonLat ((row.zip (col.zip alt)).map g), ?_, ?_⟩
  · simp only [directLocHOptim, hb, hb2, hq, nanAltitude_same, hm]
  · intro i x y z hx hy hz
    rw [checkLonLat_getElem?, List.getElem?_map, List.getElem?_zip_eq_some (z := (some x, some y, some z)) |>.2
      ⟨hx, List.getElem?_zip_eq_some.2 ⟨hy, hz⟩⟩]
    rfl

/-- C27. `inverse_loc` in Python computes exactly when the inverse coefficients exist; otherwise it returns no
position (and logs a warning), whatever the arrays. -/
theorem C27_inverse (r : Rpc K) (lon lat alt : List (Option K)) :
    (inverseLocPy r lon lat alt = .ok .unavailable ↔ r.inverse = none) := by
  cases h : r.inverse with
  | none => simp [inverseLocPy, h]
  | some q =>
    simp only [inverseLocPy, h, reduceCtorEq, iff_false]
    intro h
    split at h
    · cases h
    · split at h
      · cases h
      · cases h

/-- A model with direct coefficients only. -/
def directOnlyRpc : Rpc ℚ := { demoRpc with inverse := none, direct := some demoCoefs }

example : directLocH directOnlyRpc [some 300, none] [some 500, some 1] [some 150, some 2] false true =
      .ok [⟨some (21 / 2), some (81 / 4), some 150⟩, nanRow] ∧
    directLocH directOnlyRpc [some 300] [some 500] [some 150] false false = .error .coefficientsMismatch ∧
    directLocHOptim directOnlyRpc [some 300] [some 500] [some 150] false true =
      .ok [⟨some (21 / 2), some (81 / 4), some 150⟩] ∧
    directLocHOptim directOnlyRpc [some 300] [some 500] [some 150] false false = .error .coefficientsMismatch := by
  decide +kernel

/-! ### C28 -/

theorem broadcastAlt_single (n : ℕ) (a : Option K) : broadcastAlt n [a] = .ok (List.replicate n a) := by
  by_cases h : n = 1
  · subst h; rfl
  · simp only [broadcastAlt]
    rw [if_neg (by simpa using fun h' => h h'.symm)]

/-- C28. A single altitude is used for every point, in the direct and inverse locations, in Python, and in the direct
location of the C++ version (`RPCoptim`).  Missing: `RPCoptim.inverse_loc`, which refuses it
(`C28_optim_inverse_refuses`); sizes other than one and the number of points, which are silently replaced by the first
altitude (`C28_wrong_size_truncated`). -/
theorem C28_single_altitude_partial (r : Rpc K) (row col lon lat : List (Option K)) (a : Option K)
    (fillNan useDirect : Bool) :
    directLocH r row col [a] fillNan useDirect = directLocH r row col (List.replicate col.length a) fillNan useDirect ∧
    inverseLocPy r lon lat [a] = inverseLocPy r lon lat (List.replicate lon.length a) ∧
    directLocHOptim r row col [a] fillNan useDirect =
      directLocHOptim r row col (List.replicate col.length a) fillNan useDirect := by
  have h : ∀ n, broadcastAlt n [a] = broadcastAlt n (List.replicate n a) := by
    intro n; rw [broadcastAlt_single, broadcastAlt_eq (by simp)]
  refine ⟨?_, ?_, ?_⟩
  · simp only [directLocH, h]
  · simp only [inverseLocPy, h]
  · simp only [directLocHOptim, h]

/-- C28. `RPCoptim.inverse_loc` refuses every altitude array whose size is not the number of points, a single altitude
included. -/
theorem C28_optim_inverse_refuses (r : Rpc K) (q : RatCoefs K) (lon lat alt : List (Option K))
    (h : alt.length ≠ lon.length) : inverseLocOptim r q lon lat alt = .error .badSizes := by
  simp only [inverseLocOptim, stack3]
  rw [if_neg]
  exact fun h' => h h'.2.symm

/-- C28, negation: altitude arrays of another size than the number of points are accepted, and all their values but
the first are ignored. -/
theorem C28_wrong_size_truncated (r : Rpc K) (row col lon lat : List (Option K)) (a : Option K)
    (rest : List (Option K)) (fillNan useDirect : Bool) (hc : rest.length + 1 ≠ col.length)
    (hl : rest.length + 1 ≠ lon.length) :
    directLocH r row col (a :: rest) fillNan useDirect = directLocH r row col [a] fillNan useDirect ∧
    inverseLocPy r lon lat (a :: rest) = inverseLocPy r lon lat [a] ∧
    directLocHOptim r row col (a :: rest) fillNan useDirect = directLocHOptim r row col [a] fillNan useDirect := by
  have h : ∀ n, rest.length + 1 ≠ n → broadcastAlt n (a :: rest) = broadcastAlt n [a] := by
    intro n hn
    rw [broadcastAlt_single]
    simp only [broadcastAlt, List.length_cons]
    rw [if_neg hn]
  refine ⟨?_, ?_, ?_⟩
  · simp only [directLocH, h _ hc]
  · simp only [inverseLocPy, h _ hl]
  · simp only [directLocHOptim, h _ hc]

/-- Three points with two altitudes: both are located at the first altitude, no error. -/
example : directLocH demoRpc [some 300, some 300, some 300] [some 500, some 500, some 500] [some 200, some 0]
      false false =
    .ok [⟨some 9, some (39 / 2), some 200⟩, ⟨some 9, some (39 / 2), some 200⟩, ⟨some 9, some (39 / 2), some 200⟩] := by
  decide +kernel

end Shareloc
