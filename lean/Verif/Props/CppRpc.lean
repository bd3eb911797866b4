import Verif.Lemmas.CppRpc
import Verif.Props.RpcLoc
import Verif.Props.ColocCpp
import Verif.Props.GridLocalization

/-!
C112: the C++ RPC and its vectors.
-/

set_option linter.unusedSectionVars false

namespace Shareloc
open Spec
variable {K : Type} [Field K] [LinearOrder K] [IsStrictOrderedRing K] [FloorRing K]

theorem mapError_throws_ne {α : Type} (t : Except RpcError α) :
    t.mapError VecFault.throws ≠ .error VecFault.outOfRange ∧ t.mapError VecFault.throws ≠ .error VecFault.uninitialised ∧
      t.mapError VecFault.throws ≠ .error VecFault.search := by
  cases t <;> simp [Except.mapError]

/-- The fault of a read is that of a position outside of the vector. -/
theorem vget_fault {α : Type} (v : List α) (i : ℕ) : vget v i = .error .outOfRange ↔ v.length ≤ i := by
  unfold vget
  cases h : v[i]? with
  | none => simpa using h
  | some x =>
    obtain ⟨hi, -⟩ := List.getElem?_eq_some_iff.1 h
    simp [hi]

/-- The fault of a write is that of a position outside of the vector. -/
theorem vset_fault {α : Type} (v : List α) (i : ℕ) (x : α) : vset v i x = .error .outOfRange ↔ v.length ≤ i := by
  unfold vset
  split_ifs with h
  · simp [h]
  · simpa using h

/-! ### Through the Python class -/

/-- C112: `RPCoptim.direct_loc_h` with arrays of any sizes: what the loops over the vectors compute is the model of C22 to C28. -/
theorem C112_direct_h (r : Rpc K) (row col alt : List (Option K)) (fillNan useDirect : Bool) :
    optimDirectHVec r row col alt fillNan useDirect = (directLocHOptim r row col alt fillNan useDirect).mapError .throws := by
  unfold optimDirectHVec directLocHOptim
  cases hb : broadcastAlt col.length alt with
  | error e => rfl
  | ok alt' =>
    have hl := broadcastAlt_length hb
    dsimp only
    rw [directHVec_eq]
    cases hz : broadcastAlt (min row.length col.length) alt' with
    | error e =>
      exfalso
      unfold broadcastAlt at hz
      cases alt' with
      | nil =>
        simp only [List.length_nil] at hl hz
        rw [← hl, Nat.min_zero, if_pos rfl] at hz
        cases hz
      | cons a as => split_ifs at hz
    | ok z =>
      have hzl := broadcastAlt_length hz
      cases useDirect with
      | false =>
        cases hq : r.inverse with
        | none => rfl
        | some q =>
          dsimp only
          rw [iterVector_some r q hq, hz]
          dsimp only
          rw [rowsOf_unrows]
          rfl
      | true =>
        cases hq : r.direct with
        | none => cases r.inverse <;> rfl
        | some q =>
          have hp := mapFrom_mapExcept (directPointCpp r q fillNan) (ratAt (some q) (dirNorm r) (fillLonLat r fillNan) alt') id
            (col.zip (row.zip z)) ((row.zip (col.zip (z.zip alt'))).map nanAltitude) 0
            (by simp only [List.length_zip, List.length_map, hzl, hl]; omega) fun k a a' hk hk' => by
              obtain ⟨x, y, w⟩ := a
              obtain ⟨e1, e2⟩ := List.getElem?_zip_eq_some.1 hk
              obtain ⟨e2, e3⟩ := List.getElem?_zip_eq_some.1 e2
              rw [List.getElem?_map] at hk'
              cases ht : (row.zip (col.zip (z.zip alt')))[k]? with
              | none => rw [ht] at hk'; cases hk'
              | some t =>
                obtain ⟨t1, t2, t3, t4⟩ := t
                obtain ⟨f1, g2⟩ := List.getElem?_zip_eq_some.1 ht
                obtain ⟨f2, g3⟩ := List.getElem?_zip_eq_some.1 g2
                obtain ⟨f3, f4⟩ := List.getElem?_zip_eq_some.1 g3
                clear g2 g3
                simp only at e1 e2 e3 f1 f2 f3 f4
                rw [ht, Option.map_some, Option.some.injEq] at hk'
                rw [e2] at f1; rw [e1] at f2; rw [e3] at f3
                injection f1 with f1; injection f2 with f2; injection f3 with f3
                subst f1 f2 f3 hk'
                rw [Nat.zero_add, ratAt_dir r q fillNan alt' k x y w t4 (by simp only [vget, f4])]
                cases directPointCpp r q fillNan (nanAltitude (y, x, w, t4)) <;> rfl
          rw [List.map_id_fun] at hp
          have hmap : ∀ t : Except VecFault (List (ORow K)), Except.map id t = t := fun t => by cases t <;> rfl
          rw [hmap] at hp
          have hv : ratVector (some q) (dirNorm r) (fillLonLat r fillNan) col row alt' =
              (mapFrom (ratAt (some q) (dirNorm r) (fillLonLat r fillNan) alt') 0 (col.zip (row.zip z))).map unrows := by
            rw [ratVector_eq, min_comm, hz]
          rw [hp] at hv
          cases hi : r.inverse <;> dsimp only <;> rw [hv] <;>
            cases mapExcept (directPointCpp r q fillNan) ((row.zip (col.zip (z.zip alt'))).map nanAltitude) <;>
            simp [Except.mapError, Except.map, rowsOf_unrows]

/-- C112: no call of `RPCoptim.direct_loc_h` reads or writes a vector outside of its bounds or reads coefficients that were not given, whatever
the sizes of the arrays and the NaN in them. -/
theorem C112_direct_h_in_range (r : Rpc K) (row col alt : List (Option K)) (fillNan useDirect : Bool) :
    optimDirectHVec r row col alt fillNan useDirect ≠ .error .outOfRange ∧ optimDirectHVec r row col alt fillNan useDirect ≠ .error .uninitialised := by
  rw [C112_direct_h]
  exact ⟨(mapError_throws_ne _).1, (mapError_throws_ne _).2.1⟩

theorem zip_of_rows (c : List (ORow K)) : (c.map (·.x)).zip ((c.map (·.y)).zip (c.map (·.z))) = c.map fun p => (p.x, p.y, p.z) := by
  induction c with
  | nil => rfl
  | cons a as ih => simp only [List.map_cons, List.zip_cons_cons, ih]

/-- The rows with the first two coordinates exchanged. -/
def swapRow (o : ORow K) : ORow K := ⟨o.y, o.x, o.z⟩

theorem inverseVec_rows (r : Rpc K) (c : List (ORow K)) :
    inverseVec r (c.map (·.x)) (c.map (·.y)) (c.map (·.z)) =
      (mapFrom (ratAt r.inverse (invNorm r) (none, none) (c.map (·.z))) 0 (c.map fun p => (p.x, p.y, p.z))).map
        fun l => unrows (l.map swapRow) := by
  unfold inverseVec
  rw [ratVector_eq]
  have hb : broadcastAlt (min (c.map (·.x)).length (c.map (·.y)).length) (c.map (·.z)) = .ok (c.map (·.z)) :=
    broadcastAlt_eq (by simp)
  rw [hb]
  dsimp only
  rw [zip_of_rows]
  cases mapFrom (ratAt r.inverse (invNorm r) (none, none) (c.map (·.z))) 0 (c.map fun p => (p.x, p.y, p.z)) with
  | error e => rfl
  | ok l => simp [bind, Except.bind, Except.map, pure, Except.pure, unrows, swapRow, Function.comp_def]

theorem inverseVec_some (r : Rpc K) (q : RatCoefs K) (hq : r.inverse = some q) (c : List (ORow K)) :
    inverseVec r (c.map (·.x)) (c.map (·.y)) (c.map (·.z)) = ((mapExcept (invPointCppThrow r q) c).mapError .throws).map unrows := by
  rw [inverseVec_rows, hq, ← mapFrom_mapExcept (invPointCppThrow r q) (ratAt (some q) (invNorm r) (none, none) (c.map (·.z))) swapRow
    (c.map fun p => (p.x, p.y, p.z)) c 0 (by simp) fun k a a' hk hk' => by
      rw [List.getElem?_map, hk', Option.map_some, Option.some.injEq] at hk
      subst hk
      exact ratAt_inv r q _ _ a' fun _ => by rw [Nat.zero_add]; simp only [vget, List.getElem?_map, hk', Option.map_some]]
  cases mapFrom (ratAt (some q) (invNorm r) (none, none) (c.map (·.z))) 0 (c.map fun p => (p.x, p.y, p.z)) <;> rfl

/-- C112: `RPCoptim.inverse_loc` of a model with inverse coefficients: what the loop over the vectors computes is the model of C20 and C21. -/
theorem C112_inverse (r : Rpc K) (q : RatCoefs K) (hq : r.inverse = some q) (lon lat alt : List (Option K)) :
    optimInverseVec r lon lat alt = (inverseLocOptim r q lon lat alt).mapError .throws := by
  unfold optimInverseVec inverseLocOptim
  cases stack3 lon lat alt with
  | error e => rfl
  | ok rows =>
    dsimp only
    rw [inverseVec_some r q hq]
    cases mapExcept (invPointCppThrow r q) (checkLonLat rows) with
    | error e => rfl
    | ok l => simp [Except.mapError, Except.map, rowsOf_unrows]

theorem ratAt_none (c : RatNorm K) (alt0 : List (Option K)) (i : ℕ) (p : ORow K) (h : vget alt0 i = .ok p.z) :
    (ratAt none c (none, none) alt0 i (p.x, p.y, p.z) = .error .uninitialised ∧ p.x.isSome ∧ p.y.isSome) ∨
    (ratAt none c (none, none) alt0 i (p.x, p.y, p.z) = .ok ⟨none, none, p.z⟩ ∧ (p.x = none ∨ p.y = none)) := by
  obtain ⟨_ | x, _ | y, z⟩ := p <;> simp only at h <;> simp [ratAt, h]

/-- C112: no call of `RPCoptim.inverse_loc` reads or writes a vector outside of its bounds, whatever the sizes of the arrays and the NaN in
them. -/
theorem C112_inverse_in_range (r : Rpc K) (lon lat alt : List (Option K)) : optimInverseVec r lon lat alt ≠ .error .outOfRange := by
  cases hq : r.inverse with
  | some q => rw [C112_inverse r q hq]; exact (mapError_throws_ne _).1
  | none =>
    unfold optimInverseVec
    cases stack3 lon lat alt with
    | error e => simp
    | ok rows =>
      dsimp only
      rw [inverseVec_rows, hq]
      cases hm : mapFrom (ratAt none (invNorm r) (none, none) ((checkLonLat rows).map (·.z))) 0 ((checkLonLat rows).map fun p => (p.x, p.y, p.z)) with
      | ok l => simp [Except.map]
      | error e =>
        obtain ⟨k, a, hk, hf, -⟩ := (mapFrom_error e).1 hm
        rw [List.getElem?_map] at hk
        cases hc : (checkLonLat rows)[k]? with
        | none => rw [hc] at hk; cases hk
        | some p =>
          rw [hc, Option.map_some, Option.some.injEq] at hk
          subst hk
          rw [Nat.zero_add] at hf
          rcases ratAt_none (invNorm r) ((checkLonLat rows).map (·.z)) k p (by simp only [vget, List.getElem?_map, hc, Option.map_some]) with ⟨h, -⟩ | ⟨h, -⟩
          · rw [h] at hf; injection hf with hf; subst hf; simp [Except.map]
          · rw [h] at hf; cases hf

/-- C112, a defect: without inverse coefficients `RPCoptim.inverse_loc` does not refuse.  It reads arrays that were never assigned as soon as one
of the points is a finite position in the range of longitudes and latitudes, and gives NaN otherwise. -/
theorem C112_inverse_without_coefficients (r : Rpc K) (hq : r.inverse = none) (lon lat alt : List (Option K)) (h1 : lat.length = lon.length)
    (h2 : alt.length = lon.length) :
    (optimInverseVec r lon lat alt = .error .uninitialised ↔
      ∃ (i : ℕ) (x y z : K), lon[i]? = some (some x) ∧ lat[i]? = some (some y) ∧ alt[i]? = some (some z) ∧ ValidLonLat x y) ∧
    (optimInverseVec r lon lat alt = .error .uninitialised ∨ optimInverseVec r lon lat alt = .ok (List.replicate lon.length nanRow)) := by
  set rows : List (ORow K) := (lon.zip (lat.zip alt)).map fun t => ⟨t.1, t.2.1, t.2.2⟩ with hrows
  have hs : stack3 lon lat alt = .ok rows := stack3_ok h1 h2
  have hlen : rows.length = lon.length := by simp [hrows, h1, h2]
  have hget : ∀ (i : ℕ) (p : ORow K), rows[i]? = some p ↔ lon[i]? = some p.x ∧ lat[i]? = some p.y ∧ alt[i]? = some p.z := by
    intro i p
    rw [hrows, List.getElem?_map]
    constructor
    · intro h
      cases ht : (lon.zip (lat.zip alt))[i]? with
      | none => rw [ht] at h; cases h
      | some t =>
        obtain ⟨f1, f2⟩ := List.getElem?_zip_eq_some.1 ht
        obtain ⟨f2, f3⟩ := List.getElem?_zip_eq_some.1 f2
        rw [ht, Option.map_some, Option.some.injEq] at h
        subst h
        exact ⟨f1, f2, f3⟩
    · rintro ⟨a1, a2, a3⟩
      rw [List.getElem?_zip_eq_some (z := (p.x, p.y, p.z)) |>.2 ⟨a1, List.getElem?_zip_eq_some.2 ⟨a2, a3⟩⟩]
      rfl
  have hcheck : ∀ p : ORow K, checkRow p = nanRow ∨ ((checkRow p).x.isSome ∧ (checkRow p).y.isSome ∧ ∃ x y z : K, p = ⟨some x, some y, some z⟩ ∧ ValidLonLat x y) := by
    rintro ⟨_ | x, _ | y, _ | z⟩ <;> simp only [checkRow, true_or]
    split_ifs with h
    · exact Or.inl rfl
    · push Not at h
      exact Or.inr ⟨rfl, rfl, x, y, z, rfl, h⟩
  have hvalid : ∀ x y z : K, ValidLonLat x y → checkRow (⟨some x, some y, some z⟩ : ORow K) = ⟨some x, some y, some z⟩ := by
    intro x y z h
    simp only [checkRow]
    rw [if_neg (by push Not; exact h)]
  have hat : ∀ (k : ℕ) (p : ORow K), rows[k]? = some p → vget ((checkLonLat rows).map (·.z)) k = .ok (checkRow p).z := fun k p h => by
    simp only [vget, List.getElem?_map, checkLonLat, h, Option.map_some]
  have hval : optimInverseVec r lon lat alt =
      match mapFrom (ratAt none (invNorm r) (none, none) ((checkLonLat rows).map (·.z))) 0 ((checkLonLat rows).map fun p => (p.x, p.y, p.z)) with
      | .error e => .error e
      | .ok l => .ok (l.map swapRow) := by
    unfold optimInverseVec
    rw [hs]
    dsimp only
    rw [inverseVec_rows, hq]
    cases mapFrom (ratAt none (invNorm r) (none, none) ((checkLonLat rows).map (·.z))) 0 ((checkLonLat rows).map fun p => (p.x, p.y, p.z)) with
    | error e => rfl
    | ok l => simp only [Except.map, rowsOf_unrows]
  have hk' : ∀ (k : ℕ) a, ((checkLonLat rows).map fun p => (p.x, p.y, p.z))[k]? = some a → ∃ p, rows[k]? = some p ∧
      a = ((checkRow p).x, (checkRow p).y, (checkRow p).z) := fun k a h => by
    rw [List.getElem?_map, checkLonLat, List.getElem?_map] at h
    cases hp : rows[k]? with
    | none => rw [hp] at h; cases h
    | some p => rw [hp] at h; injection h with h; exact ⟨p, rfl, h.symm⟩
  rw [hval]
  cases hm : mapFrom (ratAt none (invNorm r) (none, none) ((checkLonLat rows).map (·.z))) 0 ((checkLonLat rows).map fun p => (p.x, p.y, p.z)) with
  | error e =>
    obtain ⟨k, a, hk, hf, -⟩ := (mapFrom_error e).1 hm
    obtain ⟨p, hp, rfl⟩ := hk' k a hk
    rw [Nat.zero_add] at hf
    rcases ratAt_none (invNorm r) ((checkLonLat rows).map (·.z)) k (checkRow p) (hat k p hp) with ⟨h, hx, -⟩ | ⟨h, -⟩
    · rw [h] at hf; injection hf with hf; subst hf
      simp only [true_or, true_iff, and_true]
      rcases hcheck p with hn | ⟨-, -, x, y, z, rfl, hv⟩
      · rw [hn] at hx; cases hx
      · obtain ⟨a1, a2, a3⟩ := (hget k _).1 hp
        exact ⟨k, x, y, z, a1, a2, a3, hv⟩
    · rw [h] at hf; cases hf
  | ok l =>
    obtain ⟨hl, hok⟩ := mapFrom_ok hm
    have hll : l.length = lon.length := by rw [hl, List.length_map, checkLonLat, List.length_map, hlen]
    have hall : ∀ (k : ℕ) (p : ORow K), rows[k]? = some p → checkRow p = nanRow ∧ l[k]? = some nanRow := by
      intro k p hp
      obtain ⟨b, hb, hb'⟩ := hok k ((checkRow p).x, (checkRow p).y, (checkRow p).z) (by
        rw [List.getElem?_map, checkLonLat, List.getElem?_map, hp]; rfl)
      rw [Nat.zero_add] at hb'
      rcases hcheck p with hn | ⟨hx, hy, -⟩
      · refine ⟨hn, ?_⟩
        rcases ratAt_none (invNorm r) ((checkLonLat rows).map (·.z)) k (checkRow p) (hat k p hp) with ⟨h, hx, -⟩ | ⟨h, -⟩
        · rw [hn] at hx; cases hx
        · rw [h] at hb'; injection hb' with hb'; rw [hb, ← hb', hn]; rfl
      · rcases ratAt_none (invNorm r) ((checkLonLat rows).map (·.z)) k (checkRow p) (hat k p hp) with ⟨h, -⟩ | ⟨h, hn | hn⟩
        · rw [h] at hb'; cases hb'
        · rw [hn] at hx; cases hx
        · rw [hn] at hy; cases hy
    refine ⟨⟨fun h => by simp at h, ?_⟩, Or.inr ?_⟩
    · rintro ⟨i, x, y, z, a1, a2, a3, hv⟩
      have := (hall i ⟨some x, some y, some z⟩ ((hget i _).2 ⟨a1, a2, a3⟩)).1
      rw [hvalid x y z hv] at this
      simp [nanRow] at this
    · dsimp only
      congr 1
      refine List.ext_getElem? fun k => ?_
      rw [List.getElem?_map, List.getElem?_replicate]
      by_cases hk : k < lon.length
      · obtain ⟨p, hp⟩ : ∃ p, rows[k]? = some p := ⟨_, List.getElem?_eq_getElem (by rw [hlen]; exact hk)⟩
        rw [(hall k p hp).2, if_pos hk]; rfl
      · rw [if_neg hk, List.getElem?_eq_none (by omega)]; rfl

/-! ### The C++ functions themselves -/

/-- When the loop of `compute_rational_function_polynomial` leaves its vectors. -/
theorem ratVector_outOfRange (q : Option (RatCoefs K)) (c : RatNorm K) (fill : Option K × Option K) (a b alt : List (Option K)) :
    ratVector q c fill a b alt = .error .outOfRange ↔
      (alt = [] ∧ 0 < min a.length b.length) ∨
      ∃ k < min a.length b.length, alt.length ≤ k ∧ (a[k]? = some none ∨ b[k]? = some none) ∧
        ∀ j < k, ∀ x y, a[j]? = some (some x) → b[j]? = some (some y) → ∃ q', q = some q' ∧ ∀ z, alt.head? = some (some z) →
          polyCpp (preNorms ((x - c.offX) / c.scX) ((y - c.offY) / c.scY) ((z - c.offAlt) / c.scAlt)) q'.denA ≠ 0 ∧
          polyCpp (preNorms ((x - c.offX) / c.scX) ((y - c.offY) / c.scY) ((z - c.offAlt) / c.scAlt)) q'.denB ≠ 0 := by
  set n := min a.length b.length with hn
  rw [ratVector_eq]
  by_cases hlen : alt.length = n
  · rw [broadcastAlt_eq hlen]
    constructor
    · intro h
      cases hm : mapFrom (ratAt q c fill alt) 0 (a.zip (b.zip alt)) with
      | ok l => dsimp only at h; rw [hm] at h; cases h
      | error e =>
        dsimp only at h
        rw [hm] at h
        injection h with h
        subst h
        obtain ⟨k, ⟨x, y, z⟩, hk, hf, -⟩ := (mapFrom_error _).1 hm
        exfalso
        rw [Nat.zero_add] at hf
        obtain ⟨e1, e2⟩ := List.getElem?_zip_eq_some.1 hk
        obtain ⟨e2, e3⟩ := List.getElem?_zip_eq_some.1 e2
        have hv : vget alt k = .ok z := by simp only [vget, e3]
        rcases x with _ | x <;> rcases y with _ | y <;> simp only [ratAt, hv] at hf
        · cases hf
        · cases hf
        · cases hf
        · cases q with
          | none => injection hf with hf; cases hf
          | some q =>
            cases z with
            | none => cases hf
            | some z => dsimp only at hf; split_ifs at hf; injection hf with hf; cases hf
    · rintro (⟨rfl, h⟩ | ⟨k, hk, hk', -⟩)
      · simp only [List.length_nil] at hlen; omega
      · omega
  · cases alt with
    | nil =>
      have : broadcastAlt n ([] : List (Option K)) = .error .badSizes := by unfold broadcastAlt; rw [if_neg hlen]
      rw [this]
      simp only [List.length_nil] at hlen
      exact ⟨fun _ => Or.inl ⟨rfl, by omega⟩, fun _ => rfl⟩
    | cons z0 zs =>
      have hb : broadcastAlt n (z0 :: zs) = .ok (List.replicate n z0) := by unfold broadcastAlt; rw [if_neg hlen]
      rw [hb]
      dsimp only
      have hget : ∀ (k : ℕ) (x y z : Option K), (a.zip (b.zip (List.replicate n z0)))[k]? = some (x, y, z) ↔
          k < n ∧ a[k]? = some x ∧ b[k]? = some y ∧ z = z0 := by
        intro k x y z
        constructor
        · intro h
          obtain ⟨e1, e2⟩ := List.getElem?_zip_eq_some.1 h
          obtain ⟨e2, e3⟩ := List.getElem?_zip_eq_some.1 e2
          simp only [List.getElem?_replicate] at e3
          split_ifs at e3 with hk
          injection e3 with e3
          exact ⟨hk, e1, e2, e3.symm⟩
        · rintro ⟨hk, e1, e2, rfl⟩
          exact List.getElem?_zip_eq_some.2 ⟨e1, List.getElem?_zip_eq_some.2 ⟨e2, by rw [List.getElem?_replicate, if_pos hk]⟩⟩
      have herr : ∀ t : Except VecFault (List (ORow K)), Except.map unrows t = .error .outOfRange ↔ t = .error .outOfRange := fun t => by
        cases t <;> simp [Except.map]
      rw [herr, mapFrom_error]
      simp only [reduceCtorEq, false_and, false_or, Nat.zero_add, List.head?_cons, Option.some.injEq]
      constructor
      · rintro ⟨k, ⟨x, y, z⟩, hk, hf, hbef⟩
        obtain ⟨hkn, ha, hb', rfl⟩ := (hget k x y z).1 hk
        have hnan : x = none ∨ y = none := by
          rcases x with _ | x
          · exact Or.inl rfl
          · rcases y with _ | y
            · exact Or.inr rfl
            · exfalso
              simp only [ratAt] at hf
              cases q with
              | none => injection hf with hf; cases hf
              | some q =>
                cases z with
                | none => cases hf
                | some z => dsimp only at hf; split_ifs at hf; injection hf with hf; cases hf
        have hge : (z :: zs).length ≤ k := by
          by_contra hlt
          push Not at hlt
          have hv := vget_lt hlt
          rcases hnan with rfl | rfl
          · simp only [ratAt, hv] at hf; cases hf
          · cases x <;> simp only [ratAt, hv] at hf <;> cases hf
        refine ⟨k, hkn, hge, hnan.imp (fun h => by rw [ha, h]) (fun h => by rw [hb', h]), fun j hj u v hu hv => ?_⟩
        obtain ⟨p, hp⟩ := hbef j hj (some u, some v, z) ((hget j _ _ _).2 ⟨by omega, hu, hv, rfl⟩)
        simp only [ratAt] at hp
        cases q with
        | none => cases hp
        | some q =>
          refine ⟨q, rfl, fun w hw => ?_⟩
          subst hw
          dsimp only at hp
          by_contra hd
          rw [if_neg hd] at hp
          cases hp
      · rintro ⟨k, hkn, hge, hnan, hbef⟩
        -- the first NaN point after the end of the altitudes
        have hex : ∃ k, k < n ∧ (z0 :: zs).length ≤ k ∧ (a[k]? = some none ∨ b[k]? = some none) := ⟨k, hkn, hge, hnan⟩
        classical
        obtain ⟨m1, m2, m3⟩ := Nat.find_spec hex
        have hle : Nat.find hex ≤ k := Nat.find_min' hex ⟨hkn, hge, hnan⟩
        set m := Nat.find hex
        have ham : m < a.length := lt_of_lt_of_le m1 (min_le_left _ _)
        have hbm : m < b.length := lt_of_lt_of_le m1 (min_le_right _ _)
        refine ⟨m, (a[m], b[m], z0), (hget m _ _ _).2 ⟨m1, List.getElem?_eq_getElem ham, List.getElem?_eq_getElem hbm, rfl⟩, ?_, fun j hj t ht => ?_⟩
        · have hv := vget_ge m2
          rw [List.getElem?_eq_getElem ham, List.getElem?_eq_getElem hbm] at m3
          rcases m3 with m3 | m3 <;> injection m3 with m3 <;> rw [m3]
          · simp only [ratAt, hv]
          · cases a[m] <;> simp only [ratAt, hv]
        · obtain ⟨x, y, z⟩ := t
          obtain ⟨hjn, ha, hb', rfl⟩ := (hget j x y z).1 ht
          have hnn : (x = none ∨ y = none) → j < (z :: zs).length := fun h => by
            by_contra hlt
            exact Nat.find_min hex hj ⟨hjn, by omega, h.imp (fun h => by rw [ha, h]) (fun h => by rw [hb', h])⟩
          rcases x with _ | x
          · have hv := vget_lt (hnn (Or.inl rfl))
            simp only [ratAt, hv]
            exact ⟨_, rfl⟩
          · rcases y with _ | y
            · have hv := vget_lt (hnn (Or.inr rfl))
              simp only [ratAt, hv]
              exact ⟨_, rfl⟩
            · obtain ⟨q', rfl, hq'⟩ := hbef j (by omega) x y ha hb'
              simp only [ratAt]
              cases z with
              | none => exact ⟨_, rfl⟩
              | some z =>
                have := hq' z rfl
                dsimp only
                rw [if_pos this]
                exact ⟨_, rfl⟩

/-- C112: the vector `inverse_loc` of the C++ class leaves its vectors exactly when it is given no altitude for at least one point, or when, the
altitudes being fewer than the points, a NaN point comes after the end of the altitudes and no point before it ends the call. -/
theorem C112_raw_inverse (r : Rpc K) (lon lat alt : List (Option K)) :
    inverseVec r lon lat alt = .error .outOfRange ↔
      (alt = [] ∧ 0 < min lon.length lat.length) ∨
      ∃ k < min lon.length lat.length, alt.length ≤ k ∧ (lon[k]? = some none ∨ lat[k]? = some none) ∧
        ∀ j < k, ∀ x y, lon[j]? = some (some x) → lat[j]? = some (some y) →
          ∃ q, r.inverse = some q ∧ ∀ z, alt.head? = some (some z) → RatDefined r q x y z := by
  have h := ratVector_outOfRange r.inverse (invNorm r) (none, none) lon lat alt
  simp only [polyCpp_eq, polyPy_eq] at h
  have e : inverseVec r lon lat alt = .error .outOfRange ↔ ratVector r.inverse (invNorm r) (none, none) lon lat alt = .error .outOfRange := by
    unfold inverseVec
    cases ratVector r.inverse (invNorm r) (none, none) lon lat alt <;> simp [bind, Except.bind, pure, Except.pure]
  rw [e, h]
  rfl

/-- C112: the same for the vector `direct_loc_h` with direct coefficients. -/
theorem C112_raw_direct (r : Rpc K) (q : RatCoefs K) (hq : r.direct = some q) (row col alt : List (Option K)) (fillNan : Bool) :
    directHVec r row col alt fillNan true = .error .outOfRange ↔
      (alt = [] ∧ 0 < min row.length col.length) ∨
      ∃ k < min row.length col.length, alt.length ≤ k ∧ (row[k]? = some none ∨ col[k]? = some none) ∧
        ∀ j < k, ∀ x y, row[j]? = some (some x) → col[j]? = some (some y) → ∀ z, alt.head? = some (some z) → DirectDefined r q x y z := by
  have h := ratVector_outOfRange (some q) (dirNorm r) (fillLonLat r fillNan) col row alt
  simp only [polyCpp_eq, polyPy_eq] at h
  have e : directHVec r row col alt fillNan true = ratVector (some q) (dirNorm r) (fillLonLat r fillNan) col row alt := by
    rw [directHVec_eq, hq]
  rw [e, h, min_comm col.length]
  refine or_congr Iff.rfl (exists_congr fun k => and_congr Iff.rfl (and_congr Iff.rfl (and_congr or_comm ?_)))
  constructor
  · intro h j hj x y hx hy z hz
    obtain ⟨q', hq', h'⟩ := h j hj y x hy hx
    injection hq' with hq'
    subst hq'
    exact h' z hz
  · intro h j hj x y hx hy
    exact ⟨q, rfl, fun z hz => h j hj y x hy hx z hz⟩

/-- C112: the iterative direct location of the C++ class leaves its vectors exactly when it is given no altitude for at least one point; it reads
coefficients that were not given exactly when there are none and a pixel is finite. -/
theorem C112_raw_iterative (r : Rpc K) (nmax : ℕ) (row col alt : List (Option K)) (fillNan : Bool) :
    (iterVector r nmax fillNan row col alt = .error .outOfRange ↔ alt = [] ∧ 0 < min row.length col.length) ∧
    (alt ≠ [] → (iterVector r nmax fillNan row col alt = .error .uninitialised ↔
      r.inverse = none ∧ ∃ (i : ℕ) (x y : K), row[i]? = some (some x) ∧ col[i]? = some (some y))) ∧
    (∀ lon lat z, iterVector r nmax fillNan row col alt = .ok (lon, lat, z) →
      lon.length = min row.length col.length ∧ lat.length = min row.length col.length ∧ z.length = min row.length col.length) := by
  rw [iterVector_eq]
  cases hb : broadcastAlt (min row.length col.length) alt with
  | error e =>
    have : alt = [] ∧ 0 < min row.length col.length := by
      unfold broadcastAlt at hb
      split_ifs at hb with h
      cases alt with
      | nil => exact ⟨rfl, by simp only [List.length_nil] at h; omega⟩
      | cons a as => cases hb
    exact ⟨by simp [this], fun h => absurd this.1 h, by simp⟩
  | ok z =>
    have hz := broadcastAlt_length hb
    have hne : ¬ (alt = [] ∧ 0 < min row.length col.length) := by
      rintro ⟨rfl, h⟩
      unfold broadcastAlt at hb
      rw [if_neg (by simp only [List.length_nil]; omega)] at hb
      cases hb
    have hget : ∀ (k : ℕ) (x y w : Option K), (row.zip (col.zip z))[k]? = some (x, y, w) ↔ row[k]? = some x ∧ col[k]? = some y ∧ z[k]? = some w := by
      intro k x y w
      rw [List.getElem?_zip_eq_some]
      simp only [List.getElem?_zip_eq_some]
    dsimp only
    cases hm : mapFrom (fun _ => iterAt r nmax fillNan) 0 (row.zip (col.zip z)) with
    | error e =>
      obtain ⟨k, ⟨x, y, w⟩, hk, hf, -⟩ := (mapFrom_error e).1 hm
      obtain ⟨e1, e2, e3⟩ := (hget k x y w).1 hk
      have hi : r.inverse = none ∧ e = .uninitialised ∧ ∃ u v, x = some u ∧ y = some v := by
        rcases x with _ | x <;> rcases y with _ | y <;> simp only [iterAt] at hf
        · cases hf
        · cases hf
        · cases hf
        · cases hq : r.inverse with
          | none => simp only [hq] at hf; injection hf with hf; exact ⟨rfl, hf.symm, x, y, rfl, rfl⟩
          | some q => simp only [hq] at hf; cases hf
      obtain ⟨h1, rfl, u, v, rfl, rfl⟩ := hi
      exact ⟨⟨fun h => by simp [Except.map] at h, fun h => absurd h hne⟩, fun _ => by simpa [Except.map, h1] using ⟨k, ⟨u, e1⟩, v, e2⟩, by simp [Except.map]⟩
    | ok l =>
      obtain ⟨hl, hok⟩ := mapFrom_ok hm
      refine ⟨⟨fun h => by simp [Except.map] at h, fun h => absurd h hne⟩, fun _ => ?_, fun lon lat w h => ?_⟩
      · simp only [Except.map, reduceCtorEq, false_iff, not_and]
        rintro hq ⟨i, x, y, hx, hy⟩
        have hi : i < z.length := by
          rw [hz]
          exact lt_min (List.getElem?_eq_some_iff.1 hx).1 (List.getElem?_eq_some_iff.1 hy).1
        obtain ⟨b, -, hb'⟩ := hok i (some x, some y, z[i]) ((hget _ _ _ _).2 ⟨hx, hy, List.getElem?_eq_getElem hi⟩)
        simp only [iterAt, hq] at hb'
        cases hb'
      · simp only [Except.map, unrows, Except.ok.injEq, Prod.mk.injEq] at h
        obtain ⟨rfl, rfl, rfl⟩ := h
        have : l.length = min row.length col.length := by rw [hl]; simp only [List.length_zip, hz]; omega
        simp [this]

/-- C112: `los_extrema` never leaves its vectors, and gives the line of sight of the model of C25 and C73. -/
theorem C112_los_extrema (r : Rpc K) (row col altMin altMax : Option K) (fillNan : Bool) :
    losVec r row col altMin altMax fillNan ≠ .error .outOfRange ∧ losVec r row col altMin altMax fillNan ≠ .error .uninitialised ∧
    (∀ t, losVec r row col altMin altMax fillNan = .ok t ↔ losExtremaCpp r row col altMin altMax fillNan = .ok (rowsOf t) ∧
      t.1.length = t.2.1.length ∧ t.1.length = t.2.2.length) := by
  rw [losVec_eq]
  cases losExtremaCpp r row col altMin altMax fillNan with
  | error e => simp
  | ok l =>
    refine ⟨by simp, by simp, fun t => ?_⟩
    simp only [Except.ok.injEq]
    constructor
    · rintro rfl
      exact ⟨(rowsOf_unrows l).symm, by simp [unrows], by simp [unrows]⟩
    · rintro ⟨rfl, h1, h2⟩
      obtain ⟨a, b, c⟩ := t
      simp only at h1 h2
      simp only [unrows, rowsOf, List.map_map, Prod.mk.injEq]
      obtain ⟨f1, f2, f3, f4⟩ := zip3_maps (a := a) (b := b) (z := c) (n := a.length) le_rfl h1.le h2.symm
      refine ⟨?_, ?_, ?_⟩
      · exact f2.trans (List.take_length)
      · exact f3.trans (by rw [h1, List.take_length])
      · exact f4

/-! ### On a DTM -/

theorem mapFrom_ok_iff {α β : Type} {f : ℕ → α → Except VecFault β} {l : List α} {out : List β} {i : ℕ} :
    mapFrom f i l = .ok out ↔ out.length = l.length ∧ ∀ (k : ℕ) (a : α), l[k]? = some a → ∃ b, out[k]? = some b ∧ f (i + k) a = .ok b := by
  refine ⟨mapFrom_ok, ?_⟩
  induction l generalizing i out with
  | nil =>
    rintro ⟨h, -⟩
    rw [List.eq_nil_of_length_eq_zero h]
    rfl
  | cons a as ih =>
    rintro ⟨h, hp⟩
    cases out with
    | nil => simp at h
    | cons o os =>
      obtain ⟨b, hb, hf⟩ := hp 0 a rfl
      simp only [List.getElem?_cons_zero, Option.some.injEq] at hb
      subst hb
      rw [Nat.add_zero] at hf
      have := ih (i := i + 1) (out := os) ⟨by simpa using h, fun k x hk => by
        obtain ⟨b, hb, hf⟩ := hp (k + 1) x (by simpa using hk)
        exact ⟨b, by simpa using hb, by rw [← hf]; congr 1; omega⟩⟩
      simp only [mapFrom, hf, this]

theorem mapExcept_ok_iff {α β : Type} {f : α → Except RpcError β} {l : List α} {out : List β} :
    mapExcept f l = .ok out ↔ out.length = l.length ∧ ∀ (k : ℕ) (a : α), l[k]? = some a → ∃ b, out[k]? = some b ∧ f a = .ok b := by
  refine ⟨mapExcept_get f l out, ?_⟩
  induction l generalizing out with
  | nil =>
    rintro ⟨h, -⟩
    rw [List.eq_nil_of_length_eq_zero h]
    rfl
  | cons a as ih =>
    rintro ⟨h, hp⟩
    cases out with
    | nil => simp at h
    | cons o os =>
      obtain ⟨b, hb, hf⟩ := hp 0 a rfl
      simp only [List.getElem?_cons_zero, Option.some.injEq] at hb
      subst hb
      have := ih (out := os) ⟨by simpa using h, fun k x hk => by simpa using hp (k + 1) x (by simpa using hk)⟩
      simp only [mapExcept, hf, this]

theorem checkDtmPoint_failure (p : DtmPoint K) : checkDtmPoint p = .failure ↔ p = .failure := by
  cases p <;> simp only [checkDtmPoint, reduceCtorEq]
  split_ifs <;> simp

theorem dtmAt_ok (N : ℕ) (r : Rpc K) (d : Dtm K) (col : List (Option K)) (i : ℕ) (x : Option K) (p : DtmPoint K) :
    dtmAt N r d col i x = .ok p ↔ ∃ y l, col[i]? = some y ∧ losExtremaCpp r x y (some (d.altMin - 1)) (some (d.altMax + 1)) false = .ok l ∧
      losDtmO .cpp d N l = p ∧ p ≠ .failure := by
  unfold dtmAt vget
  cases hy : col[i]? with
  | none => simp
  | some y =>
    dsimp only
    cases hl : losExtremaCpp r x y (some (d.altMin - 1)) (some (d.altMax + 1)) false with
    | error e =>
      simp only [reduceCtorEq, false_iff]
      rintro ⟨y', l', h1, h2, -⟩
      injection h1 with h1
      subst h1
      rw [hl] at h2
      cases h2
    | ok l =>
      dsimp only
      have key : (∃ y' l', some y = some y' ∧ losExtremaCpp r x y' (some (d.altMin - 1)) (some (d.altMax + 1)) false = .ok l' ∧
          losDtmO .cpp d N l' = p ∧ p ≠ .failure) ↔ losDtmO .cpp d N l = p ∧ p ≠ .failure := by
        constructor
        · rintro ⟨y', l', h1, h2, h3, h4⟩
          injection h1 with h1
          subst h1
          rw [hl] at h2
          injection h2 with h2
          subst h2
          exact ⟨h3, h4⟩
        · rintro ⟨h3, h4⟩
          exact ⟨y, l, rfl, hl, h3, h4⟩
      rw [key]
      cases h : losDtmO .cpp d N l with
      | failure => simp only [reduceCtorEq, false_iff]; rintro ⟨h3, h4⟩; exact h4 h3.symm
      | _ =>
        simp only [Except.ok.injEq]
        exact ⟨fun h' => ⟨h', h' ▸ by simp⟩, fun h' => h'.1⟩

theorem dtmAt_range (N : ℕ) (r : Rpc K) (d : Dtm K) (col : List (Option K)) (i : ℕ) (x : Option K) :
    dtmAt N r d col i x = .error .outOfRange ↔ col.length ≤ i := by
  unfold dtmAt
  by_cases h : i < col.length
  · rw [vget_lt h]
    dsimp only
    cases losExtremaCpp r x col[i] (some (d.altMin - 1)) (some (d.altMax + 1)) false with
    | error e => simp [h]
    | ok l => dsimp only; cases losDtmO .cpp d N l <;> simp [h]
  · rw [vget_ge (by omega)]
    simp; omega

/-- C112: `RPCoptim.direct_loc_dtm` on a DTM in EPSG 4326, with at least as many columns as rows: it stays inside its vectors, and locates the
pixels made of each row and the column of the same rank, as the model of C73 does.  Columns in excess are ignored. -/
theorem C112_direct_dtm (N : ℕ) (r : Rpc K) (d : Dtm K) (row col : List (Option K)) (h : row.length ≤ col.length) :
    optimDirectDtmVec N r d row col ≠ .error .outOfRange ∧
    ∀ out, optimDirectDtmVec N r d row col = .ok out ↔ rpcOptimDirectDtm N r d row (col.take row.length) = .ok out ∧ .failure ∉ out := by
  have hlt : ∀ (k : ℕ) (x : Option K), row[k]? = some x → k < row.length := fun k x hk => (List.getElem?_eq_some_iff.1 hk).1
  unfold optimDirectDtmVec
  rw [directDtmVec_eq]
  refine ⟨?_, fun out => ?_⟩
  · cases hm : mapFrom (dtmAt N r d col) 0 row with
    | ok l => simp
    | error e =>
      dsimp only
      intro he
      injection he with he
      subst he
      obtain ⟨k, x, hk, hf, -⟩ := (mapFrom_error _).1 hm
      have h1 := (dtmAt_range N r d col _ x).1 hf
      have := hlt k x hk
      omega
  · have hl : row.length = (col.take row.length).length := by rw [List.length_take]; omega
    have hzip : ∀ (k : ℕ) (x y : Option K), (row.zip (col.take row.length))[k]? = some (x, y) ↔ row[k]? = some x ∧ col[k]? = some y := by
      intro k x y
      rw [List.getElem?_zip_eq_some]
      refine and_congr_right fun hk => ?_
      rw [List.getElem?_take_of_lt (hlt k x hk)]
    unfold rpcOptimDirectDtm
    rw [if_pos hl, mapExcept_ok_iff]
    have hlz : (row.zip (col.take row.length)).length = row.length := by rw [List.length_zip, ← hl, min_self]
    rw [hlz]
    constructor
    · intro ho
      cases hm : mapFrom (dtmAt N r d col) 0 row with
      | error e => rw [hm] at ho; cases ho
      | ok l =>
        rw [hm] at ho
        injection ho with ho
        subst ho
        obtain ⟨h1, h2⟩ := mapFrom_ok_iff.1 hm
        refine ⟨⟨by rw [List.length_map, h1], fun k a hk => ?_⟩, fun hf => ?_⟩
        · obtain ⟨x, y⟩ := a
          obtain ⟨e1, e2⟩ := (hzip k x y).1 hk
          obtain ⟨b, hb, hb'⟩ := h2 k x e1
          obtain ⟨y', l', f1, f2, f3, -⟩ := (dtmAt_ok N r d col _ x b).1 hb'
          rw [Nat.zero_add, e2] at f1
          injection f1 with f1
          subst f1
          refine ⟨checkDtmPoint b, by rw [List.getElem?_map, hb]; rfl, ?_⟩
          simp only [rpcOptimDtmPoint, f2, f3]
        · obtain ⟨p, hp, hp'⟩ := List.mem_map.1 hf
          rw [checkDtmPoint_failure] at hp'
          subst hp'
          obtain ⟨k, hk⟩ := List.mem_iff_getElem?.1 hp
          have hkl : k < row.length := by rw [← h1]; exact (List.getElem?_eq_some_iff.1 hk).1
          obtain ⟨b, hb, hb'⟩ := h2 k row[k] (List.getElem?_eq_getElem hkl)
          rw [hk] at hb
          injection hb with hb
          subst hb
          obtain ⟨-, -, -, -, -, f4⟩ := (dtmAt_ok N r d col _ _ _).1 hb'
          exact f4 rfl
    · rintro ⟨⟨h1, h2⟩, hnf⟩
      -- the points before the check of longitudes and latitudes
      have hp : ∀ k (hk : k < row.length), ∃ p, dtmAt N r d col k row[k] = .ok p ∧ out[k]? = some (checkDtmPoint p) := by
        intro k hk
        have hkc : k < col.length := by omega
        obtain ⟨b, hb, hb'⟩ := h2 k (row[k], col[k]) ((hzip k _ _).2 ⟨List.getElem?_eq_getElem hk, List.getElem?_eq_getElem hkc⟩)
        simp only [rpcOptimDtmPoint] at hb'
        cases hlos : losExtremaCpp r row[k] col[k] (some (d.altMin - 1)) (some (d.altMax + 1)) false with
        | error e => simp only [hlos] at hb'; cases hb'
        | ok l =>
          simp only [hlos] at hb'
          injection hb' with hb'
          refine ⟨losDtmO .cpp d N l, (dtmAt_ok N r d col k _ _).2 ⟨col[k], l, List.getElem?_eq_getElem hkc, hlos, rfl, fun hf => ?_⟩, by rw [hb, hb']⟩
          rw [hf] at hb'
          exact hnf (List.mem_iff_getElem?.2 ⟨k, by rw [hb, ← hb']; rfl⟩)
      choose g hg1 hg2 using hp
      have hm : mapFrom (dtmAt N r d col) 0 row = .ok (List.ofFn fun k : Fin row.length => g k.1 k.2) := by
        refine mapFrom_ok_iff.2 ⟨by simp, fun k x hk => ?_⟩
        have hkl := hlt k x hk
        refine ⟨g k hkl, by simp [List.getElem?_ofFn, hkl], ?_⟩
        rw [Nat.zero_add]
        have : row[k] = x := (List.getElem?_eq_some_iff.1 hk).2
        rw [← this]
        exact hg1 k hkl
      rw [hm]
      dsimp only
      congr 1
      refine List.ext_getElem? fun k => ?_
      by_cases hk : k < row.length
      · rw [hg2 k hk, List.getElem?_map]
        simp [List.getElem?_ofFn, hk]
      · rw [List.getElem?_eq_none (by simp; omega), List.getElem?_eq_none (by omega)]

/-- C112, a defect: with fewer columns than rows no call of `RPCoptim.direct_loc_dtm` on a DTM in EPSG 4326 ends normally; unless a line of sight
fails before, the column after the last one is read. -/
theorem C112_short_columns (N : ℕ) (r : Rpc K) (d : Dtm K) (row col : List (Option K)) (h : col.length < row.length) :
    (∀ out, optimDirectDtmVec N r d row col ≠ .ok out) ∧
    (optimDirectDtmVec N r d row col = .error .outOfRange ↔ ∀ (k : ℕ) x y, row[k]? = some x → col[k]? = some y →
      ∃ l, losExtremaCpp r x y (some (d.altMin - 1)) (some (d.altMax + 1)) false = .ok l ∧ losDtmO .cpp d N l ≠ .failure) := by
  unfold optimDirectDtmVec
  rw [directDtmVec_eq]
  have hno : ∀ l, mapFrom (dtmAt N r d col) 0 row ≠ .ok l := by
    intro l hm
    obtain ⟨b, -, hb⟩ := (mapFrom_ok hm).2 col.length row[col.length] (List.getElem?_eq_getElem h)
    rw [Nat.zero_add, (dtmAt_range N r d col _ _).2 le_rfl] at hb
    cases hb
  refine ⟨fun out ho => ?_, ?_⟩
  · cases hm : mapFrom (dtmAt N r d col) 0 row with
    | error e => rw [hm] at ho; cases ho
    | ok l => exact hno l hm
  · refine Iff.trans (b := mapFrom (dtmAt N r d col) 0 row = .error .outOfRange) (by cases mapFrom (dtmAt N r d col) 0 row <;> simp) ?_
    rw [mapFrom_error]
    constructor
    · rintro ⟨k, x, hk, hf, hb⟩ j u v hu hv
      rw [Nat.zero_add] at hf
      have hkc := (dtmAt_range N r d col k x).1 hf
      have hj : j < col.length := (List.getElem?_eq_some_iff.1 hv).1
      obtain ⟨p, hp⟩ := hb j (by omega) u hu
      rw [Nat.zero_add] at hp
      obtain ⟨y, l, f1, f2, f3, f4⟩ := (dtmAt_ok N r d col j u p).1 hp
      rw [hv] at f1
      injection f1 with f1
      subst f1
      exact ⟨l, f2, f3 ▸ f4⟩
    · intro hall
      refine ⟨col.length, row[col.length], List.getElem?_eq_getElem h, by rw [Nat.zero_add]; exact (dtmAt_range N r d col _ _).2 le_rfl,
        fun j hj u hu => ?_⟩
      obtain ⟨l, hl, hl'⟩ := hall j u col[j] hu (List.getElem?_eq_getElem hj)
      exact ⟨losDtmO .cpp d N l, by rw [Nat.zero_add]; exact (dtmAt_ok N r d col j u _).2 ⟨col[j], l, List.getElem?_eq_getElem hj, hl, rfl, hl'⟩⟩

/-! ### Colocalisation -/

/-- C112: the vector `coloc` with altitudes: it leaves its vectors exactly when no altitude is given for at least one point; otherwise it is the
model of C54 and C70. -/
theorem C112_coloc (N : ℕ) (r1 r2 : Rpc K) (q2 : RatCoefs K) (h2 : r2.inverse = some q2) (row col alt : List (Option K)) :
    (colocVec r1 r2 row col alt = .error .outOfRange ↔ r1.inverse.isSome ∧ alt = [] ∧ 0 < min row.length col.length) ∧
    (¬(alt = [] ∧ 0 < min row.length col.length) →
      colocVec r1 r2 row col alt = ((colocVector N r1 r2 (.values alt) row col).mapError .throws).map unrows) := by
  unfold colocVec colocVector directVector
  rw [directHVec_eq]
  cases h1 : r1.inverse with
  | none => simp [bind, Except.bind, Except.mapError, Except.map]
  | some q1 =>
    simp only [iterVector_some r1 q1 h1, Option.isSome_some, true_and]
    cases hb : broadcastAlt (min row.length col.length) alt with
    | error e =>
      have : alt = [] ∧ 0 < min row.length col.length := by
        unfold broadcastAlt at hb
        split_ifs at hb with h
        cases alt with
        | nil => exact ⟨rfl, by simp only [List.length_nil] at h; omega⟩
        | cons a as => cases hb
      exact ⟨⟨fun _ => this, fun _ => rfl⟩, fun h => absurd this h⟩
    | ok z =>
      have hne : ¬ (alt = [] ∧ 0 < min row.length col.length) := by
        rintro ⟨rfl, h⟩
        unfold broadcastAlt at hb
        rw [if_neg (by simp only [List.length_nil]; omega)] at hb
        cases hb
      simp only [bind, Except.bind]
      have e := inverseVec_some r2 q2 h2 ((row.zip (col.zip z)).map (iterPointCpp r1 q1 false))
      refine ⟨⟨fun h => ?_, fun h => absurd h hne⟩, fun _ => ?_⟩
      · simp only [unrows] at h
        rw [e] at h
        cases hm : mapExcept (invPointCppThrow r2 q2) ((row.zip (col.zip z)).map (iterPointCpp r1 q1 false)) with
        | error e' => rw [hm] at h; injection h with h; cases h
        | ok l => rw [hm] at h; cases h
      · simp only [unrows]
        rw [e]
        simp only [inverseVector, h2]

/-! ### Cases -/

/-- C112, a defect: with one altitude for two points, the altitude of a NaN point is read after the end of the vector. -/
theorem C112_nan_point_is_read_outside :
    inverseVec demoRpc [some 10, none] [some 20, some 20] [some 150] = .error .outOfRange ∧
    directHVec directOnlyRpc [some 300, none] [some 500, some 1] [some 150] false true = .error .outOfRange := by
  decide +kernel

/-- C112, a defect: without altitude the first one is read all the same. -/
theorem C112_no_altitude_is_read_outside :
    inverseVec demoRpc [some 10] [some 20] [] = .error .outOfRange ∧ iterVector demoRpc 10 false [some 300] [some 500] [] = .error .outOfRange := by
  decide +kernel

/-- C112, a defect: a model with direct coefficients only uses arrays that were never assigned. -/
theorem C112_unassigned_coefficients :
    optimInverseVec directOnlyRpc [some 10] [some 20] [some 150] = .error .uninitialised ∧
    iterVector directOnlyRpc 10 false [some 300] [some 500] [some 150] = .error .uninitialised := by
  decide +kernel

/-- C112, a case of the class: arrays of three sizes, and a NaN pixel after the end of the altitudes that were given. -/
example : optimDirectHVec directOnlyRpc [some 300, none, some 200] [some 500, some 1] [some 150] true true =
    .ok [⟨some (21 / 2), some (81 / 4), some 150⟩, ⟨some 10, some 20, some 150⟩] := by
  decide +kernel

/-- C112, a defect: two rows and one column on a flat terrain. -/
theorem C112_short_columns_example :
    optimDirectDtmVec 10 demoRpc ⟨fun i j => if i = 4 ∧ j = 4 then 110 else 100, 5, 5, ⟨1, 0, 8, 0, 1, 18⟩⟩ [some 300, some 300] [some 500] =
      .error .outOfRange := by
  decide +kernel

/-- C112, a case of the location on a terrain: one column too many. -/
example : ∃ out, optimDirectDtmVec 10 demoRpc ⟨fun i j => if i = 4 ∧ j = 4 then 110 else 100, 5, 5, ⟨1, 0, 8, 0, 1, 18⟩⟩ [some 300, none]
    [some 500, some 500, some 1] = .ok out ∧ out = [.point ⟨10, 20, 100⟩, .nan] := by
  refine ⟨_, ?_, rfl⟩
  decide +kernel

/-- C112, a case of the two conditions of the vector functions. -/
example : inverseVec demoRpc [none, some 10] [some 20, some 20] [some 150] = .ok ([none, some 375], [none, some 750], [some 150, some 150]) := by
  decide +kernel

end Shareloc
