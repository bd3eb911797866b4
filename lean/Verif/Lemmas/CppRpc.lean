import Verif.Model.CppRpc
import Verif.Lemmas.Rpc

/-! The loops of the C++ RPC over its vectors, point by point. -/

set_option linter.unusedSectionVars false

namespace Shareloc
variable {K : Type} [Field K] [LinearOrder K] [IsStrictOrderedRing K] [FloorRing K]

theorem vget_append {α : Type} (p : List α) (x : α) (q : List α) {i : ℕ} (hi : i = p.length) : vget (p ++ x :: q) i = .ok x := by
  subst hi; unfold vget; simp

theorem vset_append {α : Type} (p : List α) (x y : α) (q : List α) {i : ℕ} (hi : i = p.length) : vset (p ++ x :: q) i y = .ok (p ++ y :: q) := by
  subst hi; unfold vset
  rw [if_pos (by simp)]
  simp

theorem vget_lt {α : Type} {v : List α} {i : ℕ} (h : i < v.length) : vget v i = .ok v[i] := by
  unfold vget; simp [h]

theorem vget_ge {α : Type} {v : List α} {i : ℕ} (h : v.length ≤ i) : vget v i = .error .outOfRange := by
  unfold vget; simp [h]

/-- One point of `compute_rational_function_polynomial`; the altitude of a NaN point is position `i` of `alt0`. -/
def ratAt (q : Option (RatCoefs K)) (c : RatNorm K) (fill : Option K × Option K) (alt0 : List (Option K)) (i : ℕ)
    (t : Option K × Option K × Option K) : Except VecFault (ORow K) :=
  match t with
  | (some x, some y, z) =>
    match q with
    | none => .error .uninitialised
    | some q =>
      match z with
      | none => .ok nanRow
      | some z =>
        let n := preNorms ((x - c.offX) / c.scX) ((y - c.offY) / c.scY) ((z - c.offAlt) / c.scAlt)
        if polyCpp n q.denA ≠ 0 ∧ polyCpp n q.denB ≠ 0 then
          .ok ⟨ratOut (polyCpp n q.numA) (polyCpp n q.denA) c.scA c.offA, ratOut (polyCpp n q.numB) (polyCpp n q.denB) c.scB c.offB, some z⟩
        else .error (.throws .zeroDivision)
  | _ =>
    match vget alt0 i with
    | .error e => .error e
    | .ok z => .ok ⟨fill.1, fill.2, z⟩

/-- A loop over points that stops at the first fault, with the index of the point. -/
def mapFrom {α β : Type} (f : ℕ → α → Except VecFault β) : ℕ → List α → Except VecFault (List β)
  | _, [] => .ok []
  | i, a :: as =>
    match f i a with
    | .error e => .error e
    | .ok b =>
      match mapFrom f (i + 1) as with
      | .error e => .error e
      | .ok bs => .ok (b :: bs)

theorem mapFrom_ok {α β : Type} {f : ℕ → α → Except VecFault β} {l : List α} {out : List β} {i : ℕ} (h : mapFrom f i l = .ok out) :
    out.length = l.length ∧ ∀ (k : ℕ) (a : α), l[k]? = some a → ∃ b, out[k]? = some b ∧ f (i + k) a = .ok b := by
  induction l generalizing i out with
  | nil => simp only [mapFrom, Except.ok.injEq] at h; subst h; simp
  | cons a as ih =>
    simp only [mapFrom] at h
    cases hf : f i a with
    | error e => simp only [hf] at h; cases h
    | ok b =>
      simp only [hf] at h
      cases hm : mapFrom f (i + 1) as with
      | error e => simp only [hm] at h; cases h
      | ok bs =>
        simp only [hm, Except.ok.injEq] at h
        subst h
        obtain ⟨h1, h2⟩ := ih hm
        refine ⟨by simp [h1], fun k x hk => ?_⟩
        cases k with
        | zero => simp only [List.getElem?_cons_zero, Option.some.injEq] at hk; subst hk; exact ⟨b, rfl, hf⟩
        | succ k =>
          obtain ⟨y, hy, hy'⟩ := h2 k x (by simpa using hk)
          exact ⟨y, by simpa using hy, by rw [← hy']; congr 1; omega⟩

theorem mapFrom_error {α β : Type} {f : ℕ → α → Except VecFault β} {l : List α} {i : ℕ} (e : VecFault) :
    mapFrom f i l = .error e ↔ ∃ (k : ℕ) (a : α), l[k]? = some a ∧ f (i + k) a = .error e ∧
      ∀ j < k, ∀ b, l[j]? = some b → ∃ y, f (i + j) b = .ok y := by
  induction l generalizing i with
  | nil => simp [mapFrom]
  | cons a as ih =>
    simp only [mapFrom]
    cases hf : f i a with
    | error e' =>
      simp only [Except.error.injEq]
      constructor
      · rintro rfl
        exact ⟨0, a, rfl, hf, fun j hj => by omega⟩
      · rintro ⟨k, x, hk, hx, hb⟩
        cases k with
        | zero => simp only [List.getElem?_cons_zero, Option.some.injEq] at hk; subst hk; rw [Nat.add_zero, hf] at hx; injection hx
        | succ k =>
          obtain ⟨y, hy⟩ := hb 0 (by omega) a rfl
          rw [Nat.add_zero, hf] at hy; cases hy
    | ok b =>
      simp only
      have key : (∃ (k : ℕ) (x : α), (a :: as)[k]? = some x ∧ f (i + k) x = .error e ∧
          ∀ j < k, ∀ b, (a :: as)[j]? = some b → ∃ y, f (i + j) b = .ok y) ↔ mapFrom f (i + 1) as = .error e := by
        rw [ih]
        constructor
        · rintro ⟨k, x, hk, hx, hb⟩
          cases k with
          | zero => simp only [List.getElem?_cons_zero, Option.some.injEq] at hk; subst hk; rw [Nat.add_zero, hf] at hx; cases hx
          | succ k =>
            refine ⟨k, x, by simpa using hk, by rw [← hx]; congr 1; omega, fun j hj y hy => ?_⟩
            obtain ⟨w, hw⟩ := hb (j + 1) (by omega) y (by simpa using hy)
            exact ⟨w, by rw [← hw]; congr 1; omega⟩
        · rintro ⟨k, x, hk, hx, hb⟩
          refine ⟨k + 1, x, by simpa using hk, by rw [← hx]; congr 1; omega, fun j hj y hy => ?_⟩
          cases j with
          | zero => simp only [List.getElem?_cons_zero, Option.some.injEq] at hy; subst hy; exact ⟨b, by simpa using hf⟩
          | succ j =>
            obtain ⟨w, hw⟩ := hb j (by omega) y (by simpa using hy)
            exact ⟨w, by rw [← hw]; congr 1; omega⟩
      rw [key]
      cases hm : mapFrom f (i + 1) as with
      | error e' => simp
      | ok bs => simp

theorem mapFrom_mapExcept {α α' β β' : Type} (f : α' → Except RpcError β') (g : ℕ → α → Except VecFault β) (w : β → β') (l : List α) (l' : List α')
    (i : ℕ) (hl : l.length = l'.length)
    (h : ∀ (k : ℕ) (a : α) (a' : α'), l[k]? = some a → l'[k]? = some a' → (g (i + k) a).map w = (f a').mapError .throws) :
    (mapFrom g i l).map (List.map w) = (mapExcept f l').mapError .throws := by
  induction l generalizing i l' with
  | nil =>
    cases l' with
    | nil => rfl
    | cons a as => simp at hl
  | cons a as ih =>
    cases l' with
    | nil => simp at hl
    | cons a' as' =>
      simp only [mapFrom, mapExcept]
      have h0 := h 0 a a' rfl rfl
      rw [Nat.add_zero] at h0
      have := ih as' (i + 1) (by simpa using hl) fun k x x' hk hk' => by
        rw [← h (k + 1) x x' (by simpa using hk) (by simpa using hk')]
        congr 2; omega
      cases hg : g i a with
      | error e =>
        rw [hg] at h0
        cases hf : f a' with
        | error e' => rw [hf] at h0; injection h0 with h0; rw [h0]; rfl
        | ok b => rw [hf] at h0; cases h0
      | ok b =>
        rw [hg] at h0
        cases hf : f a' with
        | error e' => rw [hf] at h0; cases h0
        | ok b' =>
          rw [hf] at h0
          injection h0 with h0
          cases hm : mapFrom g (i + 1) as <;> cases hm' : mapExcept f as' <;> rw [hm, hm'] at this <;> simp only [Except.map, Except.mapError] at this ⊢
          · injection this with this; rw [this]
          · cases this
          · cases this
          · injection this with this; rw [← this, ← h0]; rfl

/-- The first two coordinates and the altitude of a list of rows. -/
def unrows (l : List (ORow K)) : List (Option K) × List (Option K) × List (Option K) := (l.map (·.x), l.map (·.y), l.map (·.z))

theorem rowsOf_unrows (l : List (ORow K)) : rowsOf (unrows l) = l := by
  induction l with
  | nil => rfl
  | cons a as ih =>
    simp only [rowsOf, unrows, List.map_cons, List.zip_cons_cons] at ih ⊢
    rw [ih]

theorem ratLoop (q : Option (RatCoefs K)) (c : RatNorm K) (fill : Option K × Option K) (alt0 : List (Option K))
    (ts : List (Option K × Option K × Option K)) (pl pb pz oa ob oz : List (Option K)) (i : ℕ)
    (h1 : i = pl.length) (h2 : i = pb.length) (h3 : i = pz.length) (h4 : i = oa.length) (h5 : i = ob.length) (h6 : i = oz.length) :
    (forFrom (ratBody q c fill alt0) ts.length i ⟨pl ++ ts.map (·.1), pb ++ ts.map (·.2.1), pz ++ ts.map (·.2.2),
      oa ++ zeros ts.length, ob ++ zeros ts.length, oz ++ zeros ts.length⟩).map (fun s => (s.outA, s.outB, s.outAlt)) =
    (mapFrom (ratAt q c fill alt0) i ts).map fun l => (oa ++ l.map (·.x), ob ++ l.map (·.y), oz ++ l.map (·.z)) := by
  induction ts generalizing pl pb pz oa ob oz i with
  | nil => simp [forFrom, mapFrom, Except.map, zeros]
  | cons t ts ih =>
    obtain ⟨x, y, z⟩ := t
    have hb : ratBody q c fill alt0 i ⟨pl ++ x :: ts.map (·.1), pb ++ y :: ts.map (·.2.1), pz ++ z :: ts.map (·.2.2),
        oa ++ some 0 :: zeros ts.length, ob ++ some 0 :: zeros ts.length, oz ++ some 0 :: zeros ts.length⟩ =
      (ratAt q c fill alt0 i (x, y, z)).map fun p =>
        (⟨pl ++ (if x.isSome ∧ y.isSome then x.map fun v => (v - c.offX) / c.scX else x) :: ts.map (·.1),
          pb ++ (if x.isSome ∧ y.isSome then y.map fun v => (v - c.offY) / c.scY else y) :: ts.map (·.2.1),
          pz ++ (if x.isSome ∧ y.isSome then z.map fun v => (v - c.offAlt) / c.scAlt else z) :: ts.map (·.2.2),
          oa ++ p.x :: zeros ts.length, ob ++ p.y :: zeros ts.length, oz ++ p.z :: zeros ts.length⟩ : RatVecs K) := by
      unfold ratBody nanAt normAt
      rcases x with _ | x
      · simp only [vget_append _ _ _ h1, vset_append _ _ _ _ h4, vset_append _ _ _ _ h5, vset_append _ _ _ _ h6, bind, Except.bind, ratAt]
        cases vget alt0 i <;> simp [Except.map, pure, Except.pure]
      · rcases y with _ | y
        · simp only [vget_append _ _ _ h1, vget_append _ _ _ h2, vset_append _ _ _ _ h4, vset_append _ _ _ _ h5, vset_append _ _ _ _ h6, bind,
            Except.bind, ratAt, Option.isNone_none]
          cases vget alt0 i <;> simp [Except.map, pure, Except.pure]
        · simp only [vget_append _ _ _ h1, vget_append _ _ _ h2, vget_append _ _ _ h3, vset_append _ _ _ _ h1, vset_append _ _ _ _ h2,
            vset_append _ _ _ _ h3, vset_append _ _ _ _ h4, vset_append _ _ _ _ h5, vset_append _ _ _ _ h6, bind, Except.bind, ratAt,
            Option.isNone_some, Option.map_some]
          rcases q with _ | q
          · simp [Except.map]
          · rcases z with _ | z
            · simp [Except.map, pure, Except.pure, nanRow]
            · simp only [Option.map_some, Bool.false_eq_true, if_false]
              split_ifs <;> simp_all [Except.map, pure, Except.pure]
    simp only [List.length_cons, List.map_cons, forFrom, mapFrom, zeros, List.replicate_succ] at hb ⊢
    rw [hb]
    cases ratAt q c fill alt0 i (x, y, z) with
    | error e => rfl
    | ok p =>
      have := ih (pl ++ [if x.isSome ∧ y.isSome then x.map fun v => (v - c.offX) / c.scX else x])
        (pb ++ [if x.isSome ∧ y.isSome then y.map fun v => (v - c.offY) / c.scY else y])
        (pz ++ [if x.isSome ∧ y.isSome then z.map fun v => (v - c.offAlt) / c.scAlt else z])
        (oa ++ [p.x]) (ob ++ [p.y]) (oz ++ [p.z]) (i + 1) (by simp [h1]) (by simp [h2]) (by simp [h3]) (by simp [h4]) (by simp [h5]) (by simp [h6])
      simp only [List.append_assoc, List.cons_append, List.nil_append, zeros] at this
      simp only [Except.map] at this ⊢
      rw [this]
      cases mapFrom (ratAt q c fill alt0) (i + 1) ts <;> rfl

theorem checkSizes_eq (a b alt : List (Option K)) :
    checkSizes a b alt =
      match broadcastAlt (min a.length b.length) alt with
      | .error _ => .error .outOfRange
      | .ok z => .ok (a.take (min a.length b.length), b.take (min a.length b.length), z) := by
  have hab : (if b.length < a.length then (a.take b.length, b) else if a.length < b.length then (a, b.take a.length) else (a, b)) =
      (a.take (min a.length b.length), b.take (min a.length b.length)) := by
    split_ifs with h1 h2
    · rw [min_eq_right h1.le, List.take_length]
    · rw [min_eq_left h2.le, List.take_length]
    · have : a.length = b.length := by omega
      rw [this, min_self, ← this, List.take_length, this, List.take_length]
  have hl : (a.take (min a.length b.length)).length = min a.length b.length := by simp
  simp only [checkSizes, hab, hl, broadcastAlt]
  by_cases h : alt.length = min a.length b.length
  · rw [if_neg (not_not.2 h), if_pos h]
  · rw [if_pos h, if_neg h]
    cases alt with
    | nil => rfl
    | cons z zs => rfl

theorem broadcastAlt_length {n : ℕ} {alt z : List (Option K)} (h : broadcastAlt n alt = .ok z) : z.length = n := by
  unfold broadcastAlt at h
  split_ifs at h with h1
  · injection h with h; rw [← h, h1]
  · cases alt with
    | nil => cases h
    | cons a as => injection h with h; rw [← h, List.length_replicate]

theorem zip3_maps {a b z : List (Option K)} {n : ℕ} (ha : n ≤ a.length) (hb : n ≤ b.length) (hz : z.length = n) :
    (a.zip (b.zip z)).length = n ∧ (a.zip (b.zip z)).map (·.1) = a.take n ∧ (a.zip (b.zip z)).map (·.2.1) = b.take n ∧
      (a.zip (b.zip z)).map (·.2.2) = z := by
  induction n generalizing a b z with
  | zero =>
    obtain rfl := List.eq_nil_of_length_eq_zero hz
    simp
  | succ n ih =>
    cases a with
    | nil => simp at ha
    | cons x a =>
      cases b with
      | nil => simp at hb
      | cons y b =>
        cases z with
        | nil => simp at hz
        | cons w z =>
          obtain ⟨h1, h2, h3, h4⟩ := ih (a := a) (b := b) (z := z) (by simpa using ha) (by simpa using hb) (by simpa using hz)
          simp only [List.zip_cons_cons, List.length_cons, List.map_cons, List.take_succ_cons, h1, h2, h3, h4, and_self]

theorem ratVector_eq (q : Option (RatCoefs K)) (c : RatNorm K) (fill : Option K × Option K) (a b alt : List (Option K)) :
    ratVector q c fill a b alt =
      match broadcastAlt (min a.length b.length) alt with
      | .error _ => .error .outOfRange
      | .ok z => (mapFrom (ratAt q c fill alt) 0 (a.zip (b.zip z))).map unrows := by
  unfold ratVector
  rw [checkSizes_eq]
  cases hz : broadcastAlt (min a.length b.length) alt with
  | error e => rfl
  | ok z =>
    obtain ⟨h1, h2, h3, h4⟩ := zip3_maps (min_le_left a.length b.length) (min_le_right _ _) (broadcastAlt_length hz)
    have := ratLoop q c fill alt (a.zip (b.zip z)) [] [] [] [] [] [] 0 rfl rfl rfl rfl rfl rfl
    rw [h2, h3, h4] at this
    simp only [List.nil_append] at this
    simp only [bind, Except.bind, List.length_take, min_eq_left (min_le_left a.length b.length)]
    rw [h1] at this
    change _ = Except.map unrows _ at this
    rw [← this]
    cases forFrom (ratBody q c fill alt) (min a.length b.length) 0 ⟨a.take (min a.length b.length), b.take (min a.length b.length), z,
      zeros (min a.length b.length), zeros (min a.length b.length), zeros (min a.length b.length)⟩ <;> rfl

theorem osub2_some (a : K) (b : Option K) : osub2 (some a) b = osub a b := by cases b <;> rfl

theorem iterWhile_eq (r : Rpc K) (q : RatCoefs K) (hq : r.inverse = some q) (row col alt : List (Option K)) (i : ℕ) (w c : K) (z : Option K)
    (hw : vget row i = .ok (some w)) (hc : vget col i = .ok (some c)) (hz : vget alt i = .ok z) (n : ℕ) (ol ob tl tb : List (Option K))
    (h1 : i = ol.length) (h2 : i = ob.length) (s : Newton K) :
    iterWhile r row col alt i n ⟨ol ++ s.lon :: tl, ob ++ s.lat :: tb⟩ (s.dcol, s.drow) =
      .ok ⟨ol ++ (loopCpp r q ⟨w, c, z⟩ n s).1.lon :: tl, ob ++ (loopCpp r q ⟨w, c, z⟩ n s).1.lat :: tb⟩ := by
  induction n generalizing s with
  | zero => rfl
  | succ n ih =>
    simp only [iterWhile, loopCpp, needsIter]
    by_cases h : (overEps s.dcol || overEps s.drow) = true
    · simp only [h, if_true]
      have ht : iterTurn r row col alt i ⟨ol ++ s.lon :: tl, ob ++ s.lat :: tb⟩ (s.dcol, s.drow) =
          .ok (⟨ol ++ (newtonStep (invPointCpp r q) (derivOptCpp r q) ⟨w, c, z⟩ s).lon :: tl,
            ob ++ (newtonStep (invPointCpp r q) (derivOptCpp r q) ⟨w, c, z⟩ s).lat :: tb⟩,
            ((newtonStep (invPointCpp r q) (derivOptCpp r q) ⟨w, c, z⟩ s).dcol, (newtonStep (invPointCpp r q) (derivOptCpp r q) ⟨w, c, z⟩ s).drow)) := by
        unfold iterTurn
        simp only [vget_append _ _ _ h1, vget_append _ _ _ h2, vset_append _ _ _ _ h1, vset_append _ _ _ _ h2, hw, hc, hz, hq, bind, Except.bind,
          inverseOne, osub2_some, pure, Except.pure]
        rfl
      rw [ht]
      exact ih _
    · simp only [h, if_false, Bool.false_eq_true]

/-- One point of `direct_loc_inverse_iterative`. -/
def iterAt (r : Rpc K) (nmax : ℕ) (fillNan : Bool) (t : Option K × Option K × Option K) : Except VecFault (ORow K) :=
  match t with
  | (some row, some col, alt) =>
    match r.inverse with
    | none => .error .uninitialised
    | some q => .ok ⟨(iterCpp r q nmax ⟨row, col, alt⟩).1.lon, (iterCpp r q nmax ⟨row, col, alt⟩).1.lat, alt⟩
  | (_, _, alt) => .ok ⟨(fillLonLat r fillNan).1, (fillLonLat r fillNan).2, alt⟩

theorem iterBody_eq (r : Rpc K) (nmax : ℕ) (fillNan : Bool) (row col alt : List (Option K)) (i : ℕ) (w c z : Option K)
    (hw : vget row i = .ok w) (hc : vget col i = .ok c) (hz : vget alt i = .ok z) (ol ob tl tb : List (Option K)) (x0 y0 : Option K)
    (h1 : i = ol.length) (h2 : i = ob.length) :
    iterBody r nmax fillNan row col alt i ⟨ol ++ x0 :: tl, ob ++ y0 :: tb⟩ =
      (iterAt r nmax fillNan (w, c, z)).map fun p => ⟨ol ++ p.x :: tl, ob ++ p.y :: tb⟩ := by
  unfold iterBody nanAt
  rcases w with _ | w
  · simp only [hw, vset_append _ _ _ _ h1, vset_append _ _ _ _ h2, bind, Except.bind, iterAt]
    rfl
  · rcases c with _ | c
    · simp only [hw, hc, vset_append _ _ _ _ h1, vset_append _ _ _ _ h2, bind, Except.bind, iterAt]
      rfl
    · simp only [hw, hc, hz, vset_append _ _ _ _ h1, vset_append _ _ _ _ h2, vget_append _ _ _ h1, vget_append _ _ _ h2, bind, Except.bind, iterAt,
        Option.isNone_some, Bool.false_eq_true, if_false, inverseOne]
      cases hq : r.inverse with
      | none => rfl
      | some q =>
        simp only [osub2_some]
        exact iterWhile_eq r q hq row col alt i w c z hw hc hz nmax ol ob tl tb h1 h2
          ⟨some r.offX, some r.offY, osub c (invPointCpp r q ⟨some r.offX, some r.offY, z⟩).y, osub w (invPointCpp r q ⟨some r.offX, some r.offY, z⟩).x⟩

theorem iterLoop (r : Rpc K) (nmax : ℕ) (fillNan : Bool) (ts : List (Option K × Option K × Option K)) (row col alt ol ob : List (Option K)) (i : ℕ)
    (h1 : i = ol.length) (h2 : i = ob.length)
    (h : ∀ (k : ℕ) t, ts[k]? = some t → vget row (i + k) = .ok t.1 ∧ vget col (i + k) = .ok t.2.1 ∧ vget alt (i + k) = .ok t.2.2) :
    (forFrom (iterBody r nmax fillNan row col alt) ts.length i ⟨ol ++ zeros ts.length, ob ++ zeros ts.length⟩).map (fun s => (s.lon, s.lat)) =
      (mapFrom (fun _ => iterAt r nmax fillNan) i ts).map fun l => (ol ++ l.map (·.x), ob ++ l.map (·.y)) := by
  induction ts generalizing ol ob i with
  | nil => simp [forFrom, mapFrom, Except.map, zeros]
  | cons t ts ih =>
    obtain ⟨w, c, z⟩ := t
    obtain ⟨a1, a2, a3⟩ := h 0 (w, c, z) rfl
    rw [Nat.add_zero] at a1 a2 a3
    simp only [List.length_cons, forFrom, mapFrom, zeros, List.replicate_succ]
    rw [iterBody_eq r nmax fillNan row col alt i w c z a1 a2 a3 ol ob _ _ _ _ h1 h2]
    cases iterAt r nmax fillNan (w, c, z) with
    | error e => rfl
    | ok p =>
      have := ih (ol ++ [p.x]) (ob ++ [p.y]) (i + 1) (by simp [h1]) (by simp [h2]) fun k t hk => by
        have e : i + 1 + k = i + (k + 1) := by omega
        rw [e]; exact h (k + 1) t (by simpa using hk)
      simp only [List.append_assoc, List.cons_append, List.nil_append, zeros] at this
      simp only [Except.map] at this ⊢
      rw [this]
      cases mapFrom (fun _ => iterAt r nmax fillNan) (i + 1) ts <;> rfl

theorem vget_take {α : Type} {v : List α} {n i : ℕ} (h : i < n) : vget (v.take n) i = vget v i := by
  unfold vget; rw [List.getElem?_take_of_lt h]

theorem iterAt_z {r : Rpc K} {nmax : ℕ} {fillNan : Bool} {t : Option K × Option K × Option K} {p : ORow K} (h : iterAt r nmax fillNan t = .ok p) :
    p.z = t.2.2 := by
  rcases t with ⟨_ | w, _ | c, z⟩ <;> simp only [iterAt] at h
  · injection h with h; rw [← h]
  · injection h with h; rw [← h]
  · injection h with h; rw [← h]
  · cases hq : r.inverse with
    | none => simp only [hq] at h; cases h
    | some q => simp only [hq] at h; injection h with h; rw [← h]

theorem mapFrom_iterAt_z {r : Rpc K} {nmax : ℕ} {fillNan : Bool} {ts : List (Option K × Option K × Option K)} {l : List (ORow K)} {i : ℕ}
    (h : mapFrom (fun _ => iterAt r nmax fillNan) i ts = .ok l) : l.map (·.z) = ts.map (·.2.2) := by
  obtain ⟨h1, h2⟩ := mapFrom_ok h
  refine List.ext_getElem? fun k => ?_
  rw [List.getElem?_map, List.getElem?_map]
  cases hk : ts[k]? with
  | none => rw [List.getElem?_eq_none (by rw [h1]; exact List.getElem?_eq_none_iff.1 hk)]; rfl
  | some t =>
    obtain ⟨b, hb, hb'⟩ := h2 k t hk
    rw [hb, Option.map_some, Option.map_some, iterAt_z hb']

theorem iterVector_eq (r : Rpc K) (nmax : ℕ) (fillNan : Bool) (row col alt : List (Option K)) :
    iterVector r nmax fillNan row col alt =
      match broadcastAlt (min row.length col.length) alt with
      | .error _ => .error .outOfRange
      | .ok z => (mapFrom (fun _ => iterAt r nmax fillNan) 0 (row.zip (col.zip z))).map unrows := by
  unfold iterVector
  rw [checkSizes_eq, min_comm col.length]
  cases hz : broadcastAlt (min row.length col.length) alt with
  | error e => rfl
  | ok z =>
    obtain ⟨h1, h2, h3, h4⟩ := zip3_maps (min_le_left row.length col.length) (min_le_right _ _) (broadcastAlt_length hz)
    have := iterLoop r nmax fillNan (row.zip (col.zip z)) (row.take (min row.length col.length)) (col.take (min row.length col.length)) z [] [] 0
      rfl rfl fun k t hk => by
        rw [Nat.zero_add, ← h2, ← h3]
        nth_rw 3 [← h4]
        simp only [vget, List.getElem?_map, hk, Option.map_some, and_self]
    rw [h1] at this
    simp only [List.nil_append] at this
    simp only [bind, Except.bind, List.length_take, min_eq_left (min_le_right row.length col.length)]
    cases hm : mapFrom (fun _ => iterAt r nmax fillNan) 0 (row.zip (col.zip z)) with
    | error e =>
      rw [hm] at this
      cases hf : forFrom (iterBody r nmax fillNan (row.take (min row.length col.length)) (col.take (min row.length col.length)) z)
        (min row.length col.length) 0 ⟨zeros (min row.length col.length), zeros (min row.length col.length)⟩ with
      | error e' => rw [hf] at this; injection this with this; rw [this]; rfl
      | ok s => rw [hf] at this; cases this
    | ok l =>
      rw [hm] at this
      have hzz := mapFrom_iterAt_z hm
      rw [h4] at hzz
      cases hf : forFrom (iterBody r nmax fillNan (row.take (min row.length col.length)) (col.take (min row.length col.length)) z)
        (min row.length col.length) 0 ⟨zeros (min row.length col.length), zeros (min row.length col.length)⟩ with
      | error e' => rw [hf] at this; cases this
      | ok s =>
        rw [hf] at this
        simp only [Except.map, Except.ok.injEq, Prod.mk.injEq] at this
        simp only [pure, Except.pure, Except.map, unrows, this.1, this.2, hzz]

/-- The vector `direct_loc_h`, point by point. -/
theorem directHVec_eq (r : Rpc K) (row col alt : List (Option K)) (fillNan useDirect : Bool) :
    directHVec r row col alt fillNan useDirect =
      match useDirect, r.inverse, r.direct with
      | false, some _, _ => iterVector r 10 fillNan row col alt
      | true, _, some q => ratVector (some q) (dirNorm r) (fillLonLat r fillNan) col row alt
      | _, _, _ => .error (.throws .coefficientsMismatch) := by
  unfold directHVec
  cases useDirect <;> cases r.inverse <;> cases hd : r.direct <;> simp

theorem iterAt_some (r : Rpc K) (q : RatCoefs K) (hq : r.inverse = some q) (fillNan : Bool) (t : Option K × Option K × Option K) :
    iterAt r 10 fillNan t = .ok (iterPointCpp r q fillNan t) := by
  rcases t with ⟨_ | w, _ | c, z⟩ <;> simp only [iterAt, iterPointCpp, hq]

theorem mapFrom_total {α β : Type} {f : ℕ → α → Except VecFault β} {g : α → β} (l : List α) (i : ℕ) (h : ∀ i a, f i a = .ok (g a)) :
    mapFrom f i l = .ok (l.map g) := by
  induction l generalizing i with
  | nil => rfl
  | cons a as ih => simp only [mapFrom, h, ih, List.map_cons]

theorem iterVector_some (r : Rpc K) (q : RatCoefs K) (hq : r.inverse = some q) (fillNan : Bool) (row col alt : List (Option K)) :
    iterVector r 10 fillNan row col alt =
      match broadcastAlt (min row.length col.length) alt with
      | .error _ => .error .outOfRange
      | .ok z => .ok (unrows ((row.zip (col.zip z)).map (iterPointCpp r q fillNan))) := by
  rw [iterVector_eq]
  cases broadcastAlt (min row.length col.length) alt with
  | error e => rfl
  | ok z =>
    simp only
    rw [mapFrom_total _ _ fun _ => iterAt_some r q hq fillNan]
    rfl

theorem losVec_eq (r : Rpc K) (row col altMin altMax : Option K) (fillNan : Bool) :
    losVec r row col altMin altMax fillNan =
      match losExtremaCpp r row col altMin altMax fillNan with
      | .error e => .error (.throws e)
      | .ok l => .ok (unrows l) := by
  unfold losVec losExtremaCpp
  simp only [directHVec_eq]
  cases hq : r.inverse with
  | none => rfl
  | some q =>
    simp only [iterVector_some r q hq]
    have hb : broadcastAlt (min [row, row].length [col, col].length) [some (losAltitudes r altMin altMax).2.1, some (losAltitudes r altMin altMax).1] =
        .ok [some (losAltitudes r altMin altMax).2.1, some (losAltitudes r altMin altMax).1] := rfl
    simp only [hb, bind, Except.bind]
    cases (losAltitudes r altMin altMax).2.2 with
    | none => rfl
    | some b => rfl

theorem dtmBody_eq (N : ℕ) (r : Rpc K) (d : Dtm K) (row col : List (Option K)) (i : ℕ) (x y : Option K) (hx : vget row i = .ok x)
    (hy : vget col i = .ok y) (o t : List (DtmPoint K)) (p0 : DtmPoint K) (hi : i = o.length) :
    dtmBody N r d row col i (o ++ p0 :: t) =
      match losExtremaCpp r x y (some (d.altMin - 1)) (some (d.altMax + 1)) false with
      | .error e => .error (.throws e)
      | .ok l =>
        match losDtmO .cpp d N l with
        | .failure => .error .search
        | p => .ok (o ++ p :: t) := by
  unfold dtmBody
  simp only [hx, hy, losVec_eq, bind, Except.bind]
  cases losExtremaCpp r x y (some (d.altMin - 1)) (some (d.altMax + 1)) false with
  | error e => rfl
  | ok l =>
    simp only [rowsOf_unrows]
    cases losDtmO .cpp d N l <;> simp only [vset_append _ _ _ _ hi]

/-- One point of the vector `direct_loc_dtm`, its column being read at position `i`. -/
def dtmAt (N : ℕ) (r : Rpc K) (d : Dtm K) (col : List (Option K)) (i : ℕ) (x : Option K) : Except VecFault (DtmPoint K) :=
  match vget col i with
  | .error e => .error e
  | .ok y =>
    match losExtremaCpp r x y (some (d.altMin - 1)) (some (d.altMax + 1)) false with
    | .error e => .error (.throws e)
    | .ok l =>
      match losDtmO .cpp d N l with
      | .failure => .error .search
      | p => .ok p

theorem dtmLoop (N : ℕ) (r : Rpc K) (d : Dtm K) (row col xs : List (Option K)) (i : ℕ) (o : List (DtmPoint K)) (hi : i = o.length)
    (h : ∀ (k : ℕ) x, xs[k]? = some x → vget row (i + k) = .ok x) :
    forFrom (dtmBody N r d row col) xs.length i (o ++ List.replicate xs.length .uninitialised) =
      (mapFrom (dtmAt N r d col) i xs).map fun l => o ++ l := by
  induction xs generalizing i o with
  | nil => simp [forFrom, mapFrom, Except.map]
  | cons x xs ih =>
    have hx := h 0 x rfl
    rw [Nat.add_zero] at hx
    simp only [List.length_cons, forFrom, mapFrom, List.replicate_succ]
    cases hy : vget col i with
    | error e =>
      have : dtmBody N r d row col i (o ++ .uninitialised :: List.replicate xs.length .uninitialised) = .error e := by
        unfold dtmBody
        simp only [hx, hy, bind, Except.bind]
      rw [this]
      simp only [dtmAt, hy]
      rfl
    | ok y =>
      rw [dtmBody_eq N r d row col i x y hx hy o _ _ hi]
      simp only [dtmAt, hy]
      cases losExtremaCpp r x y (some (d.altMin - 1)) (some (d.altMax + 1)) false with
      | error e => rfl
      | ok l =>
        have := fun p : DtmPoint K => ih (i + 1) (o ++ [p]) (by simp [hi]) fun k t hk => by
          have e : i + 1 + k = i + (k + 1) := by omega
          rw [e]; exact h (k + 1) t (by simpa using hk)
        simp only [List.append_assoc, List.cons_append, List.nil_append] at this
        dsimp only
        cases losDtmO .cpp d N l with
        | failure => rfl
        | _ =>
          dsimp only
          rw [this]
          cases mapFrom (dtmAt N r d col) (i + 1) xs <;> rfl

theorem directDtmVec_eq (N : ℕ) (r : Rpc K) (d : Dtm K) (row col : List (Option K)) :
    directDtmVec N r d row col = mapFrom (dtmAt N r d col) 0 row := by
  have := dtmLoop N r d row col row 0 [] rfl fun k x hk => by
    rw [Nat.zero_add]; simp only [vget, hk]
  simp only [List.nil_append] at this
  unfold directDtmVec
  rw [this]
  cases mapFrom (dtmAt N r d col) 0 row <;> rfl

theorem ratAt_inv (r : Rpc K) (q : RatCoefs K) (alt0 : List (Option K)) (i : ℕ) (p : ORow K) (h : p.x = none ∨ p.y = none → vget alt0 i = .ok p.z) :
    (ratAt (some q) (invNorm r) (none, none) alt0 i (p.x, p.y, p.z)).map (fun o => (⟨o.y, o.x, o.z⟩ : ORow K)) =
      (invPointCppThrow r q p).mapError .throws := by
  obtain ⟨x, y, z⟩ := p
  rcases x with _ | x
  · have h := h (Or.inl rfl)
    simp only [ratAt, h, invPointCppThrow, invPointCpp]
    rfl
  · rcases y with _ | y
    · have h := h (Or.inr rfl)
      simp only [ratAt, h, invPointCppThrow, invPointCpp]
      rfl
    · rcases z with _ | z
      · rfl
      · simp only [ratAt, invPointCppThrow, invPointCpp, invNorm, ratPointCpp]
        by_cases hd : polyCpp (preNorms ((x - r.offX) / r.scX) ((y - r.offY) / r.scY) ((z - r.offAlt) / r.scAlt)) q.denA ≠ 0 ∧
          polyCpp (preNorms ((x - r.offX) / r.scX) ((y - r.offY) / r.scY) ((z - r.offAlt) / r.scAlt)) q.denB ≠ 0
        · rw [if_pos hd]; simp only [hd, if_true, ne_eq, not_false_eq_true, and_self]; rfl
        · simp only [hd, if_false]; rfl

theorem ratAt_dir (r : Rpc K) (q : RatCoefs K) (fillNan : Bool) (alt0 : List (Option K)) (i : ℕ) (x y z z' : Option K)
    (h : vget alt0 i = .ok z') :
    ratAt (some q) (dirNorm r) (fillLonLat r fillNan) alt0 i (x, y, z) =
      (directPointCpp r q fillNan (nanAltitude (y, x, z, z'))).mapError .throws := by
  rcases x with _ | x
  · rcases y with _ | y <;> simp only [ratAt, h, directPointCpp, nanAltitude] <;> rfl
  · rcases y with _ | y
    · simp only [ratAt, h, directPointCpp, nanAltitude]; rfl
    · rcases z with _ | z
      · rfl
      · simp only [ratAt, directPointCpp, dirNorm, ratPointCpp, nanAltitude, Option.isNone_some, Bool.or_false, Bool.false_eq_true, if_false]
        by_cases hd : polyCpp (preNorms ((x - r.offCol) / r.scCol) ((y - r.offRow) / r.scRow) ((z - r.offAlt) / r.scAlt)) q.denA ≠ 0 ∧
          polyCpp (preNorms ((x - r.offCol) / r.scCol) ((y - r.offRow) / r.scRow) ((z - r.offAlt) / r.scAlt)) q.denB ≠ 0
        · rw [if_pos hd]; simp only [hd, if_true, ne_eq, not_false_eq_true, and_self]; rfl
        · simp only [hd, if_false]; rfl

end Shareloc
