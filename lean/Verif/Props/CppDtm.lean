import Verif.Lemmas.CppDtm

/-!
C109: the C++ object reads its arrays inside their bounds and gives the answers of the intersection model.
C110: pickling and setters.
-/

set_option linter.unusedSectionVars false
set_option linter.unusedVariables false

namespace Shareloc
open Spec
variable {K : Type} [Field K] [LinearOrder K] [IsStrictOrderedRing K] [FloorRing K]

/-! ### C109 -/

/-- C109, constructor: on an array of at least two rows and two columns the constructor reads nothing outside of the array, and the getters then
give back the array, its size, its transform and its code, its extreme values, and the rounded extreme values of each cell. -/
theorem C109_constructor (epsg : ℤ) (d : Dtm K) (hr : 2 ≤ d.nbRows) (hc : 2 ≤ d.nbCols) :
    ∃ o, CppDtm.ctor epsg (altValues d.alt d.nbRows d.nbCols) d.nbRows d.nbCols d.transform.toGdal = .ok o ∧
      o.epsg = epsg ∧ o.altData = altValues d.alt d.nbRows d.nbCols ∧ o.nbRows = d.nbRows ∧ o.nbCols = d.nbCols ∧
      o.transform = d.transform.toGdal ∧ o.altMin ∈ o.altData ∧ o.altMax ∈ o.altData ∧
      (∀ i j : ℕ, i < d.nbRows → j < d.nbCols → o.altMin ≤ d.alt i j ∧ d.alt i j ≤ o.altMax) ∧
      (∀ i j : ℕ, i + 1 < d.nbRows → j + 1 < d.nbCols →
        ∃ lo hi : ℤ, rd o.altMinCell (i * (o.nbCols - 1) + j) = .ok (lo : K) ∧ rd o.altMaxCell (i * (o.nbCols - 1) + j) = .ok (hi : K) ∧
          ∀ a b : ℕ, a ≤ 1 → b ≤ 1 → (lo : K) ≤ d.alt (i + a : ℕ) (j + b : ℕ) ∧ d.alt (i + a : ℕ) (j + b : ℕ) ≤ (hi : K)) := by
  obtain ⟨o, ho, hR, hmin, hmax, he, ha⟩ := ctor_represents epsg d hr hc
  have hne : altValues d.alt d.nbRows d.nbCols ≠ [] :=
    List.ne_nil_of_mem (List.mem_of_getElem? (altValues_get d.alt _ _ 0 0 (by omega) (by omega)))
  refine ⟨o, ho, he, ha, hR.rows, hR.cols, hR.trans, by rw [hmin, ha]; exact (listMin_spec hne).1, by rw [hmax, ha]; exact (listMax_spec hne).1, fun i j hi hj => ?_, fun i j hi hj => ?_⟩
  · rw [hmin, hmax]
    have hm : d.alt i j ∈ altValues d.alt d.nbRows d.nbCols := List.mem_of_getElem? (altValues_get d.alt _ _ i j hi hj)
    exact ⟨(listMin_spec (List.ne_nil_of_mem hm)).2 _ hm, (listMax_spec (List.ne_nil_of_mem hm)).2 _ hm⟩
  · refine ⟨_, _, by rw [hR.cols]; exact hR.minCell i j ⟨by omega, by omega, by omega, by omega⟩,
      by rw [hR.cols]; exact hR.maxCell i j ⟨by omega, by omega, by omega, by omega⟩, fun a b ha hb => ?_⟩
    have hm : ∀ x y z t : K, min (min (min x y) z) t ≤ x ∧ min (min (min x y) z) t ≤ y ∧ min (min (min x y) z) t ≤ z ∧ min (min (min x y) z) t ≤ t :=
      fun x y z t => ⟨by simp, by simp, by simp, by simp⟩
    have hM : ∀ x y z t : K, x ≤ max (max (max x y) z) t ∧ y ≤ max (max (max x y) z) t ∧ z ≤ max (max (max x y) z) t ∧ t ≤ max (max (max x y) z) t :=
      fun x y z t => ⟨by simp, by simp, by simp, by simp⟩
    obtain ⟨m1, m2, m3, m4⟩ := hm (d.alt i j) (d.alt i (j + 1)) (d.alt (i + 1) j) (d.alt (i + 1) (j + 1))
    obtain ⟨M1, M2, M3, M4⟩ := hM (d.alt i j) (d.alt i (j + 1)) (d.alt (i + 1) j) (d.alt (i + 1) (j + 1))
    have f := Int.floor_le (min (min (min (d.alt i j) (d.alt i (j + 1))) (d.alt (i + 1) j)) (d.alt (i + 1) (j + 1)))
    have c := Int.le_ceil (max (max (max (d.alt i j) (d.alt i (j + 1))) (d.alt (i + 1) j)) (d.alt (i + 1) (j + 1)))
    have a01 : a = 0 ∨ a = 1 := by omega
    have b01 : b = 0 ∨ b = 1 := by omega
    rcases a01 with rfl | rfl <;> rcases b01 with rfl | rfl <;> push_cast <;> (try simp only [add_zero])
    · exact ⟨f.trans m1, M1.trans c⟩
    · exact ⟨f.trans m2, M2.trans c⟩
    · exact ⟨f.trans m3, M3.trans c⟩
    · exact ⟨f.trans m4, M4.trans c⟩

/-- C109: the interpolation reads the altitudes inside of their array, for every position, and gives the model's value. -/
theorem C109_interpolation_in_range (epsg : ℤ) (d : Dtm K) (hr : 2 ≤ d.nbRows) (hc : 2 ≤ d.nbCols) (o : CppDtm K)
    (ho : CppDtm.ctor epsg (altValues d.alt d.nbRows d.nbCols) d.nbRows d.nbCols d.transform.toGdal = .ok o) (row col : K) :
    o.interpolate row col = .ok (d.interpolate row col) := by
  obtain ⟨o', ho', hR, -⟩ := ctor_represents epsg d hr hc
  obtain rfl : o' = o := by rw [ho] at ho'; injection ho' with h; exact h.symm
  exact hR.interpolate row col

/-- C109: for every line of sight of at least one vertex, no vector is read or written outside of its bounds, whatever the number of turns. -/
theorem C109_no_out_of_range (epsg : ℤ) (d : Dtm K) (hr : 2 ≤ d.nbRows) (hc : 2 ≤ d.nbCols) (o : CppDtm K)
    (ho : CppDtm.ctor epsg (altValues d.alt d.nbRows d.nbCols) d.nbRows d.nbCols d.transform.toGdal = .ok o) (N : ℕ) (los : List (V3 K))
    (hne : los ≠ []) : o.locate N los ≠ .error .outOfRange := by
  obtain ⟨o', ho', hR, -⟩ := ctor_represents epsg d hr hc
  obtain rfl : o' = o := by rw [ho] at ho'; injection ho' with h; exact h.symm
  rw [hR.locate N los hne]
  unfold cppAnswer
  cases intersectDtmCube .cpp d los with
  | error e => simp
  | ok r =>
    obtain ⟨c, li⟩ := r
    cases c with
    | none => simp
    | some c => cases h : intersectionIdx .cpp d N li c.p c.h <;> simp [h]

/-- C109: the answer is the model's, and the call fails for the lines of sight on which the model fails. -/
theorem C109_same_answer (epsg : ℤ) (d : Dtm K) (hr : 2 ≤ d.nbRows) (hc : 2 ≤ d.nbCols) (o : CppDtm K)
    (ho : CppDtm.ctor epsg (altValues d.alt d.nbRows d.nbCols) d.nbRows d.nbCols d.transform.toGdal = .ok o) (N : ℕ) (los : List (V3 K))
    (hne : los ≠ []) :
    (∀ p, o.locate N los = .ok p ↔ losDtm .cpp d N los = p ∧ p ≠ .failure) ∧
    ((∃ e, o.locate N los = .error e) ↔ losDtm .cpp d N los = .failure) := by
  obtain ⟨o', ho', hR, -⟩ := ctor_represents epsg d hr hc
  obtain rfl : o' = o := by rw [ho] at ho'; injection ho' with h; exact h.symm
  rw [hR.locate N los hne]
  unfold cppAnswer losDtm
  cases hc : intersectDtmCube .cpp d los with
  | error e => simp
  | ok r =>
    obtain ⟨c, li⟩ := r
    cases c with
    | none =>
      simp
    | some c =>
      cases h : intersectionIdx .cpp d N li c.p c.h <;> simp [h]

/-- The first error of a sequence of calls is the error of the whole. -/
theorem mapM_error {ε α β : Type} (f : α → Except ε β) (e : ε) : ∀ l : List α, l.mapM f = .error e ↔
    ∃ (k : ℕ) (x : α), l[k]? = some x ∧ f x = .error e ∧ ∀ k' < k, ∀ y, l[k']? = some y → ∃ r, f y = .ok r
  | [] => by
    constructor
    · intro h; cases h
    · rintro ⟨k, x, hx, -⟩; simp at hx
  | x :: xs => by
    have ih := mapM_error f e xs
    rw [List.mapM_cons]
    cases hf : f x with
    | error e' =>
      simp only [bind, Except.bind]
      constructor
      · intro h
        injection h with h
        subst h
        exact ⟨0, x, rfl, hf, fun k' hk' => absurd hk' (by omega)⟩
      · rintro ⟨k, y, hy, hfy, hk⟩
        rcases Nat.eq_zero_or_pos k with rfl | hpos
        · simp only [List.getElem?_cons_zero, Option.some.injEq] at hy
          subst hy
          rw [hf] at hfy
          injection hfy with hfy
          rw [hfy]
        · obtain ⟨r, hr⟩ := hk 0 hpos x rfl
          rw [hf] at hr
          cases hr
    | ok r =>
      simp only [bind, Except.bind]
      constructor
      · intro h
        cases hm : List.mapM f xs with
        | ok rs => simp only [hm, pure, Except.pure] at h; cases h
        | error e' =>
          simp only [hm] at h
          injection h with h
          subst h
          obtain ⟨k, y, hy, hfy, hk⟩ := (mapM_error f e' xs).1 hm
          refine ⟨k + 1, y, by simpa using hy, hfy, fun k' hk' z hz => ?_⟩
          cases k' with
          | zero =>
            simp only [List.getElem?_cons_zero, Option.some.injEq] at hz
            subst hz
            exact ⟨r, hf⟩
          | succ k' => exact hk k' (by omega) z (by simpa using hz)
      · rintro ⟨k, y, hy, hfy, hk⟩
        cases k with
        | zero =>
          simp only [List.getElem?_cons_zero, Option.some.injEq] at hy
          subst hy
          rw [hf] at hfy
          cases hfy
        | succ k =>
          have : List.mapM f xs = .error e := ih.2 ⟨k, y, by simpa using hy, hfy, fun k' hk' z hz => hk (k' + 1) (by omega) z (by simpa using hz)⟩
          rw [this]

/-- The numbers of a batch of lines of sight in row-major order: line after line, vertex after vertex, longitude, latitude, altitude. -/
def flatLines (lines : List (List (V3 K))) : List K := lines.flatMap fun l => l.flatMap fun v => [v.x, v.y, v.z]

theorem flatLine_get : ∀ (l : List (V3 K)) (rest : List K) (a : ℕ) (v : V3 K), l[a]? = some v →
    ((l.flatMap fun v => [v.x, v.y, v.z]) ++ rest)[a * 3 + 0]? = some v.x ∧ ((l.flatMap fun v => [v.x, v.y, v.z]) ++ rest)[a * 3 + 1]? = some v.y ∧
      ((l.flatMap fun v => [v.x, v.y, v.z]) ++ rest)[a * 3 + 2]? = some v.z
  | [], _, a, v, h => by simp at h
  | w :: l, rest, 0, v, h => by
    simp only [List.getElem?_cons_zero, Option.some.injEq] at h
    subst h
    simp
  | w :: l, rest, a + 1, v, h => by
    have := flatLine_get l rest a v (by simpa using h)
    have e0 : (a + 1) * 3 + 0 = a * 3 + 0 + 3 := by ring
    have e1 : (a + 1) * 3 + 1 = a * 3 + 1 + 3 := by ring
    have e2 : (a + 1) * 3 + 2 = a * 3 + 2 + 3 := by ring
    rw [e0, e1, e2]
    simpa using this

theorem flatLine_length (l : List (V3 K)) : (l.flatMap fun v => [v.x, v.y, v.z]).length = l.length * 3 := by
  induction l with
  | nil => rfl
  | cons v l ih => simp only [List.flatMap_cons, List.length_append, ih, List.length_cons, List.length_nil]; ring

theorem flatLines_get (m : ℕ) : ∀ (lines : List (List (V3 K))), (∀ l ∈ lines, l.length = m) → ∀ (i : ℕ) (l : List (V3 K)), lines[i]? = some l →
    ∀ (a : ℕ) (v : V3 K), l[a]? = some v → (flatLines lines)[i * m * 3 + a * 3 + 0]? = some v.x ∧ (flatLines lines)[i * m * 3 + a * 3 + 1]? = some v.y ∧
      (flatLines lines)[i * m * 3 + a * 3 + 2]? = some v.z
  | [], _, i, l, h => by simp at h
  | w :: ws, hm, 0, l, h => by
    intro a v hv
    simp only [List.getElem?_cons_zero, Option.some.injEq] at h
    subst h
    simpa [flatLines] using flatLine_get w (flatLines ws) a v hv
  | w :: ws, hm, i + 1, l, h => by
    intro a v hv
    have ih := flatLines_get m ws (fun l hl => hm l (by simp [hl])) i l (by simpa using h) a v hv
    have hw : (w.flatMap fun v => [v.x, v.y, v.z]).length = m * 3 := by rw [flatLine_length, hm w (by simp)]
    have e : ∀ c, (i + 1) * m * 3 + a * 3 + c = m * 3 + (i * m * 3 + a * 3 + c) := fun c => by ring
    have hc : flatLines (w :: ws) = (w.flatMap fun v => [v.x, v.y, v.z]) ++ flatLines ws := rfl
    have g : ∀ k, (flatLines (w :: ws))[m * 3 + k]? = (flatLines ws)[k]? := fun k => by
      rw [hc, List.getElem?_append_right (by omega), hw]
      congr 1
      omega
    rw [e, e, e, g, g, g]
    exact ih

/-- Line `i` of the buffer is line `i` of the batch. -/
theorem lineOf_flat (m : ℕ) (lines : List (List (V3 K))) (hm : ∀ l ∈ lines, l.length = m) (i : ℕ) (l : List (V3 K)) (hi : lines[i]? = some l) :
    CppDtm.lineOf (flatLines lines) m 3 i = .ok l := by
  have hl : l.length = m := hm l (List.mem_of_getElem? hi)
  unfold CppDtm.lineOf
  rw [mapM_ok _ (fun a => l.getD a ⟨0, 0, 0⟩)]
  · congr 1
    refine List.ext_getElem? fun a => ?_
    rw [List.getElem?_map]
    by_cases ha : a < m
    · rw [List.getElem?_range ha, List.getElem?_eq_getElem (by omega : a < l.length)]
      simp [List.getD_eq_getElem?_getD, List.getElem?_eq_getElem (by omega : a < l.length)]
    · rw [List.getElem?_eq_none (by simpa using ha), List.getElem?_eq_none (by omega)]
      rfl
  · intro a ha
    have ha : a < l.length := by rw [hl]; simpa using ha
    obtain ⟨g0, g1, g2⟩ := flatLines_get m lines hm i l hi a l[a] (List.getElem?_eq_getElem ha)
    rw [rd_nat g0, rd_nat g1, rd_nat g2]
    simp [bind, Except.bind, pure, Except.pure, List.getD_eq_getElem?_getD, List.getElem?_eq_getElem ha]

/-- The batch call is the sequence of calls on the lines. -/
theorem batch_eq (o : CppDtm K) (N m : ℕ) (lines : List (List (V3 K))) (hm : ∀ l ∈ lines, l.length = m) :
    o.batch N (flatLines lines) lines.length m 3 =
      match lines.mapM (fun l => o.locate N l) with
      | .error e => .error e
      | .ok r => .ok (r.map (fun p => (CppDtm.valsOf p).x) ++ r.map (fun p => (CppDtm.valsOf p).y) ++ r.map (fun p => (CppDtm.valsOf p).z)) := by
  have key : ∀ (pre suf : List (List (V3 K))), pre ++ suf = lines →
      ((List.range' pre.length suf.length).mapM fun i => do
        let los ← CppDtm.lineOf (flatLines lines) m 3 i
        let p ← o.locate N los
        return CppDtm.valsOf p) =
      match suf.mapM (fun l => o.locate N l) with
      | .error e => .error e
      | .ok r => .ok (r.map CppDtm.valsOf) := by
    intro pre suf
    induction suf generalizing pre with
    | nil => intro _; rfl
    | cons l suf ih =>
      intro h
      have hl : lines[pre.length]? = some l := by rw [← h]; simp
      have := ih (pre ++ [l]) (by rw [← h]; simp)
      rw [List.length_append, List.length_singleton] at this
      rw [List.length_cons, List.range'_succ, List.mapM_cons, List.mapM_cons, this, lineOf_flat m lines hm _ l hl]
      simp only [bind, Except.bind]
      cases o.locate N l with
      | error e => rfl
      | ok p =>
        simp only [pure, Except.pure]
        cases suf.mapM (fun l => o.locate N l) <;> rfl
  have := key [] lines rfl
  unfold CppDtm.batch
  rw [List.range_eq_range', show (0 : ℕ) = ([] : List (List (V3 K))).length from rfl, this]
  cases lines.mapM (fun l => o.locate N l) with
  | error e => rfl
  | ok r =>
    simp only [bind, Except.bind, pure, Except.pure, List.map_map]
    rfl

theorem mapM_ok_get {ε α β : Type} (f : α → Except ε β) : ∀ (l : List α) (r : List β), l.mapM f = .ok r → r.length = l.length ∧
    ∀ (i : ℕ) (x : α), l[i]? = some x → ∃ y, r[i]? = some y ∧ f x = .ok y
  | [], r, h => by
    injection h with h
    subst h
    exact ⟨rfl, fun i x hx => by simp at hx⟩
  | a :: l, r, h => by
    rw [List.mapM_cons] at h
    simp only [bind, Except.bind] at h
    cases hf : f a with
    | error e => simp only [hf] at h; cases h
    | ok b =>
      simp only [hf] at h
      cases hm : l.mapM f with
      | error e => simp only [hm] at h; cases h
      | ok bs =>
        simp only [hm, pure, Except.pure] at h
        injection h with h
        subst h
        obtain ⟨h1, h2⟩ := mapM_ok_get f l bs hm
        refine ⟨by simp [h1], fun i x hx => ?_⟩
        cases i with
        | zero =>
          simp only [List.getElem?_cons_zero, Option.some.injEq] at hx
          subst hx
          exact ⟨b, rfl, hf⟩
        | succ i => exact h2 i x (by simpa using hx)

/-- C109, batch: for lines of the same number of vertices stored one after the other, row `i` of the array returned holds the answer for line `i`,
nothing is read outside of the buffers, and the whole call fails if one of the lines fails, with the failure of the first of them. -/
theorem C109_batch (epsg : ℤ) (d : Dtm K) (hr : 2 ≤ d.nbRows) (hc : 2 ≤ d.nbCols) (o : CppDtm K)
    (ho : CppDtm.ctor epsg (altValues d.alt d.nbRows d.nbCols) d.nbRows d.nbCols d.transform.toGdal = .ok o) (N m : ℕ) (hm1 : 1 ≤ m)
    (lines : List (List (V3 K))) (hm : ∀ l ∈ lines, l.length = m) :
    (∀ res, o.batch N (flatLines lines) lines.length m 3 = .ok res → res.length = lines.length * 3 ∧
      ∀ (i : ℕ) (l : List (V3 K)), lines[i]? = some l → ∃ x y z : CppDtm.CppVal K,
        CppDtm.batchAt lines.length res i 0 = .ok x ∧ CppDtm.batchAt lines.length res i 1 = .ok y ∧ CppDtm.batchAt lines.length res i 2 = .ok z ∧
        match losDtm .cpp d N l with
        | .point p => x = .num p.x ∧ y = .num p.y ∧ z = .num p.z
        | .nan => x = .nan ∧ y = .nan ∧ z = .nan
        | .uninitialised => x = .garbage ∧ y = .garbage ∧ z = .garbage
        | .failure => False) ∧
    (∀ e, o.batch N (flatLines lines) lines.length m 3 = .error e ↔
      ∃ (i : ℕ) (l : List (V3 K)), lines[i]? = some l ∧ o.locate N l = .error e ∧ ∀ k < i, ∀ l', lines[k]? = some l' → losDtm .cpp d N l' ≠ .failure) ∧
    o.batch N (flatLines lines) lines.length m 3 ≠ .error .outOfRange := by
  have hne : ∀ (i : ℕ) (l : List (V3 K)), lines[i]? = some l → l ≠ [] := fun i l h e => by
    have := hm l (List.mem_of_getElem? h)
    rw [e] at this
    simp at this
    omega
  have hsame := fun l (h : l ≠ []) => C109_same_answer epsg d hr hc o ho N l h
  have herr : ∀ e, o.batch N (flatLines lines) lines.length m 3 = .error e ↔ lines.mapM (fun l => o.locate N l) = .error e := fun e => by
    rw [batch_eq o N m lines hm]
    cases lines.mapM (fun l => o.locate N l) <;> simp
  refine ⟨fun res h => ?_, fun e => ?_, fun h => ?_⟩
  · rw [batch_eq o N m lines hm] at h
    cases hk : lines.mapM (fun l => o.locate N l) with
    | error e => simp only [hk] at h; cases h
    | ok r =>
      simp only [hk] at h
      injection h with h
      obtain ⟨hlen, hget⟩ := mapM_ok_get _ _ _ hk
      refine ⟨by rw [← h]; simp [hlen]; ring, fun i l hl => ?_⟩
      obtain ⟨p, hp, hlp⟩ := hget i l hl
      have hi : i < r.length := (List.getElem?_eq_some_iff.1 hp).1
      have hx : (r.map (fun p => (CppDtm.valsOf p).x))[i]? = some (CppDtm.valsOf p).x := by rw [List.getElem?_map, hp]; rfl
      have hy : (r.map (fun p => (CppDtm.valsOf p).y))[i]? = some (CppDtm.valsOf p).y := by rw [List.getElem?_map, hp]; rfl
      have hz : (r.map (fun p => (CppDtm.valsOf p).z))[i]? = some (CppDtm.valsOf p).z := by rw [List.getElem?_map, hp]; rfl
      refine ⟨_, _, _, rd_nat (x := (CppDtm.valsOf p).x) ?_, rd_nat (x := (CppDtm.valsOf p).y) ?_, rd_nat (x := (CppDtm.valsOf p).z) ?_, ?_⟩
      · rw [← h, List.append_assoc, List.getElem?_append_left (by simp; omega)]
        simpa using hx
      · rw [← h, List.append_assoc, List.getElem?_append_right (by simp; omega), List.getElem?_append_left (by simp; omega)]
        rw [← hy]
        congr 1
        simp [hlen]
      · rw [← h, List.append_assoc, List.getElem?_append_right (by simp; omega), List.getElem?_append_right (by simp; omega)]
        rw [← hz]
        congr 1
        simp [hlen]
        omega
      · obtain ⟨h1, h2⟩ := ((hsame l (hne i l hl)).1 p).1 hlp
        rw [h1]
        cases p with
        | failure => exact absurd rfl h2
        | _ => exact ⟨rfl, rfl, rfl⟩
  · rw [herr, mapM_error]
    constructor
    · rintro ⟨k, l, hl, he, hk⟩
      refine ⟨k, l, hl, he, fun k' hk' l' hl' hfail => ?_⟩
      obtain ⟨r, hr⟩ := hk k' hk' l' hl'
      exact (((hsame l' (hne k' l' hl')).1 r).1 hr).2 (by rw [← hfail]; exact ((((hsame l' (hne k' l' hl')).1 r).1 hr).1).symm)
    · rintro ⟨k, l, hl, he, hk⟩
      refine ⟨k, l, hl, he, fun k' hk' l' hl' => ⟨losDtm .cpp d N l', ((hsame l' (hne k' l' hl')).1 _).2 ⟨rfl, hk k' hk' l' hl'⟩⟩⟩
  · obtain ⟨k, l, hl, he, -⟩ := (mapM_error _ _ _).1 ((herr _).1 h)
    exact C109_no_out_of_range epsg d hr hc o ho N l (hne k l hl) he

/-- One call on a new object. -/
def newThenLocate (data : List ℚ) (nbRows nbCols N : ℕ) (los : List (V3 ℚ)) : Except CppFault (DtmPoint ℚ) := do
  let o ← CppDtm.ctor 4326 data nbRows nbCols (⟨0, 1, 0, 0, 0, 1⟩ : GdalTransform ℚ)
  o.locate N los

/-- C109, a case: a steep line of sight onto a 3 x 3 terrain. -/
example : newThenLocate [0, 1, 0, 1, 0, 1, 0, 1, 0] 3 3 10 [⟨3 / 2, 3 / 2, 30⟩, ⟨3 / 2, 3 / 2, -5⟩] = .ok (.point ⟨3 / 2, 3 / 2, 0⟩) := by
  decide +kernel

/-- C109, a case of the constructor's hypotheses. -/
example : (2 ≤ (⟨fun i _ => 10 * i, 3, 3, ⟨1, 0, 0, 0, 1, 0⟩⟩ : Dtm ℚ).nbRows) := by decide

/-- C109: an array with fewer values than its declared size makes the constructor read outside of it. -/
theorem C109_short_array_is_read_outside :
    newThenLocate [0, 1, 0, 1] 3 3 10 [⟨3 / 2, 1 / 3, 30⟩, ⟨3 / 2, 1 / 3, -5⟩] = .error .outOfRange := by
  decide +kernel

/-- C109: the hypothesis of two rows is needed: on a one-row terrain the altitudes are read before the start of their array. -/
theorem C109_one_row_is_read_outside : newThenLocate [0, 1, 0] 1 3 10 [⟨1, 0, 1 / 2⟩, ⟨1, 1, 1 / 3⟩] = .error .outOfRange := by
  decide +kernel

/-- C109: a line of sight without vertices is read at its first vertex. -/
theorem C109_no_vertex_is_read_outside : newThenLocate [0, 1, 0, 1, 0, 1, 0, 1, 0] 3 3 10 [] = .error .outOfRange := by
  decide +kernel

/-- C109: a line of sight that enters at the level of the terrain and follows it divides zero by zero, and the result is converted to an index. -/
theorem C109_zero_over_zero_becomes_an_index :
    newThenLocate [0, 0, 0, 0, 0, 0, -1, 5, 5] 3 3 10 [⟨1, -(1 / 2), 0⟩, ⟨1, 7 / 2, 0⟩] = .error .nanIndex := by
  decide +kernel

/-- C109: with two lines, of which the second only has a vertex on a side of the box, the whole batch raises. -/
theorem C109_one_line_ends_the_batch :
    newThenLocate [0, 1, 0, 1, 0, 1, 0, 1, 0] 3 3 10 [⟨3 / 2, 3 / 2, 30⟩, ⟨3 / 2, 3 / 2, -5⟩] = .ok (.point ⟨3 / 2, 3 / 2, 0⟩) ∧
    (do
      let o ← CppDtm.ctor 4326 [0, 1, 0, 1, 0, 1, 0, 1, 0] 3 3 (⟨0, 1, 0, 0, 0, 1⟩ : GdalTransform ℚ)
      o.batch 10 [3 / 2, 3 / 2, 30, 3 / 2, 3 / 2, -5, 1 / 2, 3 / 2, 30, 1 / 2, 3 / 2, -5] 2 2 3) = .error .tooMany := by
  decide +kernel

/-- C109, a case of the batch: two lines, the array is read by columns. -/
example : (do
      let o ← CppDtm.ctor 4326 [0, 1, 0, 1, 0, 1, 0, 1, 0] 3 3 (⟨0, 1, 0, 0, 0, 1⟩ : GdalTransform ℚ)
      o.batch 10 [3 / 2, 3 / 2, 30, 3 / 2, 3 / 2, -5, 9, 9, 30, 9, 9, -5] 2 2 3) =
    .ok [.num (3 / 2), .nan, .num (3 / 2), .nan, .num 0, .nan] := by
  decide +kernel

/-! ### C110 -/

namespace CppDtm

/-- The attributes. -/
inductive Attr
  | altData
  | altMin
  | altMax
  | coefA
  | coefB
  | coefC
  | coefD
  | altMinCell
  | altMaxCell
  | tolZ
  | epsg
  | plans
  | transInv
  | transform
  | nbRows
  | nbCols
deriving DecidableEq

/-- The attribute that a setter changes. -/
def Setter.attr : Setter K → Attr
  | .altData _ => .altData
  | .altMin _ => .altMin
  | .altMax _ => .altMax
  | .coefA _ => .coefA
  | .coefB _ => .coefB
  | .coefC _ => .coefC
  | .coefD _ => .coefD
  | .altMinCell _ => .altMinCell
  | .altMaxCell _ => .altMaxCell
  | .tolZ _ => .tolZ
  | .epsg _ => .epsg
  | .plans _ => .plans
  | .transInv _ => .transInv
  | .transform _ => .transform
  | .nbRows _ => .nbRows
  | .nbCols _ => .nbCols

/-- What the getter of an attribute gives (dtm_intersection.hpp:98-131), as the setter that would store it. -/
def got (o : CppDtm K) : Attr → Setter K
  | .altData => .altData o.altData
  | .altMin => .altMin o.altMin
  | .altMax => .altMax o.altMax
  | .coefA => .coefA o.coefA
  | .coefB => .coefB o.coefB
  | .coefC => .coefC o.coefC
  | .coefD => .coefD o.coefD
  | .altMinCell => .altMinCell o.altMinCell
  | .altMaxCell => .altMaxCell o.altMaxCell
  | .tolZ => .tolZ o.tolZ
  | .epsg => .epsg o.epsg
  | .plans => .plans o.plans
  | .transInv => .transInv o.transInv
  | .transform => .transform o.transform
  | .nbRows => .nbRows o.nbRows
  | .nbCols => .nbCols o.nbCols

end CppDtm

/-- C110: the object unpickled from the state of an object is that object, whatever was done to it before: the constructor and any history of
setters.  The calls on both give the same answers. -/
theorem C110_pickle_roundtrip (o : CppDtm K) (l : List (CppDtm.Setter K)) :
    ∃ o', CppDtm.setState (o.run l).getState = some o' ∧ o' = o.run l ∧ (∀ i, o'.got i = (o.run l).got i) ∧
      (∀ N los, o'.locate N los = (o.run l).locate N los) ∧ (∀ N buf n m s, o'.batch N buf n m s = (o.run l).batch N buf n m s) := by
  have key : ∀ o : CppDtm K, CppDtm.setState o.getState = some o := fun o => by
    have h6 : ∀ f : Fin 6 → K, ![f 0, f 1, f 2, f 3, f 4, f 5] = f := fun f => by funext k; fin_cases k <;> rfl
    obtain ⟨_, _, _, a, b, c, d, _, _, _, _, _, _, _, _, _⟩ := o
    simp [CppDtm.setState, CppDtm.getState, CppDtm.PyVal.toVec, CppDtm.PyVal.toNum, CppDtm.PyVal.toInt, CppDtm.PyVal.toSix, CppDtm.PyVal.toGdal,
      CppDtm.six, CppDtm.ofSix, CppDtm.ofGdal, h6]
  exact ⟨_, key _, rfl, fun _ => rfl, fun _ _ => rfl, fun _ _ _ _ _ => rfl⟩

/-- C110: pickling loses nothing: objects with the same state are the same object. -/
theorem C110_state_determines_the_object (o o' : CppDtm K) (h : o.getState = o'.getState) : o = o' := by
  obtain ⟨a, ha, ha', -⟩ := C110_pickle_roundtrip o []
  obtain ⟨b, hb, hb', -⟩ := C110_pickle_roundtrip o' []
  have : some a = some b := by
    rw [← ha, ← hb]
    exact congrArg _ h
  injection this with this
  rw [hb', ha'] at this
  exact this

/-- C110: what `__setstate__` accepts: exactly the tuples of sixteen values of the types of the state, integers being accepted for the three
floats; the object then holds these values. -/
theorem C110_setstate_accepts (t : List (CppDtm.PyVal K)) (o : CppDtm K) :
    CppDtm.setState t = some o ↔ ∃ x1 x2 x9 : CppDtm.PyVal K,
      (x1 = .float o.altMin ∨ ∃ z : ℤ, x1 = .int z ∧ o.altMin = z) ∧ (x2 = .float o.altMax ∨ ∃ z : ℤ, x2 = .int z ∧ o.altMax = z) ∧
      (x9 = .float o.tolZ ∨ ∃ z : ℤ, x9 = .int z ∧ o.tolZ = z) ∧
      t = [.list o.altData, x1, x2, .list (CppDtm.ofSix o.coefA), .list (CppDtm.ofSix o.coefB), .list (CppDtm.ofSix o.coefC),
        .list (CppDtm.ofSix o.coefD), .list o.altMinCell, .list o.altMaxCell, x9, .int o.epsg, .list o.plans, .list (CppDtm.ofGdal o.transInv),
        .list (CppDtm.ofGdal o.transform), .int o.nbRows, .int o.nbCols] := by
  have hvec : ∀ (x : CppDtm.PyVal K) v, x.toVec = some v ↔ x = .list v := fun x v => by cases x <;> simp [CppDtm.PyVal.toVec]
  have hnum : ∀ (x : CppDtm.PyVal K) v, x.toNum = some v ↔ (x = .float v ∨ ∃ z : ℤ, x = .int z ∧ v = z) := fun x v => by
    cases x <;> simp [CppDtm.PyVal.toNum, eq_comm]
  have hint : ∀ (x : CppDtm.PyVal K) v, x.toInt = some v ↔ x = .int v := fun x v => by cases x <;> simp [CppDtm.PyVal.toInt]
  have hs6 : ∀ (v : List K) f, CppDtm.six v = some f ↔ v = CppDtm.ofSix f := fun v f => by
    constructor
    · intro h
      match v, h with
      | [a, b, c, d, e, g], h =>
        simp only [CppDtm.six, Option.some.injEq] at h
        subst h
        rfl
    · rintro rfl
      simp only [CppDtm.six, CppDtm.ofSix, Option.some.injEq]
      funext k
      fin_cases k <;> rfl
  have hsix : ∀ (x : CppDtm.PyVal K) f, x.toSix = some f ↔ x = .list (CppDtm.ofSix f) := fun x f => by
    cases x <;> simp [CppDtm.PyVal.toSix, hs6]
  have hgdal : ∀ (x : CppDtm.PyVal K) g, x.toGdal = some g ↔ x = .list (CppDtm.ofGdal g) := fun x g => by
    unfold CppDtm.PyVal.toGdal
    rw [Option.map_eq_some_iff]
    constructor
    · rintro ⟨f, hf, rfl⟩
      exact (hsix x f).1 hf
    · rintro rfl
      exact ⟨![g.t0, g.t1, g.t2, g.t3, g.t4, g.t5], rfl, rfl⟩
  constructor
  · intro h
    match t, h with
    | [a0, a1, a2, a3, a4, a5, a6, a7, a8, a9, a10, a11, a12, a13, a14, a15], h =>
      simp only [CppDtm.setState] at h
      obtain ⟨m0, h0, h⟩ := Option.bind_eq_some_iff.1 h
      obtain ⟨m1, h1, h⟩ := Option.bind_eq_some_iff.1 h
      obtain ⟨m2, h2, h⟩ := Option.bind_eq_some_iff.1 h
      obtain ⟨m3, h3, h⟩ := Option.bind_eq_some_iff.1 h
      obtain ⟨m4, h4, h⟩ := Option.bind_eq_some_iff.1 h
      obtain ⟨m5, h5, h⟩ := Option.bind_eq_some_iff.1 h
      obtain ⟨m6, h6, h⟩ := Option.bind_eq_some_iff.1 h
      obtain ⟨m7, h7, h⟩ := Option.bind_eq_some_iff.1 h
      obtain ⟨m8, h8, h⟩ := Option.bind_eq_some_iff.1 h
      obtain ⟨m9, h9, h⟩ := Option.bind_eq_some_iff.1 h
      obtain ⟨m10, h10, h⟩ := Option.bind_eq_some_iff.1 h
      obtain ⟨m11, h11, h⟩ := Option.bind_eq_some_iff.1 h
      obtain ⟨m12, h12, h⟩ := Option.bind_eq_some_iff.1 h
      obtain ⟨m13, h13, h⟩ := Option.bind_eq_some_iff.1 h
      obtain ⟨m14, h14, h⟩ := Option.bind_eq_some_iff.1 h
      obtain ⟨m15, h15, h⟩ := Option.bind_eq_some_iff.1 h
      injection h with h
      subst h
      rw [hvec] at h0 h7 h8 h11
      rw [hsix] at h3 h4 h5 h6
      rw [hgdal] at h12 h13
      rw [hint] at h10 h14 h15
      rw [hnum] at h1 h2 h9
      exact ⟨a1, a2, a9, h1, h2, h9, by rw [h0, h3, h4, h5, h6, h7, h8, h10, h11, h12, h13, h14, h15]⟩
  · rintro ⟨x1, x2, x9, h1, h2, h9, rfl⟩
    simp only [CppDtm.setState]
    refine Option.bind_eq_some_iff.2 ⟨_, (hvec _ _).2 rfl, ?_⟩
    refine Option.bind_eq_some_iff.2 ⟨_, (hnum _ _).2 h1, ?_⟩
    refine Option.bind_eq_some_iff.2 ⟨_, (hnum _ _).2 h2, ?_⟩
    refine Option.bind_eq_some_iff.2 ⟨_, (hsix _ _).2 rfl, ?_⟩
    refine Option.bind_eq_some_iff.2 ⟨_, (hsix _ _).2 rfl, ?_⟩
    refine Option.bind_eq_some_iff.2 ⟨_, (hsix _ _).2 rfl, ?_⟩
    refine Option.bind_eq_some_iff.2 ⟨_, (hsix _ _).2 rfl, ?_⟩
    refine Option.bind_eq_some_iff.2 ⟨_, (hvec _ _).2 rfl, ?_⟩
    refine Option.bind_eq_some_iff.2 ⟨_, (hvec _ _).2 rfl, ?_⟩
    refine Option.bind_eq_some_iff.2 ⟨_, (hnum _ _).2 h9, ?_⟩
    refine Option.bind_eq_some_iff.2 ⟨_, (hint _ _).2 rfl, ?_⟩
    refine Option.bind_eq_some_iff.2 ⟨_, (hvec _ _).2 rfl, ?_⟩
    refine Option.bind_eq_some_iff.2 ⟨_, (hgdal _ _).2 rfl, ?_⟩
    refine Option.bind_eq_some_iff.2 ⟨_, (hgdal _ _).2 rfl, ?_⟩
    refine Option.bind_eq_some_iff.2 ⟨_, (hint _ _).2 rfl, ?_⟩
    refine Option.bind_eq_some_iff.2 ⟨_, (hint _ _).2 rfl, ?_⟩
    rfl

/-- C110: a setter stores its value, and changes no other attribute. -/
theorem C110_setter_changes_one_attribute (o : CppDtm K) (s : CppDtm.Setter K) :
    (o.set s).got s.attr = s ∧ ∀ i, i ≠ s.attr → (o.set s).got i = o.got i := by
  refine ⟨by cases s <;> rfl, fun i hi => ?_⟩
  cases s <;> cases i <;> first | rfl | exact absurd rfl hi

/-- C110: after any history, a getter gives the value of the last call of its setter, and the initial value if there is none. -/
theorem C110_getter_after_a_history (o : CppDtm K) (i : CppDtm.Attr) (l : List (CppDtm.Setter K)) :
    (∀ pre s post, l = pre ++ s :: post → s.attr = i → (∀ s' ∈ post, s'.attr ≠ i) → (o.run l).got i = s) ∧
    ((∀ s ∈ l, s.attr ≠ i) → (o.run l).got i = o.got i) := by
  have h2 : ∀ (l : List (CppDtm.Setter K)) (o : CppDtm K), (∀ s ∈ l, s.attr ≠ i) → (o.run l).got i = o.got i := by
    intro l
    induction l with
    | nil => intro o _; rfl
    | cons s l ih =>
      intro o h
      show ((o.set s).run l).got i = _
      rw [ih (o.set s) fun s' hs' => h s' (by simp [hs'])]
      exact (C110_setter_changes_one_attribute o s).2 i (h s (by simp)).symm
  refine ⟨?_, h2 l o⟩
  rintro pre s post rfl hs hpost
  have e : o.run (pre ++ s :: post) = ((o.run pre).set s).run post := by
    simp [CppDtm.run, List.foldl_append]
  rw [e, h2 post _ hpost, ← hs]
  exact (C110_setter_changes_one_attribute _ s).1

/-- C110: the sixteen getters determine the object. -/
theorem C110_getters_determine_the_object (o o' : CppDtm K) (h : ∀ i, o.got i = o'.got i) : o = o' := by
  obtain ⟨a0, a1, a2, a3, a4, a5, a6, a7, a8, a9, a10, a11, a12, a13, a14, a15⟩ := o
  obtain ⟨b0, b1, b2, b3, b4, b5, b6, b7, b8, b9, b10, b11, b12, b13, b14, b15⟩ := o'
  have e0 := h .altData
  injection e0 with e0
  have e1 := h .altMin
  injection e1 with e1
  have e2 := h .altMax
  injection e2 with e2
  have e3 := h .coefA
  injection e3 with e3
  have e4 := h .coefB
  injection e4 with e4
  have e5 := h .coefC
  injection e5 with e5
  have e6 := h .coefD
  injection e6 with e6
  have e7 := h .altMinCell
  injection e7 with e7
  have e8 := h .altMaxCell
  injection e8 with e8
  have e9 := h .tolZ
  injection e9 with e9
  have e10 := h .epsg
  injection e10 with e10
  have e11 := h .plans
  injection e11 with e11
  have e12 := h .transInv
  injection e12 with e12
  have e13 := h .transform
  injection e13 with e13
  have e14 := h .nbRows
  injection e14 with e14
  have e15 := h .nbCols
  injection e15 with e15
  simp only at e0 e1 e2 e3 e4 e5 e6 e7 e8 e9 e10 e11 e12 e13 e14 e15
  subst e0 e1 e2 e3 e4 e5 e6 e7 e8 e9 e10 e11 e12 e13 e14 e15
  rfl

/-- C110: `set_alt_data` does not update what the constructor derives from the altitudes: after the terrain is raised, a line of sight that meets it
on a new object is reported as not found (with uninitialised numbers), because the box is that of the old altitudes. -/
theorem C110_set_alt_data_is_stale :
    (do
      let o ← CppDtm.ctor 4326 [0, 1, 0, 1, 0, 1, 0, 1, 0] 3 3 (⟨0, 1, 0, 0, 0, 1⟩ : GdalTransform ℚ)
      (o.set (.altData [10, 11, 10, 11, 10, 11, 10, 11, 10])).locate 10 [⟨3 / 2, 3 / 2, 30⟩, ⟨3 / 2, 3 / 2, -5⟩]) = .ok .uninitialised ∧
    newThenLocate [10, 11, 10, 11, 10, 11, 10, 11, 10] 3 3 10 [⟨3 / 2, 3 / 2, 30⟩, ⟨3 / 2, 3 / 2, -5⟩] = .ok (.point ⟨3 / 2, 3 / 2, 10⟩) := by
  decide +kernel

/-- C110, a case: a tuple of fifteen values is refused. -/
example (o : CppDtm ℚ) : CppDtm.setState o.getState.tail = none := rfl

end Shareloc
