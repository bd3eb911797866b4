import Verif.Lemmas.MarchLoop
import Verif.Lemmas.MarchAny
import Verif.Props.Cube

set_option linter.unusedSectionVars false
/-! C14 to C18 and C60: march over the DTM cells along a line of sight. -/

namespace Shareloc
open Spec
variable {K : Type*} [Field K] [LinearOrder K] [IsStrictOrderedRing K] [FloorRing K]

/-! ### Entry cell and segment start -/

theorem startCell_inv (p v : K) : AxisInv p v (startCell .py p v) := by
  unfold startCell
  split_ifs with h
  · obtain ⟨h1, h2⟩ := h
    refine ⟨?_, ?_, ?_, ?_⟩
    · dsimp only; push_cast; linarith
    · dsimp only; push_cast; linarith
    · intro _; dsimp only; push_cast; linarith
    · intro h3; exact absurd h3 (not_lt.mpr h2.le)
  · refine ⟨Int.floor_le p, (Int.lt_floor_add_one p).le, ?_, fun _ => Int.lt_floor_add_one p⟩
    intro hv
    refine lt_of_le_of_ne (Int.floor_le p) ?_
    intro heq
    exact h ⟨heq.symm, hv⟩

theorem start_inv (v0 v1 p : V3 K) (a2 α : K) (hx : p.x = (lerp v0 v1 α).x) (hy : p.y = (lerp v0 v1 α).y) :
    CellInv v0 (segDir v0 v1)
      ⟨p, startCell .py p.x (v1.x - v0.x), startCell .py p.y (v1.y - v0.y), a2⟩ α :=
  ⟨hx, hy, startCell_inv _ _, startCell_inv _ _⟩

theorem pyGet_nat (l : List (V3 K)) (i : ℕ) (v : V3 K) (h : l[i]? = some v) : pyGet l (i : ℤ) = v := by
  unfold pyGet
  rw [if_neg (by omega)]
  simp [List.getD, h]

theorem pyGet_neg_one (l : List (V3 K)) (h : l ≠ []) : l[l.length - 1]? = some (pyGet l (-1)) := by
  have hl := List.length_pos_iff.mpr h
  unfold pyGet
  rw [if_pos (by omega)]
  have : ((l.length : ℤ) + -1).toNat = l.length - 1 := by omega
  rw [this, List.getD, List.getElem?_eq_getElem (by omega)]
  rfl

theorem getElem_pyGet (l : List (V3 K)) (i : ℕ) (h : i < l.length) : l[i]? = some (pyGet l i) := by
  rw [List.getElem?_eq_getElem h, pyGet_nat l i l[i] (List.getElem?_eq_getElem h)]

/-- One turn of the segment loop. -/
theorem marchPlanes_succ (impl : Impl) (d : Dtm K) (N : ℕ) (los : List (V3 K)) (n : ℕ) (i0 : ℤ) (p2 : V3 K)
    (hp2 : K) :
    marchPlanes impl d N los (n + 1) i0 p2 hp2 =
    if i0 < (los.length : ℤ) - 1 then
      if (pyGet los (i0 + 1)).x - (pyGet los i0).x = 0 ∧ (pyGet los (i0 + 1)).y - (pyGet los i0).y = 0 then
        if (pyGet los (i0 + 1)).z ≤ d.interpolate (pyGet los i0).x (pyGet los i0).y then
          .found ⟨(pyGet los i0).x, (pyGet los i0).y, d.interpolate (pyGet los i0).x (pyGet los i0).y⟩
        else marchPlanes impl d N los n (i0 + 1) p2 hp2
      else
        if marchInside d ⟨p2, startCell impl p2.x ((pyGet los (i0 + 1)).x - (pyGet los i0).x),
            startCell impl p2.y ((pyGet los (i0 + 1)).y - (pyGet los i0).y),
            if hp2 - i0 ≥ 1 then 0 else hp2 - i0⟩ = true then
          match marchCells d N (pyGet los i0) (pyGet los (i0 + 1)) (cellFuel d)
            ⟨p2, startCell impl p2.x ((pyGet los (i0 + 1)).x - (pyGet los i0).x),
            startCell impl p2.y ((pyGet los (i0 + 1)).y - (pyGet los i0).y),
            if hp2 - i0 ≥ 1 then 0 else hp2 - i0⟩ with
          | .inl o => o
          | .inr s' =>
            if s'.a2 ≥ 1 then
              marchPlanes impl d N los n (i0 + 1) (pyGet los (i0 + 1)) (altiAt impl los.length (i0 + 1))
            else .notFound
        else .notFound
    else .notFound := by
  rw [marchPlanes]
  simp only [Bool.not_eq_true', Bool.eq_false_iff, ne_eq, ite_not]
  rfl

/-! ### C14: what is reported as found -/

theorem marchCells_found_tol (d : Dtm K) (N : ℕ) (v0 v1 : V3 K) : ∀ (n : ℕ) (s : March K) (p : V3 K),
    marchCells d N v0 v1 n s = .inl (.found p) → |d.interpolate p.x p.y - p.z| ≤ tolZ := by
  intro n
  induction n with
  | zero => intro s p h; simp [marchCells] at h
  | succ n ih =>
    intro s p h
    rw [marchCells_succ] at h
    split_ifs at h with h1 h2
    · injection h with h
      exact falsi_found_tol _ _ _ _ _ _ _ h
    · exact ih _ _ h

theorem marchPlanes_found_tol (impl : Impl) (d : Dtm K) (N : ℕ) (los : List (V3 K)) :
    ∀ (n : ℕ) (i0 : ℤ) (p2 : V3 K) (hp2 : K) (p : V3 K), marchPlanes impl d N los n i0 p2 hp2 = .found p →
      |d.interpolate p.x p.y - p.z| ≤ tolZ := by
  intro n
  induction n with
  | zero => intro i0 p2 hp2 p h; simp [marchPlanes] at h
  | succ n ih =>
    intro i0 p2 hp2 p h
    rw [marchPlanes_succ] at h
    generalize (if hp2 - (i0 : K) ≥ 1 then 0 else hp2 - (i0 : K)) = a2 at h
    split_ifs at h with h1 h2 h3 h4
    · injection h with h
      rw [← h]
      simp [tolZ_pos.le]
    · exact ih _ _ _ _ h
    · split at h
      · rename_i o ho
        rw [h] at ho
        exact marchCells_found_tol d N _ _ _ _ p ho
      · split_ifs at h with h5
        exact ih _ _ _ _ h

/-- C14, altitude part, for every line of sight, every entry point, both implementations and any number
of iterations: the altitude of a found point is within 1e-4 of the interpolated terrain there. -/
theorem C14_altitude_within_tolerance (impl : Impl) (d : Dtm K) (N : ℕ) (los : List (V3 K)) (pb : V3 K)
    (h : K) (p : V3 K) (hf : intersectionIdx impl d N los pb h = .found p) :
    |d.interpolate p.x p.y - p.z| ≤ 1 / 10000 := by
  unfold intersectionIdx at hf
  split_ifs at hf
  exact marchPlanes_found_tol impl d N los _ _ _ _ p hf

/-- The segment loop on a line of two vertices. -/
theorem intersectionIdx_pair (impl : Impl) (d : Dtm K) (N : ℕ) (a b pb : V3 K) (h : K) (h0 : 0 ≤ h)
    (h1 : h < 1) :
    intersectionIdx impl d N [a, b] pb h =
    if pb.z - d.interpolate pb.x pb.y < 0 then .notFound
    else if b.x - a.x = 0 ∧ b.y - a.y = 0 then
      if b.z ≤ d.interpolate a.x a.y then .found ⟨a.x, a.y, d.interpolate a.x a.y⟩ else .notFound
    else
      match marchCells d N a b (cellFuel d)
        ⟨pb, startCell impl pb.x (b.x - a.x), startCell impl pb.y (b.y - a.y), h⟩ with
      | .inl o => o
      | .inr _ => .notFound := by
  unfold intersectionIdx
  have hfl : ⌊h⌋ = 0 := by
    rw [Int.floor_eq_iff]; simp; exact ⟨h0, h1⟩
  have stop : ∀ n p2 hp2, marchPlanes impl d N [a, b] (n + 1) 1 p2 hp2 = .notFound := by
    intro n p2 hp2; rw [marchPlanes_succ, if_neg (by simp)]
  have g0 : pyGet [a, b] 0 = a := rfl
  have g1 : pyGet [a, b] (0 + 1) = b := rfl
  have e1 : (0 : ℤ) + 1 = 1 := rfl
  have e2 : (if h - ((0 : ℤ) : K) ≥ 1 then 0 else h - ((0 : ℤ) : K)) = h := by
    have e3 : h - ((0 : ℤ) : K) = h := by push_cast; ring
    rw [e3, if_neg (not_le.mpr h1)]
  rw [hfl]
  show (if pb.z - d.interpolate pb.x pb.y < 0 then Outcome.notFound else
    marchPlanes impl d N [a, b] (3 + 1) 0 pb h) = _
  have hl : (0 : ℤ) < (([a, b] : List (V3 K)).length : ℤ) - 1 := by simp
  rw [marchPlanes_succ, if_pos hl, g0, g1, e1, e2]
  simp only [stop]
  split_ifs with c1 c2 c3 c4
  · rfl
  · rfl
  · rfl
  · cases hm : marchCells d N a b (cellFuel d)
      ⟨pb, startCell impl pb.x (b.x - a.x), startCell impl pb.y (b.y - a.y), h⟩ with
    | inl o => rfl
    | inr s' => dsimp only; split_ifs <;> rfl
  · have : cellFuel d = (d.nbRows * d.nbCols + d.nbRows + d.nbCols) + 1 := rfl
    rw [this, marchCells_succ, if_neg c4]

theorem intersectionIdx_pair_end (impl : Impl) (d : Dtm K) (N : ℕ) (a b pb : V3 K) :
    intersectionIdx impl d N [a, b] pb 1 = .notFound := by
  unfold intersectionIdx
  rw [Int.floor_one]
  split_ifs
  · rfl
  · show marchPlanes impl d N [a, b] (3 + 1) 1 pb 1 = _
    rw [marchPlanes_succ, if_neg (by simp)]

/-- C14 for straight lines of sight (two vertices, DTM index coordinates, Python), entered at parameter
`h` within the DTM footprint: a found point is on the line, not before the entry, within the footprint
and within the tolerance of the terrain; if the line goes down to more than the tolerance below the lowest
terrain altitude, the found point is on the line of sight itself (between its ends). -/
theorem C14_straight_line (d : Dtm K) (hr : 2 ≤ d.nbRows) (hc : 2 ≤ d.nbCols) (N : ℕ) (a b : V3 K) (h : K)
    (h0 : 0 ≤ h) (h1 : h ≤ 1) (hfoot : InFootprint d.nbRows d.nbCols (lerp a b h)) (p : V3 K)
    (hf : intersectionIdx .py d N [a, b] (lerp a b h) h = .found p) :
    ∃ t, h ≤ t ∧ p = lerp a b t ∧ InFootprint d.nbRows d.nbCols p ∧
      |d.interpolate p.x p.y - p.z| ≤ 1 / 10000 ∧
      (b.z < a.z → b.z ≤ d.altMin - 1 / 10000 → t ≤ 1) := by
  have htol := C14_altitude_within_tolerance .py d N _ _ _ p hf
  have finish : ∀ t, h ≤ t → p = lerp a b t → InFootprint d.nbRows d.nbCols p →
      ∃ t, h ≤ t ∧ p = lerp a b t ∧ InFootprint d.nbRows d.nbCols p ∧
      |d.interpolate p.x p.y - p.z| ≤ 1 / 10000 ∧
      (b.z < a.z → b.z ≤ d.altMin - 1 / 10000 → t ≤ 1) := by
    intro t ht hp hfp
    refine ⟨t, ht, hp, hfp, htol, ?_⟩
    intro hz hlow
    by_contra hc1
    have hlo := ((C11_global_bounds d hr hc).2.2.2 _ _ hfp.1 hfp.2.1 hfp.2.2.1 hfp.2.2.2).1
    have hpz : p.z = a.z + t * (b.z - a.z) := by rw [hp]; rfl
    have := mul_lt_mul_of_neg_right (not_le.mp hc1) (show b.z - a.z < 0 by linarith)
    have := (abs_le.mp htol).2
    linarith
  rcases eq_or_lt_of_le h1 with rfl | h1
  · rw [intersectionIdx_pair_end] at hf; exact absurd hf (by simp)
  rw [intersectionIdx_pair .py d N a b _ h h0 h1] at hf
  split_ifs at hf with c1 c2 c3
  · -- vertical
    injection hf with hf
    have hx : (lerp a b h).x = a.x := by simp only [lerp]; rw [c2.1]; ring
    have hy : (lerp a b h).y = a.y := by simp only [lerp]; rw [c2.2]; ring
    have hpf : InFootprint d.nbRows d.nbCols p := by
      rw [← hf]; simp only [InFootprint] at hfoot ⊢; rw [hx, hy] at hfoot; exact hfoot
    rw [hx, hy] at c1
    have habove : d.interpolate a.x a.y ≤ a.z + h * (b.z - a.z) := by
      have : (lerp a b h).z = a.z + h * (b.z - a.z) := rfl
      rw [this] at c1; linarith
    by_cases hz : b.z - a.z = 0
    · refine finish h (le_refl _) ?_ hpf
      rw [← hf]
      simp only [lerp, V3.mk.injEq]
      refine ⟨by rw [c2.1]; ring, by rw [c2.2]; ring, ?_⟩
      rw [hz] at habove ⊢
      linarith
    · have hneg : b.z - a.z < 0 := by
        by_contra hcon
        have hpos : 0 < b.z - a.z := lt_of_le_of_ne (not_lt.mp hcon) (Ne.symm hz)
        have := mul_lt_mul_of_pos_right h1 hpos
        linarith
      refine finish ((d.interpolate a.x a.y - a.z) / (b.z - a.z)) ?_ ?_ hpf
      · rw [le_div_iff_of_neg hneg]; linarith
      · rw [← hf]
        simp only [lerp, V3.mk.injEq]
        refine ⟨by rw [c2.1]; ring, by rw [c2.2]; ring, ?_⟩
        field_simp; ring
  · have hdir : b.x - a.x ≠ 0 ∨ b.y - a.y ≠ 0 := by
      by_contra hcon
      push Not at hcon
      exact c2 hcon
    split at hf
    · rename_i o ho
      rw [hf] at ho
      obtain ⟨t, t0, hp, hfp⟩ := marchCells_found_between d N a b hdir _ _ h
        (start_inv a b (lerp a b h) h h rfl rfl) rfl rfl (fun _ => not_lt.mp c1) p ho
      exact finish t t0 hp hfp
    · exact absurd hf (by simp)

theorem cubeOfIndex_entry (impl : Impl) (d : Dtm K) (li : List (V3 K)) (c : Crossing K)
    (h : cubeOfIndex impl d li = .ok (some c)) :
    InBox d.nbRows d.nbCols d.altMin d.altMax c.p ∧
    (OnPolyline li c.h c.p ∨ (impl = .py ∧ c.h = -1 ∧ li.head? = some c.p ∧
        ∃ k, OnFacePlane d.nbRows d.nbCols d.altMin d.altMax k c.p)) := by
  have hok : ∃ cs, faceHits impl d li [0, 1, 2, 3, 4, 5] = .ok cs := by
    cases hh : faceHits impl d li [0, 1, 2, 3, 4, 5] with
    | error e => simp [cubeOfIndex, hh] at h
    | ok cs => exact ⟨cs, rfl⟩
  obtain ⟨cs, hcs⟩ := hok
  obtain ⟨h1, _, _⟩ := cubeOfIndex_spec impl d _ cs hcs
  obtain ⟨hm, hb, _⟩ := h1 c h
  obtain ⟨k, _, hk⟩ := (mem_faceHits impl d _ _ cs hcs c).mp hm
  refine ⟨(onCube_iff d c.p).mp hb, ?_⟩
  rcases faceHit_cases impl d k _ c hk with h | h
  · exact .inl h.1
  · exact .inr ⟨h.1, h.2.1, h.2.2.1, k, h.2.2.2⟩

/-- A vertical segment gives exactly the terrain altitude below it (both implementations). -/
theorem C14_vertical_exact (impl : Impl) (d : Dtm K) (N : ℕ) (a b pb : V3 K) (h : K) (h0 : 0 ≤ h) (h1 : h < 1)
    (hx : a.x = b.x) (hy : a.y = b.y) (habove : d.interpolate pb.x pb.y ≤ pb.z)
    (hbelow : b.z ≤ d.interpolate a.x a.y) :
    intersectionIdx impl d N [a, b] pb h = .found ⟨a.x, a.y, d.interpolate a.x a.y⟩ := by
  rw [intersectionIdx_pair impl d N a b pb h h0 h1, if_neg (by linarith),
    if_pos ⟨by rw [hx]; ring, by rw [hy]; ring⟩, if_pos hbelow]

theorem marchCells_found_line (d : Dtm K) (N : ℕ) (v0 v1 : V3 K)
    (hdir : v1.x - v0.x ≠ 0 ∨ v1.y - v0.y ≠ 0) :
    ∀ (n : ℕ) (s : March K) (α : K), CellInv v0 (segDir v0 v1) s α → s.p2 = lerp v0 v1 α →
      ∀ p, marchCells d N v0 v1 n s = .inl (.found p) → ∃ t, p = lerp v0 v1 t := by
  intro n
  induction n with
  | zero => intro s α _ _ p h; simp [marchCells] at h
  | succ n ih =>
    intro s α hinv hp p h
    rw [marchCells_succ] at h
    have st := cellExit_spec v0 (segDir v0 v1) s α hinv hdir
    split_ifs at h with h1 h2
    · injection h with h
      rw [hp, st.p2_eq] at h
      exact falsi_found_line _ _ _ _ _ _ _ h
    · exact ih _ _ st.inv st.p2_eq p h

theorem marchPlanes_found_line (d : Dtm K) (N : ℕ) (los : List (V3 K))
    (hnv : ∀ (i : ℕ) a b, los[i]? = some a → los[i + 1]? = some b → a.x ≠ b.x ∨ a.y ≠ b.y) :
    ∀ (n : ℕ) (i0 : ℕ) (p2 : V3 K) (hp2 : K),
      (∀ a b, los[i0]? = some a → los[i0 + 1]? = some b → ∃ α, p2 = lerp a b α) →
      ∀ p, marchPlanes .py d N los n i0 p2 hp2 = .found p →
      ∃ (i : ℕ) (a b : V3 K) (t : K), los[i]? = some a ∧ los[i + 1]? = some b ∧ p = lerp a b t := by
  intro n
  induction n with
  | zero => intro i0 p2 hp2 _ p h; simp [marchPlanes] at h
  | succ n ih =>
    intro i0 p2 hp2 hon p h
    rw [marchPlanes_succ] at h
    by_cases hi : (i0 : ℤ) < (los.length : ℤ) - 1
    swap
    · rw [if_neg hi] at h; exact absurd h (by simp)
    rw [if_pos hi] at h
    have ga := getElem_pyGet los i0 (by omega)
    have gb := getElem_pyGet los (i0 + 1) (by omega)
    push_cast at gb
    have hnv' := hnv i0 _ _ ga gb
    have hdir : (pyGet los ((i0 : ℤ) + 1)).x - (pyGet los (i0 : ℤ)).x ≠ 0 ∨
        (pyGet los ((i0 : ℤ) + 1)).y - (pyGet los (i0 : ℤ)).y ≠ 0 := by
      rcases hnv' with h' | h'
      · exact .inl fun e => h' (by linarith)
      · exact .inr fun e => h' (by linarith)
    rw [if_neg (by rintro ⟨e1, e2⟩; rcases hdir with h' | h'; exact h' e1; exact h' e2)] at h
    generalize (if hp2 - ((i0 : ℤ) : K) ≥ 1 then 0 else hp2 - ((i0 : ℤ) : K)) = a2 at h
    split_ifs at h with h4
    obtain ⟨α, hα⟩ := hon _ _ ga gb
    split at h
    · rename_i o ho
      rw [h] at ho
      obtain ⟨t, ht⟩ := marchCells_found_line d N _ _ hdir _ _ α
        (start_inv _ _ p2 _ α (by rw [hα]) (by rw [hα])) hα p ho
      exact ⟨i0, _, _, t, ga, gb, ht⟩
    · split_ifs at h with h5
      refine ih (i0 + 1) (pyGet los ((i0 : ℤ) + 1)) _ ?_ p (by exact_mod_cast h)
      intro a' b' ha' hb'
      rw [gb] at ha'
      injection ha' with ha'
      exact ⟨0, by rw [lerp_zero]; exact ha'⟩

/-- C14 for general lines of sight (polylines, Python): when no segment is vertical, a found point is on
the straight line carrying some segment of the line of sight, and within the tolerance of the terrain.
Missing with respect to the full statement: that it is between the ends of that segment (false for bent
lines, see `C14_bent_line_off_line`), and vertical segments before the last one (false, see
`C14_stale_point_after_vertical_segment`). -/
theorem C14_polyline_partial (d : Dtm K) (N : ℕ) (los : List (V3 K)) (c : Crossing K)
    (hcube : cubeOfIndex .py d los = .ok (some c)) (hoff : FirstOffPlanes d los)
    (hnv : ∀ (i : ℕ) a b, los[i]? = some a → los[i + 1]? = some b → a.x ≠ b.x ∨ a.y ≠ b.y)
    (p : V3 K) (hf : intersectionIdx .py d N los c.p c.h = .found p) :
    |d.interpolate p.x p.y - p.z| ≤ 1 / 10000 ∧
    ∃ (i : ℕ) (a b : V3 K) (t : K), los[i]? = some a ∧ los[i + 1]? = some b ∧ p = lerp a b t := by
  refine ⟨C14_altitude_within_tolerance .py d N _ _ _ p hf, ?_⟩
  rcases (cubeOfIndex_entry .py d los c hcube).2 with hon | ⟨_, _, h2, k, hk⟩
  swap
  · exact absurd hk (hoff _ h2 k)
  obtain ⟨i, a, b, t, ha, hb, t0, t1, hh, hp⟩ := hon
  unfold intersectionIdx at hf
  split_ifs at hf with hneg
  rcases eq_or_lt_of_le t1 with rfl | t1
  · have hfl : ⌊c.h⌋ = ((i + 1 : ℕ) : ℤ) := by
      rw [Int.floor_eq_iff, hh]; push_cast; constructor <;> linarith
    rw [hfl] at hf
    refine marchPlanes_found_line d N los hnv _ (i + 1) c.p c.h ?_ p hf
    intro a' b' ha' _
    rw [hb] at ha'
    injection ha' with ha'
    exact ⟨0, by rw [hp, lerp_zero, lerp_one, ha']⟩
  · have hfl : ⌊c.h⌋ = ((i : ℕ) : ℤ) := by
      rw [Int.floor_eq_iff, hh]; push_cast; constructor <;> linarith
    rw [hfl] at hf
    refine marchPlanes_found_line d N los hnv _ i c.p c.h ?_ p hf
    intro a' b' ha' hb'
    rw [ha] at ha'
    rw [hb] at hb'
    injection ha' with ha'
    injection hb' with hb'
    exact ⟨t, by rw [hp, ha', hb']⟩

/-! ### C15: termination and order of the march -/

theorem marchPlanes_no_fuel (impl : Impl) (d : Dtm K) (N : ℕ) (los : List (V3 K)) :
    ∀ (n : ℕ) (i0 : ℤ) (p2 : V3 K) (hp2 : K), (los.length : ℤ) - 1 - i0 < n → 0 < n →
      marchPlanes impl d N los n i0 p2 hp2 ≠ .marchFuel := by
  intro n
  induction n with
  | zero => intro i0 p2 hp2 _ h; exact absurd h (lt_irrefl 0)
  | succ n ih =>
    intro i0 p2 hp2 hn _
    rw [marchPlanes_succ]
    by_cases hlt : i0 < (los.length : ℤ) - 1
    swap
    · rw [if_neg hlt]; simp
    rw [if_pos hlt]
    push_cast at hn
    generalize (if hp2 - (i0 : K) ≥ 1 then 0 else hp2 - (i0 : K)) = a2
    split_ifs with h2 h3 h4
    · simp
    · exact ih (i0 + 1) p2 hp2 (by omega) (by omega)
    · have hdir : (pyGet los (i0 + 1)).x - (pyGet los i0).x ≠ 0 ∨ (pyGet los (i0 + 1)).y - (pyGet los i0).y ≠ 0 := by
        by_contra hcon
        push Not at hcon
        exact h2 hcon
      have hnf := fun s => marchCells_no_fuel_any d N _ _ hdir (cellFuel d) s (Nat.succ_pos _) (fun h => cellsToGo_fuel d _ _ s h)
      split
      · rename_i o ho
        intro hcon
        rw [hcon] at ho
        exact hnf _ ho
      · split_ifs
        · exact ih (i0 + 1) _ _ (by omega) (by omega)
        · simp
    · simp

/-- C15, termination, both implementations: from every entry point, on or off the line of sight, whatever the number of
vertices of the line and their positions, and even when the march starts in a wrong cell (as the C++ code can), the cell loop and
the segment loop end by themselves. -/
theorem C15_march_terminates (impl : Impl) (d : Dtm K) (N : ℕ) (los : List (V3 K)) (pb : V3 K) (h : K) (h0 : -1 ≤ h) :
    intersectionIdx impl d N los pb h ≠ .marchFuel := by
  unfold intersectionIdx
  split_ifs
  · simp
  have : -1 ≤ ⌊h⌋ := Int.le_floor.2 (by push_cast; exact h0)
  exact marchPlanes_no_fuel impl d N los _ _ pb h (by push_cast; omega) (by omega)

/-- C15, termination from the entry point that the box intersection reports: the model's bounds on the two loops are never
reached, in Python nor in C++. -/
theorem C15_reported_entry_terminates (impl : Impl) (d : Dtm K) (N : ℕ) (los li : List (V3 K)) (c : Crossing K)
    (h : intersectDtmCube impl d los = .ok (some c, li)) :
    intersectionIdx impl d N li c.p c.h ≠ .marchFuel := by
  have hc : cubeOfIndex impl d li = .ok (some c) := by
    simp only [intersectDtmCube] at h
    split at h
    · exact absurd h (by simp)
    · rename_i r hr
      injection h with h
      injection h with h1 h2
      rw [← h2, hr, h1]
  apply C15_march_terminates
  rcases (cubeOfIndex_entry impl d li c hc).2 with ⟨i, a, b, t, ha, hb, t0, t1, hh, hp⟩ | ⟨_, h1, h2, _⟩
  · rw [hh]
    have : (0 : K) ≤ i := Nat.cast_nonneg i
    linarith
  · rw [h1]

/-- The successive states of the cell loop of `marchCells` on one segment (dtm_intersection.py:523-745),
when it is not interrupted by a `return`. -/
def marchTrace (d : Dtm K) (v0 v1 : V3 K) : ℕ → March K → List (March K)
  | 0, _ => []
  | n + 1, s =>
    if marchInside d s then
      cellExit v0 ⟨v1.x - v0.x, v1.y - v0.y, v1.z - v0.z⟩ s ::
        marchTrace d v0 v1 n (cellExit v0 ⟨v1.x - v0.x, v1.y - v0.y, v1.z - v0.z⟩ s)
    else []

theorem marchTrace_spec (d : Dtm K) (v0 v1 : V3 K) (hdir : v1.x - v0.x ≠ 0 ∨ v1.y - v0.y ≠ 0) :
    ∀ (n : ℕ) (s : March K) (α : K), CellInv v0 (segDir v0 v1) s α →
      (α :: (marchTrace d v0 v1 n s).map (·.a2)).Pairwise (· < ·) ∧
      (∀ s' ∈ marchTrace d v0 v1 n s, s'.p2 = lerp v0 v1 s'.a2 ∧ InFootprint d.nbRows d.nbCols s'.p2) ∧
      ((marchTrace d v0 v1 n s).length : ℤ) ≤ max 0 (cellsLeft d (segDir v0 v1) s) := by
  intro n
  induction n with
  | zero => intro s α _; simp [marchTrace]
  | succ n ih =>
    intro s α hinv
    rw [marchTrace]
    split_ifs with h1
    · have hs : (⟨v1.x - v0.x, v1.y - v0.y, v1.z - v0.z⟩ : V3 K) = segDir v0 v1 := rfl
      rw [hs]
      have st := cellExit_spec v0 (segDir v0 v1) s α hinv hdir
      obtain ⟨i1, i2, i3⟩ := ih _ _ st.inv
      have hcell := ((marchInside_iff d s).mp h1).2
      refine ⟨?_, ?_, ?_⟩
      · rw [List.map_cons, List.pairwise_cons]
        refine ⟨?_, i1⟩
        intro x hx
        rcases List.mem_cons.mp hx with rfl | hx
        · exact st.lt
        · exact st.lt.trans ((List.pairwise_cons.mp i1).1 x hx)
      · intro s' hs'
        rcases List.mem_cons.mp hs' with rfl | hs'
        · exact ⟨st.p2_eq, inCell_footprint hcell st.inCell⟩
        · exact i2 s' hs'
      · have hb := (cellsLeft_bounds (dir := segDir v0 v1) hcell).1
        have hstep := cellsLeft_step (d := d) st
        rw [List.length_cons]
        push_cast
        omega
    · simp

/-- C15, order: on one non vertical segment, from any start position on the line of the segment (in
horizontal projection), the successive positions of the cell loop are points of the segment's line with
strictly increasing parameters, all within the DTM extent, and there are at most
`nbRows + nbCols` of them. -/
theorem C15_march_moves_forward (d : Dtm K) (v0 v1 p : V3 K) (α a2 : K)
    (hdir : v0.x ≠ v1.x ∨ v0.y ≠ v1.y)
    (hx : p.x = (lerp v0 v1 α).x) (hy : p.y = (lerp v0 v1 α).y) (n : ℕ) :
    let tr := marchTrace d v0 v1 n ⟨p, startCell .py p.x (v1.x - v0.x), startCell .py p.y (v1.y - v0.y), a2⟩
    (α :: tr.map (·.a2)).Pairwise (· < ·) ∧
    (∀ s' ∈ tr, s'.p2 = lerp v0 v1 s'.a2 ∧ InFootprint d.nbRows d.nbCols s'.p2) ∧
    tr.length ≤ d.nbRows + d.nbCols := by
  have hdir' : v1.x - v0.x ≠ 0 ∨ v1.y - v0.y ≠ 0 := by
    rcases hdir with h | h
    · exact .inl fun e => h (by linarith)
    · exact .inr fun e => h (by linarith)
  obtain ⟨h1, h2, h3⟩ := marchTrace_spec d v0 v1 hdir' n _ α (start_inv v0 v1 p a2 α hx hy)
  refine ⟨h1, h2, ?_⟩
  by_cases hin : marchInside d ⟨p, startCell .py p.x (v1.x - v0.x), startCell .py p.y (v1.y - v0.y), a2⟩ = true
  · have hb := cellsLeft_small (dir := segDir v0 v1) ((marchInside_iff d _).mp hin).2
    push_cast at hb
    omega
  · cases n with
    | zero => simp [marchTrace]
    | succ n => simp [marchTrace, hin]

/-- C15: the loop modelled by `marchCells` follows that trace: it ends normally in the last state of the
trace (or its start when the trace is empty). -/
theorem C15_trace_is_the_loop (d : Dtm K) (N : ℕ) (v0 v1 : V3 K) : ∀ (n : ℕ) (s s' : March K),
    marchCells d N v0 v1 n s = .inr s' → (s :: marchTrace d v0 v1 n s).getLast? = some s' := by
  intro n
  induction n with
  | zero => intro s s' h; simp [marchCells] at h
  | succ n ih =>
    intro s s' h
    rw [marchCells_succ] at h
    rw [marchTrace]
    have hs : (⟨v1.x - v0.x, v1.y - v0.y, v1.z - v0.z⟩ : V3 K) = segDir v0 v1 := rfl
    rw [hs]
    split_ifs at h with h1 h2
    · rw [if_pos h1, List.getLast?_cons_cons]
      exact ih _ _ h
    · rw [if_neg h1]
      injection h with h
      simp [h]

/-! ### C16: a sign change is never missed -/

/-- C16 for every segment of every line of sight (Python): the march starts on the segment above the
terrain; if in some visited cell it is above the terrain at the entry and at or below it at the exit (the
exit being on the segment), an intersection is reported by the march of this segment (in that cell or in an
earlier one), for every large enough iteration budget. -/
theorem C16_sign_change_in_visited_cell_is_found (d : Dtm K) (v0 v1 : V3 K)
    (hdir : v0.x ≠ v1.x ∨ v0.y ≠ v1.y) (α a2 : K)
    (hup : d.interpolate (lerp v0 v1 α).x (lerp v0 v1 α).y < (lerp v0 v1 α).z)
    (start s : March K)
    (hstart : start = ⟨lerp v0 v1 α, startCell .py (lerp v0 v1 α).x (v1.x - v0.x),
      startCell .py (lerp v0 v1 α).y (v1.y - v0.y), a2⟩)
    (hs : s ∈ start :: marchTrace d v0 v1 (cellFuel d) start) (hin : marchInside d s = true)
    (exit : March K) (hexit : exit = cellExit v0 ⟨v1.x - v0.x, v1.y - v0.y, v1.z - v0.z⟩ s)
    (hexit1 : exit.a2 ≤ 1) (hdown : exit.p2.z ≤ d.interpolate exit.p2.x exit.p2.y) :
    ∃ N0, ∀ N, N0 ≤ N → ∃ p, marchCells d N v0 v1 (cellFuel d) start = .inl (.found p) := by
  have hdir' : v1.x - v0.x ≠ 0 ∨ v1.y - v0.y ≠ 0 := by
    rcases hdir with h | h
    · exact .inl fun e => h (by linarith)
    · exact .inr fun e => h (by linarith)
  have main : ∀ (n : ℕ) (s0 : March K) (α : K), CellInv v0 (segDir v0 v1) s0 α → s0.p2 = lerp v0 v1 α →
      0 < height d.interpolate v0 v1 α → s ∈ s0 :: marchTrace d v0 v1 n s0 →
      0 < n → cellsLeft d (segDir v0 v1) s0 < n →
      ∃ N0, ∀ N, N0 ≤ N → ∃ p, marchCells d N v0 v1 n s0 = .inl (.found p) := by
    intro n
    induction n with
    | zero => intro s0 α _ _ _ _ h; exact absurd h (lt_irrefl 0)
    | succ n ih =>
      intro s0 α hinv hp hpos hmem _ hfuel
      have st := cellExit_spec v0 (segDir v0 v1) s0 α hinv hdir'
      have hin0 : marchInside d s0 = true := by
        by_contra hno
        rw [marchTrace, if_neg hno] at hmem
        rw [List.mem_singleton] at hmem
        rw [hmem] at hin
        exact hno hin
      have hcell := ((marchInside_iff d s0).mp hin0).2
      have hbounds := (cellsLeft_bounds (dir := segDir v0 v1) hcell).1
      have hdec := cellsLeft_step (d := d) st
      push_cast at hfuel
      by_cases hcond : bIntersect v0.z v1.z (altMinCellPy d.alt s0.colC s0.rowC)
          (altMaxCellPy d.alt s0.colC s0.rowC) s0.p2.z (cellExit v0 (segDir v0 v1) s0).p2.z = true ∧
          (s0.p2.z - d.interpolate s0.p2.x s0.p2.y) * ((cellExit v0 (segDir v0 v1) s0).p2.z -
          d.interpolate (cellExit v0 (segDir v0 v1) s0).p2.x (cellExit v0 (segDir v0 v1) s0).p2.y) ≤ 0
      · have hneg : height d.interpolate v0 v1 (cellExit v0 (segDir v0 v1) s0).a2 ≤ 0 := by
          have h2 := hcond.2
          rw [hp, st.p2_eq] at h2
          by_contra hc
          exact absurd h2 (not_le.mpr (mul_pos hpos (not_le.mp hc)))
        obtain ⟨L, hL, hlip⟩ := cell_lipschitz d (lerp v0 v1 α)
          (lerp v0 v1 (cellExit v0 (segDir v0 v1) s0).a2) s0.colC s0.rowC hcell
          (by rw [← hp]; exact hinv.inCell) (by rw [← st.p2_eq]; exact st.inCell)
        have e0 : height d.interpolate (lerp v0 v1 α) (lerp v0 v1 (cellExit v0 (segDir v0 v1) s0).a2) 0 =
            height d.interpolate v0 v1 α := by
          rw [height_lerp]; simp
        have e1 : height d.interpolate (lerp v0 v1 α) (lerp v0 v1 (cellExit v0 (segDir v0 v1) s0).a2) 1 =
            height d.interpolate v0 v1 (cellExit v0 (segDir v0 v1) s0).a2 := by
          rw [height_lerp]; simp
        obtain ⟨N0, hN0⟩ := falsi_eventually d.interpolate (lerp v0 v1 α)
          (lerp v0 v1 (cellExit v0 (segDir v0 v1) s0).a2) L hL hlip
          (by rw [e0]; exact hpos.le) (by rw [e1]; exact hneg) (by rw [e0, e1]; intro h; linarith)
        refine ⟨N0, fun N hN => ?_⟩
        obtain ⟨t, _, _, ht⟩ := hN0 N hN
        rw [marchCells_succ, if_pos hin0, if_pos hcond, hp, st.p2_eq]
        exact ⟨_, by rw [ht]⟩
      · have habove : (cellExit v0 (segDir v0 v1) s0).a2 ≤ 1 →
            0 < height d.interpolate v0 v1 (cellExit v0 (segDir v0 v1) s0).a2 := by
          intro hle
          by_cases hb : bIntersect v0.z v1.z (altMinCellPy d.alt s0.colC s0.rowC)
            (altMaxCellPy d.alt s0.colC s0.rowC) s0.p2.z (cellExit v0 (segDir v0 v1) s0).p2.z = true
          · by_contra hc
            apply hcond
            refine ⟨hb, ?_⟩
            rw [hp, st.p2_eq]
            exact mul_nonpos_of_nonneg_of_nonpos hpos.le (not_lt.mp hc)
          · exact height_pos_of_skip d v0 v1 s0 _ α hcell hinv st hp hpos.le (by simpa using hb) _ st.lt.le
              (le_refl _) hle
        rw [marchTrace, if_pos hin0] at hmem
        have hseg : (⟨v1.x - v0.x, v1.y - v0.y, v1.z - v0.z⟩ : V3 K) = segDir v0 v1 := rfl
        rw [hseg] at hmem hexit
        rcases List.mem_cons.mp hmem with heq | hmem
        · exfalso
          rw [heq] at hexit
          have h1 := habove (by rw [← hexit]; exact hexit1)
          rw [hexit, st.p2_eq] at hdown
          simp only [height] at h1
          linarith
        · have hlt : (cellExit v0 (segDir v0 v1) s0).a2 < 1 := by
            rcases List.mem_cons.mp hmem with heq | hmem'
            · rw [heq] at hin
              exact ((marchInside_iff d _).mp hin).1
            · by_contra hge
              have hout : ¬ marchInside d (cellExit v0 (segDir v0 v1) s0) = true :=
                fun h => hge ((marchInside_iff d _).mp h).1
              cases n with
              | zero => simp [marchTrace] at hmem'
              | succ m => rw [marchTrace, if_neg hout] at hmem'; simp at hmem'
          obtain ⟨N0, hN0⟩ := ih _ _ st.inv st.p2_eq (habove hlt.le) hmem (by omega) (by omega)
          refine ⟨N0, fun N hN => ?_⟩
          rw [marchCells_succ, if_pos hin0, if_neg hcond]
          exact hN0 N hN
  subst hstart
  have hinv := start_inv v0 v1 (lerp v0 v1 α) a2 α rfl rfl
  refine main (cellFuel d) _ α hinv rfl (by simp only [height]; linarith) hs (Nat.succ_pos _) ?_
  by_cases hin0 : marchInside d ⟨lerp v0 v1 α, startCell .py (lerp v0 v1 α).x (v1.x - v0.x),
      startCell .py (lerp v0 v1 α).y (v1.y - v0.y), a2⟩ = true
  · exact (cellsLeft_bounds ((marchInside_iff d _).mp hin0).2).2
  · exfalso
    rw [show cellFuel d = d.nbRows * d.nbCols + d.nbRows + d.nbCols + 1 from rfl, marchTrace, if_neg hin0, List.mem_singleton] at hs
    rw [hs] at hin
    exact hin0 hin

/-- C16 (straight lines, Python): the line of sight enters at parameter `h` strictly above the terrain;
if at some later parameter `T` within the footprint it is at or below the terrain on a grid line it goes
across, or it is at or below the lowest altitude of the DTM while going down, then an intersection is
reported (for every large enough iteration budget). -/
theorem C16_sign_change_is_found (d : Dtm K) (hr : 2 ≤ d.nbRows) (hc : 2 ≤ d.nbCols) (a b : V3 K) (h T : K)
    (h0 : 0 ≤ h) (hT : h < T) (hT1 : T ≤ 1) (hdir : a.x ≠ b.x ∨ a.y ≠ b.y)
    (hfoot : InFootprint d.nbRows d.nbCols (lerp a b h)) (hfootT : InFootprint d.nbRows d.nbCols (lerp a b T))
    (hup : d.interpolate (lerp a b h).x (lerp a b h).y < (lerp a b h).z)
    (hdown : (lerp a b T).z ≤ d.interpolate (lerp a b T).x (lerp a b T).y)
    (hseen : (a.x ≠ b.x ∧ ∃ m : ℤ, (lerp a b T).x = m) ∨ (a.y ≠ b.y ∧ ∃ m : ℤ, (lerp a b T).y = m) ∨
      (b.z ≤ a.z ∧ (lerp a b T).z ≤ d.altMin))
    (hx : a.x = b.x → a.x < (d.nbRows : K) - 1) (hy : a.y = b.y → a.y < (d.nbCols : K) - 1) :
    ∃ N0, ∀ N, N0 ≤ N → ∃ p, intersectionIdx .py d N [a, b] (lerp a b h) h = .found p := by
  have h1 : h < 1 := lt_of_lt_of_le hT hT1
  have hdir' : b.x - a.x ≠ 0 ∨ b.y - a.y ≠ 0 := by
    rcases hdir with h | h
    · exact .inl fun e => h (by linarith)
    · exact .inr fun e => h (by linarith)
  have hhup : 0 < height d.interpolate a b h := by simp only [height]; linarith
  have rng : ∀ (p : K) (nb : ℕ), 0 ≤ p → p < (nb : K) - 1 → 0 ≤ startCell .py p 0 ∧ startCell .py p 0 + 1 ≤ (nb : ℤ) - 1 := by
    intro p nb p0 p1
    have e : startCell .py p 0 = ⌊p⌋ := by unfold startCell; rw [if_neg (by simp)]
    rw [e]
    refine ⟨Int.floor_nonneg.mpr p0, ?_⟩
    have h2 : (⌊p⌋ : K) < (nb : K) - 1 := lt_of_le_of_lt (Int.floor_le p) p1
    have h3 : ⌊p⌋ < (nb : ℤ) - 1 := by exact_mod_cast h2
    omega
  have hin : ∃ N0, ∀ N, N0 ≤ N → (∃ p, marchCells d N a b (cellFuel d) ⟨lerp a b h,
      startCell .py (lerp a b h).x (b.x - a.x), startCell .py (lerp a b h).y (b.y - a.y), h⟩ = .inl (.found p)) ∨
        (height d.interpolate a b h = 0 ∧ marchCells d N a b (cellFuel d) ⟨lerp a b h,
      startCell .py (lerp a b h).x (b.x - a.x), startCell .py (lerp a b h).y (b.y - a.y), h⟩ = .inl .nonFinite) := by
    have hinv := start_inv a b (lerp a b h) h h rfl rfl
    have zx : a.x = b.x → 0 ≤ startCell .py (lerp a b h).x (b.x - a.x) ∧
        startCell .py (lerp a b h).x (b.x - a.x) + 1 ≤ (d.nbRows : ℤ) - 1 := by
      intro e
      have e1 : (lerp a b h).x = a.x := by simp only [lerp]; rw [e]; ring
      rw [e1, show b.x - a.x = 0 by rw [e]; ring]
      exact rng a.x d.nbRows (by rw [← e1]; exact hfoot.1) (hx e)
    have zy : a.y = b.y → 0 ≤ startCell .py (lerp a b h).y (b.y - a.y) ∧
        startCell .py (lerp a b h).y (b.y - a.y) + 1 ≤ (d.nbCols : ℤ) - 1 := by
      intro e
      have e1 : (lerp a b h).y = a.y := by simp only [lerp]; rw [e]; ring
      rw [e1, show b.y - a.y = 0 by rw [e]; ring]
      exact rng a.y d.nbCols (by rw [← e1]; exact hfoot.2.2.1) (hy e)
    have hcell : IsCell d.nbRows d.nbCols (startCell .py (lerp a b h).x (b.x - a.x))
        (startCell .py (lerp a b h).y (b.y - a.y)) := by
      have h1 : 0 ≤ startCell .py (lerp a b h).x (b.x - a.x) ∧
          startCell .py (lerp a b h).x (b.x - a.x) + 1 ≤ (d.nbRows : ℤ) - 1 := by
        by_cases e : a.x = b.x
        · exact zx e
        · exact axis_range hinv.ax (show b.x - a.x ≠ 0 from fun e' => e (by linarith)) hfoot.1 hfoot.2.1
            hfootT.1 hfootT.2.1 (sub_pos.mpr hT) (by simp only [lerp, segDir]; ring)
      have h2 : 0 ≤ startCell .py (lerp a b h).y (b.y - a.y) ∧
          startCell .py (lerp a b h).y (b.y - a.y) + 1 ≤ (d.nbCols : ℤ) - 1 := by
        by_cases e : a.y = b.y
        · exact zy e
        · exact axis_range hinv.ay (show b.y - a.y ≠ 0 from fun e' => e (by linarith)) hfoot.2.2.1 hfoot.2.2.2
            hfootT.2.2.1 hfootT.2.2.2 (sub_pos.mpr hT) (by simp only [lerp, segDir]; ring)
      exact ⟨h1.1, h1.2, h2.1, h2.2⟩
    exact marchCells_eventually d hr hc a b hdir' T ⟨hT1, hfootT, by simp only [height]; linarith, hseen⟩
      (cellFuel d) _ h hinv rfl rfl hT hhup.le hfoot zx zy (Nat.succ_pos _) (cellsLeft_bounds hcell).2
  obtain ⟨N0, hN0⟩ := hin
  refine ⟨N0, fun N hN => ?_⟩
  rw [intersectionIdx_pair .py d N a b _ h h0 h1, if_neg (by linarith),
    if_neg (by rintro ⟨e1, e2⟩; rcases hdir' with h' | h'; exact h' e1; exact h' e2)]
  rcases hN0 N hN with ⟨p, hp⟩ | ⟨hz, _⟩
  · exact ⟨p, by rw [hp]⟩
  · exact absurd hz hhup.ne'

/-- Converting a line of sight to DTM indices is affine. -/
theorem terToIndex_lerp (t : Affine K) (A B : V3 K) (u : K) :
    terToIndexPy t (lerp A B u) = lerp (terToIndexPy t A) (terToIndexPy t B) u := by
  simp only [terToIndexPy, physicalToIndex, Affine.apply, lerp, V3.mk.injEq]
  refine ⟨?_, ?_, ?_⟩ <;> (first | trivial | ring)

theorem faceHit_py_ok (d : Dtm K) (k : Fin 6) (los : List (V3 K)) : ∃ o, faceHit .py d k los = .ok o := by
  cases los with
  | nil => exact ⟨none, rfl⟩
  | cons v rest =>
    by_cases hv : eqPlan d k v = 0
    · exact ⟨_, (faceHit_first_on_plane d k v rest hv).1⟩
    · rcases faceHit_spec .py d k v rest hv with ⟨h, _⟩ | ⟨c, h, _⟩
      · exact ⟨_, h⟩
      · exact ⟨_, h⟩

/-- Crossing of one of the two horizontal faces by a segment that starts off it. -/
theorem horizontal_hit (d : Dtm K) (k : Fin 6) (a b : V3 K) (τ : K) (τ0 : 0 ≤ τ) (τ1 : τ ≤ 1)
    (hv : eqPlan d k a ≠ 0) (hz : eqPlan d k (lerp a b τ) = 0) :
    faceHit .py d k [a, b] = .ok (some ⟨lerp a b τ, τ⟩) := by
  rcases faceHit_spec .py d k a [b] hv with ⟨_, h2⟩ | ⟨c, h1, h2, h3, _⟩
  · exact absurd hz (h2 τ _ ((onPolyline_pair a b τ _).mpr ⟨τ0, τ1, rfl⟩))
  · obtain ⟨_, _, hp⟩ := (onPolyline_pair a b c.h c.p).mp h2
    rw [hp, eqPlan_lerp] at h3
    rw [eqPlan_lerp] at hz
    have : (c.h - τ) * (eqPlan d k b - eqPlan d k a) = 0 := by linear_combination h3 - hz
    rcases mul_eq_zero.mp this with e | e
    · have e : c.h = τ := by linarith
      rw [h1]
      congr 2
      rw [← e, ← hp]
    · rw [e] at hz; simp at hz; exact absurd hz hv

/-- Entry of a straight line going down through the DTM box. -/
theorem downward_entry (d : Dtm K) (hr : 2 ≤ d.nbRows) (hc : 2 ≤ d.nbCols) (a b : V3 K) (top bot : K)
    (ha : d.altMax < a.z)
    (t0 : 0 ≤ top) (htop : (lerp a b top).z = d.altMax) (t1 : bot ≤ 1) (hbot : (lerp a b bot).z = d.altMin)
    (htb : top ≤ bot)
    (ftop : InFootprint d.nbRows d.nbCols (lerp a b top)) (fbot : InFootprint d.nbRows d.nbCols (lerp a b bot)) :
    cubeOfIndex .py d [a, b] = .ok (some ⟨lerp a b top, top⟩) := by
  have hmm : d.altMin ≤ d.altMax := by
    obtain ⟨⟨i, j, hn, he⟩, _, h3, _⟩ := C11_global_bounds d hr hc
    have := h3 i j hn
    linarith
  have e5 : eqPlan d 5 a ≠ 0 := by simp only [eqPlan, planeD]; intro h; linarith
  have e4 : eqPlan d 4 a ≠ 0 := by simp only [eqPlan, planeD]; intro h; linarith
  have z5 : eqPlan d 5 (lerp a b top) = 0 := by simp only [eqPlan, planeD]; linarith
  have z4 : eqPlan d 4 (lerp a b bot) = 0 := by simp only [eqPlan, planeD]; linarith
  have hit5 := horizontal_hit d 5 a b top t0 (htb.trans t1) e5 z5
  have hit4 := horizontal_hit d 4 a b bot (t0.trans htb) t1 e4 z4
  have b5 : InBox d.nbRows d.nbCols d.altMin d.altMax (lerp a b top) :=
    ⟨ftop.1, ftop.2.1, ftop.2.2.1, ftop.2.2.2, by rw [htop]; exact hmm, by rw [htop]⟩
  have b4 : InBox d.nbRows d.nbCols d.altMin d.altMax (lerp a b bot) :=
    ⟨fbot.1, fbot.2.1, fbot.2.2.1, fbot.2.2.2, by rw [hbot], by rw [hbot]; exact hmm⟩
  obtain ⟨cs, hcs⟩ := faceHits_ok .py d [a, b] [0, 1, 2, 3, 4, 5] (fun k _ => faceHit_py_ok d k _)
  obtain ⟨q1, q2, _⟩ := cubeOfIndex_spec .py d _ cs hcs
  obtain ⟨f1, _⟩ := faceHits_two .py d _ (fun c => onCube d c.p) _ cs hcs (by decide)
  obtain ⟨c, hcc⟩ := q2.mpr (f1 4 5 _ _ (mem_six 4) (mem_six 5) (by decide) hit4 hit5
    ((onCube_iff d _).mpr b4) ((onCube_iff d _).mpr b5))
  obtain ⟨_, _, hmin⟩ := q1 c hcc
  have hle : c.h ≤ top := hmin _ ((mem_faceHits .py d _ _ cs hcs _).mpr ⟨5, mem_six 5, hit5⟩)
    ((onCube_iff d _).mpr b5)
  obtain ⟨hbox, hon⟩ := cubeOfIndex_entry .py d _ c hcc
  rcases hon with hon | ⟨_, _, hhead, _⟩
  · obtain ⟨g0, g1, hp⟩ := (onPolyline_pair a b c.h c.p).mp hon
    have hz : c.p.z ≤ d.altMax := hbox.2.2.2.2.2
    rw [hp] at hz
    have : c.h = top := by
      refine le_antisymm hle ?_
      by_contra hlt
      have hlt := not_lt.mpr |>.mt (by simpa using hlt)
      simp only [lerp] at hz htop
      have hneg : b.z - a.z < 0 := by
        by_contra hcon
        have := mul_nonneg t0 (not_lt.mp hcon)
        linarith
      have hlt' : c.h < top := by simpa using hlt
      have := mul_lt_mul_of_neg_right hlt' hneg
      linarith
    rw [hcc]
    congr 2
    cases c
    simp only at this hp
    rw [hp, this]
  · exfalso
    simp only [List.head?_cons, Option.some.injEq] at hhead
    have hz : c.p.z ≤ d.altMax := hbox.2.2.2.2.2
    rw [← hhead] at hz
    linarith

/-- C14 and C16 end to end (Python, ground coordinates): a straight line of sight from above the highest
terrain altitude down to more than the tolerance below the lowest one, which is within the DTM footprint
when it crosses these two altitudes, and is strictly above the terrain when it enters, is intersected: for
every large enough iteration budget `intersection_n_los_dtm` returns a point of the line of sight, within
the footprint, at terrain altitude up to 1e-4. -/
theorem C16_downward_line_is_intersected (d : Dtm K) (hr : 2 ≤ d.nbRows) (hc : 2 ≤ d.nbCols)
    (hdet : d.transform.a * d.transform.e - d.transform.b * d.transform.d ≠ 0)
    (A B : V3 K) (top bot : K) (hA : d.altMax < A.z) (hB : B.z ≤ d.altMin - 1 / 10000)
    (t0 : 0 ≤ top) (t1 : bot ≤ 1)
    (htop : (lerp A B top).z = d.altMax) (hbot : (lerp A B bot).z = d.altMin)
    (ftop : InFootprint d.nbRows d.nbCols (terToIndexPy d.transform (lerp A B top)))
    (fbot : InFootprint d.nbRows d.nbCols (terToIndexPy d.transform (lerp A B bot)))
    (hup : d.interpolate (terToIndexPy d.transform (lerp A B top)).x
      (terToIndexPy d.transform (lerp A B top)).y < d.altMax)
    (hx : (terToIndexPy d.transform A).x = (terToIndexPy d.transform B).x →
      (terToIndexPy d.transform A).x < (d.nbRows : K) - 1)
    (hy : (terToIndexPy d.transform A).y = (terToIndexPy d.transform B).y →
      (terToIndexPy d.transform A).y < (d.nbCols : K) - 1) :
    ∃ N0, ∀ N, N0 ≤ N → ∃ t, top ≤ t ∧ t ≤ 1 ∧ losDtm .py d N [A, B] = .point (lerp A B t) ∧
      InFootprint d.nbRows d.nbCols (terToIndexPy d.transform (lerp A B t)) ∧
      |d.interpolate (terToIndexPy d.transform (lerp A B t)).x (terToIndexPy d.transform (lerp A B t)).y
        - (lerp A B t).z| ≤ 1 / 10000 := by
  have hmm : d.altMin ≤ d.altMax := by
    obtain ⟨⟨i, j, hn, he⟩, _, h3, _⟩ := C11_global_bounds d hr hc
    have := h3 i j hn
    linarith
  rw [terToIndex_lerp] at ftop fbot hup
  set a := terToIndexPy d.transform A with ha_def
  set b := terToIndexPy d.transform B with hb_def
  have haz : a.z = A.z := rfl
  have hbz : b.z = B.z := rfl
  have zeq : ∀ u, (lerp a b u).z = (lerp A B u).z := fun u => rfl
  have hneg : b.z < a.z := by rw [haz, hbz]; linarith
  have htb : top ≤ bot := by
    by_contra hcon
    have := mul_lt_mul_of_neg_right (not_le.mp hcon) (show B.z - A.z < 0 by rw [haz, hbz] at hneg; linarith)
    simp only [lerp] at htop hbot
    linarith
  have hcube := downward_entry d hr hc a b top bot (by rw [haz]; exact hA) t0 htop t1 hbot htb ftop fbot
  have hmin_lt : top < bot := by
    rcases eq_or_lt_of_le htb with h | h
    · exfalso
      have hlow := ((C11_global_bounds d hr hc).2.2.2 _ _ ftop.1 ftop.2.1 ftop.2.2.1 ftop.2.2.2).1
      rw [← h] at hbot
      linarith
    · exact h
  have htop1 : top < 1 := lt_of_lt_of_le hmin_lt t1
  have hdtm : ∀ N, losDtm .py d N [A, B] =
      match intersectionIdx .py d N [a, b] (lerp a b top) top with
      | .found p => .point (indexToTerPy d.transform p)
      | .notFound => .point ⟨0, 0, 0⟩
      | _ => .failure := by
    intro N
    unfold losDtm intersectDtmCube
    simp only [tersToIndexsPy, List.map_cons, List.map_nil, ← ha_def, ← hb_def, hcube]
    rfl
  have conclude : ∀ N p, intersectionIdx .py d N [a, b] (lerp a b top) top = .found p →
      ∃ t, top ≤ t ∧ t ≤ 1 ∧ losDtm .py d N [A, B] = .point (lerp A B t) ∧
      InFootprint d.nbRows d.nbCols (terToIndexPy d.transform (lerp A B t)) ∧
      |d.interpolate (terToIndexPy d.transform (lerp A B t)).x (terToIndexPy d.transform (lerp A B t)).y
        - (lerp A B t).z| ≤ 1 / 10000 := by
    intro N p hp
    obtain ⟨t, ht, hpt, hfp, htol, ht1⟩ := C14_straight_line d hr hc N a b top t0 htop1.le ftop p hp
    have hpi : p = terToIndexPy d.transform (lerp A B t) := by rw [hpt, terToIndex_lerp]
    refine ⟨t, ht, ht1 hneg (by rw [hbz]; exact hB), ?_, ?_, ?_⟩
    · rw [hdtm, hp]
      simp only
      rw [hpi, C02_py_index_to_ter_ter_to_index d.transform hdet]
    · rw [← hpi]; exact hfp
    · rw [← hpi]
      have : (lerp A B t).z = p.z := by rw [hpi]; rfl
      rw [this]; exact htol
  have hbotlow : (lerp a b bot).z ≤ d.interpolate (lerp a b bot).x (lerp a b bot).y := by
    have hlow := ((C11_global_bounds d hr hc).2.2.2 _ _ fbot.1 fbot.2.1 fbot.2.2.1 fbot.2.2.2).1
    rw [zeq, hbot]; exact hlow
  by_cases hdir : a.x ≠ b.x ∨ a.y ≠ b.y
  · obtain ⟨N0, hN0⟩ := C16_sign_change_is_found d hr hc a b top bot t0 hmin_lt t1 hdir ftop fbot
      (by rw [zeq, htop]; exact hup) hbotlow (.inr (.inr ⟨hneg.le, by rw [zeq, hbot]⟩)) hx hy
    refine ⟨N0, fun N hN => ?_⟩
    obtain ⟨p, hp⟩ := hN0 N hN
    exact conclude N p hp
  · push Not at hdir
    refine ⟨0, fun N _ => ?_⟩
    have e1 : (lerp a b top).x = a.x := by simp only [lerp]; rw [hdir.1]; ring
    have e2 : (lerp a b top).y = a.y := by simp only [lerp]; rw [hdir.2]; ring
    refine conclude N _ (C14_vertical_exact .py d N a b _ top t0 htop1 hdir.1 hdir.2 ?_ ?_)
    · rw [zeq, htop]; exact hup.le
    · have hlow := ((C11_global_bounds d hr hc).2.2.2 _ _ ftop.1 ftop.2.1 ftop.2.2.1 ftop.2.2.2).1
      rw [e1, e2] at hlow
      rw [hbz]; linarith

/-! ### C17: skipping a cell is safe -/

/-- C17: let the line of sight be in the closed cell `(i, j)` between the parameters `α` and `β`, and at or
above the terrain at `α`.  If the envelope test decides to skip the cell, the line of sight is strictly
above the terrain at every parameter of that part which belongs to the segment: no crossing is lost. -/
theorem C17_skipped_cell_is_above (d : Dtm K) (v0 v1 : V3 K) (i j : ℤ) (α β : K)
    (hcell : IsCell d.nbRows d.nbCols i j)
    (hin : InCell i j (lerp v0 v1 α).x (lerp v0 v1 α).y)
    (hin' : InCell i j (lerp v0 v1 β).x (lerp v0 v1 β).y)
    (habove : d.interpolate (lerp v0 v1 α).x (lerp v0 v1 α).y ≤ (lerp v0 v1 α).z)
    (hskip : bIntersect v0.z v1.z (altMinCellPy d.alt i j) (altMaxCellPy d.alt i j)
      (lerp v0 v1 α).z (lerp v0 v1 β).z = false) :
    ∀ t, α ≤ t → t ≤ β → t ≤ 1 →
      d.interpolate (lerp v0 v1 t).x (lerp v0 v1 t).y < (lerp v0 v1 t).z := by
  intro t h1 h2 h3
  have := height_pos_of_skip_geo d v0 v1 i j α β hcell hin hin' (by simp only [height]; linarith) hskip t h1 h2 h3
  simp only [height] at this
  linarith

/-! ### C18: batches -/

/-- C18: the batch is pointwise, in order (both implementations). -/
theorem C18_batch_pointwise (impl : Impl) (d : Dtm K) (N : ℕ) (los : List (List (V3 K))) :
    (losDtmBatch impl d N los).length = los.length ∧
    ∀ (i : ℕ) l, los[i]? = some l → (losDtmBatch impl d N los)[i]? = (losDtmBatch impl d N [l])[0]? := by
  refine ⟨by simp [losDtmBatch], ?_⟩
  intro i l h
  simp [losDtmBatch, h]

/-- C18, misses: a line of sight (first vertex on no face plane) for which no two face planes are first
crossed on the box gives NaN coordinates.  Missing: lines entering the box without meeting the terrain do
not give NaN (`C18_miss_inside_box_is_not_nan`). -/
theorem C18_box_miss_is_nan_partial (impl : Impl) (d : Dtm K) (N : ℕ) (los : List (V3 K))
    (hoff : FirstOffPlanes d (los.map (terToIndexPy d.transform)))
    (hmiss : ∀ h p, OnPolyline (los.map (terToIndexPy d.transform)) h p →
      ¬ InBox d.nbRows d.nbCols d.altMin d.altMax p) :
    losDtm impl d N los = .nan := by
  obtain ⟨o, ho, hiff⟩ := C13_found_iff_two_faces impl d los hoff
  cases o with
  | none => simp [losDtm, ho]
  | some c =>
    exfalso
    obtain ⟨k1, k2, h1, h2, p1, p2, _, f1, _, b1, _⟩ := hiff.mp rfl
    exact hmiss h1 p1 f1.1 b1

/-! ### C60: Python and C++ agree -/

theorem faceScan_impl (d : Dtm K) (k : Fin 6) : ∀ (rest : List (V3 K)) (a : V3 K) (layer : ℕ),
    eqPlan d k a ≠ 0 → faceScan .cpp d k a layer rest = faceScan .py d k a layer rest := by
  intro rest
  induction rest with
  | nil => intro a layer _; rfl
  | cons b rest ih =>
    intro a layer ha
    simp only [faceScan]
    by_cases h1 : eqPlan d k a * eqPlan d k b ≤ 0
    · simp [h1, ha]
    · rw [if_neg h1, if_neg h1]
      refine ih b _ ?_
      intro h
      rw [h, mul_zero] at h1
      exact h1 (le_refl _)

theorem cube_impl (d : Dtm K) (los : List (V3 K)) (hoff : FirstOffPlanes d los) :
    cubeOfIndex .cpp d los = cubeOfIndex .py d los := by
  have h1 : ∀ k, faceHit .cpp d k los = faceHit .py d k los := by
    intro k
    cases los with
    | nil => rfl
    | cons v rest =>
      have hv : eqPlan d k v ≠ 0 := fun h => hoff v rfl k ((eqPlan_zero_iff d k v).mp h)
      exact faceScan_impl d k _ v 0 hv
  have h2 : ∀ ks, faceHits .cpp d los ks = faceHits .py d los ks := by
    intro ks
    induction ks with
    | nil => rfl
    | cons k ks ih => simp only [faceHits, h1, ih]
  simp only [cubeOfIndex, h2]

theorem startCell_impl (p v : K) (h : v < 0 → ∀ m : ℤ, p = m → m = 2) : startCell .cpp p v = startCell .py p v := by
  unfold startCell
  split_ifs with hc
  · dsimp only
    rw [h hc.2 _ hc.1]
    rfl
  · rfl

/-- The initial value of `a_2` only matters through the loop condition. -/
theorem cellExit_a2 (v0 dir p : V3 K) (c r : ℤ) (a a' : K) :
    cellExit v0 dir ⟨p, c, r, a⟩ = cellExit v0 dir ⟨p, c, r, a'⟩ := by
  unfold cellExit
  dsimp only
  by_cases h1 : dir.x = 0
  · rw [if_pos h1, if_pos h1]
  rw [if_neg h1, if_neg h1]
  by_cases h2 : dir.y = 0
  · rw [if_pos h2, if_pos h2]
  rw [if_neg h2, if_neg h2]
  by_cases h3 : dir.x < 0 ∧ dir.x ≤ dir.y ∧ dir.x ≤ -dir.y
  · rw [if_pos h3, if_pos h3]
  rw [if_neg h3, if_neg h3]
  by_cases h4 : dir.y > 0 ∧ dir.y ≥ dir.x ∧ dir.y ≥ -dir.x
  · rw [if_pos h4, if_pos h4]
  rw [if_neg h4, if_neg h4]
  by_cases h5 : dir.x > 0 ∧ dir.x ≥ dir.y ∧ dir.x ≥ -dir.y
  · rw [if_pos h5, if_pos h5]
  rw [if_neg h5, if_neg h5]
  by_cases h6 : dir.y < 0 ∧ dir.y ≤ dir.x ∧ dir.y ≤ -dir.x
  · rw [if_pos h6, if_pos h6]
  exfalso
  rcases lt_or_gt_of_ne h1 with hx | hx <;> rcases lt_or_gt_of_ne h2 with hy | hy
  · rcases le_total dir.x dir.y with h | h
    · exact h3 ⟨hx, h, by linarith⟩
    · exact h6 ⟨hy, h, by linarith⟩
  · rcases le_total dir.x (-dir.y) with h | h
    · exact h3 ⟨hx, by linarith, h⟩
    · exact h4 ⟨hy, by linarith, by linarith⟩
  · rcases le_total dir.x (-dir.y) with h | h
    · exact h6 ⟨hy, by linarith, by linarith⟩
    · exact h5 ⟨hx, by linarith, h⟩
  · rcases le_total dir.x dir.y with h | h
    · exact h4 ⟨hy, h, by linarith⟩
    · exact h5 ⟨hx, h, by linarith⟩

theorem marchInside_a2 (d : Dtm K) (p : V3 K) (c r : ℤ) (a a' : K) (ha : a < 1) (ha' : a' < 1) :
    marchInside d ⟨p, c, r, a⟩ = marchInside d ⟨p, c, r, a'⟩ := by
  simp [marchInside, ha, ha']

theorem marchCells_a2 (d : Dtm K) (N : ℕ) (v0 v1 p : V3 K) (c r : ℤ) (a a' : K) (ha : a < 1) (ha' : a' < 1)
    (n : ℕ) (hin : marchInside d ⟨p, c, r, a⟩ = true) :
    marchCells d N v0 v1 (n + 1) ⟨p, c, r, a⟩ = marchCells d N v0 v1 (n + 1) ⟨p, c, r, a'⟩ := by
  have hin' := hin
  rw [marchInside_a2 d p c r a a' ha ha'] at hin'
  rw [marchCells_succ, marchCells_succ, if_pos hin, if_pos hin',
    cellExit_a2 v0 (segDir v0 v1) p c r a a']

/-- The value given to `a_2` at the start of a segment is below 1. -/
theorem a2_start_lt (x : K) : (if x ≥ 1 then 0 else x) < 1 := by
  split_ifs with h
  · exact one_pos
  · exact not_le.mp h

theorem marchPlanes_impl (d : Dtm K) (N : ℕ) (los : List (V3 K))
    (hv : ∀ (i : ℕ) a b, los[i + 1]? = some a → los[i + 2]? = some b →
      (b.x < a.x → ∀ m : ℤ, a.x = m → m = 2) ∧ (b.y < a.y → ∀ m : ℤ, a.y = m → m = 2)) :
    ∀ (n i0 : ℕ) (p2 : V3 K) (h h' : K),
      (∀ a b, los[i0]? = some a → los[i0 + 1]? = some b →
        (b.x < a.x → ∀ m : ℤ, p2.x = m → m = 2) ∧ (b.y < a.y → ∀ m : ℤ, p2.y = m → m = 2) ∧
        (a.x = b.x → a.y = b.y → p2.x = a.x ∧ p2.y = a.y)) →
      marchPlanes .cpp d N los n i0 p2 h = marchPlanes .py d N los n i0 p2 h' := by
  intro n
  induction n with
  | zero => intro i0 p2 h h' _; rfl
  | succ n ih =>
    intro i0 p2 h h' hp
    rw [marchPlanes_succ, marchPlanes_succ]
    by_cases hi : (i0 : ℤ) < (los.length : ℤ) - 1
    swap
    · rw [if_neg hi, if_neg hi]
    rw [if_pos hi, if_pos hi]
    have ga := getElem_pyGet los i0 (by omega)
    have gb := getElem_pyGet los (i0 + 1) (by omega)
    push_cast at gb
    obtain ⟨sx, sy, sv⟩ := hp _ _ ga gb
    rw [startCell_impl p2.x _ (fun hlt => sx (by linarith)), startCell_impl p2.y _ (fun hlt => sy (by linarith))]
    have hlt1 := a2_start_lt (h - ((i0 : ℤ) : K))
    have hlt2 := a2_start_lt (h' - ((i0 : ℤ) : K))
    generalize (if h - ((i0 : ℤ) : K) ≥ 1 then 0 else h - ((i0 : ℤ) : K)) = a1 at hlt1 ⊢
    generalize (if h' - ((i0 : ℤ) : K) ≥ 1 then 0 else h' - ((i0 : ℤ) : K)) = a2 at hlt2 ⊢
    have e : ((i0 : ℤ) + 1) = ((i0 + 1 : ℕ) : ℤ) := by push_cast; rfl
    by_cases hvert : (pyGet los ((i0 : ℤ) + 1)).x - (pyGet los (i0 : ℤ)).x = 0 ∧
        (pyGet los ((i0 : ℤ) + 1)).y - (pyGet los (i0 : ℤ)).y = 0
    · rw [if_pos hvert, if_pos hvert]
      have := ih (i0 + 1) p2 h h' (by
        intro a b ha hb
        obtain ⟨hx, hy⟩ := sv (by linarith [hvert.1]) (by linarith [hvert.2])
        rw [gb] at ha
        injection ha with ha
        obtain ⟨u1, u2⟩ := hv i0 _ _ gb hb
        have hx' : p2.x = a.x := by rw [hx, ← ha]; linarith [hvert.1]
        have hy' : p2.y = a.y := by rw [hy, ← ha]; linarith [hvert.2]
        rw [ha] at u1 u2
        rw [hx', hy']
        exact ⟨u1, u2, fun _ _ => ⟨rfl, rfl⟩⟩)
      push_cast at this
      rw [this]
    rw [if_neg hvert, if_neg hvert]
    have hdir : (pyGet los ((i0 : ℤ) + 1)).x - (pyGet los (i0 : ℤ)).x ≠ 0 ∨
        (pyGet los ((i0 : ℤ) + 1)).y - (pyGet los (i0 : ℤ)).y ≠ 0 := by
      by_contra hcon
      push Not at hcon
      exact hvert hcon
    by_cases hin : marchInside d ⟨p2, startCell .py p2.x ((pyGet los ((i0 : ℤ) + 1)).x - (pyGet los (i0 : ℤ)).x),
        startCell .py p2.y ((pyGet los ((i0 : ℤ) + 1)).y - (pyGet los (i0 : ℤ)).y), a1⟩ = true
    · rw [if_pos hin, if_pos ((marchInside_a2 d p2 _ _ a1 a2 hlt1 hlt2) ▸ hin)]
      have := marchCells_a2 d N (pyGet los (i0 : ℤ)) (pyGet los ((i0 : ℤ) + 1)) p2 _ _ a1 a2 hlt1 hlt2 (d.nbRows * d.nbCols + d.nbRows + d.nbCols) hin
      rw [show cellFuel d = d.nbRows * d.nbCols + d.nbRows + d.nbCols + 1 from rfl, this]
      have := ih (i0 + 1) (pyGet los ((i0 : ℤ) + 1)) (altiAt .cpp los.length ((i0 : ℤ) + 1))
        (altiAt .py los.length ((i0 : ℤ) + 1)) (by
        intro a b ha hb
        rw [gb] at ha
        injection ha with ha
        obtain ⟨u1, u2⟩ := hv i0 _ _ gb hb
        rw [ha] at u1 u2 ⊢
        exact ⟨u1, u2, fun _ _ => ⟨rfl, rfl⟩⟩)
      push_cast at this
      rw [this]
    · rw [if_neg hin, if_neg ((marchInside_a2 d p2 _ _ a1 a2 hlt1 hlt2) ▸ hin)]

/-- C60: on a line of sight whose first vertex is on no face plane of the DTM box, and for which neither
the point of entry in the box nor an inner vertex has an integer row (column) index other than 2 at the start of a segment along which the
row (column) decreases, the C++ code computes the same entry and the same march result as Python.
Missing: the two differ in the excluded cases (`C60_negative_direction_difference`). -/
theorem C60_cpp_eq_python_partial (d : Dtm K) (N : ℕ) (los : List (V3 K)) (hoff : FirstOffPlanes d los)
    (hv : ∀ (i : ℕ) a b, los[i + 1]? = some a → los[i + 2]? = some b →
      (b.x < a.x → ∀ m : ℤ, a.x = m → m = 2) ∧ (b.y < a.y → ∀ m : ℤ, a.y = m → m = 2))
    (hentry : ∀ h p, OnPolyline los h p → InBox d.nbRows d.nbCols d.altMin d.altMax p → (∃ k, OnFacePlane d.nbRows d.nbCols d.altMin d.altMax k p) →
      ∀ (i : ℕ) a b, los[i]? = some a → los[i + 1]? = some b → (i : K) ≤ h → h ≤ i + 1 →
      (b.x < a.x → ∀ m : ℤ, p.x = m → m = 2) ∧ (b.y < a.y → ∀ m : ℤ, p.y = m → m = 2)) :
    cubeOfIndex .cpp d los = cubeOfIndex .py d los ∧
    ∀ c, cubeOfIndex .py d los = .ok (some c) →
      intersectionIdx .cpp d N los c.p c.h = intersectionIdx .py d N los c.p c.h := by
  refine ⟨cube_impl d los hoff, ?_⟩
  intro c hc
  have hcs : ∃ cs, faceHits .py d los [0, 1, 2, 3, 4, 5] = .ok cs := by
    cases hh : faceHits .py d los [0, 1, 2, 3, 4, 5] with
    | error e => simp [cubeOfIndex, hh] at hc
    | ok cs => exact ⟨cs, rfl⟩
  obtain ⟨cs, hcs⟩ := hcs
  obtain ⟨hm, _, _⟩ := (cubeOfIndex_spec .py d _ cs hcs).1 c hc
  obtain ⟨k, _, hk⟩ := (mem_faceHits .py d _ _ cs hcs c).mp hm
  obtain ⟨hon, hface⟩ : OnPolyline los c.h c.p ∧ OnFacePlane d.nbRows d.nbCols d.altMin d.altMax k c.p := by
    rcases faceHit_cases .py d k _ c hk with h | h
    · exact ⟨h.1, h.2⟩
    · exact absurd h.2.2.2 (hoff _ h.2.2.1 k)
  unfold intersectionIdx
  by_cases hneg : c.p.z - d.interpolate c.p.x c.p.y < 0
  · rw [if_pos hneg, if_pos hneg]
  rw [if_neg hneg, if_neg hneg]
  have hent := hentry c.h c.p hon (cubeOfIndex_entry .py d los c hc).1 ⟨k, hface⟩
  obtain ⟨i, a, b, t, ha, hb, t0, t1, hh, hp⟩ := hon
  rcases eq_or_lt_of_le t1 with rfl | t1
  · have hfl : ⌊c.h⌋ = ((i + 1 : ℕ) : ℤ) := by
      rw [Int.floor_eq_iff, hh]; push_cast; constructor <;> linarith
    rw [hfl]
    refine marchPlanes_impl d N los hv _ (i + 1) c.p c.h c.h ?_
    intro a' b' ha' hb'
    obtain ⟨u1, u2⟩ := hent (i + 1) a' b' ha' hb' (by rw [hh]; push_cast; exact le_refl _)
      (by rw [hh]; push_cast; linarith)
    refine ⟨u1, u2, fun _ _ => ?_⟩
    rw [hb] at ha'
    injection ha' with ha'
    rw [hp, lerp_one, ha']
    exact ⟨rfl, rfl⟩
  · have hfl : ⌊c.h⌋ = ((i : ℕ) : ℤ) := by
      rw [Int.floor_eq_iff, hh]; push_cast; constructor <;> linarith
    rw [hfl]
    refine marchPlanes_impl d N los hv _ i c.p c.h c.h ?_
    intro a' b' ha' hb'
    obtain ⟨u1, u2⟩ := hent i a' b' ha' hb' (by rw [hh]; linarith) (by rw [hh]; linarith)
    refine ⟨u1, u2, fun ex ey => ?_⟩
    rw [ha] at ha'
    rw [hb] at hb'
    injection ha' with ha'
    injection hb' with hb'
    rw [hp, ← ha']
    rw [← ha', ← hb'] at ex ey
    simp only [lerp]
    rw [ex, ey]
    constructor <;> ring

/-- C60 for the reported point: under the conditions of `C60_cpp_eq_python_partial` on the positions of the line in the raster,
both implementations report the same point or NaN, or both miss the terrain inside the box, which Python reports as (0, 0, 0) and
C++ as uninitialised memory. -/
theorem C60_same_point_partial (d : Dtm K) (N : ℕ) (los : List (V3 K))
    (hoff : FirstOffPlanes d (los.map (terToIndexPy d.transform)))
    (hv : ∀ (i : ℕ) a b, (los.map (terToIndexPy d.transform))[i + 1]? = some a → (los.map (terToIndexPy d.transform))[i + 2]? = some b →
      (b.x < a.x → ∀ m : ℤ, a.x = m → m = 2) ∧ (b.y < a.y → ∀ m : ℤ, a.y = m → m = 2))
    (hentry : ∀ h p, OnPolyline (los.map (terToIndexPy d.transform)) h p → InBox d.nbRows d.nbCols d.altMin d.altMax p →
      (∃ k, OnFacePlane d.nbRows d.nbCols d.altMin d.altMax k p) →
      ∀ (i : ℕ) a b, (los.map (terToIndexPy d.transform))[i]? = some a → (los.map (terToIndexPy d.transform))[i + 1]? = some b →
      (i : K) ≤ h → h ≤ i + 1 →
      (b.x < a.x → ∀ m : ℤ, p.x = m → m = 2) ∧ (b.y < a.y → ∀ m : ℤ, p.y = m → m = 2)) :
    losDtm .cpp d N los = losDtm .py d N los ∨
    (losDtm .cpp d N los = .uninitialised ∧ losDtm .py d N los = .point ⟨0, 0, 0⟩) := by
  obtain ⟨h1, h2⟩ := C60_cpp_eq_python_partial d N _ hoff hv hentry
  unfold losDtm intersectDtmCube tersToIndexsPy
  simp only [h1]
  cases hc : cubeOfIndex .py d (los.map (terToIndexPy d.transform)) with
  | error e => left; rfl
  | ok o =>
    cases o with
    | none => left; rfl
    | some c =>
      simp only [h2 c hc]
      cases intersectionIdx .py d N (los.map (terToIndexPy d.transform)) c.p c.h with
      | notFound => right; exact ⟨rfl, rfl⟩
      | nonFinite => left; rfl
      | falsiFuel => left; rfl
      | marchFuel => left; rfl
      | found p => left; rfl

/-! ### Concrete cases and counterexamples -/

/-- Terrain rising with the row: 0, 10, 20. -/
def rampDtm : Dtm ℚ := ⟨fun i _ => 10 * i, 3, 3, ⟨1, 0, 0, 0, 1, 0⟩⟩

/-- Terrain with a saddle in its single cell. -/
def saddleDtm : Dtm ℚ := ⟨fun i j => if i = j then 0 else 10, 2, 2, ⟨1, 0, 0, 0, 1, 0⟩⟩

/-- Terrain with a ridge along row 2. -/
def ridgeDtm : Dtm ℚ := ⟨fun i _ => if i = 2 then 10 else 0, 5, 5, ⟨1, 0, 0, 0, 1, 0⟩⟩

/-- A line of sight through the ramp, found by both implementations; all the hypotheses of
`C14_straight_line`, `C15_march_terminates`, `C16_downward_line_is_intersected` are met. -/
example : losDtm .py rampDtm 50 [⟨1, 3/4, 30⟩, ⟨2, 7/4, -8⟩] = .point ⟨151/96, 127/96, 395/48⟩ ∧
    losDtm .cpp rampDtm 50 [⟨1, 3/4, 30⟩, ⟨2, 7/4, -8⟩] = .point ⟨151/96, 127/96, 395/48⟩ := by
  decide +kernel

/-- C18 fails as stated: a line of sight that enters the box and leaves it without meeting the terrain
yields the point (0, 0, 0) in Python and an uninitialised one in C++, not NaN. -/
theorem C18_miss_inside_box_is_not_nan :
    losDtm .py rampDtm 50 [⟨-1 + 1/2, 1/4 + 1/2, 10⟩, ⟨3 + 1/2, 1/4 + 1/2, 8⟩] = .point ⟨0, 0, 0⟩ ∧
    losDtm .cpp rampDtm 50 [⟨-1 + 1/2, 1/4 + 1/2, 10⟩, ⟨3 + 1/2, 1/4 + 1/2, 8⟩] = .uninitialised := by
  decide +kernel

/-- C60: the two implementations differ when the line enters by the last row and goes to decreasing rows. -/
theorem C60_negative_direction_difference :
    intersectionIdx .py ridgeDtm 50 [⟨5, 3/2, 6⟩, ⟨-1, 3/2, 3⟩] ⟨4, 3/2, 11/2⟩ (1/6) =
      .found ⟨53/21, 3/2, 100/21⟩ ∧
    intersectionIdx .cpp ridgeDtm 50 [⟨5, 3/2, 6⟩, ⟨-1, 3/2, 3⟩] ⟨4, 3/2, 11/2⟩ (1/6) = .notFound ∧
    cubeOfIndex .py ridgeDtm [⟨5, 3/2, 6⟩, ⟨-1, 3/2, 3⟩] = .ok (some ⟨⟨4, 3/2, 11/2⟩, 1/6⟩) := by
  decide +kernel

/-- C16 needs its condition on `T`: a line that goes under the terrain and out of it again inside one
cell is not intersected. -/
theorem C16_double_crossing_missed :
    cubeOfIndex .py saddleDtm [⟨-1/10, -1/10, 21/10⟩, ⟨11/10, 11/10, 9/10⟩] = .ok (some ⟨⟨0, 0, 2⟩, 1/12⟩) ∧
    intersectionIdx .py saddleDtm 50 [⟨-1/10, -1/10, 21/10⟩, ⟨11/10, 11/10, 9/10⟩] ⟨0, 0, 2⟩ (1/12) = .notFound ∧
    (lerp ⟨-1/10, -1/10, 21/10⟩ ⟨11/10, 11/10, 9/10⟩ (1/2 : ℚ)).z <
      saddleDtm.interpolate (lerp ⟨-1/10, -1/10, 21/10⟩ ⟨11/10, 11/10, 9/10⟩ (1/2 : ℚ)).x
        (lerp ⟨-1/10, -1/10, 21/10⟩ ⟨11/10, 11/10, 9/10⟩ (1/2 : ℚ)).y := by
  decide +kernel

/-- C14 fails for bent lines of sight: the last cell marched on a segment may extend beyond the vertex
ending it, and the reported point is then on the extension of the segment, not on the line of sight. -/
theorem C14_bent_line_off_line :
    cubeOfIndex .py rampDtm [⟨1/2, 1/2, 40⟩, ⟨5/4, 1/2, 14⟩, ⟨5/4, 3/2, -4⟩] =
      .ok (some ⟨⟨14/13, 1/2, 20⟩, 10/13⟩) ∧
    intersectionIdx .py rampDtm 50 [⟨1/2, 1/2, 40⟩, ⟨5/4, 1/2, 14⟩, ⟨5/4, 3/2, -4⟩] ⟨14/13, 1/2, 20⟩ (10/13) =
      .found ⟨86/67, 1/2, 860/67⟩ ∧
    ¬ ∃ h : ℚ, OnPolyline [⟨1/2, 1/2, 40⟩, ⟨5/4, 1/2, 14⟩, ⟨5/4, 3/2, -4⟩] h ⟨86/67, 1/2, 860/67⟩ := by
  refine ⟨by decide +kernel, by decide +kernel, ?_⟩
  rintro ⟨h, i, a, b, t, ha, hb, t0, t1, _, hp⟩
  match i with
  | 0 =>
    simp only [List.getElem?_cons_zero, List.getElem?_cons_succ, Option.some.injEq, zero_add] at ha hb
    subst ha hb
    simp only [lerp, V3.mk.injEq] at hp
    linarith [hp.1]
  | 1 =>
    simp only [List.getElem?_cons_zero, List.getElem?_cons_succ, Option.some.injEq] at ha hb
    subst ha hb
    simp only [lerp, V3.mk.injEq] at hp
    linarith [hp.1]
  | n + 2 => simp at hb

/-- C14 fails after a vertical segment: the march goes on from the old entry altitude, and the reported
point is not on the line of sight. -/
theorem C14_stale_point_after_vertical_segment :
    cubeOfIndex .py rampDtm [⟨3/2, 1/2, 40⟩, ⟨3/2, 1/2, 16⟩, ⟨1/2, 5/2, -4⟩] =
      .ok (some ⟨⟨3/2, 1/2, 20⟩, 5/6⟩) ∧
    intersectionIdx .py rampDtm 50 [⟨3/2, 1/2, 40⟩, ⟨3/2, 1/2, 16⟩, ⟨1/2, 5/2, -4⟩] ⟨3/2, 1/2, 20⟩ (5/6) =
      .found ⟨17/13, 23/26, 170/13⟩ ∧
    ¬ ∃ h : ℚ, OnPolyline [⟨3/2, 1/2, 40⟩, ⟨3/2, 1/2, 16⟩, ⟨1/2, 5/2, -4⟩] h ⟨17/13, 23/26, 170/13⟩ := by
  refine ⟨by decide +kernel, by decide +kernel, ?_⟩
  rintro ⟨h, i, a, b, t, ha, hb, t0, t1, _, hp⟩
  match i with
  | 0 =>
    simp only [List.getElem?_cons_zero, List.getElem?_cons_succ, Option.some.injEq, zero_add] at ha hb
    subst ha hb
    simp only [lerp, V3.mk.injEq] at hp
    linarith [hp.1]
  | 1 =>
    simp only [List.getElem?_cons_zero, List.getElem?_cons_succ, Option.some.injEq] at ha hb
    subst ha hb
    simp only [lerp, V3.mk.injEq] at hp
    linarith [hp.1, hp.2.2]
  | n + 2 => simp at hb

/-- C17 needs the start above the terrain: coming up from below, a cell whose envelope is crossed is
skipped. -/
theorem C17_rising_from_below_skipped : bIntersect (0 : ℚ) 10 5 6 1 9 = false := by decide +kernel

/-- The hypotheses of `C16_downward_line_is_intersected` (and of the theorems it uses) are met by a line of
sight over the ramp. -/
example : ∃ N0, ∀ N, N0 ≤ N → ∃ t, 5/19 ≤ t ∧ t ≤ 1 ∧
    losDtm .py rampDtm N [⟨1, 3/4, 30⟩, ⟨2, 7/4, -8⟩] = .point (lerp ⟨1, 3/4, 30⟩ ⟨2, 7/4, -8⟩ t) ∧
    InFootprint rampDtm.nbRows rampDtm.nbCols
      (terToIndexPy rampDtm.transform (lerp ⟨1, 3/4, 30⟩ ⟨2, 7/4, -8⟩ t)) ∧
    |rampDtm.interpolate (terToIndexPy rampDtm.transform (lerp ⟨1, 3/4, 30⟩ ⟨2, 7/4, -8⟩ t)).x
      (terToIndexPy rampDtm.transform (lerp ⟨1, 3/4, 30⟩ ⟨2, 7/4, -8⟩ t)).y
        - (lerp ⟨1, 3/4, 30⟩ ⟨2, 7/4, -8⟩ t).z| ≤ 1 / 10000 :=
  C16_downward_line_is_intersected rampDtm (by decide) (by decide) (by decide +kernel) _ _ (5/19) (15/19)
    (by decide +kernel) (by decide +kernel) (by decide +kernel) (by decide +kernel) (by decide +kernel)
    (by decide +kernel) (by simp only [InFootprint]; decide +kernel) (by simp only [InFootprint]; decide +kernel)
    (by decide +kernel) (by intro _; decide +kernel) (by intro _; decide +kernel)

/-- The hypotheses of `C60_cpp_eq_python_partial` are met by a line of sight with decreasing rows. -/
example (N : ℕ) : cubeOfIndex .cpp rampDtm [⟨3/2, 1/4, 30⟩, ⟨1/2, 5/4, -8⟩] =
      cubeOfIndex .py rampDtm [⟨3/2, 1/4, 30⟩, ⟨1/2, 5/4, -8⟩] ∧
    ∀ c, cubeOfIndex .py rampDtm [⟨3/2, 1/4, 30⟩, ⟨1/2, 5/4, -8⟩] = .ok (some c) →
      intersectionIdx .cpp rampDtm N [⟨3/2, 1/4, 30⟩, ⟨1/2, 5/4, -8⟩] c.p c.h =
      intersectionIdx .py rampDtm N [⟨3/2, 1/4, 30⟩, ⟨1/2, 5/4, -8⟩] c.p c.h := by
  have hmin : rampDtm.altMin = 0 := by decide +kernel
  have hmax : rampDtm.altMax = 20 := by decide +kernel
  have hr : (rampDtm.nbRows : ℚ) = 3 := by decide +kernel
  have hc : (rampDtm.nbCols : ℚ) = 3 := by decide +kernel
  have one : ∀ (i : ℕ) (a b : V3 ℚ), ([⟨3/2, 1/4, 30⟩, ⟨1/2, 5/4, -8⟩] : List (V3 ℚ))[i]? = some a →
      ([⟨3/2, 1/4, 30⟩, ⟨1/2, 5/4, -8⟩] : List (V3 ℚ))[i + 1]? = some b →
      a = ⟨3/2, 1/4, 30⟩ ∧ b = ⟨1/2, 5/4, -8⟩ := by
    intro i a b ha hb
    match i with
    | 0 =>
      simp only [List.getElem?_cons_zero, List.getElem?_cons_succ, Option.some.injEq, zero_add] at ha hb
      exact ⟨ha.symm, hb.symm⟩
    | n + 1 => simp at hb
  refine C60_cpp_eq_python_partial rampDtm N _ ?_ ?_ ?_
  · intro v hv k
    simp only [List.head?_cons, Option.some.injEq] at hv
    subst hv
    fin_cases k <;> simp only [OnFacePlane, hmin, hmax, hr, hc] <;> norm_num
  · intro i a b ha hb
    simp at hb
  · intro h p hon _ hface i a b ha hb _ _
    obtain ⟨rfl, rfl⟩ := one i a b ha hb
    refine ⟨fun _ m hm => False.elim ?_, fun h => absurd h (by norm_num)⟩
    obtain ⟨_, _, hp⟩ := (onPolyline_pair _ _ h p).mp hon
    have hx : p.x = 3/2 + h * (1/2 - 3/2) := by rw [hp]; rfl
    have hy : p.y = 1/4 + h * (5/4 - 1/4) := by rw [hp]; rfl
    have hz : p.z = 30 + h * (-8 - 30) := by rw [hp]; rfl
    obtain ⟨k, hk⟩ := hface
    have key : ∀ (u v : ℤ), (u : ℚ) = v * m → ¬ v ∣ u → False := by
      intro u v e hd
      exact hd ⟨m, by exact_mod_cast e⟩
    fin_cases k <;> simp only [OnFacePlane, hmin, hmax, hr, hc] at hk
    · linarith
    · linarith
    · linarith
    · linarith
    · exact key 27 38 (by push_cast; linarith) (by decide)
    · exact key 47 38 (by push_cast; linarith) (by decide)

/-- The hypotheses of `C16_sign_change_in_visited_cell_is_found` are met in the second cell visited by a
line of sight over the ramp. -/
example : ∃ N0, ∀ N, N0 ≤ N → ∃ p, marchCells rampDtm N ⟨1/2, 1/4, 30⟩ ⟨3/2, 5/4, -8⟩ (cellFuel rampDtm)
    ⟨lerp ⟨1/2, 1/4, 30⟩ ⟨3/2, 5/4, -8⟩ (5/19), 0, 0, 5/19⟩ = .inl (.found p) :=
  C16_sign_change_in_visited_cell_is_found rampDtm ⟨1/2, 1/4, 30⟩ ⟨3/2, 5/4, -8⟩
    (.inl (by decide +kernel)) (5/19) (5/19) (by decide +kernel) _ ⟨⟨1, 3/4, 11⟩, 1, 0, 1/2⟩
    (by decide +kernel) (by decide +kernel) (by decide +kernel) _ rfl (by decide +kernel) (by decide +kernel)

end Shareloc
