import Verif.Model.DirectDtm
import Verif.Props.March
import Verif.Props.RpcLoc
import Verif.Props.Grid

/-!
C62-C66: direct location on a DTM (`direct_loc_dtm` of the RPC classes and of the grids).
-/

namespace Shareloc
open Spec
set_option linter.unusedSectionVars false

variable {K : Type*} [Field K] [LinearOrder K] [IsStrictOrderedRing K] [FloorRing K]

/-! ### Lines of sight with NaN vertices -/

theorem faceScanO_some (impl : Impl) (d : Dtm K) (k : Fin 6) (l : List (V3 K)) (a : V3 K) (n : ℕ) :
    faceScanO impl d k (some a) n (l.map some) = faceScan impl d k a n l := by
  induction l generalizing a n with
  | nil => rfl
  | cons b l ih =>
    simp only [List.map_cons, faceScanO, faceScan, ih]
    try rfl

/-- The reading of the lines of sight with NaN vertices agrees with the plain one when there is none. -/
theorem cubeOfIndexO_some (impl : Impl) (d : Dtm K) (l : List (V3 K)) :
    cubeOfIndexO impl d (l.map some) = cubeOfIndex impl d l := by
  have h : ∀ k, faceHitO impl d k (l.map some) = faceHit impl d k l := by
    intro k
    cases l with
    | nil => rfl
    | cons a l => exact faceScanO_some impl d k (a :: l) a 0
  have hs : ∀ ks, faceHitsO impl d (l.map some) ks = faceHits impl d l ks := by
    intro ks
    induction ks with
    | nil => rfl
    | cons k ks ih =>
      simp only [faceHitsO, faceHits, h, ih]
      cases faceHit impl d k l with
      | error e => rfl
      | ok o => cases o with
        | none => rfl
        | some c => cases faceHits impl d l ks <;> rfl
  simp only [cubeOfIndexO, cubeOfIndex, hs]
  try (cases faceHits impl d l [0, 1, 2, 3, 4, 5] <;> rfl)

theorem allVertices_pair (p q : ORow K) : allVertices [p, q] =
    match vertex p, vertex q with
    | some a, some b => some [a, b]
    | _, _ => none := by
  simp only [allVertices]
  cases vertex p <;> cases vertex q <;> rfl

/-- A line of two vertices with a NaN, whose first vertex is NaN or above the DTM, gives NaN (Python). -/
theorem losDtmO_nan (d : Dtm K) (N : ℕ) (p q : ORow K) (hn : vertex p = none ∨ vertex q = none)
    (habove : ∀ a, vertex p = some a → d.altMax < a.z) : losDtmO .py d N [p, q] = .nan := by
  have hall : allVertices [p, q] = none := by
    rw [allVertices_pair]
    rcases hn with h | h
    · rw [h]
    · rw [h]; cases vertex p <;> rfl
  have hhit : ∀ k, faceHitO .py d k ([p, q].map fun p => (vertex p).map (terToIndexPy d.transform)) = .ok none ∨
      ∃ c, faceHitO .py d k ([p, q].map fun p => (vertex p).map (terToIndexPy d.transform)) = .ok (some c) ∧
        onCube d c.p = false := by
    intro k
    simp only [List.map_cons, List.map_nil, faceHitO]
    cases hp : vertex p with
    | none =>
      left
      simp only [Option.map_none, faceScanO]
    | some a =>
      have hq : vertex q = none := by
        rcases hn with h | h
        · rw [hp] at h; cases h
        · exact h
      rw [hq]
      simp only [Option.map_some, Option.map_none, faceScanO]
      by_cases h0 : eqPlan d k (terToIndexPy d.transform a) * eqPlan d k (terToIndexPy d.transform a) ≤ 0
      · right
        have h1 : eqPlan d k (terToIndexPy d.transform a) = 0 := by
          have := mul_self_nonneg (eqPlan d k (terToIndexPy d.transform a))
          exact mul_self_eq_zero.mp (le_antisymm h0 this)
        rw [if_pos h0, if_neg (by simp)]
        refine ⟨_, rfl, ?_⟩
        simp only [crossingOf, h1, if_true]
        rw [Bool.eq_false_iff]
        intro hc
        have := ((onCube_iff d _).mp hc).2.2.2.2.2
        have h2 := habove a hp
        have h3 : (terToIndexPy d.transform a).z = a.z := rfl
        linarith
      · left
        rw [if_neg h0]
  have hhits : ∀ ks, ∃ cs, faceHitsO .py d ([p, q].map fun p => (vertex p).map (terToIndexPy d.transform)) ks = .ok cs ∧
      ∀ c ∈ cs, onCube d c.p = false := by
    intro ks
    induction ks with
    | nil => exact ⟨[], rfl, by simp⟩
    | cons k ks ih =>
      obtain ⟨cs, h1, h2⟩ := ih
      rcases hhit k with h | ⟨c, h, hc⟩
      · exact ⟨cs, by simp only [faceHitsO, h, h1], h2⟩
      · refine ⟨c :: cs, by simp only [faceHitsO, h, h1], ?_⟩
        intro c' hc'
        rcases List.mem_cons.mp hc' with rfl | hc'
        · exact hc
        · exact h2 c' hc'
  obtain ⟨cs, h1, h2⟩ := hhits [0, 1, 2, 3, 4, 5]
  have hf : (exchangeSort cs).filter (fun c => onCube d c.p) = [] := by
    rw [List.filter_eq_nil_iff]
    intro c hc
    rw [h2 c ((exchangeSort_spec cs).1.mem_iff.mp hc)]
    simp
  simp only [losDtmO, hall, cubeOfIndexO, h1, hf]

/-! ### Lines of sight that start above the DTM -/

/-- What can be returned for a straight line of sight that starts above the DTM (Python). -/
theorem losDtm_pair_cases (d : Dtm K) (hr : 2 ≤ d.nbRows) (hc : 2 ≤ d.nbCols)
    (hdet : d.transform.a * d.transform.e - d.transform.b * d.transform.d ≠ 0) (N : ℕ) (A B : V3 K) (hA : d.altMax < A.z) :
    losDtm .py d N [A, B] = .nan ∨ losDtm .py d N [A, B] = .failure ∨ losDtm .py d N [A, B] = .point ⟨0, 0, 0⟩ ∨
    ∃ t, 0 ≤ t ∧ losDtm .py d N [A, B] = .point (Spec.lerp A B t) ∧
      InFootprint d.nbRows d.nbCols (terToIndexPy d.transform (Spec.lerp A B t)) ∧
      |d.interpolate (terToIndexPy d.transform (Spec.lerp A B t)).x (terToIndexPy d.transform (Spec.lerp A B t)).y
        - (Spec.lerp A B t).z| ≤ 1 / 10000 ∧
      (B.z < A.z → B.z ≤ d.altMin - 1 / 10000 → t ≤ 1) := by
  unfold losDtm intersectDtmCube
  simp only [tersToIndexsPy, List.map_cons, List.map_nil]
  cases hcube : cubeOfIndex .py d [terToIndexPy d.transform A, terToIndexPy d.transform B] with
  | error e => right; left; rfl
  | ok o =>
    cases o with
    | none => left; rfl
    | some c =>
      simp only
      obtain ⟨hbox, hon⟩ := cubeOfIndex_entry .py d _ c hcube
      rcases hon with hon | ⟨-, -, hhead, -⟩
      swap
      · exfalso
        simp only [List.head?_cons, Option.some.injEq] at hhead
        have h1 := hbox.2.2.2.2.2
        rw [← hhead] at h1
        have : (terToIndexPy d.transform A).z = A.z := rfl
        linarith
      obtain ⟨h0, h1, hp⟩ := (onPolyline_pair _ _ _ _).mp hon
      cases hi : intersectionIdx .py d N [terToIndexPy d.transform A, terToIndexPy d.transform B] c.p c.h with
      | notFound => right; right; left; rfl
      | nonFinite => right; left; rfl
      | falsiFuel => right; left; rfl
      | marchFuel => right; left; rfl
      | found p =>
        right; right; right
        rw [hp] at hi hbox
        have hfoot : InFootprint d.nbRows d.nbCols (Spec.lerp (terToIndexPy d.transform A) (terToIndexPy d.transform B) c.h) :=
          ⟨hbox.1, hbox.2.1, hbox.2.2.1, hbox.2.2.2.1⟩
        obtain ⟨t, ht, hpt, hfp, htol, ht1⟩ := C14_straight_line d hr hc N _ _ c.h h0 h1 hfoot p hi
        have hpi : p = terToIndexPy d.transform (Spec.lerp A B t) := by rw [hpt, terToIndex_lerp]
        refine ⟨t, h0.trans ht, ?_, ?_, ?_, ?_⟩
        · simp only
          rw [hpi, C02_py_index_to_ter_ter_to_index d.transform hdet]
        · rw [← hpi]; exact hfp
        · rw [← hpi]
          have : (Spec.lerp A B t).z = p.z := by rw [hpi]; rfl
          rw [this]; exact htol
        · exact ht1

/-! ### The altitudes between which the lines of sight are computed -/

theorem altMin_le_altMax (d : Dtm K) (hr : 2 ≤ d.nbRows) (hc : 2 ≤ d.nbCols) : d.altMin ≤ d.altMax := by
  obtain ⟨⟨i, j, hn, he⟩, _, h3, _⟩ := C11_global_bounds d hr hc
  have := h3 i j hn
  linarith

theorem olistMin_const (a : K) (n : ℕ) : olistMin (List.replicate (n + 1) (some a)) = some a := by
  simp only [List.replicate_succ, olistMin]
  induction n with
  | zero => rfl
  | succ n ih => simp only [List.replicate_succ, List.foldl_cons, omin, olift2, min_self]; exact ih

theorem olistMax_const (a : K) (n : ℕ) : olistMax (List.replicate (n + 1) (some a)) = some a := by
  simp only [List.replicate_succ, olistMax]
  induction n with
  | zero => rfl
  | succ n ih => simp only [List.replicate_succ, List.foldl_cons, omax, olift2, max_self]; exact ih

/-- C62. When the DTM is in the system of the model, the lines of sight are computed from one metre above its highest
altitude to one metre below its lowest. -/
theorem C62_range_same_system (conv : ℕ → ℕ → ORow K → ORow K) (e : ℕ) (hconv : ∀ p, conv e e p = p) (d : Dtm K) :
    dtmRange conv e e d = some (d.altMin - 1, d.altMax + 1) := by
  have hz : ((groundCorners d).map fun p => (conv e e p).z) = List.replicate (3 + 1) (some ((d.altMin + d.altMax) / 2)) := by
    simp only [hconv, groundCorners, footprintCorners, List.map_cons, List.map_nil]
    rfl
  simp only [dtmRange, dtmAltOffset, hz, olistMin_const, olistMax_const, Option.map_some, sub_self, add_zero]

theorem pairs_get {α : Type*} (n : ℕ) (l : List α) (hl : l.length = 2 * n) :
    (pairs l).length = n ∧ ∀ i a b, l[2 * i]? = some a → l[2 * i + 1]? = some b → (pairs l)[i]? = some [a, b] := by
  induction n generalizing l with
  | zero =>
    have : l = [] := List.eq_nil_of_length_eq_zero (by omega)
    subst this
    exact ⟨rfl, by intro i a b h; simp at h⟩
  | succ n ih =>
    match l, hl with
    | x :: y :: l, hl =>
      obtain ⟨h1, h2⟩ := ih l (by simp at hl; omega)
      refine ⟨by simp [pairs, h1], ?_⟩
      intro i a b ha hb
      cases i with
      | zero =>
        simp at ha hb
        simp [pairs, ha, hb]
      | succ i =>
        have e1 : 2 * (i + 1) = 2 * i + 2 := by ring
        rw [e1] at ha hb
        simp only [List.getElem?_cons_succ] at ha hb
        simpa [pairs] using h2 i a b ha hb

theorem vertex_nanRow : vertex (nanRow : ORow K) = none := rfl

theorem vertex_z {p : ORow K} {v : V3 K} {z : K} (hv : vertex p = some v) (hz : p = nanRow ∨ p.z = some z) : v.z = z := by
  rcases hz with rfl | hz
  · cases hv
  · obtain ⟨x, y, w⟩ := p
    cases x <;> cases y <;> cases w <;> simp only [vertex] at hv <;> try cases hv
    simpa using hz

/-! ### C62: what is returned -/

/-- Specification: what `direct_loc_dtm` may return for a pixel whose line of sight goes from `A`, above the terrain, to `B`,
below: NaN, a point of the line between them that is in the footprint of the DTM and on the terrain to a tenth of a millimetre (with
valid coordinates if the DTM is geographic) or, as the code has no test for a line that leaves the box of the DTM without
having met it, (0, 0, 0) or an exception. -/
def DtmAnswer (d : Dtm K) (geographic : Prop) (A B : V3 K) (p : DtmPoint K) : Prop :=
  p = .nan ∨ p = .failure ∨ p = .point ⟨0, 0, 0⟩ ∨
  ∃ t, 0 ≤ t ∧ t ≤ 1 ∧ p = .point (Spec.lerp A B t) ∧
    InFootprint d.nbRows d.nbCols (terToIndexPy d.transform (Spec.lerp A B t)) ∧
    |d.interpolate (terToIndexPy d.transform (Spec.lerp A B t)).x (terToIndexPy d.transform (Spec.lerp A B t)).y
      - (Spec.lerp A B t).z| ≤ 1 / 10000 ∧
    (geographic → |(Spec.lerp A B t).x| ≤ 180 ∧ |(Spec.lerp A B t).y| ≤ 90)

/-- The value returned for one line. -/
def edgePoint (impl : Impl) (N eDtm : ℕ) (d : Dtm K) (l : List (ORow K)) : DtmPoint K :=
  if eDtm = 4326 then checkDtmPoint (losDtmO impl d N l) else losDtmO impl d N l

theorem intersectEdges_eq (impl : Impl) (N eDtm : ℕ) (d : Dtm K) (edges : List (ORow K)) :
    intersectEdges impl N eDtm d edges = (pairs edges).map (edgePoint impl N eDtm d) := by
  unfold intersectEdges edgePoint
  split_ifs <;> rfl

theorem edgePoint_answer (N eDtm : ℕ) (d : Dtm K) (hr : 2 ≤ d.nbRows) (hc : 2 ≤ d.nbCols)
    (hdet : d.transform.a * d.transform.e - d.transform.b * d.transform.d ≠ 0) (top bot : ORow K) (A B : V3 K)
    (hA : vertex top = some A) (hB : vertex bot = some B) (hAz : d.altMax < A.z) (hBz : B.z ≤ d.altMin - 1 / 10000) :
    DtmAnswer d (eDtm = 4326) A B (edgePoint .py N eDtm d [top, bot]) := by
  have hall : losDtmO .py d N [top, bot] = losDtm .py d N [A, B] := by
    simp only [losDtmO, allVertices_pair, hA, hB]
  have hlt : B.z < A.z := by
    have := altMin_le_altMax d hr hc
    linarith
  unfold edgePoint
  rw [hall]
  rcases losDtm_pair_cases d hr hc hdet N A B hAz with h | h | h | ⟨t, t0, h, hf, htol, ht1⟩
  · rw [h]; left; split_ifs <;> rfl
  · rw [h]; right; left; split_ifs <;> rfl
  · rw [h]; right; right; left
    split_ifs
    · simp [checkDtmPoint]
    · rfl
  · rw [h]
    by_cases he : eDtm = 4326
    · rw [if_pos he]
      simp only [checkDtmPoint]
      by_cases hv : |(Spec.lerp A B t).x| > 180 ∨ |(Spec.lerp A B t).y| > 90
      · rw [if_pos hv]; left; rfl
      · rw [if_neg hv]
        push Not at hv
        exact .inr (.inr (.inr ⟨t, t0, ht1 hlt hBz, rfl, hf, htol, fun _ => hv⟩))
    · rw [if_neg he]
      exact .inr (.inr (.inr ⟨t, t0, ht1 hlt hBz, rfl, hf, htol, fun h => absurd h he⟩))

/-- C62, C64. `RPC.direct_loc_dtm` for a DTM in the system of the model: one result per pixel, in order.  The result of a pixel
depends only on the two points of its line of sight, at one metre above the highest altitude of the DTM and one metre below the
lowest; if one of them cannot be computed the result is NaN, and otherwise it is as in `DtmAnswer`.
Missing: the line of sight may not be that of the pixel (`C62_first_residual_counterexample`) and a line that misses the terrain is not NaN (`C62_missed_line_is_origin`). -/
theorem C62_rpc_direct_loc_dtm_partial (conv : ℕ → ℕ → ORow K → ORow K) (e : ℕ) (hconv : ∀ p, conv e e p = p) (N : ℕ) (r : Rpc K)
    (d : Dtm K) (hr : 2 ≤ d.nbRows) (hc : 2 ≤ d.nbCols)
    (hdet : d.transform.a * d.transform.e - d.transform.b * d.transform.d ≠ 0) (row col : List (Option K))
    (hcol : col.length = row.length) {out : List (DtmPoint K)} (h : rpcDirectDtm conv .py N r e e d row col = .ok out) :
    out.length = row.length ∧
    ∃ edges, losExtrema r row col (some (d.altMin - 1)) (some (d.altMax + 1)) false = .ok edges ∧
      ∀ i < row.length, ∃ top bot p, edges[2 * i]? = some top ∧ edges[2 * i + 1]? = some bot ∧ out[i]? = some p ∧
        (vertex top = none ∨ vertex bot = none → p = .nan) ∧
        ∀ A B, vertex top = some A → vertex bot = some B →
          A.z = d.altMax + 1 ∧ B.z = d.altMin - 1 ∧ DtmAnswer d (e = 4326) A B p := by
  simp only [rpcDirectDtm, C62_range_same_system conv e hconv d] at h
  cases hl : losExtrema r row col (some (d.altMin - 1)) (some (d.altMax + 1)) false with
  | error er => rw [hl] at h; cases h
  | ok edges =>
    rw [hl] at h
    simp only [convertEdges, ne_eq, not_true_eq_false, if_false, Except.ok.injEq] at h
    obtain ⟨hlen, hget⟩ := C26_los_extrema_altitudes r row col _ _ false hcol hl
    obtain ⟨hpl, hpg⟩ := pairs_get row.length edges hlen
    rw [intersectEdges_eq] at h
    refine ⟨by rw [← h, List.length_map, hpl], edges, rfl, fun i hi => ?_⟩
    obtain ⟨top, bot, h1, h2, h3, h4⟩ := hget i hi
    refine ⟨top, bot, edgePoint .py N e d [top, bot], h1, h2, ?_, ?_, ?_⟩
    · rw [← h, List.getElem?_map, hpg i top bot h1 h2]; rfl
    · intro hn
      have habove : ∀ a, vertex top = some a → d.altMax < a.z := by
        intro a ha
        have := vertex_z ha h3
        simp only [announcedAlt] at this
        linarith
      unfold edgePoint
      rw [losDtmO_nan d N top bot hn habove]
      split_ifs <;> rfl
    · intro A B hA hB
      have eA : A.z = d.altMax + 1 := vertex_z hA h3
      have eB : B.z = d.altMin - 1 := vertex_z hB h4
      exact ⟨eA, eB, edgePoint_answer N e d hr hc hdet top bot A B hA hB (by linarith) (by linarith)⟩

/-! ### C63: completeness -/

theorem floor_cell {p v : K} {nb : ℕ} (h0 : 0 < p) (h1 : p < (nb : K) - 1) :
    0 ≤ startCell .py p v ∧ startCell .py p v + 1 ≤ (nb : ℤ) - 1 := by
  have hf0 : 0 ≤ ⌊p⌋ := Int.floor_nonneg.mpr h0.le
  have hf1 : ⌊p⌋ < (nb : ℤ) - 1 := by
    have h2 : (⌊p⌋ : K) < (nb : K) - 1 := lt_of_le_of_lt (Int.floor_le p) h1
    exact_mod_cast h2
  unfold startCell
  split_ifs with h
  · have : 0 < ⌊p⌋ := by
      have h2 : (0 : K) < (⌊p⌋ : K) := by rw [← h.1]; exact h0
      exact_mod_cast h2
    simp only
    omega
  · omega

/-- A line that enters the box strictly inside the footprint, at a point of the terrain, is located there, unless it is again on
the terrain when it leaves the cell. -/
theorem entry_on_terrain (d : Dtm K) (N : ℕ) (a b : V3 K) (h : K) (h0 : 0 ≤ h) (h1 : h < 1) (hdir : a.x ≠ b.x ∨ a.y ≠ b.y)
    (fx : 0 < (Spec.lerp a b h).x ∧ (Spec.lerp a b h).x < (d.nbRows : K) - 1)
    (fy : 0 < (Spec.lerp a b h).y ∧ (Spec.lerp a b h).y < (d.nbCols : K) - 1)
    (hon : (Spec.lerp a b h).z = d.interpolate (Spec.lerp a b h).x (Spec.lerp a b h).y) :
    intersectionIdx .py d (N + 1) [a, b] (Spec.lerp a b h) h = .found (Spec.lerp a b h) ∨
    ∃ u, h < u ∧ InFootprint d.nbRows d.nbCols (Spec.lerp a b u) ∧
      (Spec.lerp a b u).z = d.interpolate (Spec.lerp a b u).x (Spec.lerp a b u).y ∧
      intersectionIdx .py d (N + 1) [a, b] (Spec.lerp a b h) h = .nonFinite := by
  have hdir' : b.x - a.x ≠ 0 ∨ b.y - a.y ≠ 0 := by
    rcases hdir with h | h
    · exact .inl fun e => h (by linarith)
    · exact .inr fun e => h (by linarith)
  rw [intersectionIdx_pair .py d (N + 1) a b _ h h0 h1, if_neg (by rw [hon]; simp),
    if_neg (by rintro ⟨e1, e2⟩; rcases hdir' with h' | h'; exact h' e1; exact h' e2)]
  set s : March K := ⟨Spec.lerp a b h, startCell .py (Spec.lerp a b h).x (b.x - a.x),
    startCell .py (Spec.lerp a b h).y (b.y - a.y), h⟩ with hs
  have hinv : CellInv a (segDir a b) s h := start_inv a b (Spec.lerp a b h) h h rfl rfl
  have st := cellExit_spec a (segDir a b) s h hinv hdir'
  have hcell : IsCell d.nbRows d.nbCols s.colC s.rowC := by
    have e1 := floor_cell (v := b.x - a.x) fx.1 fx.2
    have e2 := floor_cell (v := b.y - a.y) fy.1 fy.2
    exact ⟨e1.1, e1.2, e2.1, e2.2⟩
  have hin : marchInside d s = true := (marchInside_iff d s).mpr ⟨h1, hcell⟩
  have hh : height d.interpolate a b h = 0 := by simp only [height]; rw [hon]; ring
  have hc1 : InCell s.colC s.rowC (Spec.lerp a b h).x (Spec.lerp a b h).y := hinv.inCell
  have hc2 : InCell s.colC s.rowC (Spec.lerp a b (cellExit a (segDir a b) s).a2).x
      (Spec.lerp a b (cellExit a (segDir a b) s).a2).y := by rw [← st.p2_eq]; exact st.inCell
  have hb : bIntersect a.z b.z (altMinCellPy d.alt s.colC s.rowC) (altMaxCellPy d.alt s.colC s.rowC)
      s.p2.z (cellExit a (segDir a b) s).p2.z = true := by
    by_contra hno
    have hno := Bool.eq_false_iff.mpr hno
    rw [st.p2_eq] at hno
    have := C17_skipped_cell_is_above d a b s.colC s.rowC h _ hcell hc1 hc2 hon.symm.le hno h le_rfl st.lt.le h1.le
    linarith
  have hp : (s.p2.z - d.interpolate s.p2.x s.p2.y) * ((cellExit a (segDir a b) s).p2.z -
      d.interpolate (cellExit a (segDir a b) s).p2.x (cellExit a (segDir a b) s).p2.y) ≤ 0 := by
    have : s.p2.z - d.interpolate s.p2.x s.p2.y = 0 := by
      show (Spec.lerp a b h).z - _ = 0
      rw [hon]; exact sub_self _
    rw [this, zero_mul]
  have hm : marchCells d (N + 1) a b (cellFuel d) s = .inl (falsi d.interpolate (N + 1) s.p2
      (d.interpolate s.p2.x s.p2.y) (cellExit a (segDir a b) s).p2
      (d.interpolate (cellExit a (segDir a b) s).p2.x (cellExit a (segDir a b) s).p2.y)) := by
    rw [show cellFuel d = (d.nbRows * d.nbCols + d.nbRows + d.nbCols) + 1 from rfl, marchCells_succ, if_pos hin, if_pos ⟨hb, hp⟩]
  rw [hm]
  simp only
  rw [st.p2_eq, show s.p2 = Spec.lerp a b h from rfl, falsi_step, hh]
  by_cases hz : height d.interpolate a b (cellExit a (segDir a b) s).a2 = 0
  · right
    refine ⟨_, st.lt, inCell_footprint hcell hc2, ?_, ?_⟩
    · simp only [height] at hz; linarith
    · rw [hz]; simp
  · left
    rw [if_neg (by rw [zero_sub, neg_eq_zero]; exact hz)]
    simp only [zero_div, zero_mul, add_zero, hh, abs_zero]
    rw [if_neg (by exact not_lt.mpr tolZ_pos.le)]

/-- A straight line through a flat terrain, strictly inside its footprint, is located where it crosses the altitude of the
terrain, exactly. -/
theorem flat_located (d : Dtm K) (hr : 2 ≤ d.nbRows) (hc : 2 ≤ d.nbCols)
    (hdet : d.transform.a * d.transform.e - d.transform.b * d.transform.d ≠ 0) (hflat : d.altMin = d.altMax) (N : ℕ)
    (A B : V3 K) (t : K) (t0 : 0 ≤ t) (t1 : t < 1) (hA : d.altMax < A.z) (hz : (Spec.lerp A B t).z = d.altMax)
    (fx : 0 < (terToIndexPy d.transform (Spec.lerp A B t)).x ∧
      (terToIndexPy d.transform (Spec.lerp A B t)).x < (d.nbRows : K) - 1)
    (fy : 0 < (terToIndexPy d.transform (Spec.lerp A B t)).y ∧
      (terToIndexPy d.transform (Spec.lerp A B t)).y < (d.nbCols : K) - 1) :
    losDtm .py d (N + 1) [A, B] = .point (Spec.lerp A B t) := by
  have hback : indexToTerPy d.transform (terToIndexPy d.transform (Spec.lerp A B t)) = Spec.lerp A B t :=
    C02_py_index_to_ter_ter_to_index d.transform hdet _
  rw [terToIndex_lerp] at fx fy hback
  set a := terToIndexPy d.transform A with ha_def
  set b := terToIndexPy d.transform B with hb_def
  have haz : a.z = A.z := rfl
  have hbz : b.z = B.z := rfl
  have hz' : (Spec.lerp a b t).z = d.altMax := hz
  have hneg : b.z < a.z := by
    by_contra hcon
    have := mul_nonneg t0 (sub_nonneg.mpr (not_lt.mp hcon))
    simp only [Spec.lerp] at hz'
    linarith
  have hf : InFootprint d.nbRows d.nbCols (Spec.lerp a b t) := ⟨fx.1.le, fx.2.le, fy.1.le, fy.2.le⟩
  have hflat' : ∀ p : V3 K, InFootprint d.nbRows d.nbCols p → d.interpolate p.x p.y = d.altMax := by
    intro p hp
    have := (C11_global_bounds d hr hc).2.2.2 p.x p.y hp.1 hp.2.1 hp.2.2.1 hp.2.2.2
    exact le_antisymm this.2 (hflat ▸ this.1)
  have hcube := downward_entry d hr hc a b t t (by rw [haz]; exact hA) t0 hz' t1.le (by rw [hflat]; exact hz') le_rfl hf hf
  have hidx : intersectionIdx .py d (N + 1) [a, b] (Spec.lerp a b t) t = .found (Spec.lerp a b t) := by
    by_cases hdir : a.x ≠ b.x ∨ a.y ≠ b.y
    · rcases entry_on_terrain d N a b t t0 t1 hdir fx fy (by rw [hflat' _ hf]; exact hz') with h | ⟨u, hu, hfu, hzu, _⟩
      · exact h
      · exfalso
        rw [hflat' _ hfu] at hzu
        have := mul_lt_mul_of_neg_right hu (sub_neg.mpr hneg)
        simp only [Spec.lerp] at hzu hz'
        linarith
    · push Not at hdir
      have e1 : (Spec.lerp a b t).x = a.x := by simp only [Spec.lerp]; rw [hdir.1]; ring
      have e2 : (Spec.lerp a b t).y = a.y := by simp only [Spec.lerp]; rw [hdir.2]; ring
      have hi := hflat' _ hf
      rw [C14_vertical_exact .py d (N + 1) a b (Spec.lerp a b t) t t0 t1 hdir.1 hdir.2 (by rw [hi]; exact hz'.symm.le)]
      · rw [e1, e2] at hi
        rw [hi, ← hz', ← e1, ← e2]
      · rw [e1, e2] at hi
        rw [hi]
        have := mul_le_mul_of_nonpos_right t1.le (sub_neg.mpr hneg).le
        simp only [Spec.lerp] at hz'
        linarith
  unfold losDtm intersectDtmCube
  simp only [tersToIndexsPy, List.map_cons, List.map_nil, ← ha_def, ← hb_def, hcube, hidx]
  rw [hback]

theorem lerp_abs_le {M a b t : K} (t0 : 0 ≤ t) (t1 : t ≤ 1) (ha : |a| ≤ M) (hb : |b| ≤ M) : |a + t * (b - a)| ≤ M := by
  rw [abs_le] at *
  constructor <;> nlinarith

/-- Specification: both points have a valid longitude and latitude. -/
def BothValid (A B : V3 K) : Prop := |A.x| ≤ 180 ∧ |A.y| ≤ 90 ∧ |B.x| ≤ 180 ∧ |B.y| ≤ 90

theorem checkDtmPoint_lerp (A B : V3 K) (t : K) (t0 : 0 ≤ t) (t1 : t ≤ 1) (h : BothValid A B) :
    checkDtmPoint (.point (Spec.lerp A B t)) = .point (Spec.lerp A B t) := by
  simp only [checkDtmPoint]
  rw [if_neg]
  push Not
  exact ⟨lerp_abs_le t0 t1 h.1 h.2.2.1, lerp_abs_le t0 t1 h.2.1 h.2.2.2⟩

theorem rpcDirectDtm_get (conv : ℕ → ℕ → ORow K → ORow K) (e : ℕ) (hconv : ∀ p, conv e e p = p) (impl : Impl) (N : ℕ) (r : Rpc K)
    (d : Dtm K) (row col : List (Option K)) (hcol : col.length = row.length) (edges : List (ORow K))
    (hl : losExtrema r row col (some (d.altMin - 1)) (some (d.altMax + 1)) false = .ok edges) :
    ∃ out, rpcDirectDtm conv impl N r e e d row col = .ok out ∧ out.length = row.length ∧
      ∀ i top bot, edges[2 * i]? = some top → edges[2 * i + 1]? = some bot → out[i]? = some (edgePoint impl N e d [top, bot]) := by
  obtain ⟨hlen, -⟩ := C26_los_extrema_altitudes r row col _ _ false hcol hl
  obtain ⟨hpl, hpg⟩ := pairs_get row.length edges hlen
  refine ⟨intersectEdges impl N e d edges, ?_, ?_, ?_⟩
  · simp only [rpcDirectDtm, C62_range_same_system conv e hconv d, hl, convertEdges, ne_eq, not_true_eq_false, if_false]
  · rw [intersectEdges_eq, List.length_map, hpl]
  · intro i top bot h1 h2
    rw [intersectEdges_eq, List.getElem?_map, hpg i top bot h1 h2]; rfl

theorem edges_alt (r : Rpc K) (d : Dtm K) (row col : List (Option K)) (hcol : col.length = row.length) (edges : List (ORow K))
    (hl : losExtrema r row col (some (d.altMin - 1)) (some (d.altMax + 1)) false = .ok edges) (i : ℕ) (A B : V3 K)
    (hA : edges[2 * i]? = some ⟨some A.x, some A.y, some A.z⟩) (hB : edges[2 * i + 1]? = some ⟨some B.x, some B.y, some B.z⟩) :
    A.z = d.altMax + 1 ∧ B.z = d.altMin - 1 := by
  obtain ⟨hlen, hget⟩ := C26_los_extrema_altitudes r row col _ _ false hcol hl
  have hi : i < row.length := by
    have := (List.getElem?_eq_some_iff.mp hA).1
    omega
  obtain ⟨top, bot, h1, h2, h3, h4⟩ := hget i hi
  rw [hA] at h1
  rw [hB] at h2
  injection h1 with h1
  injection h2 with h2
  subst h1 h2
  exact ⟨vertex_z (v := A) rfl h3, vertex_z (v := B) rfl h4⟩

/-- C63. `RPC.direct_loc_dtm`, DTM in the system of the model: a pixel whose line of sight, between one metre above the highest
altitude of the DTM and one metre below the lowest, is within the footprint of the DTM at both extreme altitudes, and is above
the terrain when it passes the highest, is located: for every large enough iteration budget of the root search the result
is a point of the line, in the footprint and on the terrain to a tenth of a millimetre. -/
theorem C63_located (conv : ℕ → ℕ → ORow K → ORow K) (e : ℕ) (hconv : ∀ p, conv e e p = p) (r : Rpc K)
    (d : Dtm K) (hr : 2 ≤ d.nbRows) (hc : 2 ≤ d.nbCols)
    (hdet : d.transform.a * d.transform.e - d.transform.b * d.transform.d ≠ 0) (row col : List (Option K))
    (hcol : col.length = row.length) (edges : List (ORow K))
    (hl : losExtrema r row col (some (d.altMin - 1)) (some (d.altMax + 1)) false = .ok edges) (i : ℕ) (A B : V3 K)
    (hA : edges[2 * i]? = some ⟨some A.x, some A.y, some A.z⟩) (hB : edges[2 * i + 1]? = some ⟨some B.x, some B.y, some B.z⟩)
    (hv : e = 4326 → BothValid A B) (τ : K) (hτ : τ * (d.altMax - d.altMin + 2) = 1)
    (ftop : InFootprint d.nbRows d.nbCols (terToIndexPy d.transform (Spec.lerp A B τ)))
    (fbot : InFootprint d.nbRows d.nbCols (terToIndexPy d.transform (Spec.lerp A B (1 - τ))))
    (hup : d.interpolate (terToIndexPy d.transform (Spec.lerp A B τ)).x (terToIndexPy d.transform (Spec.lerp A B τ)).y < d.altMax)
    (hx : (terToIndexPy d.transform A).x = (terToIndexPy d.transform B).x → (terToIndexPy d.transform A).x < (d.nbRows : K) - 1)
    (hy : (terToIndexPy d.transform A).y = (terToIndexPy d.transform B).y → (terToIndexPy d.transform A).y < (d.nbCols : K) - 1) :
    ∃ N0, ∀ N, N0 ≤ N → ∃ out t, rpcDirectDtm conv .py N r e e d row col = .ok out ∧ τ ≤ t ∧ t ≤ 1 ∧
      out[i]? = some (.point (Spec.lerp A B t)) ∧
      InFootprint d.nbRows d.nbCols (terToIndexPy d.transform (Spec.lerp A B t)) ∧
      |d.interpolate (terToIndexPy d.transform (Spec.lerp A B t)).x (terToIndexPy d.transform (Spec.lerp A B t)).y
        - (Spec.lerp A B t).z| ≤ 1 / 10000 := by
  obtain ⟨eA, eB⟩ := edges_alt r d row col hcol edges hl i A B hA hB
  have hmm := altMin_le_altMax d hr hc
  have τ0 : 0 < τ := by
    by_contra hcon
    have := mul_nonpos_of_nonpos_of_nonneg (not_lt.mp hcon) (show 0 ≤ d.altMax - d.altMin + 2 by linarith)
    linarith
  have htop : (Spec.lerp A B τ).z = d.altMax := by
    show A.z + τ * (B.z - A.z) = d.altMax
    rw [eA, eB]; linear_combination -hτ
  have hbot : (Spec.lerp A B (1 - τ)).z = d.altMin := by
    show A.z + (1 - τ) * (B.z - A.z) = d.altMin
    rw [eA, eB]; linear_combination hτ
  obtain ⟨N0, h⟩ := C16_downward_line_is_intersected d hr hc hdet A B τ (1 - τ) (by linarith) (by linarith) τ0.le (by linarith)
    htop hbot ftop fbot hup hx hy
  refine ⟨N0, fun N hN => ?_⟩
  obtain ⟨t, ht0, ht1, hp, hf, htol⟩ := h N hN
  obtain ⟨out, ho, -, hg⟩ := rpcDirectDtm_get conv e hconv .py N r d row col hcol edges hl
  refine ⟨out, t, ho, ht0, ht1, ?_, hf, htol⟩
  rw [hg i _ _ hA hB]
  have hlos : losDtmO .py d N [⟨some A.x, some A.y, some A.z⟩, ⟨some B.x, some B.y, some B.z⟩] = .point (Spec.lerp A B t) := hp
  unfold edgePoint
  rw [hlos]
  split_ifs with h4
  · rw [checkDtmPoint_lerp A B t (τ0.le.trans ht0) ht1 (hv h4)]
  · rfl

/-- C63. On a flat terrain the result is exactly the middle of the line of sight, at the altitude of the terrain, whenever this
point is strictly inside the footprint of the DTM. -/
theorem C63_flat_exact (conv : ℕ → ℕ → ORow K → ORow K) (e : ℕ) (hconv : ∀ p, conv e e p = p) (r : Rpc K)
    (d : Dtm K) (hr : 2 ≤ d.nbRows) (hc : 2 ≤ d.nbCols)
    (hdet : d.transform.a * d.transform.e - d.transform.b * d.transform.d ≠ 0) (hflat : d.altMin = d.altMax)
    (row col : List (Option K)) (hcol : col.length = row.length) (edges : List (ORow K))
    (hl : losExtrema r row col (some (d.altMin - 1)) (some (d.altMax + 1)) false = .ok edges) (i : ℕ) (A B : V3 K)
    (hA : edges[2 * i]? = some ⟨some A.x, some A.y, some A.z⟩) (hB : edges[2 * i + 1]? = some ⟨some B.x, some B.y, some B.z⟩)
    (hv : e = 4326 → BothValid A B)
    (fx : 0 < (terToIndexPy d.transform (Spec.lerp A B (1 / 2))).x ∧
      (terToIndexPy d.transform (Spec.lerp A B (1 / 2))).x < (d.nbRows : K) - 1)
    (fy : 0 < (terToIndexPy d.transform (Spec.lerp A B (1 / 2))).y ∧
      (terToIndexPy d.transform (Spec.lerp A B (1 / 2))).y < (d.nbCols : K) - 1) (N : ℕ) (hN : 1 ≤ N) :
    ∃ out, rpcDirectDtm conv .py N r e e d row col = .ok out ∧
      out[i]? = some (.point ⟨(A.x + B.x) / 2, (A.y + B.y) / 2, d.altMax⟩) := by
  obtain ⟨eA, eB⟩ := edges_alt r d row col hcol edges hl i A B hA hB
  obtain ⟨out, ho, -, hg⟩ := rpcDirectDtm_get conv e hconv .py N r d row col hcol edges hl
  refine ⟨out, ho, ?_⟩
  rw [hg i _ _ hA hB]
  obtain ⟨n, rfl⟩ := Nat.exists_eq_add_of_le' hN
  have hz : (Spec.lerp A B (1 / 2)).z = d.altMax := by
    show A.z + 1 / 2 * (B.z - A.z) = d.altMax
    rw [eA, eB, hflat]; ring
  have hp := flat_located d hr hc hdet hflat n A B (1 / 2) (by norm_num) (by norm_num) (by linarith) hz fx fy
  have hlos : losDtmO .py d (n + 1) [⟨some A.x, some A.y, some A.z⟩, ⟨some B.x, some B.y, some B.z⟩] =
    .point (Spec.lerp A B (1 / 2)) := hp
  have hmid : Spec.lerp A B (1 / 2) = ⟨(A.x + B.x) / 2, (A.y + B.y) / 2, d.altMax⟩ := by
    rw [← hz]
    simp only [Spec.lerp, V3.mk.injEq]
    refine ⟨by ring, by ring, trivial⟩
  unfold edgePoint
  rw [hlos]
  split_ifs with h4
  · rw [checkDtmPoint_lerp A B (1 / 2) (by norm_num) (by norm_num) (hv h4), hmid]
  · rw [hmid]

end Shareloc
