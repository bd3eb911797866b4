import Verif.Props.DirectDtm

/-!
C62-C64: pixels that are NaN, `RPCoptim.direct_loc_dtm`, and concrete cases.
-/

namespace Shareloc
open Spec
set_option linter.unusedSectionVars false

variable {K : Type*} [Field K] [LinearOrder K] [IsStrictOrderedRing K] [FloorRing K]

/-! ### C64: NaN pixels -/

theorem losExtrema_nan (r : Rpc K) (row col : List (Option K)) (lo hi : K) (hcol : col.length = row.length)
    {edges : List (ORow K)} (hl : losExtrema r row col (some lo) (some hi) false = .ok edges) (i : ℕ) (x y : Option K)
    (hx : row[i]? = some x) (hy : col[i]? = some y) (hn : x = none ∨ y = none) :
    edges[2 * i]? = some nanRow ∧ edges[2 * i + 1]? = some nanRow := by
  have hir : i < row.length := (List.getElem?_eq_some_iff.mp hx).1
  simp only [losExtrema] at hl
  have hdc : (dup col).length = (dup row).length := by rw [dup_length, dup_length, hcol]
  have hda : ∀ a b : Option K, (alternate row.length a b).length = (dup row).length := by
    intro a b; rw [dup_length, alternate_length]
  have key : ∀ (a b : K) edges', directLocH r (dup row) (dup col) (alternate row.length (some a) (some b)) false false = .ok edges' →
      edges'.length = 2 * row.length ∧ edges'[2 * i]? = some nanRow ∧ edges'[2 * i + 1]? = some nanRow := by
    intro a b edges' h
    obtain ⟨e1, -, e3⟩ := C25_direct_loc_h r _ _ _ false false hdc (hda _ _) h
    obtain ⟨d1, d2⟩ := dup_get row i
    obtain ⟨d3, d4⟩ := dup_get col i
    obtain ⟨d5, d6⟩ := alternate_get row.length (some a) (some b) i hir
    refine ⟨by rw [e1, dup_length], ?_, ?_⟩
    · simpa using e3 (2 * i) x y _ (d1.trans hx) (d3.trans hy) d5 hn
    · simpa using e3 (2 * i + 1) x y _ (d2.trans hx) (d4.trans hy) d6 hn
  cases hd : directLocH r (dup row) (dup col) (alternate row.length (some (losAltitudes r (some lo) (some hi)).2.1)
      (some (losAltitudes r (some lo) (some hi)).1)) false false with
  | error e => rw [hd] at hl; cases hl
  | ok edges' =>
    rw [hd] at hl
    obtain ⟨k0, k1, k2⟩ := key _ _ _ hd
    simp only at hl
    split at hl
    · rename_i b hb
      injection hl with hl
      subst hl
      obtain ⟨-, hg⟩ := extrapolateLos_get b.1 b.2 row.length edges' k0
      obtain ⟨top, bot, g1, g2, g3, g4⟩ := hg i hir
      rw [k1] at g1
      injection g1 with g1
      rw [g3, g4, extrapPair_nan _ _ _ _ (.inl g1.symm)]
      exact ⟨rfl, rfl⟩
    · injection hl with hl
      subst hl
      exact ⟨k1, k2⟩

/-- C64. The result of a pixel with a NaN row or column is NaN. -/
theorem C64_nan_pixel (conv : ℕ → ℕ → ORow K → ORow K) (e : ℕ) (hconv : ∀ p, conv e e p = p) (N : ℕ) (r : Rpc K)
    (d : Dtm K) (row col : List (Option K)) (hcol : col.length = row.length) {out : List (DtmPoint K)}
    (h : rpcDirectDtm conv .py N r e e d row col = .ok out) (i : ℕ) (x y : Option K) (hx : row[i]? = some x) (hy : col[i]? = some y)
    (hn : x = none ∨ y = none) : out[i]? = some .nan := by
  cases hl : losExtrema r row col (some (d.altMin - 1)) (some (d.altMax + 1)) false with
  | error er => simp only [rpcDirectDtm, C62_range_same_system conv e hconv d, hl] at h; cases h
  | ok edges =>
    obtain ⟨h1, h2⟩ := losExtrema_nan r row col _ _ hcol hl i x y hx hy hn
    obtain ⟨out', ho, -, hg⟩ := rpcDirectDtm_get conv e hconv .py N r d row col hcol edges hl
    rw [ho] at h
    injection h with h
    subst h
    rw [hg i _ _ h1 h2]
    unfold edgePoint
    rw [losDtmO_nan d N nanRow nanRow (.inl rfl) (by intro a ha; cases ha)]
    split_ifs <;> rfl

/-- C64. `direct_loc_dtm` of the Python class raises exactly when the model has no inverse coefficients (for a DTM in its system
and as many rows as columns). -/
theorem C64_raises (conv : ℕ → ℕ → ORow K → ORow K) (e : ℕ) (hconv : ∀ p, conv e e p = p) (N : ℕ) (r : Rpc K)
    (d : Dtm K) (row col : List (Option K)) (hcol : col.length = row.length) :
    rpcDirectDtm conv .py N r e e d row col = .error .coefficientsMismatch ↔ r.inverse = none := by
  simp only [rpcDirectDtm, C62_range_same_system conv e hconv d]
  have hdc : (dup col).length = (dup row).length := by rw [dup_length, dup_length, hcol]
  have hda : ∀ a b : Option K, (alternate row.length a b).length = (dup row).length := by
    intro a b; rw [dup_length, alternate_length]
  have key := (C27_direct_raises r (dup row) (dup col) (alternate row.length
    (some (losAltitudes r (some (d.altMin - 1)) (some (d.altMax + 1))).2.1)
    (some (losAltitudes r (some (d.altMin - 1)) (some (d.altMax + 1))).1)) false false hdc (hda _ _)).1
  simp only [losExtrema]
  constructor
  · intro h
    cases hd : directLocH r (dup row) (dup col) (alternate row.length
      (some (losAltitudes r (some (d.altMin - 1)) (some (d.altMax + 1))).2.1)
      (some (losAltitudes r (some (d.altMin - 1)) (some (d.altMax + 1))).1)) false false with
    | error er =>
      rw [hd] at h
      simp only [Except.error.injEq] at h
      rw [h] at hd
      simpa using key.mp hd
    | ok l =>
      rw [hd] at h
      cases hb : (losAltitudes r (some (d.altMin - 1)) (some (d.altMax + 1))).2.2 <;> simp [hb] at h
  · intro h
    rw [key.mpr (.inl ⟨rfl, h⟩)]

/-! ### `RPCoptim.direct_loc_dtm` -/

theorem losDtm_cpp_pair (d : Dtm K) (N : ℕ) (A B : V3 K)
    (hA : d.altMax < A.z)
    (hoff : FirstOffPlanes d [terToIndexPy d.transform A, terToIndexPy d.transform B])
    (hent : ∀ t, 0 ≤ t → t ≤ 1 → InBox d.nbRows d.nbCols d.altMin d.altMax (terToIndexPy d.transform (Spec.lerp A B t)) →
      (∃ k, OnFacePlane d.nbRows d.nbCols d.altMin d.altMax k (terToIndexPy d.transform (Spec.lerp A B t))) →
      ((terToIndexPy d.transform B).x < (terToIndexPy d.transform A).x →
        ∀ m : ℤ, (terToIndexPy d.transform (Spec.lerp A B t)).x ≠ m) ∧
      ((terToIndexPy d.transform B).y < (terToIndexPy d.transform A).y →
        ∀ m : ℤ, (terToIndexPy d.transform (Spec.lerp A B t)).y ≠ m)) :
    losDtm .cpp d N [A, B] = losDtm .py d N [A, B] ∨
    (losDtm .cpp d N [A, B] = .uninitialised ∧ losDtm .py d N [A, B] = .point ⟨0, 0, 0⟩) := by
  simp only [terToIndex_lerp] at hent
  unfold losDtm intersectDtmCube
  simp only [tersToIndexsPy, List.map_cons, List.map_nil]
  set a := terToIndexPy d.transform A with ha
  set b := terToIndexPy d.transform B with hb
  rw [cube_impl d [a, b] hoff]
  cases hcube : cubeOfIndex .py d [a, b] with
  | error e => left; rfl
  | ok o =>
    cases o with
    | none => left; rfl
    | some c =>
      simp only
      obtain ⟨hbox, hon⟩ := cubeOfIndex_entry .py d _ c hcube
      rcases hon with hon | ⟨-, -, hhead, k, hk⟩
      swap
      · exact absurd hk (hoff _ hhead k)
      have hface : ∃ k, OnFacePlane d.nbRows d.nbCols d.altMin d.altMax k c.p := by
        have hcs : ∃ cs, faceHits .py d [a, b] [0, 1, 2, 3, 4, 5] = .ok cs := by
          cases hh : faceHits .py d [a, b] [0, 1, 2, 3, 4, 5] with
          | error e => simp [cubeOfIndex, hh] at hcube
          | ok cs => exact ⟨cs, rfl⟩
        obtain ⟨cs, hcs⟩ := hcs
        obtain ⟨hm, _, _⟩ := (cubeOfIndex_spec .py d _ cs hcs).1 c hcube
        obtain ⟨k, _, hk⟩ := (mem_faceHits .py d _ _ cs hcs c).mp hm
        rcases faceHit_cases .py d k _ c hk with h | h
        · exact ⟨k, h.2⟩
        · exact ⟨k, h.2.2.2⟩
      obtain ⟨h0, h1, hp⟩ := (onPolyline_pair _ _ _ _).mp hon
      rw [hp] at hbox hface
      obtain ⟨u1, u2⟩ := hent c.h h0 h1 hbox hface
      have heq : intersectionIdx .cpp d N [a, b] c.p c.h = intersectionIdx .py d N [a, b] c.p c.h := by
        rcases eq_or_lt_of_le h1 with h1 | h1
        · rw [h1, intersectionIdx_pair_end, intersectionIdx_pair_end]
        · rw [intersectionIdx_pair .cpp d N a b c.p c.h h0 h1, intersectionIdx_pair .py d N a b c.p c.h h0 h1,
            startCell_impl c.p.x (b.x - a.x) (fun h m e => absurd (hp ▸ e) (u1 (by linarith) m)),
            startCell_impl c.p.y (b.y - a.y) (fun h m e => absurd (hp ▸ e) (u2 (by linarith) m))]
      rw [heq]
      cases intersectionIdx .py d N [a, b] c.p c.h with
      | notFound => right; exact ⟨rfl, rfl⟩
      | nonFinite => left; rfl
      | falsiFuel => left; rfl
      | marchFuel => left; rfl
      | found p => left; rfl

/-- The two points of the line of sight of the C++ code are NaN or at the bounds. -/
theorem losExtremaCpp_z (r : Rpc K) (q : RatCoefs K) (hq : r.inverse = some q) (x y : Option K) (lo hi : K) :
    ∃ top bot, losExtremaCpp r x y (some lo) (some hi) false = .ok [top, bot] ∧
      (∀ A, vertex top = some A → A.z = hi) ∧ (∀ B, vertex bot = some B → B.z = lo) ∧
      (x = none ∨ y = none → vertex top = none ∧ vertex bot = none) := by
  have hz : ∀ z : Option K, (iterPointCpp r q false (x, y, z)).z = z := by
    intro z; cases x <;> cases y <;> rfl
  have hn : ∀ z : Option K, x = none ∨ y = none → iterPointCpp r q false (x, y, z) = ⟨none, none, z⟩ := by
    intro z h
    rcases h with rfl | rfl
    · rfl
    · cases x <;> rfl
  have hvz : ∀ {p : ORow K} {v : V3 K}, vertex p = some v → p = ⟨some v.x, some v.y, some v.z⟩ := by
    intro p v h
    obtain ⟨_ | a, _ | b, _ | c⟩ := p <;> cases h
    rfl
  by_cases hin : lo ≥ r.offAlt - r.scAlt ∧ hi ≤ r.offAlt + r.scAlt
  · have hlos : losAltitudes r (some lo) (some hi) = (lo, hi, none) := by simp only [losAltitudes]; rw [if_pos hin]
    refine ⟨iterPointCpp r q false (x, y, some hi), iterPointCpp r q false (x, y, some lo),
      by simp only [losExtremaCpp, hlos, hq], ?_, ?_, ?_⟩
    · intro A hA
      have := hvz hA
      have h2 := hz (some hi)
      rw [this] at h2
      exact Option.some.inj h2
    · intro B hB
      have := hvz hB
      have h2 := hz (some lo)
      rw [this] at h2
      exact Option.some.inj h2
    · intro h
      rw [hn _ h, hn _ h]
      exact ⟨rfl, rfl⟩
  · have hlos : losAltitudes r (some lo) (some hi) = ((rpcAltMinMax r).1, (rpcAltMinMax r).2, some (lo, hi)) := by
      simp only [losAltitudes]; rw [if_neg hin]
    set t := iterPointCpp r q false (x, y, some (rpcAltMinMax r).2) with ht
    set b := iterPointCpp r q false (x, y, some (rpcAltMinMax r).1) with hb
    have htz : t.z = some (rpcAltMinMax r).2 := hz _
    have hbz : b.z = some (rpcAltMinMax r).1 := hz _
    refine ⟨(extrapPair lo hi t b).1, (extrapPair lo hi t b).2, ?_, ?_, ?_, ?_⟩
    · simp only [losExtremaCpp, hlos, hq, extrapolateLos, ← ht, ← hb]
      rfl
    · intro A hA
      have h1 := hvz hA
      obtain ⟨tx, ty, tz⟩ := t
      obtain ⟨bx, by', bz⟩ := b
      simp only at htz hbz
      subst htz hbz
      by_cases he : (rpcAltMinMax r).2 = (rpcAltMinMax r).1
      · simp only [extrapPair, altCoef, osub2, he, fdiv, sub_self, if_true, axpy, bind, Option.bind, pure] at h1
        cases tx <;> cases bx <;> simp at h1
      · cases tx <;> cases bx <;> cases ty <;> cases by' <;>
          try (simp [extrapPair, osub2, axpy, bind, Option.bind] at h1; done)
        rw [extrapPair_finite _ _ _ _ _ _ _ _ he] at h1
        simp only [V3.mk.injEq, Option.some.injEq] at h1
        exact h1.2.2.symm
    · intro A hA
      have h1 := hvz hA
      obtain ⟨tx, ty, tz⟩ := t
      obtain ⟨bx, by', bz⟩ := b
      simp only at htz hbz
      subst htz hbz
      by_cases he : (rpcAltMinMax r).2 = (rpcAltMinMax r).1
      · simp only [extrapPair, altCoef, osub2, he, fdiv, sub_self, if_true, axpy, bind, Option.bind, pure] at h1
        cases tx <;> cases bx <;> simp at h1
      · cases tx <;> cases bx <;> cases ty <;> cases by' <;>
          try (simp [extrapPair, osub2, axpy, bind, Option.bind] at h1; done)
        rw [extrapPair_finite _ _ _ _ _ _ _ _ he] at h1
        simp only [V3.mk.injEq, Option.some.injEq] at h1
        exact h1.2.2.symm
    · intro h
      rw [show t = ⟨none, none, some (rpcAltMinMax r).2⟩ from hn _ h, show b = ⟨none, none, some (rpcAltMinMax r).1⟩ from hn _ h]
      exact ⟨rfl, rfl⟩

theorem losDtmO_cpp_nan (d : Dtm K) (N : ℕ) (p q : ORow K) (hp : vertex p = none) (hq : vertex q = none) :
    losDtmO .cpp d N [p, q] = .nan := by
  have hall : allVertices [p, q] = none := by rw [allVertices_pair, hp]
  have hs : ∀ ks, faceHitsO .cpp d [(none : Option (V3 K)), none] ks = .ok [] := by
    intro ks
    induction ks with
    | nil => rfl
    | cons k ks ih =>
      have : faceHitO .cpp d k [(none : Option (V3 K)), none] = .ok none := rfl
      simp only [faceHitsO, this, ih]
  simp only [losDtmO, hall, List.map_cons, List.map_nil, hp, hq, Option.map_none, cubeOfIndexO, hs, exchangeSort]
  rfl

/-- C62, C64. `RPCoptim.direct_loc_dtm` (C++) for a DTM in EPSG 4326: one result per pixel, in order, which is the result of the
pixel alone and NaN if the pixel is; a point it returns is on the terrain to a tenth of a millimetre and has valid
coordinates; and if the line of sight starts on no face plane of the box of the DTM and does not meet one at an integer row or
column that it is decreasing along (finding 4), the result is one of `DtmAnswer`, or uninitialised memory instead of
(0, 0, 0).
Missing: lines excluded here and missed lines (`C62_missed_line_is_origin`). -/
theorem C62_optim_direct_loc_dtm_partial (N : ℕ) (r : Rpc K) (q : RatCoefs K) (hq : r.inverse = some q) (d : Dtm K) (hr : 2 ≤ d.nbRows)
    (hc : 2 ≤ d.nbCols) (hdet : d.transform.a * d.transform.e - d.transform.b * d.transform.d ≠ 0) (row col : List (Option K))
    (hcol : col.length = row.length) :
    ∃ out, rpcOptimDirectDtm N r d row col = .ok out ∧ out.length = row.length ∧
      ∀ (i : ℕ) (x y : Option K), row[i]? = some x → col[i]? = some y →
        ∃ p, out[i]? = some p ∧ rpcOptimDirectDtm N r d [x] [y] = .ok [p] ∧ (x = none ∨ y = none → p = .nan) ∧
        (∀ v, p = .point v → |v.x| ≤ 180 ∧ |v.y| ≤ 90 ∧
          |d.interpolate (terToIndexPy d.transform v).x (terToIndexPy d.transform v).y - v.z| ≤ 1 / 10000) ∧
        ∃ top bot, losExtremaCpp r x y (some (d.altMin - 1)) (some (d.altMax + 1)) false = .ok [top, bot] ∧
          ∀ A B, vertex top = some A → vertex bot = some B → A.z = d.altMax + 1 ∧ B.z = d.altMin - 1 ∧
            (FirstOffPlanes d [terToIndexPy d.transform A, terToIndexPy d.transform B] →
            (∀ t, 0 ≤ t → t ≤ 1 → InBox d.nbRows d.nbCols d.altMin d.altMax (terToIndexPy d.transform (Spec.lerp A B t)) →
              (∃ k, OnFacePlane d.nbRows d.nbCols d.altMin d.altMax k (terToIndexPy d.transform (Spec.lerp A B t))) →
              ((terToIndexPy d.transform B).x < (terToIndexPy d.transform A).x →
                ∀ m : ℤ, (terToIndexPy d.transform (Spec.lerp A B t)).x ≠ m) ∧
              ((terToIndexPy d.transform B).y < (terToIndexPy d.transform A).y →
                ∀ m : ℤ, (terToIndexPy d.transform (Spec.lerp A B t)).y ≠ m)) →
            p = .uninitialised ∨ DtmAnswer d True A B p) := by
  have hpt : ∀ t : Option K × Option K, ∃ p, rpcOptimDtmPoint N r d t = .ok p := by
    intro t
    obtain ⟨top, bot, h, -⟩ := losExtremaCpp_z r q hq t.1 t.2 (d.altMin - 1) (d.altMax + 1)
    exact ⟨checkDtmPoint (losDtmO .cpp d N [top, bot]), by simp only [rpcOptimDtmPoint, h]⟩
  choose g hg using hpt
  refine ⟨(row.zip col).map g, ?_, ?_, ?_⟩
  · simp only [rpcOptimDirectDtm, if_pos hcol.symm]
    exact mapExcept_ok _ g _ fun a _ => hg a
  · simp [hcol]
  · intro i x y hx hy
    refine ⟨g (x, y), ?_, ?_, ?_⟩
    · rw [List.getElem?_map, List.getElem?_zip_eq_some (z := (x, y)) |>.2 ⟨hx, hy⟩]; rfl
    · simp only [rpcOptimDirectDtm, List.length_cons, List.length_nil, if_true, List.zip_cons_cons, List.zip_nil_right]
      exact mapExcept_ok _ g _ fun a _ => hg a
    obtain ⟨top, bot, h, hA, hB, hnan⟩ := losExtremaCpp_z r q hq x y (d.altMin - 1) (d.altMax + 1)
    have hgp : g (x, y) = checkDtmPoint (losDtmO .cpp d N [top, bot]) := by
      have := hg (x, y)
      simp only [rpcOptimDtmPoint, h, Except.ok.injEq] at this
      exact this.symm
    refine ⟨?_, ?_, top, bot, h, ?_⟩
    · intro hn
      rw [hgp, losDtmO_cpp_nan d N top bot (hnan hn).1 (hnan hn).2]
      rfl
    · intro v hv
      rw [hgp] at hv
      have hlos : losDtmO .cpp d N [top, bot] = .point v ∧ |v.x| ≤ 180 ∧ |v.y| ≤ 90 := by
        cases hl : losDtmO .cpp d N [top, bot] with
        | point w =>
          rw [hl] at hv
          simp only [checkDtmPoint] at hv
          split_ifs at hv with hr
          injection hv with hv
          subst hv
          push Not at hr
          exact ⟨rfl, hr⟩
        | nan => rw [hl] at hv; cases hv
        | failure => rw [hl] at hv; cases hv
        | uninitialised => rw [hl] at hv; cases hv
      refine ⟨hlos.2.1, hlos.2.2, ?_⟩
      have hlos := hlos.1
      unfold losDtmO at hlos
      split at hlos
      · rename_i vs _
        unfold losDtm at hlos
        split at hlos
        · cases hlos
        · cases hlos
        · split at hlos
          · rename_i c li _ _ p hp
            injection hlos with hlos
            rw [← hlos, C02_py_ter_to_index_index_to_ter d.transform hdet]
            exact C14_altitude_within_tolerance .cpp d N li c.p c.h p hp
          · cases hlos
          · cases hlos
      · split at hlos <;> cases hlos
    · intro A B hvA hvB
      have eA := hA A hvA
      have eB := hB B hvB
      refine ⟨eA, eB, fun hoff hent => ?_⟩
      have hall : ∀ impl, losDtmO impl d N [top, bot] = losDtm impl d N [A, B] := by
        intro impl
        simp only [losDtmO, allVertices_pair, hvA, hvB]
      rcases losDtm_cpp_pair d N A B (by linarith) hoff hent with he | ⟨he, -⟩
      · right
        have := edgePoint_answer N 4326 d hr hc hdet top bot A B hvA hvB (by linarith) (by linarith)
        simp only [edgePoint, if_true] at this
        rw [hgp, hall, he, ← hall]
        exact this
      · left
        rw [hgp, hall, he]
        rfl

end Shareloc
