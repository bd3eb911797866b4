import Verif.Props.Enclosed
import Verif.Props.GridInverse
import Verif.Props.DirectDtmExamples

/-!
# C65: direct location on a DTM by a grid
-/

namespace Shareloc
open Spec
set_option linter.unusedSectionVars false

variable {K : Type*} [Field K] [LinearOrder K] [IsStrictOrderedRing K] [FloorRing K]

/-- Specification: the points seen by the pixel (row, col) at the given altitudes. -/
def sightLine (g : MultiGrid K) (row col : K) (alts : List K) : List (V3 K) :=
  alts.map fun a => ⟨(gridLonLat g row col a).1, (gridLonLat g row col a).2, a⟩

/-- Specification: the altitudes of the layers of the grid, in the order of the layers. -/
def layers (g : MultiGrid K) : List K := (List.range g.nbalt).map g.alts

theorem gridLosList_eq (g : MultiGrid K) (pts : List (K × K)) (alts : List K) (n : ℕ) (p : K × K) (hp : pts[n]? = some p) :
    gridLosList g pts alts n = sightLine g p.1 p.2 alts := by
  unfold gridLosList sightLine
  apply List.ext_getElem?
  intro k
  rw [List.getElem?_map, List.getElem?_map]
  by_cases hk : k < alts.length
  · rw [List.getElem?_range hk, List.getElem?_eq_getElem hk]
    simp only [Option.map_some]
    rw [C61_compute_los g pts (some alts) n k p alts[k] hp (by simp [hk])]
  · rw [List.getElem?_eq_none (by simpa using hk), List.getElem?_eq_none (by simpa using hk)]
    rfl

/-- The value returned by the grid for a line of sight. -/
def gridDtmValue (impl : Impl) (N : ℕ) (g : MultiGrid K) (d : Dtm K) (los : List (V3 K)) : DtmPoint K :=
  if g.geographic then checkDtmPoint (losDtm impl d N los) else losDtm impl d N los

/-- C65. `Grid.direct_loc_dtm`: one result per pixel, in order; NaN for a pixel with a NaN coordinate; for the others the
intersection of the terrain with the points seen at the altitudes of the layers and of the bounds of the DTM, filtered when the
grid is geographic, whatever the other pixels are. -/
theorem C65_pointwise (impl : Impl) (N : ℕ) (g : MultiGrid K) (d : Dtm K) (minDtm maxDtm : K) (row col : List (Option K))
    (hcol : col.length = row.length) :
    ∃ out, gridDirectDtm impl N g d minDtm maxDtm row col = .ok out ∧ out.length = row.length ∧
      ∀ (i : ℕ) r c, row[i]? = some r → col[i]? = some c →
        (r = none ∨ c = none → out[i]? = some .nan) ∧
        ∀ r' c', r = some r' → c = some c' →
          out[i]? = some (gridDtmValue impl N g d (sightLine g r' c' (dtmAlts (layers g) minDtm maxDtm))) := by
  set alts := dtmAlts (layers g) minDtm maxDtm with halts
  set mask := (row.zip col).map validPixel with hmask
  have hres : ((List.range (mask.filterMap id).length).map fun n => losDtm impl d N (gridLosList g (mask.filterMap id) alts n)) =
      (mask.filterMap id).map fun p => losDtm impl d N (sightLine g p.1 p.2 alts) := by
    apply List.ext_getElem?
    intro n
    rw [List.getElem?_map, List.getElem?_map]
    by_cases hn : n < (mask.filterMap id).length
    · rw [List.getElem?_range hn, List.getElem?_eq_getElem hn]
      simp only [Option.map_some]
      rw [gridLosList_eq g _ alts n _ (List.getElem?_eq_getElem hn)]
    · rw [List.getElem?_eq_none (by simpa using hn), List.getElem?_eq_none (by simpa using hn)]
      rfl
  have hout : gridDirectDtm impl N g d minDtm maxDtm row col = .ok (mask.map fun m => m.elim .nan fun p =>
      gridDtmValue impl N g d (sightLine g p.1 p.2 alts)) := by
    unfold gridDirectDtm
    rw [if_pos hcol.symm]
    simp only [← hmask]
    rw [show dtmAlts ((List.range g.nbalt).map g.alts) minDtm maxDtm = alts from rfl, hres, scatter_filterMap]
    unfold gridDtmValue
    cases g.geographic with
    | false => simp
    | true =>
      simp only [if_true, List.map_map]
      congr 2
      funext m
      cases m <;> rfl
  refine ⟨_, hout, by simp [hmask, hcol], ?_⟩
  intro i r c hr hc
  have hz : (row.zip col)[i]? = some (r, c) := List.getElem?_zip_eq_some.2 ⟨hr, hc⟩
  have hm : mask[i]? = some (validPixel (r, c)) := by rw [hmask, List.getElem?_map, hz]; rfl
  rw [List.getElem?_map, hm]
  constructor
  · rintro (rfl | rfl)
    · rfl
    · cases r <;> rfl
  · rintro r' c' rfl rfl
    rfl

/-- C65. Different numbers of rows and columns are refused. -/
theorem C65_bad_sizes (impl : Impl) (N : ℕ) (g : MultiGrid K) (d : Dtm K) (minDtm maxDtm : K) (row col : List (Option K))
    (h : row.length ≠ col.length) : gridDirectDtm impl N g d minDtm maxDtm row col = .error .badSizes := by
  unfold gridDirectDtm
  rw [if_neg h]

theorem losDtm_py_terrain (d : Dtm K) (hdet : d.transform.a * d.transform.e - d.transform.b * d.transform.d ≠ 0) (N : ℕ)
    (los : List (V3 K)) :
    losDtm .py d N los = .nan ∨ losDtm .py d N los = .failure ∨ losDtm .py d N los = .point ⟨0, 0, 0⟩ ∨
    ∃ P, losDtm .py d N los = .point P ∧
      |d.interpolate (terToIndexPy d.transform P).x (terToIndexPy d.transform P).y - P.z| ≤ 1 / 10000 := by
  unfold losDtm intersectDtmCube
  simp only [show tersToIndexsPy d.transform los = los.map (terToIndexPy d.transform) from rfl]
  cases hcube : cubeOfIndex .py d (los.map (terToIndexPy d.transform)) with
  | error e => right; left; rfl
  | ok o =>
    cases o with
    | none => left; rfl
    | some c =>
      simp only
      cases hx : intersectionIdx .py d N (los.map (terToIndexPy d.transform)) c.p c.h with
      | notFound => right; right; left; rfl
      | nonFinite => right; left; rfl
      | falsiFuel => right; left; rfl
      | marchFuel => right; left; rfl
      | found p =>
        right; right; right
        refine ⟨_, rfl, ?_⟩
        rw [C02_py_ter_to_index_index_to_ter d.transform hdet]
        exact C14_altitude_within_tolerance .py d N _ _ _ p hx

/-- C65. Whatever the line of sight, a location returned is on the terrain to a tenth of a millimetre and, when the grid is
geographic, has a valid longitude and latitude (or is the (0, 0, 0) of the lines that leave the box of the DTM without meeting
the terrain). -/
theorem C65_on_the_terrain (N : ℕ) (g : MultiGrid K) (d : Dtm K)
    (hdet : d.transform.a * d.transform.e - d.transform.b * d.transform.d ≠ 0) (minDtm maxDtm : K) (row col : List (Option K))
    (out : List (DtmPoint K)) (h : gridDirectDtm .py N g d minDtm maxDtm row col = .ok out) :
    ∀ p ∈ out, p = .nan ∨ p = .failure ∨ p = .point ⟨0, 0, 0⟩ ∨
      ∃ P, p = .point P ∧
        |d.interpolate (terToIndexPy d.transform P).x (terToIndexPy d.transform P).y - P.z| ≤ 1 / 10000 ∧
        (g.geographic = true → |P.x| ≤ 180 ∧ |P.y| ≤ 90) := by
  intro p hp
  by_cases hs : row.length = col.length
  swap
  · rw [C65_bad_sizes .py N g d minDtm maxDtm row col hs] at h; cases h
  obtain ⟨out', h', hl, hget⟩ := C65_pointwise .py N g d minDtm maxDtm row col hs.symm
  rw [h] at h'
  injection h' with h'
  subst h'
  obtain ⟨i, hi, rfl⟩ := List.getElem_of_mem hp
  have hir : i < row.length := by omega
  have hic : i < col.length := by omega
  obtain ⟨g1, g2⟩ := hget i row[i] col[i] (List.getElem?_eq_getElem hir) (List.getElem?_eq_getElem hic)
  rw [List.getElem?_eq_getElem hi] at g1 g2
  cases hr : row[i] with
  | none => left; have := g1 (.inl hr); injection this
  | some r =>
    cases hc : col[i] with
    | none => left; have := g1 (.inr hc); injection this
    | some c =>
      have := g2 r c hr hc
      injection this with this
      rw [this]
      unfold gridDtmValue
      rcases losDtm_py_terrain d hdet N (sightLine g r c (dtmAlts (layers g) minDtm maxDtm)) with e | e | e | ⟨P, e, htol⟩
      · rw [e]; left; split_ifs <;> rfl
      · rw [e]; right; left; split_ifs <;> rfl
      · rw [e]; right; right; left
        split_ifs
        · simp [checkDtmPoint]
        · rfl
      · rw [e]
        by_cases hg : g.geographic = true
        · rw [if_pos hg]
          simp only [checkDtmPoint]
          by_cases hv : |P.x| > 180 ∨ |P.y| > 90
          · rw [if_pos hv]; left; rfl
          · rw [if_neg hv]
            push Not at hv
            exact .inr (.inr (.inr ⟨P, rfl, htol, fun _ => hv⟩))
        · rw [if_neg hg]
          exact .inr (.inr (.inr ⟨P, rfl, htol, fun h => absurd h hg⟩))

theorem layers_decreasing (g : MultiGrid K) (hdec : Decreasing g.nbalt g.alts) : (layers g).Pairwise (· > ·) := by
  rw [layers, List.pairwise_map, List.pairwise_iff_getElem]
  intro i j hi hj hij
  simp only [List.getElem_range]
  exact hdec i j hij (by simpa using hj)

theorem dtmAlts_mem (alts : List K) (lo hi a : K) (h : a ∈ dtmAlts alts lo hi) : a ∈ alts ∨ a = lo ∨ a = hi := by
  unfold dtmAlts at h
  simp only at h
  split_ifs at h <;> (try simp at h) <;> tauto

/-- In a list whose first element satisfies `p` and whose last does not, there is a last place where it does followed by one where
it does not. -/
theorem exists_switch {α : Type*} (p : α → Prop) (l : List α) (a b : α) (ha : l.head? = some a) (hb : l.getLast? = some b)
    (pa : p a) (pb : ¬ p b) : ∃ (k : ℕ) (x y : α), l[k]? = some x ∧ l[k + 1]? = some y ∧ p x ∧ ¬ p y := by
  induction l generalizing a with
  | nil => simp at ha
  | cons c l ih =>
    simp only [List.head?_cons, Option.some.injEq] at ha
    subst ha
    cases l with
    | nil =>
      simp only [List.getLast?_singleton, Option.some.injEq] at hb
      subst hb
      exact absurd pa pb
    | cons e l =>
      by_cases pe : p e
      · obtain ⟨k, x, y, h1, h2, h3, h4⟩ := ih e rfl (by rw [← hb, List.getLast?_cons_cons]) pe
        exact ⟨k + 1, x, y, by simpa using h1, by simpa using h2, h3, h4⟩
      · exact ⟨0, c, e, rfl, rfl, pa, pe⟩

/-- The layers of a grid none of which has an altitude in the range of the DTM: two consecutive vertices of the line of sight
enclose it. -/
theorem sightLine_encloses (g : MultiGrid K) (hn : 1 ≤ g.nbalt) (hdec : Decreasing g.nbalt g.alts) (d : Dtm K)
    (hr : 2 ≤ d.nbRows) (hc : 2 ≤ d.nbCols) (minDtm maxDtm : K) (hlo : minDtm ≤ d.altMin - 1) (hhi : d.altMax + 1 ≤ maxDtm)
    (hgap : ∀ k < g.nbalt, d.altMax < g.alts k ∨ g.alts k ≤ d.altMin - 1 / 10000) :
    ∃ (k : ℕ) (u v : K), u ∈ dtmAlts (layers g) minDtm maxDtm ∧ v ∈ dtmAlts (layers g) minDtm maxDtm ∧
      d.altMax < u ∧ v ≤ d.altMin - 1 / 10000 ∧
      (∀ w ∈ dtmAlts (layers g) minDtm maxDtm, w ≤ v ∨ u ≤ w) ∧
      ∀ r c, Encloses d (sightLine g r c (dtmAlts (layers g) minDtm maxDtm)) k
        ⟨(gridLonLat g r c u).1, (gridLonLat g r c u).2, u⟩ ⟨(gridLonLat g r c v).1, (gridLonLat g r c v).2, v⟩ := by
  have hmm := altMin_le_altMax d hr hc
  have hne : layers g ≠ [] := by
    intro h
    have := congrArg List.length h
    simp [layers] at this
    omega
  obtain ⟨hpw, ⟨hi, lo, h1, h2, h3, h4⟩, -⟩ := C61_dtm_altitudes (layers g) hne (layers_decreasing g hdec) minDtm maxDtm (by linarith)
  have hmem : ∀ a ∈ dtmAlts (layers g) minDtm maxDtm, d.altMax < a ∨ a ≤ d.altMin - 1 / 10000 := by
    intro a ha
    rcases dtmAlts_mem _ _ _ _ ha with h | rfl | rfl
    · simp only [layers, List.mem_map, List.mem_range] at h
      obtain ⟨k, hk, rfl⟩ := h
      exact hgap k hk
    · right; linarith
    · left; linarith
  obtain ⟨k, u, v, e1, e2, hu, hv⟩ := exists_switch (fun a => d.altMax < a) _ hi lo h1 h2 (by linarith) (by push Not; linarith)
  have mu := List.mem_of_getElem? e1
  have mv := List.mem_of_getElem? e2
  have hv' := (hmem v mv).resolve_left hv
  refine ⟨k, u, v, mu, mv, hu, hv', ?_, ?_⟩
  · intro w hw
    obtain ⟨i, hi, rfl⟩ := List.getElem_of_mem hw
    obtain ⟨hk, rfl⟩ := List.getElem?_eq_some_iff.1 e1
    obtain ⟨hk', rfl⟩ := List.getElem?_eq_some_iff.1 e2
    rcases lt_trichotomy i k with h | rfl | h
    · right; exact (List.pairwise_iff_getElem.1 hpw i k hi hk h).le
    · right; exact le_rfl
    · left
      rcases eq_or_lt_of_le (Nat.succ_le_of_lt h) with h | h
      · subst h; exact le_rfl
      · exact (List.pairwise_iff_getElem.1 hpw (k + 1) i hk' hi h).le
  · intro r c
    refine ⟨?_, ?_, ?_, hu, by show v < d.altMin; linarith⟩
    · rw [sightLine, List.pairwise_map]; exact hpw
    · rw [sightLine, List.getElem?_map, e1]; rfl
    · rw [sightLine, List.getElem?_map, e2]; rfl

/-- C65. When no layer of the grid is in the range of altitudes of the DTM, there are two consecutive altitudes `u` and `v` among
those of the layers and the bounds of the DTM, above and below the DTM, such that the result of each pixel is NaN, or a point
of the segment between the points seen by the pixel at `u` and `v`, in the footprint of the DTM and on the terrain to a tenth of a
millimetre (or the (0, 0, 0) and the exceptions of `DtmAnswer`).
Missing: a layer inside this range (`C66_layer_inside_counterexample`). -/
theorem C65_between_layers_partial (N : ℕ) (g : MultiGrid K) (hn : 1 ≤ g.nbalt) (hdec : Decreasing g.nbalt g.alts) (d : Dtm K)
    (hr : 2 ≤ d.nbRows) (hc : 2 ≤ d.nbCols)
    (hdet : d.transform.a * d.transform.e - d.transform.b * d.transform.d ≠ 0)
    (hgap : ∀ k < g.nbalt, d.altMax < g.alts k ∨ g.alts k ≤ d.altMin - 1 / 10000) :
    ∃ u v, (u = d.altMax + 1 ∨ u ∈ layers g) ∧ (v = d.altMin - 1 ∨ v ∈ layers g) ∧ d.altMax < u ∧ v ≤ d.altMin - 1 / 10000 ∧
      (∀ w ∈ layers g, w ≤ v ∨ u ≤ w) ∧
      ∀ (row col : List (Option K)) (out : List (DtmPoint K)),
        gridDirectDtm .py N g d (d.altMin - 1) (d.altMax + 1) row col = .ok out →
        ∀ (i : ℕ) r c, row[i]? = some (some r) → col[i]? = some (some c) →
          ∃ p, out[i]? = some p ∧ DtmAnswer d (g.geographic = true)
            ⟨(gridLonLat g r c u).1, (gridLonLat g r c u).2, u⟩ ⟨(gridLonLat g r c v).1, (gridLonLat g r c v).2, v⟩ p := by
  have hmm := altMin_le_altMax d hr hc
  obtain ⟨k, u, v, mu, mv, hu, hv, hcons, henc⟩ := sightLine_encloses g hn hdec d hr hc (d.altMin - 1) (d.altMax + 1) le_rfl le_rfl hgap
  have hne : layers g ≠ [] := by
    intro h
    have := congrArg List.length h
    simp [layers] at this
    omega
  have hsub := (C61_dtm_altitudes (layers g) hne (layers_decreasing g hdec) (d.altMin - 1) (d.altMax + 1) (by linarith)).2.2
  refine ⟨u, v, ?_, ?_, hu, hv, fun w hw => hcons w (hsub w hw), ?_⟩
  · rcases dtmAlts_mem _ _ _ _ mu with h | h | h
    · exact .inr h
    · exfalso; linarith
    · exact .inl h
  · rcases dtmAlts_mem _ _ _ _ mv with h | h | h
    · exact .inr h
    · exact .inl h
    · exfalso; linarith
  · intro row col out h i r c hrow hcol
    have hs : row.length = col.length := by
      by_contra hne
      rw [C65_bad_sizes .py N g d _ _ row col hne] at h; cases h
    obtain ⟨out', h', -, hget⟩ := C65_pointwise .py N g d (d.altMin - 1) (d.altMax + 1) row col hs.symm
    rw [h] at h'
    injection h' with h'
    subst h'
    refine ⟨_, (hget i _ _ hrow hcol).2 r c rfl rfl, ?_⟩
    unfold gridDtmValue
    rcases C14_enclosing_segment d hr hc hdet N _ k _ _ (henc r c) hv with e | e | e | ⟨t, t0, t1, e, hf, htol⟩
    · rw [e]; left; split_ifs <;> rfl
    · rw [e]; right; left; split_ifs <;> rfl
    · rw [e]; right; right; left
      split_ifs
      · simp [checkDtmPoint]
      · rfl
    · rw [e]
      by_cases hg : g.geographic = true
      · rw [if_pos hg]
        simp only [checkDtmPoint]
        split_ifs with hv
        · left; rfl
        · push Not at hv
          exact .inr (.inr (.inr ⟨t, t0, t1, rfl, hf, htol, fun _ => hv⟩))
      · rw [if_neg hg]
        exact .inr (.inr (.inr ⟨t, t0, t1, rfl, hf, htol, fun h => absurd h hg⟩))

/-- C65. When no layer of the grid is in the range of altitudes of the DTM, a pixel whose line of sight is within the footprint of
the DTM at its two extreme altitudes, and above the terrain at the highest, is located, on the terrain to a tenth of a
millimetre.
Missing: a layer inside this range. -/
theorem C65_located_partial (g : MultiGrid K) (hn : 1 ≤ g.nbalt) (hdec : Decreasing g.nbalt g.alts) (d : Dtm K)
    (hr : 2 ≤ d.nbRows) (hc : 2 ≤ d.nbCols)
    (hdet : d.transform.a * d.transform.e - d.transform.b * d.transform.d ≠ 0)
    (hgap : ∀ k < g.nbalt, d.altMax < g.alts k ∨ g.alts k ≤ d.altMin - 1 / 10000) :
    ∃ u v, d.altMax < u ∧ v ≤ d.altMin - 1 / 10000 ∧ (∀ w ∈ layers g, w ≤ v ∨ u ≤ w) ∧
      ∀ (row col : List (Option K)) (_ : col.length = row.length) (i : ℕ) (r c : K) (A B : V3 K) (top bot : K),
        row[i]? = some (some r) → col[i]? = some (some c) →
        A = ⟨(gridLonLat g r c u).1, (gridLonLat g r c u).2, u⟩ → B = ⟨(gridLonLat g r c v).1, (gridLonLat g r c v).2, v⟩ →
        (g.geographic = true → BothValid A B) → (Spec.lerp A B top).z = d.altMax → (Spec.lerp A B bot).z = d.altMin →
        InFootprint d.nbRows d.nbCols (terToIndexPy d.transform (Spec.lerp A B top)) →
        InFootprint d.nbRows d.nbCols (terToIndexPy d.transform (Spec.lerp A B bot)) →
        d.interpolate (terToIndexPy d.transform (Spec.lerp A B top)).x (terToIndexPy d.transform (Spec.lerp A B top)).y < d.altMax →
        ((terToIndexPy d.transform A).x = (terToIndexPy d.transform B).x → (terToIndexPy d.transform A).x < (d.nbRows : K) - 1) →
        ((terToIndexPy d.transform A).y = (terToIndexPy d.transform B).y → (terToIndexPy d.transform A).y < (d.nbCols : K) - 1) →
        ∃ N0, ∀ N, N0 ≤ N → ∃ out t, gridDirectDtm .py N g d (d.altMin - 1) (d.altMax + 1) row col = .ok out ∧
          top ≤ t ∧ t ≤ 1 ∧ out[i]? = some (.point (Spec.lerp A B t)) ∧
          InFootprint d.nbRows d.nbCols (terToIndexPy d.transform (Spec.lerp A B t)) ∧
          |d.interpolate (terToIndexPy d.transform (Spec.lerp A B t)).x (terToIndexPy d.transform (Spec.lerp A B t)).y
            - (Spec.lerp A B t).z| ≤ 1 / 10000 := by
  have hmm := altMin_le_altMax d hr hc
  obtain ⟨k, u, v, mu, mv, hu, hv, hcons, henc⟩ := sightLine_encloses g hn hdec d hr hc (d.altMin - 1) (d.altMax + 1) le_rfl le_rfl hgap
  have hne : layers g ≠ [] := by
    intro h
    have := congrArg List.length h
    simp [layers] at this
    omega
  have hsub := (C61_dtm_altitudes (layers g) hne (layers_decreasing g hdec) (d.altMin - 1) (d.altMax + 1) (by linarith)).2.2
  refine ⟨u, v, hu, hv, fun w hw => hcons w (hsub w hw), ?_⟩
  intro row col hs i r c A B top bot hrow hcol hA hB hval htop hbot ftop fbot hup hx hy
  have hAz : A.z = u := by rw [hA]
  have hBz : B.z = v := by rw [hB]
  have he : Encloses d (sightLine g r c (dtmAlts (layers g) (d.altMin - 1) (d.altMax + 1))) k A B := by rw [hA, hB]; exact henc r c
  have hd : 0 < A.z - B.z := by have := he.lt; linarith
  have t0 : 0 ≤ top := by
    by_contra hcon
    have h1 : A.z + top * (B.z - A.z) = d.altMax := htop
    have := mul_pos (neg_pos.2 (not_le.mp hcon)) hd
    linarith
  have t1 : bot ≤ 1 := by
    by_contra hcon
    have h1 : A.z + bot * (B.z - A.z) = d.altMin := hbot
    have := mul_pos (sub_pos.2 (not_le.mp hcon)) hd
    linarith
  obtain ⟨N0, h⟩ := C16_downward_line_is_intersected d hr hc hdet A B top bot (by linarith) (by linarith) t0 t1 htop hbot ftop fbot
    hup hx hy
  refine ⟨N0, fun N hN => ?_⟩
  obtain ⟨t, ht0, ht1, hp, hf, htol⟩ := h N hN
  obtain ⟨out, ho, -, hget⟩ := C65_pointwise .py N g d (d.altMin - 1) (d.altMax + 1) row col hs
  refine ⟨out, t, ho, ht0, ht1, ?_, hf, htol⟩
  rw [(hget i _ _ hrow hcol).2 r c rfl rfl]
  unfold gridDtmValue
  rw [C16_enclosing_segment d hr hc N _ k A B he top bot t0 t1 htop hbot ftop fbot, hp]
  split_ifs with hg
  · rw [checkDtmPoint_lerp A B t (t0.trans ht0) ht1 (hval hg)]
  · rfl

/-! ### Agreement with the location at a given altitude -/

/-- Between two altitudes separated by no layer, the position seen by a pixel is affine in the altitude. -/
theorem gridLonLat_between (g : MultiGrid K) (hn : 2 ≤ g.nbalt) (hdec : Decreasing g.nbalt g.alts) (r c u v : K) (hvu : v < u)
    (hcons : ∀ w ∈ layers g, w ≤ v ∨ u ≤ w) (t : K) (t0 : 0 ≤ t) (t1 : t ≤ 1) :
    gridLonLat g r c (u + t * (v - u)) =
      ((gridLonLat g r c u).1 + t * ((gridLonLat g r c v).1 - (gridLonLat g r c u).1),
       (gridLonLat g r c u).2 + t * ((gridLonLat g r c v).2 - (gridLonLat g r c u).2)) := by
  set m := (u + v) / 2 with hm
  have hmv : v < m := by rw [hm]; linarith
  have hmu : m < u := by rw [hm]; linarith
  obtain ⟨h1, h2, h3⟩ := altUp_cond g m hn hdec
  set k := altUp g.alts g.nbalt m with hk
  have hlayer : ∀ i, i < g.nbalt → g.alts i ∈ layers g := by
    intro i hi
    simp only [layers, List.mem_map, List.mem_range]
    exact ⟨i, hi, rfl⟩
  have hhi : ∀ a, a ≤ u → k = 0 ∨ a ≤ g.alts k := by
    intro a ha
    rcases h1 with h | h
    · exact .inl h
    · right
      rcases hcons _ (hlayer k (by omega)) with h' | h'
      · linarith
      · linarith
  have hlo : ∀ a, v ≤ a → k + 2 = g.nbalt ∨ g.alts (k + 1) ≤ a := by
    intro a ha
    rcases h2 with h | h
    · exact .inl h
    · right
      rcases hcons _ (hlayer (k + 1) h3) with h' | h'
      · linarith
      · linarith
  have haff : ∀ a, v ≤ a → a ≤ u → gridLonLat g r c a =
      ((gridLonLat g r c (g.alts (k + 1))).1 + (a - g.alts (k + 1)) / (g.alts k - g.alts (k + 1)) *
        ((gridLonLat g r c (g.alts k)).1 - (gridLonLat g r c (g.alts (k + 1))).1),
       (gridLonLat g r c (g.alts (k + 1))).2 + (a - g.alts (k + 1)) / (g.alts k - g.alts (k + 1)) *
        ((gridLonLat g r c (g.alts k)).2 - (gridLonLat g r c (g.alts (k + 1))).2)) := by
    intro a hav hau
    have hd : 0 < g.alts k - g.alts (k + 1) := sub_pos.2 (hdec k (k + 1) (by omega) h3)
    obtain ⟨lonU, latU, lonD, latD, h, e1, e2, e3, e4⟩ := C31_affine_in_altitude { g with geographic := false } hn hdec rfl r c a k h3
      (hhi a hau) (hlo a hav)
    rw [gridPoint_eq_gridLonLat _ _ _ _ (by intro h; cases h)] at e1 e2 e4
    simp only [V3.mk.injEq, Option.some.injEq] at e1 e2 e4
    have hh : h = (a - g.alts (k + 1)) / (g.alts k - g.alts (k + 1)) := by
      rw [eq_div_iff hd.ne']
      linear_combination e3
    have f : ∀ x, gridLonLat { g with geographic := false } r c x = gridLonLat g r c x := fun _ => rfl
    rw [f] at e1 e2 e4
    apply Prod.ext
    · simp only
      rw [e4.1, e1.1, e2.1, hh]; ring
    · simp only
      rw [e4.2.1, e1.2.1, e2.2.1, hh]; ring
  have hb : v ≤ u + t * (v - u) ∧ u + t * (v - u) ≤ u := by constructor <;> nlinarith
  rw [haff _ hb.1 hb.2, haff u hvu.le le_rfl, haff v le_rfl hvu.le]
  have hd : g.alts k - g.alts (k + 1) ≠ 0 := (sub_pos.2 (hdec k (k + 1) (by omega) h3)).ne'
  apply Prod.ext
  · simp only
    field_simp
    ring
  · simp only
    field_simp
    ring

/-- C66. When no layer of the grid is in the range of altitudes of the DTM, the two direct locations agree exactly: a location
`(lon, lat, alt)` returned by `direct_loc_dtm` (other than the (0, 0, 0) of a line that misses the terrain) is the one that
`direct_loc_h` gives for the same pixel at the altitude `alt`.
Missing: a layer inside this range (`C66_layer_inside_counterexample`). -/
theorem C66_grid_dtm_agrees_with_altitude_partial (N : ℕ) (g : MultiGrid K) (hn : 2 ≤ g.nbalt) (hdec : Decreasing g.nbalt g.alts)
    (d : Dtm K) (hr : 2 ≤ d.nbRows) (hc : 2 ≤ d.nbCols)
    (hdet : d.transform.a * d.transform.e - d.transform.b * d.transform.d ≠ 0)
    (hgap : ∀ k < g.nbalt, d.altMax < g.alts k ∨ g.alts k ≤ d.altMin - 1 / 10000) (row col : List (Option K))
    (out : List (DtmPoint K)) (h : gridDirectDtm .py N g d (d.altMin - 1) (d.altMax + 1) row col = .ok out)
    (i : ℕ) (r c : K) (hrow : row[i]? = some (some r)) (hcol : col[i]? = some (some c)) (P : V3 K)
    (hP : out[i]? = some (.point P)) (h0 : P ≠ ⟨0, 0, 0⟩) :
    gridPoint g (some r) (some c) (some P.z) = ⟨some P.x, some P.y, some P.z⟩ := by
  obtain ⟨u, v, -, -, hu, hv, hcons, hans⟩ := C65_between_layers_partial N g (by omega) hdec d hr hc hdet hgap
  have hmm := altMin_le_altMax d hr hc
  obtain ⟨p, hp, ha⟩ := hans row col out h i r c hrow hcol
  rw [hP] at hp
  injection hp with hp
  subst hp
  rcases ha with e | e | e | ⟨t, t0, t1, e, -, -, hval⟩
  · cases e
  · cases e
  · injection e with e; exact absurd e h0
  · injection e with e
    have haff := gridLonLat_between g hn hdec r c u v (by linarith) hcons t t0 t1
    have hz : P.z = u + t * (v - u) := by rw [e]; rfl
    have hx : P.x = (gridLonLat g r c P.z).1 := by rw [hz, haff, e]; rfl
    have hy : P.y = (gridLonLat g r c P.z).2 := by rw [hz, haff, e]; rfl
    rw [gridPoint_eq_gridLonLat, hx, hy]
    intro hg
    rw [← hx, ← hy, e]
    exact hval hg

/-- C61. `Grid.los_extrema`: the locations of the pixel at the two altitudes, highest first. -/
theorem C61_los_extrema (g : MultiGrid K) (row col altMin altMax : Option K) :
    gridLosExtrema g row col altMin altMax = .ok (gridPoint g row col altMax, gridPoint g row col altMin) := rfl

/-! ### Examples -/

/-- A grid of three layers, two above and one below the terrain `slopeDtm`. -/
def slopeGrid : MultiGrid ℚ where
  nbalt := 3
  nbrow := 2
  nbcol := 3
  alts := fun k => if k = 0 then 500 else if k = 1 then 200 else 10
  lon := fun k i j => 9 + i + j / 2 + k / 10
  lat := fun k i j => 20 - i / 2 + j / 4 + k / 20
  row0 := 0
  col0 := 0
  steprow := 100
  stepcol := 200
  geographic := true

/-- Two pixels are located on the slope; one is NaN and one sees a point out of the DTM. -/
example : gridDirectDtm .py 50 slopeGrid slopeDtm (slopeDtm.altMin - 1) (slopeDtm.altMax + 1)
    [some 50, none, some 20, some (-10000)] [some 100, some 1, some 150, some 1] =
    .ok [.point ⟨3748 / 379, 7559 / 379, 47585 / 379⟩, .nan, .point ⟨36821 / 3790, 30559 / 1516, 93555 / 758⟩, .nan] := by
  decide +kernel

/-- The hypotheses of `C65_between_layers_partial`, `C65_located_partial` and `C66_grid_dtm_agrees_with_altitude_partial` hold; the altitudes enclosing the
terrain are 200 and 10. -/
example : 2 ≤ slopeGrid.nbalt ∧ (∀ i < 3, ∀ j < 3, i < j → slopeGrid.alts j < slopeGrid.alts i) ∧
    (∀ k < slopeGrid.nbalt, slopeDtm.altMax < slopeGrid.alts k ∨ slopeGrid.alts k ≤ slopeDtm.altMin - 1 / 10000) ∧
    slopeDtm.transform.a * slopeDtm.transform.e - slopeDtm.transform.b * slopeDtm.transform.d ≠ 0 ∧
    (let A : V3 ℚ := ⟨(gridLonLat slopeGrid 50 100 200).1, (gridLonLat slopeGrid 50 100 200).2, 200⟩
     let B : V3 ℚ := ⟨(gridLonLat slopeGrid 50 100 10).1, (gridLonLat slopeGrid 50 100 10).2, 10⟩
     let p := terToIndexPy slopeDtm.transform (Spec.lerp A B (60 / 190))
     let q := terToIndexPy slopeDtm.transform (Spec.lerp A B (100 / 190))
     (Spec.lerp A B (60 / 190)).z = slopeDtm.altMax ∧ (Spec.lerp A B (100 / 190)).z = slopeDtm.altMin ∧
     (0 ≤ p.x ∧ p.x ≤ 4 ∧ 0 ≤ p.y ∧ p.y ≤ 4) ∧ (0 ≤ q.x ∧ q.x ≤ 4 ∧ 0 ≤ q.y ∧ q.y ≤ 4) ∧
     slopeDtm.interpolate p.x p.y < slopeDtm.altMax) := by decide +kernel

/-- A grid one layer of which, at 120, is in the range of the terrain (100 to 140). -/
def bentGrid : MultiGrid ℚ where
  nbalt := 3
  nbrow := 2
  nbcol := 2
  alts := fun k => if k = 0 then 500 else if k = 1 then 120 else 10
  lon := fun k i j => 9 + i + j / 2 + (if k = 0 then 0 else 1 / 5)
  lat := fun k i j => 209 / 10 - i / 2 + j / 4 + (if k = 2 then 1 else 0)
  row0 := 0
  col0 := 0
  steprow := 100
  stepcol := 200
  geographic := true

/-- C66, limit: with a layer of the grid in the range of altitudes of the DTM the two locations differ: on this grid the pixel
(40, 0) is located on the DTM at latitude 20.7 and altitude 118, but at altitude 118 it sees the latitude 2279/110 = 20.718...  (The
search does not stop at the end of a segment of the line of sight inside a cell.) -/
theorem C66_layer_inside_counterexample :
    gridDirectDtm .py 50 bentGrid slopeDtm (slopeDtm.altMin - 1) (slopeDtm.altMax + 1) [some 40] [some 0] =
      .ok [.point ⟨9121 / 950, 207 / 10, 118⟩] ∧
    gridPoint bentGrid (some 40) (some 0) (some 118) = ⟨some (48 / 5), some (2279 / 110), some 118⟩ := by
  decide +kernel

end Shareloc
