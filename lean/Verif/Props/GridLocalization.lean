import Verif.Model.GridGeo
import Verif.Props.GridDtm
import Verif.Props.RpcLocalization

/-!
C74: the location grids computed from a grid, and grids used through `Localization` and `coloc`.
-/

set_option linter.unusedSectionVars false

namespace Shareloc
open Spec
variable {K : Type*} [Field K] [LinearOrder K] [IsStrictOrderedRing K] [FloorRing K]

/-! ### `direct_loc_grid_dtm` -/

/-- C74. The node `(i, j)` of `direct_loc_grid_dtm` is the intersection of the terrain with the points that the pixel
`(row0 + steprow * i, col0 + stepcol * j)` sees at the altitudes of the layers of the grid, highest first, and nothing else. -/
theorem C74_location_grid_node (N : ℕ) (g : MultiGrid K) (row0 col0 steprow stepcol : K) (d : Dtm K) (i j : ℕ) :
    gridDirectLocGridDtm N g row0 col0 steprow stepcol d i j =
      losDtm .py d N (sightLine g (row0 + steprow * i) (col0 + stepcol * j) (layers g)) := by
  have h : ((List.range g.nbalt).map fun k =>
      (⟨(gridComputeLos g [(row0 + steprow * i, col0 + stepcol * j)] none 0 k).1,
        (gridComputeLos g [(row0 + steprow * i, col0 + stepcol * j)] none 0 k).2.1,
        (gridComputeLos g [(row0 + steprow * i, col0 + stepcol * j)] none 0 k).2.2⟩ : V3 K)) =
      sightLine g (row0 + steprow * i) (col0 + stepcol * j) (layers g) := by
    rw [sightLine, layers, List.map_map]
    apply List.map_congr_left
    intro k hk
    rw [C61_compute_los g [(row0 + steprow * i, col0 + stepcol * j)] none 0 k (row0 + steprow * i, col0 + stepcol * j) (g.alts k) rfl
      (by simp only [Option.getD_none]; rw [List.getElem?_map, List.getElem?_range (List.mem_range.1 hk)]; rfl)]
    rfl
  unfold gridDirectLocGridDtm
  simp only
  rw [h]

theorem dtmAlts_enclosed (alts : List K) (lo hi : K) (h1 : alts.getLastD 0 ≤ lo) (h2 : hi ≤ alts.headD 0) : dtmAlts alts lo hi = alts := by
  unfold dtmAlts
  rw [if_neg (not_lt.2 h1), if_neg (not_lt.2 h2)]

theorem layers_bounds (g : MultiGrid K) (hn : 1 ≤ g.nbalt) :
    (layers g).getLastD 0 = g.alts (g.nbalt - 1) ∧ (layers g).headD 0 = g.alts 0 := by
  obtain ⟨n, hn⟩ : ∃ n, g.nbalt = n + 1 := ⟨g.nbalt - 1, by omega⟩
  constructor
  · rw [layers, hn, List.range_succ, List.map_append]
    simp
  · rw [layers, hn, List.range_succ_eq_map]
    simp

/-- C74. When the layers of the grid go from one metre under the lowest altitude of the DTM to one metre over the highest, each node
of `direct_loc_grid_dtm` is what `direct_loc_dtm` returns for the same pixel, but for the longitudes and latitudes out of range, which
`direct_loc_dtm` alone replaces by NaN. -/
theorem C74_location_grid_agrees (N : ℕ) (g : MultiGrid K) (hn : 1 ≤ g.nbalt) (d : Dtm K) (hlo : g.alts (g.nbalt - 1) ≤ d.altMin - 1)
    (hhi : d.altMax + 1 ≤ g.alts 0) (row0 col0 steprow stepcol : K) (i j : ℕ) (row col : List (Option K)) (hcol : col.length = row.length)
    (k : ℕ) (hr : row[k]? = some (some (row0 + steprow * i))) (hc : col[k]? = some (some (col0 + stepcol * j))) :
    ∃ out, gridDirectDtm .py N g d (d.altMin - 1) (d.altMax + 1) row col = .ok out ∧
      (g.geographic = false → out[k]? = some (gridDirectLocGridDtm N g row0 col0 steprow stepcol d i j)) ∧
      (gridDirectLocGridDtm N g row0 col0 steprow stepcol d i j = .nan → out[k]? = some .nan) ∧
      ∀ P, gridDirectLocGridDtm N g row0 col0 steprow stepcol d i j = .point P →
        (ValidLonLat P.x P.y → out[k]? = some (.point P)) ∧
        (g.geographic = true → ¬ ValidLonLat P.x P.y → out[k]? = some .nan) := by
  obtain ⟨out, ho, -, hget⟩ := C65_pointwise .py N g d (d.altMin - 1) (d.altMax + 1) row col hcol
  have hval := (hget k _ _ hr hc).2 _ _ rfl rfl
  obtain ⟨b1, b2⟩ := layers_bounds g hn
  rw [dtmAlts_enclosed _ _ _ (by rw [b1]; exact hlo) (by rw [b2]; exact hhi)] at hval
  rw [C74_location_grid_node]
  unfold gridDtmValue at hval
  generalize losDtm .py d N (sightLine g (row0 + steprow * i) (col0 + stepcol * j) (layers g)) = w at hval ⊢
  refine ⟨out, ho, ?_, ?_, ?_⟩
  all_goals rw [hval]
  · intro hg
    simp [hg]
  · rintro hw
    subst hw
    cases g.geographic <;> rfl
  · rintro P hw
    subst hw
    constructor
    · intro hv
      have : ¬ (|P.x| > 180 ∨ |P.y| > 90) := by rintro (h | h) <;> [exact absurd hv.1 (not_le.2 h); exact absurd hv.2 (not_le.2 h)]
      cases g.geographic with
      | false => rfl
      | true => simp only [if_true, checkDtmPoint]; rw [if_neg this]
    · intro hg hv
      rw [hg]
      simp only [if_true, checkDtmPoint]
      rw [if_pos]
      by_contra hcon
      push Not at hcon
      exact hv ⟨hcon.1, hcon.2⟩

/-- The nodes of a location grid over `slopeGrid`, whose layers enclose `slopeDtm`. -/
example : 1 ≤ slopeGrid.nbalt ∧ slopeGrid.alts (slopeGrid.nbalt - 1) ≤ slopeDtm.altMin - 1 ∧ slopeDtm.altMax + 1 ≤ slopeGrid.alts 0 ∧
    gridDirectLocGridDtm 50 slopeGrid 20 100 30 50 slopeDtm 1 0 = .point ⟨3748 / 379, 7559 / 379, 47585 / 379⟩ ∧
    gridDirectLocGridDtm 50 slopeGrid 20 100 30 50 slopeDtm 0 1 = .point ⟨36821 / 3790, 30559 / 1516, 93555 / 758⟩ := by
  decide +kernel

/-- `slopeGrid` without its layer at 10, which is under the terrain. -/
def highGrid : MultiGrid ℚ := { slopeGrid with nbalt := 2 }

/-- C74, limit: with layers that do not go down to the terrain (500 and 200 over a terrain from 100 to 140), `direct_loc_grid_dtm` returns
NaN at a node that `direct_loc_dtm` locates. -/
theorem C74_location_grid_counterexample :
    gridDirectLocGridDtm 50 highGrid 50 100 1 1 slopeDtm 0 0 = .nan ∧
    gridDirectDtm .py 50 highGrid slopeDtm (slopeDtm.altMin - 1) (slopeDtm.altMax + 1) [some 50] [some 100] =
      .ok [.point ⟨5915 / 599, 23885 / 1198, 75250 / 599⟩] := by
  decide +kernel

/-- C74. `get_alt_min_max`: the extreme altitudes of the layers. -/
theorem C74_alt_min_max (g : MultiGrid K) (hn : 1 ≤ g.nbalt) (hdec : Decreasing g.nbalt g.alts) :
    (∀ a ∈ layers g, (gridAltMinMax g).1 ≤ a ∧ a ≤ (gridAltMinMax g).2) ∧
    (gridAltMinMax g).1 ∈ layers g ∧ (gridAltMinMax g).2 ∈ layers g := by
  have hle : ∀ i j, i ≤ j → j < g.nbalt → g.alts j ≤ g.alts i := by
    intro i j hij hj
    rcases eq_or_lt_of_le hij with rfl | h
    · exact le_rfl
    · exact (hdec i j h hj).le
  simp only [layers, gridAltMinMax, List.mem_map, List.mem_range]
  refine ⟨?_, ⟨_, by omega, rfl⟩, ⟨0, by omega, rfl⟩⟩
  rintro a ⟨k, hk, rfl⟩
  exact ⟨hle k _ (by omega) (by omega), hle 0 k (by omega) hk⟩

/-! ### A grid through `Localization` -/

theorem gridDirectLocH_pts (g : MultiGrid K) (row col : List (Option K)) (a : Option K) (hcol : col.length = row.length) :
    gridDirectLocH g row col [a] = .ok ((row.zip col).map fun t => gridPoint g t.1 t.2 a) := by
  have hz : ∀ (r c : List (Option K)), c.length = r.length →
      ((r.zip (c.zip (List.replicate c.length a))).map fun t => gridPoint g t.1 t.2.1 t.2.2) =
        (r.zip c).map fun t => gridPoint g t.1 t.2 a := by
    intro r c
    induction r generalizing c with
    | nil => intro _; rfl
    | cons x r ih =>
      intro h
      cases c with
      | nil => simp at h
      | cons y c =>
        simp only [List.length_cons, List.replicate_succ, List.zip_cons_cons, List.map_cons]
        rw [ih c (by simpa using h)]
  simp only [gridDirectLocH, broadcastAlt_single, if_pos hcol.symm, hz row col hcol]

/-- C74. Without image the extent of a grid is the box of the points of altitude 0 seen by its first node `(row0, col0)` and by its last one,
enlarged by the margin; the corner nodes are given by the interpolation of the layers at altitude 0. -/
theorem C74_extent (conv : ℕ → ℕ → ORow K → ORow K) (N : ℕ) (g : MultiGrid K) (p : Predictor K) (rad rtx : K) (cosdeg : K → K) (e : ℕ)
    (el : Elevation K (ℕ × Dtm K)) (margin : K) (lon0 lat0 lon1 lat1 : K)
    (h0 : gridLonLat g g.row0 g.col0 0 = (lon0, lat0))
    (h1 : gridLonLat g (g.row0 + g.steprow * ((g.nbrow : K) - 1)) (g.col0 + g.stepcol * ((g.nbcol : K) - 1)) 0 = (lon1, lat1))
    (hv : g.geographic = true → ValidLonLat lon0 lat0 ∧ ValidLonLat lon1 lat1) :
    Localization.extent conv ⟨gridGeo conv N g p rad rtx cosdeg e, el, none, none⟩ margin = .ok
      ⟨some (min lat0 lat1 - margin), some (min lon0 lon1 - margin), some (max lat0 lat1 + margin), some (max lon0 lon1 + margin)⟩ := by
  have e0 : gridPoint g (some g.row0) (some g.col0) (some 0) = ⟨some lon0, some lat0, some 0⟩ := by
    rw [gridPoint_eq_gridLonLat g _ _ _ (by rw [h0]; exact fun h => (hv h).1), h0]
  have e1 : gridPoint g (some (g.row0 + g.steprow * ((g.nbrow : K) - 1))) (some (g.col0 + g.stepcol * ((g.nbcol : K) - 1))) (some 0) =
      ⟨some lon1, some lat1, some 0⟩ := by
    rw [gridPoint_eq_gridLonLat g _ _ _ (by rw [h1]; exact fun h => (hv h).2), h1]
  have hd : Localization.direct conv ⟨gridGeo conv N g p rad rtx cosdeg e, el, none, none⟩
      [some g.row0, some (g.row0 + g.steprow * ((g.nbrow : K) - 1))] [some g.col0, some (g.col0 + g.stepcol * ((g.nbcol : K) - 1))]
      (some [some 0]) false = .ok [⟨some lon0, some lat0, some 0⟩, ⟨some lon1, some lat1, some 0⟩] := by
    have : (gridGeo conv N g p rad rtx cosdeg e).directH [some g.row0, some (g.row0 + g.steprow * ((g.nbrow : K) - 1))]
        [some g.col0, some (g.col0 + g.stepcol * ((g.nbcol : K) - 1))] [some 0] =
        .ok [⟨some lon0, some lat0, some 0⟩, ⟨some lon1, some lat1, some 0⟩] := by
      rw [show (gridGeo conv N g p rad rtx cosdeg e).directH = gridDirectLocH g from rfl]
      rw [gridDirectLocH_pts g _ _ _ (by rfl)]
      simp only [List.zip_cons_cons, List.zip_nil_right, List.map_cons, List.map_nil, e0, e1]
    simp only [Localization.direct, Localization.toPhysical, Localization.modelDirect, this]
  have hf : (⟨gridGeo conv N g p rad rtx cosdeg e, el, none, none⟩ : Localization K (ℕ × Dtm K)).footprint =
      (((g.row0, g.col0), (g.row0 + g.steprow * ((g.nbrow : K) - 1), g.col0 + g.stepcol * ((g.nbcol : K) - 1))), false) := rfl
  unfold Localization.extent
  rw [hf]
  simp only [hd, boxOf, omin, omax, olift2, Option.map_some]

/-- The bounds used when the DTM is in the system of the grid. -/
theorem dtmRange_same (conv : ℕ → ℕ → ORow K → ORow K) (e : ℕ) (hconv : ∀ p, conv e e p = p) (d : Dtm K) :
    dtmRange conv e e d = some (d.altMin - 1, d.altMax + 1) := by
  have : dtmAltOffset conv e e d = (some 0, some 0) := by
    simp only [dtmAltOffset, groundCorners, footprintCorners, List.map_cons, List.map_nil, hconv, olistMin, olistMax, List.foldl_cons,
      List.foldl_nil, omin, omax, olift2, min_self, max_self, Option.map_some, sub_self]
  simp only [dtmRange, this, add_zero]

/-- C74. With a grid and a DTM of its system given as elevation, whenever `direct` without altitude returns there is one row per pixel, in
order: NaN for a NaN pixel, else NaN, or (0, 0, 0), or a point on the terrain to a tenth of a millimetre, with a valid longitude and
latitude if the grid is geographic.  When no layer of the grid is in the range of altitudes of the DTM, the point is the one that `direct`
gives for the same pixel at the altitude of the point. -/
theorem C74_on_dtm (conv : ℕ → ℕ → ORow K → ORow K) (e : ℕ) (hconv : ∀ p, conv e e p = p) (N : ℕ) (g : MultiGrid K) (p : Predictor K)
    (rad rtx : K) (cosdeg : K → K) (d : Dtm K) (hr : 2 ≤ d.nbRows) (hc : 2 ≤ d.nbCols)
    (hdet : d.transform.a * d.transform.e - d.transform.b * d.transform.d ≠ 0) (row col : List (Option K))
    (hcol : col.length = row.length) (out : List (ORow K))
    (h : Localization.direct conv ⟨gridGeo conv N g p rad rtx cosdeg e, .dtm e (e, d), none, none⟩ row col none false = .ok out) :
    out.length = row.length ∧ ∀ (i : ℕ) (x y : Option K), row[i]? = some x → col[i]? = some y →
      (x = none ∨ y = none → out[i]? = some nanRow) ∧
      ∃ w, out[i]? = some w ∧ (w = nanRow ∨ w = ⟨some 0, some 0, some 0⟩ ∨
        ∃ lon lat alt, w = ⟨some lon, some lat, some alt⟩ ∧ (g.geographic = true → ValidLonLat lon lat) ∧
          |d.interpolate (terToIndexPy d.transform ⟨lon, lat, alt⟩).x (terToIndexPy d.transform ⟨lon, lat, alt⟩).y - alt| ≤ 1 / 10000 ∧
          (2 ≤ g.nbalt → Decreasing g.nbalt g.alts →
            (∀ k < g.nbalt, d.altMax < g.alts k ∨ g.alts k ≤ d.altMin - 1 / 10000) → (lon, lat, alt) ≠ (0, 0, 0) →
            Localization.direct conv ⟨gridGeo conv N g p rad rtx cosdeg e, .dtm e (e, d), none, none⟩ [x] [y] (some [some alt]) false =
              .ok [⟨some lon, some lat, some alt⟩])) := by
  have hdt : gridDirectLocDtm conv N g e row col (e, d) = .ok out := by
    simp only [Localization.direct, Localization.toPhysical, Localization.modelDirect, gridGeo] at h
    cases hx : gridDirectLocDtm conv N g e row col (e, d) with
    | error er => rw [hx] at h; simp at h
    | ok l => rw [hx] at h; simpa using h
  simp only [gridDirectLocDtm, ne_eq, not_true_eq_false, if_false, dtmRange_same conv e hconv] at hdt
  obtain ⟨l, hl, hlen, hget⟩ := C65_pointwise .py N g d (d.altMin - 1) (d.altMax + 1) row col hcol
  rw [hl] at hdt
  obtain ⟨rfl, hok⟩ := dtmRows_ok hdt
  refine ⟨by simp [hlen], fun i x y hx hy => ?_⟩
  obtain ⟨hn, hf⟩ := hget i x y hx hy
  have hi : i < l.length := by rw [hlen]; exact (List.getElem?_eq_some_iff.1 hx).1
  refine ⟨fun hnan => by rw [List.getElem?_map, hn hnan]; rfl, l[i].toRow, by simp [hi], ?_⟩
  rcases C65_on_the_terrain N g d hdet _ _ row col l hl l[i] (List.getElem_mem hi) with hp | hp | hp | ⟨P, hp, htol, hval⟩
  · left; rw [hp]; rfl
  · exfalso
    rcases hok l[i] (List.getElem_mem hi) with h' | ⟨v, h'⟩ <;> rw [hp] at h' <;> cases h'
  · right; left; rw [hp]; rfl
  · right; right
    refine ⟨P.x, P.y, P.z, by rw [hp]; rfl, fun hg => hval hg, htol, ?_⟩
    intro hn2 hdec hgap h0
    have hli : l[i]? = some (.point P) := by rw [List.getElem?_eq_getElem hi, hp]
    cases x with
    | none => rw [hn (.inl rfl)] at hli; cases hli
    | some r =>
      cases y with
      | none => rw [hn (.inr rfl)] at hli; cases hli
      | some c =>
        have key := C66_grid_dtm_agrees_with_altitude_partial N g hn2 hdec d hr hc hdet hgap row col l hl i r c hx hy P hli (by
          intro h'
          apply h0
          rw [h'])
        have : (gridGeo conv N g p rad rtx cosdeg e).directH [some r] [some c] [some P.z] = .ok [⟨some P.x, some P.y, some P.z⟩] := by
          rw [show (gridGeo conv N g p rad rtx cosdeg e).directH = gridDirectLocH g from rfl]
          rw [gridDirectLocH_pts g _ _ _ (by rfl)]
          simp only [List.zip_cons_cons, List.zip_nil_right, List.map_cons, List.map_nil, key]
        simp only [Localization.direct, Localization.toPhysical, Localization.modelDirect, this]

/-- C74. A grid cannot be used with a DTM of another coordinate system. -/
theorem C74_other_system (conv : ℕ → ℕ → ORow K → ORow K) (e e' : ℕ) (he : e' ≠ e) (N : ℕ) (g : MultiGrid K) (p : Predictor K)
    (rad rtx : K) (cosdeg : K → K) (d : Dtm K) (row col : List (Option K)) (im : Option (LocImage K)) (o : Option ℕ) :
    ∃ er, Localization.direct conv ⟨gridGeo conv N g p rad rtx cosdeg e, .dtm e' (e', d), im, o⟩ row col none false = .error er := by
  have : (gridGeo conv N g p rad rtx cosdeg e).directDtm row col (e', d) = .error .badSizes := by
    show gridDirectLocDtm conv N g e row col (e', d) = _
    unfold gridDirectLocDtm
    rw [if_pos he]
  refine ⟨.model .badSizes, ?_⟩
  simp only [Localization.direct, Localization.toPhysical, Localization.modelDirect, this]

/-- C74. The inverse location checks longitudes and latitudes even if the coordinates of the grid are not geographic: a point of a projected
system with an abscissa over 180 or an ordinate over 90, whatever the grid, is never located. -/
theorem C74_projected_never_located (g : MultiGrid K) (p : Predictor K) (rad rtx : K) (cosdeg : K → K) (n : ℕ) (x y : K) (alt : Option K)
    (h : ¬ ValidLonLat x y) :
    gridInversePoint g p rad rtx cosdeg n (some x) (some y) alt = nanRow := by
  have hc : checkRow (⟨some x, some y, alt⟩ : ORow K) = nanRow := by
    cases alt with
    | none => rfl
    | some a =>
      simp only [checkRow]
      rw [if_pos]
      by_contra hcon
      push Not at hcon
      exact h ⟨hcon.1, hcon.2⟩
  simp only [gridInversePoint, hc]
  rfl

/-! ### `grid.coloc` -/

theorem colocNodes_get (row0 col0 steprow stepcol : K) (nbrow nbcol i j : ℕ) (hi : i < nbrow) (hj : j < nbcol) :
    (colocNodes row0 col0 steprow stepcol nbrow nbcol)[i * nbcol + j]? = some (row0 + steprow * (i : K), col0 + stepcol * (j : K)) := by
  have main : ∀ (f : ℕ → ℕ → K × K) (n i : ℕ), i < n →
      ((List.range n).flatMap fun a => (List.range nbcol).map fun b => f a b)[i * nbcol + j]? = some (f i j) := by
    intro f n
    induction n with
    | zero => intro i hi; omega
    | succ n ih =>
      intro i hi
      have hlen : ((List.range n).flatMap fun a => (List.range nbcol).map fun b => f a b).length = n * nbcol := by
        simp [List.length_flatMap]
      rw [List.range_succ, List.flatMap_append]
      rcases Nat.lt_succ_iff_lt_or_eq.1 hi with h | rfl
      · rw [List.getElem?_append_left (by rw [hlen]; calc i * nbcol + j < i * nbcol + nbcol := by omega
          _ = (i + 1) * nbcol := by ring
          _ ≤ n * nbcol := Nat.mul_le_mul_right _ h)]
        exact ih i h
      · rw [List.getElem?_append_right (by rw [hlen]; omega), hlen]
        simp [hj]
  exact main (fun a b => (row0 + steprow * (a : K), col0 + stepcol * (b : K))) nbrow i hi

theorem mapExcept_get {α β : Type*} (f : α → Except RpcError β) (l : List α) (r : List β) (h : mapExcept f l = .ok r) :
    r.length = l.length ∧ ∀ (i : ℕ) a, l[i]? = some a → ∃ b, r[i]? = some b ∧ f a = .ok b := by
  induction l generalizing r with
  | nil => simp only [mapExcept, Except.ok.injEq] at h; subst h; simp
  | cons a as ih =>
    simp only [mapExcept] at h
    cases hf : f a with
    | error e => rw [hf] at h; cases h
    | ok b =>
      rw [hf] at h
      simp only at h
      cases hm : mapExcept f as with
      | error e => rw [hm] at h; cases h
      | ok bs =>
        rw [hm] at h
        simp only [Except.ok.injEq] at h
        subst h
        obtain ⟨h1, h2⟩ := ih bs hm
        refine ⟨by simp [h1], fun i c hc => ?_⟩
        cases i with
        | zero => simp only [List.getElem?_cons_zero, Option.some.injEq] at hc; subst hc; exact ⟨b, rfl, hf⟩
        | succ i => exact h2 i c (by simpa using hc)

theorem gridDirectDtm_pts (N : ℕ) (g : MultiGrid K) (d : Dtm K) (lo hi : K) (pts : List (K × K)) :
    gridDirectDtm .py N g d lo hi (pts.map fun t => some t.1) (pts.map fun t => some t.2) =
      .ok (pts.map fun t => gridDtmValue .py N g d (sightLine g t.1 t.2 (dtmAlts (layers g) lo hi))) := by
  obtain ⟨out, ho, hlen, hget⟩ := C65_pointwise .py N g d lo hi (pts.map fun t => some t.1) (pts.map fun t => some t.2) (by simp)
  rw [ho]
  congr 1
  apply List.ext_getElem?
  intro i
  by_cases hi : i < pts.length
  · rw [(hget i (some pts[i].1) (some pts[i].2) (by simp [hi]) (by simp [hi])).2 _ _ rfl rfl]
    simp [hi]
  · rw [List.getElem?_eq_none (by simpa [hlen] using hi), List.getElem?_eq_none (by simpa using hi)]

theorem dtmRows_mk {l : List (DtmPoint K)} (h : ∀ p ∈ l, p = .nan ∨ ∃ v, p = .point v) : dtmRows l = .ok (l.map DtmPoint.toRow) := by
  unfold dtmRows
  refine if_neg fun hany => ?_
  simp only [List.any_eq_true] at hany
  obtain ⟨p, hp, hb⟩ := hany
  rcases h p hp with rfl | ⟨v, rfl⟩ <;> simp at hb

theorem gridInverseLoc_all (g : MultiGrid K) (p : Predictor K) (rad rtx : K) (cosdeg : K → K) (n : ℕ) (l : List (ORow K)) :
    gridInverseLoc g p rad rtx cosdeg (l.map fun q => q.x) (l.map fun q => q.y) (l.map fun q => q.z) n =
      if (l.any fun q => gridPointRaises g p rad rtx cosdeg n q.x q.y q.z) = true then .error .derivativeNan
      else .ok (l.map fun q => gridInversePoint g p rad rtx cosdeg n q.x q.y q.z) := by
  have hz : (l.map fun q => q.x).zip ((l.map fun q => q.y).zip (l.map fun q => q.z)) = l.map fun q => (q.x, q.y, q.z) := by
    induction l with
    | nil => rfl
    | cons q l ih => simp only [List.map_cons, List.zip_cons_cons]; rw [ih]
  simp only [gridInverseLoc]
  rw [broadcastAlt_eq (by simp)]
  simp only [List.length_map, if_true, hz, List.any_map, List.map_map]
  rfl

theorem gridInverseLoc_rows (g : MultiGrid K) (p : Predictor K) (rad rtx : K) (cosdeg : K → K) (n : ℕ) (l : List (ORow K))
    (h : ∀ q ∈ l, gridPointRaises g p rad rtx cosdeg n q.x q.y q.z = false) :
    gridInverseLoc g p rad rtx cosdeg (l.map fun q => q.x) (l.map fun q => q.y) (l.map fun q => q.z) n =
      .ok (l.map fun q => gridInversePoint g p rad rtx cosdeg n q.x q.y q.z) := by
  rw [gridInverseLoc_all, if_neg]
  rw [List.any_eq_true]
  rintro ⟨q, hq, hr⟩
  rw [h q hq] at hr
  cases hr

/-- C74. `grid.coloc` computes node by node what `coloc` computes for the list of the nodes: when it returns, so does `coloc` on the pixels
`(row0 + steprow * i, col0 + stepcol * j)`, row after row, and the node `(i, j)` has the row and the column found by `coloc` for its pixel,
and its altitude if the source is geographic. -/
theorem C74_coloc_grid (conv : ℕ → ℕ → ORow K → ORow K) (N : ℕ) (src dst : MultiGrid K) (ps pd : Predictor K) (rad rtx : K) (cosdeg : K → K)
    (e e2 : ℕ) (d : Dtm K) (row0 col0 steprow stepcol : K) (nbrow nbcol : ℕ) (f : ℕ → ℕ → ORow K)
    (h : gridColoc conv N src dst pd rad rtx cosdeg e (e, d) row0 col0 steprow stepcol nbrow nbcol = .ok f) (hpos : nbrow * nbcol ≠ 0) :
    ∃ (pix : List (K × K)) (sensor ground : List (ORow K)),
      pix.length = nbrow * nbcol ∧
      (∀ i j, i < nbrow → j < nbcol → pix[i * nbcol + j]? = some (row0 + steprow * (i : K), col0 + stepcol * (j : K))) ∧
      coloc conv (gridGeo conv N src ps rad rtx cosdeg e) (gridGeo conv N dst pd rad rtx cosdeg e2) (pix.map fun t => some t.1)
        (pix.map fun t => some t.2) (.dtm e (e, d)) none none false = .ok (sensor, ground) ∧
      ∀ i j, i < nbrow → j < nbcol → ∃ s, sensor[i * nbcol + j]? = some s ∧ (f i j).x = s.x ∧ (f i j).y = s.y ∧
        (src.geographic = true → f i j = s) := by
  set pix := colocNodes row0 col0 steprow stepcol nbrow nbcol with hpix
  have hlen : pix.length = nbrow * nbcol := by simp [hpix, colocNodes, List.length_flatMap]
  unfold gridColoc at h
  rw [← hpix] at h
  cases hm : mapExcept (gridColocNode conv N src dst pd rad rtx cosdeg e (e, d)) pix with
  | error er => rw [hm] at h; cases h
  | ok l =>
    rw [hm] at h
    simp only [Except.ok.injEq] at h
    subst h
    obtain ⟨hl1, hl2⟩ := mapExcept_get _ _ _ hm
    -- the bounds of the DTM
    obtain ⟨b, hb⟩ : ∃ b, dtmRange conv e e d = some b := by
      obtain ⟨t, ht⟩ : ∃ t, pix[0]? = some t := ⟨pix[0]'(by omega), by simp⟩
      obtain ⟨s, -, hs⟩ := hl2 0 t ht
      cases hr : dtmRange conv e e d with
      | some b => exact ⟨b, rfl⟩
      | none => simp [gridColocNode, gridDirectLocDtm, hr] at hs
    set val : K × K → DtmPoint K := fun t => gridDtmValue .py N src d (sightLine src t.1 t.2 (dtmAlts (layers src) b.1 b.2)) with hval
    have hnode : ∀ t ∈ pix, (val t = .nan ∨ ∃ v, val t = .point v) ∧
        gridPointRaises dst pd rad rtx cosdeg 15 (val t).toRow.x (val t).toRow.y (val t).toRow.z = false ∧
        gridColocNode conv N src dst pd rad rtx cosdeg e (e, d) t =
          .ok (gridInversePoint dst pd rad rtx cosdeg 15 (val t).toRow.x (val t).toRow.y (val t).toRow.z) := by
      intro t ht
      obtain ⟨i, hi⟩ := List.mem_iff_getElem?.1 ht
      obtain ⟨s, -, hs⟩ := hl2 i t hi
      have hone : gridDirectDtm .py N src d b.1 b.2 [some t.1] [some t.2] = .ok [val t] := gridDirectDtm_pts N src d b.1 b.2 [t]
      have hrows : val t = .nan ∨ ∃ v, val t = .point v := by
        simp only [gridColocNode, gridDirectLocDtm, ne_eq, not_true_eq_false, if_false, hb, hone] at hs
        cases hd : dtmRows [val t] with
        | error er => rw [hd] at hs; cases hs
        | ok rows => exact (dtmRows_ok hd).2 _ (by simp)
      have hnr : gridPointRaises dst pd rad rtx cosdeg 15 (val t).toRow.x (val t).toRow.y (val t).toRow.z = false := by
        simp only [gridColocNode, gridDirectLocDtm, ne_eq, not_true_eq_false, if_false, hb, hone] at hs
        rw [dtmRows_mk (l := [val t]) (by simpa using hrows)] at hs
        simp only [List.map_cons, List.map_nil, List.headD_cons, gridInverseLoc_one] at hs
        by_contra hcon
        rw [Bool.not_eq_false] at hcon
        rw [if_pos hcon] at hs
        cases hs
      refine ⟨hrows, hnr, ?_⟩
      simp only [gridColocNode, gridDirectLocDtm, ne_eq, not_true_eq_false, if_false, hb, hone]
      rw [dtmRows_mk (l := [val t]) (by simpa using hrows)]
      simp only [List.map_cons, List.map_nil, List.headD_cons, gridInverseLoc_one]
      rw [if_neg (by rw [hnr]; decide)]
      rfl
    set ground : List (ORow K) := pix.map fun t => (val t).toRow with hground
    have hdirect : gridDirectLocDtm conv N src e (pix.map fun t => some t.1) (pix.map fun t => some t.2) (e, d) = .ok ground := by
      simp only [gridDirectLocDtm, ne_eq, not_true_eq_false, if_false, hb, gridDirectDtm_pts]
      rw [dtmRows_mk]
      · rw [List.map_map]; rfl
      · intro p hp
        obtain ⟨t, ht, rfl⟩ := List.mem_map.1 hp
        exact (hnode t ht).1
    have h1 : Localization.direct conv ⟨gridGeo conv N src ps rad rtx cosdeg e, .dtm e (e, d), none, none⟩ (pix.map fun t => some t.1)
        (pix.map fun t => some t.2) none false = .ok ground := by
      simp only [Localization.direct, Localization.toPhysical, Localization.modelDirect, gridGeo, hdirect]
    have h2 : Localization.inverse conv ⟨gridGeo conv N dst pd rad rtx cosdeg e2, .dtm e (e, d), none, none⟩ (ground.map fun q => q.x)
        (ground.map fun q => q.y) (some (ground.map fun q => q.z)) false =
        .ok (some (ground.map fun q => ((gridInversePoint dst pd rad rtx cosdeg 15 q.x q.y q.z).x,
          (gridInversePoint dst pd rad rtx cosdeg 15 q.x q.y q.z).y)), ground.map fun q => q.z) := by
      have hnr : ∀ q ∈ ground, gridPointRaises dst pd rad rtx cosdeg 15 q.x q.y q.z = false := by
        intro q hq
        obtain ⟨t, ht, rfl⟩ := List.mem_map.1 hq
        exact (hnode t ht).2.1
      simp only [Localization.inverse, Localization.toModel, Option.getD_some, gridGeo, gridInverseLoc_rows _ _ _ _ _ _ _ hnr, List.map_map]
      rfl
    obtain ⟨sensor, hc, hsl, hsi⟩ := C54_inverse_of_direct conv _ _ (pix.map fun t => some t.1) (pix.map fun t => some t.2) _ none none false
      (by simp) ground _ _ h1 h2 (by simp)
    refine ⟨pix, sensor, ground, hlen, fun i j hi hj => colocNodes_get row0 col0 steprow stepcol nbrow nbcol i j hi hj, hc, ?_⟩
    intro i j hi hj
    have hk := colocNodes_get row0 col0 steprow stepcol nbrow nbcol i j hi hj
    rw [← hpix] at hk
    set t : K × K := (row0 + steprow * (i : K), col0 + stepcol * (j : K)) with ht
    obtain ⟨s, hs, hst⟩ := hl2 _ t hk
    rw [(hnode t (List.mem_of_getElem? hk)).2.2, Except.ok.injEq] at hst
    have hgk : ground[i * nbcol + j]? = some (val t).toRow := by rw [hground, List.getElem?_map, hk]; rfl
    have := hsi (i * nbcol + j) _ _ hgk (by rw [List.getElem?_map, hgk]; rfl)
    refine ⟨_, this, ?_, ?_, ?_⟩
    · simp only [List.getD, hs, Option.getD_some, ← hst]
    · simp only [List.getD, hs, Option.getD_some, ← hst]
    · intro hg
      simp only [List.getD, hs, Option.getD_some, ← hst]
      have hz : ∀ q : ORow K, (q = nanRow ∨ ∃ lon lat alt, q = ⟨some lon, some lat, some alt⟩ ∧ ValidLonLat lon lat) →
          (gridInversePoint dst pd rad rtx cosdeg 15 q.x q.y q.z).z = q.z := by
        rintro q (rfl | ⟨lon, lat, alt, rfl, hv⟩)
        · rfl
        · simp only [gridInversePoint, checkRow_valid hv]
      have hq : (val t).toRow = nanRow ∨ ∃ lon lat alt, (val t).toRow = ⟨some lon, some lat, some alt⟩ ∧ ValidLonLat lon lat := by
        rcases (hnode t (List.mem_of_getElem? hk)).1 with hv | ⟨v, hv⟩
        · left; rw [hv]; rfl
        · right
          refine ⟨v.x, v.y, v.z, by rw [hv]; rfl, ?_⟩
          simp only [hval, gridDtmValue, hg, if_true] at hv
          generalize losDtm .py d N (sightLine src t.1 t.2 (dtmAlts (layers src) b.1 b.2)) = w at hv
          cases w with
          | point u =>
            simp only [checkDtmPoint] at hv
            split_ifs at hv with hbad
            · push Not at hbad
              simp only [DtmPoint.point.injEq] at hv
              subst hv
              exact ⟨hbad.1, hbad.2⟩
          | nan => cases hv
          | uninitialised => cases hv
          | failure => cases hv
      have hzz := hz _ hq
      generalize gridInversePoint dst pd rad rtx cosdeg 15 (val t).toRow.x (val t).toRow.y (val t).toRow.z = u at hzz ⊢
      cases u
      simp only [V3.mk.injEq, true_and]
      exact hzz

/-- A predictor that always predicts the pixel (50, 200). -/
def midPredictor : Predictor ℚ where
  colMin := 0
  rowMin := 0
  colMax := 0
  rowMax := 0
  lonOff := 10
  lonScale := 1
  latOff := 20
  latScale := 1
  rowOff := 50
  rowScale := 50
  colOff := 200
  colScale := 200

/-- `grid.coloc` of a grid with itself on the slope gives back the pixels, here those of four nodes, with the altitude of the terrain. -/
example : ∀ i < 2, ∀ j < 2, (gridColoc (fun _ _ p => p) 50 slopeGrid slopeGrid midPredictor 17453 40678884 (fun _ => 1) 4326 (4326, slopeDtm)
    20 100 30 50 2 2).toOption.map (fun f => ((f i j).x, (f i j).y)) = some (some (20 + 30 * (i : ℚ)), some (100 + 50 * (j : ℚ))) := by
  decide +kernel

/-- The extent of the grid, and a batch with a NaN on the slope, through `Localization`. -/
example : Localization.extent (fun _ _ p => p) ⟨gridGeo (fun _ _ p => p) 50 slopeGrid midPredictor 17453 40678884 (fun _ => 1) 4326,
      .missing, none, none⟩ 1 =
      .ok ⟨some (7639 / 380 - 1), some (1749 / 190 - 1), some (7639 / 380 + 1), some (2129 / 190 + 1)⟩ ∧
    Localization.direct (fun _ _ p => p) ⟨gridGeo (fun _ _ p => p) 50 slopeGrid midPredictor 17453 40678884 (fun _ => 1) 4326,
      .dtm 4326 (4326, slopeDtm), none, none⟩ [some 50, none] [some 100, some 1] none false =
      .ok [⟨some (3748 / 379), some (7559 / 379), some (47585 / 379)⟩, nanRow] := by
  decide +kernel

end Shareloc
