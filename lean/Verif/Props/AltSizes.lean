import Verif.Props.RpcLoc
import Verif.Props.GridLocalization

/-!
C28, sizes of the altitude arguments: an altitude array with one value per point is used pointwise, every point being located as if it
were alone with its own altitude, and the sizes of the altitude array are classified for the location functions of the grids.
-/

namespace Shareloc
variable {K : Type*} [Field K] [LinearOrder K] [IsStrictOrderedRing K] [FloorRing K]

namespace Spec

/-- What "an altitude array of the same size is used pointwise" says of a location function `loc` of two arrays of coordinates and an
altitude array: for arrays of one size, when it returns, it returns one row per point, and the row of a point is the one returned for the
arrays holding the coordinates and the altitude of this point alone. -/
def AltitudePointwise (loc : List (Option K) → List (Option K) → List (Option K) → Except RpcError (List (ORow K))) : Prop :=
  ∀ (a b alt : List (Option K)) (out : List (ORow K)), b.length = a.length → alt.length = a.length → loc a b alt = .ok out →
    out.length = a.length ∧ ∀ (i : ℕ) (x y z : Option K), a[i]? = some x → b[i]? = some y → alt[i]? = some z →
      ∃ o, out[i]? = some o ∧ loc [x] [y] [z] = .ok [o]

end Spec

open Spec

theorem getElem?_zip3 {α β γ : Type*} {a : List α} {b : List β} {c : List γ} {i : ℕ} {x : α} {y : β} {z : γ} (hx : a[i]? = some x)
    (hy : b[i]? = some y) (hz : c[i]? = some z) : (a.zip (b.zip c))[i]? = some (x, y, z) :=
  List.getElem?_zip_eq_some.2 ⟨hx, List.getElem?_zip_eq_some.2 ⟨hy, hz⟩⟩

/-- C28. An altitude array with one value per point is used pointwise by `RPC.inverse_loc`. -/
theorem C28_same_size_inverse (r : Rpc K) (q : RatCoefs K) (hq : r.inverse = some q) (lon lat alt : List (Option K))
    (hlat : lat.length = lon.length) (halt : alt.length = lon.length) :
    ∃ out, inverseLocPy r lon lat alt = .ok (.rows out) ∧ out.length = lon.length ∧
      ∀ (i : ℕ) (x y z : Option K), lon[i]? = some x → lat[i]? = some y → alt[i]? = some z →
        ∃ o, out[i]? = some o ∧ inverseLocPy r [x] [y] [z] = .ok (.rows [o]) := by
  refine ⟨(((lon.zip (lat.zip alt)).map fun t => (⟨t.1, t.2.1, t.2.2⟩ : ORow K)).map (invPointPy r q)), ?_, ?_, ?_⟩
  · simp only [inverseLocPy, hq, broadcastAlt_eq halt, stack3_ok hlat halt]
  · simp [hlat, halt]
  · intro i x y z hx hy hz
    refine ⟨invPointPy r q ⟨x, y, z⟩, ?_, ?_⟩
    · rw [List.getElem?_map, List.getElem?_map, getElem?_zip3 hx hy hz]; rfl
    · simp only [inverseLocPy, hq, broadcastAlt_single]; rfl

/-- C28. The same for `RPCoptim.inverse_loc`, when it does not raise. -/
theorem C28_same_size_inverse_cpp (r : Rpc K) (q : RatCoefs K) : AltitudePointwise (inverseLocOptim r q) := by
  intro lon lat alt out hlat halt h
  simp only [inverseLocOptim, stack3_ok hlat halt] at h
  obtain ⟨hl, hg⟩ := mapExcept_get _ _ _ h
  refine ⟨by simpa [checkLonLat, hlat, halt] using hl, ?_⟩
  intro i x y z hx hy hz
  obtain ⟨o, ho, hv⟩ := hg i (checkRow ⟨x, y, z⟩) (by
    simp only [checkLonLat]
    rw [List.getElem?_map, List.getElem?_map, getElem?_zip3 hx hy hz]; rfl)
  refine ⟨o, ho, ?_⟩
  simp only [inverseLocOptim, stack3, checkLonLat, mapExcept, List.length_cons, List.length_nil, and_self, if_true, List.zip_cons_cons,
    List.zip_nil_right, List.map_cons, List.map_nil, hv]

/-- C28. The same for the iterative and the direct locations of `RPCoptim.direct_loc_h`, when they do not raise. -/
theorem C28_same_size_direct_cpp (r : Rpc K) (fillNan useDirect : Bool) :
    AltitudePointwise fun row col alt => directLocHOptim r row col alt fillNan useDirect := by
  intro row col alt out hcol halt h
  have hb : broadcastAlt col.length alt = .ok alt := broadcastAlt_eq (halt.trans hcol.symm)
  have hb2 : broadcastAlt (min row.length col.length) alt = .ok alt := broadcastAlt_eq (by omega)
  rcases useDirect with _ | _
  · rcases hq : r.inverse with _ | q
    · simp only [directLocHOptim, hb, hb2, hq] at h
      simp at h
    · obtain ⟨out', h', hl, hp⟩ := C24_cpp_batch r q hq row col alt fillNan hcol halt
      simp only at h
      rw [h] at h'
      cases h'
      exact ⟨hl, fun i x y z hx hy hz => (hp i x y z hx hy hz).imp fun o ho => ⟨ho.2, ho.1⟩⟩
  · rcases hq : r.direct with _ | q
    · simp only [directLocHOptim, hb, hb2, hq] at h
      simp at h
    · simp only [directLocHOptim, hb, hb2, hq, nanAltitude_same] at h
      rcases hm : mapExcept (directPointCpp r q fillNan) (row.zip (col.zip alt)) with e | l
      · rw [hm] at h; simp at h
      · rw [hm] at h
        simp only [Except.ok.injEq] at h
        subst h
        obtain ⟨hl, hg⟩ := mapExcept_get _ _ _ hm
        refine ⟨by simp [checkLonLat, hl, hcol, halt], ?_⟩
        intro i x y z hx hy hz
        obtain ⟨o, ho, hv⟩ := hg i _ (getElem?_zip3 hx hy hz)
        refine ⟨checkRow o, by rw [checkLonLat_getElem?, ho]; rfl, ?_⟩
        have b1 : broadcastAlt [y].length [z] = .ok [z] := broadcastAlt_eq rfl
        have b2 : broadcastAlt (min [x].length [y].length) [z] = .ok [z] := broadcastAlt_eq rfl
        have hs : mapExcept (directPointCpp r q fillNan) ([x].zip ([y].zip [z])) = .ok [o] := by
          simp only [List.zip_cons_cons, List.zip_nil_right, mapExcept, hv]
        simp only [directLocHOptim, hq, b1, b2, nanAltitude_same, hs]
        rfl

/-- C28. The same for the location by direct coefficients of `RPC.direct_loc_h`.  (The iterative location of the Python code starts all
the points from the first altitude of the array: `C24_python_altitude_counterexample`.) -/
theorem C28_same_size_direct_coefficients (r : Rpc K) (fillNan : Bool) :
    AltitudePointwise fun row col alt => directLocH r row col alt fillNan true := by
  intro row col alt out hcol halt h
  have hb : broadcastAlt col.length alt = .ok alt := broadcastAlt_eq (halt.trans hcol.symm)
  rcases hq : r.direct with _ | q
  · simp only [directLocH, hb, hq, if_pos hcol.symm] at h
    simp at h
  let f : ImgPt K → Option K × Option K := fun p =>
    match p.alt with
    | some a => ratPointPy q ((p.col - r.offCol) / r.scCol) ((p.row - r.offRow) / r.scRow)
        ((a - r.offAlt) / r.scAlt) r.scX r.offX r.scY r.offY
    | none => (none, none)
  have key : ∀ row col alt : List (Option K), col.length = row.length → alt.length = row.length →
      directLocH r row col alt fillNan true = .ok (checkLonLat ((row.zip (col.zip alt)).map fun t =>
        ⟨((validPt t.1 t.2.1 t.2.2).elim (fillLonLat r fillNan) f).1,
          ((validPt t.1 t.2.1 t.2.2).elim (fillLonLat r fillNan) f).2, t.2.2⟩)) := by
    intro row col alt hcol halt
    have hb : broadcastAlt col.length alt = .ok alt := broadcastAlt_eq (halt.trans hcol.symm)
    have := directLocH_rows (fillLonLat r fillNan) f (fun b z => (⟨b.1, b.2, z⟩ : ORow K)) row col alt
    rw [← this]
    simp only [directLocH, hb]
    rw [if_pos hcol.symm, hq]
    cases r.inverse <;> rfl
  simp only [key row col alt hcol halt, Except.ok.injEq] at h
  subst h
  refine ⟨by simp [checkLonLat, hcol, halt], ?_⟩
  intro i x y z hx hy hz
  refine ⟨_, ?_, key [x] [y] [z] rfl rfl⟩
  rw [checkLonLat_getElem?, List.getElem?_map, getElem?_zip3 hx hy hz]
  rfl

/-- C28, negation for the iterative location of `RPC.direct_loc_h`: the iteration of the second point starts from the altitude of the
first one. -/
theorem C28_iterative_python_counterexample :
    ¬ AltitudePointwise fun row col alt => directLocH demoRpc row col alt false false := by
  intro h
  obtain ⟨h1, h2⟩ := C24_python_altitude_counterexample
  obtain ⟨-, hp⟩ := h [some 300, some 300] [some 500, some 500] [some 100, some 200] _ rfl rfl h1
  obtain ⟨o, ho, hv⟩ := hp 1 (some 300) (some 500) (some 200) rfl rfl rfl
  simp only [h2, Except.ok.injEq, List.cons.injEq, and_true] at hv
  subst hv
  revert ho
  decide +kernel

/-- C28. The same for `Grid.direct_loc_h`. -/
theorem C28_same_size_grid (g : MultiGrid K) : AltitudePointwise (gridDirectLocH g) := by
  intro row col alt out hcol halt h
  have hb : broadcastAlt col.length alt = .ok alt := broadcastAlt_eq (halt.trans hcol.symm)
  simp only [gridDirectLocH, hb, if_pos hcol.symm, Except.ok.injEq] at h
  subst h
  refine ⟨by simp [hcol, halt], ?_⟩
  intro i x y z hx hy hz
  refine ⟨gridPoint g x y z, by rw [List.getElem?_map, getElem?_zip3 hx hy hz]; rfl, ?_⟩
  simp only [gridDirectLocH, broadcastAlt_single]
  rfl

/-- C28. The same for `Grid.inverse_loc`, when it does not raise. -/
theorem C28_same_size_grid_inverse (g : MultiGrid K) (p : Predictor K) (rad rtx : K) (cosdeg : K → K) (n : ℕ) :
    AltitudePointwise fun lon lat alt => gridInverseLoc g p rad rtx cosdeg lon lat alt n := by
  intro lon lat alt out hlat halt h
  have hb : broadcastAlt lon.length alt = .ok alt := broadcastAlt_eq halt
  simp only [gridInverseLoc, hb, if_pos hlat.symm] at h
  split at h
  · cases h
  rename_i hn
  simp only [Except.ok.injEq] at h
  subst h
  refine ⟨by simp [hlat, halt], ?_⟩
  intro i x y z hx hy hz
  have hmem := List.mem_of_getElem? (getElem?_zip3 hx hy hz)
  have hr : gridPointRaises g p rad rtx cosdeg n x y z = false := by
    by_contra hc
    exact hn (List.any_eq_true.2 ⟨_, hmem, by simpa using hc⟩)
  refine ⟨gridInversePoint g p rad rtx cosdeg n x y z, by rw [List.getElem?_map, getElem?_zip3 hx hy hz]; rfl, ?_⟩
  simp only [gridInverseLoc, broadcastAlt_single, List.length_cons, List.length_nil, if_true, List.replicate, List.zip_cons_cons,
    List.zip_nil_right, List.any_cons, List.any_nil, Bool.or_false, hr, List.map_cons, List.map_nil]
  rfl

/-- C28, all the sizes for the grids: one altitude is used for all the points; of several altitudes whose number is not the number of
points only the first is used; no altitude is an error when there are points. -/
theorem C28_grid_sizes (g : MultiGrid K) (row col : List (Option K)) :
    (∀ a, gridDirectLocH g row col [a] = gridDirectLocH g row col (List.replicate col.length a)) ∧
    (∀ a rest, rest.length + 1 ≠ col.length → gridDirectLocH g row col (a :: rest) = gridDirectLocH g row col [a]) ∧
    (col ≠ [] → gridDirectLocH g row col [] = .error .badSizes) := by
  refine ⟨?_, ?_, ?_⟩
  · intro a
    simp only [gridDirectLocH, broadcastAlt_single, broadcastAlt_eq (List.length_replicate ..)]
  · intro a rest h
    have : broadcastAlt col.length (a :: rest) = broadcastAlt col.length [a] := by
      rw [broadcastAlt_single]; simp only [broadcastAlt, List.length_cons]; rw [if_neg h]
    simp only [gridDirectLocH, this]
  · intro h
    have : broadcastAlt (K := K) col.length [] = .error .badSizes := by
      simp only [broadcastAlt]
      rw [if_neg (fun h' => h (List.length_eq_zero_iff.1 h'.symm))]
    simp only [gridDirectLocH, this]

/-- C28, all the sizes for `Grid.inverse_loc`. -/
theorem C28_grid_inverse_sizes (g : MultiGrid K) (p : Predictor K) (rad rtx : K) (cosdeg : K → K) (n : ℕ) (lon lat : List (Option K)) :
    (∀ a, gridInverseLoc g p rad rtx cosdeg lon lat [a] n = gridInverseLoc g p rad rtx cosdeg lon lat (List.replicate lon.length a) n) ∧
    (∀ a rest, rest.length + 1 ≠ lon.length →
      gridInverseLoc g p rad rtx cosdeg lon lat (a :: rest) n = gridInverseLoc g p rad rtx cosdeg lon lat [a] n) ∧
    (lon ≠ [] → gridInverseLoc g p rad rtx cosdeg lon lat [] n = .error .badSizes) := by
  refine ⟨?_, ?_, ?_⟩
  · intro a
    simp only [gridInverseLoc, broadcastAlt_single, broadcastAlt_eq (List.length_replicate ..)]
  · intro a rest h
    have : broadcastAlt lon.length (a :: rest) = broadcastAlt lon.length [a] := by
      rw [broadcastAlt_single]; simp only [broadcastAlt, List.length_cons]; rw [if_neg h]
    simp only [gridInverseLoc, this]
  · intro h
    have : broadcastAlt (K := K) lon.length [] = .error .badSizes := by
      simp only [broadcastAlt]
      rw [if_neg (fun h' => h (List.length_eq_zero_iff.1 h'.symm))]
    simp only [gridInverseLoc, this]

/-- Two points with two altitudes, the second row being the one of the second point alone; three points with two altitudes are located at
the first one. -/
example : directLocH directOnlyRpc [some 300, some 300] [some 500, some 500] [some 150, some 100] false true =
      .ok [⟨some (21 / 2), some (81 / 4), some 150⟩, ⟨some 10, some 20, some 100⟩] ∧
    directLocH directOnlyRpc [some 300] [some 500] [some 100] false true = .ok [⟨some 10, some 20, some 100⟩] := by
  decide +kernel

end Shareloc
