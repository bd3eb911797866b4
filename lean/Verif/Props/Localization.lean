import Verif.Model.Localization
import Verif.Props.Affine

/-!
# C53: dispatch of the localisation; C54: colocalisation; C55: geotransform; C56: extent
-/

set_option linter.unusedSectionVars false

namespace Shareloc
variable {K δ : Type*} [Field K] [LinearOrder K] [IsStrictOrderedRing K]

/-! ### C53 -/

/-- Specification: ground coordinates `g` given in the system `src`, expressed in the system asked by the user. -/
def expressed (conv : ℕ → ℕ → ORow K → ORow K) (asked : Option ℕ) (src : ℕ) (g : List (ORow K)) : List (ORow K) :=
  match asked with
  | none => g
  | some e => if e = src then g else g.map (conv src e)

/-- C53. With an altitude, the model is called with it, whatever the elevation of the object; the result is in the system of
the model, or in the one asked. -/
theorem C53_given_altitude (conv : ℕ → ℕ → ORow K → ORow K) (L : Localization K δ) (row col h : List (Option K)) (g : List (ORow K))
    (hm : L.model.directH row col h = .ok g) :
    L.direct conv row col (some h) false = .ok (expressed conv L.epsg L.model.epsg g) := by
  simp only [Localization.direct, Localization.toPhysical, Localization.modelDirect, hm, expressed]
  cases L.epsg with
  | none => rfl
  | some e => by_cases he : e = L.model.epsg <;> simp [he]

/-- C53. Without altitude and with a DTM, the DTM is used; the result is in the system of the DTM, or in the one asked. -/
theorem C53_dtm (conv : ℕ → ℕ → ORow K → ORow K) (L : Localization K δ) (row col : List (Option K)) (epsg : ℕ) (d : δ) (g : List (ORow K))
    (he : L.elevation = .dtm epsg d) (hm : L.model.directDtm row col d = .ok g) :
    L.direct conv row col none false = .ok (expressed conv L.epsg epsg g) := by
  simp only [Localization.direct, Localization.toPhysical, Localization.modelDirect, he, hm, expressed]
  cases L.epsg with
  | none => rfl
  | some e => by_cases he : e = epsg <;> simp [he]

/-- C53. Without altitude nor DTM, the default elevation is used, 0 if none was given. -/
theorem C53_default (conv : ℕ → ℕ → ORow K → ORow K) (L : Localization K δ) (row col : List (Option K)) (g : List (ORow K)) :
    (∀ l, L.elevation = .value l → L.model.directH row col l = .ok g →
      L.direct conv row col none false = .ok (expressed conv L.epsg L.model.epsg g)) ∧
    (L.elevation = .missing → L.model.directH row col [some 0] = .ok g →
      L.direct conv row col none false = .ok (expressed conv L.epsg L.model.epsg g)) := by
  constructor
  · intro l he hm
    simp only [Localization.direct, Localization.toPhysical, Localization.modelDirect, Localization.defaultElevation, he, hm, expressed]
    cases L.epsg with
    | none => rfl
    | some e => by_cases he : e = L.model.epsg <;> simp [he]
  · intro he hm
    simp only [Localization.direct, Localization.toPhysical, Localization.modelDirect, Localization.defaultElevation, he, hm, expressed]
    cases L.epsg with
    | none => rfl
    | some e => by_cases he : e = L.model.epsg <;> simp [he]

/-- C53. With an altitude, the elevation of the object has no effect. -/
theorem C53_altitude_overrides (conv : ℕ → ℕ → ORow K → ORow K) (L : Localization K δ) (el : Elevation K δ) (row col h : List (Option K))
    (geo : Bool) : Localization.direct conv { L with elevation := el } row col (some h) geo = L.direct conv row col (some h) geo := rfl

/-- C53. The errors of the model are passed on. -/
theorem C53_model_error (conv : ℕ → ℕ → ORow K → ORow K) (L : Localization K δ) (row col h : List (Option K)) (e : RpcError)
    (hm : L.model.directH row col h = .error e) : L.direct conv row col (some h) false = .error (.model e) := by
  simp only [Localization.direct, Localization.toPhysical, Localization.modelDirect, hm]

theorem zip_xyz (g : List (ORow K)) :
    ((g.map fun p => p.x).zip ((g.map fun p => p.y).zip (g.map fun p => p.z))).map (fun t => (⟨t.1, t.2.1, t.2.2⟩ : ORow K)) = g := by
  induction g with
  | nil => rfl
  | cons p g ih => simp only [List.map_cons, List.zip_cons_cons, ih]

/-- What the model receives for points expressed in the system asked is what they are in its own system, when the conversions
undo each other on these points. -/
theorem toModel_expressed (conv : ℕ → ℕ → ORow K → ORow K) (L : Localization K δ) (g : List (ORow K))
    (hconv : ∀ e, L.epsg = some e → e ≠ L.model.epsg → ∀ p ∈ g, conv e L.model.epsg (conv L.model.epsg e p) = p) :
    L.toModel conv ((expressed conv L.epsg L.model.epsg g).map fun p => p.x) ((expressed conv L.epsg L.model.epsg g).map fun p => p.y)
      ((expressed conv L.epsg L.model.epsg g).map fun p => p.z) =
      .ok (g.map (fun p => p.x), g.map (fun p => p.y), g.map (fun p => p.z)) := by
  unfold Localization.toModel expressed
  cases he : L.epsg with
  | none => rfl
  | some e =>
    by_cases hne : e = L.model.epsg
    · simp only [hne, if_true]; simp
    · have hne' : ¬ L.model.epsg = e := fun h => hne h.symm
      simp only [hne, if_false, ne_eq, hne', not_false_eq_true, if_true, fillColumn, List.length_map]
      have : List.map (conv e L.model.epsg) (List.map (conv L.model.epsg e) g) = g := by
        rw [List.map_map]
        have h2 : ∀ p ∈ g, (conv e L.model.epsg ∘ conv L.model.epsg e) p = p := fun p hp => hconv e he hne p hp
        rw [List.map_congr_left h2, List.map_id']
      rw [zip_xyz, this]

/-- C53. The inverse location undoes the direct location for the same altitude, in any coordinate system: if the model finds
the positions back from its own ground points, so does the localisation from its results (coordinates and altitude as
returned), provided that the conversions undo each other on these points.  The altitude returned is that of the model. -/
theorem C53_round_trip (conv : ℕ → ℕ → ORow K → ORow K) (L : Localization K δ) (row col h : List (Option K)) (g : List (ORow K))
    (rc : List (Option K × Option K)) (hm : L.model.directH row col h = .ok g)
    (hi : L.model.inverse (g.map fun p => p.x) (g.map fun p => p.y) (g.map fun p => p.z) = .ok (some rc))
    (hconv : ∀ e, L.epsg = some e → e ≠ L.model.epsg → ∀ p ∈ g, conv e L.model.epsg (conv L.model.epsg e p) = p) :
    ∃ out, L.direct conv row col (some h) false = .ok out ∧
      L.inverse conv (out.map fun p => p.x) (out.map fun p => p.y) (some (out.map fun p => p.z)) false =
        .ok (some rc, g.map fun p => p.z) := by
  refine ⟨_, C53_given_altitude conv L row col h g hm, ?_⟩
  unfold Localization.inverse
  simp only [Option.getD_some, toModel_expressed conv L g hconv, hi]

/-- C53. The same on a DTM, in the system of the DTM when no other is asked and this is that of the model. -/
theorem C53_round_trip_dtm (conv : ℕ → ℕ → ORow K → ORow K) (L : Localization K δ) (row col : List (Option K)) (d : δ) (g : List (ORow K))
    (rc : List (Option K × Option K)) (he : L.elevation = .dtm L.model.epsg d) (hm : L.model.directDtm row col d = .ok g)
    (hi : L.model.inverse (g.map fun p => p.x) (g.map fun p => p.y) (g.map fun p => p.z) = .ok (some rc))
    (hconv : ∀ e, L.epsg = some e → e ≠ L.model.epsg → ∀ p ∈ g, conv e L.model.epsg (conv L.model.epsg e p) = p) :
    ∃ out, L.direct conv row col none false = .ok out ∧
      L.inverse conv (out.map fun p => p.x) (out.map fun p => p.y) (some (out.map fun p => p.z)) false =
        .ok (some rc, g.map fun p => p.z) := by
  refine ⟨_, C53_dtm conv L row col L.model.epsg d g he hm, ?_⟩
  unfold Localization.inverse
  simp only [Option.getD_some, toModel_expressed conv L g hconv, hi]

/-- C53. Without altitude the inverse location uses the default elevation: that of the object, 0 with a DTM. -/
theorem C53_inverse_default (conv : ℕ → ℕ → ORow K → ORow K) (L : Localization K δ) (lon lat : List (Option K)) (geo : Bool) :
    L.inverse conv lon lat none geo = L.inverse conv lon lat (some L.defaultElevation) geo ∧
    (∀ e d, L.elevation = .dtm e d → L.defaultElevation = [some 0]) ∧ (L.elevation = .missing → L.defaultElevation = [some 0]) ∧
    (∀ l, L.elevation = .value l → L.defaultElevation = l) := by
  refine ⟨rfl, ?_, ?_, ?_⟩
  · intro e d h; simp [Localization.defaultElevation, h]
  · intro h; simp [Localization.defaultElevation, h]
  · intro l h; simp [Localization.defaultElevation, h]

/-- C53. In another system than that of the model, the inverse location first converts the points, each with its altitude; one
altitude (or latitude) is that of all the points, and any other number of altitudes or of latitudes is refused. -/
theorem C53_inverse_converted (conv : ℕ → ℕ → ORow K → ORow K) (L : Localization K δ) (e : ℕ) (he : L.epsg = some e)
    (hne : L.model.epsg ≠ e) (geo : Bool) :
    (∀ pts : List (ORow K), L.inverse conv (pts.map fun p => p.x) (pts.map fun p => p.y) (some (pts.map fun p => p.z)) geo =
      Localization.inverse conv { L with epsg := none } ((pts.map (conv e L.model.epsg)).map fun p => p.x)
        ((pts.map (conv e L.model.epsg)).map fun p => p.y) (some ((pts.map (conv e L.model.epsg)).map fun p => p.z)) geo) ∧
    (∀ (lon lat : List (Option K)) (a : Option K), L.inverse conv lon lat (some [a]) geo =
      L.inverse conv lon lat (some (List.replicate lon.length a)) geo) ∧
    (∀ lon lat h : List (Option K), h.length ≠ lon.length → h.length ≠ 1 →
      L.inverse conv lon lat (some h) geo = .error .valueError) ∧
    (∀ (lon h : List (Option K)) (a : Option K), L.inverse conv lon [a] (some h) geo =
      L.inverse conv lon (List.replicate lon.length a) (some h) geo) ∧
    (∀ lon lat h : List (Option K), lat.length ≠ lon.length → lat.length ≠ 1 →
      L.inverse conv lon lat (some h) geo = .error .valueError) := by
  have hf1 : ∀ n (a : Option K), fillColumn n [a] = .ok (List.replicate n a) := by
    intro n a
    unfold fillColumn
    split_ifs with h
    · simp only [List.length_singleton] at h; subst h; rfl
    · rfl
  have hfn : ∀ n (h : List (Option K)), h.length = n → fillColumn n h = .ok h := by
    intro n h hh; unfold fillColumn; rw [if_pos hh]
  have hfe : ∀ n (h : List (Option K)), h.length ≠ n → h.length ≠ 1 → fillColumn n h = .error .valueError := by
    intro n h h1 h2
    unfold fillColumn
    rw [if_neg h1]
    match h, h2 with
    | [], _ => rfl
    | [_], h2 => exact absurd rfl h2
    | _ :: _ :: _, _ => rfl
  refine ⟨?_, ?_, ?_, ?_, ?_⟩
  · intro pts
    simp only [Localization.inverse, Option.getD_some, Localization.toModel, he, if_pos hne, List.length_map,
      hfn _ (pts.map fun p => p.z) (List.length_map ..), hfn _ (pts.map fun p => p.y) (List.length_map ..), zip_xyz]
  · intro lon lat a
    simp only [Localization.inverse, Option.getD_some, Localization.toModel, he, if_pos hne, hf1,
      hfn _ (List.replicate lon.length a) (List.length_replicate ..)]
  · intro lon lat h h1 h2
    simp only [Localization.inverse, Option.getD_some, Localization.toModel, he, if_pos hne, hfe _ h h1 h2]
    cases fillColumn lon.length lat <;> rfl
  · intro lon h a
    simp only [Localization.inverse, Option.getD_some, Localization.toModel, he, if_pos hne, hf1,
      hfn _ (List.replicate lon.length a) (List.length_replicate ..)]
  · intro lon lat h h1 h2
    simp only [Localization.inverse, Option.getD_some, Localization.toModel, he, if_pos hne, hfe _ lat h1 h2]

/-- A model over the plane: position = ground coordinates moved by the altitude; DTM = a constant height. -/
def shiftGeo : Geo ℚ ℚ where
  epsg := 4326
  bounds := ((0, 0), (10, 10))
  directH := fun row col h => match h with
    | [a] => .ok (List.zipWith (fun r c => ⟨olift2 (fun c a => c + a) c a, olift2 (fun r a => r + a) r a, a⟩) row col)
    | _ => .error .badSizes
  directDtm := fun row col d => .ok (List.zipWith (fun r c => ⟨c.map fun c => c + d, r.map fun r => r + d, some d⟩) row col)
  inverse := fun lon lat h => .ok (some ((lon.zip (lat.zip h)).map fun t =>
    (olift2 (fun y a => y - a) t.2.1 t.2.2, olift2 (fun x a => x - a) t.1 t.2.2)))

/-- C53, not claimed by the code: with a DTM and no altitude, the inverse location of a direct location is not the point
started from (the DTM is used by one and not by the other). -/
theorem C53_inverse_ignores_dtm :
    ∃ (L : Localization ℚ ℚ) (conv : ℕ → ℕ → ORow ℚ → ORow ℚ) (g : List (ORow ℚ)),
      L.direct conv [some 1] [some 2] none false = .ok g ∧
      L.inverse conv (g.map fun p => p.x) (g.map fun p => p.y) (some (g.map fun p => p.z)) false = .ok (some [(some 1, some 2)], [some 7]) ∧
      L.inverse conv (g.map fun p => p.x) (g.map fun p => p.y) none false = .ok (some [(some 8, some 9)], [some 0]) := by
  refine ⟨⟨shiftGeo, .dtm 4326 7, none, none⟩, fun _ _ p => p, [⟨some 9, some 8, some 7⟩], ?_, ?_, ?_⟩ <;> decide +kernel

/-- The hypotheses of `C53_round_trip` are met, with a conversion. -/
example : ∃ out, Localization.direct (K := ℚ) (δ := ℚ) (fun a b p => ⟨p.x.map fun x => x + b - a, p.y, p.z⟩) ⟨shiftGeo, .missing, none, some 32631⟩
    [some 1] [some 2] (some [some 5]) false = .ok out ∧ out = [⟨some (7 + 32631 - 4326), some 6, some 5⟩] := by
  refine ⟨_, ?_, rfl⟩
  decide +kernel

/-! ### C55 -/

/-- C55. With the geotransform, the direct location of an index is that of the physical position of the index. -/
theorem C55_direct (conv : ℕ → ℕ → ORow K → ORow K) (L : Localization K δ) (im : LocImage K) (him : L.image = some im)
    (pts : List (K × K)) (h : Option (List (Option K))) :
    L.direct conv (pts.map fun p => some p.1) (pts.map fun p => some p.2) h true =
      L.direct conv (pts.map fun p => some (indexToPhysical im.transform p.1 p.2).1)
        (pts.map fun p => some (indexToPhysical im.transform p.1 p.2).2) h false := by
  have hz : List.zipWith (oIndexToPhysical im.transform) (pts.map fun p => some p.1) (pts.map fun p => some p.2) =
      pts.map fun p => (some (indexToPhysical im.transform p.1 p.2).1, some (indexToPhysical im.transform p.1 p.2).2) := by
    rw [List.zipWith_map, List.zipWith_self]
    rfl
  simp only [Localization.direct, Localization.toPhysical, him, List.length_map, if_true, hz, List.map_map]
  rfl

/-- C55. With the geotransform, the inverse location is the index of the physical position found without it; altitudes are
the same. -/
theorem C55_inverse (conv : ℕ → ℕ → ORow K → ORow K) (L : Localization K δ) (im : LocImage K) (him : L.image = some im)
    (lon lat : List (Option K)) (h : Option (List (Option K))) (pts : List (K × K)) (alt : List (Option K))
    (hi : L.inverse conv lon lat h false = .ok (some (pts.map fun p => (some p.1, some p.2)), alt)) :
    L.inverse conv lon lat h true =
      .ok (some (pts.map fun p => (some (physicalToIndex im.transform.inv p.1 p.2).1,
        some (physicalToIndex im.transform.inv p.1 p.2).2)), alt) := by
  unfold Localization.inverse at hi ⊢
  cases ht : L.toModel conv lon lat (h.getD L.defaultElevation) with
  | error e => rw [ht] at hi; simp at hi
  | ok c =>
    rw [ht] at hi
    simp only at hi ⊢
    cases hm : L.model.inverse c.1 c.2.1 c.2.2 with
    | error e => rw [hm] at hi; simp at hi
    | ok rc =>
      rw [hm] at hi
      simp only [Except.ok.injEq, Prod.mk.injEq] at hi
      obtain ⟨rfl, rfl⟩ := hi
      simp only [him, List.map_map]
      rfl

/-- C55. A NaN in a coordinate gives a NaN position. -/
theorem C55_nan (t : Affine K) (c : Option K) :
    oIndexToPhysical t none c = (none, none) ∧ oIndexToPhysical t c none = (none, none) ∧
    oPhysicalToIndex t none c = (none, none) ∧ oPhysicalToIndex t c none = (none, none) := by
  cases c <;> exact ⟨rfl, rfl, rfl, rfl⟩

/-- C55. Round trip with an invertible geotransform: index to ground and back gives the index, if the model finds the physical
positions back. -/
theorem C55_round_trip (conv : ℕ → ℕ → ORow K → ORow K) (L : Localization K δ) (im : LocImage K) (him : L.image = some im)
    (hdet : im.transform.a * im.transform.e - im.transform.b * im.transform.d ≠ 0) (pts : List (K × K)) (h : List (Option K))
    (g : List (ORow K))
    (hm : L.model.directH (pts.map fun p => some (indexToPhysical im.transform p.1 p.2).1)
        (pts.map fun p => some (indexToPhysical im.transform p.1 p.2).2) h = .ok g)
    (hi : L.model.inverse (g.map fun p => p.x) (g.map fun p => p.y) (g.map fun p => p.z) =
      .ok (some (pts.map fun p => (some (indexToPhysical im.transform p.1 p.2).1, some (indexToPhysical im.transform p.1 p.2).2))))
    (hconv : ∀ e, L.epsg = some e → e ≠ L.model.epsg → ∀ p ∈ g, conv e L.model.epsg (conv L.model.epsg e p) = p) :
    ∃ out, L.direct conv (pts.map fun p => some p.1) (pts.map fun p => some p.2) (some h) true = .ok out ∧
      L.inverse conv (out.map fun p => p.x) (out.map fun p => p.y) (some (out.map fun p => p.z)) true =
        .ok (some (pts.map fun p => (some p.1, some p.2)), g.map fun p => p.z) := by
  obtain ⟨out, h1, h2⟩ := C53_round_trip conv L _ _ h g _ hm hi hconv
  refine ⟨out, by rw [C55_direct conv L im him]; exact h1, ?_⟩
  have := C55_inverse conv L im him _ _ _ (pts.map fun p => indexToPhysical im.transform p.1 p.2)
    (g.map fun p => p.z) (by rw [h2]; simp [List.map_map, Function.comp_def])
  rw [this, List.map_map]
  have hback : List.map ((fun p : K × K => (some (physicalToIndex im.transform.inv p.1 p.2).1,
        some (physicalToIndex im.transform.inv p.1 p.2).2)) ∘ fun p => indexToPhysical im.transform p.1 p.2) pts =
      pts.map fun p => (some p.1, some p.2) := by
    apply List.map_congr_left
    intro p _
    simp only [Function.comp_apply, C01_index_physical_index im.transform hdet p.1 p.2]
  rw [hback]

/-- The hypotheses of `C55_round_trip` are met with a rotated, scaled transform. -/
example : ∃ out, Localization.direct (δ := ℚ) (fun _ _ p => p) ⟨shiftGeo, .missing, some ⟨⟨2, 1, 100, -1, 3, 50⟩, 10, 20⟩, none⟩
    [some 4] [some 6] (some [some 5]) true = .ok out ∧
    Localization.inverse (δ := ℚ) (fun _ _ p => p) ⟨shiftGeo, .missing, some ⟨⟨2, 1, 100, -1, 3, 50⟩, 10, 20⟩, none⟩
      (out.map fun p => p.x) (out.map fun p => p.y) (some (out.map fun p => p.z)) true = .ok (some [(some 4, some 6)], [some 5]) := by
  refine ⟨[⟨some (245 / 2), some (62), some 5⟩], ?_, ?_⟩ <;> decide +kernel

/-! ### C54 -/

/-- C54. Arrays of different sizes are refused. -/
theorem C54_sizes (conv : ℕ → ℕ → ORow K → ORow K) (m1 m2 : Geo K δ) (row col : List (Option K)) (el : Elevation K δ)
    (i1 i2 : Option (LocImage K)) (geo : Bool) (h : row.length ≠ col.length) :
    coloc conv m1 m2 row col el i1 i2 geo = .error .valueError := by
  simp [coloc, h]

/-- C54. The colocalisation is the inverse location in image 2 of the direct location in image 1: same number of points, in
order, each with the altitude of its ground point. -/
theorem C54_inverse_of_direct (conv : ℕ → ℕ → ORow K → ORow K) (m1 m2 : Geo K δ) (row col : List (Option K)) (el : Elevation K δ)
    (i1 i2 : Option (LocImage K)) (geo : Bool) (hs : row.length = col.length) (ground : List (ORow K))
    (rc : List (Option K × Option K)) (alt : List (Option K))
    (h1 : Localization.direct conv ⟨m1, el, i1, none⟩ row col none geo = .ok ground)
    (h2 : Localization.inverse conv ⟨m2, el, i2, none⟩ (ground.map fun p => p.x) (ground.map fun p => p.y)
      (some (ground.map fun p => p.z)) geo = .ok (some rc, alt)) (hlen : rc.length = ground.length) :
    ∃ sensor, coloc conv m1 m2 row col el i1 i2 geo = .ok (sensor, ground) ∧ sensor.length = ground.length ∧
      ∀ (i : ℕ) (p : ORow K) (q : Option K × Option K), ground[i]? = some p → rc[i]? = some q →
        sensor[i]? = some ⟨q.1, q.2, p.z⟩ := by
  have halt : alt = ground.map fun p => p.z := by
    unfold Localization.inverse at h2
    simp only [Localization.toModel, Option.getD_some] at h2
    cases hm : m2.inverse (ground.map fun p => p.x) (ground.map fun p => p.y) (ground.map fun p => p.z) with
    | error e => rw [hm] at h2; simp at h2
    | ok r =>
      rw [hm] at h2
      simp only at h2
      split at h2
      · cases r with
        | none => simp at h2
        | some l => simp only [Except.ok.injEq, Prod.mk.injEq] at h2; exact h2.2.symm
      · simp only [Except.ok.injEq, Prod.mk.injEq] at h2; exact h2.2.symm
  refine ⟨(rc.zip alt).map fun t => ⟨t.1.1, t.1.2, t.2⟩, ?_, ?_, ?_⟩
  · simp only [coloc, hs, ne_eq, not_true, if_false, h1, h2, Option.getD_some]
  · simp [halt, hlen]
  · intro i p q hp hq
    simp only [halt, List.getElem?_map, List.getElem?_zip_eq_some, Option.map_eq_some_iff]
    exact ⟨(q, p.z), ⟨hq, p, hp, rfl⟩, rfl⟩

/-- A model that locates each point by itself: `ground` at an altitude and on a DTM (in the system of the DTM), `sensor` its
inverse. -/
structure Pointwise (m : Geo K δ) (groundDtm : δ → Option K → Option K → ORow K) (sensor : ORow K → Option K × Option K) : Prop where
  dtm : ∀ row col d, row.length = col.length → m.directDtm row col d = .ok (List.zipWith (groundDtm d) row col)
  inv : ∀ g : List (ORow K), m.inverse (g.map fun p => p.x) (g.map fun p => p.y) (g.map fun p => p.z) = .ok (some (g.map sensor))

/-- C54. For models that locate each point by itself, each point is colocalised by itself. -/
theorem C54_pointwise (conv : ℕ → ℕ → ORow K → ORow K) (m1 m2 : Geo K δ) (f1 f2 : δ → Option K → Option K → ORow K)
    (s1 s2 : ORow K → Option K × Option K) (hp1 : Pointwise m1 f1 s1) (hp2 : Pointwise m2 f2 s2) (pts : List (Option K × Option K))
    (e : ℕ) (d : δ) :
    coloc conv m1 m2 (pts.map fun p => p.1) (pts.map fun p => p.2) (.dtm e d) none none false =
      .ok (pts.map fun p => ⟨(s2 (f1 d p.1 p.2)).1, (s2 (f1 d p.1 p.2)).2, (f1 d p.1 p.2).z⟩, pts.map fun p => f1 d p.1 p.2) := by
  have hz : List.zipWith (f1 d) (pts.map fun p => p.1) (pts.map fun p => p.2) = pts.map fun p => f1 d p.1 p.2 := by
    rw [List.zipWith_map, List.zipWith_self]
  have hd : Localization.direct conv ⟨m1, .dtm e d, none, none⟩ (pts.map fun p => p.1) (pts.map fun p => p.2) none false =
      .ok (pts.map fun p => f1 d p.1 p.2) := by
    have := C53_dtm conv ⟨m1, .dtm e d, none, none⟩ _ _ e d _ rfl (hp1.dtm (pts.map fun p => p.1) (pts.map fun p => p.2) d (by simp))
    rw [this, hz]; rfl
  have hi : Localization.inverse conv ⟨m2, .dtm e d, none, none⟩ ((pts.map fun p => f1 d p.1 p.2).map fun p => p.x)
      ((pts.map fun p => f1 d p.1 p.2).map fun p => p.y) (some ((pts.map fun p => f1 d p.1 p.2).map fun p => p.z)) false =
      .ok (some ((pts.map fun p => f1 d p.1 p.2).map s2), (pts.map fun p => f1 d p.1 p.2).map fun p => p.z) := by
    simp only [Localization.inverse, Localization.toModel, Option.getD_some, hp2.inv]
  unfold coloc
  rw [hd]
  simp only [List.length_map, ne_eq, not_true, if_false]
  rw [hi]
  simp only [Option.getD_some, Except.ok.injEq, Prod.mk.injEq, and_true]
  rw [List.zip_map', List.map_map, List.map_map]
  rfl

/-- C54. Colocalising an image with itself gives the same positions, for a model that finds its ground points back, when the
DTM and the model are in the same system.
Missing: a DTM in another system (`C54_dtm_system_counterexample`). -/
theorem C54_identity_partial (conv : ℕ → ℕ → ORow K → ORow K) (m : Geo K δ) (f : δ → Option K → Option K → ORow K)
    (s : ORow K → Option K × Option K) (hp : Pointwise m f s) (pts : List (Option K × Option K)) (d : δ)
    (hback : ∀ p ∈ pts, s (f d p.1 p.2) = p) :
    coloc conv m m (pts.map fun p => p.1) (pts.map fun p => p.2) (.dtm m.epsg d) none none false =
      .ok (pts.map fun p => ⟨p.1, p.2, (f d p.1 p.2).z⟩, pts.map fun p => f d p.1 p.2) := by
  rw [C54_pointwise conv m m f f s s hp hp]
  congr 2
  apply List.map_congr_left
  intro p hpm
  rw [hback p hpm]

/-- A model in the system 1, and its conversion to the system 2: the axes are shifted by 100. -/
def convEx (a b : ℕ) (p : ORow ℚ) : ORow ℚ :=
  if a = 1 ∧ b = 2 then ⟨p.x.map fun x => x + 100, p.y, p.z⟩
  else if a = 2 ∧ b = 1 then ⟨p.x.map fun x => x - 100, p.y, p.z⟩ else p

/-- A model in the system 1 that gives, on a DTM in the system 2, the ground point in the system of the DTM, as documented. -/
def otherSystemGeo : Geo ℚ ℚ where
  epsg := 1
  bounds := ((0, 0), (10, 10))
  directH := fun row col _ => .ok (List.zipWith (fun r c => ⟨c, r, some 0⟩) row col)
  directDtm := fun row col d => .ok (List.zipWith (fun r c => convEx 1 2 ⟨c, r, some d⟩) row col)
  inverse := fun lon lat h => .ok (some ((lon.zip (lat.zip h)).map fun t => (t.2.1, t.1)))

/-- C54, full claim false: with a DTM in another system than the model, the ground point is not converted before the inverse
location, so that colocalising an image with itself does not give the same position, although the localisation on the DTM and
the inverse location are exact (converting the ground point gives the position back). -/
theorem C54_dtm_system_counterexample :
    ∃ ground : ORow ℚ,
      otherSystemGeo.directDtm [some 3] [some 4] 7 = .ok [ground] ∧
      otherSystemGeo.inverse [(convEx 2 1 ground).x] [(convEx 2 1 ground).y] [(convEx 2 1 ground).z] = .ok (some [(some 3, some 4)]) ∧
      coloc convEx otherSystemGeo otherSystemGeo [some 3] [some 4] (.dtm 2 7) none none false =
        .ok ([⟨some 3, some 104, some 7⟩], [ground]) := by
  refine ⟨⟨some 104, some 3, some 7⟩, ?_, ?_, ?_⟩ <;> decide +kernel

theorem shiftGeo_pointwise : Pointwise shiftGeo (fun d r c => ⟨c.map fun c => c + d, r.map fun r => r + d, some d⟩)
    (fun p => (olift2 (fun y a => y - a) p.y p.z, olift2 (fun x a => x - a) p.x p.z)) := by
  refine ⟨fun row col d _ => rfl, fun g => ?_⟩
  simp only [shiftGeo, Except.ok.injEq, Option.some.injEq]
  induction g with
  | nil => rfl
  | cons p g ih => simp only [List.map_cons, List.zip_cons_cons, ih]

example : coloc (fun _ _ p => p) shiftGeo shiftGeo [some 1, some 3] [some 2, none] (.dtm 4326 7) none none false =
    .ok ([⟨some 1, some 2, some 7⟩, ⟨some 3, none, some 7⟩], [⟨some 9, some 8, some 7⟩, ⟨none, some 10, some 7⟩]) := by
  decide +kernel

/-! ### C56 -/

/-- The result of `extent` for a localisation whose ground positions at altitude 0 are `lon`, `lat`. -/
structure GroundAt (conv : ℕ → ℕ → ORow K → ORow K) (L : Localization K δ) (geo : Bool) (lon lat : K → K → K) : Prop where
  loc : ∀ r r' c c', ∃ z z', L.direct conv [some r, some r'] [some c, some c'] (some [some 0]) geo =
    .ok [⟨some (lon r c), some (lat r c), z⟩, ⟨some (lon r' c'), some (lat r' c'), z'⟩]

/-- C56. What `extent` returns: latitude before longitude, the box of the ground positions of the first and last corners,
enlarged by the margin. -/
theorem C56_box_of_two_corners (conv : ℕ → ℕ → ORow K → ORow K) (L : Localization K δ) (margin : K) (r0 c0 r1 c1 : K) (geo : Bool)
    (hf : L.footprint = (((r0, c0), (r1, c1)), geo)) (lon lat : K → K → K) (hg : GroundAt conv L geo lon lat) :
    L.extent conv margin = .ok
      ⟨some (min (lat r0 c0) (lat r1 c1) - margin), some (min (lon r0 c0) (lon r1 c1) - margin),
       some (max (lat r0 c0) (lat r1 c1) + margin), some (max (lon r0 c0) (lon r1 c1) + margin)⟩ := by
  obtain ⟨z, z', h⟩ := hg.loc r0 r1 c0 c1
  unfold Localization.extent
  rw [hf]
  simp only [h, boxOf, omin, omax, olift2, Option.map_some]

/-- C56. The corners: the whole image including the borders of its pixels, with an image; the bounds of the model without. -/
theorem C56_footprint (L : Localization K δ) :
    (∀ im, L.image = some im → L.footprint = ((((-1 / 2 : K), (-1 / 2 : K)), ((im.nbRows : K) - 1 / 2, (im.nbCols : K) - 1 / 2)), true)) ∧
    (L.image = none → L.footprint = (L.model.bounds, false)) := by
  refine ⟨?_, ?_⟩
  · intro im h
    unfold Localization.footprint
    rw [h]
    simp only [Prod.mk.injEq, and_true, true_and]
    constructor <;> ring
  · intro h
    unfold Localization.footprint
    rw [h]

/-- A point is in the box returned. -/
def InExtent (e : LocExtent K) (lon lat : K) : Prop :=
  ∃ a b c d, e = ⟨some a, some b, some c, some d⟩ ∧ a ≤ lat ∧ lat ≤ c ∧ b ≤ lon ∧ lon ≤ d

/-- A function of row and column that varies in the same direction with both. -/
def SameDirection (f : K → K → K) : Prop :=
  (∀ r r' c c', r ≤ r' → c ≤ c' → f r c ≤ f r' c') ∨ (∀ r r' c c', r ≤ r' → c ≤ c' → f r' c' ≤ f r c)

theorem sameDirection_between {f : K → K → K} (h : SameDirection f) {r0 r1 c0 c1 r c : K} (h1 : r0 ≤ r) (h2 : r ≤ r1) (h3 : c0 ≤ c)
    (h4 : c ≤ c1) : min (f r0 c0) (f r1 c1) ≤ f r c ∧ f r c ≤ max (f r0 c0) (f r1 c1) := by
  rcases h with h | h
  · exact ⟨(min_le_left _ _).trans (h _ _ _ _ h1 h3), (h _ _ _ _ h2 h4).trans (le_max_right _ _)⟩
  · exact ⟨(min_le_right _ _).trans (h _ _ _ _ h2 h4), (h _ _ _ _ h1 h3).trans (le_max_left _ _)⟩

/-- C56, the part that holds: the box contains the ground position of every point of the image when longitude and latitude
each vary in one direction with rows and columns.  Missing: any other orientation of the image, for which the two corners
used are not enough (`C56_affine_corners_iff`). -/
theorem C56_contains_footprint_partial (conv : ℕ → ℕ → ORow K → ORow K) (L : Localization K δ) (margin : K) (hmg : 0 ≤ margin)
    (r0 c0 r1 c1 : K) (geo : Bool) (hf : L.footprint = (((r0, c0), (r1, c1)), geo)) (lon lat : K → K → K)
    (hg : GroundAt conv L geo lon lat) (h1 : SameDirection lon) (h2 : SameDirection lat) :
    ∃ e, L.extent conv margin = .ok e ∧ ∀ r c, r0 ≤ r → r ≤ r1 → c0 ≤ c → c ≤ c1 → InExtent e (lon r c) (lat r c) := by
  refine ⟨_, C56_box_of_two_corners conv L margin r0 c0 r1 c1 geo hf lon lat hg, ?_⟩
  intro r c a1 a2 a3 a4
  obtain ⟨b1, b2⟩ := sameDirection_between h1 a1 a2 a3 a4
  obtain ⟨b3, b4⟩ := sameDirection_between h2 a1 a2 a3 a4
  exact ⟨_, _, _, _, rfl, by linarith, by linarith, by linarith, by linarith⟩

/-- C56. For a location that is affine in row and column, the box without margin contains the four corners exactly when the
longitude varies in one direction with rows and columns, and so does the latitude. -/
theorem C56_affine_corners_iff (conv : ℕ → ℕ → ORow K → ORow K) (L : Localization K δ) (r0 c0 r1 c1 : K) (hr : r0 < r1) (hc : c0 < c1)
    (geo : Bool) (hf : L.footprint = (((r0, c0), (r1, c1)), geo)) (a b k a' b' k' : K)
    (hg : GroundAt conv L geo (fun r c => a * r + b * c + k) (fun r c => a' * r + b' * c + k')) :
    (∃ e, L.extent conv 0 = .ok e ∧
      InExtent e (a * r0 + b * c0 + k) (a' * r0 + b' * c0 + k') ∧ InExtent e (a * r1 + b * c1 + k) (a' * r1 + b' * c1 + k') ∧
      InExtent e (a * r0 + b * c1 + k) (a' * r0 + b' * c1 + k') ∧ InExtent e (a * r1 + b * c0 + k) (a' * r1 + b' * c0 + k')) ↔
    (0 ≤ a * b ∧ 0 ≤ a' * b') := by
  have hbox := C56_box_of_two_corners conv L 0 r0 c0 r1 c1 geo hf _ _ hg
  have key : ∀ u v w : K, (min (u * r0 + v * c0 + w) (u * r1 + v * c1 + w) ≤ u * r0 + v * c1 + w ∧
      u * r0 + v * c1 + w ≤ max (u * r0 + v * c0 + w) (u * r1 + v * c1 + w) ∧
      min (u * r0 + v * c0 + w) (u * r1 + v * c1 + w) ≤ u * r1 + v * c0 + w ∧
      u * r1 + v * c0 + w ≤ max (u * r0 + v * c0 + w) (u * r1 + v * c1 + w)) ↔ 0 ≤ u * v := by
    intro u v w
    have hu : 0 < r1 - r0 := sub_pos.2 hr
    have hv : 0 < c1 - c0 := sub_pos.2 hc
    constructor
    · rintro ⟨h1, h2, h3, h4⟩
      by_contra hneg
      push Not at hneg
      rcases mul_neg_iff.1 hneg with ⟨p, q⟩ | ⟨p, q⟩
      · have e1 : 0 < u * (r1 - r0) := mul_pos p hu
        have e2 : v * (c1 - c0) < 0 := mul_neg_of_neg_of_pos q hv
        rcases min_le_iff.1 h1 with h | h <;> nlinarith
      · have e1 : u * (r1 - r0) < 0 := mul_neg_of_neg_of_pos p hu
        have e2 : 0 < v * (c1 - c0) := mul_pos q hv
        rcases le_max_iff.1 h2 with h | h <;> nlinarith
    · intro h
      rcases mul_nonneg_iff.1 h with ⟨p, q⟩ | ⟨p, q⟩
      · have e1 : 0 ≤ u * (r1 - r0) := mul_nonneg p hu.le
        have e2 : 0 ≤ v * (c1 - c0) := mul_nonneg q hv.le
        exact ⟨min_le_iff.2 (.inl (by nlinarith)), le_max_iff.2 (.inr (by nlinarith)), min_le_iff.2 (.inl (by nlinarith)),
          le_max_iff.2 (.inr (by nlinarith))⟩
      · have e1 : u * (r1 - r0) ≤ 0 := mul_nonpos_of_nonpos_of_nonneg p hu.le
        have e2 : v * (c1 - c0) ≤ 0 := mul_nonpos_of_nonpos_of_nonneg q hv.le
        exact ⟨min_le_iff.2 (.inr (by nlinarith)), le_max_iff.2 (.inl (by nlinarith)), min_le_iff.2 (.inr (by nlinarith)),
          le_max_iff.2 (.inl (by nlinarith))⟩
  have hin : ∀ x y : K, InExtent (⟨some (min (a' * r0 + b' * c0 + k') (a' * r1 + b' * c1 + k') - 0),
      some (min (a * r0 + b * c0 + k) (a * r1 + b * c1 + k) - 0), some (max (a' * r0 + b' * c0 + k') (a' * r1 + b' * c1 + k') + 0),
      some (max (a * r0 + b * c0 + k) (a * r1 + b * c1 + k) + 0)⟩ : LocExtent K) x y ↔
      (min (a' * r0 + b' * c0 + k') (a' * r1 + b' * c1 + k') ≤ y ∧ y ≤ max (a' * r0 + b' * c0 + k') (a' * r1 + b' * c1 + k')) ∧
      (min (a * r0 + b * c0 + k) (a * r1 + b * c1 + k) ≤ x ∧ x ≤ max (a * r0 + b * c0 + k) (a * r1 + b * c1 + k)) := by
    intro x y
    unfold InExtent
    simp only [LocExtent.mk.injEq, Option.some.injEq, sub_zero, add_zero]
    constructor
    · rintro ⟨_, _, _, _, ⟨rfl, rfl, rfl, rfl⟩, h1, h2, h3, h4⟩
      exact ⟨⟨h1, h2⟩, h3, h4⟩
    · rintro ⟨⟨h1, h2⟩, h3, h4⟩
      exact ⟨_, _, _, _, ⟨rfl, rfl, rfl, rfl⟩, h1, h2, h3, h4⟩
  rw [← key a b k, ← key a' b' k']
  constructor
  · rintro ⟨e, he, -, -, h3, h4⟩
    rw [hbox, Except.ok.injEq] at he
    subst he
    rw [hin] at h3 h4
    exact ⟨⟨h3.2.1, h3.2.2, h4.2.1, h4.2.2⟩, h3.1.1, h3.1.2, h4.1.1, h4.1.2⟩
  · rintro ⟨⟨x1, x2, x3, x4⟩, y1, y2, y3, y4⟩
    refine ⟨_, hbox, ?_, ?_, ?_, ?_⟩
    · rw [hin]; exact ⟨⟨min_le_left _ _, le_max_left _ _⟩, min_le_left _ _, le_max_left _ _⟩
    · rw [hin]; exact ⟨⟨min_le_right _ _, le_max_right _ _⟩, min_le_right _ _, le_max_right _ _⟩
    · rw [hin]; exact ⟨⟨y1, y2⟩, x1, x2⟩
    · rw [hin]; exact ⟨⟨y3, y4⟩, x3, x4⟩

/-- A model whose image is turned by 45 degrees. -/
def turnedGeo : Geo ℚ ℚ where
  epsg := 4326
  bounds := ((0, 0), (10, 10))
  directH := fun row col _ => .ok (List.zipWith (fun r c => ⟨olift2 (fun r c => c - r) r c, olift2 (fun r c => c + r) r c, some 0⟩) row col)
  directDtm := fun _ _ _ => .error .badSizes
  inverse := fun _ _ _ => .error .badSizes

theorem turned_ground : GroundAt (fun _ _ p => p) (⟨turnedGeo, .missing, none, none⟩ : Localization ℚ ℚ) false
    (fun r c => c - r) (fun r c => c + r) :=
  ⟨fun _ _ _ _ => ⟨some 0, some 0, rfl⟩⟩

/-- C56, full claim false: a turned image, whose corner (0, 10) is not in the box. -/
theorem C56_rotated_counterexample :
    ∃ (L : Localization ℚ ℚ) (conv : ℕ → ℕ → ORow ℚ → ORow ℚ) (e : LocExtent ℚ) (lon lat : ℚ → ℚ → ℚ),
      GroundAt conv L false lon lat ∧ L.footprint = (((0, 0), (10, 10)), false) ∧ L.extent conv 0 = .ok e ∧
      ¬ InExtent e (lon 0 10) (lat 0 10) := by
  refine ⟨⟨turnedGeo, .missing, none, none⟩, fun _ _ p => p, ⟨some 0, some 0, some 20, some 0⟩, fun r c => c - r, fun r c => c + r,
    turned_ground, rfl, by decide +kernel, ?_⟩
  rintro ⟨a, b, c, d, h, -, -, -, h4⟩
  simp only [LocExtent.mk.injEq, Option.some.injEq] at h
  rw [← h.2.2.2] at h4
  norm_num at h4

/-- The hypotheses of `C56_contains_footprint_partial` are met by the model `shiftGeo`. -/
example : SameDirection (fun _ c : ℚ => c + 0) ∧ SameDirection (fun r _ : ℚ => r + 0) ∧
    GroundAt (fun _ _ p => p) (⟨shiftGeo, .missing, none, none⟩ : Localization ℚ ℚ) false (fun _ c => c + 0) (fun r _ => r + 0) :=
  ⟨.inl fun _ _ _ _ _ h => by linarith, .inl fun _ _ _ _ h _ => by linarith, ⟨fun _ _ _ _ => ⟨some 0, some 0, rfl⟩⟩⟩

end Shareloc
