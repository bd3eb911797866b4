import Verif.Props.DtmRoi
import Verif.Props.RpcLocalization
import Verif.Props.GridLocalization

/-!
# C99: from the files to the located points
-/

set_option linter.unusedSectionVars false

namespace Shareloc
variable {K : Type*} [Field K] [LinearOrder K] [IsStrictOrderedRing K] [FloorRing K]
open Spec

namespace Spec

/-- The terrain according to the files: at (lon, lat), between the centres of four cells that are in the region of interest and have data, the
altitude is the bilinear interpolation of the values of the DTM file plus the heights of the geoid file. -/
def TerrainOfFiles (conv : ℕ → Option K × Option K → Option K × Option K) (f : DtmFile K) (roi : RoiArg K) (geoid : Option (GeoidImage K))
    (lon lat z : K) : Prop :=
  ∃ (i j : ℕ) (u v : K) (c n : ℕ → ℕ → K), 0 ≤ u ∧ u < 1 ∧ 0 ≤ v ∧ v < 1 ∧ (lon, lat) = groundOf f.transform (i + u) (j + v) ∧
    (∀ p q, p ≤ 1 → q ≤ 1 → InRegion f roi (i + p) (j + q) ∧ HasValue f (i + p) (j + q) (c p q) ∧ HasHeight conv f geoid (i + p) (j + q) (n p q)) ∧
    z = (1 - u) * ((1 - v) * (c 0 0 + n 0 0) + v * (c 0 1 + n 0 1)) + u * ((1 - v) * (c 1 0 + n 1 0) + v * (c 1 1 + n 1 1))

end Spec

theorem readDtm_det (ext : List (Option K) → List ℕ → List (Option K)) (conv : ℕ → Option K × Option K → Option K × Option K)
    (f : DtmFile K) (hf : DtmFile.Complete f) (roi : RoiArg K) (geoid : Option (GeoidImage K)) (strategy : Option FillStrategy)
    (fill : Option (Option K)) (d : LoadedDtm K) (h : readDtm ext conv f roi geoid strategy fill = .ok d) :
    d.transform.a * d.transform.e - d.transform.b * d.transform.d = f.transform.a * f.transform.e - f.transform.b * f.transform.d := by
  obtain ⟨f', r0, c0, ho, -, et, -⟩ := readDtm_ok ext conv f hf roi geoid strategy fill d h
  rw [et]
  exact ho.det

/-- A DTM that is read has at least two rows and two columns. -/
theorem readDtm_size (ext : List (Option K) → List ℕ → List (Option K)) (conv : ℕ → Option K × Option K → Option K × Option K)
    (f : DtmFile K) (hf : DtmFile.Complete f) (roi : RoiArg K) (geoid : Option (GeoidImage K)) (strategy : Option FillStrategy)
    (fill : Option (Option K)) (d : LoadedDtm K) (h : readDtm ext conv f roi geoid strategy fill = .ok d) :
    2 ≤ d.nbRows ∧ 2 ≤ d.nbCols := by
  obtain ⟨f', r0, c0, ho, hrd, et, er, ec, -⟩ := readDtm_ok ext conv f hf roi geoid strategy fill d h
  have hne : d.nbRows ≠ 1 ∧ d.nbCols ≠ 1 := by
    unfold readDtm at h
    split at h
    · simp at h
    · dsimp only at h
      split_ifs at h with hs
      split at h
      · simp at h
      · simp only [Except.ok.injEq] at h
        subst h
        exact not_or.1 hs
  obtain ⟨alt, ha, -⟩ := dtmReader_cells ext conv f' geoid strategy fill d.alt hrd
  have hpos : f'.nbRows * f'.nbCols ≠ 0 := by
    intro h0
    have hd : f'.data = [] := List.eq_nil_of_length_eq_zero (by rw [ho.complete.1, h0])
    have hv : validValues f'.nodata f'.mask f'.data = [] := by
      rw [hd]
      unfold validValues
      cases f'.nodata <;> simp
    rw [C58_no_valid_cell ext f'.dtype f'.nodata f'.mask f'.data fill strategy ho.complete_len hv] at ha
    simp at ha
  have := Nat.ne_zero_of_mul_ne_zero_left hpos
  have := Nat.ne_zero_of_mul_ne_zero_right hpos
  omega

/-- The altitude interpolated by the intersection is the one of the files. -/
theorem terrain_interpolate (ext : List (Option K) → List ℕ → List (Option K)) (conv : ℕ → Option K × Option K → Option K × Option K)
    (f : DtmFile K) (hf : DtmFile.Complete f) (hdet : f.transform.a * f.transform.e - f.transform.b * f.transform.d ≠ 0)
    (roi : RoiArg K) (geoid : Option (GeoidImage K)) (strategy : Option FillStrategy) (fill : Option (Option K))
    (hfill : FillOk ext f strategy) (d : LoadedDtm K) (h : readDtm ext conv f roi geoid strategy fill = .ok d) (D : Dtm K)
    (hD : d.toDtm = some D) (lon lat z alt : K) (ht : TerrainOfFiles conv f roi geoid lon lat z) :
    D.interpolate (terToIndexPy D.transform ⟨lon, lat, alt⟩).x (terToIndexPy D.transform ⟨lon, lat, alt⟩).y = z := by
  obtain ⟨i, j, u, v, c, n, u0, u1, v0, v1, hg, hall, rfl⟩ := ht
  have ha := C98_altitude ext conv f hf hdet roi geoid strategy fill hfill d h i j (fun p q hp hq => (hall p q hp hq).1) c n
    (fun p q hp hq => (hall p q hp hq).2.1) (fun p q hp hq => (hall p q hp hq).2.2) u v u0 u1 v0 v1
  rw [← hg] at ha
  unfold LoadedDtm.toDtm at hD
  split_ifs at hD
  simp only [Option.some.injEq] at hD
  subst hD
  simp only [LoadedDtm.altitudeAt, interpolBilinChecked] at ha
  simp only [Dtm.interpolate, interpolBilin, terToIndexPy]
  generalize physicalToIndex d.transform.inv lat lon = w at ha ⊢
  generalize lowerShift (d.nbRows : ℤ) w.1 = lr at ha ⊢
  generalize lowerShift (d.nbCols : ℤ) w.2 = lc at ha ⊢
  cases h00 : d.cell lr lc with
  | none => rw [h00] at ha; simp at ha
  | some m00 =>
    cases h01 : d.cell lr (lc + 1) with
    | none => rw [h00, h01] at ha; simp at ha
    | some m01 =>
      cases h10 : d.cell (lr + 1) lc with
      | none => rw [h00, h01, h10] at ha; simp at ha
      | some m10 =>
        cases h11 : d.cell (lr + 1) (lc + 1) with
        | none => rw [h00, h01, h10, h11] at ha; simp at ha
        | some m11 =>
          rw [h00, h01, h10, h11] at ha
          simpa using ha

theorem toDtm_fields {d : LoadedDtm K} {D : Dtm K} (hD : d.toDtm = some D) :
    D.nbRows = d.nbRows ∧ D.nbCols = d.nbCols ∧ D.transform = d.transform := by
  unfold LoadedDtm.toDtm at hD
  split_ifs at hD
  simp only [Option.some.injEq] at hD
  subst hD
  exact ⟨rfl, rfl, rfl⟩

/-- C99. A C++ RPC and a DTM in EPSG 4326 read from files (DTM, geoid, region of interest, filling of the no-data cells): whenever `direct`
returns, each row is NaN or a point (lon, lat, alt); if the files give altitude z at (lon, lat), alt is z within a tenth of a millimetre. -/
theorem C99_optim_on_files (ext : List (Option K) → List ℕ → List (Option K)) (conv2 : ℕ → Option K × Option K → Option K × Option K)
    (f : DtmFile K) (hf : DtmFile.Complete f) (hdet : f.transform.a * f.transform.e - f.transform.b * f.transform.d ≠ 0)
    (roi : RoiArg K) (geoid : Option (GeoidImage K)) (strategy : Option FillStrategy) (fill : Option (Option K))
    (hfill : FillOk ext f strategy) (d : LoadedDtm K) (h : readDtm ext conv2 f roi geoid strategy fill = .ok d) (D : Dtm K)
    (hD : d.toDtm = some D) (hf4 : f.epsg = 4326) (conv : ℕ → ℕ → ORow K → ORow K) (N : ℕ) (r : Rpc K) (q : RatCoefs K) (hq : r.inverse = some q)
    (row col : List (Option K)) (hcol : col.length = row.length) (out : List (ORow K))
    (hout : Localization.direct conv ⟨rpcOptimGeo conv N r, .dtm d.epsg (d.epsg, D), none, none⟩ row col none false = .ok out) :
    out.length = row.length ∧ ∀ (i : ℕ) (x y : Option K), row[i]? = some x → col[i]? = some y →
      (x = none ∨ y = none → out[i]? = some nanRow) ∧
      (out[i]? = some nanRow ∨ ∃ lon lat alt, out[i]? = some ⟨some lon, some lat, some alt⟩ ∧ ValidLonLat lon lat ∧
        ∀ z, TerrainOfFiles conv2 f roi geoid lon lat z → |z - alt| ≤ 1 / 10000) := by
  have hepsg := C98_epsg ext conv2 f roi geoid strategy fill d h
  obtain ⟨e1, e2, e3⟩ := toDtm_fields hD
  obtain ⟨s1, s2⟩ := readDtm_size ext conv2 f hf roi geoid strategy fill d h
  obtain ⟨h1, h2⟩ := C73_optim_on_dtm conv N r q hq D (by omega) (by omega)
    (by rw [e3, readDtm_det ext conv2 f hf roi geoid strategy fill d h]; exact hdet) row col hcol out (by rw [hepsg, hf4] at hout; exact hout)
  refine ⟨h1, fun i x y hx hy => ?_⟩
  obtain ⟨h3, p, hp, h4⟩ := h2 i x y hx hy
  refine ⟨h3, ?_⟩
  rcases h4 with rfl | ⟨lon, lat, alt, rfl, hv, ht⟩
  · exact .inl hp
  · refine .inr ⟨lon, lat, alt, hp, hv, fun z hz => ?_⟩
    rw [terrain_interpolate ext conv2 f hf hdet roi geoid strategy fill hfill d h D hD lon lat z alt hz] at ht
    exact ht

/-- C99. A Python RPC and a DTM in its system read from files: every pixel whose line of sight meets the terrain is located at a point of its
line, and if the files give altitude z there, the altitude is z within a tenth of a millimetre. -/
theorem C99_python_on_files (ext : List (Option K) → List ℕ → List (Option K)) (conv2 : ℕ → Option K × Option K → Option K × Option K)
    (f : DtmFile K) (hf : DtmFile.Complete f) (hdet : f.transform.a * f.transform.e - f.transform.b * f.transform.d ≠ 0)
    (roi : RoiArg K) (geoid : Option (GeoidImage K)) (strategy : Option FillStrategy) (fill : Option (Option K))
    (hfill : FillOk ext f strategy) (d : LoadedDtm K) (h : readDtm ext conv2 f roi geoid strategy fill = .ok d) (D : Dtm K)
    (hD : d.toDtm = some D) (conv : ℕ → ℕ → ORow K → ORow K) (hconv : ∀ p, conv f.epsg f.epsg p = p) (r : Rpc K)
    (row col : List (Option K)) (hcol : col.length = row.length) (edges : List (ORow K))
    (hl : losExtrema r row col (some (D.altMin - 1)) (some (D.altMax + 1)) false = .ok edges)
    (hmeet : ∀ (i : ℕ) (u v : K), row[i]? = some (some u) → col[i]? = some (some v) →
      ∃ A B : V3 K, edges[2 * i]? = some ⟨some A.x, some A.y, some A.z⟩ ∧ edges[2 * i + 1]? = some ⟨some B.x, some B.y, some B.z⟩ ∧
        (f.epsg = 4326 → BothValid A B) ∧ MeetsTerrain D A B) :
    ∃ N0, ∀ N, N0 ≤ N → ∃ out,
      Localization.direct conv ⟨rpcGeo conv N r f.epsg, .dtm d.epsg (d.epsg, D), none, none⟩ row col none false = .ok out ∧
      out.length = row.length ∧
      ∀ (i : ℕ) (x y : Option K), row[i]? = some x → col[i]? = some y →
        (x = none ∨ y = none → out[i]? = some nanRow) ∧
        ∀ u v, x = some u → y = some v → ∃ (A B : V3 K) (t lon lat alt : K),
          edges[2 * i]? = some ⟨some A.x, some A.y, some A.z⟩ ∧ edges[2 * i + 1]? = some ⟨some B.x, some B.y, some B.z⟩ ∧
          0 ≤ t ∧ t ≤ 1 ∧ lon = A.x + t * (B.x - A.x) ∧ lat = A.y + t * (B.y - A.y) ∧ alt = A.z + t * (B.z - A.z) ∧
          out[i]? = some ⟨some lon, some lat, some alt⟩ ∧
          ∀ z, TerrainOfFiles conv2 f roi geoid lon lat z → |z - alt| ≤ 1 / 10000 := by
  have hepsg := C98_epsg ext conv2 f roi geoid strategy fill d h
  obtain ⟨e1, e2, e3⟩ := toDtm_fields hD
  obtain ⟨s1, s2⟩ := readDtm_size ext conv2 f hf roi geoid strategy fill d h
  obtain ⟨N0, hN⟩ := C73_python_on_dtm conv f.epsg hconv r D (by omega) (by omega)
    (by rw [e3, readDtm_det ext conv2 f hf roi geoid strategy fill d h]; exact hdet) row col hcol edges hl hmeet
  refine ⟨N0, fun N hle => ?_⟩
  obtain ⟨out, h1, h2, h3⟩ := hN N hle
  refine ⟨out, by rw [hepsg]; exact h1, h2, fun i x y hx hy => ⟨(h3 i x y hx hy).1, fun u v hu hv => ?_⟩⟩
  obtain ⟨A, B, t, lon, lat, alt, a1, a2, a3, a4, a5, a6, a7, a8, -, a10⟩ := (h3 i x y hx hy).2 u v hu hv
  refine ⟨A, B, t, lon, lat, alt, a1, a2, a3, a4, a5, a6, a7, a8, fun z hz => ?_⟩
  rw [terrain_interpolate ext conv2 f hf hdet roi geoid strategy fill hfill d h D hD lon lat z alt hz] at a10
  exact a10

/-- C99. A grid and a DTM of its system read from files: each row is NaN, (0, 0, 0) (a line that leaves the DTM without having met it) or a
point (lon, lat, alt); if the files give altitude z at (lon, lat), alt is z within a tenth of a millimetre. -/
theorem C99_grid_on_files (ext : List (Option K) → List ℕ → List (Option K)) (conv2 : ℕ → Option K × Option K → Option K × Option K)
    (f : DtmFile K) (hf : DtmFile.Complete f) (hdet : f.transform.a * f.transform.e - f.transform.b * f.transform.d ≠ 0)
    (roi : RoiArg K) (geoid : Option (GeoidImage K)) (strategy : Option FillStrategy) (fill : Option (Option K))
    (hfill : FillOk ext f strategy) (d : LoadedDtm K) (h : readDtm ext conv2 f roi geoid strategy fill = .ok d) (D : Dtm K)
    (hD : d.toDtm = some D) (conv : ℕ → ℕ → ORow K → ORow K) (hconv : ∀ p, conv f.epsg f.epsg p = p) (N : ℕ) (g : MultiGrid K)
    (p : Predictor K) (rad rtx : K) (cosdeg : K → K) (row col : List (Option K)) (hcol : col.length = row.length) (out : List (ORow K))
    (hout : Localization.direct conv ⟨gridGeo conv N g p rad rtx cosdeg f.epsg, .dtm d.epsg (d.epsg, D), none, none⟩ row col none false = .ok out) :
    out.length = row.length ∧ ∀ (i : ℕ) (x y : Option K), row[i]? = some x → col[i]? = some y →
      (x = none ∨ y = none → out[i]? = some nanRow) ∧
      (out[i]? = some nanRow ∨ out[i]? = some ⟨some 0, some 0, some 0⟩ ∨
        ∃ lon lat alt, out[i]? = some ⟨some lon, some lat, some alt⟩ ∧
          ∀ z, TerrainOfFiles conv2 f roi geoid lon lat z → |z - alt| ≤ 1 / 10000) := by
  have hepsg := C98_epsg ext conv2 f roi geoid strategy fill d h
  obtain ⟨e1, e2, e3⟩ := toDtm_fields hD
  obtain ⟨s1, s2⟩ := readDtm_size ext conv2 f hf roi geoid strategy fill d h
  obtain ⟨h1, h2⟩ := C74_on_dtm conv f.epsg hconv N g p rad rtx cosdeg D (by omega) (by omega)
    (by rw [e3, readDtm_det ext conv2 f hf roi geoid strategy fill d h]; exact hdet) row col hcol out (by rw [hepsg] at hout; exact hout)
  refine ⟨h1, fun i x y hx hy => ?_⟩
  obtain ⟨h3, w, hw, h4⟩ := h2 i x y hx hy
  refine ⟨h3, ?_⟩
  rcases h4 with rfl | rfl | ⟨lon, lat, alt, rfl, -, ht, -⟩
  · exact .inl hw
  · exact .inr (.inl hw)
  · refine .inr (.inr ⟨lon, lat, alt, hw, fun z hz => ?_⟩)
    rw [terrain_interpolate ext conv2 f hf hdet roi geoid strategy fill hfill d h D hD lon lat z alt hz] at ht
    exact ht

/-! ### An example -/

/-- A slope of 6 rows and 5 columns, the last cell without data. -/
def slopeFile : DtmFile ℚ :=
  ⟨.float, some (some (-1)), 4326, ⟨1, 0, 17 / 2, 0, -1, 24⟩, 6, 5,
    (List.range 30).map fun k => if k = 29 then 0 else 255,
    (List.range 30).map fun k => if k = 29 then some (-1) else some (90 + 10 * ((k / 5 : ℕ) : ℚ))⟩

/-- The DTM read over the last five rows, the missing cell filled with 140. -/
def slopeLoaded : LoadedDtm ℚ :=
  ⟨4326, ⟨1, 0, 17 / 2, 0, -1, 23⟩, 5, 5, (List.range 25).map fun k => some (100 + 10 * ((k / 5 : ℕ) : ℚ))⟩

/-- The DTM of the intersection. -/
def slopeRead : Dtm ℚ := ⟨fun i j => (slopeLoaded.cell i j).getD 0, 5, 5, ⟨1, 0, 17 / 2, 0, -1, 23⟩⟩

theorem slopeFile_read : readDtm (fun x _ => x) (fun _ p => p) slopeFile (.index ⟨1, 0, 6, 5⟩) none (some .constant) (some (some 140)) = .ok slopeLoaded := by
  decide +kernel

theorem slopeLoaded_dtm : slopeLoaded.toDtm = some slopeRead := by
  unfold LoadedDtm.toDtm
  rw [if_neg (by decide +kernel)]
  rfl

theorem slopeFile_terrain : TerrainOfFiles (fun _ p => p) slopeFile (.index ⟨1, 0, 6, 5⟩) none (185 / 19) (755 / 38) (2400 / 19) := by
  refine ⟨3, 0, 12 / 19, 14 / 19, fun p _ => 120 + 10 * p, fun _ _ => 0, by norm_num, by norm_num, by norm_num, by norm_num, ?_, ?_, by norm_num⟩
  · norm_num [groundOf, slopeFile]
  · intro p q hp hq
    have hp' : p = 0 ∨ p = 1 := by omega
    have hq' : q = 0 ∨ q = 1 := by omega
    refine ⟨?_, ?_, rfl⟩
    · simp only [InRegion, slopeFile]; omega
    · refine ⟨by simp only [slopeFile]; omega, by simp only [slopeFile]; omega, ?_, fun _ => ?_⟩ <;>
      rcases hp' with rfl | rfl <;> rcases hq' with rfl | rfl <;> decide +kernel

/-- The hypotheses of the three theorems are met, and what they say of a pixel: located on the slope of the file. -/
example : DtmFile.Complete slopeFile ∧ FillOk (fun x _ => x) slopeFile (some .constant) ∧
    Localization.direct noConv ⟨rpcOptimGeo noConv 50 demoRpc, .dtm 4326 (4326, slopeRead), none, none⟩ [some 300, none] [some 500, some 1] none false =
      .ok [⟨some (185 / 19), some (755 / 38), some (2400 / 19)⟩, nanRow] ∧
    Localization.direct (fun _ _ p => p) ⟨gridGeo (fun _ _ p => p) 50 slopeGrid midPredictor 17453 40678884 (fun _ => 1) 4326,
      .dtm 4326 (4326, slopeRead), none, none⟩ [some 50, none] [some 100, some 1] none false =
      .ok [⟨some (3748 / 379), some (7559 / 379), some (47585 / 379)⟩, nanRow] := by
  refine ⟨by simp [DtmFile.Complete, slopeFile], by simp [FillOk], by decide +kernel, by decide +kernel⟩

/-- The line of sight of the pixel meets the terrain, as asked by `C99_python_on_files`. -/
example : ∃ A B : V3 ℚ, losExtrema demoRpc [some 300] [some 500] (some (slopeRead.altMin - 1)) (some (slopeRead.altMax + 1)) false =
    .ok [⟨some A.x, some A.y, some A.z⟩, ⟨some B.x, some B.y, some B.z⟩] ∧ BothValid A B ∧ MeetsTerrain slopeRead A B := by
  refine ⟨⟨959 / 100, 3959 / 200, 141⟩, ⟨1001 / 100, 4001 / 200, 99⟩, by decide +kernel, by unfold BothValid; decide +kernel, ?_⟩
  refine ⟨1 / 42, by decide +kernel, by unfold InFootprint; decide +kernel, by unfold InFootprint; decide +kernel, by decide +kernel, by decide +kernel, by decide +kernel⟩

end Shareloc
