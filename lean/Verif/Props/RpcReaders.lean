import Verif.Lemmas.RpcFormats
import Verif.Props.RpcShift

/-!
# C50: the readers use the same pixel convention; C51: dispatch of the reader
-/

set_option linter.unusedSectionVars false

namespace Shareloc
variable {K : Type} [Field K] [LinearOrder K] [IsStrictOrderedRing K]

/-- C50. Changing the position of the first pixel in the parameters moves the model. -/
theorem C50_recentre_model (p : RpcParams K) (c target : K) :
    rpcOfParams (recentre p c target) = (rpcOfParams p).shift (target - c) := by
  unfold rpcOfParams recentre Rpc.shift
  congr 1 <;> ring

theorem halfIf_eq (topleft : Bool) : (halfIf topleft : K) = libraryCentre topleft := rfl

/-- C50, DIMAP v2: the reader returns what the document says, and only the row and column offsets are changed, so that the
centre of the first pixel, (1, 1) in the file, is at (1/2, 1/2) (at (0, 0) without the top left convention). -/
theorem C50_dimap2 (env : IoEnv K) (doc : Xml) (version : Line) (v : K)
    (hver : AttributeAt doc [tag "Metadata_Identification", tag "METADATA_FORMAT"] version) (hv : env.toFloat version = some v)
    (h3 : v < 3) (topleft : Bool) (q : RpcParams K) :
    readDimapV23 env doc topleft = .ok q ↔
      ∃ raw, IsDimap2 env doc raw ∧ raw.driver = "dimap_v".toList ++ version ∧
        q = recentre raw (Product.dimap2.firstPixel) (libraryCentre topleft) := by
  rw [attributeAt_iff] at hver
  obtain ⟨mtd, fmt, hm, hf, ha⟩ := hver
  have hd : decide (v ≥ 3) = false := by simpa using h3
  have hvf : pyFloat env version = .ok v := (pyFloat_ok_iff env version v).2 hv
  unfold readDimapV23
  simp only [bind_ok_iff, pure_ok_iff, hm, hf, ha, hvf, Except.ok.injEq, exists_eq_left', hd, Bool.false_eq_true, if_false]
  constructor
  · rintro ⟨rfm, h1, norm, h2, oR, e1, oC, e2, dir, h4, inv, h5, nx, c1, dx, c2, ny, c3, dy, c4, nc, c5, dc, c6, nr, c7,
      dr, c8, sC, e3, sR, e4, oA, e5, sA, e6, oX, e7, sX, e8, oY, e9, sY, e10, rfl⟩
    rw [first_ok_iff] at h1 h2 h4 h5
    rw [floatAt_ok_iff] at e1 e2 e3 e4 e5 e6 e7 e8 e9 e10
    rw [floats20_ok_iff] at c1 c2 c3 c4 c5 c6 c7 c8
    refine ⟨⟨"dimap_v".toList ++ version, oA, sA, oY, sY, dr, nr, oR, sR, oX, sX, dc, nc, oC, sC, some nx, some dx, some ny,
      some dy⟩, ⟨?_, ?_⟩, rfl, ?_⟩
    · simp only [DimapNormalisation, numberAt_cons env h1, numberAt_cons env h2]
      exact ⟨e1, e2, e3, e4, e5, e6, e7, e8, e9, e10⟩
    · simp only [DimapCoefficients, numbersAt_cons env h1, numbersAt_cons env h4, numbersAt_cons env h5, Option.some.injEq,
        exists_eq_left']
      exact ⟨c5, c6, c7, c8, c1, c2, c3, c4⟩
    · rfl
  · rintro ⟨raw, ⟨hn, hc⟩, hdr, rfl⟩
    obtain ⟨rfm, hrfm⟩ : ∃ rfm, IsFirstIn doc (tag "Global_RFM") rfm := by
      obtain ⟨s, ⟨y, r, ⟨z, hz, _⟩, _⟩, _⟩ := hn.1
      exact ⟨z, hz⟩
    simp only [DimapNormalisation, numberAt_cons env hrfm] at hn
    simp only [DimapCoefficients, numbersAt_cons env hrfm] at hc
    obtain ⟨norm, hnorm⟩ : ∃ z, IsFirstIn rfm (tag "RFM_Validity") z := by
      obtain ⟨s, ⟨y, r, ⟨z, hz, _⟩, _⟩, _⟩ := hn.1
      exact ⟨z, hz⟩
    simp only [numberAt_cons env hnorm, ← floatAt_ok_iff] at hn
    obtain ⟨c5, c6, c7, c8, ⟨nx, enx, c1⟩, ⟨dx, edx, c2⟩, ⟨ny, eny, c3⟩, ⟨dy, edy, c4⟩⟩ := hc
    have exFirst : ∀ (t : Tag) (n : String) (l : List K), NumbersAt env rfm [t] n l → ∃ z, IsFirstIn rfm t z := by
      intro t n l h
      have hl : l[0]? = some (l[0]'(by rw [h.1]; decide)) := List.getElem?_eq_getElem _
      obtain ⟨s, ⟨y, r, ⟨z, hz, _⟩, _⟩, _⟩ := h.2 0 _ hl
      exact ⟨z, hz⟩
    obtain ⟨inv, hinv⟩ := exFirst _ _ _ c5
    obtain ⟨dir, hdir⟩ := exFirst _ _ _ c1
    simp only [numbersAt_cons env hinv, ← floats20_ok_iff] at c5 c6 c7 c8
    simp only [numbersAt_cons env hdir, ← floats20_ok_iff] at c1 c2 c3 c4
    rw [← first_ok_iff] at hrfm hnorm hinv hdir
    obtain ⟨e1, e2, e3, e4, e5, e6, e7, e8, e9, e10⟩ := hn
    refine ⟨rfm, hrfm, norm, hnorm, _, e1, _, e2, dir, hdir, inv, hinv, nx, c1, dx, c2, ny, c3, dy, c4, _, c5, _, c6, _, c7,
      _, c8, _, e3, _, e4, _, e5, _, e6, _, e7, _, e8, _, e9, _, e10, ?_⟩
    rw [← hdr, ← enx, ← edx, ← eny, ← edy]
    rfl

/-- C50, DIMAP v3: the same, with other element names, and the centre of the first pixel is already at (1/2, 1/2) in the file. -/
theorem C50_dimap3 (env : IoEnv K) (doc : Xml) (version : Line) (v : K)
    (hver : AttributeAt doc [tag "Metadata_Identification", tag "METADATA_FORMAT"] version) (hv : env.toFloat version = some v)
    (h3 : 3 ≤ v) (topleft : Bool) (q : RpcParams K) :
    readDimapV23 env doc topleft = .ok q ↔
      ∃ raw, IsDimap3 env doc raw ∧ raw.driver = "dimap_v".toList ++ version ∧
        q = recentre raw (Product.dimap3.firstPixel) (libraryCentre topleft) := by
  rw [attributeAt_iff] at hver
  obtain ⟨mtd, fmt, hm, hf, ha⟩ := hver
  have hd : decide (v ≥ 3) = true := by simpa using h3
  have hvf : pyFloat env version = .ok v := (pyFloat_ok_iff env version v).2 hv
  unfold readDimapV23
  simp only [bind_ok_iff, pure_ok_iff, hm, hf, ha, hvf, Except.ok.injEq, exists_eq_left', hd, if_true]
  constructor
  · rintro ⟨rfm, h1, norm, h2, oR, e1, oC, e2, dir, h4, inv, h5, nx, c1, dx, c2, ny, c3, dy, c4, nc, c5, dc, c6, nr, c7,
      dr, c8, sC, e3, sR, e4, oA, e5, sA, e6, oX, e7, sX, e8, oY, e9, sY, e10, rfl⟩
    rw [first_ok_iff] at h1 h2 h4 h5
    rw [floatAt_ok_iff] at e1 e2 e3 e4 e5 e6 e7 e8 e9 e10
    rw [floats20_ok_iff] at c1 c2 c3 c4 c5 c6 c7 c8
    refine ⟨⟨"dimap_v".toList ++ version, oA, sA, oY, sY, dr, nr, oR, sR, oX, sX, dc, nc, oC, sC, some nx, some dx, some ny,
      some dy⟩, ⟨?_, ?_⟩, rfl, ?_⟩
    · simp only [DimapNormalisation, numberAt_cons env h1, numberAt_cons env h2]
      exact ⟨e1, e2, e3, e4, e5, e6, e7, e8, e9, e10⟩
    · simp only [DimapCoefficients, numbersAt_cons env h1, numbersAt_cons env h4, numbersAt_cons env h5, Option.some.injEq,
        exists_eq_left']
      exact ⟨c5, c6, c7, c8, c1, c2, c3, c4⟩
    · rfl
  · rintro ⟨raw, ⟨hn, hc⟩, hdr, rfl⟩
    obtain ⟨rfm, hrfm⟩ : ∃ rfm, IsFirstIn doc (tag "Global_RFM") rfm := by
      obtain ⟨s, ⟨y, r, ⟨z, hz, _⟩, _⟩, _⟩ := hn.1
      exact ⟨z, hz⟩
    simp only [DimapNormalisation, numberAt_cons env hrfm] at hn
    simp only [DimapCoefficients, numbersAt_cons env hrfm] at hc
    obtain ⟨norm, hnorm⟩ : ∃ z, IsFirstIn rfm (tag "RFM_Validity") z := by
      obtain ⟨s, ⟨y, r, ⟨z, hz, _⟩, _⟩, _⟩ := hn.1
      exact ⟨z, hz⟩
    simp only [numberAt_cons env hnorm, ← floatAt_ok_iff] at hn
    obtain ⟨c5, c6, c7, c8, ⟨nx, enx, c1⟩, ⟨dx, edx, c2⟩, ⟨ny, eny, c3⟩, ⟨dy, edy, c4⟩⟩ := hc
    have exFirst : ∀ (t : Tag) (n : String) (l : List K), NumbersAt env rfm [t] n l → ∃ z, IsFirstIn rfm t z := by
      intro t n l h
      have hl : l[0]? = some (l[0]'(by rw [h.1]; decide)) := List.getElem?_eq_getElem _
      obtain ⟨s, ⟨y, r, ⟨z, hz, _⟩, _⟩, _⟩ := h.2 0 _ hl
      exact ⟨z, hz⟩
    obtain ⟨inv, hinv⟩ := exFirst _ _ _ c5
    obtain ⟨dir, hdir⟩ := exFirst _ _ _ c1
    simp only [numbersAt_cons env hinv, ← floats20_ok_iff] at c5 c6 c7 c8
    simp only [numbersAt_cons env hdir, ← floats20_ok_iff] at c1 c2 c3 c4
    rw [← first_ok_iff] at hrfm hnorm hinv hdir
    obtain ⟨e1, e2, e3, e4, e5, e6, e7, e8, e9, e10⟩ := hn
    refine ⟨rfm, hrfm, norm, hnorm, _, e1, _, e2, dir, hdir, inv, hinv, nx, c1, dx, c2, ny, c3, dy, c4, _, c5, _, c6, _, c7,
      _, c8, _, e3, _, e4, _, e5, _, e6, _, e7, _, e8, _, e9, _, e10, ?_⟩
    rw [← hdr, ← enx, ← edx, ← eny, ← edy]
    rfl

/-- C50, DIMAP v1 (lists of 40 numbers): what the document says is what the reader returns, first pixel recentred from (1, 1). -/
theorem C50_dimap1 (env : IoEnv K) (doc : Xml) (version : Line)
    (hver : AttributeAt doc [tag "Metadata_Identification", tag "METADATA_PROFILE"] version) (raw : RpcParams K)
    (hraw : IsDimap1 env doc raw) (hdr : raw.driver = "dimap_v".toList ++ version) (topleft : Bool) :
    readDimapV1 env doc topleft = .ok (recentre raw (Product.dimap1.firstPixel) (libraryCentre topleft)) := by
  rw [attributeAt_iff] at hver
  obtain ⟨mtd, fmt, hm, hf, ha⟩ := hver
  obtain ⟨e1, e2, e3, e4, e5, e6, e7, e8, e9, e10, ⟨nx, dx, ny, dy, enx, edx, eny, edy, w1, l1, l2, w2, l3, l4⟩, w3, l5, l6, w4,
    l7, l8⟩ := hraw
  obtain ⟨val, hval⟩ : ∃ z, IsFirstIn doc (tag "RFM_Validity") z := by
    obtain ⟨s, ⟨y, r, ⟨z, hz, _⟩, _⟩, _⟩ := e1
    exact ⟨z, hz⟩
  obtain ⟨rfm, hrfm⟩ : ∃ z, IsFirstIn doc (tag "Global_RFM") z := by
    obtain ⟨s, ws, ⟨y, r, ⟨z, hz, _⟩, _⟩, _⟩ := w1
    exact ⟨z, hz⟩
  simp only [numberAt_cons env hval, ← floatAt2_ok_iff] at e1 e2 e3 e4 e5 e6 e7 e8 e9 e10
  simp only [wordsAt_cons env hrfm, ← floatsOf_ok_iff] at w1 w2 w3 w4
  rw [← first_ok_iff] at hval hrfm
  unfold readDimapV1
  simp only [bind_ok_iff, pure_ok_iff]
  refine ⟨mtd, hm, fmt, hf, version, ha, rfm, hrfm, _, w1, _, w2, _, w3, _, w4, val, hval, _, e1, _, e2, _, e3, _, e4, _, e5,
    _, e6, _, e7, _, e8, _, e9, _, e10, ?_⟩
  rw [List.take_left' l1, List.drop_left' l1, List.take_left' l3, List.drop_left' l3, List.take_left' l5, List.drop_left' l5,
    List.take_left' l7, List.drop_left' l7, ← hdr, ← enx, ← edx, ← eny, ← edy]
  simp only [recentre, Product.firstPixel, halfIf_eq]

/-- C50, OSSIM keyword lists: the reader returns what the file says whatever the order of the lines and the other keys; the
first pixel is recentred from (0, 0). -/
theorem C50_ossim (env : IoEnv K) (t : Text) (topleft : Bool) (q : RpcParams K) :
    readOssim env t topleft = .ok q ↔
      ∃ raw, IsOssimRpc env t raw ∧ raw.driver = "ossim_kwl".toList ∧
        q = recentre raw (Product.ossim.firstPixel) (libraryCentre topleft) := by
  unfold readOssim
  simp only [bind_ok_iff, pure_ok_iff, kwlDict_ok_iff]
  constructor
  · rintro ⟨d, ⟨l, hl, rfl⟩, dr, c1, nr, c2, nc, c3, dc, c4, oC, e1, sC, e2, oR, e3, sR, e4, oA, e5, sA, e6, oX, e7, sX, e8, oY, e9,
      sY, e10, rfl⟩
    simp only [kwlFloat_ok_iff] at e1 e2 e3 e4 e5 e6 e7 e8 e9 e10
    simp only [kwlCoefs_ok_iff] at c1 c2 c3 c4
    refine ⟨⟨"ossim_kwl".toList, oA, sA, oY, sY, dr, nr, oR, sR, oX, sX, dc, nc, oC, sC, none, none, none, none⟩, ?_, rfl, ?_⟩
    · exact ⟨l, hl, e1, e2, e3, e4, e5, e6, e7, e8, e9, e10, c2, c1, c3, c4, rfl, rfl, rfl, rfl⟩
    · simp [recentre, Product.firstPixel, halfIf, libraryCentre]
  · rintro ⟨raw, ⟨l, hl, e1, e2, e3, e4, e5, e6, e7, e8, e9, e10, c2, c1, c3, c4, n1, n2, n3, n4⟩, hdr, rfl⟩
    simp only [← kwlFloat_ok_iff] at e1 e2 e3 e4 e5 e6 e7 e8 e9 e10
    simp only [← kwlCoefs_ok_iff] at c1 c2 c3 c4
    refine ⟨_, ⟨l, hl, rfl⟩, _, c1, _, c2, _, c3, _, c4, _, e1, _, e2, _, e3, _, e4, _, e5, _, e6, _, e7, _, e8, _, e9, _, e10, ?_⟩
    rw [← hdr, ← n4]
    cases raw
    simp only at n1 n2 n3 n4
    subst n1; subst n2; subst n3; subst n4
    simp [recentre, Product.firstPixel, halfIf, libraryCentre]

/-- The parameters of the rasterio dictionary, in the conventions of GDAL: lines are rows, samples are columns, longitude is x. -/
def rioRaw (r : RioRpc K) : RpcParams K :=
  ⟨"rasterio_rpc".toList, r.heightOff, r.heightScale, r.latOff, r.latScale, r.lineDen, r.lineNum, r.lineOff, r.lineScale,
    r.longOff, r.longScale, r.sampDen, r.sampNum, r.sampOff, r.sampScale, none, none, none, none⟩

/-- C50, rasterio: the first pixel is recentred from (0, 0). -/
theorem C50_rasterio (r : RioRpc K) (topleft : Bool) :
    convertRio r topleft = recentre (rioRaw r) (Product.rasterio.firstPixel) (libraryCentre topleft) := by
  unfold convertRio recentre rioRaw
  simp only [Product.firstPixel, sub_zero, halfIf_eq]

/-- C50. Consequence for any product: the inverse location of the model read is that of the model of the file plus
(1/2 - centre of the first pixel), in row and column, for every ground point. -/
theorem C50_inverse_location (raw : RpcParams K) (product : Product) (lon lat alt : List (Option K)) (out : List (ORow K))
    (h : inverseLocPy (rpcOfParams raw) lon lat alt = .ok (.rows out)) :
    inverseLocPy (rpcOfParams (recentre raw product.firstPixel (libraryCentre true))) lon lat alt =
      .ok (.rows (out.map (moveRow (1 / 2 - product.firstPixel)))) := by
  rw [C50_recentre_model]
  exact C50_shift_inverse _ _ _ _ _ _ h

/-- C50. The centre of the first pixel of the file (row = column = `firstPixel`) and (1/2, 1/2) in the library have the same
direct location. -/
theorem C50_first_pixel (raw : RpcParams K) (product : Product) (alt : Option K) (fillNan useDirect : Bool) :
    directLocH (rpcOfParams (recentre raw product.firstPixel (libraryCentre true))) [some (1 / 2)] [some (1 / 2)] [alt] fillNan
      useDirect =
    directLocH (rpcOfParams raw) [some product.firstPixel] [some product.firstPixel] [alt] fillNan useDirect := by
  rw [C50_recentre_model]
  have := C50_shift_direct (rpcOfParams raw) (libraryCentre true - product.firstPixel) [some product.firstPixel]
    [some product.firstPixel] [alt] fillNan useDirect
  rw [← this]
  simp [libraryCentre]

end Shareloc
