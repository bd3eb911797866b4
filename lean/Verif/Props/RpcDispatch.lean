import Verif.Lemmas.Dispatch

/-!
# C51: dispatch of the RPC reader
-/

set_option linter.unusedSectionVars false

namespace Shareloc
variable {K : Type} [Field K] [LinearOrder K]

theorem dimapVersion_unique {doc : Xml} {v w : Line} (h1 : DimapVersion doc v) (h2 : DimapVersion doc w) : v = w := by
  have e1 := (identifyDimap_iff (some doc) v).2 ⟨doc, rfl, h1⟩
  have e2 := (identifyDimap_iff (some doc) w).2 ⟨doc, rfl, h2⟩
  rw [e1] at e2
  simpa using e2

theorem isDimapFile_unique {env : IoEnv K} {fs : Files K} {path : Line} {doc doc' : Xml} {v v' : Line}
    (h1 : IsDimapFile env fs path doc v) (h2 : IsDimapFile env fs path doc' v') : doc = doc' ∧ v = v' := by
  obtain ⟨-, t, a1, a2, a3⟩ := h1
  obtain ⟨-, t', b1, b2, b3⟩ := h2
  rw [a1] at b1
  simp only [Option.some.injEq, RpcFile.text.injEq] at b1
  subst b1
  rw [a2] at b2
  simp only [Option.some.injEq] at b2
  subst b2
  exact ⟨rfl, dimapVersion_unique a3 b3⟩

/-- C51. No file is for two readers. -/
theorem C51_unambiguous (env : IoEnv K) (fs : Files K) (path : Line) (a b : Reader) (ha : IsFor env fs path a)
    (hb : IsFor env fs path b) : a = b := by
  cases a <;> cases b <;> try rfl
  all_goals simp only [IsFor] at ha hb
  all_goals first
    | exact absurd ha.choose_spec (hb.1 _)
    | exact absurd hb.choose_spec (ha.1 _)
    | skip
  · obtain ⟨-, d, v, x, h1, h2, h3⟩ := ha
    obtain ⟨-, d', v', x', h1', h2', h3'⟩ := hb
    obtain ⟨-, rfl⟩ := isDimapFile_unique h1 h1'
    rw [h2] at h2'
    simp only [Option.some.injEq] at h2'
    subst h2'
    exact absurd h3 (not_lt.2 h3')
  · obtain ⟨-, d, v, x, h1, -⟩ := ha
    exact absurd h1 (hb.2.1 d v)
  · obtain ⟨-, d, v, x, h1, h2, h3⟩ := ha
    obtain ⟨-, d', v', x', h1', h2', h3'⟩ := hb
    obtain ⟨-, rfl⟩ := isDimapFile_unique h1 h1'
    rw [h2] at h2'
    simp only [Option.some.injEq] at h2'
    subst h2'
    exact absurd h3' (not_lt.2 h3)
  · obtain ⟨-, d, v, x, h1, -⟩ := ha
    exact absurd h1 (hb.2.1 d v)
  · obtain ⟨-, d, v, x, h1, -⟩ := hb
    exact absurd h1 (ha.2.1 d v)
  · obtain ⟨-, d, v, x, h1, -⟩ := hb
    exact absurd h1 (ha.2.1 d v)

theorem readRasterio_some (env : IoEnv K) (fs : Files K) (path : Line) (topleft : Bool) (r : RioRpc K)
    (h : HasGdalRpc env fs path r) : readRasterio env fs path topleft = some (convertRio r topleft) := by
  rw [← rioRpcs_iff] at h
  unfold readRasterio
  rw [h]

theorem readRasterio_none (env : IoEnv K) (fs : Files K) (path : Line) (topleft : Bool)
    (h : ∀ r, ¬ HasGdalRpc env fs path r) : readRasterio env fs path topleft = none := by
  simp only [← rioRpcs_iff] at h
  unfold readRasterio
  split
  · rename_i r hr; exact absurd hr (h r)
  · rfl

/-- C51. A file with an RPC found by GDAL is read by GDAL, whatever else it is. -/
theorem C51_gdal (env : IoEnv K) (fs : Files K) (path : Line) (topleft : Bool) (r : RioRpc K)
    (h : HasGdalRpc env fs path r) : rpcReader env fs path topleft = .ok (convertRio r topleft) := by
  unfold rpcReader
  rw [readRasterio_some env fs path topleft r h]

/-- The DIMAP part of the reader. -/
theorem rpcReader_dimap (env : IoEnv K) (fs : Files K) (path : Line) (topleft : Bool) (doc : Xml) (v : Line)
    (hg : ∀ r, ¬ HasGdalRpc env fs path r) (h : IsDimapFile env fs path doc v) :
    rpcReader env fs path topleft = match env.toFloat v with
      | none => .error .valueError
      | some x => if x < 2 then readDimapV1 env doc topleft else readDimapV23 env doc topleft := by
  obtain ⟨hx, t, h1, h2, h3⟩ := h
  have ht : textAt fs path = some t := (textAt_some_iff _ _ _).2 h1
  have hi : identifyDimap (some doc) = some v := (identifyDimap_iff _ _).2 ⟨doc, rfl, h3⟩
  unfold rpcReader
  rw [readRasterio_none env fs path topleft hg]
  simp only [(isXmlPath_iff path).2 hx, if_true, ht, Option.bind_some, h2, hi]
  rfl

/-- C51. A DIMAP document of version below 2 without RPC for GDAL is read by the first DIMAP reader. -/
theorem C51_dimap1 (env : IoEnv K) (fs : Files K) (path : Line) (topleft : Bool) (doc : Xml) (v : Line) (x : K)
    (hg : ∀ r, ¬ HasGdalRpc env fs path r) (h : IsDimapFile env fs path doc v) (hv : env.toFloat v = some x) (h2 : x < 2) :
    rpcReader env fs path topleft = readDimapV1 env doc topleft := by
  rw [rpcReader_dimap env fs path topleft doc v hg h, hv]
  simp only [h2, if_true]

/-- C51. A DIMAP document of version at least 2 without RPC for GDAL is read by the second DIMAP reader. -/
theorem C51_dimap23 (env : IoEnv K) (fs : Files K) (path : Line) (topleft : Bool) (doc : Xml) (v : Line) (x : K)
    (hg : ∀ r, ¬ HasGdalRpc env fs path r) (h : IsDimapFile env fs path doc v) (hv : env.toFloat v = some x) (h2 : 2 ≤ x) :
    rpcReader env fs path topleft = readDimapV23 env doc topleft := by
  rw [rpcReader_dimap env fs path topleft doc v hg h, hv]
  simp only [not_lt.2 h2, if_false]

theorem rpcReader_ossim (env : IoEnv K) (fs : Files K) (path : Line) (topleft : Bool)
    (hg : ∀ r, ¬ HasGdalRpc env fs path r) (h : ∀ doc v, ¬ IsDimapFile env fs path doc v) :
    rpcReader env fs path topleft = match identifyOssim (textAt fs path) with
      | some _ => readOssim env ((textAt fs path).getD []) topleft
      | none => .error .valueError := by
  unfold rpcReader
  rw [readRasterio_none env fs path topleft hg]
  simp only
  split_ifs with hx
  · split
    · rename_i v d h1 h2
      obtain ⟨d', e1, e2⟩ := (identifyDimap_iff _ _).1 h1
      rw [h2] at e1
      simp only [Option.some.injEq] at e1
      subst e1
      obtain ⟨t, ht, hp⟩ := Option.bind_eq_some_iff.1 h2
      exact absurd ⟨(isXmlPath_iff path).1 hx, t, (textAt_some_iff _ _ _).1 ht, hp, e2⟩ (h d v)
    · rfl
  · rfl

/-- C51. A keyword list of OSSIM that is neither an image with RPC nor a DIMAP document is read by the OSSIM reader. -/
theorem C51_ossim (env : IoEnv K) (fs : Files K) (path : Line) (topleft : Bool) (t : Text)
    (hg : ∀ r, ¬ HasGdalRpc env fs path r) (h : ∀ doc v, ¬ IsDimapFile env fs path doc v) (ht : fs path = some (.text t))
    (ho : IsOssimText t) : rpcReader env fs path topleft = readOssim env t topleft := by
  have ht' : textAt fs path = some t := (textAt_some_iff _ _ _).2 ht
  obtain ⟨s, hs⟩ := (identifyOssim_iff (some t)).2 ⟨t, rfl, ho⟩
  rw [rpcReader_ossim env fs path topleft hg h, ht', hs]
  rfl

/-- C51. A file for no reader (missing file, image without RPC, unknown text, DIMAP whose version is not a number) raises
`ValueError`. -/
theorem C51_unsupported (env : IoEnv K) (fs : Files K) (path : Line) (topleft : Bool)
    (h : ∀ k, ¬ IsFor env fs path k) : rpcReader env fs path topleft = .error .valueError := by
  have hg : ∀ r, ¬ HasGdalRpc env fs path r := fun r hr => h .gdal ⟨r, hr⟩
  by_cases hd : ∃ doc v, IsDimapFile env fs path doc v
  · obtain ⟨doc, v, hd⟩ := hd
    rw [rpcReader_dimap env fs path topleft doc v hg hd]
    cases hv : env.toFloat v with
    | none => rfl
    | some x =>
      rcases lt_or_ge x 2 with hx | hx
      · exact absurd ⟨hg, doc, v, x, hd, hv, hx⟩ (h .dimap1)
      · exact absurd ⟨hg, doc, v, x, hd, hv, hx⟩ (h .dimap23)
  · push Not at hd
    rw [rpcReader_ossim env fs path topleft hg hd]
    cases hi : identifyOssim (textAt fs path) with
    | none => rfl
    | some s =>
      obtain ⟨t, ht, ho⟩ := (identifyOssim_iff _).1 ⟨s, hi⟩
      exact absurd ⟨hg, hd, t, (textAt_some_iff _ _ _).1 ht, ho⟩ (h .ossim)

/-- The driver names given by each reader. -/
def DriverOf : Reader → Line → Prop
  | .gdal, d => d = "rasterio_rpc".toList
  | .dimap1, d => ∃ v, d = "dimap_v".toList ++ v
  | .dimap23, d => ∃ v, d = "dimap_v".toList ++ v
  | .ossim, d => d = "ossim_kwl".toList

theorem readDimapV1_driver (env : IoEnv K) (doc : Xml) (topleft : Bool) (p : RpcParams K)
    (h : readDimapV1 env doc topleft = .ok p) : ∃ v, p.driver = "dimap_v".toList ++ v := by
  unfold readDimapV1 at h
  simp only [bind_ok_iff, pure_ok_iff] at h
  obtain ⟨_, _, _, _, v, _, _, _, _, _, _, _, _, _, _, _, _, _, _, _, _, _, _, _, _, _, _, _, _, _, _, _, _, _, _, _, _, _, rfl⟩ := h
  exact ⟨v, rfl⟩

theorem readDimapV23_driver (env : IoEnv K) (doc : Xml) (topleft : Bool) (p : RpcParams K)
    (h : readDimapV23 env doc topleft = .ok p) : ∃ v, p.driver = "dimap_v".toList ++ v := by
  unfold readDimapV23 at h
  simp only [bind_ok_iff, pure_ok_iff] at h
  obtain ⟨_, _, _, _, v, _, h⟩ := h
  obtain ⟨_, _, _, _, _, _, _, _, _, _, _, _, _, _, _, _, _, _, _, _, _, _, _, _, _, _, _, _, _, _, _, _, _, _, _, _, _, _, _, _, _, _, _,
    _, _, _, rfl⟩ := h
  exact ⟨v, rfl⟩

/-- C51. What is read comes from the one reader the file is for, and the driver name says which. -/
theorem C51_result_names_reader (env : IoEnv K) (fs : Files K) (path : Line) (topleft : Bool) (p : RpcParams K)
    (h : rpcReader env fs path topleft = .ok p) : ∃! k, IsFor env fs path k ∧ DriverOf k p.driver := by
  by_cases hk : ∃ k, IsFor env fs path k
  · obtain ⟨k, hk⟩ := hk
    refine ⟨k, ⟨hk, ?_⟩, fun k' hk' => C51_unambiguous env fs path k' k hk'.1 hk⟩
    cases k with
    | gdal =>
      obtain ⟨r, hr⟩ := hk
      rw [C51_gdal env fs path topleft r hr, Except.ok.injEq] at h
      rw [← h]; rfl
    | dimap1 =>
      obtain ⟨hg, doc, v, x, h1, h2, h3⟩ := hk
      rw [C51_dimap1 env fs path topleft doc v x hg h1 h2 h3] at h
      exact readDimapV1_driver env doc topleft p h
    | dimap23 =>
      obtain ⟨hg, doc, v, x, h1, h2, h3⟩ := hk
      rw [C51_dimap23 env fs path topleft doc v x hg h1 h2 h3] at h
      exact readDimapV23_driver env doc topleft p h
    | ossim =>
      obtain ⟨hg, hd, t, h1, h2⟩ := hk
      rw [C51_ossim env fs path topleft t hg hd h1 h2] at h
      unfold readOssim at h
      simp only [bind_ok_iff, pure_ok_iff] at h
      obtain ⟨_, _, _, _, _, _, _, _, _, _, _, _, _, _, _, _, _, _, _, _, _, _, _, _, _, _, _, _, _, _, rfl⟩ := h
      rfl
  · push Not at hk
    rw [C51_unsupported env fs path topleft hk] at h
    simp at h

/-- C51. Only the file and its `.RPB` neighbour matter. -/
theorem C51_only_these_files (env : IoEnv K) (fs fs' : Files K) (path : Line) (topleft : Bool) (h1 : fs path = fs' path)
    (h2 : fs (rpbPath path) = fs' (rpbPath path)) : rpcReader env fs path topleft = rpcReader env fs' path topleft := by
  have e1 : textAt fs path = textAt fs' path := by unfold textAt; rw [h1]
  have e2 : textAt fs (rpbPath path) = textAt fs' (rpbPath path) := by unfold textAt; rw [h2]
  have e3 : readRasterio env fs path topleft = readRasterio env fs' path topleft := by
    unfold readRasterio rioRpcs
    rw [h1, e2]
  unfold rpcReader
  rw [e1, e3]

end Shareloc
