import Verif.Lemmas.Rpb
import Verif.Props.RpcIoExamples

/-!
# C49: export and import of a model; C52: the writer and its override option
-/

set_option linter.unusedSectionVars false

namespace Shareloc
variable {K : Type} [Field K] [LinearOrder K] [IsStrictOrderedRing K]

/-- Two sets of parameters with the same inverse model. -/
structure SameInverse (p q : RpcParams K) : Prop where
  offsetAlt : p.offsetAlt = q.offsetAlt
  scaleAlt : p.scaleAlt = q.scaleAlt
  offsetY : p.offsetY = q.offsetY
  scaleY : p.scaleY = q.scaleY
  denRow : p.denRow = q.denRow
  numRow : p.numRow = q.numRow
  offsetRow : p.offsetRow = q.offsetRow
  scaleRow : p.scaleRow = q.scaleRow
  offsetX : p.offsetX = q.offsetX
  scaleX : p.scaleX = q.scaleX
  denCol : p.denCol = q.denCol
  numCol : p.numCol = q.numCol
  offsetCol : p.offsetCol = q.offsetCol
  scaleCol : p.scaleCol = q.scaleCol

/-- What is assumed of GDAL: an RPC in one place only is found; where both the image and the `.RPB` file have one, nothing is
assumed. -/
structure GdalLaws (env : IoEnv K) : Prop where
  internal : ∀ r, env.gdal (some r) none = some r
  sidecar : ∀ r, env.gdal none (some r) = some r

/-- C49. The dictionary of rasterio is recovered. -/
theorem C49_rio_of_params (r : RioRpc K) (t : Bool) : toRio (convertRio r t) t = r := by
  cases r
  unfold toRio convertRio
  simp only [add_sub_cancel_right]

/-- C49. The parameters are recovered, direct coefficients excepted: they are lost, and the driver name becomes rasterio's. -/
theorem C49_params_of_rio (p : RpcParams K) (t : Bool) :
    convertRio (toRio p t) t =
      { p with driver := "rasterio_rpc".toList, numX := none, denX := none, numY := none, denY := none } := by
  cases p
  unfold toRio convertRio
  simp only [sub_add_cancel]

theorem sameInverse_back (p : RpcParams K) (t : Bool) : SameInverse (convertRio (toRio p t) t) p := by
  rw [C49_params_of_rio]
  constructor <;> rfl

/-- C49. Same parameters, same inverse location of every list of points, errors included. -/
theorem C49_same_inverse_location (p q : RpcParams K) (h : SameInverse p q) (lon lat alt : List (Option K)) :
    inverseLocPy (rpcOfParams p) lon lat alt = inverseLocPy (rpcOfParams q) lon lat alt := by
  obtain ⟨h1, h2, h3, h4, h5, h6, h7, h8, h9, h10, h11, h12, h13, h14⟩ := h
  have hi : (rpcOfParams p).inverse = (rpcOfParams q).inverse := by simp only [rpcOfParams, h5, h6, h11, h12]
  have hp : ∀ c x, invPointPy (rpcOfParams p) c x = invPointPy (rpcOfParams q) c x := by
    intro c x
    simp only [invPointPy, rpcOfParams, h1, h2, h3, h4, h7, h8, h9, h10, h13, h14]
  unfold inverseLocPy
  rw [hi]
  have hf : ∀ c, invPointPy (rpcOfParams p) c = invPointPy (rpcOfParams q) c := fun c => funext (hp c)
  simp only [hf]

theorem iterPy_no_direct (r : Rpc K) (q : RatCoefs K) (n : ℕ) (pts : List (ImgPt K)) :
    iterPy { r with direct := none } q n pts = iterPy r q n pts := by
  have hl : ∀ n l, loopPy { r with direct := none } q n l = loopPy r q n l := by
    intro n
    induction n with
    | zero => intro l; rfl
    | succ n ih =>
      intro l
      unfold loopPy
      simp only [ih]
      rfl
  unfold iterPy
  rw [hl]
  rfl

/-- C49. Same parameters: the same direct locations by the inverse coefficients. -/
theorem C49_same_iterative_location (p q : RpcParams K) (h : SameInverse p q) (row col alt : List (Option K)) (fillNan : Bool) :
    directLocH (rpcOfParams p) row col alt fillNan false = directLocH (rpcOfParams q) row col alt fillNan false := by
  obtain ⟨h1, h2, h3, h4, h5, h6, h7, h8, h9, h10, h11, h12, h13, h14⟩ := h
  have e : { rpcOfParams p with direct := none } = { rpcOfParams q with direct := none } := by
    simp only [rpcOfParams, h1, h2, h3, h4, h5, h6, h7, h8, h9, h10, h11, h12, h13, h14]
  have key : ∀ r : Rpc K, directLocH { r with direct := none } row col alt fillNan false = directLocH r row col alt fillNan false := by
    intro r
    unfold directLocH
    simp only [iterPy_no_direct]
    cases r.inverse <;> rfl
  rw [← key (rpcOfParams p), e, key]

/-- Equal offsets and coefficients after reading the result of a write. -/
def RoundTrip (env : IoEnv K) (fs' : Files K) (image : Line) (p : RpcParams K) : Prop :=
  ∃ q, rpcReader env fs' image true = .ok q ∧ SameInverse q p ∧ q.numX = none ∧ q.denX = none ∧ q.numY = none ∧ q.denY = none

theorem roundTrip_of_gdal (env : IoEnv K) (fs' : Files K) (image : Line) (p : RpcParams K)
    (h : HasGdalRpc env fs' image (toRio p true)) : RoundTrip env fs' image p :=
  ⟨_, C51_gdal env fs' image true _ h, sameInverse_back p true, by rw [C49_params_of_rio], by rw [C49_params_of_rio],
    by rw [C49_params_of_rio], by rw [C49_params_of_rio]⟩

/-- C49, format `geotiff`: what is written in an image without `.RPB` neighbour is read back.
Missing for the claim over all formats: JSON and bare `.RPB` files, which cannot be read (`C49_json_not_readable`, `C49_rpb_not_readable_alone`). -/
theorem C49_geotiff_partial (env : IoEnv K) (laws : GdalLaws env) (fs fs' : Files K) (path : Line) (old : Option (RioRpc K)) (p : RpcParams K)
    (force : Bool) (himg : fs path = some (.tiff old)) (hrpb : ∀ t, fs (rpbPath path) ≠ some (.text t))
    (hw : rpcWriter env fs p path "geotiff" force = .ok fs') : RoundTrip env fs' path p := by
  apply roundTrip_of_gdal
  simp only [rpcWriter, geotiffUpdate, rioRpcs, himg, List.mem_cons, true_or, not_true, if_false, if_true,
    Bool.false_eq_true] at hw
  split at hw
  · cases hw
  · simp only [Except.ok.injEq] at hw
    subst hw
    refine ⟨some (toRio p true), by simp [writeFile], .inr ⟨?_, laws.internal _⟩⟩
    intro t
    unfold writeFile
    split
    · simp
    · exact hrpb t

theorem rpbBack (env : IoEnv K) (hgdal : env.readRpb = rpbRead env.toFloat) (he : ExactPrinting env.toFloat env.fmt)
    (p : RpcParams K) : env.readRpb (rpbText env (toRio p true)) = some (toRio p true) := by
  rw [hgdal, rpbRead_rpbText env he]

/-- C49, format `geotiff_rpb`: what is written beside an image without RPC is read back.
Missing: as for `C49_geotiff_partial`. -/
theorem C49_geotiff_rpb_partial (env : IoEnv K) (laws : GdalLaws env) (hgdal : env.readRpb = rpbRead env.toFloat)
    (he : ExactPrinting env.toFloat env.fmt) (fs fs' : Files K) (path : Line) (p : RpcParams K) (force : Bool)
    (himg : fs path = some (.tiff none)) (hne : path ≠ rpbPath path)
    (hw : rpcWriter env fs p path "geotiff_rpb" force = .ok fs') : RoundTrip env fs' path p := by
  apply roundTrip_of_gdal
  have hw' : fs' = writeFile fs (rpbPath path) (.text (rpbText env (toRio p true))) := by
    have : rpcWriter env fs p path "geotiff_rpb" force =
        .ok (writeFile fs (rpbPath path) (.text (rpbText env (toRio p true)))) := rfl
    rw [this, Except.ok.injEq] at hw
    exact hw.symm
  subst hw'
  refine ⟨none, by simp [writeFile, hne, himg], .inl ⟨rpbText env (toRio p true), by simp [writeFile], ?_⟩⟩
  rw [rpbBack env hgdal he p]
  exact laws.sidecar _

/-- C49, format `rpb`: what is written is read back with any image of the same name without RPC.
Missing: as for `C49_geotiff_partial`. -/
theorem C49_rpb_partial (env : IoEnv K) (laws : GdalLaws env) (hgdal : env.readRpb = rpbRead env.toFloat)
    (he : ExactPrinting env.toFloat env.fmt) (fs fs' : Files K) (path image : Line) (p : RpcParams K) (force : Bool)
    (himg : fs image = some (.tiff none)) (hname : rpbPath image = path) (hne : image ≠ path)
    (hw : rpcWriter env fs p path "rpb" force = .ok fs') : RoundTrip env fs' image p := by
  apply roundTrip_of_gdal
  have hw' : fs' = writeFile fs path (.text (rpbText env (toRio p true))) := by
    have : rpcWriter env fs p path "rpb" force = .ok (writeFile fs path (.text (rpbText env (toRio p true)))) := rfl
    rw [this, Except.ok.injEq] at hw
    exact hw.symm
  subst hw'
  refine ⟨none, by simp [writeFile, hne, himg], .inl ⟨rpbText env (toRio p true), by simp [writeFile, hname], ?_⟩⟩
  rw [rpbBack env hgdal he p]
  exact laws.sidecar _

/-- A text whose first line is not `key: value` is not a keyword list. -/
theorem not_ossim_of_head (t : Text) (l : Line) (ls : Text) (h : t = l :: ls) (hl : NoSep l) : ¬ IsOssimText t := by
  rintro ⟨kv, v, w, r, ⟨e, -⟩, -⟩
  cases kv with
  | nil => rw [h] at e; simp at e
  | cons x xs =>
    rw [h] at e
    simp only [List.map_cons, List.cons.injEq] at e
    refine hl ⟨x.1, x.2, ?_⟩
    rw [e.1]
    simp

theorem not_readable (env : IoEnv K) (fs : Files K) (path : Line) (topleft : Bool) (t : Text) (ht : fs path = some (.text t))
    (hx : ¬ EndsWithXml path) (ho : ¬ IsOssimText t) : rpcReader env fs path topleft = .error .valueError := by
  apply C51_unsupported
  intro k hk
  cases k with
  | gdal =>
    obtain ⟨r, i, hi, -⟩ := hk
    rw [ht] at hi; simp at hi
  | dimap1 => obtain ⟨-, d, v, x, h, -⟩ := hk; exact hx h.1
  | dimap23 => obtain ⟨-, d, v, x, h, -⟩ := hk; exact hx h.1
  | ossim =>
    obtain ⟨-, -, t', ht', h⟩ := hk
    rw [ht] at ht'
    simp only [Option.some.injEq, RpcFile.text.injEq] at ht'
    subst ht'
    exact ho h

theorem noSep_of_splitColon (s : Line) (h : (splitColon s).length = 1) : NoSep s := by
  by_contra hs
  obtain ⟨k, v, e, hk⟩ := exists_first_sep s hs
  rw [e, splitColon_append k v hk] at h
  simp only [List.length_cons, Nat.add_eq_right, List.length_eq_zero_iff] at h
  exact splitColon_ne_nil v h

/-- C49, not claimed: a file written in the format `json` cannot be read by the reader, whatever the model. -/
theorem C49_json_not_readable (env : IoEnv K) (fs fs' : Files K) (path : Line) (p : RpcParams K) (force topleft : Bool)
    (hx : ¬ EndsWithXml path) (hw : rpcWriter env fs p path "json" force = .ok fs') :
    rpcReader env fs' path topleft = .error .valueError := by
  have hw' : fs' = writeFile fs path (.text (jsonText env (toRio p true))) := by
    have : rpcWriter env fs p path "json" force = .ok (writeFile fs path (.text (jsonText env (toRio p true)))) := rfl
    rw [this, Except.ok.injEq] at hw
    exact hw.symm
  subst hw'
  refine not_readable env _ path topleft _ (by simp [writeFile]; rfl) hx ?_
  exact not_ossim_of_head _ "{".toList _ rfl (noSep_of_splitColon _ (by decide))

/-- C49, not claimed: a `.RPB` file is read through its image only, not by its own name. -/
theorem C49_rpb_not_readable_alone (env : IoEnv K) (fs fs' : Files K) (path : Line) (p : RpcParams K) (force topleft : Bool)
    (hx : ¬ EndsWithXml path) (hw : rpcWriter env fs p path "rpb" force = .ok fs') :
    rpcReader env fs' path topleft = .error .valueError := by
  have hw' : fs' = writeFile fs path (.text (rpbText env (toRio p true))) := by
    have : rpcWriter env fs p path "rpb" force = .ok (writeFile fs path (.text (rpbText env (toRio p true)))) := rfl
    rw [this, Except.ok.injEq] at hw
    exact hw.symm
  subst hw'
  refine not_readable env _ path topleft _ (by simp [writeFile]; rfl) hx ?_
  exact not_ossim_of_head _ "satId =  'UNKNOWN';".toList _ rfl (noSep_of_splitColon _ (by decide))

/-- C49, not claimed: with an old `.RPB` file beside the image and a GDAL that prefers it, the format `geotiff` writes the
image and the old RPC is still read. -/
theorem C49_stale_rpb (env : IoEnv K) (hpref : ∀ a r, env.gdal a (some r) = some r) (fs fs' : Files K) (path : Line)
    (old : Option (RioRpc K)) (t : Text) (stale : RioRpc K) (p : RpcParams K) (himg : fs path = some (.tiff old))
    (hrpb : fs (rpbPath path) = some (.text t)) (hold : env.readRpb t = some stale)
    (hw : rpcWriter env fs p path "geotiff" true = .ok fs') : rpcReader env fs' path true = .ok (convertRio stale true) := by
  apply C51_gdal
  have hne : rpbPath path ≠ path := by intro h; rw [h, himg] at hrpb; simp at hrpb
  simp only [rpcWriter, geotiffUpdate, rioRpcs, himg, List.mem_cons, true_or, not_true, if_false, if_true, Bool.not_true,
    Bool.and_false, Bool.false_eq_true, Except.ok.injEq] at hw
  subst hw
  exact ⟨some (toRio p true), by simp [writeFile], .inl ⟨t, by simp [writeFile, hne, hrpb], by rw [hold, hpref]⟩⟩

/-- C49. The converter is reading then writing: what it writes in an image reads as the input, direct coefficients excepted. -/
theorem C49_converter_geotiff (env : IoEnv K) (laws : GdalLaws env) (fs fs' : Files K) (input output : Line)
    (old : Option (RioRpc K)) (force : Bool) (himg : fs output = some (.tiff old))
    (hrpb : ∀ t, fs (rpbPath output) ≠ some (.text t)) (hc : rpcConverter env fs input output "geotiff" force = .ok fs') :
    ∃ p, rpcReader env fs input true = .ok p ∧ RoundTrip env fs' output p := by
  unfold rpcConverter at hc
  cases hr : rpcReader env fs input true with
  | error e => rw [hr] at hc; simp at hc
  | ok p =>
    rw [hr] at hc
    exact ⟨p, rfl, C49_geotiff_partial env laws fs fs' output old p force himg hrpb hc⟩

/-- C49. The same with a `.RPB` file. -/
theorem C49_converter_rpb (env : IoEnv K) (laws : GdalLaws env) (hgdal : env.readRpb = rpbRead env.toFloat)
    (he : ExactPrinting env.toFloat env.fmt) (fs fs' : Files K) (input image : Line) (force : Bool)
    (himg : fs image = some (.tiff none)) (hne : image ≠ rpbPath image)
    (hc : rpcConverter env fs input (rpbPath image) "rpb" force = .ok fs') :
    ∃ p, rpcReader env fs input true = .ok p ∧ RoundTrip env fs' image p := by
  unfold rpcConverter at hc
  cases hr : rpcReader env fs input true with
  | error e => rw [hr] at hc; simp at hc
  | ok p =>
    rw [hr] at hc
    exact ⟨p, rfl, C49_rpb_partial env laws hgdal he fs fs' _ image p force himg rfl hne hc⟩

/-! ### C52 -/

/-- C52, C49. The path of the `.RPB` file of an image: the last extension of its name is replaced, the dots that begin the
name are not an extension, and `.RPB` is added to a name without extension. -/
theorem C52_rpb_path (path q : Line) : IsRpbOf path q ↔ rpbPath path = q := rpbPath_iff path q

example : rpbPath "d.x/a.b.tif".toList = "d.x/a.b.RPB".toList := by decide +kernel
example : rpbPath "d.x/.a".toList = "d.x/.a.RPB".toList := by decide +kernel

/-- C52. An unknown format raises `ValueError`. -/
theorem C52_unknown_format (env : IoEnv K) (fs : Files K) (p : RpcParams K) (path : Line) (format : String) (force : Bool)
    (h : format ≠ "geotiff" ∧ format ≠ "geotiff_rpb" ∧ format ≠ "rpb" ∧ format ≠ "json") :
    rpcWriter env fs p path format force = .error .valueError := by
  unfold rpcWriter
  rw [if_pos]
  simp [h]

/-- C52. Only `geotiff` can refuse: an image in which GDAL finds an RPC is not changed without override. -/
theorem C52_refuses (env : IoEnv K) (fs : Files K) (p : RpcParams K) (path : Line) (r : RioRpc K)
    (h : HasGdalRpc env fs path r) : rpcWriter env fs p path "geotiff" false = .error .runtimeError := by
  rw [← rioRpcs_iff] at h
  simp only [rpcWriter, geotiffUpdate, h, List.mem_cons, true_or, not_true, if_false, if_true, Option.isSome_some, Bool.not_false,
    Bool.and_true]
  rfl

/-- C52. With override, or without RPC, the image receives the RPC. -/
theorem C52_geotiff_written (env : IoEnv K) (fs : Files K) (p : RpcParams K) (path : Line) (old : Option (RioRpc K)) (force : Bool)
    (himg : fs path = some (.tiff old)) (h : force = true ∨ ∀ r, ¬ HasGdalRpc env fs path r) :
    ∃ fs', rpcWriter env fs p path "geotiff" force = .ok fs' ∧ fs' path = some (.tiff (some (toRio p true))) ∧
      ∀ other, other ≠ path → fs' other = fs other := by
  refine ⟨writeFile fs path (.tiff (some (toRio p true))), ?_, by simp [writeFile], fun o ho => by simp [writeFile, ho]⟩
  cases hr : rioRpcs env fs path with
  | none => simp only [rioRpcs, himg] at hr; simp at hr
  | some rpcs =>
    have hc : (rpcs.isSome && !force) = false := by
      rcases h with h | h
      · simp [h]
      · cases rpcs with
        | none => simp
        | some r => exact absurd ((rioRpcs_iff env fs path r).1 hr) (h r)
    simp only [rpcWriter, geotiffUpdate, hr, List.mem_cons, true_or, not_true, if_false, if_true, hc, Bool.false_eq_true]

/-- The file that a format writes. -/
def targetOf (format : String) (path : Line) : Line := if format = "geotiff_rpb" then rpbPath path else path

/-- C52. No other file is changed. -/
theorem C52_other_files (env : IoEnv K) (fs fs' : Files K) (p : RpcParams K) (path : Line) (format : String) (force : Bool)
    (h : rpcWriter env fs p path format force = .ok fs') (other : Line) (ho : other ≠ targetOf format path) :
    fs' other = fs other := by
  unfold rpcWriter at h
  split_ifs at h with h1 h2 h3 h4
  · subst h2
    have ht : other ≠ path := by simpa [targetOf] using ho
    unfold geotiffUpdate at h
    simp only [Bool.false_eq_true, if_false] at h
    split at h
    · simp only [Except.ok.injEq] at h; rw [h]
    · split at h
      · cases h
      · simp only [Except.ok.injEq] at h
        rw [← h]; simp [writeFile, ht]
  · subst h3
    have ht : other ≠ rpbPath path := by simpa [targetOf] using ho
    simp only [geotiffUpdate, if_true, Except.ok.injEq] at h
    rw [← h]; simp [writeFile, ht]
  · have ht : other ≠ path := by simpa [targetOf, h3] using ho
    simp only [Except.ok.injEq] at h
    rw [← h]; simp [writeFile, ht]
  · have ht : other ≠ path := by simpa [targetOf, h3] using ho
    simp only [Except.ok.injEq] at h
    rw [← h]; simp [writeFile, ht]

/-- C52. The formats of text never refuse and write their text: an existing file is replaced, with or without override. -/
theorem C52_text_formats_ignore_override (env : IoEnv K) (fs : Files K) (p : RpcParams K) (path : Line) (force : Bool) :
    (∃ fs', rpcWriter env fs p path "rpb" force = .ok fs' ∧ fs' path = some (.text (rpbText env (toRio p true)))) ∧
    (∃ fs', rpcWriter env fs p path "geotiff_rpb" force = .ok fs' ∧
      fs' (rpbPath path) = some (.text (rpbText env (toRio p true)))) ∧
    (∃ fs', rpcWriter env fs p path "json" force = .ok fs' ∧ fs' path = some (.text (jsonText env (toRio p true)))) := by
  refine ⟨⟨_, rfl, by simp [writeFile]⟩, ⟨_, rfl, by simp [writeFile]⟩, ⟨_, rfl, by simp [writeFile]⟩⟩

/-- C52, not claimed by the code: a file that rasterio cannot open is left unchanged without any error. -/
theorem C52_not_an_image_is_silent (env : IoEnv K) (fs : Files K) (p : RpcParams K) (path : Line) (force : Bool)
    (h : ∀ r, fs path ≠ some (.tiff r)) : rpcWriter env fs p path "geotiff" force = .ok fs := by
  have hr : rioRpcs env fs path = none := by
    unfold rioRpcs
    split
    · rename_i r hr; exact absurd hr (h r)
    · rfl
  simp only [rpcWriter, geotiffUpdate, hr, List.mem_cons, true_or, not_true, if_false, if_true, Bool.false_eq_true]

/-- C52, full claim false: there is a text file that the writer replaces without override. -/
theorem C52_override_counterexample :
    ∃ (env : IoEnv ℚ) (fs fs' : Files ℚ) (p : RpcParams ℚ) (path : Line),
      fs path = some (.text ["precious".toList]) ∧ rpcWriter env fs p path "json" false = .ok fs' ∧ fs' path ≠ fs path := by
  refine ⟨IoExamples.exEnv IoExamples.exDoc1, fun _ => some (.text ["precious".toList]), _, IoExamples.exRaw "1", "a".toList, rfl, rfl,
    ?_⟩
  simp only [writeFile, if_true]
  intro h
  simp only [Option.some.injEq, RpcFile.text.injEq] at h
  have := congrArg List.head? h
  revert this
  decide +kernel

/-- C52, the part of the claim that holds: the format decides the file and its contents, an unknown format and an RPC already
in the image are refused.  Missing from the claim: the refusal of existing `.RPB` and JSON files. -/
theorem C52_writer_partial (env : IoEnv K) (fs : Files K) (p : RpcParams K) (path : Line) (format : String) (force : Bool) :
    match rpcWriter env fs p path format force with
    | .error .valueError => format ∉ ["geotiff", "geotiff_rpb", "rpb", "json"]
    | .error .runtimeError => format = "geotiff" ∧ force = false ∧ ∃ r, HasGdalRpc env fs path r
    | .error _ => False
    | .ok fs' => (∀ other, other ≠ targetOf format path → fs' other = fs other) ∧
        ((format = "geotiff" ∧ (∀ r, fs path ≠ some (.tiff r)) ∧ fs' path = fs path) ∨
         (format = "geotiff" ∧ fs' path = some (.tiff (some (toRio p true))) ∧ (force = true ∨ ∀ r, ¬ HasGdalRpc env fs path r)) ∨
         ((format = "rpb" ∨ format = "geotiff_rpb") ∧ fs' (targetOf format path) = some (.text (rpbText env (toRio p true)))) ∨
         (format = "json" ∧ fs' path = some (.text (jsonText env (toRio p true))))) := by
  have hother := fun fs' h => C52_other_files env fs fs' p path format force h
  by_cases hf : format ∈ ["geotiff", "geotiff_rpb", "rpb", "json"]
  · simp only [List.mem_cons, List.not_mem_nil, or_false] at hf
    rcases hf with rfl | rfl | rfl | rfl
    · by_cases hi : ∃ old, fs path = some (.tiff old)
      · obtain ⟨old, hi⟩ := hi
        by_cases hg : force = true ∨ ∀ r, ¬ HasGdalRpc env fs path r
        · obtain ⟨fs', e, h1, h2⟩ := C52_geotiff_written env fs p path old force hi hg
          rw [e]
          exact ⟨hother fs' e, .inr (.inl ⟨rfl, h1, hg⟩)⟩
        · push Not at hg
          obtain ⟨hff, r, hr⟩ := hg
          have : force = false := by simpa using hff
          subst this
          rw [C52_refuses env fs p path r hr]
          exact ⟨rfl, rfl, r, hr⟩
      · push Not at hi
        have e := C52_not_an_image_is_silent env fs p path force hi
        rw [e]
        exact ⟨hother fs e, .inl ⟨rfl, hi, rfl⟩⟩
    · have e : rpcWriter env fs p path "geotiff_rpb" force =
        .ok (writeFile fs (rpbPath path) (.text (rpbText env (toRio p true)))) := rfl
      rw [e]
      exact ⟨hother _ e, .inr (.inr (.inl ⟨.inr rfl, by simp [targetOf, writeFile]⟩))⟩
    · have e : rpcWriter env fs p path "rpb" force = .ok (writeFile fs path (.text (rpbText env (toRio p true)))) := rfl
      rw [e]
      exact ⟨hother _ e, .inr (.inr (.inl ⟨.inl rfl, by simp [targetOf, writeFile]⟩))⟩
    · have e : rpcWriter env fs p path "json" force = .ok (writeFile fs path (.text (jsonText env (toRio p true)))) := rfl
      rw [e]
      exact ⟨hother _ e, .inr (.inr (.inr ⟨rfl, by simp [writeFile]⟩))⟩
  · have : rpcWriter env fs p path format force = .error .valueError := by
      unfold rpcWriter; rw [if_pos hf]
    rw [this]
    exact hf

/-! ### A case that meets the hypotheses -/

namespace IoExamples

/-- Libraries with an exact printing, and a GDAL that reads `.RPB` files. -/
def rpbEnv : IoEnv ℚ where
  gdal := fun a b => match a with | some r => some r | none => b
  readRpb := rpbRead unaryFloat
  parseXml := fun _ => none
  toFloat := unaryFloat
  fmt := unaryFmt

theorem rpbEnv_laws : GdalLaws rpbEnv := ⟨fun _ => rfl, fun _ => rfl⟩

/-- One image without RPC. -/
def oneImage : Files ℚ := fun p => if p = "d/a.tif".toList then some (.tiff none) else none

example : rpbPath "d/a.tif".toList = "d/a.RPB".toList := by decide +kernel

example : ∃ fs', rpcWriter rpbEnv oneImage (exRaw "2") "d/a.tif".toList "geotiff_rpb" false = .ok fs' ∧
    RoundTrip rpbEnv fs' "d/a.tif".toList (exRaw "2") :=
  ⟨_, rfl, C49_geotiff_rpb_partial rpbEnv rpbEnv_laws rfl unary_exact oneImage _ "d/a.tif".toList (exRaw "2") false rfl
    (by decide +kernel) rfl⟩

example : ∃ fs', rpcWriter rpbEnv oneImage (exRaw "2") "d/a.tif".toList "geotiff" false = .ok fs' ∧
    RoundTrip rpbEnv fs' "d/a.tif".toList (exRaw "2") := by
  have h : ∀ t, oneImage (rpbPath "d/a.tif".toList) ≠ some (.text t) := by
    intro t
    unfold oneImage
    rw [if_neg (by decide +kernel)]
    simp
  have hi : oneImage "d/a.tif".toList = some (.tiff none) := rfl
  obtain ⟨fs', e, -⟩ := C52_geotiff_written rpbEnv oneImage (exRaw "2") "d/a.tif".toList none false hi (by
    right
    rintro r ⟨i, h1, h2 | h2⟩
    · obtain ⟨t, ht, -⟩ := h2; exact h t ht
    · rw [hi] at h1
      simp only [Option.some.injEq, RpcFile.tiff.injEq] at h1
      subst h1
      have := h2.2
      simp [rpbEnv] at this)
  exact ⟨fs', e, C49_geotiff_partial rpbEnv rpbEnv_laws oneImage fs' _ none (exRaw "2") false hi h e⟩

end IoExamples
end Shareloc
