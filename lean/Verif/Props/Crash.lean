import Verif.Lemmas.Crash
import Verif.Lemmas.Json
import Verif.Props.RpcWriters

/-!
C86: an export to a text file interrupted at any point.
C87: content of the JSON export.
-/

set_option linter.unusedSectionVars false

namespace Shareloc
variable {K : Type} [Field K] [LinearOrder K] [IsStrictOrderedRing K]

/-! ### C86 -/

/-- C86. A `.RPB` file cut after any number of characters has no readable model, or has exactly the exported one. -/
theorem C86_truncated_rpb (env : IoEnv K) (he : ExactPrinting env.toFloat env.fmt) (r : RioRpc K) (n : ℕ) (r' : RioRpc K)
    (h : rpbRead env.toFloat (linesOf ((fileChars (rpbText env r)).take n)) = some r') : r' = r := by
  rcases rpb_cut env he r n with h' | h' <;> rw [h'] at h
  · cases h
  · exact (Option.some.inj h).symm

/-- C86. A JSON file cut after any number of characters is not an object, or is exactly the exported one. -/
theorem C86_truncated_json (env : IoEnv K) (he : JsonPrinting env.toFloat env.fmt) (r : RioRpc K) (n : ℕ)
    (d : List (Line × JVal K)) (h : JsonObject env.toFloat ((fileChars (jsonText env r)).take n) d) : d = rioDict r :=
  json_cut he r n d h

theorem interrupted_other {fs fs' : Files K} {path : Line} {t : Text} (h : Interrupted fs path t fs') (other : Line)
    (ho : other ≠ path) : fs' other = fs other := by
  rcases h with rfl | ⟨n, rfl⟩
  · rfl
  · simp [writeFile, ho]

/-- C86. The other files are not changed. -/
theorem C86_other_files (env : IoEnv K) (fs fs' : Files K) (p : RpcParams K) (path : Line) (format : String)
    (h : InterruptedWriter env fs p path format fs') (other : Line) (ho : other ≠ targetOf format path) :
    fs' other = fs other := by
  rcases h with ⟨rfl, h⟩ | ⟨rfl, h⟩ | ⟨rfl, h⟩
  · exact interrupted_other h other (by simpa [targetOf] using ho)
  · exact interrupted_other h other (by simpa [targetOf] using ho)
  · exact interrupted_other h other (by simpa [targetOf] using ho)

/-- The files without the `.RPB` file of an image. -/
def withoutRpb (fs : Files K) (image : Line) : Files K := fun q => if q = rpbPath image then none else fs q

theorem reader_of_rioRpcs (env : IoEnv K) (fs fs' : Files K) (path : Line) (topleft : Bool) (h : fs path = fs' path)
    (hr : rioRpcs env fs path = rioRpcs env fs' path) : rpcReader env fs path topleft = rpcReader env fs' path topleft := by
  have e1 : textAt fs path = textAt fs' path := by unfold textAt; rw [h]
  have e3 : readRasterio env fs path topleft = readRasterio env fs' path topleft := by
    unfold readRasterio; rw [hr]
  unfold rpcReader
  rw [e1, e3]

theorem textAt_write (fs : Files K) (q : Line) (t : Text) : textAt (writeFile fs q (.text t)) q = some t := by
  simp [textAt, writeFile]

theorem textAt_without (fs : Files K) (image : Line) : textAt (withoutRpb fs image) (rpbPath image) = none := by
  simp [textAt, withoutRpb]

/-- C86. After an interrupted export beside an image, the image is read with the model it had before the export, or as if it
had no `.RPB` file, or with the exported model: there is no fourth possibility. -/
theorem C86_reader (env : IoEnv K) (hgdal : env.readRpb = rpbRead env.toFloat) (he : ExactPrinting env.toFloat env.fmt)
    (fs fs' : Files K) (p : RpcParams K) (image : Line) (topleft force : Bool) (hne : image ≠ rpbPath image)
    (h : InterruptedWriter env fs p image "geotiff_rpb" fs') :
    rpcReader env fs' image topleft = rpcReader env fs image topleft ∨
    rpcReader env fs' image topleft = rpcReader env (withoutRpb fs image) image topleft ∨
    ∃ done, rpcWriter env fs p image "geotiff_rpb" force = .ok done ∧
      rpcReader env fs' image topleft = rpcReader env done image topleft := by
  have h : Interrupted fs (rpbPath image) (rpbText env (toRio p true)) fs' := by
    rcases h with ⟨-, h⟩ | ⟨h, -⟩ | ⟨h, -⟩
    · exact h
    · exact absurd h (by decide)
    · exact absurd h (by decide)
  rcases h with rfl | ⟨n, rfl⟩
  · exact .inl rfl
  right
  generalize ht : linesOf ((fileChars (rpbText env (toRio p true))).take n) = t
  have hc := rpb_cut env he (toRio p true) n
  rw [ht] at hc
  rcases hc with hc | hc
  · left
    refine reader_of_rioRpcs env _ _ image topleft (by simp [writeFile, withoutRpb, hne]) ?_
    unfold rioRpcs
    rw [textAt_write, textAt_without, Option.bind_some, Option.bind_none, hgdal, hc]
    simp [writeFile, withoutRpb, hne]
  · right
    refine ⟨writeFile fs (rpbPath image) (.text (rpbText env (toRio p true))), rfl, ?_⟩
    refine reader_of_rioRpcs env _ _ image topleft (by simp [writeFile, hne]) ?_
    unfold rioRpcs
    rw [textAt_write, textAt_write, Option.bind_some, Option.bind_some, hgdal, hc, rpbRead_rpbText env he]
    simp [writeFile, hne]

theorem linesOf_fileChars (t : Text) (h : ∀ l ∈ t, '\n' ∉ l) : linesOf (fileChars t) = t := by
  induction t with
  | nil => rfl
  | cons l ls ih =>
    simp only [List.mem_cons, forall_eq_or_imp] at h
    have e : fileChars (l :: ls) = l ++ '\n' :: fileChars ls := by simp [fileChars]
    rw [e]
    have := ih h.2
    unfold linesOf at this ⊢
    rw [linesAux_line _ _ _ h.1, this]
    rfl

/-- C86. The completed export is one of the states considered. -/
theorem C86_completed (env : IoEnv K) (he : ExactPrinting env.toFloat env.fmt) (fs fs' : Files K) (p : RpcParams K) (path : Line)
    (force : Bool) (h : rpcWriter env fs p path "geotiff_rpb" force = .ok fs') :
    InterruptedWriter env fs p path "geotiff_rpb" fs' := by
  refine .inl ⟨rfl, .inr ⟨(fileChars (rpbText env (toRio p true))).length, ?_⟩⟩
  have : rpcWriter env fs p path "geotiff_rpb" force =
    .ok (writeFile fs (rpbPath path) (.text (rpbText env (toRio p true)))) := rfl
  rw [this, Except.ok.injEq] at h
  rw [List.take_length, linesOf_fileChars _ (rpbText_noNewline env he _), h]

/-- C86, the code is not atomic: whatever the `.RPB` file was, an interruption can leave an image read as if it had none. -/
theorem C86_old_model_can_be_lost (env : IoEnv K) (hgdal : env.readRpb = rpbRead env.toFloat) (fs : Files K) (p : RpcParams K)
    (image : Line) (topleft : Bool) (hne : image ≠ rpbPath image) :
    ∃ fs', InterruptedWriter env fs p image "geotiff_rpb" fs' ∧
      rpcReader env fs' image topleft = rpcReader env (withoutRpb fs image) image topleft := by
  refine ⟨_, .inl ⟨rfl, .inr ⟨0, rfl⟩⟩, ?_⟩
  have hc : rpbRead env.toFloat (linesOf ((fileChars (rpbText env (toRio p true))).take 0)) = none := rfl
  refine reader_of_rioRpcs env _ _ image topleft (by simp [writeFile, withoutRpb, hne]) ?_
  unfold rioRpcs
  rw [textAt_write, textAt_without, Option.bind_some, Option.bind_none, hgdal, hc]
  simp [writeFile, withoutRpb, hne]

/-! ### C87 -/

/-- C87. The JSON file is the object whose members are the 14 parameters of rasterio, in this order. -/
theorem C87_json_content (env : IoEnv K) (he : JsonPrinting env.toFloat env.fmt) (fs : Files K) (p : RpcParams K) (path : Line)
    (force : Bool) : ∃ fs' t, rpcWriter env fs p path "json" force = .ok fs' ∧ fs' path = some (.text t) ∧
      JsonObject env.toFloat (fileChars t) (rioDict (toRio p true)) := by
  refine ⟨_, jsonText env (toRio p true), rfl, by simp [writeFile], ?_⟩
  have e : fileChars (jsonText env (toRio p true)) = fileChars (jsonBody env (toRio p true)) ++ '}' :: ['\n'] := by
    rw [jsonText_eq, fileChars_append]; rfl
  rw [e]
  exact jsonBody_object he _ _ (.white _ _ _ (by decide) .done)

/-- C87. A file is at most one object: the model is known from the file. -/
theorem C87_json_unambiguous (toFloat : Line → Option K) (cs : List Char) (d d' : List (Line × JVal K))
    (h : JsonObject toFloat cs d) (h' : JsonObject toFloat cs d') : d = d' := jsonObject_unique h h'

/-- C87. Two exports with the same file are exports of the same inverse model. -/
theorem C87_json_injective (env : IoEnv K) (he : JsonPrinting env.toFloat env.fmt) (p p' : RpcParams K)
    (h : jsonText env (toRio p true) = jsonText env (toRio p' true)) : toRio p true = toRio p' true := by
  have key : ∀ r, JsonObject env.toFloat (fileChars (jsonText env r)) (rioDict r) := by
    intro r
    rw [jsonText_eq, fileChars_append]
    exact jsonBody_object he _ _ (.white _ _ _ (by decide) .done)
  have h1 := key (toRio p true)
  have h2 := key (toRio p' true)
  rw [h] at h1
  have e := jsonObject_unique h1 h2
  generalize toRio p true = r at e
  generalize toRio p' true = r' at e
  cases r; cases r'
  simpa [rioDict] using e

/-! ### The hypotheses can be met -/

open IoExamples

theorem unary_json : JsonPrinting unaryFloat unaryFmt := by
  refine ⟨unary_exact.back, unary_exact.nonempty, fun x c hc => ?_⟩
  simp only [unaryFmt, List.mem_replicate] at hc
  rw [hc.2]; decide

/-- An export beside an image, interrupted after 200 characters: the file exists and has no readable model. -/
example : rpbRead rpbEnv.toFloat (linesOf ((fileChars (rpbText rpbEnv (toRio (exRaw "2") true))).take 200)) = none := by
  decide +kernel

example : ∃ fs', InterruptedWriter rpbEnv oneImage (exRaw "2") "d/a.tif".toList "geotiff_rpb" fs' ∧
    fs' ≠ oneImage ∧ fs' "d/a.tif".toList = some (.tiff none) := by
  have key : ∀ t, writeFile oneImage (rpbPath "d/a.tif".toList) (.text t) ≠ oneImage := by
    intro t h
    have e := congrFun h (rpbPath "d/a.tif".toList)
    unfold writeFile oneImage at e
    rw [if_pos rfl, if_neg (by decide +kernel)] at e
    cases e
  have key2 : ∀ t, writeFile oneImage (rpbPath "d/a.tif".toList) (.text t) "d/a.tif".toList = some (.tiff none) := by
    intro t
    unfold writeFile oneImage
    rw [if_neg (by decide +kernel), if_pos rfl]
  exact ⟨_, .inl ⟨rfl, .inr ⟨200, rfl⟩⟩, key _, key2 _⟩

example : ∃ fs' t, rpcWriter rpbEnv oneImage (exRaw "2") "d/a.json".toList "json" false = .ok fs' ∧
    fs' "d/a.json".toList = some (.text t) ∧ JsonObject rpbEnv.toFloat (fileChars t) (rioDict (toRio (exRaw "2") true)) :=
  C87_json_content rpbEnv unary_json oneImage (exRaw "2") _ false

end Shareloc
