import Verif.Spec.Rpb
import Mathlib.Logic.Encodable.Basic
import Mathlib.Data.Rat.Encodable

set_option linter.unusedSectionVars false

namespace Shareloc
variable {K : Type} [Field K] [LinearOrder K]

theorem tok_word (w : Line) (hw : ∀ c ∈ w, IsWordChar c) (cur rest : List Char) :
    tokAux cur (w ++ rest) = tokAux (w.reverse ++ cur) rest := by
  induction w generalizing cur with
  | nil => rfl
  | cons c cs ih =>
    obtain ⟨h1, h2⟩ := hw c (by simp)
    simp only [List.cons_append, tokAux, h1, h2, Bool.false_eq_true, if_false]
    rw [ih (fun c hc => hw c (by simp [hc]))]
    simp

theorem flush_word (w : Line) (hne : w ≠ []) : flush (w.reverse ++ []) = [.word w] := by
  simp [flush, hne]

theorem tok_line (env : IoEnv K) (he : ExactPrinting env.toFloat env.fmt) (name : Line) (hn : ∀ c ∈ name, IsWordChar c)
    (hne : name ≠ []) (x : K) : tokAux [] (rpbLine env name x) = [.word name, .eq, .word (env.fmt x), .semi] := by
  have e : rpbLine env name x = '\t' :: (name ++ (' ' :: '=' :: ' ' :: (env.fmt x ++ [';']))) := by
    simp [rpbLine]
  have s1 : tokAux [] ('\t' :: (name ++ (' ' :: '=' :: ' ' :: (env.fmt x ++ [';'])))) =
      tokAux [] (name ++ (' ' :: '=' :: ' ' :: (env.fmt x ++ [';']))) := by
    rw [tokAux]; simp [special, isWhite, flush]
  rw [e, s1, tok_word name hn]
  have s2 : tokAux (name.reverse ++ []) (' ' :: '=' :: ' ' :: (env.fmt x ++ [';'])) =
      flush (name.reverse ++ []) ++ (.eq :: tokAux [] (env.fmt x ++ [';'])) := by
    rw [tokAux]; simp [special, isWhite, tokAux, flush]
  rw [s2, flush_word name hne, tok_word _ (he.wordChars x)]
  have s3 : tokAux ((env.fmt x).reverse ++ []) [';'] = flush ((env.fmt x).reverse ++ []) ++ [.semi] := by
    simp [tokAux, special, flush]
  rw [s3, flush_word _ (he.nonempty x)]
  rfl

/-- The tokens of the values of a list. -/
def coefToks (env : IoEnv K) (l : List K) (n k : ℕ) : List Tok :=
  match l with
  | [] => []
  | x :: xs => .word (env.fmt x) :: ((if k < n then [.comma] else []) ++ coefToks env xs n (k + 1))

theorem tok_coef_line (env : IoEnv K) (he : ExactPrinting env.toFloat env.fmt) (x : K) (b : Prop) [Decidable b] :
    tokAux [] ("\t\t".toList ++ env.fmt x ++ (if b then ",".toList else [])) =
      .word (env.fmt x) :: (if b then [.comma] else []) := by
  have e : "\t\t".toList ++ env.fmt x ++ (if b then ",".toList else []) =
      '\t' :: '\t' :: (env.fmt x ++ (if b then [','] else [])) := by simp
  have s1 : ∀ r, tokAux [] ('\t' :: '\t' :: r) = tokAux [] r := by
    intro r; rw [tokAux, tokAux]; simp [special, isWhite, flush]
  rw [e, s1, tok_word _ (he.wordChars x)]
  by_cases h : b
  · have : tokAux ((env.fmt x).reverse ++ []) [','] = flush ((env.fmt x).reverse ++ []) ++ [.comma] := by
      simp [tokAux, special, flush]
    simp only [if_pos h]
    rw [this, flush_word _ (he.nonempty x)]; rfl
  · simp only [if_neg h]
    rw [tokAux, flush_word _ (he.nonempty x)]

theorem tok_coefs (env : IoEnv K) (he : ExactPrinting env.toFloat env.fmt) (l : List K) (n k : ℕ) :
    ((l.zipIdx k).map fun ci => "\t\t".toList ++ env.fmt ci.1 ++ (if ci.2 < n then ",".toList else [])).flatMap
      (fun s => tokAux [] s) = coefToks env l n k := by
  induction l generalizing k with
  | nil => rfl
  | cons x xs ih =>
    rw [List.zipIdx_cons, List.map_cons, List.flatMap_cons, tok_coef_line env he, ih (k + 1)]
    rfl

theorem assigns_coefs (env : IoEnv K) (l : List K) (n k : ℕ) (name : Line) (acc : List Line) (ts : List Tok) :
    assigns (some (name, acc)) (coefToks env l n k ++ .close :: ts) = (name, acc ++ l.map env.fmt) :: assigns none ts := by
  induction l generalizing k acc with
  | nil => simp [coefToks, assigns]
  | cons x xs ih =>
    simp only [coefToks, List.cons_append, assigns, List.append_assoc]
    by_cases h : k < n
    · simp only [if_pos h, List.cons_append, List.nil_append, assigns]
      rw [ih (k + 1)]; simp
    · simp only [if_neg h, List.nil_append]
      rw [ih (k + 1)]; simp

theorem tokens_coefs (env : IoEnv K) (he : ExactPrinting env.toFloat env.fmt) (name : Line) (hn : ∀ c ∈ name, IsWordChar c)
    (hne : name ≠ []) (l : List K) : tokens (rpbCoefs env name l) =
    [.word name, .eq, .open] ++ coefToks env l (l.length - 1) 0 ++ [.close, .semi] := by
  have h0 : tokAux [] ("\t".toList ++ name ++ " = (".toList) = [.word name, .eq, .open] := by
    have e : "\t".toList ++ name ++ " = (".toList = '\t' :: (name ++ [' ', '=', ' ', '(']) := by simp
    have s1 : tokAux [] ('\t' :: (name ++ [' ', '=', ' ', '('])) = tokAux [] (name ++ [' ', '=', ' ', '(']) := by
      rw [tokAux]; simp [special, isWhite, flush]
    have s2 : tokAux (name.reverse ++ []) [' ', '=', ' ', '('] = flush (name.reverse ++ []) ++ [.eq, .open] := by
      simp [tokAux, special, isWhite, flush]
    rw [e, s1, tok_word name hn, s2, flush_word name hne]; rfl
  have h1 : tokAux [] "\t);".toList = [.close, .semi] := by decide +kernel
  have h2 := tok_coefs env he l (l.length - 1) 0
  unfold tokens rpbCoefs
  rw [List.flatMap_append, List.flatMap_append, h2]
  simp only [List.flatMap_cons, List.flatMap_nil, List.append_nil, h0, h1]

theorem assigns_line (k v : Line) (ts : List Tok) :
    assigns none (.word k :: .eq :: .word v :: .semi :: ts) = (k, [v]) :: assigns none ts := by
  rw [assigns, assigns]
  · rintro k' v' ts' h _; cases h
  · rintro k' ts' h _; cases h

theorem assigns_list (env : IoEnv K) (name : Line) (l : List K) (n k : ℕ) (ts : List Tok) :
    assigns none ([.word name, .eq, .open] ++ coefToks env l n k ++ [.close, .semi] ++ ts) =
      (name, l.map env.fmt) :: assigns none ts := by
  have : [Tok.word name, .eq, .open] ++ coefToks env l n k ++ [.close, .semi] ++ ts =
    .word name :: .eq :: .open :: (coefToks env l n k ++ .close :: (.semi :: ts)) := by simp
  rw [this, assigns, assigns_coefs]
  rw [assigns]
  · simp
  · rintro k' v' ts' h _; cases h
  · rintro k' ts' h _; cases h

theorem allFloats_back (env : IoEnv K) (he : ExactPrinting env.toFloat env.fmt) (l : List K) :
    allFloats env.toFloat (l.map env.fmt) = some l := by
  induction l with
  | nil => rfl
  | cons x xs ih => simp [allFloats, he.back, ih]

instance (c : Char) : Decidable (IsWordChar c) := inferInstanceAs (Decidable (_ ∧ _))

/-- The lines before the lists. -/
def rpbFixed (env : IoEnv K) (r : RioRpc K) : Text :=
  ["satId =  'UNKNOWN';".toList, "bandId = 'P';".toList, "SpecId = \"RPC00B\";".toList, "BEGIN_GROUP = IMAGE".toList,
   "\terrBias = -1;".toList, "\terrRand = -1;".toList, rpbLine env "lineOffset".toList r.lineOff,
   rpbLine env "sampOffset".toList r.sampOff, rpbLine env "latOffset".toList r.latOff,
   rpbLine env "longOffset".toList r.longOff, rpbLine env "heightOffset".toList r.heightOff,
   rpbLine env "lineScale".toList r.lineScale, rpbLine env "sampScale".toList r.sampScale,
   rpbLine env "latScale".toList r.latScale, rpbLine env "longScale".toList r.longScale,
   rpbLine env "heightScale".toList r.heightScale]

/-- The lines before the last list. -/
def rpbHead (env : IoEnv K) (r : RioRpc K) : Text :=
  rpbFixed env r ++ rpbCoefs env "lineNumCoef".toList r.lineNum ++ rpbCoefs env "lineDenCoef".toList r.lineDen ++
  rpbCoefs env "sampNumCoef".toList r.sampNum

theorem rpbText_eq (env : IoEnv K) (r : RioRpc K) : rpbText env r =
    rpbHead env r ++ rpbCoefs env "sampDenCoef".toList r.sampDen ++ ["END_GROUP = IMAGE".toList, "END;".toList] := rfl

/-- The assignments of the lines before the last list. -/
def headEntries (env : IoEnv K) (r : RioRpc K) : List (Line × List Line) :=
  [("satId".toList, ["'UNKNOWN'".toList]), ("bandId".toList, ["'P'".toList]), ("SpecId".toList, ["\"RPC00B\"".toList]),
   ("BEGIN_GROUP".toList, ["IMAGE".toList]), ("errBias".toList, ["-1".toList]), ("errRand".toList, ["-1".toList]),
   ("lineOffset".toList, [env.fmt r.lineOff]), ("sampOffset".toList, [env.fmt r.sampOff]),
   ("latOffset".toList, [env.fmt r.latOff]), ("longOffset".toList, [env.fmt r.longOff]),
   ("heightOffset".toList, [env.fmt r.heightOff]), ("lineScale".toList, [env.fmt r.lineScale]),
   ("sampScale".toList, [env.fmt r.sampScale]), ("latScale".toList, [env.fmt r.latScale]),
   ("longScale".toList, [env.fmt r.longScale]), ("heightScale".toList, [env.fmt r.heightScale]),
   ("lineNumCoef".toList, r.lineNum.map env.fmt), ("lineDenCoef".toList, r.lineDen.map env.fmt),
   ("sampNumCoef".toList, r.sampNum.map env.fmt)]

theorem tokens_fixed (env : IoEnv K) (he : ExactPrinting env.toFloat env.fmt) (r : RioRpc K) : tokens (rpbFixed env r) =
   [.word "satId".toList, .eq, .word "'UNKNOWN'".toList, .semi, .word "bandId".toList, .eq, .word "'P'".toList, .semi,
    .word "SpecId".toList, .eq, .word "\"RPC00B\"".toList, .semi, .word "BEGIN_GROUP".toList, .eq, .word "IMAGE".toList,
    .word "errBias".toList, .eq, .word "-1".toList, .semi, .word "errRand".toList, .eq, .word "-1".toList, .semi,
    .word "lineOffset".toList, .eq, .word (env.fmt r.lineOff), .semi, .word "sampOffset".toList, .eq, .word (env.fmt r.sampOff), .semi,
    .word "latOffset".toList, .eq, .word (env.fmt r.latOff), .semi, .word "longOffset".toList, .eq, .word (env.fmt r.longOff), .semi,
    .word "heightOffset".toList, .eq, .word (env.fmt r.heightOff), .semi, .word "lineScale".toList, .eq, .word (env.fmt r.lineScale), .semi,
    .word "sampScale".toList, .eq, .word (env.fmt r.sampScale), .semi, .word "latScale".toList, .eq, .word (env.fmt r.latScale), .semi,
    .word "longScale".toList, .eq, .word (env.fmt r.longScale), .semi, .word "heightScale".toList, .eq, .word (env.fmt r.heightScale), .semi] := by
  have c1 : tokAux [] "satId =  'UNKNOWN';".toList = [.word "satId".toList, .eq, .word "'UNKNOWN'".toList, .semi] := by decide +kernel
  have c2 : tokAux [] "bandId = 'P';".toList = [.word "bandId".toList, .eq, .word "'P'".toList, .semi] := by decide +kernel
  have c3 : tokAux [] "SpecId = \"RPC00B\";".toList = [.word "SpecId".toList, .eq, .word "\"RPC00B\"".toList, .semi] := by decide +kernel
  have c4 : tokAux [] "BEGIN_GROUP = IMAGE".toList = [.word "BEGIN_GROUP".toList, .eq, .word "IMAGE".toList] := by decide +kernel
  have c5 : tokAux [] "\terrBias = -1;".toList = [.word "errBias".toList, .eq, .word "-1".toList, .semi] := by decide +kernel
  have c6 : tokAux [] "\terrRand = -1;".toList = [.word "errRand".toList, .eq, .word "-1".toList, .semi] := by decide +kernel
  have hl : ∀ (s : String) (x : K), (∀ c ∈ s.toList, IsWordChar c) → s.toList ≠ [] →
      tokAux [] (rpbLine env s.toList x) = [.word s.toList, .eq, .word (env.fmt x), .semi] :=
    fun s x h1 h2 => tok_line env he s.toList h1 h2 x
  unfold rpbFixed
  simp only [tokens, List.flatMap_cons, List.flatMap_nil, c1, c2, c3, c4, c5, c6]
  rw [hl "lineOffset" _ (by decide +kernel) (by decide +kernel), hl "sampOffset" _ (by decide +kernel) (by decide +kernel),
    hl "latOffset" _ (by decide +kernel) (by decide +kernel), hl "longOffset" _ (by decide +kernel) (by decide +kernel),
    hl "heightOffset" _ (by decide +kernel) (by decide +kernel), hl "lineScale" _ (by decide +kernel) (by decide +kernel),
    hl "sampScale" _ (by decide +kernel) (by decide +kernel), hl "latScale" _ (by decide +kernel) (by decide +kernel),
    hl "longScale" _ (by decide +kernel) (by decide +kernel), hl "heightScale" _ (by decide +kernel) (by decide +kernel)]
  rfl

theorem tokens_head (env : IoEnv K) (he : ExactPrinting env.toFloat env.fmt) (r : RioRpc K) : tokens (rpbHead env r) =
    tokens (rpbFixed env r) ++
      ([.word "lineNumCoef".toList, .eq, .open] ++ coefToks env r.lineNum (r.lineNum.length - 1) 0 ++ [.close, .semi]) ++
      ([.word "lineDenCoef".toList, .eq, .open] ++ coefToks env r.lineDen (r.lineDen.length - 1) 0 ++ [.close, .semi]) ++
      ([.word "sampNumCoef".toList, .eq, .open] ++ coefToks env r.sampNum (r.sampNum.length - 1) 0 ++ [.close, .semi]) := by
  have happ : ∀ a b : Text, tokens (a ++ b) = tokens a ++ tokens b := fun a b => List.flatMap_append
  unfold rpbHead
  rw [happ, happ, happ]
  rw [tokens_coefs env he _ (by decide +kernel) (by decide +kernel), tokens_coefs env he _ (by decide +kernel) (by decide +kernel),
    tokens_coefs env he _ (by decide +kernel) (by decide +kernel)]

/-- The lines before the last list, followed by anything. -/
theorem head_assigns (env : IoEnv K) (he : ExactPrinting env.toFloat env.fmt) (r : RioRpc K) (ts : List Tok) :
    assigns none (tokens (rpbHead env r) ++ ts) = headEntries env r ++ assigns none ts := by
  have hbegin : ∀ ts, assigns none (.word "BEGIN_GROUP".toList :: .eq :: .word "IMAGE".toList :: ts) =
      ("BEGIN_GROUP".toList, ["IMAGE".toList]) :: assigns none ts := fun ts => by rw [assigns]
  have hl2 : ∀ (name : Line) (l : List K) (n : ℕ) (ts : List Tok),
      assigns none (.word name :: .eq :: .open :: (coefToks env l n 0 ++ (.close :: .semi :: ts))) =
        (name, l.map env.fmt) :: assigns none ts := by
    intro name l n ts
    have := assigns_list env name l n 0 ts
    simpa using this
  rw [tokens_head env he, tokens_fixed env he]
  simp only [List.append_assoc, List.cons_append, List.nil_append]
  simp only [assigns_line, hbegin, hl2, headEntries, List.cons_append, List.nil_append]

theorem rpb_assigns (env : IoEnv K) (he : ExactPrinting env.toFloat env.fmt) (r : RioRpc K) :
    assigns none (tokens (rpbText env r)) =
      headEntries env r ++ [("sampDenCoef".toList, r.sampDen.map env.fmt), ("END_GROUP".toList, ["IMAGE".toList])] := by
  have happ : ∀ a b : Text, tokens (a ++ b) = tokens a ++ tokens b := fun a b => List.flatMap_append
  have hend : assigns none (tokens ["END_GROUP = IMAGE".toList, "END;".toList]) = [("END_GROUP".toList, ["IMAGE".toList])] := by
    decide +kernel
  rw [rpbText_eq, happ, happ, List.append_assoc, head_assigns env he,
    tokens_coefs env he _ (by decide +kernel) (by decide +kernel), assigns_list, hend]

/-- The text written for an RPC is read back by the specification of the format. -/
theorem rpbRead_rpbText (env : IoEnv K) (he : ExactPrinting env.toFloat env.fmt) (r : RioRpc K) :
    rpbRead env.toFloat (rpbText env r) = some r := by
  have hb := he.back
  have hf := allFloats_back env he
  simp only [rpbRead, rpb_assigns env he, headEntries, rpbNumber, rpbNumbers]
  simp [List.lookup, hb, hf]

/-- A printing of the rational numbers that satisfies the hypotheses (in base one). -/
def unaryFmt (x : ℚ) : Line := List.replicate (Encodable.encode x + 1) '1'

/-- Its reading. -/
def unaryFloat (s : Line) : Option ℚ := Encodable.decode (s.length - 1)

theorem unary_exact : ExactPrinting unaryFloat unaryFmt := by
  refine ⟨fun x => ?_, fun x => by simp [unaryFmt], fun x c hc => ?_⟩
  · simp [unaryFloat, unaryFmt]
  · simp only [unaryFmt, List.mem_replicate] at hc
    rw [hc.2]; decide

end Shareloc
