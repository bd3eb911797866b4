import Verif.Spec.Json
import Verif.Model.Crash
import Verif.Lemmas.Rpb

set_option linter.unusedSectionVars false

namespace Shareloc
variable {K : Type} [Field K] [LinearOrder K]

instance (c : Char) : Decidable (NumChar c) := inferInstanceAs (Decidable (_ ∈ _))
instance (c : Char) : Decidable (White c) := inferInstanceAs (Decidable (_ ∨ _))

/-! ### The lexical analysis is deterministic -/

theorem structural_unique {c : Char} {t t' : JTok} (h : Structural c t) (h' : Structural c t') : t = t' := by
  cases h <;> cases h' <;> rfl

theorem structural_cases {c : Char} {t : JTok} (h : Structural c t) : ¬ White c ∧ c ≠ '"' ∧ ¬ NumChar c := by
  cases h <;> decide

theorem white_cases {c : Char} (h : White c) : c ≠ '"' ∧ ¬ NumChar c := by
  rcases h with rfl | rfl | rfl | rfl <;> decide

theorem quoted_unique (s s' r r' : Line) (h : '"' ∉ s) (h' : '"' ∉ s') (e : s ++ '"' :: r = s' ++ '"' :: r') :
    s = s' ∧ r = r' := by
  rw [List.append_eq_append_iff] at e
  rcases e with ⟨a, ha, hb⟩ | ⟨a, ha, hb⟩
  · cases a with
    | nil => simp only [List.append_nil] at ha; simp only [List.nil_append, List.cons.injEq, true_and] at hb; exact ⟨ha.symm, hb⟩
    | cons x xs =>
      simp only [List.cons_append, List.cons.injEq] at hb
      exact absurd (by rw [ha, ← hb.1]; simp) h'
  · cases a with
    | nil => simp only [List.append_nil] at ha; simp only [List.nil_append, List.cons.injEq, true_and] at hb; exact ⟨ha, hb.symm⟩
    | cons x xs =>
      simp only [List.cons_append, List.cons.injEq] at hb
      exact absurd (by rw [ha, ← hb.1]; simp) h

theorem number_unique (w w' r r' : Line) (h : ∀ c ∈ w, NumChar c) (h' : ∀ c ∈ w', NumChar c)
    (hr : ∀ c, r.head? = some c → ¬ NumChar c) (hr' : ∀ c, r'.head? = some c → ¬ NumChar c) (e : w ++ r = w' ++ r') :
    w = w' ∧ r = r' := by
  rw [List.append_eq_append_iff] at e
  rcases e with ⟨a, ha, hb⟩ | ⟨a, ha, hb⟩
  · cases a with
    | nil => simp only [List.append_nil] at ha; exact ⟨ha.symm, by simpa using hb⟩
    | cons x xs => exact absurd (h' x (by rw [ha]; simp)) (hr x (by rw [hb]; rfl))
  · cases a with
    | nil => simp only [List.append_nil] at ha; exact ⟨ha, by simpa using hb.symm⟩
    | cons x xs => exact absurd (h x (by rw [ha]; simp)) (hr' x (by rw [hb]; rfl))

theorem jlex_unique {cs : List Char} {ts ts' : List JTok} (h : JLex cs ts) (h' : JLex cs ts') : ts = ts' := by
  have numHead : ∀ (w : Line) (cs : List Char) (c : Char) (r : List Char), w ≠ [] → (∀ c ∈ w, NumChar c) →
      c :: r = w ++ cs → NumChar c := by
    intro w cs c r hne hw e
    cases w with
    | nil => exact absurd rfl hne
    | cons x xs =>
      simp only [List.cons_append, List.cons.injEq] at e
      rw [e.1]; exact hw x (by simp)
  induction h generalizing ts' with
  | done =>
    generalize hc : ([] : List Char) = cs at h'
    cases h' with
    | done => rfl
    | num w _ _ hne => simp at hc; exact absurd hc.1 hne
    | white => cases hc
    | mark => cases hc
    | str => cases hc
  | white c cs ts hw _ ih =>
    generalize hc : c :: cs = cs' at h'
    cases h' with
    | done => cases hc
    | white c' cs' _ _ h2 => simp only [List.cons.injEq] at hc; exact ih (hc.2 ▸ h2)
    | mark c' t' cs' _ hs h2 =>
      simp only [List.cons.injEq] at hc
      exact absurd (hc.1 ▸ hw) (structural_cases hs).1
    | str s cs' _ _ _ h2 =>
      simp only [List.cons.injEq] at hc
      exact absurd hc.1 (white_cases hw).1
    | num w cs' _ hne hn _ h2 => exact absurd (numHead _ _ _ _ hne hn hc) (white_cases hw).2
  | mark c t cs ts hs _ ih =>
    generalize hc : c :: cs = cs' at h'
    cases h' with
    | done => cases hc
    | white c' cs' _ hw h2 =>
      simp only [List.cons.injEq] at hc
      exact absurd (hc.1 ▸ hw) (structural_cases hs).1
    | mark c' t' cs' _ hs' h2 =>
      simp only [List.cons.injEq] at hc
      obtain ⟨rfl, rfl⟩ := hc
      rw [structural_unique hs hs', ih h2]
    | str s cs' _ _ _ h2 =>
      simp only [List.cons.injEq] at hc
      exact absurd hc.1 (structural_cases hs).2.1
    | num w cs' _ hne hn _ h2 => exact absurd (numHead _ _ _ _ hne hn hc) (structural_cases hs).2.2
  | str s cs ts hq _ _ ih =>
    generalize hc : '"' :: (s ++ '"' :: cs) = cs' at h'
    cases h' with
    | done => cases hc
    | white c' cs' _ hw h2 =>
      simp only [List.cons.injEq] at hc
      exact absurd hc.1.symm (white_cases hw).1
    | mark c' t' cs' _ hs h2 =>
      simp only [List.cons.injEq] at hc
      exact absurd hc.1.symm (structural_cases hs).2.1
    | str s' cs' _ hq' _ h2 =>
      simp only [List.cons.injEq, true_and] at hc
      obtain ⟨rfl, rfl⟩ := quoted_unique _ _ _ _ hq hq' hc
      rw [ih h2]
    | num w cs' _ hne hn _ h2 => exact absurd (numHead _ _ _ _ hne hn hc) (by decide)
  | num w cs ts hne hn hh _ ih =>
    generalize hc : w ++ cs = cs' at h'
    cases h' with
    | done => simp at hc; exact absurd hc.1 hne
    | white c' cs' _ hw h2 => exact absurd (numHead _ _ _ _ hne hn hc.symm) (white_cases hw).2
    | mark c' t' cs' _ hs h2 => exact absurd (numHead _ _ _ _ hne hn hc.symm) (structural_cases hs).2.2
    | str s' cs' _ hq' _ h2 => exact absurd (numHead _ _ _ _ hne hn hc.symm) (by decide)
    | num w' cs' _ hne' hn' hh' h2 =>
      obtain ⟨rfl, rfl⟩ := number_unique _ _ _ _ hn hn' hh hh' hc
      rw [ih h2]

/-! ### The grammar is unambiguous -/

theorem jelems_noBrack {f : Line → Option K} {ts : List JTok} {l : List K} (h : JElems f ts l) : .rbrack ∉ ts := by
  induction h with
  | one => simp
  | more _ _ _ _ _ _ ih => simpa using ih

theorem jelems_ne {f : Line → Option K} {ts : List JTok} {l : List K} (h : JElems f ts l) : ts ≠ [] := by
  cases h <;> simp

theorem jelems_unique {f : Line → Option K} {ts : List JTok} {l l' : List K} (h : JElems f ts l) (h' : JElems f ts l') : l = l' := by
  induction h generalizing l' with
  | one w x hx =>
    cases h' with
    | one _ x' hx' => rw [hx] at hx'; simpa using hx'
  | more w x ts l hx _ ih =>
    cases h' with
    | more _ x' _ l' hx' h2 =>
      rw [hx] at hx'
      rw [ih h2, Option.some.inj hx']

theorem jvalue_prefix {f : Line → Option K} {a a' r r' : List JTok} {v v' : JVal K} (h : JValue f a v) (h' : JValue f a' v')
    (e : a ++ r = a' ++ r') : a = a' ∧ v = v' ∧ r = r' := by
  have brack : ∀ (x x' r r' : List JTok), .rbrack ∉ x → .rbrack ∉ x' → x ++ .rbrack :: r = x' ++ .rbrack :: r' →
      x = x' ∧ r = r' := by
    intro x x' r r' h h' e
    rw [List.append_eq_append_iff] at e
    rcases e with ⟨a, ha, hb⟩ | ⟨a, ha, hb⟩
    · cases a with
      | nil => simp only [List.append_nil] at ha; simp only [List.nil_append, List.cons.injEq, true_and] at hb; exact ⟨ha.symm, hb⟩
      | cons y ys =>
        simp only [List.cons_append, List.cons.injEq] at hb
        exact absurd (by rw [ha, ← hb.1]; simp) h'
    · cases a with
      | nil => simp only [List.append_nil] at ha; simp only [List.nil_append, List.cons.injEq, true_and] at hb; exact ⟨ha, hb.symm⟩
      | cons y ys =>
        simp only [List.cons_append, List.cons.injEq] at hb
        exact absurd (by rw [ha, ← hb.1]; simp) h
  cases h with
  | num w x hx =>
    cases h' with
    | num w' x' hx' =>
      simp only [List.cons_append, List.nil_append, List.cons.injEq, JTok.num.injEq] at e
      obtain ⟨rfl, rfl⟩ := e
      rw [hx] at hx'
      refine ⟨rfl, ?_, rfl⟩
      rw [Option.some.inj hx']
    | empty => simp at e
    | list ts' l' h2 => simp at e
  | empty =>
    cases h' with
    | num => simp at e
    | empty => simpa using e
    | list ts' l' h2 =>
      have := brack [] ts' r r' (by simp) (jelems_noBrack h2) (by simpa using e)
      exact absurd this.1.symm (jelems_ne h2)
  | list ts l h1 =>
    cases h' with
    | num => simp at e
    | empty =>
      have := brack ts [] r r' (jelems_noBrack h1) (by simp) (by simpa using e)
      exact absurd this.1 (jelems_ne h1)
    | list ts' l' h2 =>
      obtain ⟨rfl, rfl⟩ := brack ts ts' r r' (jelems_noBrack h1) (jelems_noBrack h2) (by simpa using e)
      exact ⟨rfl, by rw [jelems_unique h1 h2], rfl⟩

theorem jmembers_unique {f : Line → Option K} {ts : List JTok} {d d' : List (Line × JVal K)} (h : JMembers f ts d)
    (h' : JMembers f ts d') : d = d' := by
  induction h generalizing d' with
  | one k a v hv =>
    generalize he : JTok.str k :: .colon :: a = t at h'
    cases h' with
    | one k' a' v' hv' =>
      simp only [List.cons.injEq, JTok.str.injEq, true_and] at he
      obtain ⟨rfl, rfl⟩ := he
      obtain ⟨-, rfl, -⟩ := jvalue_prefix (r := []) (r' := []) hv hv' rfl
      rfl
    | more k' a' b' v' d' hv' h2 =>
      simp only [List.cons.injEq, JTok.str.injEq, true_and] at he
      obtain ⟨-, -, e⟩ := jvalue_prefix (r := []) hv hv' (by rw [List.append_nil]; exact he.2)
      cases e
  | more k a b v d hv _ ih =>
    generalize he : JTok.str k :: .colon :: (a ++ .comma :: b) = t at h'
    cases h' with
    | one k' a' v' hv' =>
      simp only [List.cons.injEq, JTok.str.injEq, true_and] at he
      obtain ⟨-, -, e⟩ := jvalue_prefix (r := .comma :: b) (r' := []) hv hv' (by rw [List.append_nil]; exact he.2)
      cases e
    | more k' a' b' v' d' hv' h2 =>
      simp only [List.cons.injEq, JTok.str.injEq, true_and] at he
      obtain ⟨rfl, he⟩ := he
      obtain ⟨-, rfl, e⟩ := jvalue_prefix hv hv' he
      simp only [List.cons.injEq, true_and] at e
      subst e
      rw [ih h2]

theorem jsonObject_unique {f : Line → Option K} {cs : List Char} {d d' : List (Line × JVal K)} (h : JsonObject f cs d)
    (h' : JsonObject f cs d') : d = d' := by
  obtain ⟨ts, h1, h2⟩ := h
  obtain ⟨ts', h1', h2'⟩ := h'
  have e := jlex_unique h1 h1'
  simp only [List.cons.injEq, true_and] at e
  have e2 : ts = ts' := List.append_cancel_right e
  subst e2
  exact jmembers_unique h2 h2'

/-- An object has a closing brace. -/
theorem jlex_brace {cs : List Char} {ts : List JTok} (h : JLex cs ts) (hb : .rbrace ∈ ts) : '}' ∈ cs := by
  induction h with
  | done => simp at hb
  | white c cs ts _ _ ih => exact List.mem_cons_of_mem _ (ih hb)
  | mark c t cs ts hs _ ih =>
    simp only [List.mem_cons] at hb
    rcases hb with rfl | hb
    · cases hs; simp
    · exact List.mem_cons_of_mem _ (ih hb)
  | str s cs ts _ _ _ ih =>
    simp only [List.mem_cons, reduceCtorEq, false_or] at hb
    have := ih hb
    simp [this]
  | num w cs ts _ _ _ _ ih =>
    simp only [List.mem_cons, reduceCtorEq, false_or] at hb
    exact List.mem_append_right _ (ih hb)

/-! ### The text written -/

theorem fileChars_append (a b : Text) : fileChars (a ++ b) = fileChars a ++ fileChars b := List.flatMap_append

theorem fileChars_cons (l : Line) (b : Text) : fileChars (l :: b) = l ++ '\n' :: fileChars b := by simp [fileChars]

theorem jlex_white {w cs : Line} {ts : List JTok} (hw : ∀ c ∈ w, White c) (h : JLex cs ts) : JLex (w ++ cs) ts := by
  induction w with
  | nil => exact h
  | cons c w ih =>
    simp only [List.mem_cons, forall_eq_or_imp] at hw
    exact .white _ _ _ hw.1 (ih hw.2)

/-- A key and its colon. -/
theorem jlex_key (name : Line) (hq : '"' ∉ name) (hb : '\\' ∉ name) {cs : Line} {ts : List JTok} (h : JLex cs ts) :
    JLex ("    \"".toList ++ name ++ "\": ".toList ++ cs) (.str name :: .colon :: ts) := by
  have e : "    \"".toList ++ name ++ "\": ".toList ++ cs = "    ".toList ++ ('"' :: (name ++ '"' :: (':' :: ' ' :: cs))) := by
    simp
  rw [e]
  refine jlex_white (by decide) (.str name _ _ hq hb (.mark _ _ _ _ .colon (.white _ _ _ (by decide) h)))

theorem jlex_number {env : IoEnv K} (he : JsonPrinting env.toFloat env.fmt) (x : K) {c : Char} {cs : Line} {ts : List JTok}
    (hc : ¬ NumChar c) (h : JLex (c :: cs) ts) : JLex (env.fmt x ++ c :: cs) (.num (env.fmt x) :: ts) :=
  .num _ _ _ (he.nonempty x) (he.numChars x) (by rintro d hd; simp only [List.head?_cons, Option.some.injEq] at hd; exact hd ▸ hc) h

/-- A line with a number. -/
theorem jlex_numLine {env : IoEnv K} (he : JsonPrinting env.toFloat env.fmt) (name : Line) (hq : '"' ∉ name) (hb : '\\' ∉ name)
    (x : K) (comma : Bool) {cs : Line} {ts : List JTok} (h : JLex cs ts) :
    JLex (fileChars [jsonNum env name x comma] ++ cs)
      (.str name :: .colon :: .num (env.fmt x) :: ((if comma then [.comma] else []) ++ ts)) := by
  have e : fileChars [jsonNum env name x comma] ++ cs = "    \"".toList ++ name ++ "\": ".toList ++
      (env.fmt x ++ ((if comma then ",".toList else []) ++ '\n' :: cs)) := by
    unfold jsonNum
    rw [fileChars_cons]
    generalize "    \"".toList = a
    generalize "\": ".toList = b
    generalize (if comma then ",".toList else []) = c
    simp [fileChars]
  rw [e]
  refine jlex_key name hq hb ?_
  cases comma with
  | true => exact jlex_number he x (by decide) (.mark _ _ _ _ .comma (.white _ _ _ (by decide) h))
  | false => exact jlex_number he x (by decide) (.white _ _ _ (by decide) h)

/-- The tokens of the numbers of a list. -/
def jnums (env : IoEnv K) (l : List K) (n k : ℕ) : List JTok :=
  match l with
  | [] => []
  | x :: xs => .num (env.fmt x) :: ((if k < n then [.comma] else []) ++ jnums env xs n (k + 1))

theorem jlex_nums {env : IoEnv K} (he : JsonPrinting env.toFloat env.fmt) (l : List K) (n k : ℕ) {cs : Line} {ts : List JTok}
    (h : JLex cs ts) :
    JLex (fileChars ((l.zipIdx k).map fun ci => "        ".toList ++ env.fmt ci.1 ++ (if ci.2 < n then ",".toList else [])) ++ cs)
      (jnums env l n k ++ ts) := by
  induction l generalizing k with
  | nil => exact h
  | cons x xs ih =>
    rw [List.zipIdx_cons, List.map_cons, fileChars_cons]
    have ih := ih (k + 1)
    generalize fileChars ((xs.zipIdx (k + 1)).map _) = rest at ih
    simp only [jnums, List.append_assoc, List.cons_append]
    refine jlex_white (by decide) ?_
    by_cases hk : k < n
    · simp only [if_pos hk]
      exact jlex_number he x (by decide) (.mark _ _ _ _ .comma (.white _ _ _ (by decide) ih))
    · simp only [if_neg hk]
      exact jlex_number he x (by decide) (.white _ _ _ (by decide) ih)

theorem jelems_nums {env : IoEnv K} (he : JsonPrinting env.toFloat env.fmt) (x : K) (l : List K) (k : ℕ) :
    JElems env.toFloat (jnums env (x :: l) (k + l.length) k) (x :: l) := by
  induction l generalizing x k with
  | nil =>
    simp only [jnums, List.length_nil, add_zero, lt_irrefl, if_false, List.nil_append]
    exact .one _ _ (he.back x)
  | cons y l ih =>
    rw [jnums, if_pos (by simp), List.cons_append, List.nil_append]
    refine .more _ _ _ _ (he.back x) ?_
    have := ih y (k + 1)
    rw [List.length_cons]
    have e : k + (l.length + 1) = k + 1 + l.length := by omega
    rw [e]; exact this

/-- The lines of a list. -/
theorem jlex_listLines {env : IoEnv K} (he : JsonPrinting env.toFloat env.fmt) (name : Line) (hq : '"' ∉ name) (hb : '\\' ∉ name)
    (l : List K) : ∃ tv, JValue env.toFloat tv (.list l) ∧ ∀ {cs : Line} {ts : List JTok}, JLex cs ts →
      JLex (fileChars (jsonList env name l) ++ cs) (.str name :: .colon :: (tv ++ .comma :: ts)) := by
  cases l with
  | nil =>
    refine ⟨_, .empty, fun {cs ts} h => ?_⟩
    have e : fileChars (jsonList env name ([] : List K)) ++ cs = "    \"".toList ++ name ++ "\": ".toList ++
        ('[' :: ']' :: ',' :: '\n' :: cs) := by
      simp [fileChars, jsonList]
    rw [e]
    exact jlex_key name hq hb (.mark _ _ _ _ .lbrack (.mark _ _ _ _ .rbrack (.mark _ _ _ _ .comma (.white _ _ _ (by decide) h))))
  | cons x l =>
    refine ⟨_, .list _ _ (jelems_nums he x l 0), fun {cs ts} h => ?_⟩
    have hn := jlex_nums (cs := "    ],\n".toList ++ cs) (ts := .rbrack :: .comma :: ts) he (x :: l) (0 + l.length) 0
      (jlex_white (w := "    ".toList) (cs := "],\n".toList ++ cs) (by decide)
        (.mark _ _ _ _ .rbrack (.mark _ _ _ _ .comma (.white _ _ _ (by decide) h))))
    have e : fileChars (jsonList env name (x :: l)) ++ cs = "    \"".toList ++ name ++ "\": ".toList ++
        ('[' :: '\n' :: (fileChars (((x :: l).zipIdx 0).map fun ci => "        ".toList ++ env.fmt ci.1 ++
          (if ci.2 < 0 + l.length then ",".toList else [])) ++ ("    ],\n".toList ++ cs))) := by
      unfold jsonList
      rw [if_neg (by simp), fileChars_append, fileChars_append]
      have hlen : (x :: l).length - 1 = 0 + l.length := by simp
      rw [hlen]
      generalize fileChars (((x :: l).zipIdx 0).map _) = mid
      simp [fileChars]
    rw [e]
    refine jlex_key name hq hb (.mark _ _ _ _ .lbrack (.white _ _ _ (by decide) ?_))
    simpa using hn

/-- The lines before the closing brace. -/
def jsonBody (env : IoEnv K) (r : RioRpc K) : Text :=
  ["{".toList, jsonNum env "height_off".toList r.heightOff true, jsonNum env "height_scale".toList r.heightScale true,
   jsonNum env "lat_off".toList r.latOff true, jsonNum env "lat_scale".toList r.latScale true] ++
  jsonList env "line_den_coeff".toList r.lineDen ++ jsonList env "line_num_coeff".toList r.lineNum ++
  [jsonNum env "line_off".toList r.lineOff true, jsonNum env "line_scale".toList r.lineScale true,
   jsonNum env "long_off".toList r.longOff true, jsonNum env "long_scale".toList r.longScale true] ++
  jsonList env "samp_den_coeff".toList r.sampDen ++ jsonList env "samp_num_coeff".toList r.sampNum ++
  [jsonNum env "samp_off".toList r.sampOff true, jsonNum env "samp_scale".toList r.sampScale false]

theorem jsonText_eq (env : IoEnv K) (r : RioRpc K) : jsonText env r = jsonBody env r ++ ["}".toList] := by
  simp [jsonText, jsonBody]

/-- The text followed by white space is the object. -/
theorem jsonBody_object {env : IoEnv K} (he : JsonPrinting env.toFloat env.fmt) (r : RioRpc K) (tail : Line)
    (ht : JLex tail []) : JsonObject env.toFloat (fileChars (jsonBody env r) ++ '}' :: tail) (rioDict r) := by
  obtain ⟨t1, v1, l1⟩ := jlex_listLines he "line_den_coeff".toList (by decide) (by decide) r.lineDen
  obtain ⟨t2, v2, l2⟩ := jlex_listLines he "line_num_coeff".toList (by decide) (by decide) r.lineNum
  obtain ⟨t3, v3, l3⟩ := jlex_listLines he "samp_den_coeff".toList (by decide) (by decide) r.sampDen
  obtain ⟨t4, v4, l4⟩ := jlex_listLines he "samp_num_coeff".toList (by decide) (by decide) r.sampNum
  have num : ∀ x : K, JValue env.toFloat [.num (env.fmt x)] (.num x) := fun x => .num _ _ (he.back x)
  have h13 := jlex_numLine he "samp_scale".toList (by decide) (by decide) r.sampScale false (JLex.mark _ _ _ _ .rbrace ht)
  have h12 := jlex_numLine he "samp_off".toList (by decide) (by decide) r.sampOff true h13
  have h11 := l3 (l4 h12)
  have h10 := jlex_numLine he "long_scale".toList (by decide) (by decide) r.longScale true h11
  have h9 := jlex_numLine he "long_off".toList (by decide) (by decide) r.longOff true h10
  have h8 := jlex_numLine he "line_scale".toList (by decide) (by decide) r.lineScale true h9
  have h7 := jlex_numLine he "line_off".toList (by decide) (by decide) r.lineOff true h8
  have h6 := l1 (l2 h7)
  have h5 := jlex_numLine he "lat_scale".toList (by decide) (by decide) r.latScale true h6
  have h4 := jlex_numLine he "lat_off".toList (by decide) (by decide) r.latOff true h5
  have h3 := jlex_numLine he "height_scale".toList (by decide) (by decide) r.heightScale true h4
  have h2 := jlex_numLine he "height_off".toList (by decide) (by decide) r.heightOff true h3
  have h1 : JLex (fileChars (jsonBody env r) ++ '}' :: tail) _ :=
    (by
      have := JLex.mark '{' _ _ _ .lbrace (.white '\n' _ _ (by decide) h2)
      refine cast ?_ this
      congr 1
      simp only [jsonBody, fileChars, List.flatMap_append, List.flatMap_cons, List.flatMap_nil, List.append_assoc,
        List.nil_append, List.append_nil, List.cons_append]
      rfl)
  simp only [if_true, if_false, Bool.false_eq_true, List.cons_append, List.nil_append] at h1
  refine ⟨_, cast ?_ h1, .more _ _ _ _ _ (num r.heightOff) (.more _ _ _ _ _ (num r.heightScale) (.more _ _ _ _ _ (num r.latOff)
    (.more _ _ _ _ _ (num r.latScale) (.more _ _ _ _ _ v1 (.more _ _ _ _ _ v2 (.more _ _ _ _ _ (num r.lineOff)
    (.more _ _ _ _ _ (num r.lineScale) (.more _ _ _ _ _ (num r.longOff) (.more _ _ _ _ _ (num r.longScale)
    (.more _ _ _ _ _ v3 (.more _ _ _ _ _ v4 (.more _ _ _ _ _ (num r.sampOff) (.one _ _ _ (num r.sampScale))))))))))))))⟩
  congr 1
  simp

theorem jsonBody_noBrace {env : IoEnv K} (he : JsonPrinting env.toFloat env.fmt) (r : RioRpc K) :
    '}' ∉ fileChars (jsonBody env r) := by
  have hf : ∀ x, '}' ∉ env.fmt x := fun x h => absurd (he.numChars x _ h) (by decide)
  have hn : ∀ name x c, '}' ∉ name → '}' ∉ fileChars [jsonNum env name x c] := by
    intro name x c h
    have s1 : '}' ∉ "    \"".toList := by decide
    have s2 : '}' ∉ "\": ".toList := by decide
    have s3 : '}' ∉ (if c then ",".toList else []) := by cases c <;> decide
    unfold jsonNum
    rw [fileChars_cons]
    generalize "    \"".toList = a at s1
    generalize "\": ".toList = b at s2
    generalize (if c then ",".toList else []) = d at s3
    simp [fileChars, s1, s2, s3, h, hf x]
  have hl : ∀ name l, '}' ∉ name → '}' ∉ fileChars (jsonList env name l) := by
    intro name l h hm
    simp only [fileChars, List.mem_flatMap] at hm
    obtain ⟨s, hs, hc⟩ := hm
    rw [List.mem_append] at hc
    rcases hc with hc | hc
    swap
    · simp at hc
    unfold jsonList at hs
    split at hs
    · simp only [List.mem_singleton] at hs
      rw [hs] at hc
      simp [h] at hc
    · simp only [List.mem_append, List.mem_singleton, List.mem_map] at hs
      rcases hs with (rfl | ⟨ci, -, rfl⟩) | rfl
      · simp [h] at hc
      · simp only [List.mem_append] at hc
        rcases hc with (hc | hc) | hc
        · revert hc; decide
        · exact hf _ hc
        · revert hc; split <;> decide
      · revert hc; decide
  have hcons : ∀ (a : Line) (b : Text), '}' ∉ fileChars [a] → '}' ∉ fileChars b → '}' ∉ fileChars (a :: b) := by
    intro a b h1 h2
    have : a :: b = [a] ++ b := rfl
    rw [this, fileChars_append, List.mem_append, not_or]
    exact ⟨h1, h2⟩
  unfold jsonBody
  simp only [fileChars_append, List.mem_append, not_or]
  have hnil : '}' ∉ fileChars [] := by decide
  refine ⟨⟨⟨⟨⟨⟨?_, hl _ _ (by decide)⟩, hl _ _ (by decide)⟩, ?_⟩, hl _ _ (by decide)⟩, hl _ _ (by decide)⟩, ?_⟩
  · exact hcons _ _ (by decide) (hcons _ _ (hn _ _ _ (by decide)) (hcons _ _ (hn _ _ _ (by decide)) (hcons _ _ (hn _ _ _ (by decide))
      (hcons _ _ (hn _ _ _ (by decide)) hnil))))
  · exact (hcons _ _ (hn _ _ _ (by decide)) (hcons _ _ (hn _ _ _ (by decide)) (hcons _ _ (hn _ _ _ (by decide))
      (hcons _ _ (hn _ _ _ (by decide)) hnil))))
  · exact (hcons _ _ (hn _ _ _ (by decide)) (hcons _ _ (hn _ _ _ (by decide)) hnil))

/-- A truncated JSON file is not an object, or is the complete one. -/
theorem json_cut {env : IoEnv K} (he : JsonPrinting env.toFloat env.fmt) (r : RioRpc K) (n : ℕ) (d : List (Line × JVal K))
    (h : JsonObject env.toFloat ((fileChars (jsonText env r)).take n) d) : d = rioDict r := by
  have e : fileChars (jsonText env r) = fileChars (jsonBody env r) ++ ['}', '\n'] := by
    rw [jsonText_eq, fileChars_append]; rfl
  rw [e] at h
  by_cases hn : n ≤ (fileChars (jsonBody env r)).length
  · exfalso
    obtain ⟨ts, hl, -⟩ := h
    rw [List.take_append_of_le_length hn] at hl
    have := jlex_brace hl (by simp)
    exact jsonBody_noBrace he r (List.mem_of_mem_take this)
  · push Not at hn
    obtain ⟨k, rfl⟩ : ∃ k, n = (fileChars (jsonBody env r)).length + (k + 1) :=
      ⟨n - (fileChars (jsonBody env r)).length - 1, by omega⟩
    rw [List.take_length_add_append, List.take_succ_cons] at h
    refine jsonObject_unique h (jsonBody_object he r _ ?_)
    cases k with
    | zero => exact .done
    | succ k => rw [List.take_succ_cons]; simp only [List.take_nil]; exact .white _ _ _ (by decide) .done

end Shareloc
