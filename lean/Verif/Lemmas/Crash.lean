import Verif.Model.Crash
import Verif.Lemmas.Rpb

set_option linter.unusedSectionVars false

namespace Shareloc
variable {K : Type} [Field K] [LinearOrder K]

/-! ### Lines of a truncated file -/

theorem linesAux_line (cur l r : Line) (h : '\n' ∉ l) :
    linesAux cur (l ++ '\n' :: r) = (cur.reverse ++ l) :: linesAux [] r := by
  induction l generalizing cur with
  | nil => simp [linesAux]
  | cons c cs ih =>
    simp only [List.mem_cons, not_or] at h
    rw [List.cons_append, linesAux, if_neg (fun e => h.1 e.symm), ih _ h.2]
    simp

theorem linesAux_last (cur l : Line) (h : '\n' ∉ l) :
    linesAux cur l = if cur.reverse ++ l = [] then [] else [cur.reverse ++ l] := by
  induction l generalizing cur with
  | nil => simp [linesAux]
  | cons c cs ih =>
    simp only [List.mem_cons, not_or] at h
    rw [linesAux, if_neg (fun e => h.1 e.symm), ih _ h.2]
    simp

/-- A truncated file has some of the lines and the beginning of the next one. -/
theorem lines_cut (t : Text) (h : ∀ l ∈ t, '\n' ∉ l) (n : ℕ) :
    linesOf ((fileChars t).take n) = t ∨ ∃ pre l post m, t = pre ++ l :: post ∧
      (linesOf ((fileChars t).take n) = pre ++ [l.take m] ∨ (m = 0 ∧ linesOf ((fileChars t).take n) = pre)) := by
  induction t generalizing n with
  | nil => left; simp [fileChars, linesOf, linesAux]
  | cons l ls ih =>
    simp only [List.mem_cons, forall_eq_or_imp] at h
    have e : fileChars (l :: ls) = l ++ '\n' :: fileChars ls := by simp [fileChars]
    rw [e]
    by_cases hn : n ≤ l.length
    · right
      refine ⟨[], l, ls, n, rfl, ?_⟩
      have e2 : (l ++ '\n' :: fileChars ls).take n = l.take n := List.take_append_of_le_length hn
      rw [e2]
      unfold linesOf
      rw [linesAux_last [] (l.take n) (fun hh => h.1 (List.mem_of_mem_take hh))]
      by_cases h0 : n = 0
      · right; subst h0; simp
      · by_cases h1 : l = []
        · subst h1; simp at hn; exact absurd hn h0
        · left
          rw [if_neg (by simp [h0, h1])]
          simp
    · push Not at hn
      have e2 : (l ++ '\n' :: fileChars ls).take n = l ++ '\n' :: (fileChars ls).take (n - l.length - 1) := by
        rw [List.take_append, List.take_of_length_le (by omega)]
        obtain ⟨k, hk⟩ : ∃ k, n - l.length = k + 1 := ⟨n - l.length - 1, by omega⟩
        rw [hk, List.take_succ_cons]; simp
      rw [e2]
      have e3 : linesOf (l ++ '\n' :: (fileChars ls).take (n - l.length - 1)) =
          l :: linesOf ((fileChars ls).take (n - l.length - 1)) := by
        unfold linesOf; rw [linesAux_line _ _ _ h.1]; rfl
      rw [e3]
      rcases ih h.2 (n - l.length - 1) with h' | ⟨pre, l', post, m, h1, h2⟩
      · left; rw [h']
      · right
        refine ⟨l :: pre, l', post, m, by rw [h1]; rfl, ?_⟩
        rcases h2 with h2 | ⟨h0, h2⟩
        · left; rw [h2]; rfl
        · right; exact ⟨h0, by rw [h2]⟩

theorem tokens_append (a b : Text) : tokens (a ++ b) = tokens a ++ tokens b := List.flatMap_append

/-- The tokens of a truncated text: those of complete lines and those of the beginning of the next one. -/
theorem tokens_cut (t : Text) (h : ∀ l ∈ t, '\n' ∉ l) (n : ℕ) :
    tokens (linesOf ((fileChars t).take n)) = tokens t ∨ ∃ pre l post m, t = pre ++ l :: post ∧
      tokens (linesOf ((fileChars t).take n)) = tokens pre ++ tokAux [] (l.take m) := by
  rcases lines_cut t h n with h' | ⟨pre, l, post, m, h1, h2⟩
  · left; rw [h']
  · right
    refine ⟨pre, l, post, m, h1, ?_⟩
    rcases h2 with h2 | ⟨h0, h2⟩
    · rw [h2, tokens_append]; simp [tokens]
    · rw [h2, h0]; simp [tokAux, flush]

/-! ### Tokens of a truncated line -/

/-- The beginning of a list of tokens, the last word possibly cut. -/
def Cut (a b : List Tok) : Prop := a <+: b ∨ ∃ p w w' q, a = p ++ [.word w] ∧ b = p ++ .word w' :: q

theorem Cut.append_left (x a b : List Tok) (h : Cut a b) : Cut (x ++ a) (x ++ b) := by
  rcases h with h | ⟨p, w, w', q, rfl, rfl⟩
  · left; exact (List.prefix_append_right_inj x).mpr h
  · right; exact ⟨x ++ p, w, w', q, by simp, by simp⟩

theorem Cut.append_right (a b x : List Tok) (h : Cut a b) : Cut a (b ++ x) := by
  rcases h with h | ⟨p, w, w', q, rfl, rfl⟩
  · left; exact h.trans (List.prefix_append _ _)
  · right; exact ⟨p, w, w', q ++ x, rfl, by simp⟩

theorem tokAux_word (cur s : Line) (h : cur ≠ []) : ∃ w q, tokAux cur s = .word w :: q := by
  induction s generalizing cur with
  | nil => exact ⟨cur.reverse, [], by simp [tokAux, flush, h]⟩
  | cons c cs ih =>
    rw [tokAux]
    split
    · exact ⟨cur.reverse, _, by simp only [flush, if_neg h, List.cons_append, List.nil_append]; rfl⟩
    · split
      · exact ⟨cur.reverse, _, by simp only [flush, if_neg h, List.cons_append, List.nil_append]; rfl⟩
      · exact ih _ (by simp)

theorem tokAux_cut (cur s : Line) (m : ℕ) : Cut (tokAux cur (s.take m)) (tokAux cur s) := by
  induction s generalizing cur m with
  | nil => left; simp
  | cons c cs ih =>
    cases m with
    | zero =>
      simp only [List.take_zero]
      by_cases h : cur = []
      · left; subst h; simp [tokAux, flush]
      · obtain ⟨w, q, e⟩ := tokAux_word cur (c :: cs) h
        right
        exact ⟨[], cur.reverse, w, q, by simp [tokAux, flush, h], by rw [e]; rfl⟩
    | succ m =>
      rw [List.take_succ_cons, tokAux, tokAux]
      split
      · next t _ =>
        have := (Cut.append_left (flush cur ++ [t]) _ _ (ih [] m))
        simpa using this
      · split
        · exact Cut.append_left _ _ _ (ih [] m)
        · exact ih _ m

/-- The names followed by `=`. -/
def eqKeys : List Tok → List Line
  | .word k :: .eq :: ts => k :: eqKeys ts
  | _ :: ts => eqKeys ts
  | [] => []

theorem eqKeys_cons_of_ne (t : Tok) (ts : List Tok) (h : ∀ w, t ≠ .word w) : eqKeys (t :: ts) = eqKeys ts := by
  cases t with
  | word w => exact absurd rfl (h w)
  | _ => rfl

theorem eqKeys_word (w : Line) (ts : List Tok) (h : ∀ q, ts ≠ .eq :: q) : eqKeys (.word w :: ts) = eqKeys ts := by
  cases ts with
  | nil => rfl
  | cons t q =>
    cases t with
    | eq => exact absurd rfl (h q)
    | _ => rfl

theorem eqKeys_tail (t : Tok) (ts : List Tok) : eqKeys ts ⊆ eqKeys (t :: ts) := by
  cases t with
  | word w =>
    cases ts with
    | nil => simp [eqKeys]
    | cons t q => cases t <;> simp [eqKeys]
  | _ => simp [eqKeys]

theorem eqKeys_cut (a b : List Tok) (h : Cut a b) : eqKeys a ⊆ eqKeys b := by
  suffices ∀ n, ∀ a b, a.length ≤ n → Cut a b → eqKeys a ⊆ eqKeys b from this a.length a b le_rfl h
  intro n
  induction n with
  | zero =>
    intro a b hl h
    have : a = [] := by simpa using hl
    subst this; simp [eqKeys]
  | succ n ih =>
    intro a b hl h
    have hcons : ∀ t a', a = t :: a' → a' ≠ [] → ∃ b', b = t :: b' ∧ Cut a' b' := by
      rintro t a' rfl hne
      rcases h with ⟨r, rfl⟩ | ⟨p, w, w', q, e, rfl⟩
      · exact ⟨a' ++ r, rfl, .inl ⟨r, rfl⟩⟩
      · cases p with
        | nil => simp at e; exact absurd e.2 hne
        | cons x xs =>
          simp only [List.cons_append, List.cons.injEq] at e
          exact ⟨xs ++ .word w' :: q, by rw [e.1]; rfl, .inr ⟨xs, w, w', q, e.2, rfl⟩⟩
    match a, hl, hcons with
    | [], _, _ => simp [eqKeys]
    | [t], _, _ => cases t <;> simp [eqKeys]
    | t :: u :: a', hl, hcons =>
      obtain ⟨b', rfl, hc⟩ := hcons t (u :: a') rfl (by simp)
      by_cases hk : ∃ w, t = .word w ∧ u = .eq
      · obtain ⟨w, rfl, rfl⟩ := hk
        rcases hc with ⟨r, rfl⟩ | ⟨p, w1, w2, q, e, rfl⟩
        · have h3 := ih a' (a' ++ r) (by simp at hl; omega) (.inl ⟨r, rfl⟩)
          simp only [List.cons_append, eqKeys]
          exact List.cons_subset_cons _ h3
        · cases p with
          | nil => simp at e
          | cons x xs =>
            simp only [List.cons_append, List.cons.injEq] at e
            obtain ⟨rfl, e⟩ := e
            have h3 := ih a' (xs ++ .word w2 :: q) (by simp at hl; omega) (.inr ⟨xs, w1, w2, q, e, rfl⟩)
            simp only [List.cons_append, eqKeys]
            exact List.cons_subset_cons _ h3
      · have h1 : eqKeys (t :: u :: a') = eqKeys (u :: a') := by
          by_cases ht : ∃ w, t = .word w
          · obtain ⟨w, rfl⟩ := ht
            refine eqKeys_word w _ ?_
            rintro q hq
            simp only [List.cons.injEq] at hq
            exact hk ⟨w, rfl, hq.1⟩
          · exact eqKeys_cons_of_ne _ _ (fun w hw => ht ⟨w, hw⟩)
        rw [h1]
        exact List.Subset.trans (ih (u :: a') b' (by simp at hl ⊢; omega) hc) (eqKeys_tail t b')

/-- Only the names followed by `=` are assigned. -/
theorem assigns_keys (s : Option (Line × List Line)) (ts : List Tok) (kv : Line × List Line) (h : kv ∈ assigns s ts) :
    kv.1 ∈ eqKeys ts ∨ ∃ acc, s = some (kv.1, acc) := by
  fun_induction assigns s ts with
  | case1 k acc w ts ih =>
    rcases ih h with h | ⟨acc', h⟩
    · exact .inl (eqKeys_tail _ _ h)
    · simp only [Option.some.injEq, Prod.mk.injEq] at h
      right; exact ⟨acc, by rw [h.1]⟩
  | case2 k acc ts ih =>
    simp only [List.mem_cons] at h
    rcases h with rfl | h
    · right; exact ⟨acc, rfl⟩
    · rcases ih h with h | ⟨acc', h⟩
      · exact .inl (eqKeys_tail _ _ h)
      · cases h
  | case3 s t ts _ _ ih =>
    rcases ih h with h | h
    · exact .inl (eqKeys_tail _ _ h)
    · exact .inr h
  | case4 k v ts ih =>
    simp only [List.mem_cons] at h
    rcases h with rfl | h
    · left; simp [eqKeys]
    · rcases ih h with h | ⟨acc', h⟩
      · left; simp only [eqKeys]
        exact List.mem_cons_of_mem _ (eqKeys_tail _ _ h)
      · cases h
  | case5 k ts ih =>
    rcases ih h with h | ⟨acc', h⟩
    · left; simp only [eqKeys]; exact List.mem_cons_of_mem _ h
    · simp only [Option.some.injEq, Prod.mk.injEq] at h
      left; simp [eqKeys, h.1]
  | case6 t ts _ _ ih =>
    rcases ih h with h | ⟨acc', h⟩
    · exact .inl (eqKeys_tail _ _ h)
    · cases h
  | case7 => simp at h

/-- An unfinished list assigns nothing. -/
theorem assigns_unfinished (k : Line) (acc : List Line) (ts : List Tok) (h : .close ∉ ts) : assigns (some (k, acc)) ts = [] := by
  induction ts generalizing acc with
  | nil => rfl
  | cons t ts ih =>
    simp only [List.mem_cons, not_or] at h
    cases t with
    | word w => rw [assigns]; exact ih _ h.2
    | close => exact absurd rfl h.1
    | _ => rw [assigns] <;> first | exact ih _ h.2 | simp

theorem cut_close (a b : List Tok) (h : Cut a b) (hb : .close ∉ b) : .close ∉ a := by
  rcases h with ⟨r, rfl⟩ | ⟨p, w, w', q, rfl, rfl⟩
  · intro hh; exact hb (List.mem_append_left _ hh)
  · intro hh
    simp only [List.mem_append, List.mem_singleton, reduceCtorEq, or_false] at hh
    exact hb (List.mem_append_left _ hh)

/-! ### Truncated `.RPB` files -/

theorem coefToks_close (env : IoEnv K) (l : List K) (n k : ℕ) : .close ∉ coefToks env l n k := by
  induction l generalizing k with
  | nil => simp [coefToks]
  | cons x xs ih =>
    simp only [coefToks, List.mem_cons, reduceCtorEq, List.mem_append, false_or, not_or]
    refine ⟨?_, ih _⟩
    split <;> simp

theorem eqKeys_coefs (env : IoEnv K) (l : List K) (n k : ℕ) (ts : List Tok) :
    eqKeys (coefToks env l n k ++ .close :: ts) = eqKeys ts := by
  induction l generalizing k with
  | nil => rfl
  | cons x xs ih =>
    simp only [coefToks, List.cons_append]
    by_cases h : k < n
    · simp only [if_pos h, List.cons_append, List.nil_append]
      rw [eqKeys_word _ _ (by simp), eqKeys_cons_of_ne _ _ (by simp), ih]
    · simp only [if_neg h, List.nil_append]
      rw [eqKeys_word, ih]
      intro q hq
      cases xs with
      | nil => simp [coefToks] at hq
      | cons y ys => simp [coefToks] at hq

theorem eqKeys_entry (k v : Line) (ts : List Tok) : eqKeys (.word k :: .eq :: .word v :: .semi :: ts) = k :: eqKeys ts := by
  rw [eqKeys, eqKeys_word _ _ (by simp), eqKeys_cons_of_ne _ _ (by simp)]

theorem eqKeys_begin (k v w : Line) (ts : List Tok) :
    eqKeys (.word k :: .eq :: .word v :: .word w :: ts) = k :: eqKeys (.word w :: ts) := by
  rw [eqKeys, eqKeys_word _ _ (by simp)]

theorem eqKeys_list (env : IoEnv K) (name : Line) (l : List K) (n k : ℕ) (ts : List Tok) :
    eqKeys (.word name :: .eq :: .open :: (coefToks env l n k ++ .close :: .semi :: ts)) = name :: eqKeys ts := by
  rw [eqKeys, eqKeys_cons_of_ne _ _ (by simp), eqKeys_coefs, eqKeys_cons_of_ne _ _ (by simp)]

theorem eqKeys_head (env : IoEnv K) (he : ExactPrinting env.toFloat env.fmt) (r : RioRpc K) :
    "sampDenCoef".toList ∉ eqKeys (tokens (rpbHead env r)) := by
  have e : tokens (rpbHead env r) = tokens (rpbHead env r) ++ [] := by simp
  rw [e, tokens_head env he, tokens_fixed env he]
  simp only [List.append_assoc, List.cons_append, List.nil_append]
  simp only [eqKeys_entry, eqKeys_begin, eqKeys_list]
  decide +kernel

theorem noNewline_of_wordChar (w : Line) (h : ∀ c ∈ w, IsWordChar c) : '\n' ∉ w := by
  intro hn
  have := (h _ hn).2
  exact absurd this (by decide)

theorem rpbLine_noNewline (env : IoEnv K) (he : ExactPrinting env.toFloat env.fmt) (name : Line) (hn : '\n' ∉ name) (x : K) :
    '\n' ∉ rpbLine env name x := by
  have := noNewline_of_wordChar _ (he.wordChars x)
  simp [rpbLine, hn, this]

theorem rpbCoefs_noNewline (env : IoEnv K) (he : ExactPrinting env.toFloat env.fmt) (name : Line) (hn : '\n' ∉ name)
    (l : List K) : ∀ s ∈ rpbCoefs env name l, '\n' ∉ s := by
  intro s hs
  simp only [rpbCoefs, List.mem_append, List.mem_singleton, List.mem_map] at hs
  rcases hs with (rfl | ⟨ci, -, rfl⟩) | rfl
  · simp [hn]
  · have := noNewline_of_wordChar _ (he.wordChars ci.1)
    simp only [List.mem_append, not_or]
    refine ⟨⟨by decide, this⟩, ?_⟩
    split <;> decide
  · decide

theorem rpbText_noNewline (env : IoEnv K) (he : ExactPrinting env.toFloat env.fmt) (r : RioRpc K) :
    ∀ s ∈ rpbText env r, '\n' ∉ s := by
  have hc := rpbCoefs_noNewline env he
  have hl := rpbLine_noNewline env he
  rw [rpbText_eq]
  unfold rpbHead rpbFixed
  intro s hs
  simp only [List.mem_append] at hs
  rcases hs with ((((hs | hs) | hs) | hs) | hs) | hs
  · simp only [List.mem_cons, List.not_mem_nil, or_false] at hs
    rcases hs with rfl | rfl | rfl | rfl | rfl | rfl | rfl | rfl | rfl | rfl | rfl | rfl | rfl | rfl | rfl | rfl
    all_goals first | decide | exact hl _ (by decide) _
  · exact hc _ (by decide) _ s hs
  · exact hc _ (by decide) _ s hs
  · exact hc _ (by decide) _ s hs
  · exact hc _ (by decide) _ s hs
  · simp only [List.mem_cons, List.not_mem_nil, or_false] at hs
    rcases hs with rfl | rfl <;> decide

theorem rpbRead_none (toFloat : Line → Option K) (t : Text)
    (h : ∀ kv ∈ assigns none (tokens t), kv.1 ≠ "sampDenCoef".toList) : rpbRead toFloat t = none := by
  have hl : (assigns none (tokens t)).lookup "sampDenCoef".toList = none := by
    rw [List.lookup_eq_none_iff]
    intro kv hkv
    simpa using fun e => h kv hkv e.symm
  have hn : rpbNumbers toFloat (assigns none (tokens t)) "sampDenCoef" = none := by simp only [rpbNumbers, hl]
  unfold rpbRead
  simp only [hn]
  repeat' split
  all_goals first | rfl | simp_all

theorem rpbRead_full (env : IoEnv K) (he : ExactPrinting env.toFloat env.fmt) (r : RioRpc K) (t : Text)
    (rest : List (Line × List Line))
    (h : assigns none (tokens t) = headEntries env r ++ ("sampDenCoef".toList, r.sampDen.map env.fmt) :: rest) :
    rpbRead env.toFloat t = some r := by
  have hb := he.back
  have hf := allFloats_back env he
  simp only [rpbRead, h, headEntries, rpbNumber, rpbNumbers]
  simp [List.lookup, hb, hf]

theorem headEntries_keys (env : IoEnv K) (r : RioRpc K) : ∀ kv ∈ headEntries env r, kv.1 ≠ "sampDenCoef".toList := by
  intro kv h
  have : kv.1 ∈ (headEntries env r).map Prod.fst := List.mem_map_of_mem h
  simp only [headEntries, List.map_cons, List.map_nil] at this
  intro e
  rw [e] at this
  revert this
  decide +kernel

theorem take_cases {P : Line → Prop} (l : Line) (h : ∀ m ∈ List.range (l.length + 1), P (l.take m)) (m : ℕ) : P (l.take m) := by
  by_cases hm : m ≤ l.length
  · exact h m (by simp; omega)
  · have := h l.length (by simp)
    rw [List.take_of_length_le le_rfl] at this
    rwa [List.take_of_length_le (by omega)]

/-- A truncated `.RPB` file cannot be read, or is read as the complete one. -/
theorem rpb_cut (env : IoEnv K) (he : ExactPrinting env.toFloat env.fmt) (r : RioRpc K) (n : ℕ) :
    rpbRead env.toFloat (linesOf ((fileChars (rpbText env r)).take n)) = none ∨
    rpbRead env.toFloat (linesOf ((fileChars (rpbText env r)).take n)) = some r := by
  generalize ht : linesOf ((fileChars (rpbText env r)).take n) = t'
  have hc := tokens_cut (rpbText env r) (rpbText_noNewline env he r) n
  rw [ht] at hc
  clear ht
  have hnone : assigns none (tokens t') = headEntries env r → rpbRead env.toFloat t' = none := fun h =>
    rpbRead_none _ _ (by rw [h]; exact headEntries_keys env r)
  rcases hc with hc | ⟨pre, l, post, m, h1, h2⟩
  · right
    refine rpbRead_full env he r t' [("END_GROUP".toList, ["IMAGE".toList])] ?_
    rw [hc, rpb_assigns env he]
  set hd : Line := "\t".toList ++ "sampDenCoef".toList ++ " = (".toList with hhd
  set coefs : Text := r.sampDen.zipIdx.map fun ci => "\t\t".toList ++ env.fmt ci.1 ++
    (if ci.2 < r.sampDen.length - 1 then ",".toList else []) with hcoefs
  have htc : tokens coefs = coefToks env r.sampDen (r.sampDen.length - 1) 0 := tok_coefs env he _ _ 0
  have hthd : tokAux [] hd = [.word "sampDenCoef".toList, .eq, .open] := by decide +kernel
  have e1 : rpbText env r = rpbHead env r ++ (hd :: (coefs ++ ("\t);".toList :: ["END_GROUP = IMAGE".toList, "END;".toList]))) := by
    rw [rpbText_eq]
    simp only [rpbCoefs, List.append_assoc, List.cons_append, List.nil_append, hhd, hcoefs]
  rw [e1] at h1
  have past : ∀ a, pre = rpbHead env r ++ a →
      hd :: (coefs ++ ("\t);".toList :: ["END_GROUP = IMAGE".toList, "END;".toList])) = a ++ l :: post →
      rpbRead env.toFloat t' = none ∨ rpbRead env.toFloat t' = some r := by
    intro a ha hR
    rw [ha, tokens_append, List.append_assoc] at h2
    have h3 : assigns none (tokens t') = headEntries env r ++ assigns none (tokens a ++ tokAux [] (l.take m)) := by
      rw [h2, head_assigns env he]
    cases a with
    | nil =>
      left
      simp only [List.nil_append, List.cons.injEq] at hR
      apply hnone
      rw [h3, ← hR.1]
      have : ∀ m, assigns none (tokAux [] (hd.take m)) = [] :=
        take_cases (P := fun s => assigns none (tokAux [] s) = []) hd (by decide +kernel)
      simp [tokens, this m]
    | cons x a' =>
      simp only [List.cons_append, List.cons.injEq] at hR
      obtain ⟨hx, hR⟩ := hR
      rw [← hx] at h3
      have h4 : assigns none (tokens t') = headEntries env r ++
          assigns (some ("sampDenCoef".toList, [])) (tokens a' ++ tokAux [] (l.take m)) := by
        rw [h3]
        have : tokens (hd :: a') = tokAux [] hd ++ tokens a' := rfl
        rw [this, hthd]
        simp only [List.cons_append, List.nil_append]
        rw [assigns]
      have unfinished : .close ∉ tokens a' ++ tokAux [] (l.take m) → rpbRead env.toFloat t' = none := by
        intro h
        apply hnone
        rw [h4, assigns_unfinished _ _ _ h, List.append_nil]
      have finished : ∀ X, tokens a' ++ tokAux [] (l.take m) = tokens coefs ++ .close :: X → rpbRead env.toFloat t' = some r := by
        intro X h
        refine rpbRead_full env he r t' (assigns none X) ?_
        rw [h4, h, htc, assigns_coefs, List.nil_append]
      have boundary : a' = coefs → l = "\t);".toList → rpbRead env.toFloat t' = none ∨ rpbRead env.toFloat t' = some r := by
        intro ea el
        have : ∀ m, tokAux [] ("\t);".toList.take m) = [] ∨ ∃ X, tokAux [] ("\t);".toList.take m) = .close :: X := by
          apply take_cases (P := fun s => tokAux [] s = [] ∨ ∃ X, tokAux [] s = .close :: X)
          intro m hm
          simp only [List.mem_range] at hm
          have : m = 0 ∨ m = 1 ∨ m = 2 ∨ m = 3 := by
            have : ("\t);".toList).length = 3 := by decide
            omega
          rcases this with rfl | rfl | rfl | rfl
          · left; decide +kernel
          · left; decide +kernel
          · right; exact ⟨[], by decide +kernel⟩
          · right; exact ⟨[.semi], by decide +kernel⟩
        rcases this m with hm | ⟨X, hm⟩
        · left
          apply unfinished
          rw [el, hm, ea, List.append_nil, htc]
          exact coefToks_close env _ _ _
        · right
          exact finished X (by rw [el, hm, ea])
      rw [List.append_eq_append_iff] at hR
      rcases hR with ⟨y, hy1, hy2⟩ | ⟨x, hx1, hx2⟩
      · cases y with
        | nil =>
          simp only [List.nil_append, List.cons.injEq] at hy2
          exact boundary (by simpa using hy1) hy2.1.symm
        | cons z y' =>
          simp only [List.cons_append, List.cons.injEq] at hy2
          right
          refine finished (.semi :: (tokens y' ++ tokAux [] (l.take m))) ?_
          rw [hy1, tokens_append, ← hy2.1]
          have : tokens ("\t);".toList :: y') = .close :: .semi :: tokens y' := by
            have e : tokAux [] "\t);".toList = [.close, .semi] := by decide +kernel
            change tokAux [] "\t);".toList ++ tokens y' = _
            rw [e]; rfl
          rw [this]; simp
      · cases x with
        | nil =>
          simp only [List.nil_append, List.cons.injEq] at hx2
          exact boundary (by simpa using hx1.symm) hx2.1
        | cons z x' =>
          simp only [List.cons_append, List.cons.injEq] at hx2
          left
          apply unfinished
          have hcut : Cut (tokens a' ++ tokAux [] (l.take m)) (tokens coefs) := by
            rw [hx1, tokens_append, ← hx2.1]
            refine Cut.append_left _ _ _ ?_
            change Cut _ (tokAux [] l ++ tokens x')
            exact Cut.append_right _ _ _ (tokAux_cut [] l m)
          exact cut_close _ _ hcut (by rw [htc]; exact coefToks_close env _ _ _)
  rw [List.append_eq_append_iff] at h1
  rcases h1 with ⟨a, ha, hb⟩ | ⟨a, ha, hb⟩
  · exact past a ha hb
  · cases a with
    | nil => exact past [] (by simpa using ha.symm) (by simpa using hb.symm)
    | cons x a' =>
      simp only [List.cons_append, List.cons.injEq] at hb
      left
      apply rpbRead_none
      intro kv hkv e
      have hcut : Cut (tokens t') (tokens (rpbHead env r)) := by
        rw [h2, ha, tokens_append, ← hb.1]
        refine Cut.append_left _ _ _ ?_
        change Cut _ (tokAux [] l ++ tokens a')
        exact Cut.append_right _ _ _ (tokAux_cut [] l m)
      rcases assigns_keys none _ kv hkv with hk | ⟨acc, hk⟩
      · rw [e] at hk
        exact eqKeys_head env he r (eqKeys_cut _ _ hcut hk)
      · cases hk

end Shareloc
