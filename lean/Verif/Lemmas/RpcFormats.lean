import Verif.Spec.RpcFormats
import Mathlib.Data.List.Forall2
import Mathlib.Data.List.Infix

set_option linter.unusedSectionVars false

namespace Shareloc
variable {K : Type} [Field K] [LinearOrder K]

theorem bind_ok_iff {α β : Type} (x : Except IoError α) (f : α → Except IoError β) (b : β) :
    (x >>= f) = .ok b ↔ ∃ a, x = .ok a ∧ f a = .ok b := by
  cases x with
  | error e => simp [bind, Except.bind]
  | ok a => simp [bind, Except.bind]

theorem pure_ok_iff {α : Type} (a b : α) : (pure a : Except IoError α) = .ok b ↔ a = b := by
  simp [pure, Except.pure]

theorem filter_eq_cons_iff' {α : Type} (p : α → Bool) (l : List α) (y : α) :
    (∃ r, l.filter p = y :: r) ↔ ∃ before after, l = before ++ y :: after ∧ p y = true ∧ ∀ z ∈ before, p z = false := by
  constructor
  · rintro ⟨r, h⟩
    rw [List.filter_eq_cons_iff] at h
    obtain ⟨l₁, l₂, rfl, h1, h2, -⟩ := h
    exact ⟨l₁, l₂, rfl, h2, fun z hz => by simpa using h1 z hz⟩
  · rintro ⟨b, a, rfl, h1, h2⟩
    refine ⟨a.filter p, ?_⟩
    rw [List.filter_append, List.filter_cons_of_pos h1]
    have : b.filter p = [] := by
      rw [List.filter_eq_nil_iff]; intro z hz; simp [h2 z hz]
    rw [this]; rfl

theorem occursIn_iff (t : Tag) (l : List Xml) : OccursIn t l ↔ (Xml.elemsList l).filter (Xml.hasTag t) ≠ [] := by
  match l with
  | [] =>
    simp only [Xml.elemsList, List.filter_nil, ne_eq, not_true_eq_false, iff_false]
    intro h; cases h
  | .text d :: xs =>
    have ih := occursIn_iff t xs
    simp only [Xml.elemsList, Xml.elems, List.nil_append]
    rw [← ih]
    constructor
    · intro h; cases h with
      | after _ _ h => exact h
    · exact .after _ _
  | .elem t' a cs :: xs =>
    have ih1 := occursIn_iff t cs
    have ih2 := occursIn_iff t xs
    simp only [Xml.elemsList, Xml.elems, List.cons_append, List.filter_cons, List.filter_append, Xml.hasTag]
    by_cases ht : t' = t
    · subst ht
      simp only [decide_true, ite_true]
      exact ⟨fun _ => by simp, fun _ => .here a cs xs⟩
    · simp only [ht, decide_false, Bool.false_eq_true, ite_false, ne_eq, List.append_eq_nil_iff, not_and_or]
      constructor
      · intro h
        cases h with
        | here => exact absurd rfl ht
        | inside _ _ _ _ h => exact .inl (ih1.mp h)
        | after _ _ h => exact .inr (ih2.mp h)
      · rintro (h | h)
        · exact .inside t' a cs xs (ih1.mpr h)
        · exact .after _ _ (ih2.mpr h)
termination_by sizeOf l

theorem firstAmong_iff (t : Tag) (l : List Xml) (y : Xml) :
    FirstAmong t l y ↔ ∃ r, (Xml.elemsList l).filter (Xml.hasTag t) = y :: r := by
  match l with
  | [] =>
    simp only [Xml.elemsList, List.filter_nil]
    constructor
    · intro h; cases h
    · rintro ⟨r, h⟩; cases h
  | .text d :: xs =>
    have ih := firstAmong_iff t xs y
    simp only [Xml.elemsList, Xml.elems, List.nil_append]
    rw [← ih]
    constructor
    · intro h; cases h with
      | after _ _ _ _ h => exact h
    · intro h
      refine .after _ _ _ ?_ h
      rw [occursIn_iff]; simp [Xml.elemsList, Xml.elems]
  | .elem t' a cs :: xs =>
    have ih1 := firstAmong_iff t cs y
    have ih2 := firstAmong_iff t xs y
    simp only [Xml.elemsList, Xml.elems, List.cons_append, List.filter_cons, List.filter_append, Xml.hasTag]
    by_cases ht : t' = t
    · subst ht
      simp only [decide_true, ite_true, List.cons.injEq]
      constructor
      · intro h
        cases h with
        | here => exact ⟨_, rfl, rfl⟩
        | inside _ _ _ _ _ h => exact absurd rfl h
        | after _ _ _ h => exact absurd (.here a cs []) h
      · rintro ⟨r, h, -⟩; rw [← h]; exact .here a cs xs
    · simp only [ht, decide_false, Bool.false_eq_true, ite_false]
      constructor
      · intro h
        cases h with
        | here => exact absurd rfl ht
        | inside _ _ _ _ _ _ h =>
          obtain ⟨r, h⟩ := ih1.mp h
          exact ⟨_, by rw [h]; rfl⟩
        | after _ _ _ hn h =>
          obtain ⟨r, h⟩ := ih2.mp h
          have hc : (Xml.elemsList cs).filter (Xml.hasTag t) = [] := by
            by_contra hc
            exact hn (.inside t' a cs [] ((occursIn_iff t cs).mpr hc))
          exact ⟨r, by rw [hc, h]; rfl⟩
      · rintro ⟨r, h⟩
        cases hc : (Xml.elemsList cs).filter (Xml.hasTag t) with
        | nil =>
          rw [hc] at h
          refine .after _ _ _ ?_ (ih2.mpr ⟨r, h⟩)
          rw [occursIn_iff]
          simp [Xml.elemsList, Xml.elems, Xml.hasTag, hc, ht]
        | cons z zs =>
          rw [hc] at h
          have hz : z = y := by simpa using (List.cons.inj h).1
          exact .inside t' a cs xs y ht (ih1.mpr ⟨zs, by rw [hc, hz]⟩)
termination_by sizeOf l

theorem first_ok_iff (x : Xml) (t : Tag) (y : Xml) : x.first t = .ok y ↔ IsFirstIn x t y := by
  have key : x.first t = .ok y ↔ ∃ r, (Xml.elemsList x.children).filter (Xml.hasTag t) = y :: r := by
    unfold Xml.first
    cases h : (Xml.elemsList x.children).filter (Xml.hasTag t) with
    | nil => simp
    | cons z zs => simp
  rw [key]
  unfold IsFirstIn
  cases x with
  | text d => simp [Xml.children, Xml.elemsList]
  | elem t' a cs =>
    simp only [Xml.children, ← firstAmong_iff, Xml.elem.injEq]
    constructor
    · intro h; exact ⟨t', a, cs, ⟨rfl, rfl, rfl⟩, h⟩
    · rintro ⟨_, _, _, ⟨rfl, rfl, rfl⟩, h⟩; exact h

theorem isFirstIn_unique {x : Xml} {t : Tag} {y z : Xml} (h1 : IsFirstIn x t y) (h2 : IsFirstIn x t z) : y = z := by
  rw [← first_ok_iff] at h1 h2
  rw [h1] at h2
  simpa using h2

theorem reaches_cons {x : Xml} {t : Tag} {z : Xml} (h : IsFirstIn x t z) (path : List Tag) (y : Xml) :
    Reaches x (t :: path) y ↔ Reaches z path y := by
  constructor
  · rintro ⟨z', hz, hr⟩
    rw [isFirstIn_unique h hz]; exact hr
  · intro hr; exact ⟨z, h, hr⟩

theorem textAt_cons {x : Xml} {t : Tag} {z : Xml} (h : IsFirstIn x t z) (path : List Tag) (s : Line) :
    TextAt x (t :: path) s ↔ TextAt z path s := by
  simp only [TextAt, reaches_cons h]

theorem numberAt_cons (env : IoEnv K) {x : Xml} {t : Tag} {z : Xml} (h : IsFirstIn x t z) (path : List Tag) (v : K) :
    NumberAt env x (t :: path) v ↔ NumberAt env z path v := by
  simp only [NumberAt, textAt_cons h]

theorem numbersAt_cons (env : IoEnv K) {x : Xml} {t : Tag} {z : Xml} (h : IsFirstIn x t z) (path : List Tag) (n : String)
    (l : List K) : NumbersAt env x (t :: path) n l ↔ NumbersAt env z path n l := by
  simp only [NumbersAt, List.cons_append, numberAt_cons env h]

theorem firstData_ok_iff (x : Xml) (s : Line) : x.firstData = .ok s ↔ ∃ rest, x.children = .text s :: rest := by
  unfold Xml.firstData
  cases h : x.children with
  | nil => simp
  | cons c cs => cases c <;> simp

theorem pyFloat_ok_iff (env : IoEnv K) (s : Line) (v : K) : pyFloat env s = .ok v ↔ env.toFloat s = some v := by
  unfold pyFloat
  cases env.toFloat s <;> simp

theorem floatAt_ok_iff (env : IoEnv K) (x : Xml) (t : Tag) (v : K) : x.floatAt env t = .ok v ↔ NumberAt env x [t] v := by
  unfold Xml.floatAt
  simp only [bind_ok_iff, first_ok_iff, firstData_ok_iff, pyFloat_ok_iff, NumberAt, TextAt, Reaches]
  constructor
  · rintro ⟨y, h1, s, ⟨r, h2⟩, h3⟩
    exact ⟨s, ⟨y, r, ⟨y, h1, rfl⟩, h2⟩, h3⟩
  · rintro ⟨s, ⟨y, r, ⟨z, h1, rfl⟩, h2⟩, h3⟩
    exact ⟨y, h1, s, ⟨r, h2⟩, h3⟩

theorem floatAt2_ok_iff (env : IoEnv K) (x : Xml) (t u : Tag) (v : K) :
    x.floatAt2 env t u = .ok v ↔ NumberAt env x [t, u] v := by
  unfold Xml.floatAt2
  simp only [bind_ok_iff, first_ok_iff, floatAt_ok_iff]
  constructor
  · rintro ⟨y, h1, h2⟩; rwa [numberAt_cons env h1]
  · intro h
    have h' := h
    obtain ⟨s, ⟨y, r, ⟨z, hz, hr⟩, hc⟩, hf⟩ := h
    exact ⟨z, hz, by rwa [numberAt_cons env hz] at h'⟩

theorem eachOf_ok_iff {α β : Type} (f : α → Except IoError β) (l : List α) (bs : List β) :
    eachOf f l = .ok bs ↔ List.Forall₂ (fun a b => f a = .ok b) l bs := by
  induction l generalizing bs with
  | nil =>
    simp only [eachOf, Except.ok.injEq]
    constructor
    · rintro rfl; exact .nil
    · intro h; cases h; rfl
  | cons a as ih =>
    simp only [eachOf, bind_ok_iff, pure_ok_iff]
    constructor
    · rintro ⟨b, h1, bs', h2, rfl⟩
      exact .cons h1 ((ih bs').1 h2)
    · intro h
      cases h with
      | cons h1 h2 => exact ⟨_, h1, _, (ih _).2 h2, rfl⟩

theorem floats20_ok_iff (env : IoEnv K) (x : Xml) (name : String) (l : List K) :
    x.floats20 env name = .ok l ↔ NumbersAt env x [] name l := by
  unfold Xml.floats20 NumbersAt
  rw [eachOf_ok_iff, List.forall₂_iff_get]
  simp only [List.length_range, List.get_eq_getElem, List.getElem_range, floatAt_ok_iff, List.nil_append]
  constructor
  · rintro ⟨h1, h2⟩
    refine ⟨h1.symm, fun i v hv => ?_⟩
    obtain ⟨hi, hv'⟩ := List.getElem?_eq_some_iff.1 hv
    rw [← hv']
    exact h2 i (by omega) hi
  · rintro ⟨h1, h2⟩
    exact ⟨h1.symm, fun i h h' => h2 i _ (List.getElem?_eq_getElem h')⟩

theorem firstAttr_ok_iff (x : Xml) (s : Line) : x.firstAttr = .ok s ↔ ∃ t rest cs, x = .elem t (s :: rest) cs := by
  cases x with
  | text d => simp [Xml.firstAttr]
  | elem t a cs => cases a <;> simp [Xml.firstAttr]

theorem attributeAt_cons {x : Xml} {t : Tag} {z : Xml} (h : IsFirstIn x t z) (path : List Tag) (s : Line) :
    AttributeAt x (t :: path) s ↔ AttributeAt z path s := by
  simp only [AttributeAt, reaches_cons h]

theorem attributeAt_iff (x : Xml) (t u : Tag) (s : Line) :
    AttributeAt x [t, u] s ↔ ∃ y z, x.first t = .ok y ∧ y.first u = .ok z ∧ z.firstAttr = .ok s := by
  simp only [first_ok_iff, firstAttr_ok_iff, AttributeAt, Reaches]
  constructor
  · rintro ⟨t', r, cs, y, h1, z, h2, h3⟩
    exact ⟨y, z, h1, h2, t', r, cs, h3.symm⟩
  · rintro ⟨y, z, h1, h2, t', r, cs, rfl⟩
    exact ⟨t', r, cs, y, h1, _, h2, rfl⟩

theorem forall2_toFloat (env : IoEnv K) (ws : List Line) (l : List K) :
    List.Forall₂ (fun a b => pyFloat env a = .ok b) ws l ↔ ws.map env.toFloat = l.map some := by
  induction ws generalizing l with
  | nil =>
    cases l with
    | nil => simp
    | cons x xs =>
      constructor
      · intro h; cases h
      · intro h; simp at h
  | cons w ws ih =>
    cases l with
    | nil =>
      constructor
      · intro h; cases h
      · intro h; simp at h
    | cons x xs =>
      rw [List.forall₂_cons, ih, pyFloat_ok_iff]
      simp only [List.map_cons, List.cons.injEq]

theorem isWhite_iff (c : Char) : isWhite c = true ↔ White c := by
  simp [isWhite, White, or_assoc]

theorem isWhite_false_iff (c : Char) : isWhite c = false ↔ ¬ White c := by
  rw [← isWhite_iff]; simp

theorem wordsAux_lead (lead r : Line) (h : ∀ c ∈ lead, White c) : wordsAux [] (lead ++ r) = wordsAux [] r := by
  induction lead with
  | nil => rfl
  | cons c cs ih =>
    simp only [List.mem_cons, forall_eq_or_imp] at h
    rw [List.cons_append, wordsAux, if_pos ((isWhite_iff c).mpr h.1), if_pos rfl, ih h.2]

theorem wordsAux_word (cur w r : Line) (h : ∀ c ∈ w, ¬ White c) : wordsAux cur (w ++ r) = wordsAux (w.reverse ++ cur) r := by
  induction w generalizing cur with
  | nil => rfl
  | cons c cs ih =>
    simp only [List.mem_cons, forall_eq_or_imp] at h
    rw [List.cons_append, wordsAux, if_neg (by rw [isWhite_iff]; exact h.1), ih _ h.2]
    simp

theorem wordsAux_flush (cur rest : Line) (hc : cur ≠ []) (h : ∀ c, rest.head? = some c → White c) :
    wordsAux cur rest = cur.reverse :: wordsAux [] rest := by
  cases rest with
  | nil => simp [wordsAux, hc]
  | cons c cs =>
    have := (isWhite_iff c).mpr (h c rfl)
    rw [wordsAux, wordsAux, if_pos this, if_pos this, if_neg hc, if_pos rfl]

theorem madeOf_lead (c : Char) (s : Line) (ws : List Line) (hc : White c) (h : MadeOf s ws) : MadeOf (c :: s) ws := by
  cases h with
  | blank _ h => exact .blank _ (by simpa [hc] using h)
  | word lead w rest ws h1 h2 h3 h4 h5 =>
    exact .word (c :: lead) w rest ws (by simpa [hc] using h1) h2 h3 h4 h5

theorem madeOf_wordsAux (s cur : Line) (hcur : ∀ c ∈ cur, ¬ White c) : MadeOf (cur.reverse ++ s) (wordsAux cur s) := by
  induction s generalizing cur with
  | nil =>
    rw [wordsAux]
    split
    · next h => subst h; exact .blank _ (by simp)
    · next h =>
      have := MadeOf.word [] cur.reverse [] [] (by simp) (by simpa using h) (by simpa using hcur) (by simp)
        (.blank _ (by simp))
      simpa using this
  | cons c cs ih =>
    rw [wordsAux]
    split
    · next hw =>
      rw [isWhite_iff] at hw
      have h0 := madeOf_lead c cs _ hw (ih [] (by simp))
      split
      · next h => subst h; exact h0
      · next h =>
        have := MadeOf.word [] cur.reverse (c :: cs) _ (by simp) (by simpa using h) (by simpa using hcur)
          (by rintro d hd; simp only [List.head?_cons, Option.some.injEq] at hd; exact hd ▸ hw) h0
        simpa using this
    · next hw =>
      rw [isWhite_iff] at hw
      have := ih (c :: cur) (by simpa [hw] using hcur)
      simpa using this

theorem madeOf_iff (s : Line) (ws : List Line) : MadeOf s ws ↔ words s = ws := by
  constructor
  · intro h
    induction h with
    | blank s h =>
      have := wordsAux_lead s [] h
      simpa [words, wordsAux] using this
    | word lead w rest ws h1 h2 h3 h4 h5 ih =>
      unfold words at ih ⊢
      rw [List.append_assoc, wordsAux_lead _ _ h1, wordsAux_word _ _ _ h3, List.append_nil,
        wordsAux_flush _ _ (by simpa using h2) h4, ih, List.reverse_reverse]
  · rintro rfl
    exact madeOf_wordsAux s [] (by simp)

theorem floatsOf_ok_iff (env : IoEnv K) (x : Xml) (t : Tag) (l : List K) :
    x.floatsOf env t = .ok l ↔ WordsAt env x [t] l := by
  unfold Xml.floatsOf
  simp only [bind_ok_iff, first_ok_iff, firstData_ok_iff, eachOf_ok_iff, forall2_toFloat, WordsAt, TextAt, Reaches,
    madeOf_iff]
  constructor
  · rintro ⟨y, h1, s, ⟨r, h2⟩, h3⟩
    exact ⟨s, _, ⟨y, r, ⟨y, h1, rfl⟩, h2⟩, rfl, h3⟩
  · rintro ⟨s, _, ⟨y, r, ⟨z, h1, rfl⟩, h2⟩, rfl, h3⟩
    exact ⟨y, h1, s, ⟨r, h2⟩, h3⟩

theorem wordsAt_cons (env : IoEnv K) {x : Xml} {t : Tag} {z : Xml} (h : IsFirstIn x t z) (path : List Tag) (l : List K) :
    WordsAt env x (t :: path) l ↔ WordsAt env z path l := by
  simp only [WordsAt, textAt_cons h]

/-! ### Keyword lists -/

theorem noSep_nil : NoSep [] := by simp [NoSep]

theorem noSep_cons {c : Char} {s : Line} (h : NoSep (c :: s)) : NoSep s := fun hi => h (hi.trans (List.suffix_cons c s).isInfix)

theorem splitColon_cons (c : Char) (s : Line) (h : ¬ ∃ r, c :: s = ':' :: ' ' :: r) :
    splitColon (c :: s) = match splitColon s with
      | [] => [[c]]
      | p :: ps => (c :: p) :: ps := by
  rw [splitColon]
  · rfl
  · rintro r rfl rfl
    exact h ⟨r, rfl⟩

theorem splitColon_ne_nil (s : Line) : splitColon s ≠ [] := by
  cases s with
  | nil => simp [splitColon]
  | cons c s =>
    by_cases h : ∃ r, c :: s = ':' :: ' ' :: r
    · obtain ⟨r, hr⟩ := h
      rw [hr]; simp [splitColon]
    · rw [splitColon_cons c s h]
      split <;> simp

theorem noSep_head {c : Char} {s : Line} (h : NoSep (c :: s)) : ¬ ∃ r, c :: s = ':' :: ' ' :: r := by
  rintro ⟨r, hr⟩
  exact h (hr ▸ (List.prefix_append [':', ' '] r).isInfix)

theorem splitColon_noSep (s : Line) (h : NoSep s) : splitColon s = [s] := by
  induction s with
  | nil => rfl
  | cons c s ih =>
    rw [splitColon_cons c s (noSep_head h), ih (noSep_cons h)]

theorem splitColon_append (k v : Line) (h : NoSep k) : splitColon (k ++ ':' :: ' ' :: v) = k :: splitColon v := by
  induction k with
  | nil => simp [splitColon]
  | cons c k ih =>
    have hh : ¬ ∃ r, c :: (k ++ ':' :: ' ' :: v) = ':' :: ' ' :: r := by
      rintro ⟨r, hr⟩
      cases k with
      | nil =>
        simp only [List.nil_append, List.cons.injEq] at hr
        exact absurd hr.2.1 (by decide)
      | cons c' k' =>
        simp only [List.cons_append, List.cons.injEq] at hr
        obtain ⟨rfl, rfl, -⟩ := hr
        exact h ((List.prefix_append [':', ' '] k').isInfix)
    rw [List.cons_append, splitColon_cons c _ hh, ih (noSep_cons h)]


theorem noSep_cons_iff (c : Char) (s : Line) : NoSep (c :: s) ↔ (¬ ∃ r, c :: s = ':' :: ' ' :: r) ∧ NoSep s := by
  constructor
  · intro h; exact ⟨noSep_head h, noSep_cons h⟩
  · rintro ⟨h1, h2⟩ hi
    rcases List.infix_cons_iff.1 hi with h | h
    · obtain ⟨r, hr⟩ := h
      exact h1 ⟨r, by rw [← hr]; rfl⟩
    · exact h2 h

theorem exists_first_sep (s : Line) (h : ¬ NoSep s) : ∃ k v, s = k ++ ':' :: ' ' :: v ∧ NoSep k := by
  induction s with
  | nil => exact absurd noSep_nil h
  | cons c s ih =>
    by_cases hr : ∃ r, c :: s = ':' :: ' ' :: r
    · obtain ⟨r, hr⟩ := hr
      exact ⟨[], r, by rw [hr]; rfl, noSep_nil⟩
    · have hs : ¬ NoSep s := fun hs => h ((noSep_cons_iff c s).2 ⟨hr, hs⟩)
      obtain ⟨k, v, e, hk⟩ := ih hs
      refine ⟨c :: k, v, by rw [e]; rfl, (noSep_cons_iff c k).2 ⟨?_, hk⟩⟩
      rintro ⟨r, hr'⟩
      apply hr
      refine ⟨r ++ ':' :: ' ' :: v, ?_⟩
      rw [e, ← List.cons_append, hr']
      rfl

theorem splitColon_two_iff (s k v : Line) : splitColon s = [k, v] ↔ s = k ++ ':' :: ' ' :: v ∧ NoSep k ∧ NoSep v := by
  constructor
  · intro h
    by_cases hs : NoSep s
    · rw [splitColon_noSep s hs] at h; simp at h
    · obtain ⟨k', v', e, hk⟩ := exists_first_sep s hs
      rw [e, splitColon_append k' v' hk] at h
      by_cases hv : NoSep v'
      · rw [splitColon_noSep v' hv] at h
        simp only [List.cons.injEq, and_true] at h
        obtain ⟨rfl, rfl⟩ := h
        exact ⟨e, hk, hv⟩
      · obtain ⟨k'', v'', e', hk'⟩ := exists_first_sep v' hv
        rw [e', splitColon_append k'' v'' hk'] at h
        simp only [List.cons.injEq] at h
        exact absurd h.2.2 (splitColon_ne_nil v'')
  · rintro ⟨rfl, h1, h2⟩
    rw [splitColon_append k v h1, splitColon_noSep v h2]

/-- The lines and the keyword list. -/
theorem kwlDict_ok_iff (t : Text) (d : List (Line × Line)) :
    kwlDict t = .ok d ↔ ∃ l, IsKwl t l ∧ d = (l.map fun kv => (kv.1, rstrip kv.2)).reverse := by
  unfold kwlDict IsKwl
  simp only [bind_ok_iff, pure_ok_iff]
  constructor
  · rintro ⟨l', h, rfl⟩
    suffices ∃ l : List (Line × Line), (t = l.map (fun kv => kv.1 ++ ": ".toList ++ kv.2) ∧ ∀ kv ∈ l, NoSep kv.1 ∧ NoSep kv.2) ∧
        l' = l.map fun kv => (kv.1, rstrip kv.2) by
      obtain ⟨l, h1, h2⟩ := this
      exact ⟨l, h1, by rw [h2]⟩
    rw [eachOf_ok_iff] at h
    induction h with
    | nil => exact ⟨[], ⟨rfl, by simp⟩, rfl⟩
    | @cons a b as bs h1 h2 ih =>
      obtain ⟨l, ⟨e, hl⟩, e'⟩ := ih
      split at h1
      · rename_i k v hkv
        rw [splitColon_two_iff] at hkv
        simp only [Except.ok.injEq] at h1
        refine ⟨(k, v) :: l, ⟨?_, ?_⟩, ?_⟩
        · rw [List.map_cons, ← e, hkv.1]; simp
        · intro kv hm
          rcases List.mem_cons.1 hm with rfl | hm
          · exact hkv.2
          · exact hl kv hm
        · rw [e', ← h1]; rfl
      · cases h1
  · rintro ⟨l, ⟨e, hl⟩, rfl⟩
    refine ⟨_, ?_, rfl⟩
    rw [eachOf_ok_iff, e]
    clear e
    induction l with
    | nil => exact .nil
    | cons kv l ih =>
      refine .cons ?_ (ih fun kv' h' => hl kv' (by simp [h']))
      have : splitColon (kv.1 ++ ": ".toList ++ kv.2) = [kv.1, kv.2] :=
        (splitColon_two_iff _ _ _).2 ⟨by simp, hl kv (by simp)⟩
      rw [this]

theorem mem_takeWhile' {α : Type} (p : α → Bool) (l : List α) (c : α) (h : c ∈ l.takeWhile p) : p c = true := by
  induction l with
  | nil => simp at h
  | cons a as ih =>
    rw [List.takeWhile_cons] at h
    split at h
    · rcases List.mem_cons.1 h with rfl | h
      · assumption
      · exact ih h
    · simp at h

theorem rstrip_spec (w : Line) : ∃ white, w = rstrip w ++ white ∧ (∀ c ∈ white, White c) ∧
    (∀ c, (rstrip w).getLast? = some c → ¬ White c) := by
  simp only [← isWhite_iff, Bool.not_eq_true]
  refine ⟨(w.reverse.takeWhile isWhite).reverse, ?_, ?_, ?_⟩
  · unfold rstrip
    rw [← List.reverse_append, List.takeWhile_append_dropWhile, List.reverse_reverse]
  · intro c hc
    rw [List.mem_reverse] at hc
    exact mem_takeWhile' isWhite _ c hc
  · intro c hc
    unfold rstrip at hc
    rw [List.getLast?_reverse] at hc
    cases hd : w.reverse.dropWhile isWhite with
    | nil => rw [hd] at hc; simp at hc
    | cons a as =>
      rw [hd] at hc
      simp only [List.head?_cons, Option.some.injEq] at hc
      have := List.head?_dropWhile_not isWhite w.reverse
      rw [hd] at this
      simp only [List.head?_cons] at this
      rw [← hc]
      simpa using this

theorem rstrip_unique (w v white : Line) (h1 : w = v ++ white) (h2 : ∀ c ∈ white, White c)
    (h3 : ∀ c, v.getLast? = some c → ¬ White c) : rstrip w = v := by
  simp only [← isWhite_iff, Bool.not_eq_true] at h2 h3
  unfold rstrip
  rw [h1, List.reverse_append]
  have : (white.reverse ++ v.reverse).dropWhile isWhite = v.reverse := by
    rw [List.dropWhile_append_of_pos (by intro c hc; exact h2 c (by simpa using hc))]
    cases hv : v.reverse with
    | nil => rfl
    | cons a as =>
      have : v.getLast? = some a := by rw [List.getLast?_eq_head?_reverse, hv]; rfl
      rw [List.dropWhile_cons_of_neg (by simp [h3 a this])]
  rw [this, List.reverse_reverse]

theorem lookup_iff {β : Type} (l : List (Line × β)) (k : Line) (v : β) :
    l.lookup k = some v ↔ ∃ before after, l = before ++ (k, v) :: after ∧ ∀ kv ∈ before, kv.1 ≠ k := by
  induction l with
  | nil => simp
  | cons x xs ih =>
    obtain ⟨a, b⟩ := x
    by_cases h : k = a
    · subst h
      simp only [List.lookup_cons_self, Option.some.injEq]
      constructor
      · rintro rfl; exact ⟨[], xs, rfl, by simp⟩
      · rintro ⟨bf, af, e, hb⟩
        cases bf with
        | nil => simp only [List.nil_append, List.cons.injEq, Prod.mk.injEq, true_and] at e; exact e.1
        | cons y ys =>
          simp only [List.cons_append, List.cons.injEq] at e
          exact absurd (by rw [← e.1]) (hb y (by simp))
    · have hne : (k == a) = false := by simpa using h
      rw [List.lookup_cons, hne]
      simp only
      rw [ih]
      constructor
      · rintro ⟨bf, af, e, hb⟩
        refine ⟨(a, b) :: bf, af, by rw [e]; rfl, ?_⟩
        intro kv hkv
        rcases List.mem_cons.1 hkv with rfl | hkv
        · exact fun h' => h h'.symm
        · exact hb kv hkv
      · rintro ⟨bf, af, e, hb⟩
        cases bf with
        | nil =>
          simp only [List.nil_append, List.cons.injEq, Prod.mk.injEq] at e
          exact absurd e.1.1.symm h
        | cons y ys =>
          simp only [List.cons_append, List.cons.injEq] at e
          exact ⟨ys, af, e.2, fun kv hkv => hb kv (by simp [hkv])⟩

theorem kwlLookup_iff (l : List (Line × Line)) (k v : Line) :
    ((l.map fun kv => (kv.1, rstrip kv.2)).reverse).lookup k = some v ↔ KwlValue l k v := by
  rw [lookup_iff]
  constructor
  · rintro ⟨bf, af, e, hb⟩
    have e2 : l.map (fun kv => (kv.1, rstrip kv.2)) = af.reverse ++ (k, v) :: bf.reverse := by
      have := congrArg List.reverse e
      simpa using this
    obtain ⟨l1, l2, rfl, h1, h2⟩ := List.map_eq_append_iff.1 e2
    obtain ⟨⟨k', w⟩, l3, rfl, h3, h4⟩ := List.map_eq_cons_iff.1 h2
    simp only [Prod.mk.injEq] at h3
    obtain ⟨rfl, rfl⟩ := h3
    refine ⟨l1, l3, w, rfl, ?_, ?_⟩
    · intro kv hkv
      have hm : (kv.1, rstrip kv.2) ∈ bf := by
        have : (kv.1, rstrip kv.2) ∈ bf.reverse := by rw [← h4]; exact List.mem_map_of_mem hkv
        simpa using this
      exact hb (kv.1, rstrip kv.2) hm
    · obtain ⟨white, a, b, c⟩ := rstrip_spec w
      exact ⟨white, a, b, c⟩
  · rintro ⟨bf, af, w, rfl, ha, white, e1, e2, e3⟩
    refine ⟨(af.map fun kv => (kv.1, rstrip kv.2)).reverse, (bf.map fun kv => (kv.1, rstrip kv.2)).reverse, ?_, ?_⟩
    · rw [← rstrip_unique w v white e1 e2 e3]; simp
    · intro kv hkv
      rw [List.mem_reverse, List.mem_map] at hkv
      obtain ⟨x, hx, rfl⟩ := hkv
      exact ha x hx

theorem kwlFloat_ok_iff (env : IoEnv K) (l : List (Line × Line)) (k : Line) (x : K) :
    kwlFloat env (l.map fun kv => (kv.1, rstrip kv.2)).reverse k = .ok x ↔ KwlNumber env l k x := by
  unfold kwlFloat kwlGet KwlNumber
  simp only [bind_ok_iff, pyFloat_ok_iff, ← kwlLookup_iff]
  constructor
  · rintro ⟨s, h1, h2⟩
    cases hl : ((l.map fun kv => (kv.1, rstrip kv.2)).reverse).lookup k with
    | none => rw [hl] at h1; simp at h1
    | some v =>
      rw [hl] at h1
      simp only [Except.ok.injEq] at h1
      exact ⟨v, rfl, by rw [h1]; exact h2⟩
  · rintro ⟨v, h1, h2⟩
    exact ⟨v, by rw [h1], h2⟩

theorem digits2_eq : (List.range 20).map twoDigits = digits2 := by decide +kernel

theorem kwlCoefs_ok_iff (env : IoEnv K) (l : List (Line × Line)) (pre : String) (xs : List K) :
    kwlCoefs env (l.map fun kv => (kv.1, rstrip kv.2)).reverse pre.toList = .ok xs ↔ KwlNumbers env l pre xs := by
  unfold kwlCoefs KwlNumbers
  rw [eachOf_ok_iff, ← digits2_eq, List.forall₂_map_left_iff]
  simp only [kwlFloat_ok_iff]

theorem isKwl_unique {t : Text} {l l' : List (Line × Line)} (h : IsKwl t l) (h' : IsKwl t l') : l = l' := by
  obtain ⟨e, hl⟩ := h
  obtain ⟨e', hl'⟩ := h'
  rw [e] at e'
  clear e
  induction l generalizing l' with
  | nil =>
    cases l' with
    | nil => rfl
    | cons x xs => simp at e'
  | cons x xs ih =>
    cases l' with
    | nil => simp at e'
    | cons y ys =>
      simp only [List.map_cons, List.cons.injEq] at e'
      have hx := hl x (by simp)
      have hy := hl' y (by simp)
      have h1 : splitColon (x.1 ++ ": ".toList ++ x.2) = [x.1, x.2] := (splitColon_two_iff _ _ _).2 ⟨by simp, hx⟩
      have h2 : splitColon (y.1 ++ ": ".toList ++ y.2) = [y.1, y.2] := (splitColon_two_iff _ _ _).2 ⟨by simp, hy⟩
      rw [e'.1, h2] at h1
      simp only [List.cons.injEq, and_true] at h1
      have hxy : x = y := Prod.ext h1.1.symm h1.2.symm
      rw [hxy, ih (fun kv h => hl kv (by simp [h])) e'.2 (fun kv h => hl' kv (by simp [h]))]

end Shareloc
