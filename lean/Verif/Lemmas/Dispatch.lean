import Verif.Spec.Dispatch
import Verif.Lemmas.RpcFormats

set_option linter.unusedSectionVars false

namespace Shareloc
variable {K : Type} [Field K] [LinearOrder K]

theorem upper_slash : Char.toUpper '/' = '/' := by decide

theorem take3_iff (r : Line) (l : Line) (hl : l.length = 3) (hs : '/' ∉ l) :
    ((r.takeWhile fun c => decide (c ≠ '/')).map Char.toUpper).take 3 = l ↔ (r.map Char.toUpper).take 3 = l := by
  obtain ⟨x, y, z, rfl⟩ : ∃ x y z, l = [x, y, z] := by
    match l, hl with
    | [x, y, z], _ => exact ⟨x, y, z, rfl⟩
  simp only [List.mem_cons, not_or, List.not_mem_nil, not_false_eq_true, and_true] at hs
  match r with
  | [] => simp
  | [a] => by_cases ha : a = '/' <;> simp [List.takeWhile_cons, ha]
  | [a, b] =>
    by_cases ha : a = '/' <;> by_cases hb : b = '/' <;> simp [List.takeWhile_cons, ha, hb]
  | a :: b :: c :: r =>
    by_cases ha : a = '/'
    · simp only [List.takeWhile_cons, ha]
      simp [upper_slash, hs.1]
    · by_cases hb : b = '/'
      · simp only [List.takeWhile_cons, ha, hb]
        simp [upper_slash, hs.2.1, ha]
      · by_cases hc : c = '/'
        · simp only [List.takeWhile_cons, ha, hb, hc]
          simp [upper_slash, hs.2.2, ha, hb]
        · simp [List.takeWhile_cons, ha, hb, hc]

theorem isXmlPath_iff (path : Line) : isXmlPath path = true ↔ EndsWithXml path := by
  unfold isXmlPath basename
  rw [beq_iff_eq, ← List.map_reverse, List.reverse_reverse, take3_iff _ _ (by decide) (by decide)]
  unfold EndsWithXml
  constructor
  · intro h
    refine ⟨(path.reverse.drop 3).reverse, (path.reverse.take 3).reverse, ?_, ?_⟩
    · rw [← List.reverse_append, List.take_append_drop, List.reverse_reverse]
    · rw [List.map_reverse, List.map_take, h]; decide
  · rintro ⟨pre, ext, rfl, h⟩
    have hlen : ext.length = 3 := by
      have := congrArg List.length h
      simpa using this
    rw [List.reverse_append, List.map_append, List.take_append_of_le_length (by simp [hlen]), List.map_reverse, h]
    decide

theorem textAt_some_iff (fs : Files K) (path : Line) (t : Text) : textAt fs path = some t ↔ fs path = some (.text t) := by
  unfold textAt
  split
  · rename_i h; rw [h]; simp
  · rename_i h
    constructor
    · intro h'; simp at h'
    · intro h'; exact absurd h' (h t)

theorem textAt_none_iff (fs : Files K) (path : Line) : textAt fs path = none ↔ ∀ t, fs path ≠ some (.text t) := by
  rw [← not_iff_not, ← Ne, Option.ne_none_iff_exists']
  simp only [textAt_some_iff, not_forall, not_not]

theorem rioRpcs_iff (env : IoEnv K) (fs : Files K) (path : Line) (r : RioRpc K) :
    rioRpcs env fs path = some (some r) ↔ HasGdalRpc env fs path r := by
  unfold HasGdalRpc rioRpcs
  split
  · rename_i rpc h
    simp only [h, Option.some.injEq, RpcFile.tiff.injEq, exists_eq_left']
    cases ht : textAt fs (rpbPath path) with
    | none =>
      have := (textAt_none_iff _ _).1 ht
      simp only [Option.bind_none]
      constructor
      · intro h; exact .inr ⟨this, h⟩
      · rintro (⟨t, h1, -⟩ | ⟨-, h⟩)
        · exact absurd h1 (this t)
        · exact h
    | some t =>
      have := (textAt_some_iff _ _ _).1 ht
      simp only [Option.bind_some, this, Option.some.injEq, RpcFile.text.injEq, exists_eq_left']
      constructor
      · intro h; exact .inl h
      · rintro (h | ⟨h, -⟩)
        · exact h
        · exact absurd rfl (h t)
  · rename_i h
    constructor
    · intro h'; simp at h'
    · rintro ⟨i, hi, -⟩; exact absurd hi (h i)

theorem identifyDimap_iff (doc : Option Xml) (v : Line) :
    identifyDimap doc = some v ↔ ∃ d, doc = some d ∧ DimapVersion d v := by
  have hres : identifyDimap doc = some v ↔ dimapVersion doc = .ok v := by
    unfold identifyDimap
    cases dimapVersion doc <;> simp
  rw [hres]
  cases doc with
  | none => simp [dimapVersion]
  | some d =>
    unfold dimapVersion
    simp only [bind_ok_iff, Option.some.injEq, exists_eq_left']
    unfold DimapVersion
    simp only [attributeAt_iff]
    constructor
    · rintro ⟨mtd, h1, f, h2, data, h3, w, h4, h5⟩
      refine ⟨data, ?_, ?_, ?_⟩
      · rw [first_ok_iff] at h1 h2
        obtain ⟨rest, hr⟩ := (firstData_ok_iff _ _).1 h3
        exact ⟨f, rest, ⟨mtd, h1, f, h2, rfl⟩, hr⟩
      · intro hp
        rw [versionTag, if_pos hp] at h4
        exact ⟨mtd, w, h1, h4, h5⟩
      · intro hp
        rw [versionTag, if_neg hp] at h4
        exact ⟨mtd, w, h1, h4, h5⟩
    · rintro ⟨data, ⟨f, rest, ⟨mtd, h1, f', h2, hf⟩, hr⟩, ha, hb⟩
      have hf' : f = f' := hf
      subst hf'
      rw [← first_ok_iff] at h1 h2
      have h3 : f.firstData = .ok data := (firstData_ok_iff _ _).2 ⟨rest, hr⟩
      by_cases hp : data = "DIMAP_PHR".toList
      · obtain ⟨m, w, e1, e2, e3⟩ := ha hp
        rw [h1, Except.ok.injEq] at e1
        subst e1
        exact ⟨mtd, h1, f, h2, data, h3, w, by rw [versionTag, if_pos hp]; exact e2, e3⟩
      · obtain ⟨m, w, e1, e2, e3⟩ := hb hp
        rw [h1, Except.ok.injEq] at e1
        subst e1
        exact ⟨mtd, h1, f, h2, data, h3, w, by rw [versionTag, if_neg hp]; exact e2, e3⟩

theorem dropWhile_white_iff (v p : Line) (hp : ∀ c, p.head? = some c → ¬ White c) (hne : p ≠ []) :
    p <+: v.dropWhile isWhite ↔ ∃ white rest, v = white ++ p ++ rest ∧ ∀ c ∈ white, White c := by
  simp only [← isWhite_iff, Bool.not_eq_true] at hp ⊢
  constructor
  · rintro ⟨rest, h⟩
    refine ⟨v.takeWhile isWhite, rest, ?_, fun c hc => mem_takeWhile' _ _ _ hc⟩
    rw [List.append_assoc, h, List.takeWhile_append_dropWhile]
  · rintro ⟨white, rest, rfl, hw⟩
    rw [List.append_assoc, List.dropWhile_append_of_pos hw]
    cases p with
    | nil => exact absurd rfl hne
    | cons a as =>
      rw [List.cons_append, List.dropWhile_cons_of_neg (by simp [hp a rfl])]
      exact ⟨rest, rfl⟩

theorem take5_iff (w : Line) : w.take 5 = "ossim".toList ↔ "ossim".toList <+: w := by
  rw [List.prefix_iff_eq_take]
  exact eq_comm

/-- Removing trailing white space does not change whether the text starts with `ossim`. -/
theorem prefix_rstrip (p w : Line) (hp : ∀ c, p.getLast? = some c → ¬ White c) : p <+: rstrip w ↔ p <+: w := by
  obtain ⟨white, h1, h2, h3⟩ := rstrip_spec w
  constructor
  · intro h
    rw [h1]
    exact h.trans (List.prefix_append _ _)
  · rintro ⟨rest, h⟩
    obtain ⟨wh, e1, e2, e3⟩ := rstrip_spec rest
    by_cases hr : rstrip rest = []
    · rw [hr, List.nil_append] at e1
      rw [rstrip_unique w p wh (by rw [← h, e1]) e2 hp]
    · have : rstrip w = p ++ rstrip rest := by
        refine rstrip_unique w _ wh (by rw [List.append_assoc, ← e1, h]) e2 ?_
        intro c hc
        rw [List.getLast?_append_of_ne_nil _ hr] at hc
        exact e3 c hc
      rw [this]
      exact List.prefix_append _ _

theorem identifyOssim_iff (t : Option Text) : (∃ s, identifyOssim t = some s) ↔ ∃ t', t = some t' ∧ IsOssimText t' := by
  unfold identifyOssim
  cases t with
  | none => simp
  | some t =>
    simp only [Option.some.injEq, exists_eq_left']
    unfold IsOssimText
    have key : ∀ v : Line, (strip v).take 5 = "ossim".toList ↔
        ∃ white rest, v = white ++ "ossim".toList ++ rest ∧ ∀ c ∈ white, White c := by
      intro v
      rw [take5_iff, ← dropWhile_white_iff v _ (by simp [White]) (by decide)]
      exact prefix_rstrip _ _ (by simp [White])
    cases hd : kwlDict t with
    | error e =>
      simp only
      constructor
      · rintro ⟨s, h⟩; simp at h
      · rintro ⟨l, v, w, r, hl, -⟩
        have := (kwlDict_ok_iff t _).2 ⟨l, hl, rfl⟩
        rw [hd] at this; simp at this
    | ok d =>
      obtain ⟨l, hl, rfl⟩ := (kwlDict_ok_iff t d).1 hd
      simp only
      constructor
      · rintro ⟨s, h⟩
        split at h
        · simp at h
        · rename_i v hv
          split at h
          · rename_i hpre
            obtain ⟨white, rest, e1, e2⟩ := (key v).1 hpre
            exact ⟨l, v, white, rest, hl, (kwlLookup_iff _ _ _).1 hv, e1, e2⟩
          · simp at h
      · rintro ⟨l', v, white, rest, hl', hv, e1, e2⟩
        have : l' = l := isKwl_unique hl' hl
        subst this
        have hk := (kwlLookup_iff _ _ _).2 hv
        have hp := (key v).2 ⟨white, rest, e1, e2⟩
        rw [hk]
        exact ⟨strip v, by simp only [hp, if_true]⟩

/-! ### Path of the `.RPB` file -/

theorem cut_at_last (l : Line) (h : '.' ∈ l) :
    l = ((l.reverse.dropWhile fun c => c ≠ '.').drop 1).reverse ++ '.' :: (l.reverse.takeWhile fun c => c ≠ '.').reverse := by
  have h1 := List.takeWhile_append_dropWhile (p := fun c => decide (c ≠ '.')) (l := l.reverse)
  cases hd : l.reverse.dropWhile (fun c => decide (c ≠ '.')) with
  | nil =>
    exfalso
    rw [hd, List.append_nil] at h1
    have h2 : '.' ∈ l.reverse.takeWhile (fun c => decide (c ≠ '.')) := by rw [h1]; simpa using h
    have := mem_takeWhile' _ _ _ h2
    simp at this
  | cons a as =>
    have h2 := List.head?_dropWhile_not (fun c => decide (c ≠ '.')) l.reverse
    rw [hd] at h2 h1
    have ha : a = '.' := by simpa using h2
    have h3 := congrArg List.reverse h1
    rw [List.reverse_append, List.reverse_reverse, ha, List.reverse_cons] at h3
    simpa using h3.symm

theorem dropWhile_through {p : Char → Bool} (a : Line) (c : Char) (r : Line) (h : p c = false) :
    (a ++ c :: r).dropWhile p = a.dropWhile p ++ c :: r := by
  induction a with
  | nil => simp [List.dropWhile_cons, h]
  | cons x xs ih =>
    rw [List.cons_append, List.dropWhile_cons, List.dropWhile_cons]
    split
    · exact ih
    · rfl

theorem path_eq (path : Line) : path = path.take (path.length - (basename path).length) ++ basename path := by
  have h := List.takeWhile_append_dropWhile (p := fun c => decide (c ≠ '/')) (l := path.reverse)
  have h2 := congrArg List.reverse h
  rw [List.reverse_append, List.reverse_reverse] at h2
  have h3 : (path.reverse.dropWhile fun c => decide (c ≠ '/')).reverse ++ basename path = path := h2
  generalize (path.reverse.dropWhile fun c => decide (c ≠ '/')).reverse = d at h3
  generalize basename path = b at h3 ⊢
  subst h3
  simp

theorem basename_noSlash (path : Line) : '/' ∉ basename path := by
  unfold basename
  rw [List.mem_reverse]
  intro h
  have := mem_takeWhile' _ _ _ h
  simp at this

theorem basename_append (d x : Line) (h : '/' ∉ x) : ∃ d', basename (d ++ x) = d' ++ x := by
  unfold basename
  rw [List.reverse_append, List.takeWhile_append_of_pos (by
    intro c hc
    rw [List.mem_reverse] at hc
    simp only [ne_eq, decide_not, Bool.not_eq_eq_eq_not, Bool.not_true, decide_eq_false_iff_not]
    rintro rfl; exact h hc)]
  exact ⟨(List.takeWhile (fun c => decide (c ≠ '/')) d.reverse).reverse, by simp⟩

theorem splitext_spec (path : Line) :
    (∃ ext, HasExtension path (splitext path) ext) ∨ ((∀ stem ext, ¬ HasExtension path stem ext) ∧ splitext path = path) := by
  set base := basename path with hbase
  set dir := path.take (path.length - base.length) with hdir
  set lead := base.takeWhile (fun c => decide (c = '.')) with hlead
  set body := base.dropWhile (fun c => decide (c = '.')) with hbody
  have hpath : path = dir ++ base := path_eq path
  have hb : base = lead ++ body := (List.takeWhile_append_dropWhile).symm
  by_cases hdot : '.' ∈ body
  · left
    have hcut := cut_at_last body hdot
    set pre := ((body.reverse.dropWhile fun c => decide (c ≠ '.')).drop 1).reverse with hpre
    set ext := (body.reverse.takeWhile fun c => decide (c ≠ '.')).reverse with hext
    have hs : splitext path = dir ++ lead ++ pre := by
      unfold splitext
      simp only [← hbase, ← hdir, ← hlead, ← hbody]
      rw [if_pos hdot]
    have hns : '/' ∉ base := basename_noSlash path
    have hnsb : '/' ∉ body := fun h => hns (by rw [hb]; exact List.mem_append_right _ h)
    refine ⟨ext, ?_, ?_, ?_, ?_⟩
    · rw [hs, List.append_assoc, ← hcut, List.append_assoc, ← hb]; exact hpath
    · rw [hext, List.mem_reverse]
      intro h
      have := mem_takeWhile' _ _ _ h
      simp at this
    · intro h
      exact hnsb (by rw [hcut]; exact List.mem_append_right _ (List.mem_cons_of_mem _ h))
    · cases hp : pre with
      | nil =>
        exfalso
        have h2 := List.head?_dropWhile_not (fun c => decide (c = '.')) base
        rw [← hbody, hcut, hp] at h2
        simp at h2
      | cons c cs =>
        refine ⟨dir ++ lead, c, cs, by rw [hs, hp], ?_, ?_, ?_⟩
        · have h2 := List.head?_dropWhile_not (fun c => decide (c = '.')) base
          rw [← hbody, hcut, hp] at h2
          simpa using h2
        · rintro rfl
          exact hnsb (by rw [hcut, hp]; simp)
        · intro h
          exact hnsb (by rw [hcut, hp]; simp [h])
  · right
    refine ⟨?_, ?_⟩
    · rintro stem ext ⟨h1, h2, h3, before, c, after, h4, h5, h6, h7⟩
      apply hdot
      obtain ⟨d', hd'⟩ := basename_append before (c :: (after ++ '.' :: ext)) (by
        simp only [List.mem_cons, List.mem_append, not_or]
        exact ⟨fun h => h6 h.symm, h7, by decide, h3⟩)
      have e : path = before ++ c :: (after ++ '.' :: ext) := by rw [h1, h4]; simp
      rw [← e, ← hbase] at hd'
      rw [hbody, hd', dropWhile_through _ _ _ (by simpa using h5)]
      simp
    · unfold splitext
      simp only [← hbase, ← hdir, ← hlead, ← hbody]
      rw [if_neg hdot]

theorem hasExtension_unique {path s e s' e' : Line} (h : HasExtension path s e) (h' : HasExtension path s' e') : s = s' := by
  obtain ⟨h1, h2, -, -⟩ := h
  obtain ⟨h1', h2', -, -⟩ := h'
  rw [h1] at h1'
  have key : ∀ (s e s' e' : Line), '.' ∉ e → '.' ∉ e' → s ++ '.' :: e = s' ++ '.' :: e' → s = s' := by
    intro s e s' e' h h' heq
    rw [List.append_eq_append_iff] at heq
    rcases heq with ⟨a, ha, hb⟩ | ⟨a, ha, hb⟩
    · cases a with
      | nil => simpa using ha.symm
      | cons x xs =>
        simp only [List.cons_append, List.cons.injEq] at hb
        exact absurd (by rw [hb.2]; simp) h
    · cases a with
      | nil => simpa using ha
      | cons x xs =>
        simp only [List.cons_append, List.cons.injEq] at hb
        exact absurd (by rw [hb.2]; simp) h'
  exact key _ _ _ _ h2 h2' h1'

theorem rpbPath_iff (path q : Line) : IsRpbOf path q ↔ rpbPath path = q := by
  unfold rpbPath IsRpbOf
  rcases splitext_spec path with ⟨ext, h⟩ | ⟨h, e⟩
  · constructor
    · rintro (⟨s, e, h', rfl⟩ | ⟨h', -⟩)
      · rw [hasExtension_unique h h']
      · exact absurd h (h' _ _)
    · rintro rfl
      exact .inl ⟨_, _, h, rfl⟩
  · constructor
    · rintro (⟨s, e, h', rfl⟩ | ⟨h', rfl⟩)
      · exact absurd h' (h _ _)
      · rw [e]
    · rintro rfl
      exact .inr ⟨h, by rw [e]⟩

end Shareloc
