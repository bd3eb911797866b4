import Verif.Model.GridFile
import Verif.Props.Grid

/-!
# C81: loading a grid file
-/

set_option linter.unusedSectionVars false

namespace Shareloc
variable {K : Type} [Field K] [LinearOrder K] [IsStrictOrderedRing K] [FloorRing K]

/-! ### Specification -/

/-- The value of a key in the file: the one of the last namespace that has it. -/
def GridFile.Value (f : GridFile K) (k v : Line) : Prop :=
  ∃ before d after, f.tags :: f.namespaces = before ++ d :: after ∧ (k, v) ∈ d ∧ ∀ d' ∈ after, ∀ w, (k, w) ∉ d'

/-- A file in the documented format: `n` layers at the altitudes `h 0, h 1, ...` in this order in the file, each of two bands
(longitude, latitude) or three with a status band, `ALTITUDE_Bx` tags for at least one band of each layer, and a `REF` tag with the
EPSG code, or with another description of the coordinate system, which stands for EPSG 4326.  The tags may be in any order and in any namespace. -/
structure GridFile.Documented (env : GridEnv K) (f : GridFile K) (n : ℕ) (status : Bool) (h : ℕ → K) (epsg : ℤ) : Prop where
  /-- tags are dictionaries -/
  keys : ∀ d ∈ f.tags :: f.namespaces, (d.map (·.1)).Nodup
  driver : f.driver = "GTiff".toList
  bands : f.bands.length = n * (2 + status.toNat)
  status_iff : (∃ k, f.Value k "status".toList) ↔ status = true
  altitude : ∀ k v, f.Value k v → "ALTITUDE".toList <:+: k → ∃ (x : Line) (b : ℕ), k = "ALTITUDE_B".toList ++ x ∧ 'B' ∉ x ∧
    env.toInt x = some (b : ℤ) ∧ b < f.bands.length ∧ env.toFloat v = some (h (b / (2 + status.toNat)))
  every_layer : ∀ i < n, ∃ (x v : Line) (b : ℕ), f.Value ("ALTITUDE_B".toList ++ x) v ∧ env.toInt x = some (b : ℤ) ∧ 'B' ∉ x ∧
    b / (2 + status.toNat) = i
  ref : ∀ k v, f.Value k v → "REF".toList <:+ k → (∃ x, v = "EPSG:".toList ++ x ∧ ':' ∉ x ∧ env.toInt x = some epsg) ∨
    ((∀ x, v ≠ "EPSG:".toList ++ x) ∧ epsg = 4326)
  has_ref : ∃ k v, f.Value k v ∧ "REF".toList <:+ k

/-! ### Dictionaries -/

theorem tags_insert (d : Tags) (kv : Line × Line) (hd : (d.map (·.1)).Nodup) :
    ((Tags.insert d kv).map (·.1)).Nodup ∧ ∀ e, e ∈ Tags.insert d kv ↔ e = kv ∨ (e ∈ d ∧ e.1 ≠ kv.1) := by
  unfold Tags.insert
  split
  · rename_i hk
    have hkeys : (d.map fun e => if e.1 = kv.1 then kv else e).map (·.1) = d.map (·.1) := by
      rw [List.map_map]
      apply List.map_congr_left
      intro e _
      by_cases he : e.1 = kv.1 <;> simp [he]
    refine ⟨by rw [hkeys]; exact hd, ?_⟩
    intro e
    rw [List.mem_map]
    constructor
    · rintro ⟨a, ha, rfl⟩
      by_cases he : a.1 = kv.1
      · simp [he]
      · rw [if_neg he]
        exact Or.inr ⟨ha, he⟩
    · rintro (rfl | ⟨h1, h2⟩)
      · rw [List.mem_map] at hk
        obtain ⟨a, ha, hae⟩ := hk
        exact ⟨a, ha, by simp [hae]⟩
      · exact ⟨e, h1, by simp [h2]⟩
  · rename_i hk
    constructor
    · rw [List.map_append, List.nodup_append]
      refine ⟨hd, by simp, ?_⟩
      intro a ha b hb
      simp only [List.map_cons, List.map_nil, List.mem_singleton] at hb
      rw [hb]
      rintro rfl
      exact hk ha
    · intro e
      rw [List.mem_append, List.mem_singleton]
      constructor
      · rintro (h | h)
        · right
          refine ⟨h, ?_⟩
          intro he
          exact hk (List.mem_map.2 ⟨e, h, he⟩)
        · exact Or.inl h
      · rintro (h | h)
        · exact Or.inr h
        · exact Or.inl h.1

theorem tags_update (o : Tags) : ∀ (d : Tags), (d.map (·.1)).Nodup → (o.map (·.1)).Nodup →
    ((Tags.update d o).map (·.1)).Nodup ∧
      ∀ e, e ∈ Tags.update d o ↔ e ∈ o ∨ (e ∈ d ∧ ∀ w, (e.1, w) ∉ o) := by
  induction o with
  | nil => intro d hd _; exact ⟨hd, fun e => by simp [Tags.update]⟩
  | cons kv o ih =>
    intro d hd ho
    rw [List.map_cons, List.nodup_cons] at ho
    obtain ⟨h1, h2⟩ := tags_insert d kv hd
    obtain ⟨h3, h4⟩ := ih (Tags.insert d kv) h1 ho.2
    refine ⟨h3, ?_⟩
    intro e
    have : Tags.update d (kv :: o) = Tags.update (Tags.insert d kv) o := rfl
    rw [this, h4, h2]
    constructor
    · rintro (h | ⟨rfl | ⟨h, hne⟩, h'⟩)
      · exact Or.inl (List.mem_cons_of_mem _ h)
      · exact Or.inl (by simp)
      · right
        refine ⟨h, ?_⟩
        intro w hw
        rcases List.mem_cons.1 hw with hw | hw
        · exact hne (by rw [← hw])
        · exact h' w hw
    · rintro (h | ⟨h, h'⟩)
      · rcases List.mem_cons.1 h with rfl | h
        · right
          refine ⟨Or.inl rfl, ?_⟩
          intro w hw
          exact ho.1 (List.mem_map.2 ⟨_, hw, rfl⟩)
        · exact Or.inl h
      · right
        refine ⟨Or.inr ⟨h, ?_⟩, fun w hw => h' w (List.mem_cons_of_mem _ hw)⟩
        intro he
        exact h' kv.2 (by rw [he]; simp)

/-- The merged metadata are the values of the file. -/
theorem metadata_mem (f : GridFile K) (hd : ∀ d ∈ f.tags :: f.namespaces, (d.map (·.1)).Nodup) (k v : Line) :
    (k, v) ∈ f.namespaces.foldl Tags.update f.tags ↔ f.Value k v := by
  have main : ∀ (ns : List Tags) (t : Tags), (∀ d ∈ t :: ns, (d.map (·.1)).Nodup) →
      ((k, v) ∈ ns.foldl Tags.update t ↔
        ∃ before d after, t :: ns = before ++ d :: after ∧ (k, v) ∈ d ∧ ∀ d' ∈ after, ∀ w, (k, w) ∉ d') := by
    intro ns
    induction ns with
    | nil =>
      intro t _
      constructor
      · intro h; exact ⟨[], t, [], rfl, h, by simp⟩
      · rintro ⟨before, d, after, he, hm, -⟩
        have : before = [] ∧ d = t := by
          rcases before with _ | ⟨b, bs⟩
          · simp at he; exact ⟨rfl, he.1.symm⟩
          · simp at he
        rw [this.2] at hm
        exact hm
    | cons o ns ih =>
      intro t ht
      have hup := tags_update o t (ht t (by simp)) (ht o (by simp))
      rw [List.foldl_cons, ih _ ?_]
      · constructor
        · rintro ⟨before, d, after, he, hm, hl⟩
          rcases before with _ | ⟨b, bs⟩
          · simp only [List.nil_append, List.cons.injEq] at he
            obtain ⟨rfl, rfl⟩ := he
            rcases (hup.2 (k, v)).1 hm with h | ⟨h, h'⟩
            · exact ⟨[t], o, ns, rfl, h, hl⟩
            · refine ⟨[], t, o :: ns, rfl, h, ?_⟩
              intro d' hd' w
              rcases List.mem_cons.1 hd' with rfl | hd'
              · exact h' w
              · exact hl d' hd' w
          · simp only [List.cons_append, List.cons.injEq] at he
            exact ⟨t :: o :: bs, d, after, by simp [he.2], hm, hl⟩
        · rintro ⟨before, d, after, he, hm, hl⟩
          rcases before with _ | ⟨b, bs⟩
          · simp only [List.nil_append, List.cons.injEq] at he
            obtain ⟨rfl, rfl⟩ := he
            refine ⟨[], _, ns, rfl, (hup.2 (k, v)).2 (Or.inr ⟨hm, fun w => hl o (by simp) w⟩), ?_⟩
            exact fun d' hd' w => hl d' (List.mem_cons_of_mem _ hd') w
          · simp only [List.cons_append, List.cons.injEq] at he
            obtain ⟨rfl, he⟩ := he
            rcases bs with _ | ⟨b', bs⟩
            · simp only [List.nil_append, List.cons.injEq] at he
              obtain ⟨rfl, rfl⟩ := he
              exact ⟨[], _, ns, rfl, (hup.2 (k, v)).2 (Or.inl hm), hl⟩
            · simp only [List.cons_append, List.cons.injEq] at he
              exact ⟨Tags.update t o :: bs, d, after, by simp [he.2], hm, hl⟩
      · intro d hd'
        rcases List.mem_cons.1 hd' with rfl | hd'
        · exact hup.1
        · exact ht d (by simp [hd'])
  exact main f.namespaces f.tags hd

/-! ### Texts -/

theorem isInfix_iff (sub s : Line) : isInfix sub s = true ↔ sub <:+: s := by
  induction s with
  | nil => simp [isInfix]
  | cons c cs ih =>
    rw [isInfix, Bool.or_eq_true, List.isPrefixOf_iff_prefix, ih, List.infix_cons_iff]

theorem splitChar_none (sep : Char) (s : Line) (h : sep ∉ s) : splitChar sep s = [s] := by
  induction s with
  | nil => rfl
  | cons c cs ih =>
    rw [List.mem_cons, not_or] at h
    rw [splitChar, if_neg (Ne.symm h.1), ih h.2]

theorem splitChar_two (sep : Char) (a b : Line) (ha : sep ∉ a) (hb : sep ∉ b) :
    splitChar sep (a ++ sep :: b) = [a, b] := by
  induction a with
  | nil => rw [List.nil_append, splitChar, if_pos rfl, splitChar_none sep b hb]
  | cons c cs ih =>
    rw [List.mem_cons, not_or] at ha
    rw [List.cons_append, splitChar, if_neg (Ne.symm ha.1), ih ha.2]

theorem secondPart_B (x : Line) (hx : 'B' ∉ x) : secondPart 'B' ("ALTITUDE_B".toList ++ x) = .ok x := by
  have h : "ALTITUDE_B".toList ++ x = "ALTITUDE_".toList ++ 'B' :: x := by
    rw [show "ALTITUDE_B".toList = "ALTITUDE_".toList ++ ['B'] by decide, List.append_assoc]; rfl
  rw [secondPart, h, splitChar_two 'B' _ x (by decide) hx]

theorem secondPart_colon (x : Line) (hx : ':' ∉ x) : secondPart ':' ("EPSG:".toList ++ x) = .ok x := by
  have h : "EPSG:".toList ++ x = "EPSG".toList ++ ':' :: x := by
    rw [show "EPSG:".toList = "EPSG".toList ++ [':'] by decide, List.append_assoc]; rfl
  rw [secondPart, h, splitChar_two ':' _ x (by decide) hx]

/-! ### Loops -/

theorem altitudeArray_ok (env : GridEnv K) (status : Bool) (n : ℕ) (h : ℕ → K) (md : Tags)
    (hmd : ∀ e ∈ md, "ALTITUDE".toList <:+: e.1 → ∃ (x : Line) (b : ℕ), e.1 = "ALTITUDE_B".toList ++ x ∧ 'B' ∉ x ∧
      env.toInt x = some (b : ℤ) ∧ b < n * (2 + status.toNat) ∧ env.toFloat e.2 = some (h (b / (2 + status.toNat)))) :
    ∀ arr : List K, arr.length = n → ∃ arr', altitudeArray env status arr md = .ok arr' ∧ arr'.length = n ∧
      ∀ i < n, ((∃ (x v : Line) (b : ℕ), ("ALTITUDE_B".toList ++ x, v) ∈ md ∧ 'B' ∉ x ∧ env.toInt x = some (b : ℤ) ∧
        b / (2 + status.toNat) = i) ∨ arr.getD i 0 = h i) → arr'.getD i 0 = h i := by
  induction md with
  | nil =>
    intro arr ha
    refine ⟨arr, rfl, ha, ?_⟩
    rintro i _ (⟨x, v, b, hm, -⟩ | h)
    · simp at hm
    · exact h
  | cons e es ih =>
    intro arr ha
    have hes := ih (fun e' he' => hmd e' (List.mem_cons_of_mem _ he'))
    by_cases hA : "ALTITUDE".toList <:+: e.1
    · obtain ⟨x, b, hk, hB, hint, hlt, hfl⟩ := hmd e (by simp) hA
      have hdiv : b / (2 + status.toNat) < n := Nat.div_lt_of_lt_mul (by rw [Nat.mul_comm]; exact hlt)
      have htd : (b : ℤ).tdiv ((2 + status.toNat : ℕ) : ℤ) = ((b / (2 + status.toNat) : ℕ) : ℤ) := by
        rw [Int.tdiv_eq_ediv_of_nonneg (by positivity)]; norm_cast
      have hstep : altitudeStep env status arr e = .ok (arr.set (b / (2 + status.toNat)) (h (b / (2 + status.toNat)))) := by
        have hi : storeIndex arr.length ((b : ℤ).tdiv ((2 + status.toNat : ℕ) : ℤ)) = .ok (b / (2 + status.toNat)) := by
          rw [htd, storeIndex, if_pos (by positivity), if_pos (by rw [ha]; exact_mod_cast hdiv), Int.toNat_natCast]
        have h1 : secondPart 'B' e.1 = .ok x := by rw [hk]; exact secondPart_B x hB
        have h2 : gridInt env x = .ok (b : ℤ) := by rw [gridInt, hint]
        have h3 : gridFloat env e.2 = .ok (h (b / (2 + status.toNat))) := by rw [gridFloat, hfl]
        rw [altitudeStep, if_pos ((isInfix_iff _ _).2 hA), h1]
        simp only [bind, Except.bind, h2, h3]
        rw [hi]
        rfl
      obtain ⟨arr', he, hl, hv⟩ := hes (arr.set (b / (2 + status.toNat)) (h (b / (2 + status.toNat))))
        (by rw [List.length_set]; exact ha)
      refine ⟨arr', by rw [altitudeArray, hstep]; exact he, hl, ?_⟩
      intro i hi hor
      apply hv i hi
      by_cases hbi : b / (2 + status.toNat) = i
      · right
        rw [hbi]
        simp [List.getD_eq_getElem?_getD, ha, hi]
      · rcases hor with ⟨x', v', b', hm, hB', hint', hdiv'⟩ | h0
        · rcases List.mem_cons.1 hm with hm | hm
          · exfalso
            rw [← hm] at hk
            have : x' = x := List.append_cancel_left hk
            rw [this, hint] at hint'
            have : b = b' := by exact_mod_cast (Option.some.inj hint')
            exact hbi (this ▸ hdiv')
          · exact Or.inl ⟨x', v', b', hm, hB', hint', hdiv'⟩
        · right
          simp only [List.getD_eq_getElem?_getD, List.getElem?_set, hbi, if_false] at h0 ⊢
          exact h0
    · have hstep : altitudeStep env status arr e = .ok arr := by
        rw [altitudeStep, if_neg (fun h' => hA ((isInfix_iff _ _).1 h'))]
      obtain ⟨arr', he, hl, hv⟩ := hes arr ha
      refine ⟨arr', by rw [altitudeArray, hstep]; exact he, hl, ?_⟩
      intro i hi hor
      apply hv i hi
      rcases hor with ⟨x', v', b', hm, hB', hint', hdiv'⟩ | h0
      · rcases List.mem_cons.1 hm with hm | hm
        · exact absurd (by rw [← hm]; exact (List.IsInfix.trans (by decide : "ALTITUDE".toList <:+: "ALTITUDE_B".toList) (List.infix_append' [] _ _))) hA
        · exact Or.inl ⟨x', v', b', hm, hB', hint', hdiv'⟩
      · exact Or.inr h0

theorem refLoop_ok (env : GridEnv K) (epsg : ℤ) (md : Tags)
    (hmd : ∀ e ∈ md, "REF".toList <:+ e.1 → (∃ x, e.2 = "EPSG:".toList ++ x ∧ ':' ∉ x ∧ env.toInt x = some epsg) ∨
      ((∀ x, e.2 ≠ "EPSG:".toList ++ x) ∧ epsg = 4326)) :
    ∀ cur : Option ℤ, (cur = some epsg ∨ ∃ e ∈ md, "REF".toList <:+ e.1) → refLoop env cur md = .ok (some epsg) := by
  induction md with
  | nil =>
    rintro cur (h | ⟨e, he, -⟩)
    · rw [h]; rfl
    · simp at he
  | cons e es ih =>
    intro cur hor
    have hes := ih (fun e' he' => hmd e' (List.mem_cons_of_mem _ he'))
    by_cases hR : "REF".toList <:+ e.1
    · have hstep : refStep env cur e = .ok (some epsg) := by
        obtain ⟨x, hv, hx, hi⟩ | ⟨hv, he⟩ := hmd e (by simp) hR
        swap
        · rw [refStep, if_pos (List.isSuffixOf_iff_suffix.2 hR),
            if_neg (fun h' => by obtain ⟨x, hx⟩ := List.isPrefixOf_iff_prefix.1 h'; exact hv x hx.symm), he]
        have h1 : secondPart ':' e.2 = .ok x := by rw [hv]; exact secondPart_colon x hx
        have h2 : gridInt env x = .ok epsg := by rw [gridInt, hi]
        rw [refStep, if_pos (List.isSuffixOf_iff_suffix.2 hR),
          if_pos (List.isPrefixOf_iff_prefix.2 ⟨x, hv.symm⟩), h1]
        simp only [bind, Except.bind, h2]
        rfl
      rw [refLoop, hstep]
      exact hes _ (Or.inl rfl)
    · have hstep : refStep env cur e = .ok cur := by
        rw [refStep, if_neg (fun h' => hR (List.isSuffixOf_iff_suffix.1 h'))]
      rw [refLoop, hstep]
      apply hes
      rcases hor with h | ⟨e', he', hr⟩
      · exact Or.inl h
      · rcases List.mem_cons.1 he' with rfl | he'
        · exact absurd hr hR
        · exact Or.inr ⟨e', he', hr⟩

/-! ### Loading -/

/-- What is loaded: the layers, from the highest to the lowest, with the bands of the layer of the file. -/
theorem gridLoad_documented (env : GridEnv K) (hs : IsArgsort env.argsort) (f : GridFile K) (n : ℕ) (status : Bool) (h : ℕ → K)
    (epsg : ℤ) (hf : f.Documented env n status h epsg) (hn : 1 ≤ n) (hr : f.height ≠ 1) (hc : f.width ≠ 1)
    (hinj : ∀ a < n, ∀ b < n, h a = h b → a = b) :
    ∃ (g : MultiGrid K) (σ : List ℕ), gridLoad env f = .ok (g, some epsg) ∧ σ.Perm (List.range n) ∧ g.nbalt = n ∧
      g.nbrow = f.height ∧ g.nbcol = f.width ∧ g.row0 = f.transform.f ∧ g.col0 = f.transform.c ∧
      g.steprow = f.transform.e ∧ g.stepcol = f.transform.a ∧ g.geographic = decide (epsg = 4326) ∧ Decreasing n g.alts ∧
      ∀ i k, σ[i]? = some k → g.alts i = h k ∧
        g.lon i = f.bands.getD (k * (2 + status.toNat)) (fun _ _ => 0) ∧
        g.lat i = f.bands.getD (k * (2 + status.toNat) + 1) (fun _ _ => 0) := by
  set md := f.namespaces.foldl Tags.update f.tags with hmd
  have hmem : ∀ k v, (k, v) ∈ md ↔ f.Value k v := fun k v => metadata_mem f hf.keys k v
  have hst : checkStatusBand md = status := by
    have : checkStatusBand md = true ↔ status = true := by
      rw [← hf.status_iff, checkStatusBand, List.any_eq_true]
      constructor
      · rintro ⟨e, he, hd⟩
        exact ⟨e.1, (hmem _ _).1 (by rw [← of_decide_eq_true hd]; exact he)⟩
      · rintro ⟨k, hk⟩
        exact ⟨(k, "status".toList), (hmem _ _).2 hk, by simp⟩
    cases hb : checkStatusBand md <;> cases hb' : status <;> simp_all
  have hlen : f.bands.length / (2 + status.toNat) = n := by
    rw [hf.bands]; exact Nat.mul_div_cancel _ (by omega)
  obtain ⟨arr, harr, hal, hav⟩ := altitudeArray_ok env status n h md
    (fun e he hA => by
      obtain ⟨x, b, h1, h2, h3, h4, h5⟩ := hf.altitude e.1 e.2 ((hmem _ _).1 he) hA
      exact ⟨x, b, h1, h2, h3, by rw [← hf.bands]; exact h4, h5⟩)
    (List.replicate n 0) (by simp)
  have hget : ∀ i < n, arr.getD i 0 = h i := by
    intro i hi
    apply hav i hi
    left
    obtain ⟨x, v, b, h1, h2, h3, h4⟩ := hf.every_layer i hi
    exact ⟨x, v, b, (hmem _ _).2 h1, h3, h2, h4⟩
  have href : refLoop env none md = .ok (some epsg) := by
    apply refLoop_ok env epsg md
    · intro e he hR
      exact hf.ref e.1 e.2 ((hmem _ _).1 he) hR
    · right
      obtain ⟨k, v, h1, h2⟩ := hf.has_ref
      exact ⟨(k, v), (hmem _ _).2 h1, h2⟩
  obtain ⟨hp, ho⟩ := hs arr
  rw [hal] at hp
  have hσ : ((env.argsort arr).reverse).Perm (List.range n) := (List.reverse_perm _).trans hp
  have hb1 : f.bands.length ≠ 1 := by
    rw [hf.bands]
    intro h1
    have : 2 ≤ n * (2 + status.toNat) := by nlinarith [Nat.zero_le status.toNat]
    omega
  refine ⟨{ nbalt := n, nbrow := f.height, nbcol := f.width, alts := fun i => arr.getD ((env.argsort arr).reverse.getD i 0) 0,
            lon := fun i => f.bands.getD ((env.argsort arr).reverse.getD i 0 * (2 + status.toNat)) (fun _ _ => 0),
            lat := fun i => f.bands.getD ((env.argsort arr).reverse.getD i 0 * (2 + status.toNat) + 1) (fun _ _ => 0),
            row0 := f.transform.f, col0 := f.transform.c, steprow := f.transform.e, stepcol := f.transform.a,
            geographic := decide ((some epsg : Option ℤ) = some 4326) }, (env.argsort arr).reverse, ?_, hσ, ?_⟩
  · unfold gridLoad
    rw [if_neg (not_not.2 hf.driver), ← hmd]
    simp only [hst, hlen, harr, href]
    rw [if_neg (by rintro (h1 | h1 | h1) <;> contradiction)]
  · refine ⟨rfl, rfl, rfl, rfl, rfl, rfl, rfl, ?_, ?_, ?_⟩
    · by_cases he : epsg = 4326 <;> simp [he]
    · intro i j hij hj
      have hso : ((env.argsort arr).reverse.map fun i => arr.getD i 0).Pairwise (· ≥ ·) := by
        rw [List.map_reverse, List.pairwise_reverse]
        exact ho
      have hl : (env.argsort arr).reverse.length = n := by rw [hσ.length_eq, List.length_range]
      have hi' : i < (env.argsort arr).reverse.length := by omega
      have hj' : j < (env.argsort arr).reverse.length := by omega
      have hge := (List.pairwise_iff_getElem.1 hso) i j (by simpa using hi') (by simpa using hj') hij
      simp only [List.getElem_map] at hge
      have hin : ∀ m (hm : m < (env.argsort arr).reverse.length), (env.argsort arr).reverse[m] < n := by
        intro m hm
        have := hσ.mem_iff.1 (List.getElem_mem hm)
        simpa using this
      have e1 : ∀ m (hm : m < (env.argsort arr).reverse.length),
          (env.argsort arr).reverse.getD m 0 = (env.argsort arr).reverse[m] := by
        intro m hm
        rw [List.getD_eq_getElem?_getD, List.getElem?_eq_getElem hm, Option.getD_some]
      show arr.getD ((env.argsort arr).reverse.getD j 0) 0 < arr.getD ((env.argsort arr).reverse.getD i 0) 0
      rw [e1 i hi', e1 j hj']
      refine lt_of_le_of_ne hge ?_
      intro heq
      rw [hget _ (hin j hj'), hget _ (hin i hi')] at heq
      have := hinj _ (hin j hj') _ (hin i hi') heq
      have hnd : (env.argsort arr).reverse.Nodup := hσ.nodup_iff.2 List.nodup_range
      have := (hnd.getElem_inj_iff).1 this
      omega
    · intro i k hik
      have hk : k < n := by
        have := hσ.mem_iff.1 (List.mem_of_getElem? hik)
        simpa using this
      have e1 : (env.argsort arr).reverse.getD i 0 = k := by
        rw [List.getD_eq_getElem?_getD, hik]; rfl
      refine ⟨?_, ?_, ?_⟩
      · show arr.getD ((env.argsort arr).reverse.getD i 0) 0 = h k
        rw [e1]; exact hget k hk
      · show f.bands.getD ((env.argsort arr).reverse.getD i 0 * _) _ = _
        rw [e1]
      · show f.bands.getD ((env.argsort arr).reverse.getD i 0 * _ + 1) _ = _
        rw [e1]

/-- C81. A grid file in the documented format, with at least two layers, rows and columns and distinct altitudes, is loaded whatever
the order of its layers, of its tags and their namespaces, with or without status bands; the EPSG code is the one of the `REF` tag; and
the direct location of the node `(i, j)` (position `origin + index * step`) at the altitude of a layer is the longitude and latitude
stored in the two bands of this layer, NaN if they are not valid ones in a geographic grid. -/
theorem C81_documented_grid (env : GridEnv K) (hs : IsArgsort env.argsort) (f : GridFile K) (n : ℕ) (status : Bool) (h : ℕ → K)
    (epsg : ℤ) (hf : f.Documented env n status h epsg) (hn : 2 ≤ n) (hr : 2 ≤ f.height) (hc : 2 ≤ f.width)
    (hinj : ∀ a < n, ∀ b < n, h a = h b → a = b) (hsr : f.transform.e ≠ 0) (hsc : f.transform.a ≠ 0) :
    ∃ g : MultiGrid K, gridLoad env f = .ok (g, some epsg) ∧ g.nbalt = n ∧
      ∀ k < n, ∀ i < f.height, ∀ j < f.width, ∀ lon lat : ℕ → ℕ → K,
        f.bands[k * (2 + status.toNat)]? = some lon → f.bands[k * (2 + status.toNat) + 1]? = some lat →
        gridDirectLocH g [some (f.transform.f + f.transform.e * i)] [some (f.transform.c + f.transform.a * j)] [some (h k)] =
          .ok [if epsg = 4326 ∧ ¬ (|lon i j| ≤ 180 ∧ |lat i j| ≤ 90) then ⟨none, none, none⟩
            else ⟨some (lon i j), some (lat i j), some (h k)⟩] := by
  obtain ⟨g, σ, hload, hσ, e1, e2, e3, e4, e5, e6, e7, e8, hdec, hlay⟩ :=
    gridLoad_documented env hs f n status h epsg hf (by omega) (by omega) (by omega) hinj
  refine ⟨g, hload, e1, ?_⟩
  intro k hk i hi j hj lon lat hlon hlat
  have hmem : k ∈ σ := hσ.mem_iff.2 (by simpa using hk)
  obtain ⟨p, hp⟩ := List.getElem?_of_mem hmem
  obtain ⟨a1, a2, a3⟩ := hlay p k hp
  have hpn : p < n := by
    have := (List.getElem?_eq_some_iff.1 hp).1
    rw [hσ.length_eq, List.length_range] at this
    exact this
  have hnode := C31_exact_at_nodes g (by omega) (by omega) (by omega) (by rw [e1]; exact hdec) (by rw [e6]; exact hsr)
    (by rw [e7]; exact hsc) p i j (by omega) (by omega) (by omega)
  rw [e4, e5, e6, e7, e8, a1, a2, a3] at hnode
  simp only [gridDirectLocH, broadcastAlt, List.length_cons, List.length_nil, if_true, List.zip_cons_cons, List.zip_nil_right,
    List.map_cons, List.map_nil]
  rw [hnode]
  simp only [List.getD_eq_getElem?_getD, hlon, hlat, Option.getD_some, decide_eq_true_eq]

/-- Only the layers of the grid matter for a location. -/
theorem gridPoint_congr (g g' : MultiGrid K) (hn : 2 ≤ g.nbalt) (h1 : g'.nbalt = g.nbalt) (h2 : g'.nbrow = g.nbrow)
    (h3 : g'.nbcol = g.nbcol) (h4 : g'.row0 = g.row0) (h5 : g'.col0 = g.col0) (h6 : g'.steprow = g.steprow)
    (h7 : g'.stepcol = g.stepcol) (h8 : g'.geographic = g.geographic) (ha : ∀ i < g.nbalt, g'.alts i = g.alts i)
    (hlon : ∀ i < g.nbalt, g'.lon i = g.lon i) (hlat : ∀ i < g.nbalt, g'.lat i = g.lat i) (row col alt : Option K) :
    gridPoint g' row col alt = gridPoint g row col alt := by
  have hup : ∀ a, altUp g'.alts g.nbalt a = altUp g.alts g.nbalt a := by
    intro a
    unfold altUp
    have : (List.range g.nbalt).filter (fun i => decide (g'.alts i ≥ a)) =
        (List.range g.nbalt).filter (fun i => decide (g.alts i ≥ a)) := by
      apply List.filter_congr
      intro i hi
      rw [ha i (by simpa using hi)]
    rw [this]
  have hlt : ∀ a, altUp g.alts g.nbalt a ≤ g.nbalt - 2 := fun a => min_le_right _ _
  have hnorm : ∀ a, altNorm g' a = altNorm g a := by
    intro a
    have := hlt a
    simp only [altNorm, h1, hup]
    rw [ha _ (by omega), ha _ (by omega)]
  have hcell : ∀ t : K, gridCell g.nbalt t ≤ g.nbalt - 2 := by
    intro t
    unfold gridCell
    rw [Int.toNat_le]
    have : ((g.nbalt - 2 : ℕ) : ℤ) = (g.nbalt : ℤ) - 2 := by omega
    rw [this]
    exact max_le (by omega) (min_le_right _ _)
  have hint : ∀ (d d' : ℕ → ℕ → ℕ → K), (∀ i < g.nbalt, d' i = d i) → ∀ a r c, gridInterp g' d' a r c = gridInterp g d a r c := by
    intro d d' hd a r c
    have := hcell a
    simp only [gridInterp, h1, h2, h3, h4, h5, h6, h7]
    have hl : ∀ F F' : ℕ → K, (∀ i < g.nbalt, F' i = F i) → lerp g.nbalt F' a = lerp g.nbalt F a := by
      intro F F' hF
      simp only [lerp]
      rw [hF _ (by omega), hF _ (by omega)]
    exact hl _ _ fun i hi => by rw [hd i hi]
  have l1 := hint g.lon g'.lon hlon
  have l2 := hint g.lat g'.lat hlat
  unfold gridPoint
  rw [h8]
  cases row <;> cases col <;> cases alt <;> simp only [l1, l2, hnorm]

/-- C81. The order of the layers in the file does not matter: two documented files with the same layers (altitude, longitudes and
latitudes), sizes, geotransform and EPSG code give models with the same direct location of every point at every altitude. -/
theorem C81_order_of_layers (env : GridEnv K) (hs : IsArgsort env.argsort) (f f' : GridFile K) (n : ℕ) (status status' : Bool)
    (h h' : ℕ → K) (epsg : ℤ) (hf : f.Documented env n status h epsg) (hf' : f'.Documented env n status' h' epsg)
    (hn : 2 ≤ n) (hr : f.height ≠ 1) (hc : f.width ≠ 1) (hr' : f'.height = f.height) (hc' : f'.width = f.width)
    (ht : f'.transform = f.transform) (hinj : ∀ a < n, ∀ b < n, h a = h b → a = b)
    (hinj' : ∀ a < n, ∀ b < n, h' a = h' b → a = b)
    (hsame : ∀ k < n, ∃ k' < n, h' k' = h k ∧
      f'.bands[k' * (2 + status'.toNat)]? = f.bands[k * (2 + status.toNat)]? ∧
      f'.bands[k' * (2 + status'.toNat) + 1]? = f.bands[k * (2 + status.toNat) + 1]?) :
    ∃ g g' : MultiGrid K, gridLoad env f = .ok (g, some epsg) ∧ gridLoad env f' = .ok (g', some epsg) ∧
      ∀ row col alt, gridDirectLocH g' row col alt = gridDirectLocH g row col alt := by
  obtain ⟨g, σ, hload, hσ, e1, e2, e3, e4, e5, e6, e7, e8, hdec, hlay⟩ :=
    gridLoad_documented env hs f n status h epsg hf (by omega) hr hc hinj
  obtain ⟨g', σ', hload', hσ', d1, d2, d3, d4, d5, d6, d7, d8, hdec', hlay'⟩ :=
    gridLoad_documented env hs f' n status' h' epsg hf' (by omega) (by omega) (by omega) hinj'
  refine ⟨g, g', hload, hload', ?_⟩
  have hlen : σ.length = n := by rw [hσ.length_eq, List.length_range]
  have hlen' : σ'.length = n := by rw [hσ'.length_eq, List.length_range]
  -- the layer of each index in both files
  have hidx : ∀ i < n, ∃ k < n, σ[i]? = some k := by
    intro i hi
    refine ⟨σ[i]'(by omega), ?_, List.getElem?_eq_getElem (by omega)⟩
    simpa using hσ.mem_iff.1 (List.getElem_mem (by omega : i < σ.length))
  have hpos' : ∀ k < n, ∃ j < n, σ'[j]? = some k := by
    intro k hk
    obtain ⟨j, hj⟩ := List.getElem?_of_mem (hσ'.mem_iff.2 (by simpa using hk) : k ∈ σ')
    exact ⟨j, by have := (List.getElem?_eq_some_iff.1 hj).1; omega, hj⟩
  -- each layer of g is the layer of the same rank of g'
  have hmatch : ∀ i < n, ∃ j < n, g'.alts j = g.alts i ∧ g'.lon j = g.lon i ∧ g'.lat j = g.lat i := by
    intro i hi
    obtain ⟨k, hk, hik⟩ := hidx i hi
    obtain ⟨k', hk', s1, s2, s3⟩ := hsame k hk
    obtain ⟨j, hj, hjk⟩ := hpos' k' hk'
    obtain ⟨a1, a2, a3⟩ := hlay i k hik
    obtain ⟨b1, b2, b3⟩ := hlay' j k' hjk
    refine ⟨j, hj, by rw [a1, b1, s1], ?_, ?_⟩
    · rw [a2, b2, List.getD_eq_getElem?_getD, List.getD_eq_getElem?_getD, s2]
    · rw [a3, b3, List.getD_eq_getElem?_getD, List.getD_eq_getElem?_getD, s3]
  have hrank : ∀ i < n, ∀ j < n, g'.alts j = g.alts i → j = i := by
    choose! φ hφ using hmatch
    have hmono : ∀ a b, a < b → b < n → φ a < φ b := by
      intro a b hab hb
      by_contra hle
      push Not at hle
      have hlt := hdec a b hab hb
      rw [← (hφ a (by omega)).2.1, ← (hφ b hb).2.1] at hlt
      rcases Nat.lt_or_eq_of_le hle with h1 | h1
      · exact absurd (hdec' (φ b) (φ a) h1 (hφ a (by omega)).1) (not_lt.2 hlt.le)
      · rw [h1] at hlt; exact lt_irrefl _ hlt
    have hge : ∀ a < n, a ≤ φ a := by
      intro a
      induction a with
      | zero => intro _; omega
      | succ m ih =>
        intro hm
        have := ih (by omega)
        have := hmono m (m + 1) (by omega) hm
        omega
    have hle : ∀ d a, a + d + 1 = n → φ a ≤ a := by
      intro d
      induction d with
      | zero =>
        intro a ha
        have := (hφ a (by omega)).1
        omega
      | succ m ih =>
        intro a ha
        have := ih (a + 1) (by omega)
        have := hmono a (a + 1) (by omega) (by omega)
        omega
    have hid : ∀ a < n, φ a = a := fun a ha => le_antisymm (hle (n - a - 1) a (by omega)) (hge a ha)
    intro i hi j hj hji
    rw [← (hφ i hi).2.1, hid i hi] at hji
    rcases Nat.lt_trichotomy j i with h1 | h1 | h1
    · exact absurd hji (ne_of_gt (hdec' j i h1 hi))
    · exact h1
    · exact absurd hji (ne_of_lt (hdec' i j h1 hj))
  have hall : ∀ i < n, g'.alts i = g.alts i ∧ g'.lon i = g.lon i ∧ g'.lat i = g.lat i := by
    intro i hi
    obtain ⟨j, hj, h1, h2, h3⟩ := hmatch i hi
    have := hrank i hi j hj h1
    subst this
    exact ⟨h1, h2, h3⟩
  intro row col alt
  have hpt : ∀ r c a, gridPoint g' r c a = gridPoint g r c a := by
    intro r c a
    apply gridPoint_congr g g' (by omega) (by omega) (by omega) (by omega) (by rw [d4, e4, ht]) (by rw [d5, e5, ht])
      (by rw [d6, e6, ht]) (by rw [d7, e7, ht]) (by rw [d8, e8])
    · intro i hi; exact (hall i (by omega)).1
    · intro i hi; exact (hall i (by omega)).2.1
    · intro i hi; exact (hall i (by omega)).2.2
  simp only [gridDirectLocH, hpt]

/-! ### Refused files, and files that are not refused -/

/-- C81. Only GeoTIFF files are accepted. -/
theorem C81_other_driver (env : GridEnv K) (f : GridFile K) (h : f.driver ≠ "GTiff".toList) :
    gridLoad env f = .error .typeError := by
  rw [gridLoad, if_pos h]

theorem altitudeArray_error (env : GridEnv K) (status : Bool) (n : ℕ) (e : Line × Line) (md : Tags) (he : e ∈ md)
    (hbad : ∀ arr : List K, arr.length = n → ∃ err, altitudeStep env status arr e = .error err) :
    ∀ arr : List K, arr.length = n → ∃ err, altitudeArray env status arr md = .error err := by
  have hstep : ∀ (arr arr' : List K) (e : Line × Line), altitudeStep env status arr e = .ok arr' → arr'.length = arr.length := by
    intro arr arr' e h
    unfold altitudeStep at h
    split at h
    · cases h1 : secondPart 'B' e.1 with
      | error => simp only [h1, bind, Except.bind] at h; cases h
      | ok b =>
        cases h2 : gridInt env b with
        | error => simp only [h1, h2, bind, Except.bind] at h; cases h
        | ok m =>
          cases h3 : gridFloat env e.2 with
          | error => simp only [h1, h2, h3, bind, Except.bind] at h; cases h
          | ok v =>
            cases h4 : storeIndex arr.length (m.tdiv (2 + status.toNat : ℕ)) with
            | error => simp only [h1, h2, h3, bind, Except.bind, h4] at h; cases h
            | ok i =>
              simp only [h1, h2, h3, bind, Except.bind, h4, pure, Except.pure, Except.ok.injEq] at h
              rw [← h, List.length_set]
    · cases h; rfl
  induction md with
  | nil => simp at he
  | cons a md ih =>
    intro arr ha
    rcases List.mem_cons.1 he with rfl | he
    · obtain ⟨err, h⟩ := hbad arr ha
      exact ⟨err, by rw [altitudeArray, h]⟩
    · cases h : altitudeStep env status arr a with
      | error err => exact ⟨err, by rw [altitudeArray, h]⟩
      | ok arr' =>
        obtain ⟨err, h'⟩ := ih he arr' (by rw [hstep arr arr' a h, ha])
        exact ⟨err, by rw [altitudeArray, h]; exact h'⟩

/-- C81. A file with an altitude tag whose value is not a number, or whose band does not exist, is refused. -/
theorem C81_bad_tag_refused (env : GridEnv K) (f : GridFile K) (hk : ∀ d ∈ f.tags :: f.namespaces, (d.map (·.1)).Nodup)
    (k v x : Line) (b : ℕ) (hv : f.Value k v) (hkx : k = "ALTITUDE_B".toList ++ x) (hB : 'B' ∉ x) (hx : env.toInt x = some (b : ℤ))
    (hbad : env.toFloat v = none ∨ f.bands.length ≤ b) :
    ∃ err, gridLoad env f = .error err := by
  by_cases hd : f.driver = "GTiff".toList
  · set md := f.namespaces.foldl Tags.update f.tags with hmd
    set s := 2 + (checkStatusBand md).toNat with hs
    have hA : "ALTITUDE".toList <:+: k := by
      rw [hkx]
      exact List.IsInfix.trans (by decide : "ALTITUDE".toList <:+: "ALTITUDE_B".toList) (List.infix_append' [] _ _)
    obtain ⟨err, herr⟩ := altitudeArray_error env (checkStatusBand md) (f.bands.length / s) (k, v) md
      ((metadata_mem f hk k v).2 hv)
      (by
        intro arr ha
        have h1 : secondPart 'B' k = .ok x := by rw [hkx]; exact secondPart_B x hB
        have h2 : gridInt env x = .ok (b : ℤ) := by rw [gridInt, hx]
        rw [altitudeStep, if_pos ((isInfix_iff _ _).2 hA), h1]
        simp only [bind, Except.bind, h2]
        rcases hbad with hbad | hbad
        · exact ⟨.valueError, by rw [gridFloat, hbad]⟩
        · cases h3 : gridFloat env v with
          | error err => exact ⟨err, rfl⟩
          | ok y =>
            have h4 : storeIndex arr.length ((b : ℤ).tdiv ((2 + (checkStatusBand md).toNat : ℕ) : ℤ)) = .error .indexError := by
              have htd : (b : ℤ).tdiv ((2 + (checkStatusBand md).toNat : ℕ) : ℤ) = ((b / s : ℕ) : ℤ) := by
                rw [Int.tdiv_eq_ediv_of_nonneg (by positivity)]; norm_cast
              have hle : f.bands.length / s ≤ b / s := Nat.div_le_div_right hbad
              rw [htd, storeIndex, if_pos (by positivity), if_neg (by rw [ha]; exact not_lt.2 (by exact_mod_cast hle))]
            simp only [h4]
            exact ⟨_, rfl⟩)
      (List.replicate (f.bands.length / s) 0) (by simp)
    refine ⟨err, ?_⟩
    unfold gridLoad
    rw [if_neg (not_not.2 hd), ← hmd]
    simp only [← hs, herr]
  · exact ⟨_, C81_other_driver env f hd⟩

/-- Decimal digits, for the examples. -/
def digitOf (c : Char) : Option ℕ := if '0' ≤ c ∧ c ≤ '9' then some (c.toNat - 48) else none

/-- A reader of natural numbers, for the examples. -/
def readNat : ℕ → Line → Option ℕ
  | acc, [] => some acc
  | acc, c :: cs => (digitOf c).bind fun d => readNat (10 * acc + d) cs

/-- `int` on texts with an optional minus sign, for the examples. -/
def readInt : Line → Option ℤ
  | [] => none
  | '-' :: cs => (readNat 0 cs).map fun n => -(n : ℤ)
  | cs => (readNat 0 cs).map fun n => (n : ℤ)

/-- The libraries of the examples. -/
def exGridEnv : GridEnv ℚ := ⟨readInt, fun s => (readInt s).map fun n => (n : ℚ), argsortEx⟩

/-- The file of the documentation (user_manual_geometric_models.rst) in small: three layers stored by increasing altitude, the tags of
the image structure in their namespace. -/
def exGridFile : GridFile ℚ where
  driver := "GTiff".toList
  tags := [("ALTITUDE_B0".toList, "-30".toList), ("ALTITUDE_B1".toList, "-30".toList), ("ALTITUDE_B2".toList, "485".toList),
    ("ALTITUDE_B3".toList, "485".toList), ("ALTITUDE_B4".toList, "1000".toList), ("ALTITUDE_B5".toList, "1000".toList),
    ("REF".toList, "EPSG:4326".toList)]
  namespaces := [[("INTERLEAVE".toList, "PIXEL".toList)]]
  bands := [fun i j => 5 + i + 10 * j, fun i j => 40 + i + j, fun i j => 6 + i + 10 * j, fun i j => 41 + i + j,
    fun i j => 7 + i + 10 * j, fun i j => 42 + i + j]
  height := 2
  width := 3
  transform := ⟨625, 0, -625 / 2, 0, 1250, -625⟩

/-- Its altitudes, in the order of the file. -/
def exGridAlts : ℕ → ℚ
  | 0 => -30
  | 1 => 485
  | _ => 1000

theorem exGridFile_value (k v : Line) (h : exGridFile.Value k v) : (k, v) ∈ exGridFile.tags ++ [("INTERLEAVE".toList, "PIXEL".toList)] := by
  obtain ⟨before, d, after, he, hm, -⟩ := h
  have hd : d ∈ exGridFile.tags :: exGridFile.namespaces := by rw [he]; simp
  rw [List.mem_append]
  rcases List.mem_cons.1 hd with rfl | hd
  · exact Or.inl hm
  · have : d = [("INTERLEAVE".toList, "PIXEL".toList)] := by simpa [exGridFile] using hd
    rw [this] at hm
    exact Or.inr hm

theorem exGridFile_value' (k v : Line) (h : (k, v) ∈ exGridFile.tags) (hk : k ≠ "INTERLEAVE".toList) : exGridFile.Value k v := by
  refine ⟨[], exGridFile.tags, exGridFile.namespaces, rfl, h, ?_⟩
  intro d' hd' w hw
  have : d' = [("INTERLEAVE".toList, "PIXEL".toList)] := by simpa [exGridFile] using hd'
  rw [this, List.mem_singleton] at hw
  exact hk (Prod.mk.inj hw).1

/-- The file of the documentation is in the documented format. -/
theorem exGridFile_documented : exGridFile.Documented exGridEnv 3 false exGridAlts 4326 where
  keys := by decide +kernel
  driver := rfl
  bands := rfl
  status_iff := by
    refine ⟨?_, by simp⟩
    rintro ⟨k, hk⟩
    have := exGridFile_value _ _ hk
    exfalso
    have hall : ∀ e ∈ exGridFile.tags ++ [("INTERLEAVE".toList, "PIXEL".toList)], e.2 ≠ "status".toList := by decide +kernel
    exact hall _ this rfl
  altitude := by
    intro k v h hA
    have hall : ∀ e ∈ exGridFile.tags ++ [("INTERLEAVE".toList, "PIXEL".toList)], isInfix "ALTITUDE".toList e.1 = true →
        e.1 = "ALTITUDE_B".toList ++ e.1.drop 10 ∧ 'B' ∉ e.1.drop 10 ∧
          exGridEnv.toInt (e.1.drop 10) = some (((readNat 0 (e.1.drop 10)).getD 0 : ℕ) : ℤ) ∧
          (readNat 0 (e.1.drop 10)).getD 0 < exGridFile.bands.length ∧
          exGridEnv.toFloat e.2 = some (exGridAlts ((readNat 0 (e.1.drop 10)).getD 0 / (2 + false.toNat))) := by decide +kernel
    obtain ⟨h1, h2, h3, h4, h5⟩ := hall _ (exGridFile_value k v h) ((isInfix_iff _ _).2 hA)
    exact ⟨_, _, h1, h2, h3, h4, h5⟩
  every_layer := by
    intro i hi
    interval_cases i
    · exact ⟨"0".toList, "-30".toList, 0, exGridFile_value' _ _ (by decide +kernel) (by decide +kernel), by decide +kernel, by decide +kernel, rfl⟩
    · exact ⟨"2".toList, "485".toList, 2, exGridFile_value' _ _ (by decide +kernel) (by decide +kernel), by decide +kernel, by decide +kernel, rfl⟩
    · exact ⟨"4".toList, "1000".toList, 4, exGridFile_value' _ _ (by decide +kernel) (by decide +kernel), by decide +kernel, by decide +kernel, rfl⟩
  ref := by
    intro k v h hR
    have hall : ∀ e ∈ exGridFile.tags ++ [("INTERLEAVE".toList, "PIXEL".toList)], "REF".toList.isSuffixOf e.1 = true →
        e.2 = "EPSG:".toList ++ e.2.drop 5 ∧ ':' ∉ e.2.drop 5 ∧ exGridEnv.toInt (e.2.drop 5) = some 4326 := by decide +kernel
    exact Or.inl ⟨_, hall _ (exGridFile_value k v h) (List.isSuffixOf_iff_suffix.2 hR)⟩
  has_ref := ⟨"REF".toList, "EPSG:4326".toList, exGridFile_value' _ _ (by decide +kernel) (by decide +kernel), by decide +kernel⟩

/-- The hypotheses of `C81_documented_grid` hold of it. -/
example : ∃ g : MultiGrid ℚ, gridLoad exGridEnv exGridFile = .ok (g, some 4326) ∧
    gridDirectLocH g [some 625] [some (-625 / 2 + 625 * 2)] [some 485] = .ok [⟨some 27, some 44, some 485⟩] := by
  obtain ⟨g, h1, -, h2⟩ := C81_documented_grid exGridEnv argsortEx_spec exGridFile 3 false exGridAlts 4326 exGridFile_documented
    (by decide) (by decide) (by decide)
    (by intro a ha b hb; interval_cases a <;> interval_cases b <;> decide +kernel) (by decide +kernel) (by decide +kernel)
  refine ⟨g, h1, ?_⟩
  have := h2 1 (by decide) 1 (by decide) 2 (by decide) _ _ rfl rfl
  norm_num [exGridFile, exGridAlts] at this ⊢
  exact this

/-- The same file with the layers stored by decreasing altitude, a status band for each, and the tags in another order. -/
def exGridFile2 : GridFile ℚ where
  driver := "GTiff".toList
  tags := [("REF".toList, "EPSG:4326".toList), ("ALTITUDE_B6".toList, "-30".toList), ("ALTITUDE_B3".toList, "485".toList),
    ("TYPE_B2".toList, "status".toList), ("ALTITUDE_B0".toList, "1000".toList)]
  namespaces := []
  bands := [fun i j => 7 + i + 10 * j, fun i j => 42 + i + j, fun _ _ => 0, fun i j => 6 + i + 10 * j, fun i j => 41 + i + j,
    fun _ _ => 0, fun i j => 5 + i + 10 * j, fun i j => 40 + i + j, fun _ _ => 0]
  height := 2
  width := 3
  transform := ⟨625, 0, -625 / 2, 0, 1250, -625⟩

/-- C81. A `REF` tag which is not an EPSG code stands for EPSG 4326: the positions are checked. -/
theorem C81_other_ref_is_wgs84 :
    let f := { exGridFile with tags := exGridFile.tags.take 6 ++ [("REF".toList, "WGS84 lon/lat".toList)],
                               bands := (fun _ _ => 500) :: exGridFile.bands.tail }
    (gridLoad exGridEnv f).toOption.map (fun g => (gridDirectLocH g.1 [some (-625)] [some (-625 / 2)] [some (-30)], g.2)) =
      some (.ok [⟨none, none, none⟩], some 4326) := by
  decide +kernel

/-- Both files give the same location inside a cell and between two layers. -/
example : (gridLoad exGridEnv exGridFile2).toOption.map (fun g => (gridDirectLocH g.1 [some 0] [some 100] [some 600], g.2)) =
    (gridLoad exGridEnv exGridFile).toOption.map (fun g => (gridDirectLocH g.1 [some 0] [some 100] [some 600], g.2)) ∧
    (gridLoad exGridEnv exGridFile2).toOption.isSome = true := by
  decide +kernel

/-- C81. Without a `REF` tag the file is loaded without coordinate system: the positions are not checked, and a longitude of 500
degrees is returned. -/
theorem C81_without_ref_unchecked :
    let f := { exGridFile with tags := exGridFile.tags.take 6, bands := (fun _ _ => 500) :: exGridFile.bands.tail }
    (gridLoad exGridEnv f).toOption.map (fun g => (gridDirectLocH g.1 [some (-625)] [some (-625 / 2)] [some (-30)], g.2)) =
      some (.ok [⟨some 500, some 40, some (-30)⟩], none) := by
  decide +kernel

/-- C81. A tag for a band that does not exist raises `IndexError`; a tag whose number is not one raises `ValueError`. -/
theorem C81_bad_altitude_tags :
    (gridLoad exGridEnv { exGridFile with tags := exGridFile.tags ++ [("ALTITUDE_B6".toList, "0".toList)] }).toOption.isNone = true ∧
    (match gridLoad exGridEnv { exGridFile with tags := exGridFile.tags ++ [("ALTITUDE_B6".toList, "0".toList)] } with
      | .error e => some e | .ok _ => none) = some .indexError ∧
    (match gridLoad exGridEnv { exGridFile with tags := exGridFile.tags ++ [("ALTITUDE_Bx".toList, "0".toList)] } with
      | .error e => some e | .ok _ => none) = some .valueError := by
  decide +kernel

/-- C81. The first node is at the origin of the geotransform, the corner of the first pixel for GDAL, and not at its centre as the
documentation of the class says: the position of the centre of the first pixel is half a step away. -/
theorem C81_origin_is_corner : (indexToPhysical exGridFile.transform 0 0) = (0, 0) ∧
    (gridLoad exGridEnv exGridFile).toOption.map (fun g => (gridDirectLocH g.1 [some (-625)] [some (-625 / 2)] [some (-30)],
      gridDirectLocH g.1 [some 0] [some 0] [some (-30)])) =
      some (.ok [⟨some 5, some 40, some (-30)⟩], .ok [⟨some (21 / 2), some 41, some (-30)⟩]) := by
  decide +kernel

end Shareloc
