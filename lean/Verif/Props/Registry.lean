import Verif.Model.Localization

/-!
# C57: the registry of geometric models
-/

set_option linter.unusedSectionVars false

namespace Shareloc
variable {C E M : Type*}

/-- Specification: the class last registered under a name in a history. -/
def LastRegistered (h : List (String × C)) (name : String) (c : C) : Prop :=
  ∃ before after, h = before ++ (name, c) :: after ∧ ∀ p ∈ after, p.1 ≠ name

theorem set_lookup (name name' : String) (c : C) (r : Registry C) :
    (Registry.set name c r).lookup name' = if name' = name then some c else r.lookup name' := by
  induction r with
  | nil =>
    by_cases h : name' = name
    · simp [Registry.set, h]
    · have hne : (name' == name) = false := by simpa using h
      simp [Registry.set, List.lookup_cons, h, hne]
  | cons p r ih =>
    obtain ⟨n, c'⟩ := p
    unfold Registry.set
    by_cases hn : n = name
    · subst hn
      by_cases h : name' = n
      · subst h; simp
      · have hne : (name' == n) = false := by simpa using h
        simp [List.lookup_cons, h, hne]
    · rw [if_neg hn, List.lookup_cons, List.lookup_cons, ih]
      by_cases h : name' = n
      · subst h
        simp [hn]
      · have hne : (name' == n) = false := by simpa using h
        rw [hne]

theorem lookup_registerAll_append (h : List (String × C)) (p : String × C) (name : String) :
    (registerAll (h ++ [p])).lookup name = if name = p.1 then some p.2 else (registerAll h).lookup name := by
  unfold registerAll
  rw [List.foldl_append]
  exact set_lookup p.1 name p.2 _

theorem lookup_registerAll (h : List (String × C)) (name : String) (c : C) :
    (registerAll h).lookup name = some c ↔ LastRegistered h name c := by
  induction h using List.reverseRecOn with
  | nil => simp [registerAll, LastRegistered]
  | append_singleton h p ih =>
    rw [lookup_registerAll_append]
    by_cases hp : name = p.1
    · rw [if_pos hp]
      constructor
      · intro e
        simp only [Option.some.injEq] at e
        exact ⟨h, [], by rw [hp, ← e], by simp⟩
      · rintro ⟨b, a, e, ha⟩
        rcases List.eq_nil_or_concat a with rfl | ⟨a', q, rfl⟩
        · have := List.append_inj_right' e rfl
          simp only [List.cons.injEq, and_true] at this
          rw [this]
        · rw [List.concat_eq_append, ← List.cons_append, ← List.append_assoc] at e
          have := List.append_inj_right' e rfl
          simp only [List.cons.injEq, and_true] at this
          exact absurd (by rw [hp, this]) (ha q (by simp))
    · rw [if_neg hp, ih]
      constructor
      · rintro ⟨b, a, e, ha⟩
        refine ⟨b, a ++ [p], by rw [e]; simp, ?_⟩
        intro q hq
        rcases List.mem_append.1 hq with hq | hq
        · exact ha q hq
        · simp only [List.mem_singleton] at hq
          rw [hq]; exact fun h' => hp h'.symm
      · rintro ⟨b, a, e, ha⟩
        rcases List.eq_nil_or_concat a with rfl | ⟨a', q, rfl⟩
        · have := List.append_inj_right' e rfl
          simp only [List.cons.injEq, and_true] at this
          exact absurd (by rw [this]) hp
        · rw [List.concat_eq_append, ← List.cons_append, ← List.append_assoc] at e
          have h1 := List.append_inj_left' e rfl
          exact ⟨b, a', h1, fun q' hq' => ha q' (by simp [hq'])⟩

/-- C57. The class used is the one last registered under the name, whatever was registered under the others. -/
theorem C57_last_registered (load : C → String → Except (Option E) M) (h : List (String × C)) (path name : String) (c : C)
    (hc : LastRegistered h name c) :
    createGeomodel load (registerAll h) path name =
      match load c path with
      | .ok m => .ok m
      | .error none => .error .keyError
      | .error (some e) => .error (.load e) := by
  unfold createGeomodel
  rw [(lookup_registerAll h name c).2 hc]
  rfl

/-- C57. A name that was never registered raises `KeyError`. -/
theorem C57_unknown (load : C → String → Except (Option E) M) (h : List (String × C)) (path name : String)
    (hn : ∀ p ∈ h, p.1 ≠ name) : createGeomodel load (registerAll h) path name = .error .keyError := by
  unfold createGeomodel
  cases hl : (registerAll h).lookup name with
  | none => rfl
  | some c =>
    obtain ⟨b, a, e, -⟩ := (lookup_registerAll h name c).1 hl
    exact absurd rfl (hn (name, c) (by rw [e]; simp))

/-- C57. A success comes from the class last registered under that very name. -/
theorem C57_created_by (load : C → String → Except (Option E) M) (h : List (String × C)) (path name : String) (m : M)
    (hm : createGeomodel load (registerAll h) path name = .ok m) : ∃ c, LastRegistered h name c ∧ load c path = .ok m := by
  unfold createGeomodel at hm
  cases hl : (registerAll h).lookup name with
  | none => rw [hl] at hm; simp at hm
  | some c =>
    rw [hl] at hm
    simp only at hm
    refine ⟨c, (lookup_registerAll h name c).1 hl, ?_⟩
    cases hc : load c path with
    | ok m' => rw [hc] at hm; simpa using hm
    | error e =>
      rw [hc] at hm
      cases e <;> simp at hm

/-- C57. Registering another name changes nothing for this one. -/
theorem C57_no_interference (load : C → String → Except (Option E) M) (h : List (String × C)) (other : String × C) (path name : String)
    (hn : other.1 ≠ name) : createGeomodel load (registerAll (h ++ [other])) path name =
      createGeomodel load (registerAll h) path name := by
  unfold createGeomodel
  rw [lookup_registerAll_append, if_neg (fun e => hn e.symm)]

/-- C57. Only the set of registrations per name matters: two histories with the same last class per name create the same. -/
theorem C57_history_irrelevant (load : C → String → Except (Option E) M) (h h' : List (String × C)) (name : String)
    (hh : ∀ c, LastRegistered h name c ↔ LastRegistered h' name c) (path : String) :
    createGeomodel load (registerAll h) path name = createGeomodel load (registerAll h') path name := by
  have : (registerAll h).lookup name = (registerAll h').lookup name := by
    apply Option.ext
    intro c
    rw [lookup_registerAll, lookup_registerAll, hh]
  unfold createGeomodel
  rw [this]

theorem mem_set_names (name n : String) (c : C) (r : Registry C) :
    n ∈ (Registry.set name c r).names ↔ n = name ∨ n ∈ r.names := by
  induction r with
  | nil => simp [Registry.set, Registry.names]
  | cons p r ih =>
    obtain ⟨k, c'⟩ := p
    unfold Registry.set
    by_cases hk : k = name
    · rw [if_pos hk]; subst hk; simp [Registry.names]
    · rw [if_neg hk]
      simp only [Registry.names, List.map_cons, List.mem_cons] at ih ⊢
      rw [ih]; tauto

theorem set_names_nodup (name : String) (c : C) (r : Registry C) (h : (Registry.names r).Nodup) : (Registry.set name c r).names.Nodup := by
  induction r with
  | nil => simp [Registry.set, Registry.names]
  | cons p r ih =>
    obtain ⟨k, c'⟩ := p
    unfold Registry.set
    have h' : k ∉ Registry.names r ∧ (Registry.names r).Nodup := by simpa [Registry.names] using h
    by_cases hk : k = name
    · rw [if_pos hk]; simpa [Registry.names] using h
    · rw [if_neg hk]
      have : k ∉ (Registry.set name c r).names := by
        rw [mem_set_names]; rintro (e | e)
        · exact hk e
        · exact h'.1 e
      simp only [Registry.names, List.map_cons, List.nodup_cons]
      exact ⟨this, ih h'.2⟩

/-- C57. Each registered name is listed once, and only registered names. -/
theorem C57_names (h : List (String × C)) : (registerAll h).names.Nodup ∧ ∀ n, n ∈ (registerAll h).names ↔ ∃ c, (n, c) ∈ h := by
  induction h using List.reverseRecOn with
  | nil => simp [registerAll, Registry.names]
  | append_singleton h p ih =>
    have e : registerAll (h ++ [p]) = Registry.set p.1 p.2 (registerAll h) := by
      unfold registerAll; rw [List.foldl_append]; rfl
    rw [e]
    refine ⟨set_names_nodup _ _ _ ih.1, fun n => ?_⟩
    rw [mem_set_names, ih.2]
    constructor
    · rintro (rfl | ⟨c, hc⟩)
      · exact ⟨p.2, by simp⟩
      · exact ⟨c, by simp [hc]⟩
    · rintro ⟨c, hc⟩
      rcases List.mem_append.1 hc with hc | hc
      · exact .inr ⟨c, hc⟩
      · simp only [List.mem_singleton] at hc
        exact .inl (by rw [← hc])

/-- C57, not claimed by the code: the caller cannot tell a missing type from a `KeyError` raised by the loading of a known
type (an OSSIM file without one of its keys, for instance). -/
theorem C57_key_error_ambiguous (load : C → String → Except (Option E) M) (h h' : List (String × C)) (path name : String) (c : C)
    (hc : LastRegistered h name c) (hl : load c path = .error none) (hn : ∀ p ∈ h', p.1 ≠ name) :
    createGeomodel load (registerAll h) path name = createGeomodel load (registerAll h') path name := by
  rw [C57_last_registered load h path name c hc, C57_unknown load h' path name hn, hl]

/-- The registrations made by importing the package, then a user class replacing one of them. -/
example : ∀ load : ℕ → String → Except (Option ℕ) ℕ,
    createGeomodel load (registerAll [("RPC", 1), ("GRID", 2), ("RPCoptim", 3), ("RPC", 4)]) "p" "RPC" =
      createGeomodel load [("RPC", 4)] "p" "RPC" ∧
    (registerAll [("RPC", 1), ("GRID", 2), ("RPCoptim", 3), ("RPC", 4)]).names = ["RPC", "GRID", "RPCoptim"] := by
  intro load
  have h : registerAll [("RPC", 1), ("GRID", 2), ("RPCoptim", 3), ("RPC", 4)] = [("RPC", 4), ("GRID", 2), ("RPCoptim", 3)] := by
    decide +kernel
  rw [h]
  exact ⟨rfl, rfl⟩

example : LastRegistered [("RPC", 1), ("GRID", 2), ("RPCoptim", 3), ("RPC", 4)] "RPC" 4 :=
  ⟨[("RPC", 1), ("GRID", 2), ("RPCoptim", 3)], [], rfl, by simp⟩

end Shareloc
