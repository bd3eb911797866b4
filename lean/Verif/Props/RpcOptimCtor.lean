import Verif.Model.RpcOptimCtor
import Verif.Props.RpcModel
import Verif.Props.RpcDispatch

/-!
# C79: the two RPC classes loaded from the same product
-/

set_option linter.unusedSectionVars false

namespace Shareloc
variable {K : Type} [Field K] [LinearOrder K] [IsStrictOrderedRing K]

/-! ### Specification -/

/-- A complete set of coefficients: four lists of 20, the first of which is not null. -/
def CompleteSet (a b c d : Option (List K)) : Prop :=
  ∃ la lb lc ld, a = some la ∧ b = some lb ∧ c = some lc ∧ d = some ld ∧
    la.length = 20 ∧ lb.length = 20 ∧ lc.length = 20 ∧ ld.length = 20 ∧ ∃ x ∈ la, x ≠ 0

/-- No set of coefficients. -/
def NoSet (a : Option (List K)) : Prop := a = none ∨ a = some []

/-- The parameters from which an optimised RPC can be built. -/
def Usable (p : RpcParams K) : Prop :=
  (CompleteSet (some p.numCol) (some p.denCol) (some p.numRow) (some p.denRow) ∧
    (NoSet p.numX ∨ CompleteSet p.numX p.denX p.numY p.denY)) ∨
  (NoSet (some p.numCol) ∧ CompleteSet p.numX p.denX p.numY p.denY)

theorem truthy_iff (l : Option (List K)) : truthy l = false ↔ NoSet l := by
  unfold NoSet
  rcases l with _ | _ | ⟨a, l⟩ <;> simp [truthy]

theorem allZero_iff (l : List K) : allZero (some l) = false ↔ ∃ x ∈ l, x ≠ 0 := by
  simp [allZero]

theorem arrays4_ok (a b c d : Option (List K)) (q : RatCoefs K) :
    arrays4 a b c d = .ok q ↔ ∃ la lb lc ld, a = some la ∧ b = some lb ∧ c = some lc ∧ d = some ld ∧
      la.length = 20 ∧ lb.length = 20 ∧ lc.length = 20 ∧ ld.length = 20 ∧ q = ⟨coefOf la, coefOf lb, coefOf lc, coefOf ld⟩ := by
  have key : ∀ (l : Option (List K)) (x : Coef K), array20 l = .ok x ↔ ∃ m, l = some m ∧ m.length = 20 ∧ x = coefOf m := by
    intro l x
    rcases l with _ | m
    · simp [array20]
    · simp only [array20]
      split_ifs with h
      · simp [h, eq_comm]
      · simp [h]
  constructor
  · intro h
    unfold arrays4 at h
    split at h
    · rename_i a' b' c' d' ha hb hc hd
      obtain ⟨la, e1, f1, g1⟩ := (key _ _).1 ha
      obtain ⟨lb, e2, f2, g2⟩ := (key _ _).1 hb
      obtain ⟨lc, e3, f3, g3⟩ := (key _ _).1 hc
      obtain ⟨ld, e4, f4, g4⟩ := (key _ _).1 hd
      refine ⟨la, lb, lc, ld, e1, e2, e3, e4, f1, f2, f3, f4, ?_⟩
      rw [← g1, ← g2, ← g3, ← g4]
      exact (Except.ok.inj h).symm
    · cases h
  · rintro ⟨la, lb, lc, ld, rfl, rfl, rfl, rfl, f1, f2, f3, f4, rfl⟩
    simp [arrays4, array20, f1, f2, f3, f4]

theorem arrays4_of_complete {a b c d : Option (List K)} (h : CompleteSet a b c d) :
    truthy a = true ∧ allZero a = false ∧ ∃ q, arrays4 a b c d = .ok q := by
  obtain ⟨la, lb, lc, ld, rfl, rfl, rfl, rfl, f1, f2, f3, f4, hx⟩ := h
  refine ⟨?_, (allZero_iff la).2 hx, _, (arrays4_ok _ _ _ _ _).2 ⟨la, lb, lc, ld, rfl, rfl, rfl, rfl, f1, f2, f3, f4, rfl⟩⟩
  cases la with
  | nil => simp at f1
  | cons x l => rfl

theorem complete_of_arrays4 {a b c d : Option (List K)} {q : RatCoefs K} (hz : allZero a = false) (h : arrays4 a b c d = .ok q) :
    CompleteSet a b c d := by
  obtain ⟨la, lb, lc, ld, rfl, rfl, rfl, rfl, f1, f2, f3, f4, -⟩ := (arrays4_ok _ _ _ _ _).1 h
  exact ⟨la, lb, lc, ld, rfl, rfl, rfl, rfl, f1, f2, f3, f4, (allZero_iff la).1 hz⟩

/-- C79. An optimised RPC can be built exactly from usable parameters: at least one complete set of coefficients, and no incomplete or
null one. -/
theorem C79_accepted_iff (p : RpcParams K) : (∃ r, rpcOptimOfParams p = .ok r) ↔ Usable p := by
  constructor
  · rintro ⟨r, h⟩
    unfold rpcOptimOfParams at h
    simp only at h
    split_ifs at h with h1 h2 h3 h4 h5 h6
    · split at h
      · rename_i i d hi hd
        simp only [Bool.and_eq_true, Bool.not_eq_true'] at h2
        exact .inl ⟨complete_of_arrays4 h2.1 hi, .inr (complete_of_arrays4 h2.2 hd)⟩
      · cases h
    · split at h
      · rename_i i hi
        simp only [Bool.not_eq_true'] at h4
        have : truthy p.numX = false := by
          cases hx : truthy p.numX with
          | false => rfl
          | true => exact absurd (by simp [h3, hx]) h1
        exact .inl ⟨complete_of_arrays4 h4 hi, .inl ((truthy_iff _).1 this)⟩
      · cases h
    · split at h
      · rename_i d hd
        simp only [Bool.not_eq_true'] at h6
        exact .inr ⟨(truthy_iff _).1 (by simpa using h3), complete_of_arrays4 h6 hd⟩
      · cases h
  · rintro (⟨hc, hx | hx⟩ | ⟨hc, hx⟩)
    · obtain ⟨t1, z1, q, hq⟩ := arrays4_of_complete hc
      have t2 := (truthy_iff _).2 hx
      exact ⟨_, by simp [rpcOptimOfParams, t1, z1, hq, t2]; rfl⟩
    · obtain ⟨t1, z1, q, hq⟩ := arrays4_of_complete hc
      obtain ⟨t2, z2, q', hq'⟩ := arrays4_of_complete hx
      exact ⟨_, by simp [rpcOptimOfParams, t1, z1, hq, t2, z2, hq']; rfl⟩
    · obtain ⟨t2, z2, q', hq'⟩ := arrays4_of_complete hx
      have t1 := (truthy_iff _).2 hc
      exact ⟨_, by simp [rpcOptimOfParams, t1, t2, z2, hq']; rfl⟩

/-- C79. An optimised RPC has the coefficients, the offsets and the scales of the Python RPC built from the same parameters. -/
theorem C79_same_model (p : RpcParams K) (r : Rpc K) (h : rpcOptimOfParams p = .ok r) : r = rpcOfParams p := by
  have hcol : ∀ q, arrays4 (some p.numCol) (some p.denCol) (some p.numRow) (some p.denRow) = .ok q → (rpcOfParams p).inverse = some q := by
    intro q hq
    obtain ⟨la, lb, lc, ld, e1, e2, e3, e4, f1, -, -, -, rfl⟩ := (arrays4_ok _ _ _ _ _).1 hq
    simp only [Option.some.injEq] at e1 e2 e3 e4
    subst e1 e2 e3 e4
    have : p.numCol ≠ [] := by intro h0; rw [h0] at f1; simp at f1
    simp [rpcOfParams, this]
  have hx : ∀ q, arrays4 p.numX p.denX p.numY p.denY = .ok q → (rpcOfParams p).direct = some q := by
    intro q hq
    obtain ⟨la, lb, lc, ld, e1, e2, e3, e4, f1, -, -, -, rfl⟩ := (arrays4_ok _ _ _ _ _).1 hq
    cases la with
    | nil => simp at f1
    | cons a l => simp only [rpcOfParams, e1, e2, e3, e4, Option.getD_some]
  have hcol0 : truthy (some p.numCol) = false → (rpcOfParams p).inverse = none := by
    intro ht
    rcases (truthy_iff _).1 ht with h0 | h0
    · cases h0
    · simp only [Option.some.injEq] at h0
      simp [rpcOfParams, h0]
  have hx0 : truthy p.numX = false → (rpcOfParams p).direct = none := by
    intro ht
    rcases (truthy_iff _).1 ht with h0 | h0 <;> simp [rpcOfParams, h0]
  have hrest : ∀ i d, (rpcOfParams p).inverse = i → (rpcOfParams p).direct = d → cppRpc p i d = rpcOfParams p := by
    rintro i d rfl rfl
    rfl
  unfold rpcOptimOfParams at h
  simp only at h
  split_ifs at h with h1 h2 h3 h4 h5 h6
  · split at h
    · rename_i i d hi hd
      rw [← Except.ok.inj h]
      exact hrest _ _ (hcol i hi) (hx d hd)
    · cases h
  · split at h
    · rename_i i hi
      rw [← Except.ok.inj h]
      refine hrest _ _ (hcol i hi) (hx0 ?_)
      cases hx : truthy p.numX with
      | false => rfl
      | true => exact absurd (by simp [h3, hx]) h1
    · cases h
  · split at h
    · rename_i d hd
      rw [← Except.ok.inj h]
      exact hrest _ _ (hcol0 (by simpa using h3)) (hx d hd)
    · cases h

/-- C79. Loading a product as `RPCoptim` gives the model that `RPC` loads from it, or an error; an error of the reader is the same for
both. -/
theorem C79_load_same (env : IoEnv K) (fs : Files K) (path : Line) :
    (∀ r, rpcOptimLoad env fs path = .ok r → rpcLoad env fs path = .ok r) ∧
    (∀ e, rpcOptimLoad env fs path = .error (.reader e) ↔ rpcLoad env fs path = .error (.reader e)) ∧
    (∀ r, rpcLoad env fs path = .ok r → (∃ p, rpcReader env fs path true = .ok p ∧ Usable p) → rpcOptimLoad env fs path = .ok r) := by
  have hnr : ∀ (p : RpcParams K) e, rpcOptimOfParams p ≠ .error (.reader (e : IoError)) := by
    intro p e h
    have h4 : ∀ a b c d : Option (List K), ∀ e', arrays4 a b c d = .error e' → e' = .typeError := by
      intro a b c d e' h
      unfold arrays4 at h
      split at h <;> cases h
      rfl
    unfold rpcOptimOfParams at h
    simp only at h
    split_ifs at h
    all_goals first
      | (cases h; done)
      | (split at h <;> first
          | (cases h; done)
          | (rename_i h'; have := h4 _ _ _ _ _ h'; subst this; cases h))
  simp only [rpcOptimLoad, rpcLoad]
  cases hr : rpcReader env fs path true with
  | error e => simp
  | ok p =>
    refine ⟨fun r h => by rw [C79_same_model p r h], fun e => ?_, fun r h hu => ?_⟩
    · constructor
      · intro h; exact absurd h (hnr p e)
      · intro h; cases h
    · obtain ⟨p', hp', hu⟩ := hu
      cases Except.ok.inj hp'
      obtain ⟨r', hr'⟩ := (C79_accepted_iff p).2 hu
      rw [← Except.ok.inj h, ← C79_same_model p r' hr']
      exact hr'

/-- C79. Hence, for a product loaded by both classes, `inverse_loc` gives the same rows for every batch on which no denominator
vanishes. -/
theorem C79_same_inverse_loc (env : IoEnv K) (fs : Files K) (path : Line) (ro : Rpc K) (h : rpcOptimLoad env fs path = .ok ro)
    (q : RatCoefs K) (hq : ro.inverse = some q) (lon lat alt : List (Option K)) (hlat : lat.length = lon.length)
    (halt : alt.length = lon.length)
    (hdef : ∀ (i : ℕ) (a b c : K), lon[i]? = some (some a) → lat[i]? = some (some b) → alt[i]? = some (some c) →
      ValidLonLat a b → RatDefined ro q a b c) :
    ∃ r out, rpcLoad env fs path = .ok r ∧ inverseLocPy r lon lat alt = .ok (.rows out) ∧ inverseLocOptim ro q lon lat alt = .ok out := by
  obtain ⟨out, h1, h2⟩ := C21_python_cpp_agree ro q hq lon lat alt hlat halt hdef
  exact ⟨ro, out, (C79_load_same env fs path).1 ro h, h1, h2⟩

/-! ### Cases -/

/-- Parameters with both sets of coefficients. -/
def bothParams : RpcParams ℚ :=
  { driver := "x".toList, offsetAlt := 100, scaleAlt := 500, offsetY := 43, scaleY := 1, denRow := 1 :: List.replicate 19 0,
    numRow := [0, 0, 1] ++ List.replicate 17 0, offsetRow := 1000, scaleRow := 1000, offsetX := 2, scaleX := 1,
    denCol := 1 :: List.replicate 19 0, numCol := [0, 1] ++ List.replicate 18 0, offsetCol := 500, scaleCol := 500,
    numX := some ([0, 1] ++ List.replicate 18 0), denX := some (1 :: List.replicate 19 0), numY := some ([0, 0, 1] ++ List.replicate 17 0),
    denY := some (1 :: List.replicate 19 0) }

example : Usable bothParams :=
  .inl ⟨⟨_, _, _, _, rfl, rfl, rfl, rfl, by decide, by decide, by decide, by decide, 1, by decide, by decide⟩,
    .inr ⟨_, _, _, _, rfl, rfl, rfl, rfl, by decide, by decide, by decide, by decide, 1, by decide, by decide⟩⟩

/-- C79. Null column coefficients are refused by the optimised class although the Python class accepts them. -/
theorem C79_null_counterexample :
    let p := { bothParams with numCol := List.replicate 20 (0 : ℚ) }
    rpcOptimOfParams p = .error .valueError ∧
    inverseLocPy (rpcOfParams p) [some 2] [some 43] [some 100] = .ok (.rows [⟨some 1000, some 500, some 100⟩]) := by
  refine ⟨rfl, ?_⟩
  rw [C50_location_formula _ (by decide) 2 43 100 (by unfold ValidLonLat; decide +kernel) (by unfold RatioDefined; decide +kernel)
    (by unfold RatioDefined; decide +kernel)]
  congr
  · decide +kernel
  · decide +kernel

/-- C79. Parameters without coefficients are accepted by the Python class, which then refuses to locate. -/
theorem C79_empty_counterexample :
    let p := { bothParams with numCol := [], numX := none }
    rpcOptimOfParams p = .error .valueError ∧ (rpcOfParams p).inverse = none ∧ (rpcOfParams p).direct = none := by
  exact ⟨rfl, rfl, rfl⟩

end Shareloc
