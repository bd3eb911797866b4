import Verif.Model.Proj

/-!
C90. `coordinates_conversion` converts point by point and never gives an infinite number.  C32 for an RPC: the location grid of an RPC
cannot be computed.
-/

namespace Shareloc
set_option linter.unusedSectionVars false
variable {K : Type*} [Field K] [LinearOrder K] [IsStrictOrderedRing K]

/-- C90. The conversion of an array of two or more columns answers, with as many rows, and each row is the conversion of the corresponding
point given alone, as an array of one row or, for two or three coordinates, as a vector. -/
theorem C90_pointwise (t : WarpTransform K) (width : ℕ) (hw : 2 ≤ width) (l : List (List (XNum K))) (hl : ∀ r ∈ l, r.length = width) :
    ∃ out, coordinatesConversion t (.rows width l) = .ok out ∧ out.length = l.length ∧
      ∀ (i : ℕ) (r : List (XNum K)), l[i]? = some r → ∃ q, out[i]? = some q ∧
        coordinatesConversion t (.rows width [r]) = .ok [q] ∧
        (width ≤ 3 → coordinatesConversion t (.vector r) = .ok [q]) := by
  refine ⟨l.map (convertRow t width), ?_, by simp, ?_⟩
  · simp only [coordinatesConversion]
    rw [if_neg (by omega)]
  · intro i r hr
    refine ⟨convertRow t width r, by simp [hr], ?_, ?_⟩
    · simp only [coordinatesConversion]
      rw [if_neg (by omega)]
      rfl
    · intro h3
      have := hl r (List.mem_of_getElem? hr)
      simp only [coordinatesConversion, this]
      rw [if_pos (by omega)]

/-- C90. What the row of a point is: the conversion of its coordinates by the library, with the altitude for three coordinates, where
what is not a number is NaN. -/
theorem C90_point (t : WarpTransform K) (x y z : XNum K) :
    coordinatesConversion t (.vector [x, y, z]) =
      .ok [[(t.high x y z).1.noInf, (t.high x y z).2.1.noInf, (t.high x y z).2.2.noInf]] ∧
    coordinatesConversion t (.vector [x, y]) = .ok [[(t.flat x y).1.noInf, (t.flat x y).2.noInf]] := by
  constructor <;> rfl

theorem noInf_spec (x : XNum K) : x.noInf ≠ .inf ∧ (∀ v, x.noInf = .num v ↔ x = .num v) := by
  cases x <;> simp [XNum.noInf]

/-- C90. No result is infinite, and a result is a number only if the library gave this number. -/
theorem C90_no_infinity (t : WarpTransform K) (a : CoordArray K) (out : List (List (XNum K)))
    (h : coordinatesConversion t a = .ok out) : ∀ r ∈ out, XNum.inf ∉ r := by
  have key : ∀ width r, XNum.inf ∉ convertRow t width r := by
    intro width r
    simp only [convertRow]
    split <;> simp only [List.mem_cons, List.not_mem_nil, or_false, not_or] <;>
      refine ⟨fun e => (noInf_spec _).1 e.symm, ?_⟩
    · exact ⟨fun e => (noInf_spec _).1 e.symm, fun e => (noInf_spec _).1 e.symm⟩
    · exact fun e => (noInf_spec _).1 e.symm
  cases a with
  | vector l =>
    simp only [coordinatesConversion] at h
    split at h
    · cases h
      intro r hr
      rw [List.mem_singleton.1 hr]
      exact key _ _
    · cases h
  | rows width l =>
    simp only [coordinatesConversion] at h
    split at h
    · cases h
    · cases h
      intro r hr
      obtain ⟨r', _, rfl⟩ := List.mem_map.1 hr
      exact key _ _

/-- C90. A conversion raises exactly on vectors that are not points of two or three coordinates and on arrays of fewer than two columns;
in particular an empty array of three columns gives an empty array. -/
theorem C90_raises (t : WarpTransform K) (a : CoordArray K) :
    (∃ e, coordinatesConversion t a = .error e) ↔
      (∃ l, a = .vector l ∧ l.length ≠ 2 ∧ l.length ≠ 3) ∨ ∃ width l, a = .rows width l ∧ width < 2 := by
  cases a with
  | vector l =>
    simp only [coordinatesConversion]
    split
    · rename_i h
      simp; omega
    · rename_i h
      simp; omega
  | rows width l =>
    simp only [coordinatesConversion]
    split
    · rename_i h
      simp [h]
    · rename_i h
      simp; omega

/-- A conversion that fails at the pole: the case of the properties. -/
def poleWarp : WarpTransform ℚ where
  flat x y := if y = .num 90 then (.inf, .inf) else (y, x)
  high x y z := if y = .num 90 then (.inf, .inf, .inf) else (y, x, z)

example : coordinatesConversion poleWarp (.rows 3 [[.num 2, .num 40, .num 100], [.num 2, .num 90, .num 100]]) =
      .ok [[.num 40, .num 2, .num 100], [.nan, .nan, .nan]] ∧
    coordinatesConversion poleWarp (.vector [.num 2, .num 40]) = .ok [[.num 40, .num 2]] := by decide +kernel

/-! ### C32 for an RPC -/

/-- C32. `RPC.direct_loc_grid_h` returns only for a grid without node: for every RPC, every altitude and every other grid it raises. -/
theorem C32_rpc_counterexample (r : Rpc K) (row0 col0 steprow stepcol : K) (nbrow nbcol : ℕ) (alt : Option K) :
    (∃ out, rpcDirectLocGridH r row0 col0 steprow stepcol nbrow nbcol alt = .ok out) ↔ nbrow = 0 ∨ nbcol = 0 := by
  simp only [rpcDirectLocGridH]
  constructor
  · rintro ⟨out, h⟩
    by_contra hne
    rw [not_or] at hne
    obtain ⟨n, rfl⟩ := Nat.exists_eq_succ_of_ne_zero hne.1
    obtain ⟨m, rfl⟩ := Nat.exists_eq_succ_of_ne_zero hne.2
    simp only [Nat.succ_eq_add_one, List.range_succ_eq_map, List.flatMap_cons, List.map_cons, List.cons_append, mapExcept] at h
    split at h
    · simp at h
    · rename_i b hb
      split at hb <;> simp at hb
  · rintro (rfl | rfl)
    · refine ⟨[], ?_⟩
      have : ∀ l : List ℕ, (l.flatMap fun _ => ([] : List (K × K))) = [] := by simp
      simp only [List.range_zero, List.map_nil, this, mapExcept]
    · exact ⟨[], rfl⟩

end Shareloc
