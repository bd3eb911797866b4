import Verif.Model.Rpc

/-!
The `prange` loops of `compute_rational_function_polynomial` (rpc.py:717-731) and
`compute_loc_inverse_derivates_numba` (rpc.py:837-865), compiled by numba with `parallel=True`: several threads share the
output arrays, each runs some of the iterations, and their assignments interleave in any way.
-/

namespace Shareloc
variable {K : Type*} [Field K] [LinearOrder K] [IsStrictOrderedRing K]

/-- One assignment `array[index] = value` (rpc.py:727-728, 860-863); `array` numbers the output arrays. -/
structure Assign (β : Type*) where
  array : ℕ
  index : ℕ
  value : β

/-- The output arrays (rpc.py:718-719, 837-840): array number, index. -/
abbrev Mem (β : Type*) := ℕ → ℕ → β

/-- One assignment executed on the shared arrays (rpc.py:727). -/
def Assign.run {β : Type*} (a : Assign β) (m : Mem β) : Mem β :=
  fun k i => if k = a.array ∧ i = a.index then a.value else m k i

/-- Assignments executed in order (rpc.py:722-728). -/
def runAll {β : Type*} (l : List (Assign β)) (m : Mem β) : Mem β := l.foldl (fun m a => a.run m) m

/-- The interleavings of the threads of a parallel region (rpc.py:672 `parallel`): at each step one thread executes its
next assignment. -/
inductive Interleaving {β : Type*} : List (List (Assign β)) → List (Assign β) → Prop
  | done {ts : List (List (Assign β))} : (∀ t ∈ ts, t = []) → Interleaving ts []
  | step {before after : List (List (Assign β))} {a : Assign β} {rest : List (Assign β)} {l : List (Assign β)} :
      Interleaving (before ++ rest :: after) l → Interleaving (before ++ (a :: rest) :: after) (a :: l)

/-- The output arrays a parallel loop over `n` elements may leave (rpc.py:722-731): the iterations are dealt to some
threads in any way, every thread runs its iterations in its own order, the assignments interleave.  `prog i` is the list
of assignments of the iteration `i`. -/
def ParallelLoop {β : Type*} (prog : ℕ → List (Assign β)) (n : ℕ) (init final : Mem β) : Prop :=
  ∃ (chunks : List (List ℕ)) (l : List (Assign β)), chunks.flatten.Perm (List.range n) ∧
    Interleaving (chunks.map fun c => c.flatMap prog) l ∧ final = runAll l init

/-- One iteration of `compute_rational_function_polynomial` called by `inverse_loc` (rpc.py:723-728 with 361-387): array 0
is `col_lat_out`, array 1 is `row_lon_out`.  `p` is the checked row; NaN inputs give NaN. -/
def invProg (r : Rpc K) (q : RatCoefs K) (p : ℕ → ORow K) (i : ℕ) : List (Assign (Option K)) :=
  match checkRow (p i) with
  | ⟨some lon, some lat, some alt⟩ =>
    let cr := ratPointPy q ((lon - r.offX) / r.scX) ((lat - r.offY) / r.scY) ((alt - r.offAlt) / r.scAlt)
      r.scCol r.offCol r.scRow r.offRow
    [⟨0, i, cr.1⟩, ⟨1, i, cr.2⟩]
  | _ => [⟨0, i, none⟩, ⟨1, i, none⟩]

/-- The results `inverse_loc` (rpc.py:361-390) may return for the rows `(lon, lat, alt)` with the parallel loop: the
output arrays start from zeros (rpc.py:718-719). -/
def ParallelInverse (r : Rpc K) (q : RatCoefs K) (rows out : List (ORow K)) : Prop :=
  ∃ final : Mem (Option K),
    ParallelLoop (invProg r q fun i => rows.getD i nanRow) rows.length (fun _ _ => some 0) final ∧
    out = (List.range rows.length).map fun i => ⟨final 1 i, final 0 i, (checkRow (rows.getD i nanRow)).z⟩

/-- One iteration of `compute_loc_inverse_derivates_numba` (rpc.py:843-863): arrays 0 to 3 are `dcol_dlon`, `dcol_dlat`,
`drow_dlon` and `drow_dlat`. -/
def derivProg (r : Rpc K) (q : RatCoefs K) (p : ℕ → K × K × K) (i : ℕ) : List (Assign K) :=
  let d := invDerivPy r q (p i).1 (p i).2.1 (p i).2.2
  [⟨0, i, d.1⟩, ⟨1, i, d.2.1⟩, ⟨2, i, d.2.2.1⟩, ⟨3, i, d.2.2.2⟩]

/-- The derivatives `compute_loc_inverse_derivates` (rpc.py:426-460, 837-865) may return with the parallel loop. -/
def ParallelDeriv (r : Rpc K) (q : RatCoefs K) (pts : List (K × K × K)) (out : List (K × K × K × K)) : Prop :=
  ∃ final : Mem K, ParallelLoop (derivProg r q fun i => pts.getD i (0, 0, 0)) pts.length (fun _ _ => 0) final ∧
    out = (List.range pts.length).map fun i => (final 0 i, final 1 i, final 2 i, final 3 i)

end Shareloc
