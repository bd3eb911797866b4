import Verif.Model.Parallel
import Verif.Props.Rpc
import Mathlib.Data.List.Perm.Basic
import Mathlib.Data.List.Nodup

/-! C85: the parallel loops give the same result under every schedule. -/

set_option linter.unusedSectionVars false

namespace Shareloc
variable {K : Type*} [Field K] [LinearOrder K] [IsStrictOrderedRing K]

/-! ### Interleavings -/

theorem Interleaving.perm {β : Type*} {ts : List (List (Assign β))} {l : List (Assign β)} (h : Interleaving ts l) :
    l.Perm ts.flatten := by
  induction h with
  | done h =>
    rename_i ts
    have : ts.flatten = [] := List.flatten_eq_nil_iff.mpr h
    rw [this]
  | step _ ih =>
    rename_i before after a rest l _
    simp only [List.flatten_append, List.flatten_cons, List.cons_append] at ih ⊢
    exact (List.Perm.cons a ih).trans List.perm_middle.symm

/-- The cells written are distinct. -/
def DistinctCells {β : Type*} (l : List (Assign β)) : Prop := l.Pairwise fun a b => ¬ (a.array = b.array ∧ a.index = b.index)

theorem runAll_not_written {β : Type*} (l : List (Assign β)) (m : Mem β) (k i : ℕ)
    (h : ∀ a ∈ l, ¬ (k = a.array ∧ i = a.index)) : runAll l m k i = m k i := by
  induction l generalizing m with
  | nil => rfl
  | cons a l ih =>
    show runAll l (a.run m) k i = m k i
    rw [ih (a.run m) (fun b hb => h b (List.mem_cons_of_mem a hb))]
    unfold Assign.run
    rw [if_neg (h a List.mem_cons_self)]

theorem runAll_written {β : Type*} (l : List (Assign β)) (m : Mem β) (hd : DistinctCells l) (a : Assign β) (ha : a ∈ l) :
    runAll l m a.array a.index = a.value := by
  induction l generalizing m with
  | nil => cases ha
  | cons b l ih =>
    obtain ⟨h1, h2⟩ := List.pairwise_cons.mp hd
    show runAll l (b.run m) a.array a.index = a.value
    rcases List.mem_cons.mp ha with rfl | h
    · rw [runAll_not_written l _ _ _ (fun c hc => h1 c hc)]
      unfold Assign.run
      rw [if_pos ⟨rfl, rfl⟩]
    · exact ih _ h2 h

theorem runAll_perm {β : Type*} {l l' : List (Assign β)} (hp : l.Perm l') (hd : DistinctCells l') (m : Mem β) :
    runAll l m = runAll l' m := by
  have hd' : DistinctCells l :=
    (List.Perm.pairwise_iff (fun {a b} h hc => h ⟨hc.1.symm, hc.2.symm⟩) hp).mpr hd
  funext k i
  by_cases h : ∃ a ∈ l, k = a.array ∧ i = a.index
  · obtain ⟨a, ha, rfl, rfl⟩ := h
    rw [runAll_written l m hd' a ha, runAll_written l' m hd a (hp.subset ha)]
  · push Not at h
    rw [runAll_not_written l m k i (fun a ha hc => h a ha hc.1 hc.2),
      runAll_not_written l' m k i (fun a ha hc => h a (hp.symm.subset ha) hc.1 hc.2)]

theorem flatten_map_flatMap {α β : Type*} (f : α → List β) (cs : List (List α)) :
    (cs.map fun c => c.flatMap f).flatten = cs.flatten.flatMap f := by
  induction cs with
  | nil => rfl
  | cons c cs ih => simp only [List.map_cons, List.flatten_cons, List.flatMap_append, ih]

theorem distinct_flatMap {β : Type*} (prog : ℕ → List (Assign β)) (h1 : ∀ i, ∀ a ∈ prog i, a.index = i)
    (h2 : ∀ i, DistinctCells (prog i)) (l : List ℕ) (hl : l.Nodup) : DistinctCells (l.flatMap prog) := by
  induction l with
  | nil => exact List.Pairwise.nil
  | cons i l ih =>
    obtain ⟨hi, hl'⟩ := List.nodup_cons.mp hl
    simp only [List.flatMap_cons]
    refine List.pairwise_append.mpr ⟨h2 i, ih hl', ?_⟩
    intro a ha b hb hc
    obtain ⟨j, hj, hb'⟩ := List.mem_flatMap.mp hb
    have e1 := h1 i a ha
    have e2 := h1 j b hb'
    rw [e1, e2] at hc
    exact hi (hc.2 ▸ hj)

/-- C85. A parallel loop whose iterations assign cells of their own index, each cell once, leaves the same arrays as
the sequential loop — whatever the number of threads, the iterations each one runs and the interleaving of their
assignments. -/
theorem C85_any_schedule {β : Type*} (prog : ℕ → List (Assign β)) (h1 : ∀ i, ∀ a ∈ prog i, a.index = i)
    (h2 : ∀ i, DistinctCells (prog i)) (n : ℕ) (init final : Mem β) (h : ParallelLoop prog n init final) :
    final = runAll ((List.range n).flatMap prog) init := by
  obtain ⟨chunks, l, hp, hi, rfl⟩ := h
  have h3 := hi.perm
  rw [flatten_map_flatMap] at h3
  exact runAll_perm (h3.trans (hp.flatMap_right prog)) (distinct_flatMap prog h1 h2 _ List.nodup_range) init

/-- The sequential loop is one of the schedules. -/
theorem interleaving_single {β : Type*} (l : List (Assign β)) : Interleaving [l] l := by
  induction l with
  | nil => exact .done (by simp)
  | cons a l ih => exact .step (before := []) (after := []) ih

theorem parallel_sequential {β : Type*} (prog : ℕ → List (Assign β)) (n : ℕ) (init : Mem β) :
    ParallelLoop prog n init (runAll ((List.range n).flatMap prog) init) :=
  ⟨[List.range n], _, by simp, interleaving_single _, rfl⟩

theorem final_value {β : Type*} (prog : ℕ → List (Assign β)) (h1 : ∀ i, ∀ a ∈ prog i, a.index = i)
    (h2 : ∀ i, DistinctCells (prog i)) (n : ℕ) (init final : Mem β) (h : ParallelLoop prog n init final) (i : ℕ) (hi : i < n)
    (k : ℕ) (v : β) (ha : (⟨k, i, v⟩ : Assign β) ∈ prog i) : final k i = v := by
  rw [C85_any_schedule prog h1 h2 n init final h]
  exact runAll_written _ init (distinct_flatMap prog h1 h2 _ List.nodup_range) ⟨k, i, v⟩
    (List.mem_flatMap.mpr ⟨i, List.mem_range.mpr hi, ha⟩)

/-! ### The two loops of the RPC module -/

theorem invProg_index (r : Rpc K) (q : RatCoefs K) (p : ℕ → ORow K) (i : ℕ) : ∀ a ∈ invProg r q p i, a.index = i := by
  unfold invProg
  split <;> intro a ha <;> simp only [List.mem_cons, List.not_mem_nil, or_false] at ha <;> rcases ha with rfl | rfl <;> rfl

theorem invProg_distinct (r : Rpc K) (q : RatCoefs K) (p : ℕ → ORow K) (i : ℕ) : DistinctCells (invProg r q p i) := by
  unfold invProg DistinctCells
  split <;> simp

theorem invProg_values (r : Rpc K) (q : RatCoefs K) (p : ℕ → ORow K) (i : ℕ) :
    (⟨0, i, (invPointPy r q (p i)).y⟩ : Assign (Option K)) ∈ invProg r q p i ∧
    (⟨1, i, (invPointPy r q (p i)).x⟩ : Assign (Option K)) ∈ invProg r q p i := by
  unfold invProg invPointPy
  generalize checkRow (p i) = c
  rcases c with ⟨_ | a, _ | b, _ | z⟩ <;> simp [nanRow]

theorem invPointPy_z (r : Rpc K) (q : RatCoefs K) (p : ORow K) : (checkRow p).z = (invPointPy r q p).z := by
  unfold invPointPy
  have hc : ∀ p : ORow K, checkRow p = nanRow ∨ ∃ a b c, checkRow p = ⟨some a, some b, some c⟩ := by
    intro p
    rcases p with ⟨_ | a, _ | b, _ | z⟩ <;> first | exact Or.inl rfl | skip
    simp only [checkRow]
    split
    · exact Or.inl rfl
    · exact Or.inr ⟨_, _, _, rfl⟩
  rcases hc p with h | ⟨a, b, c, h⟩ <;> rw [h] <;> rfl

/-- C85. Every schedule of the parallel loop makes `inverse_loc` return the row of each point: the result does not depend
on the number of threads, on the dealing of the points or on the order of the assignments. -/
theorem C85_inverse_loc (r : Rpc K) (q : RatCoefs K) (rows out : List (ORow K)) (h : ParallelInverse r q rows out) :
    out = rows.map (invPointPy r q) := by
  obtain ⟨final, hf, rfl⟩ := h
  apply List.ext_getElem?
  intro i
  by_cases hi : i < rows.length
  · have e1 := final_value _ (invProg_index r q _) (invProg_distinct r q _) _ _ _ hf i hi 1 _ (invProg_values r q _ i).2
    have e0 := final_value _ (invProg_index r q _) (invProg_distinct r q _) _ _ _ hf i hi 0 _ (invProg_values r q _ i).1
    have eg : rows.getD i nanRow = rows[i] := by simp [hi]
    rw [List.getElem?_map, List.getElem?_range hi, List.getElem?_map, List.getElem?_eq_getElem hi]
    simp only [Option.map_some]
    rw [e1, e0, invPointPy_z r q, eg]
  · rw [List.getElem?_eq_none (by simp; omega), List.getElem?_eq_none (by simp; omega)]

/-- C85. With the sizes `inverse_loc` accepts, the result of every schedule is the one of C21. -/
theorem C85_inverse_loc_api (r : Rpc K) (q : RatCoefs K) (hq : r.inverse = some q) (lon lat alt : List (Option K))
    (hlat : lat.length = lon.length) (halt : alt.length = lon.length) (out : List (ORow K))
    (h : ParallelInverse r q ((lon.zip (lat.zip alt)).map fun t => ⟨t.1, t.2.1, t.2.2⟩) out) :
    inverseLocPy r lon lat alt = .ok (.rows out) := by
  rw [C85_inverse_loc r q _ _ h]
  simp only [inverseLocPy, hq, broadcastAlt, if_pos halt, stack3]
  rw [if_pos ⟨hlat.symm, halt.symm⟩]

/-- C85. Every schedule gives the derivatives of each point. -/
theorem C85_derivatives (r : Rpc K) (q : RatCoefs K) (pts : List (K × K × K)) (out : List (K × K × K × K))
    (h : ParallelDeriv r q pts out) : out = pts.map fun p => invDerivPy r q p.1 p.2.1 p.2.2 := by
  obtain ⟨final, hf, rfl⟩ := h
  have h1 : ∀ i, ∀ a ∈ derivProg r q (fun i => pts.getD i (0, 0, 0)) i, a.index = i := by
    intro i a ha
    simp only [derivProg, List.mem_cons, List.not_mem_nil, or_false] at ha
    rcases ha with rfl | rfl | rfl | rfl <;> rfl
  have h2 : ∀ i, DistinctCells (derivProg r q (fun i => pts.getD i (0, 0, 0)) i) := by
    intro i
    simp [derivProg, DistinctCells]
  apply List.ext_getElem?
  intro i
  by_cases hi : i < pts.length
  · have key := fun k v hv => final_value _ h1 h2 _ _ _ hf i hi k v hv
    have eg : pts.getD i (0, 0, 0) = pts[i] := by simp [hi]
    rw [List.getElem?_map, List.getElem?_range hi, List.getElem?_map, List.getElem?_eq_getElem hi]
    simp only [Option.map_some]
    rw [key 0 (invDerivPy r q (pts.getD i (0, 0, 0)).1 (pts.getD i (0, 0, 0)).2.1 (pts.getD i (0, 0, 0)).2.2).1 (by simp [derivProg]),
      key 1 (invDerivPy r q (pts.getD i (0, 0, 0)).1 (pts.getD i (0, 0, 0)).2.1 (pts.getD i (0, 0, 0)).2.2).2.1 (by simp [derivProg]),
      key 2 (invDerivPy r q (pts.getD i (0, 0, 0)).1 (pts.getD i (0, 0, 0)).2.1 (pts.getD i (0, 0, 0)).2.2).2.2.1 (by simp [derivProg]),
      key 3 (invDerivPy r q (pts.getD i (0, 0, 0)).1 (pts.getD i (0, 0, 0)).2.1 (pts.getD i (0, 0, 0)).2.2).2.2.2 (by simp [derivProg]), eg]
  · rw [List.getElem?_eq_none (by simp; omega), List.getElem?_eq_none (by simp; omega)]

/-- The hypotheses of C85 are met: there is always an execution. -/
theorem C85_has_execution (r : Rpc K) (q : RatCoefs K) (rows : List (ORow K)) : ∃ out, ParallelInverse r q rows out :=
  ⟨_, _, parallel_sequential _ _ _, rfl⟩

/-- Two threads, three iterations, the assignments of an iteration of one thread falling between those of the other. -/
example : ∃ final, ParallelLoop (fun i => [⟨0, i, 10 + i⟩, ⟨1, i, 20 + i⟩]) 3 (fun _ _ => 0) final ∧
    final 0 2 = 12 ∧ final 1 0 = 20 := by
  refine ⟨_, ⟨[[2, 0], [1]], [⟨0, 2, 12⟩, ⟨0, 1, 11⟩, ⟨1, 2, 22⟩, ⟨0, 0, 10⟩, ⟨1, 1, 21⟩, ⟨1, 0, 20⟩], by decide, ?_, rfl⟩, by decide, by decide⟩
  refine .step (before := []) (rest := [⟨1, 2, 22⟩, ⟨0, 0, 10⟩, ⟨1, 0, 20⟩]) (after := [[⟨0, 1, 11⟩, ⟨1, 1, 21⟩]]) ?_
  refine .step (before := [[⟨1, 2, 22⟩, ⟨0, 0, 10⟩, ⟨1, 0, 20⟩]]) (rest := [⟨1, 1, 21⟩]) (after := []) ?_
  refine .step (before := []) (rest := [⟨0, 0, 10⟩, ⟨1, 0, 20⟩]) (after := [[⟨1, 1, 21⟩]]) ?_
  refine .step (before := []) (rest := [⟨1, 0, 20⟩]) (after := [[⟨1, 1, 21⟩]]) ?_
  refine .step (before := [[⟨1, 0, 20⟩]]) (rest := []) (after := []) ?_
  refine .step (before := []) (rest := []) (after := [[]]) ?_
  exact .done (by simp)

end Shareloc
