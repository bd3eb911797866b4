import Verif.Model.CppDtm
import Verif.Props.Affine
import Verif.Props.Bilinear
import Verif.Props.March

/-! The in-memory C++ object against the model of the intersection. -/

set_option linter.unusedSectionVars false

namespace Shareloc
open Spec
variable {K : Type} [Field K] [LinearOrder K] [IsStrictOrderedRing K] [FloorRing K]

theorem rd_of_getElem? {α : Type} {v : List α} {i : ℤ} {x : α} (hi : 0 ≤ i) (h : v[i.toNat]? = some x) : rd v i = .ok x := by
  unfold rd
  rw [if_neg (not_lt.2 hi), h]

theorem rd_nat {α : Type} {v : List α} {i : ℕ} {x : α} (h : v[i]? = some x) : rd v (i : ℤ) = .ok x :=
  rd_of_getElem? (by omega) (by simpa using h)

theorem rd_append {α : Type} (p : List α) (x : α) (q : List α) : rd (p ++ x :: q) (p.length : ℤ) = .ok x :=
  rd_nat (by simp)

theorem wr_append {α : Type} (p : List α) (x y : α) (q : List α) : wr (p ++ x :: q) (p.length : ℤ) y = .ok (p ++ y :: q) := by
  unfold wr
  rw [if_pos ⟨by omega, by simp only [List.length_append, List.length_cons]; omega⟩]
  simp

/-- The object holds the attributes of the DTM `d`, in the layout that the C++ code expects. -/
structure Represents (o : CppDtm K) (d : Dtm K) : Prop where
  rows2 : 2 ≤ d.nbRows
  cols2 : 2 ≤ d.nbCols
  rows : o.nbRows = d.nbRows
  cols : o.nbCols = d.nbCols
  data : ∀ i j : ℤ, IsNode d.nbRows d.nbCols i j → rd o.altData (i * d.nbCols + j) = .ok (d.alt i j)
  minCell : ∀ i j : ℤ, IsCell d.nbRows d.nbCols i j → rd o.altMinCell (i * ((d.nbCols : ℤ) - 1) + j) = .ok (altMinCellPy d.alt i j)
  maxCell : ∀ i j : ℤ, IsCell d.nbRows d.nbCols i j → rd o.altMaxCell (i * ((d.nbCols : ℤ) - 1) + j) = .ok (altMaxCellPy d.alt i j)
  coefA : o.coefA = ![1, 1, 0, 0, 0, 0]
  coefB : o.coefB = ![0, 0, 1, 1, 0, 0]
  coefC : o.coefC = ![0, 0, 0, 0, 1, 1]
  coefD : o.coefD = planeD d
  tol : o.tolZ = tolZ
  inv : o.transInv = d.transform.toGdal.inv
  trans : o.transform = d.transform.toGdal

namespace Represents
variable {o : CppDtm K} {d : Dtm K}

theorem eqPlan (h : Represents o d) (k : Fin 6) (p : V3 K) : o.eqPlan k p = Shareloc.eqPlan d k p := by
  unfold CppDtm.eqPlan
  rw [h.coefA, h.coefB, h.coefC, h.coefD]
  fin_cases k <;> simp [Shareloc.eqPlan]

theorem terToIndex (h : Represents o d) (v : V3 K) : o.terToIndex v = terToIndexPy d.transform v := by
  rw [← C02_cpp_ter_to_index]
  unfold CppDtm.terToIndex terToIndexCpp
  rw [h.inv]

theorem indexToTer (h : Represents o d) (v : V3 K) : o.indexToTer v = indexToTerPy d.transform v := by
  rw [← C02_cpp_index_to_ter]
  unfold CppDtm.indexToTer indexToTerCpp
  rw [h.trans]

theorem interpolate (h : Represents o d) (row col : K) : o.interpolate row col = .ok (d.interpolate row col) := by
  have hr : (2 : ℤ) ≤ d.nbRows := by exact_mod_cast h.rows2
  have hc : (2 : ℤ) ≤ d.nbCols := by exact_mod_cast h.cols2
  obtain ⟨a1, a2⟩ := lowerShift_range hr row
  obtain ⟨b1, b2⟩ := lowerShift_range hc col
  have er : CppDtm.lowerShift o.nbRows row = lowerShift (d.nbRows : ℤ) row := by
    rw [h.rows]; simp only [CppDtm.lowerShift, lowerShift]; push_cast; rfl
  have ec : CppDtm.lowerShift o.nbCols col = lowerShift (d.nbCols : ℤ) col := by
    rw [h.cols]; simp only [CppDtm.lowerShift, lowerShift]; push_cast; rfl
  unfold CppDtm.interpolate
  simp only [er, ec]
  rw [h.cols, h.data _ _ ⟨by omega, by omega, by omega, by omega⟩, h.data _ _ ⟨by omega, by omega, by omega, by omega⟩,
    h.data _ _ ⟨by omega, by omega, by omega, by omega⟩, h.data _ _ ⟨by omega, by omega, by omega, by omega⟩]
  rfl

theorem onCube (h : Represents o d) (p : V3 K) : o.onCube p = Shareloc.onCube d p := by
  unfold CppDtm.onCube Shareloc.onCube
  rw [h.coefD]

theorem crossing (h : Represents o d) (k : Fin 6) (layer : ℕ) (a b : V3 K) : o.crossing k layer a b = crossingOf d k layer a b := by
  unfold CppDtm.crossing crossingOf
  simp only [h.eqPlan, h.coefD]

/-- How the errors of the box intersection are seen in C++. -/
def cubeFault {α : Type} : Except CubeError α → Except CppFault α
  | .error _ => .error .tooMany
  | .ok x => .ok x

theorem faceLoop (h : Represents o d) (k : Fin 6) (los : List (V3 K)) : ∀ (rest pre : List (V3 K)) (a : V3 K), los = pre ++ rest →
    o.faceLoop k los rest.length pre.length a = cubeFault (faceScan .cpp d k a pre.length rest)
  | [], pre, a, _ => rfl
  | b :: rest, pre, a, hl => by
    have hrd : rd los (pre.length : ℤ) = .ok b := by rw [hl]; exact rd_append _ _ _
    have ih := faceLoop h k los rest (pre ++ [b]) b (by rw [hl]; simp)
    rw [List.length_append, List.length_singleton] at ih
    simp only [List.length_cons, CppDtm.faceLoop, faceScan, hrd, bind, Except.bind, h.eqPlan, h.crossing, true_and]
    by_cases h1 : Shareloc.eqPlan d k a * Shareloc.eqPlan d k b ≤ 0
    · rw [if_pos h1, if_pos h1]
      by_cases h2 : Shareloc.eqPlan d k a = 0 ∧ Shareloc.eqPlan d k b = 0
      · rw [if_pos h2, if_pos h2]; rfl
      · rw [if_neg h2, if_neg h2]; rfl
    · rw [if_neg h1, if_neg h1, ih]

theorem planeLoop (h : Represents o d) (los : List (V3 K)) (hne : los ≠ []) : ∀ (ks : List (Fin 6)) (v : List (Crossing K)),
    o.planeLoop los ks v = (cubeFault (faceHits .cpp d los ks)).map (v ++ ·)
  | [], v => by simp [CppDtm.planeLoop, faceHits, cubeFault, Except.map]
  | k :: ks, v => by
    obtain ⟨a, rest, rfl⟩ := List.exists_cons_of_ne_nil hne
    have h0 : rd (a :: rest) 0 = .ok a := rd_append [] a rest
    have hf := faceLoop h k (a :: rest) (a :: rest) [] a rfl
    have ih := planeLoop h (a :: rest) hne ks
    simp only [List.length_nil] at hf
    simp only [CppDtm.planeLoop, faceHits, faceHit, h0, bind, Except.bind, hf]
    cases hs : faceScan .cpp d k a 0 (a :: rest) with
    | error e => rfl
    | ok r =>
      cases r with
      | none => simp only [cubeFault]; rw [ih]; rfl
      | some c =>
        simp only [cubeFault]
        rw [ih]
        cases faceHits .cpp d (a :: rest) ks with
        | error e => rfl
        | ok cs => simp [cubeFault, Except.map]

end Represents

theorem exchangePass_len (x : Crossing K) (l : List (Crossing K)) : (exchangePass x l).2.length = l.length := by
  induction l generalizing x with
  | nil => rfl
  | cons y ys ih => simp only [exchangePass]; split_ifs <;> simp [ih]

theorem sortInner_eq (pre : List (Crossing K)) : ∀ (rest done : List (Crossing K)) (x : Crossing K),
    CppDtm.sortInner pre.length rest.length (pre.length + 1 + done.length) (pre ++ x :: (done ++ rest)) =
      .ok (pre ++ (exchangePass x rest).1 :: (done ++ (exchangePass x rest).2))
  | [], done, x => rfl
  | y :: ys, done, x => by
    have hj : rd (pre ++ x :: (done ++ y :: ys)) ((pre.length + 1 + done.length : ℕ) : ℤ) = .ok y := by
      have := rd_append (pre ++ x :: done) y ys
      simpa [add_assoc, add_comm, add_left_comm] using this
    have hi := rd_append pre x (done ++ y :: ys)
    have hw1 := wr_append pre x y (done ++ y :: ys)
    have hw2 : wr (pre ++ y :: (done ++ y :: ys)) ((pre.length + 1 + done.length : ℕ) : ℤ) x = .ok (pre ++ y :: (done ++ x :: ys)) := by
      have := wr_append (pre ++ y :: done) y x ys
      simpa [add_assoc, add_comm, add_left_comm] using this
    have ih1 := sortInner_eq pre ys (done ++ [x]) y
    have ih2 := sortInner_eq pre ys (done ++ [y]) x
    simp only [List.length_append, List.length_singleton, List.append_assoc, List.singleton_append] at ih1 ih2
    simp only [List.length_cons, CppDtm.sortInner, exchangePass, hj, hi, bind, Except.bind]
    by_cases hlt : y.h < x.h
    · rw [if_pos hlt, if_pos hlt, hw1]
      simp only [hw2]
      rw [add_assoc _ _ 1, ih1]
    · rw [if_neg hlt, if_neg hlt, add_assoc _ _ 1, ih2]

theorem sortOuter_eq : ∀ (l pre : List (Crossing K)),
    CppDtm.sortOuter (pre.length + l.length) l.length pre.length (pre ++ l) = .ok (pre ++ exchangeLoop l.length l) := by
  intro l
  induction hn : l.length generalizing l with
  | zero => intro pre; simp only [List.length_eq_zero_iff.1 hn]; rfl
  | succ n ih =>
    intro pre
    obtain ⟨x, xs, rfl⟩ : ∃ x xs, l = x :: xs := by
      cases l with
      | nil => simp at hn
      | cons x xs => exact ⟨x, xs, rfl⟩
    have hx : xs.length = n := by simpa using hn
    have h1 := sortInner_eq pre xs [] x
    simp only [List.length_nil, Nat.add_zero, List.nil_append] at h1
    have h2 := ih (exchangePass x xs).2 (by rw [exchangePass_len]; exact hx) (pre ++ [(exchangePass x xs).1])
    simp only [List.length_append, List.length_singleton, List.append_assoc, List.singleton_append] at h2
    simp only [CppDtm.sortOuter, exchangeLoop, bind, Except.bind]
    have e : pre.length + (n + 1) - (pre.length + 1) = xs.length := by omega
    rw [e, h1]
    have e2 : pre.length + 1 + n = pre.length + (n + 1) := by omega
    rw [e2] at h2
    exact h2

theorem shiftLoop_eq : ∀ (rest pre : List (Crossing K)) (y : Crossing K) (tail : List (Crossing K)),
    ∃ w, CppDtm.shiftLoop rest.length (pre.length + 1) (pre ++ y :: (rest ++ tail)) = .ok (pre ++ (rest ++ w))
  | [], pre, y, tail => ⟨y :: tail, rfl⟩
  | z :: zs, pre, y, tail => by
    obtain ⟨w, hw⟩ := shiftLoop_eq zs (pre ++ [z]) z tail
    refine ⟨w, ?_⟩
    have hj : rd (pre ++ y :: (z :: zs ++ tail)) ((pre.length + 1 : ℕ) : ℤ) = .ok z := by
      have := rd_append (pre ++ [y]) z (zs ++ tail)
      simpa using this
    have hw1 : wr (pre ++ y :: (z :: zs ++ tail)) (((pre.length + 1 : ℕ) : ℤ) - 1) z = .ok (pre ++ z :: (z :: zs ++ tail)) := by
      have := wr_append pre y z (z :: zs ++ tail)
      simpa using this
    simp only [List.length_append, List.length_singleton, List.append_assoc, List.singleton_append] at hw
    simp only [List.length_cons, CppDtm.shiftLoop, hj, hw1, bind, Except.bind]
    rw [List.cons_append, hw]
    rfl

theorem filterLoop_eq (o : CppDtm K) : ∀ (n : ℕ) (rest kept tail : List (Crossing K)), rest.length < n →
    ∃ w, o.filterLoop n kept.length (kept.length + rest.length) (kept ++ (rest ++ tail)) =
      .ok (kept.length + (rest.filter fun c => o.onCube c.p).length, kept ++ ((rest.filter fun c => o.onCube c.p) ++ w))
  | 0, rest, kept, tail, h => absurd h (Nat.not_lt_zero _)
  | n + 1, [], kept, tail, _ => ⟨tail, by simp [CppDtm.filterLoop]⟩
  | n + 1, x :: xs, kept, tail, h => by
    have hrd : rd (kept ++ (x :: xs ++ tail)) (kept.length : ℤ) = .ok x := by
      have := rd_append kept x (xs ++ tail)
      simpa using this
    simp only [List.length_cons] at h
    simp only [List.length_cons, CppDtm.filterLoop, hrd, bind, Except.bind]
    rw [if_pos (by omega)]
    by_cases hx : o.onCube x.p = true
    · obtain ⟨w, hw⟩ := filterLoop_eq o n xs (kept ++ [x]) tail (by omega)
      refine ⟨w, ?_⟩
      simp only [List.length_append, List.length_singleton, List.append_assoc, List.singleton_append] at hw
      rw [if_pos hx, List.filter_cons_of_pos (by simpa using hx), List.cons_append]
      rw [show kept.length + (xs.length + 1) = kept.length + 1 + xs.length by omega, hw]
      simp only [List.length_cons, List.cons_append]
      rw [show kept.length + 1 + (List.filter (fun c => o.onCube c.p) xs).length = kept.length + ((List.filter (fun c => o.onCube c.p) xs).length + 1) by omega]
    · obtain ⟨w1, hw1⟩ := shiftLoop_eq xs kept x tail
      obtain ⟨w, hw⟩ := filterLoop_eq o n xs kept w1 (by omega)
      refine ⟨w, ?_⟩
      rw [if_neg hx, List.filter_cons_of_neg (by simpa using hx)]
      rw [show kept.length + (xs.length + 1) - (kept.length + 1) = xs.length by omega,
        show kept.length + (xs.length + 1) - 1 = kept.length + xs.length by omega, List.cons_append, hw1]
      exact hw

theorem Represents.cube {o : CppDtm K} {d : Dtm K} (h : Represents o d) (los : List (V3 K)) (hne : los ≠ []) :
    o.cube los = Represents.cubeFault (intersectDtmCube .cpp d los) := by
  have hli : los.map o.terToIndex = tersToIndexsPy d.transform los := by
    unfold tersToIndexsPy
    exact List.map_congr_left fun v _ => h.terToIndex v
  have hne' : tersToIndexsPy d.transform los ≠ [] := by unfold tersToIndexsPy; simpa using hne
  unfold CppDtm.cube intersectDtmCube cubeOfIndex
  simp only [hli, h.planeLoop _ hne', bind, Except.bind]
  cases hf : faceHits .cpp d (tersToIndexsPy d.transform los) [0, 1, 2, 3, 4, 5] with
  | error e => rfl
  | ok cs =>
    have hs := sortOuter_eq cs []
    simp only [List.length_nil, Nat.zero_add, List.nil_append] at hs
    simp only [Represents.cubeFault, Except.map, List.nil_append, hs]
    have hlen : (exchangeSort cs).length = cs.length := by
      have : ∀ (n : ℕ) (l : List (Crossing K)), (exchangeLoop n l).length = l.length := by
        intro n
        induction n with
        | zero => intro l; rfl
        | succ n ih => intro l; cases l with
          | nil => rfl
          | cons x xs => simp only [exchangeLoop, List.length_cons, ih, exchangePass_len]
      exact this _ _
    obtain ⟨w, hw⟩ := filterLoop_eq o (cs.length + 1) (exchangeSort cs) [] [] (by rw [hlen]; omega)
    simp only [List.length_nil, Nat.zero_add, List.nil_append, List.append_nil, hlen] at hw
    have hff : (exchangeSort cs).filter (fun c => o.onCube c.p) = (exchangeSort cs).filter (fun c => Shareloc.onCube d c.p) := by
      apply List.filter_congr
      intro c _
      rw [h.onCube]
    rw [hff] at hw
    rw [show exchangeLoop cs.length cs = exchangeSort cs from rfl, hw]
    rcases hq : (exchangeSort cs).filter (fun c => Shareloc.onCube d c.p) with _ | ⟨c, _ | ⟨c', t⟩⟩
    · simp [hq]
    · simp [hq]
    · simp [hq, rd]

namespace Represents
variable {o : CppDtm K} {d : Dtm K}

/-- How the outcome of a regula falsi is seen in C++. -/
def falsiFault : Outcome K → Except CppFault (V3 K)
  | .found q => .ok q
  | .nonFinite => .error .nanIndex
  | _ => .error .fuel

/-- How the outcome of the march is seen in C++. -/
def marchFault : Outcome K → Except CppFault (Option (V3 K))
  | .found q => .ok (some q)
  | .notFound => .ok none
  | .nonFinite => .error .nanIndex
  | _ => .error .fuel

theorem falsi (h : Represents o d) : ∀ (n : ℕ) (p1 : V3 K) (a1 : K) (p2 : V3 K) (h2 : K),
    o.falsi n p1 a1 p2 h2 = falsiFault (Shareloc.falsi d.interpolate n p1 a1 p2 h2)
  | 0, p1, a1, p2, h2 => rfl
  | n + 1, p1, a1, p2, h2 => by
    simp only [CppDtm.falsi, Shareloc.falsi, h.interpolate, bind, Except.bind, h.tol, falsi h n]
    split_ifs <;> rfl

theorem falsi_ne_notFound (f : K → K → K) : ∀ (n : ℕ) (p1 : V3 K) (a1 : K) (p2 : V3 K) (h2 : K), Shareloc.falsi f n p1 a1 p2 h2 ≠ .notFound
  | 0, p1, a1, p2, h2 => by simp [Shareloc.falsi]
  | n + 1, p1, a1, p2, h2 => by
    simp only [Shareloc.falsi]
    split_ifs
    · simp
    · exact falsi_ne_notFound f n _ _ _ _
    · exact falsi_ne_notFound f n _ _ _ _
    · simp

theorem marchCells_ne_notFound (d : Dtm K) (N : ℕ) (v0 v1 : V3 K) : ∀ (n : ℕ) (s : March K), marchCells d N v0 v1 n s ≠ .inl .notFound
  | 0, s => by simp [marchCells]
  | n + 1, s => by
    simp only [marchCells]
    split_ifs
    · intro h
      exact falsi_ne_notFound _ _ _ _ _ _ (Sum.inl.inj h)
    · exact marchCells_ne_notFound d N v0 v1 n _
    · exact marchCells_ne_notFound d N v0 v1 n _
    · simp

theorem inside (h : Represents o d) (s : March K) : o.inside s = marchInside d s := by
  unfold CppDtm.inside marchInside
  rw [h.rows, h.cols]

theorem isCell_of_inside {s : March K} (hs : marchInside d s = true) : IsCell d.nbRows d.nbCols s.colC s.rowC := by
  simp only [marchInside, Bool.and_eq_true, decide_eq_true_eq] at hs
  exact ⟨by omega, by omega, by omega, by omega⟩

theorem cellLoop (h : Represents o d) (N : ℕ) (v0 v1 : V3 K) : ∀ (n : ℕ) (s : March K),
    o.cellLoop N v0 v1 n s = match marchCells d N v0 v1 n s with
      | .inl oc => (falsiFault oc).map .inl
      | .inr s' => .ok (.inr s')
  | 0, s => rfl
  | n + 1, s => by
    have ih := cellLoop h N v0 v1 n
    simp only [CppDtm.cellLoop, marchCells, h.inside]
    by_cases hs : marchInside d s = true
    · rw [if_pos hs, if_pos hs, h.cols, h.minCell _ _ (isCell_of_inside hs), h.maxCell _ _ (isCell_of_inside hs)]
      simp only [bind, Except.bind, h.interpolate, h.falsi]
      by_cases h1 : bIntersect v0.z v1.z (altMinCellPy d.alt s.colC s.rowC) (altMaxCellPy d.alt s.colC s.rowC) s.p2.z
          (cellExit v0 ⟨v1.x - v0.x, v1.y - v0.y, v1.z - v0.z⟩ s).p2.z = true
      · rw [if_pos h1, if_pos h1]
        split_ifs with h2
        · rfl
        · exact ih _
      · rw [if_neg h1, if_neg h1]
        exact ih _
    · rw [if_neg hs, if_neg hs]

theorem rd_pyGet (los : List (V3 K)) (i : ℤ) (h0 : 0 ≤ i) (h1 : i < los.length) : rd los i = .ok (pyGet los i) := by
  have hi : i.toNat < los.length := by omega
  unfold pyGet
  rw [if_neg (not_lt.2 h0), List.getD_eq_getElem?_getD, List.getElem?_eq_getElem hi]
  exact rd_of_getElem? h0 (List.getElem?_eq_getElem hi)

theorem rd_alti (n : ℕ) (i : ℤ) (h0 : 0 ≤ i) (h1 : i < n) : rd ((List.range n).map fun (i : ℕ) => (i : K)) i = .ok (i : K) := by
  have hi : i.toNat < n := by omega
  refine rd_of_getElem? h0 ?_
  rw [List.getElem?_map, List.getElem?_range hi, Option.map_some]
  congr 1
  rw [← Int.cast_natCast, Int.toNat_of_nonneg h0]

theorem budget (h : Represents o d) : o.cellBudget = cellFuel d := by
  unfold CppDtm.cellBudget cellFuel
  rw [h.rows, h.cols]
  simp

theorem segmentLoop (h : Represents o d) (N : ℕ) (los : List (V3 K)) : ∀ (n : ℕ) (i0 : ℤ) (p2 : V3 K) (hp2 : K), 0 ≤ i0 →
    o.segmentLoop N los ((List.range (los.length + 1)).map fun (i : ℕ) => (i : K)) n i0 p2 hp2 = marchFault (marchPlanes .cpp d N los n i0 p2 hp2)
  | 0, i0, p2, hp2, _ => rfl
  | n + 1, i0, p2, hp2, h0 => by
    have ih := segmentLoop h N los n (i0 + 1)
    simp only [CppDtm.segmentLoop, marchPlanes]
    by_cases hi : i0 < (los.length : ℤ) - 1
    · rw [if_pos hi, if_pos hi, rd_pyGet los i0 h0 (by omega), rd_pyGet los (i0 + 1) (by omega) (by omega), rd_alti _ _ (by omega) (by push_cast; omega)]
      simp only [bind, Except.bind, h.interpolate, h.inside, h.cellLoop, h.budget]
      by_cases hv : (pyGet los (i0 + 1)).x - (pyGet los i0).x = 0 ∧ (pyGet los (i0 + 1)).y - (pyGet los i0).y = 0
      · rw [if_pos hv, if_pos hv]
        split_ifs
        · rfl
        · exact ih _ _ (by omega)
      · rw [if_neg hv, if_neg hv]
        have hsc : ∀ p dir : K, CppDtm.startCell p dir = Shareloc.startCell .cpp p dir := fun p dir => rfl
        simp only [hsc]
        generalize (⟨p2, Shareloc.startCell .cpp p2.x ((pyGet los (i0 + 1)).x - (pyGet los i0).x),
          Shareloc.startCell .cpp p2.y ((pyGet los (i0 + 1)).y - (pyGet los i0).y), if hp2 - i0 ≥ 1 then 0 else hp2 - i0⟩ : March K) = s0
        by_cases hin : (!marchInside d s0) = true
        · rw [if_pos hin, if_pos hin]; rfl
        · rw [if_neg hin, if_neg hin]
          generalize hm : marchCells d N (pyGet los i0) (pyGet los (i0 + 1)) (cellFuel d) _ = r
          rcases r with oc | s'
          · have hoc : oc ≠ .notFound := fun he => marchCells_ne_notFound d N _ _ _ _ (hm.trans (by rw [he]))
            cases oc <;> first | rfl | exact absurd rfl hoc
          · simp only
            split_ifs
            · rw [ih _ _ (by omega)]
              simp only [altiAt]
            · rfl
    · rw [if_neg hi, if_neg hi]
      rfl

theorem intersection (h : Represents o d) (N : ℕ) (los : List (V3 K)) (pb : V3 K) (hp : K) (h0 : 0 ≤ hp) :
    o.intersection N los pb hp = marchFault (intersectionIdx .cpp d N los pb hp) := by
  simp only [CppDtm.intersection, intersectionIdx, h.interpolate, bind, Except.bind]
  split_ifs
  · rfl
  · exact h.segmentLoop N los _ _ _ _ (Int.floor_nonneg.2 h0)

end Represents

/-- In C++ a crossing reported by the scan of a plane is not before the first vertex. -/
theorem crossingOf_h_nonneg (d : Dtm K) (k : Fin 6) (layer : ℕ) (hl : 1 ≤ layer) (a b : V3 K) (hab : eqPlan d k a * eqPlan d k b ≤ 0) :
    0 ≤ (crossingOf d k layer a b).h := by
  have hl' : (1 : K) ≤ layer := by exact_mod_cast hl
  unfold crossingOf
  simp only
  by_cases h1 : eqPlan d k a = 0
  · rw [if_pos h1]; simp only; linarith
  rw [if_neg h1]
  by_cases h2 : eqPlan d k b = 0
  · rw [if_pos h2]; simp only; linarith
  · rw [if_neg h2]
    simp only
    have : eqPlan d k b / (eqPlan d k b - eqPlan d k a) ≤ 1 := by
      rcases lt_or_gt_of_ne h1 with ha | ha
      · have hb : 0 ≤ eqPlan d k b := by
          by_contra hb
          push Not at hb
          exact absurd hab (not_le.2 (mul_pos_of_neg_of_neg ha hb))
        rw [div_le_one (by linarith)]
        linarith
      · have hb : eqPlan d k b ≤ 0 := by
          by_contra hb
          push Not at hb
          exact absurd hab (not_le.2 (mul_pos ha hb))
        rw [div_le_one_of_neg (by linarith)]
        linarith
    linarith

theorem faceScan_h_nonneg (d : Dtm K) (k : Fin 6) : ∀ (rest : List (V3 K)) (a : V3 K) (layer : ℕ) (c : Crossing K), 1 ≤ layer →
    faceScan .cpp d k a layer rest = .ok (some c) → 0 ≤ c.h
  | [], a, layer, c, _, h => by simp [faceScan] at h
  | b :: rest, a, layer, c, hl, h => by
    simp only [faceScan] at h
    split_ifs at h with h1 h2
    · injection h with h
      injection h with h
      rw [← h]
      exact crossingOf_h_nonneg d k layer hl a b h1
    · exact faceScan_h_nonneg d k rest b (layer + 1) c (by omega) h

theorem faceHit_h_nonneg (d : Dtm K) (k : Fin 6) (los : List (V3 K)) (c : Crossing K) (h : faceHit .cpp d k los = .ok (some c)) : 0 ≤ c.h := by
  cases los with
  | nil => simp [faceHit] at h
  | cons v rest =>
    simp only [faceHit, faceScan] at h
    split_ifs at h with h1 h2
    · exact absurd (by simpa using h1) fun h0 : eqPlan d k v * eqPlan d k v ≤ 0 =>
        h2 ⟨trivial, mul_self_eq_zero.1 (le_antisymm h0 (mul_self_nonneg _)), mul_self_eq_zero.1 (le_antisymm h0 (mul_self_nonneg _))⟩
    · exact faceScan_h_nonneg d k rest v 1 c le_rfl h

theorem faceHits_h_nonneg (d : Dtm K) (los : List (V3 K)) : ∀ (ks : List (Fin 6)) (cs : List (Crossing K)), faceHits .cpp d los ks = .ok cs →
    ∀ c ∈ cs, 0 ≤ c.h
  | [], cs, h, c, hc => by
    simp only [faceHits] at h
    injection h with h
    rw [← h] at hc
    simp at hc
  | k :: ks, cs, h, c, hc => by
    simp only [faceHits] at h
    cases hf : faceHit .cpp d k los with
    | error e => simp only [hf] at h; cases h
    | ok r =>
      cases r with
      | none =>
        simp only [hf] at h
        exact faceHits_h_nonneg d los ks cs h c hc
      | some c' =>
        simp only [hf] at h
        cases hr : faceHits .cpp d los ks with
        | error e => simp only [hr] at h; cases h
        | ok cs' =>
          simp only [hr] at h
          injection h with h
          rw [← h, List.mem_cons] at hc
          rcases hc with rfl | hc
          · exact faceHit_h_nonneg d k los _ hf
          · exact faceHits_h_nonneg d los ks cs' hr c hc

/-- The parameter of the entry point in C++ is not negative: `size_t(floor(h))` is a valid rank. -/
theorem cppCube_h_nonneg (d : Dtm K) (los li : List (V3 K)) (c : Crossing K) (h : intersectDtmCube .cpp d los = .ok (some c, li)) : 0 ≤ c.h := by
  unfold intersectDtmCube cubeOfIndex at h
  simp only at h
  cases hf : faceHits .cpp d (tersToIndexsPy d.transform los) [0, 1, 2, 3, 4, 5] with
  | error e => simp only [hf] at h; cases h
  | ok cs =>
    simp only [hf] at h
    rcases hq : (exchangeSort cs).filter (fun c => onCube d c.p) with _ | ⟨c1, _ | ⟨c2, t⟩⟩
    · simp [hq] at h
    · simp [hq] at h
    · simp only [hq] at h
      injection h with h
      have hc : c1 = c := by
        have := congrArg Prod.fst h
        simpa using this
      have hm : c1 ∈ (exchangeSort cs).filter (fun c => onCube d c.p) := by rw [hq]; simp
      rw [← hc]
      exact faceHits_h_nonneg d _ _ cs hf c1 ((exchangeSort_spec cs).1.mem_iff.1 (List.mem_of_mem_filter hm))

/-- What `intersection_n_los_dtm` gives in C++ for one line of sight, from the model of the intersection. -/
def cppAnswer (d : Dtm K) (N : ℕ) (los : List (V3 K)) : Except CppFault (DtmPoint K) :=
  match intersectDtmCube .cpp d los with
  | .error _ => .error .tooMany
  | .ok (none, _) => .ok .nan
  | .ok (some c, li) =>
    match intersectionIdx .cpp d N li c.p c.h with
    | .found p => .ok (.point (indexToTerPy d.transform p))
    | .notFound => .ok .uninitialised
    | .nonFinite => .error .nanIndex
    | _ => .error .fuel

theorem Represents.locate {o : CppDtm K} {d : Dtm K} (h : Represents o d) (N : ℕ) (los : List (V3 K)) (hne : los ≠ []) :
    o.locate N los = cppAnswer d N los := by
  unfold CppDtm.locate cppAnswer
  simp only [h.cube los hne, bind, Except.bind]
  cases hc : intersectDtmCube .cpp d los with
  | error e => rfl
  | ok r =>
    obtain ⟨c, li⟩ := r
    cases c with
    | none => rfl
    | some c =>
      simp only [cubeFault, h.intersection N li c.p c.h (cppCube_h_nonneg d los li c hc)]
      cases intersectionIdx .cpp d N li c.p c.h <;> simp [marchFault, h.indexToTer]

theorem mapM_ok {ε α β : Type} (f : α → Except ε β) (g : α → β) : ∀ (l : List α), (∀ x ∈ l, f x = .ok (g x)) → l.mapM f = .ok (l.map g)
  | [], _ => rfl
  | x :: xs, h => by
    rw [List.mapM_cons, h x (by simp), mapM_ok f g xs fun y hy => h y (by simp [hy])]
    rfl

theorem altValues_get (alt : ℤ → ℤ → K) (nr nc i j : ℕ) (hi : i < nr) (hj : j < nc) : (altValues alt nr nc)[nc * i + j]? = some (alt i j) := by
  have := flatMap_map_getElem? (fun (i j : ℕ) => alt i j) id nc nr i j hi hj
  simpa [altValues] using this

theorem altValues_rd (alt : ℤ → ℤ → K) (nr nc i j : ℕ) (hi : i < nr) (hj : j < nc) (m : ℤ) (hm : m = nc * i + j) :
    rd (altValues alt nr nc) m = .ok (alt i j) := by
  rw [hm]
  exact rd_nat (v := altValues alt nr nc) (i := nc * i + j) (altValues_get alt nr nc i j hi hj)

/-- The constructor succeeds on an array of at least two rows and columns, and the object represents the DTM. -/
theorem ctor_represents (epsg : ℤ) (d : Dtm K) (hr : 2 ≤ d.nbRows) (hc : 2 ≤ d.nbCols) :
    ∃ o, CppDtm.ctor epsg (altValues d.alt d.nbRows d.nbCols) d.nbRows d.nbCols d.transform.toGdal = .ok o ∧ Represents o d ∧
      o.altMin = d.altMin ∧ o.altMax = d.altMax ∧ o.epsg = epsg ∧ o.altData = altValues d.alt d.nbRows d.nbCols := by
  have hb : CppDtm.initMinMax (altValues d.alt d.nbRows d.nbCols) d.nbRows d.nbCols =
      .ok ((CppDtm.cells d.nbRows d.nbCols).map fun c => (altMinCellPy d.alt c.1 c.2, altMaxCellPy d.alt c.1 c.2)) := by
    refine mapM_ok _ _ _ fun c hcell => ?_
    simp only [CppDtm.cells, List.mem_flatMap, List.mem_range, List.mem_map] at hcell
    obtain ⟨i, hi, j, hj, rfl⟩ := hcell
    simp only [CppDtm.cellBounds]
    rw [altValues_rd d.alt _ _ i j (by omega) (by omega) _ rfl, altValues_rd d.alt _ _ (i + 1) j (by omega) (by omega) _ (by push_cast; rfl),
      altValues_rd d.alt _ _ i (j + 1) (by omega) (by omega) _ (by push_cast; rfl),
      altValues_rd d.alt _ _ (i + 1) (j + 1) (by omega) (by omega) _ (by push_cast; rfl)]
    simp only [bind, Except.bind, pure, Except.pure, altMinCellPy, altMaxCellPy]
    push_cast
    rw [min_right_comm (d.alt (i : ℤ) (j : ℤ)), max_right_comm (d.alt (i : ℤ) (j : ℤ))]
  have h0 : rd (altValues d.alt d.nbRows d.nbCols) 0 = .ok (d.alt 0 0) := by
    have := altValues_rd d.alt d.nbRows d.nbCols 0 0 (by omega) (by omega) 0 (by simp)
    simpa using this
  unfold CppDtm.ctor
  simp only [hb, h0, bind, Except.bind, pure, Except.pure]
  refine ⟨_, rfl, ⟨hr, hc, rfl, rfl, ?_, ?_, ?_, rfl, rfl, rfl, ?_, rfl, rfl, rfl⟩, rfl, rfl, rfl, rfl⟩
  · rintro i j ⟨i0, i1, j0, j1⟩
    obtain ⟨a, rfl⟩ := Int.eq_ofNat_of_zero_le i0
    obtain ⟨b, rfl⟩ := Int.eq_ofNat_of_zero_le j0
    exact altValues_rd d.alt _ _ a b (by omega) (by omega) _ (by ring)
  · rintro i j ⟨i0, i1, j0, j1⟩
    obtain ⟨a, rfl⟩ := Int.eq_ofNat_of_zero_le i0
    obtain ⟨b, rfl⟩ := Int.eq_ofNat_of_zero_le j0
    have e : (a : ℤ) * ((d.nbCols : ℤ) - 1) + b = (((d.nbCols - 1) * a + b : ℕ) : ℤ) := by
      push_cast [Nat.cast_sub (by omega : 1 ≤ d.nbCols)]; ring
    rw [e, List.map_map]
    exact rd_nat (flatMap_map_getElem? (fun (i j : ℕ) => (i, j)) _ (d.nbCols - 1) (d.nbRows - 1) a b (by omega) (by omega))
  · rintro i j ⟨i0, i1, j0, j1⟩
    obtain ⟨a, rfl⟩ := Int.eq_ofNat_of_zero_le i0
    obtain ⟨b, rfl⟩ := Int.eq_ofNat_of_zero_le j0
    have e : (a : ℤ) * ((d.nbCols : ℤ) - 1) + b = (((d.nbCols - 1) * a + b : ℕ) : ℤ) := by
      push_cast [Nat.cast_sub (by omega : 1 ≤ d.nbCols)]; ring
    rw [e]
    refine rd_nat ?_
    show (List.map Prod.snd (List.map _ _))[_]? = _
    rw [List.map_map]
    exact flatMap_map_getElem? (fun (i j : ℕ) => (i, j)) _ (d.nbCols - 1) (d.nbRows - 1) a b (by omega) (by omega)
  · funext k
    fin_cases k <;> rfl

end Shareloc
