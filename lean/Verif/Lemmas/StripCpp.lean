import Verif.Model.RectificationCpp
import Verif.Lemmas.Strip

/-! Lemmas on the C++ strips: the writes in the flat vectors, and the walk of one starting point. -/

set_option linter.unusedSectionVars false

namespace Shareloc
variable {K : Type*} [Field K] [LinearOrder K] [IsStrictOrderedRing K]

/-! ### Memory -/

/-- The i-th triple of a vector. -/
def Buf.triple (b : Buf K) (i : ℕ) : ORow K := ⟨b.get (3 * i), b.get (3 * i + 1), b.get (3 * i + 2)⟩

def Buf.put3 (b : Buf K) (i : ℕ) (p : ORow K) : Buf K :=
  ⟨b.size, fun j => if j = 3 * i + 2 then p.z else if j = 3 * i + 1 then p.y else if j = 3 * i then p.x else b.get j⟩

def Buf.put1 (b : Buf K) (i : ℕ) (v : Option K) : Buf K := ⟨b.size, fun j => if j = i then v else b.get j⟩

theorem Buf.triple_put3 (b : Buf K) (i j : ℕ) (p : ORow K) :
    (b.put3 i p).triple j = if j = i then p else b.triple j := by
  unfold Buf.triple Buf.put3
  by_cases h : j = i
  · subst h; simp
  · have e1 : 3 * j ≠ 3 * i + 2 := by omega
    have e2 : 3 * j ≠ 3 * i + 1 := by omega
    have e3 : 3 * j + 1 ≠ 3 * i + 2 := by omega
    have e4 : 3 * j + 1 ≠ 3 * i := by omega
    have e5 : 3 * j + 2 ≠ 3 * i + 1 := by omega
    have e6 : 3 * j + 2 ≠ 3 * i := by omega
    simp [h, e1, e2, e3, e4, e5, e6]

theorem Buf.get_put1 (b : Buf K) (i j : ℕ) (v : Option K) : (b.put1 i v).get j = if j = i then v else b.get j := rfl

theorem Buf.set_eq {b : Buf K} {i : ℕ} (v : Option K) (h : i < b.size) : b.set i v = .ok (b.put1 i v) := by
  simp [Buf.set, h, Buf.put1]

theorem Buf.at_eq {b : Buf K} {i : ℕ} (h : i < b.size) : b.at i = .ok (b.get i) := by
  simp [Buf.at, h]

theorem Buf.set3_eq {b : Buf K} {i i0 i1 i2 : ℕ} (p : ORow K) (e0 : i0 = 3 * i) (e1 : i1 = 3 * i + 1) (e2 : i2 = 3 * i + 2)
    (h : 3 * i + 2 < b.size) : b.set3 i0 i1 i2 p = .ok (b.put3 i p) := by
  subst e0 e1 e2
  unfold Buf.set3
  rw [Buf.set_eq _ (by omega)]
  simp only
  rw [Buf.set_eq _ (by simp only [Buf.put1]; omega)]
  simp only
  rw [Buf.set_eq _ (by simp only [Buf.put1]; omega)]
  simp only [Buf.put1, Buf.put3]

theorem Buf.at3_eq {b : Buf K} {i i0 i1 i2 : ℕ} (e0 : i0 = 3 * i) (e1 : i1 = 3 * i + 1) (e2 : i2 = 3 * i + 2)
    (h : 3 * i + 2 < b.size) : b.at3 i0 i1 i2 = .ok (b.triple i) := by
  subst e0 e1 e2
  unfold Buf.at3
  rw [Buf.at_eq (by omega), Buf.at_eq (by omega), Buf.at_eq (by omega)]
  rfl

/-! ### The walk of one point -/

/-- A node of the grids with the baseline ratio computed there. -/
structure Node (K : Type*) where
  left : ORow K
  right : ORow K
  angle : Option K
  ratio : Option K

/-- The `n` nodes that follow a position and an angle. -/
def walkCpp (t : Trig K) (c : StereoCpp K) (spacing step off : K) (axis : ℤ) :
    ℕ → ORow K → Option K → Except RectError (List (Node K))
  | 0, _, _ => .ok []
  | n + 1, cur, angle =>
    match movingAlongAxisCpp t c cur spacing step angle axis with
    | .error e => .error e
    | .ok (nl, nr) =>
      match localEpipolarLineCpp c nl off with
      | .error e => .error e
      | .ok (start, finish) =>
        match walkCpp t c spacing step off axis n nl (epipolarAngleCpp t finish start) with
        | .error e => .error e
        | .ok nodes => .ok (⟨nl, nr, epipolarAngleCpp t finish start, baselineRatio t off start finish⟩ :: nodes)

/-- Index of the n-th node of the j-th starting point. -/
def cellOf (axis : ℤ) (w size n j : ℕ) : ℕ := if axis = 0 then n * w + j else j * size + n

theorem cellOf_lt {axis : ℤ} {w size n j : ℕ} (hn : n < size) (hj : j < w) : cellOf axis w size n j < size * w := by
  unfold cellOf
  split
  · have : n * w + w ≤ size * w := by
      have := Nat.mul_le_mul_right w (show n + 1 ≤ size by omega)
      rw [Nat.add_mul] at this; omega
    omega
  · have : j * size + size ≤ w * size := by
      have := Nat.mul_le_mul_right size (show j + 1 ≤ w by omega)
      rw [Nat.add_mul] at this; omega
    rw [Nat.mul_comm size w]
    omega

theorem cellOf_inj {axis : ℤ} {w size n j n' j' : ℕ} (hn : n < size) (hj : j < w) (hn' : n' < size) (hj' : j' < w)
    (h : cellOf axis w size n j = cellOf axis w size n' j') : n = n' ∧ j = j' := by
  unfold cellOf at h
  split at h
  · have h1 : (n * w + j) % w = (n' * w + j') % w := by rw [h]
    have h2 : (n * w + j) / w = (n' * w + j') / w := by rw [h]
    have hw : 0 < w := by omega
    simp only [Nat.mul_comm _ w, Nat.mul_add_mod, Nat.mul_add_div hw, Nat.mod_eq_of_lt hj, Nat.mod_eq_of_lt hj',
      Nat.div_eq_of_lt hj, Nat.div_eq_of_lt hj'] at h1 h2
    exact ⟨by simpa using h2, h1⟩
  · have h1 : (j * size + n) % size = (j' * size + n') % size := by rw [h]
    have h2 : (j * size + n) / size = (j' * size + n') / size := by rw [h]
    have hw : 0 < size := by omega
    simp only [Nat.mul_comm _ size, Nat.mul_add_mod, Nat.mul_add_div hw, Nat.mod_eq_of_lt hn, Nat.mod_eq_of_lt hn',
      Nat.div_eq_of_lt hn, Nat.div_eq_of_lt hn'] at h1 h2
    exact ⟨h1, by simpa using h2⟩

/-- The sizes of the vectors. -/
structure CppState.Sized (s : CppState K) (w size : ℕ) : Prop where
  inLeft : s.inLeft.size = w * 3
  inRight : s.inRight.size = w * 3
  angles : s.angles.size = size * w
  left : s.left.size = size * w * 3
  right : s.right.size = size * w * 3
  anglesOut : s.anglesOut.size = size * w

/-- Storage of one node. -/
def CppState.put (s : CppState K) (axis : ℤ) (w size n j : ℕ) (nd : Node K) : CppState K :=
  CppState.addRatio
    { s with
      inLeft := s.inLeft.put3 j nd.left
      inRight := s.inRight.put3 j nd.right
      angles := s.angles.put1 (cellOf axis w size 0 j) nd.angle
      left := s.left.put3 (cellOf axis w size n j) nd.left
      right := s.right.put3 (cellOf axis w size n j) nd.right
      anglesOut := s.anglesOut.put1 (cellOf axis w size n j) nd.angle } nd.ratio

theorem addRatio_fields (s : CppState K) (r : Option K) :
    (s.addRatio r).inLeft = s.inLeft ∧ (s.addRatio r).inRight = s.inRight ∧ (s.addRatio r).angles = s.angles ∧
    (s.addRatio r).left = s.left ∧ (s.addRatio r).right = s.right ∧ (s.addRatio r).anglesOut = s.anglesOut ∧
    (s.addRatio r).sum = s.sum + r.getD 0 ∧ (s.addRatio r).nan = s.nan + countNan [r] := by
  cases r <;> simp [CppState.addRatio, countNan]

theorem CppState.Sized.addRatio {s : CppState K} {w size : ℕ} (h : s.Sized w size) (r : Option K) :
    (s.addRatio r).Sized w size := by
  obtain ⟨e1, e2, e3, e4, e5, e6, -, -⟩ := addRatio_fields s r
  exact ⟨by rw [e1, h.1], by rw [e2, h.2], by rw [e3, h.3], by rw [e4, h.4], by rw [e5, h.5], by rw [e6, h.6]⟩

theorem CppState.Sized.put {s : CppState K} {w size : ℕ} (h : s.Sized w size) (axis : ℤ) (n j : ℕ) (nd : Node K) :
    (s.put axis w size n j nd).Sized w size := by
  unfold CppState.put
  refine CppState.Sized.addRatio ?_ _
  exact ⟨h.1, h.2, h.3, h.4, h.5, h.6⟩

/-- The shapes allowed by the documentation: one row of points for axis 0, one column for axis 1; (row, col) is the place
of the j-th point. -/
structure Shape (axis : ℤ) (w size nbRows nbCols gridCols : ℕ) : Prop where
  zero : axis = 0 → nbRows = 1 ∧ nbCols = w ∧ gridCols = w
  one : axis ≠ 0 → nbRows = w ∧ nbCols = 1 ∧ gridCols = size

/-- Row and column of the j-th point. -/
def rowOf (axis : ℤ) (j : ℕ) : ℕ := if axis = 0 then 0 else j
def colOf (axis : ℤ) (j : ℕ) : ℕ := if axis = 0 then j else 0

theorem pointStepCpp_eq {t : Trig K} {c : StereoCpp K} {spacing step off : K} {axis : ℤ} {w size nbRows nbCols gridCols : ℕ}
    (hsh : Shape axis w size nbRows nbCols gridCols) {j point : ℕ} (hj : j < w) (hp : point < size) {s : CppState K}
    (hs : s.Sized w size) :
    pointStepCpp t c spacing step off axis size nbCols gridCols (rowOf axis j) (colOf axis j) point s =
      match movingAlongAxisCpp t c (s.inLeft.triple j) spacing step (s.angles.get (cellOf axis w size 0 j)) axis with
      | .error e => .error e
      | .ok (nl, nr) =>
        match localEpipolarLineCpp c nl off with
        | .error e => .error e
        | .ok (start, finish) =>
          .ok (s.put axis w size point j
            ⟨nl, nr, epipolarAngleCpp t finish start, baselineRatio t off start finish⟩) := by
  have hsize : 0 < size := by omega
  have hcell := cellOf_lt (axis := axis) hp hj
  have hcell0 := cellOf_lt (axis := axis) hsize hj
  have hirc : rowOf axis j * gridCols + colOf axis j = cellOf axis w size 0 j := by
    unfold rowOf colOf cellOf
    by_cases ha : axis = 0
    · simp [ha]
    · simp [ha, (hsh.one ha).2.2]
  have hi0 : rowOf axis j * nbCols * 3 + colOf axis j * 3 = 3 * j := by
    unfold rowOf colOf
    by_cases ha : axis = 0
    · simp only [ha, if_true]; omega
    · simp only [ha, if_false, (hsh.one ha).2.1]; omega
  have hidx : ∀ r, (if axis = 0 then rowOf axis j * nbCols * 3 + colOf axis j * 3 + r + point * nbCols * 3
      else rowOf axis j * size * 3 + colOf axis j * 3 + r + point * 3) = 3 * cellOf axis w size point j + r := by
    intro r
    unfold rowOf colOf cellOf
    by_cases ha : axis = 0
    · simp only [ha, if_true, (hsh.zero ha).2.1]; ring
    · simp only [ha, if_false]; ring
  have hao : (if axis = 0 then cellOf axis w size 0 j + point * gridCols else cellOf axis w size 0 j + point) =
      cellOf axis w size point j := by
    unfold cellOf
    by_cases ha : axis = 0
    · simp only [ha, if_true, (hsh.zero ha).2.2]; ring
    · simp only [ha, if_false]; ring
  unfold pointStepCpp
  simp only [hirc, hidx, hao]
  simp only [hi0]
  rw [Buf.at3_eq (i := j) (by omega) rfl rfl (by rw [hs.1]; omega), Buf.at_eq (by rw [hs.3]; omega)]
  simp only
  cases movingAlongAxisCpp t c (s.inLeft.triple j) spacing step (s.angles.get (cellOf axis w size 0 j)) axis with
  | error e => rfl
  | ok r =>
    obtain ⟨nl, nr⟩ := r
    simp only
    rw [Buf.set3_eq (i := j) nl (by omega) rfl rfl (by rw [hs.1]; omega),
      Buf.set3_eq (i := j) nr (by omega) rfl rfl (by rw [hs.2]; omega)]
    simp only
    cases localEpipolarLineCpp c nl off with
    | error e => rfl
    | ok r =>
      obtain ⟨start, finish⟩ := r
      simp only
      rw [Buf.set_eq _ (by rw [hs.3]; omega)]
      simp only
      rw [Buf.set_eq _ (by rw [hs.6]; omega), Buf.set3_eq nl (by omega) rfl rfl (by rw [hs.4]; omega),
        Buf.set3_eq nr (by omega) rfl rfl (by rw [hs.5]; omega)]
      rfl

/-- Storage of the nodes of a walk, from the n-th. -/
def CppState.store (axis : ℤ) (w size j : ℕ) : ℕ → List (Node K) → CppState K → CppState K
  | _, [], s => s
  | n, nd :: nds, s => CppState.store axis w size j (n + 1) nds (s.put axis w size n j nd)

theorem pointLoop_eq {t : Trig K} {c : StereoCpp K} {spacing step off : K} {axis : ℤ} {w size nbRows nbCols gridCols : ℕ}
    (hsh : Shape axis w size nbRows nbCols gridCols) {j : ℕ} (hj : j < w) (n point : ℕ) (hp : point + n ≤ size)
    {s : CppState K} (hs : s.Sized w size) :
    cppFor (pointStepCpp t c spacing step off axis size nbCols gridCols (rowOf axis j) (colOf axis j)) point n s =
      match walkCpp t c spacing step off axis n (s.inLeft.triple j) (s.angles.get (cellOf axis w size 0 j)) with
      | .error e => .error e
      | .ok nodes => .ok (CppState.store axis w size j point nodes s) := by
  induction n generalizing point s with
  | zero => rfl
  | succ n ih =>
    unfold cppFor walkCpp
    rw [pointStepCpp_eq hsh hj (by omega) hs]
    cases movingAlongAxisCpp t c (s.inLeft.triple j) spacing step (s.angles.get (cellOf axis w size 0 j)) axis with
    | error e => rfl
    | ok r =>
      obtain ⟨nl, nr⟩ := r
      simp only
      cases localEpipolarLineCpp c nl off with
      | error e => rfl
      | ok r =>
        obtain ⟨start, finish⟩ := r
        simp only
        rw [ih (point + 1) (by omega) (hs.put axis point j _)]
        have e1 : ((s.put axis w size point j ⟨nl, nr, epipolarAngleCpp t finish start,
            baselineRatio t off start finish⟩).inLeft).triple j = nl := by
          unfold CppState.put
          rw [(addRatio_fields _ _).1]
          simp [Buf.triple_put3]
        have e2 : ((s.put axis w size point j ⟨nl, nr, epipolarAngleCpp t finish start,
            baselineRatio t off start finish⟩).angles).get (cellOf axis w size 0 j) = epipolarAngleCpp t finish start := by
          unfold CppState.put
          rw [(addRatio_fields _ _).2.2.1]
          simp [Buf.get_put1]
        rw [e1, e2]
        cases walkCpp t c spacing step off axis n nl (epipolarAngleCpp t finish start) with
        | error e => rfl
        | ok nodes => rfl

theorem store_sized {axis : ℤ} {w size j : ℕ} (nds : List (Node K)) (n : ℕ) {s : CppState K} (hs : s.Sized w size) :
    (CppState.store axis w size j n nds s).Sized w size := by
  induction nds generalizing n s with
  | nil => exact hs
  | cons nd nds ih => exact ih (n + 1) (hs.put axis n j nd)

/-- Reading of a node. -/
def CppState.nodeAt (s : CppState K) (axis : ℤ) (w size n j : ℕ) : ORow K × ORow K × Option K :=
  (s.left.triple (cellOf axis w size n j), s.right.triple (cellOf axis w size n j), s.anglesOut.get (cellOf axis w size n j))

theorem nodeAt_put {axis : ℤ} {w size n j n' j' : ℕ} (hn : n < size) (hj : j < w) (hn' : n' < size) (hj' : j' < w)
    (nd : Node K) (s : CppState K) :
    (s.put axis w size n j nd).nodeAt axis w size n' j' =
      if n' = n ∧ j' = j then (nd.left, nd.right, nd.angle) else s.nodeAt axis w size n' j' := by
  unfold CppState.nodeAt CppState.put
  obtain ⟨-, -, -, e4, e5, e6, -, -⟩ := addRatio_fields
    { s with
      inLeft := s.inLeft.put3 j nd.left
      inRight := s.inRight.put3 j nd.right
      angles := s.angles.put1 (cellOf axis w size 0 j) nd.angle
      left := s.left.put3 (cellOf axis w size n j) nd.left
      right := s.right.put3 (cellOf axis w size n j) nd.right
      anglesOut := s.anglesOut.put1 (cellOf axis w size n j) nd.angle } nd.ratio
  rw [e4, e5, e6]
  simp only [Buf.triple_put3, Buf.get_put1]
  by_cases h : n' = n ∧ j' = j
  · obtain ⟨rfl, rfl⟩ := h; simp
  · have : cellOf axis w size n' j' ≠ cellOf axis w size n j := fun he => h (cellOf_inj hn' hj' hn hj he)
    simp [this, h]

theorem nodeAt_store {axis : ℤ} {w size j : ℕ} (hj : j < w) {n' j' : ℕ} (hn' : n' < size) (hj' : j' < w)
    (nds : List (Node K)) (n : ℕ) (hn : n + nds.length ≤ size) (s : CppState K) :
    (∀ nd, j' = j → n ≤ n' → nds[n' - n]? = some nd →
      (CppState.store axis w size j n nds s).nodeAt axis w size n' j' = (nd.left, nd.right, nd.angle)) ∧
    ((j' ≠ j ∨ n' < n ∨ n + nds.length ≤ n') →
      (CppState.store axis w size j n nds s).nodeAt axis w size n' j' = s.nodeAt axis w size n' j') := by
  induction nds generalizing n s with
  | nil => exact ⟨fun nd _ _ h => by simp at h, fun _ => rfl⟩
  | cons a as ih =>
    simp only [List.length_cons] at hn
    have := ih (n + 1) (by omega) (s.put axis w size n j a)
    unfold CppState.store
    constructor
    · rintro nd rfl hle h
      by_cases he : n' = n
      · subst he
        simp only [Nat.sub_self, List.getElem?_cons_zero, Option.some.injEq] at h
        subst h
        rw [this.2 (by omega), nodeAt_put (by omega) hj hn' hj']
        simp
      · refine this.1 nd rfl (by omega) ?_
        rw [show n' - n = (n' - (n + 1)) + 1 by omega] at h
        simpa using h
    · intro h
      simp only [List.length_cons] at h
      rw [this.2 (by omega), nodeAt_put (by omega) hj hn' hj']
      rw [if_neg (by omega)]

theorem store_inputs {axis : ℤ} {w size j : ℕ} (nds : List (Node K)) (n : ℕ) (s : CppState K) (j' : ℕ) (h : j' ≠ j) :
    (CppState.store axis w size j n nds s).inLeft.triple j' = s.inLeft.triple j' ∧
    (CppState.store axis w size j n nds s).inRight.triple j' = s.inRight.triple j' := by
  induction nds generalizing n s with
  | nil => exact ⟨rfl, rfl⟩
  | cons a as ih =>
    unfold CppState.store
    have := ih (n + 1) (s.put axis w size n j a)
    rw [this.1, this.2]
    unfold CppState.put
    rw [(addRatio_fields _ _).1, (addRatio_fields _ _).2.1]
    simp [Buf.triple_put3, h]

/-- The input arrays hold the last node. -/
theorem store_overwrites {axis : ℤ} {w size j : ℕ} (nds : List (Node K)) (n : ℕ) (s : CppState K) :
    (CppState.store axis w size j n nds s).inLeft.triple j = ((nds.getLast?).map Node.left).getD (s.inLeft.triple j) ∧
    (CppState.store axis w size j n nds s).inRight.triple j = ((nds.getLast?).map Node.right).getD (s.inRight.triple j) := by
  induction nds generalizing n s with
  | nil => exact ⟨rfl, rfl⟩
  | cons a as ih =>
    unfold CppState.store
    have := ih (n + 1) (s.put axis w size n j a)
    rw [this.1, this.2]
    unfold CppState.put
    rw [(addRatio_fields _ _).1, (addRatio_fields _ _).2.1]
    simp only [Buf.triple_put3, if_true, List.getLast?_cons]
    cases as.getLast? <;> simp

theorem store_sum {axis : ℤ} {w size j : ℕ} (nds : List (Node K)) (n : ℕ) (s : CppState K) :
    (CppState.store axis w size j n nds s).sum = s.sum + (nds.map fun nd => nd.ratio.getD 0).sum ∧
    (CppState.store axis w size j n nds s).nan = s.nan + countNan (nds.map Node.ratio) := by
  induction nds generalizing n s with
  | nil => simp [CppState.store, countNan]
  | cons a as ih =>
    unfold CppState.store
    have := ih (n + 1) (s.put axis w size n j a)
    rw [this.1, this.2]
    unfold CppState.put
    obtain ⟨-, -, -, -, -, -, e7, e8⟩ := addRatio_fields
      { s with
        inLeft := s.inLeft.put3 j a.left
        inRight := s.inRight.put3 j a.right
        angles := s.angles.put1 (cellOf axis w size 0 j) a.angle
        left := s.left.put3 (cellOf axis w size n j) a.left
        right := s.right.put3 (cellOf axis w size n j) a.right
        anglesOut := s.anglesOut.put1 (cellOf axis w size n j) a.angle } a.ratio
    rw [e7, e8]
    constructor
    · simp only [List.map_cons, List.sum_cons]; ring
    · cases h : a.ratio <;> simp [countNan, h] <;> omega

theorem walkCpp_length {t : Trig K} {c : StereoCpp K} {spacing step off : K} {axis : ℤ} {n : ℕ} {cur : ORow K}
    {angle : Option K} {nodes : List (Node K)} (h : walkCpp t c spacing step off axis n cur angle = .ok nodes) :
    nodes.length = n := by
  induction n generalizing cur angle nodes with
  | zero => simp only [walkCpp, Except.ok.injEq] at h; subst h; rfl
  | succ n ih =>
    unfold walkCpp at h
    split at h
    · simp at h
    · split at h
      · simp at h
      · split at h
        · simp at h
        · rename_i hw
          simp only [Except.ok.injEq] at h
          subst h
          simp [ih hw]

/-! ### All the starting points -/

/-- What is computed for a starting point: its first angle and ratio, and the following nodes. -/
def fullWalkCpp (t : Trig K) (c : StereoCpp K) (spacing step off : K) (axis : ℤ) (size : ℕ) (first : Option (Buf K)) (j : ℕ)
    (l : ORow K) : Except RectError ((Option K × Option (Option K)) × List (Node K)) :=
  match firstAngleCpp t c off first j l with
  | .error e => .error e
  | .ok a =>
    match walkCpp t c spacing step off axis (size - 1) l a.1 with
    | .error e => .error e
    | .ok nodes => .ok (a, nodes)

/-- Storage of the first node. -/
def CppState.putFirst (s : CppState K) (axis : ℤ) (w size j : ℕ) (a : Option K × Option (Option K)) : CppState K :=
  CppState.addFirst
    { s with
      angles := s.angles.put1 (cellOf axis w size 0 j) a.1
      left := s.left.put3 (cellOf axis w size 0 j) (s.inLeft.triple j)
      right := s.right.put3 (cellOf axis w size 0 j) (s.inRight.triple j)
      anglesOut := s.anglesOut.put1 (cellOf axis w size 0 j) a.1 } a.2

theorem addFirst_fields (s : CppState K) (r : Option (Option K)) :
    (s.addFirst r).inLeft = s.inLeft ∧ (s.addFirst r).inRight = s.inRight ∧ (s.addFirst r).angles = s.angles ∧
    (s.addFirst r).left = s.left ∧ (s.addFirst r).right = s.right ∧ (s.addFirst r).anglesOut = s.anglesOut ∧
    (s.addFirst r).sum = s.sum + (r.toList.map fun x => x.getD 0).sum ∧ (s.addFirst r).nan = s.nan + countNan r.toList := by
  cases r with
  | none => simp [CppState.addFirst, countNan]
  | some r =>
    obtain ⟨h1, h2, h3, h4, h5, h6, h7, h8⟩ := addRatio_fields s r
    refine ⟨h1, h2, h3, h4, h5, h6, ?_, h8⟩
    simp [CppState.addFirst, h7]

theorem CppState.Sized.putFirst {s : CppState K} {w size : ℕ} (h : s.Sized w size) (axis : ℤ) (j : ℕ)
    (a : Option K × Option (Option K)) : (s.putFirst axis w size j a).Sized w size := by
  unfold CppState.putFirst
  obtain ⟨e1, e2, e3, e4, e5, e6, -, -⟩ := addFirst_fields
    { s with
      angles := s.angles.put1 (cellOf axis w size 0 j) a.1
      left := s.left.put3 (cellOf axis w size 0 j) (s.inLeft.triple j)
      right := s.right.put3 (cellOf axis w size 0 j) (s.inRight.triple j)
      anglesOut := s.anglesOut.put1 (cellOf axis w size 0 j) a.1 } a.2
  exact ⟨by rw [e1]; exact h.1, by rw [e2]; exact h.2, by rw [e3]; exact h.3, by rw [e4]; exact h.4,
    by rw [e5]; exact h.5, by rw [e6]; exact h.6⟩

theorem pointCpp_eq {t : Trig K} {c : StereoCpp K} {spacing step off : K} {axis : ℤ} {w size nbRows nbCols gridCols : ℕ}
    (hsh : Shape axis w size nbRows nbCols gridCols) (hsize : 1 ≤ size) (first : Option (Buf K)) {j : ℕ} (hj : j < w)
    {s : CppState K} (hs : s.Sized w size) :
    pointCpp t c spacing step off axis size nbCols gridCols first (rowOf axis j) (colOf axis j) s =
      match fullWalkCpp t c spacing step off axis size first j (s.inLeft.triple j) with
      | .error e => .error e
      | .ok (a, nodes) => .ok (CppState.store axis w size j 1 nodes (s.putFirst axis w size j a)) := by
  have hcell := cellOf_lt (axis := axis) (show 0 < size by omega) hj
  have hirc : rowOf axis j * gridCols + colOf axis j = cellOf axis w size 0 j := by
    unfold rowOf colOf cellOf
    by_cases ha : axis = 0
    · simp [ha]
    · simp [ha, (hsh.one ha).2.2]
  have hg : rowOf axis j * gridCols * 3 + colOf axis j * 3 = 3 * cellOf axis w size 0 j := by
    rw [← hirc]; ring
  have hi0 : rowOf axis j * nbCols * 3 + colOf axis j * 3 = 3 * j := by
    unfold rowOf colOf
    by_cases ha : axis = 0
    · simp only [ha, if_true]; omega
    · simp only [ha, if_false, (hsh.one ha).2.1]; omega
  have hi : rowOf axis j * nbCols + colOf axis j = j := by
    unfold rowOf colOf
    by_cases ha : axis = 0
    · simp only [ha, if_true]; omega
    · simp only [ha, if_false, (hsh.one ha).2.1]; omega
  unfold pointCpp fullWalkCpp
  simp only [hirc, hg, hi0, hi]
  rw [Buf.at3_eq (i := j) (by omega) rfl rfl (by rw [hs.1]; omega), Buf.at3_eq (i := j) (by omega) rfl rfl (by rw [hs.2]; omega)]
  simp only
  rw [Buf.set3_eq _ (by omega) rfl rfl (by rw [hs.4]; omega), Buf.set3_eq _ (by omega) rfl rfl (by rw [hs.5]; omega)]
  simp only
  cases firstAngleCpp t c off first j (s.inLeft.triple j) with
  | error e => rfl
  | ok a =>
    obtain ⟨a, ratio⟩ := a
    simp only
    rw [Buf.set_eq _ (by rw [hs.3]; omega), Buf.set_eq _ (by rw [hs.6]; omega)]
    simp only
    have hs' := hs.putFirst axis j (a, ratio)
    have := pointLoop_eq (t := t) (c := c) (spacing := spacing) (step := step) (off := off) hsh hj (size - 1) 1 (by omega) hs'
    have e1 : (s.putFirst axis w size j (a, ratio)).inLeft.triple j = s.inLeft.triple j := by
      unfold CppState.putFirst
      rw [(addFirst_fields _ _).1]
    have e2 : (s.putFirst axis w size j (a, ratio)).angles.get (cellOf axis w size 0 j) = a := by
      unfold CppState.putFirst
      rw [(addFirst_fields _ _).2.2.1]
      simp [Buf.get_put1]
    rw [e1, e2] at this
    refine Eq.trans this ?_
    cases walkCpp t c spacing step off axis (size - 1) (s.inLeft.triple j) a with
    | error e => rfl
    | ok nodes => rfl

theorem nodeAt_putFirst {axis : ℤ} {w size j n' j' : ℕ} (hsize : 0 < size) (hj : j < w) (hn' : n' < size) (hj' : j' < w)
    (a : Option K × Option (Option K)) (s : CppState K) :
    (s.putFirst axis w size j a).nodeAt axis w size n' j' =
      if n' = 0 ∧ j' = j then (s.inLeft.triple j, s.inRight.triple j, a.1) else s.nodeAt axis w size n' j' := by
  unfold CppState.nodeAt CppState.putFirst
  obtain ⟨-, -, -, e4, e5, e6, -, -⟩ := addFirst_fields
    { s with
      angles := s.angles.put1 (cellOf axis w size 0 j) a.1
      left := s.left.put3 (cellOf axis w size 0 j) (s.inLeft.triple j)
      right := s.right.put3 (cellOf axis w size 0 j) (s.inRight.triple j)
      anglesOut := s.anglesOut.put1 (cellOf axis w size 0 j) a.1 } a.2
  rw [e4, e5, e6]
  simp only [Buf.triple_put3, Buf.get_put1]
  by_cases h : n' = 0 ∧ j' = j
  · obtain ⟨rfl, rfl⟩ := h; simp
  · have : cellOf axis w size n' j' ≠ cellOf axis w size 0 j := fun he => h (cellOf_inj hn' hj' hsize hj he)
    simp [this, h]

theorem putFirst_inputs {axis : ℤ} {w size j : ℕ} (a : Option K × Option (Option K)) (s : CppState K) :
    (s.putFirst axis w size j a).inLeft = s.inLeft ∧ (s.putFirst axis w size j a).inRight = s.inRight := by
  unfold CppState.putFirst
  exact ⟨(addFirst_fields _ _).1, (addFirst_fields _ _).2.1⟩

/-- The sum of the ratios of a walk and its number of NaN. -/
def walkRatios (r : (Option K × Option (Option K)) × List (Node K)) : List (Option K) :=
  r.1.2.toList ++ r.2.map Node.ratio

theorem point_sums {axis : ℤ} {w size j : ℕ} (a : Option K × Option (Option K)) (nodes : List (Node K)) (s : CppState K) :
    (CppState.store axis w size j 1 nodes (s.putFirst axis w size j a)).sum =
      s.sum + ((walkRatios (a, nodes)).map fun x => x.getD 0).sum ∧
    (CppState.store axis w size j 1 nodes (s.putFirst axis w size j a)).nan = s.nan + countNan (walkRatios (a, nodes)) := by
  obtain ⟨h1, h2⟩ := store_sum (axis := axis) (w := w) (size := size) (j := j) nodes 1 (s.putFirst axis w size j a)
  rw [h1, h2]
  unfold CppState.putFirst
  obtain ⟨-, -, -, -, -, -, e7, e8⟩ := addFirst_fields
    { s with
      angles := s.angles.put1 (cellOf axis w size 0 j) a.1
      left := s.left.put3 (cellOf axis w size 0 j) (s.inLeft.triple j)
      right := s.right.put3 (cellOf axis w size 0 j) (s.inRight.triple j)
      anglesOut := s.anglesOut.put1 (cellOf axis w size 0 j) a.1 } a.2
  rw [e7, e8]
  constructor
  · simp only [walkRatios, List.map_append, List.sum_append, List.map_map]
    rw [add_assoc]; rfl
  · simp only [walkRatios, countNan, List.filter_append, List.length_append]
    omega

/-- The loop over the starting points. -/
theorem pointsLoop {t : Trig K} {c : StereoCpp K} {spacing step off : K} {axis : ℤ} {w size nbRows nbCols gridCols : ℕ}
    (hsh : Shape axis w size nbRows nbCols gridCols) (hsize : 1 ≤ size) (first : Option (Buf K)) (n i : ℕ) (hi : i + n ≤ w)
    {s : CppState K} (hs : s.Sized w size) :
    (∀ e, cppFor (fun j => pointCpp t c spacing step off axis size nbCols gridCols first (rowOf axis j) (colOf axis j)) i n s =
        .error e → ∃ j, i ≤ j ∧ j < i + n ∧
          fullWalkCpp t c spacing step off axis size first j (s.inLeft.triple j) = .error e) ∧
    ∀ s', cppFor (fun j => pointCpp t c spacing step off axis size nbCols gridCols first (rowOf axis j) (colOf axis j)) i n s =
        .ok s' → s'.Sized w size ∧ ∃ W : ℕ → (Option K × Option (Option K)) × List (Node K),
      (∀ j, i ≤ j → j < i + n → fullWalkCpp t c spacing step off axis size first j (s.inLeft.triple j) = .ok (W j) ∧
        s'.nodeAt axis w size 0 j = (s.inLeft.triple j, s.inRight.triple j, (W j).1.1) ∧
        (∀ k nd, (W j).2[k]? = some nd → s'.nodeAt axis w size (k + 1) j = (nd.left, nd.right, nd.angle)) ∧
        s'.inLeft.triple j = (((W j).2.getLast?).map Node.left).getD (s.inLeft.triple j) ∧
        s'.inRight.triple j = (((W j).2.getLast?).map Node.right).getD (s.inRight.triple j)) ∧
      (∀ j, j < w → (j < i ∨ i + n ≤ j) → (∀ k, k < size → s'.nodeAt axis w size k j = s.nodeAt axis w size k j) ∧
        s'.inLeft.triple j = s.inLeft.triple j ∧ s'.inRight.triple j = s.inRight.triple j) ∧
      s'.sum = s.sum + ((List.range n).map fun k => ((walkRatios (W (i + k))).map fun x => x.getD 0).sum).sum ∧
      s'.nan = s.nan + ((List.range n).map fun k => countNan (walkRatios (W (i + k)))).sum := by
  induction n generalizing i s with
  | zero =>
    refine ⟨fun e h => by simp [cppFor] at h, fun s' h => ?_⟩
    simp only [cppFor, Except.ok.injEq] at h
    subst h
    exact ⟨hs, fun _ => ((none, none), []), fun j h1 h2 => by omega, fun j hj _ => ⟨fun _ _ => rfl, rfl, rfl⟩, by simp, by simp⟩
  | succ n ih =>
    unfold cppFor
    rw [pointCpp_eq hsh hsize first (show i < w by omega) hs]
    cases hw : fullWalkCpp t c spacing step off axis size first i (s.inLeft.triple i) with
    | error e =>
      simp only
      refine ⟨fun e' h => ?_, fun s' h => by simp at h⟩
      simp only [Except.error.injEq] at h
      subst h
      exact ⟨i, le_rfl, by omega, hw⟩
    | ok r =>
      obtain ⟨a, nodes⟩ := r
      simp only
      have hlen : nodes.length = size - 1 := by
        unfold fullWalkCpp at hw
        split at hw
        · simp at hw
        · split at hw
          · simp at hw
          · rename_i hww
            simp only [Except.ok.injEq, Prod.mk.injEq] at hw
            obtain ⟨-, rfl⟩ := hw
            exact walkCpp_length hww
      generalize hs1 : CppState.store axis w size i 1 nodes (s.putFirst axis w size i a) = s1
      have hsz : s1.Sized w size := by rw [← hs1]; exact store_sized nodes 1 (hs.putFirst axis i a)
      have hin : ∀ j, j ≠ i → s1.inLeft.triple j = s.inLeft.triple j ∧ s1.inRight.triple j = s.inRight.triple j := by
        intro j hj
        rw [← hs1]
        obtain ⟨h1, h2⟩ := store_inputs (axis := axis) (w := w) (size := size) nodes 1 (s.putFirst axis w size i a) j hj
        rw [h1, h2, (putFirst_inputs a s).1, (putFirst_inputs a s).2]
        exact ⟨rfl, rfl⟩
      have hnode : ∀ k j, k < size → j < w → j ≠ i → s1.nodeAt axis w size k j = s.nodeAt axis w size k j := by
        intro k j hk hj hji
        rw [← hs1, (nodeAt_store (show i < w by omega) hk hj nodes 1 (by omega) _).2 (Or.inl hji),
          nodeAt_putFirst (by omega) (by omega) hk hj]
        rw [if_neg (by tauto)]
      obtain ⟨i1, i2⟩ := ih (i + 1) (by omega) hsz
      constructor
      · intro e h
        obtain ⟨j, h1, h2, h3⟩ := i1 e h
        refine ⟨j, by omega, by omega, ?_⟩
        rwa [(hin j (by omega)).1] at h3
      · intro s' h
        obtain ⟨g1, W, g2, g3, g4, g5⟩ := i2 s' h
        refine ⟨g1, fun j => if j = i then (a, nodes) else W j, ?_, ?_, ?_, ?_⟩
        · intro j h1 h2
          by_cases hj : j = i
          · subst hj
            simp only [if_true]
            obtain ⟨f1, f2, f3⟩ := g3 j (by omega) (Or.inl (by omega))
            refine ⟨hw, ?_, ?_, ?_, ?_⟩
            · rw [f1 0 (by omega), ← hs1,
                (nodeAt_store (show j < w by omega) (show 0 < size by omega) (by omega) nodes 1 (by omega) _).2 (Or.inr (Or.inl (by omega))),
                nodeAt_putFirst (by omega) (by omega) (by omega) (by omega)]
              simp
            · intro k nd hk
              have hkl : k < nodes.length := by
                by_contra hcon
                rw [List.getElem?_eq_none (by omega)] at hk
                simp at hk
              rw [f1 (k + 1) (by omega), ← hs1]
              exact (nodeAt_store (show j < w by omega) (show k + 1 < size by omega) (by omega) nodes 1 (by omega) _).1 nd rfl
                (by omega) (by simpa using hk)
            · rw [f2, ← hs1, (store_overwrites nodes 1 _).1, (putFirst_inputs a s).1]
            · rw [f3, ← hs1, (store_overwrites nodes 1 _).2, (putFirst_inputs a s).2]
          · have := g2 j (by omega) (by omega)
            rw [(hin j hj).1, (hin j hj).2] at this
            simpa [hj] using this
        · intro j hj h1
          obtain ⟨f1, f2, f3⟩ := g3 j hj (by omega)
          refine ⟨fun k hk => ?_, ?_, ?_⟩
          · rw [f1 k hk, hnode k j hk hj (by omega)]
          · rw [f2, (hin j (by omega)).1]
          · rw [f3, (hin j (by omega)).2]
        · rw [g4, ← hs1, (point_sums a nodes s).1, List.range_succ_eq_map]
          simp only [List.map_cons, List.sum_cons, List.map_map, Nat.add_zero, if_true]
          rw [add_assoc]
          congr 2
          apply congrArg List.sum
          apply List.map_congr_left
          intro k _
          have : i + (k + 1) ≠ i := by omega
          simp only [Function.comp_apply, Nat.succ_eq_add_one, this, if_false]
          rw [show i + 1 + k = i + (k + 1) by omega]
        · rw [g5, ← hs1, (point_sums a nodes s).2, List.range_succ_eq_map]
          simp only [List.map_cons, List.sum_cons, List.map_map, Nat.add_zero, if_true]
          rw [add_assoc]
          congr 2
          apply congrArg List.sum
          apply List.map_congr_left
          intro k _
          have : i + (k + 1) ≠ i := by omega
          simp only [Function.comp_apply, Nat.succ_eq_add_one, this, if_false]
          rw [show i + 1 + k = i + (k + 1) by omega]

end Shareloc
