import Verif.Lemmas.Strip
import Verif.Props.EpipolarAngle

/-!
# C44, C48: size and regularity of the epipolar grids, mean baseline ratio
-/

set_option linter.unusedSectionVars false

namespace Shareloc
variable {K : Type*} [Field K] [LinearOrder K] [IsStrictOrderedRing K] [FloorRing K]

/-- The colocalisations return one position per given position. -/
def Stereo.KeepsLength (m : Stereo K) : Prop :=
  (∀ l r, m.l2r l = .ok r → r.length = l.length) ∧ (∀ l r, m.r2l l = .ok r → r.length = l.length) ∧
  (∀ l r, m.directL l = .ok r → r.length = l.length)

theorem localEpipolarLine_length {m : Stereo K} (hm : m.KeepsLength) {left : List (ORow K)} {off : K}
    {starts ends ground : List (ORow K)} (h : localEpipolarLine m left off = .ok (starts, ends, ground)) :
    starts.length = left.length ∧ ends.length = left.length ∧ ground.length = left.length := by
  unfold localEpipolarLine at h
  cases h1 : m.l2r (left.map rowCol) with
  | error e => rw [h1] at h; simp at h
  | ok corr =>
    rw [h1] at h
    simp only at h
    cases h2 : m.r2l (corr.map fun c => shiftAlt (-off) c.1) with
    | error e => rw [h2] at h; simp at h
    | ok s =>
      rw [h2] at h
      simp only at h
      cases h3 : m.r2l (corr.map fun c => shiftAlt off c.1) with
      | error e => rw [h3] at h; simp at h
      | ok e =>
        rw [h3] at h
        simp only [Except.ok.injEq, Prod.mk.injEq] at h
        obtain ⟨rfl, rfl, rfl⟩ := h
        have l1 := hm.1 _ _ h1
        have l2 := hm.2.1 _ _ h2
        have l3 := hm.2.1 _ _ h3
        simp only [List.length_map] at l1 l2 l3 ⊢
        exact ⟨by omega, by omega, l1⟩

theorem LayerStep.lengths {t : Trig K} {m : Stereo K} (hm : m.KeepsLength) {spacing step off : K} {axis : ℤ}
    {left : List (ORow K)} {angles : List (Option K)} {l : Layer K} (hl : angles.length = left.length)
    (h : LayerStep t m spacing step off axis left angles l) :
    l.left.length = left.length ∧ l.right.length = left.length ∧ l.angles.length = left.length ∧
    l.baseline.length = left.length := by
  obtain ⟨h1, ⟨corr, h2, h3⟩, starts, ends, ground, h4, h5, h6⟩ := h
  have e1 : l.left.length = left.length := by rw [h1]; simp [hl]
  have e2 := hm.1 _ _ h2
  obtain ⟨e3, e4, -⟩ := localEpipolarLine_length hm h4
  refine ⟨e1, ?_, ?_, ?_⟩
  · rw [h3]; simp at e2 ⊢; omega
  · rw [h5]; simp; omega
  · rw [h6]; simp; omega

theorem LayerChain.lengths {t : Trig K} {m : Stereo K} (hm : m.KeepsLength) {spacing step off : K} {axis : ℤ}
    {left : List (ORow K)} {angles : List (Option K)} {ls : List (Layer K)} (hl : angles.length = left.length)
    (h : LayerChain t m spacing step off axis left angles ls) :
    ∀ l ∈ ls, l.left.length = left.length ∧ l.right.length = left.length ∧ l.angles.length = left.length ∧
    l.baseline.length = left.length := by
  induction ls generalizing left angles with
  | nil => simp
  | cons a as ih =>
    obtain ⟨h1, h2⟩ := h
    have e := h1.lengths hm hl
    have := ih (by rw [e.2.2.1, e.1]) h2
    intro l hmem
    rcases List.mem_cons.1 hmem with rfl | hmem
    · exact e
    · have := this l hmem
      rw [e.1] at this
      exact this

/-- The structure of a strip without adaptive step. -/
theorem strip_plain {t : Trig K} {m : Stereo K} {left right : List (ORow K)} {spacing : K} {axis : ℤ} {size : ℕ}
    {step off : K} {angles : Option (List (Option K))} {s : Strip K} (hsize : 1 ≤ size)
    (h : stripOfEpipolarGrid t m left right spacing axis size step off angles none = .ok s) :
    ∃ l0 ls, s.layers = l0 :: ls ∧ ls.length = size - 1 ∧ l0.left = left ∧ l0.right = right ∧
      LayerChain t m spacing step off axis left l0.angles ls ∧
      (∀ a, angles = some a → l0.angles = a ∧ l0.baseline = []) ∧
      (angles = none → ∃ starts ends ground, localEpipolarLine m left off = .ok (starts, ends, ground) ∧
        l0.angles = List.zipWith (epipolarAngle t) ends starts ∧ l0.baseline = List.zipWith (baselineRatio t off) starts ends) ∧
      s.nanCount = countNan (stripBaselines s.layers) ∧
      s.mean = stripMean (stripBaselines s.layers) (size * left.length) (size * left.length)
        ((angles.map List.length).getD 0) := by
  unfold stripOfEpipolarGrid at h
  rw [maxStripSize_plain] at h
  simp only [show size ≠ 0 by omega, if_false] at h
  cases angles with
  | none =>
    simp only at h
    cases h1 : localEpipolarLine m left off with
    | error e => rw [h1] at h; simp at h
    | ok r =>
      obtain ⟨starts, ends, ground⟩ := r
      rw [h1] at h
      simp only at h
      generalize hst : (⟨left, right, ground, List.zipWith (epipolarAngle t) ends starts, [some 1]⟩ : StripState K) = st at h
      have key := stripLoop_plain t m spacing step off axis size (size - 1) 1 st (by rw [← hst]; simp) le_rfl
      cases h2 : stripLoop t m spacing step off axis none size (size - 1) st with
      | error e => rw [h2] at h; simp at h
      | ok ls =>
        rw [h2] at h
        simp only [Option.isSome_none, Bool.false_eq_true, false_and, if_false, Except.ok.injEq] at h
        obtain ⟨k1, k2, -⟩ := key.1 ls h2
        subst hst
        subst h
        refine ⟨_, ls, rfl, k1, rfl, rfl, k2, by simp, fun _ => ⟨_, _, _, rfl, rfl, rfl⟩, rfl, ?_⟩
        simp only [List.length_cons, k1]
        rw [Nat.sub_add_cancel hsize]; rfl
  | some a =>
    simp only at h
    cases h1 : m.directL (left.map rowCol) with
    | error e => rw [h1] at h; simp at h
    | ok ground =>
      rw [h1] at h
      simp only at h
      generalize hst : (⟨left, right, ground, a, [some 1]⟩ : StripState K) = st at h
      have key := stripLoop_plain t m spacing step off axis size (size - 1) 1 st (by rw [← hst]; simp) le_rfl
      cases h2 : stripLoop t m spacing step off axis none size (size - 1) st with
      | error e => rw [h2] at h; simp at h
      | ok ls =>
        rw [h2] at h
        simp only at h
        split at h
        · simp at h
        simp only [Except.ok.injEq] at h
        obtain ⟨k1, k2, -⟩ := key.1 ls h2
        subst hst
        subst h
        refine ⟨_, ls, rfl, k1, rfl, rfl, k2, fun a' h => ?_, by simp, rfl, ?_⟩
        · simp only [Option.some.injEq] at h; subst h; exact ⟨rfl, rfl⟩
        · simp only [List.length_cons, k1]
          rw [Nat.sub_add_cancel hsize]; rfl

/-- C44. A strip has exactly the requested number of layers, starts with the given positions and each layer is one step
away from the previous one. -/
theorem C44_strip (t : Trig K) (m : Stereo K) (left right : List (ORow K)) (spacing : K) (axis : ℤ) (size : ℕ)
    (step off : K) (angles : Option (List (Option K))) (s : Strip K) (hsize : 1 ≤ size)
    (h : stripOfEpipolarGrid t m left right spacing axis size step off angles none = .ok s) :
    s.layers.length = size ∧
    (∃ l0, s.layers[0]? = some l0 ∧ l0.left = left ∧ l0.right = right ∧ ∀ a, angles = some a → l0.angles = a) ∧
    ∀ (k : ℕ) (l l' : Layer K), s.layers[k]? = some l → s.layers[k + 1]? = some l' →
      LayerStep t m spacing step off axis l.left l.angles l' := by
  obtain ⟨l0, ls, e, hl, h1, h2, hch, ha, -, -, -⟩ := strip_plain hsize h
  rw [e]
  refine ⟨by simp [hl]; omega, ⟨l0, rfl, h1, h2, fun a h => (ha a h).1⟩, fun k l l' hk hk' => ?_⟩
  cases k with
  | zero =>
    simp at hk
    subst hk
    rw [h1]
    exact hch.getElem?.1 l' (by simpa using hk')
  | succ k => exact hch.getElem?.2 k l l' (by simpa using hk) (by simpa using hk')

/-- C44. Without adaptive step the arrays are large enough: no write out of them. -/
theorem C44_no_overflow (t : Trig K) (m : Stereo K) (left right : List (ORow K)) (spacing : K) (axis : ℤ) (size : ℕ)
    (step off : K) (angles : Option (List (Option K))) (hsize : 1 ≤ size) :
    stripOfEpipolarGrid t m left right spacing axis size step off angles none ≠ .error .indexError := by
  have hloc : localEpipolarLine m left off ≠ .error .indexError := by
    intro hL
    unfold localEpipolarLine at hL
    split at hL
    · simp at hL
    · split at hL
      · simp at hL
      · split at hL <;> simp at hL
  intro h
  unfold stripOfEpipolarGrid at h
  rw [maxStripSize_plain] at h
  simp only [show size ≠ 0 by omega, if_false] at h
  have key : ∀ g a, stripLoop t m spacing step off axis none size (size - 1) ⟨left, right, g, a, [some 1]⟩ ≠ .error .indexError := by
    intro g a hL
    obtain ⟨st', he⟩ := (stripLoop_plain t m spacing step off axis size (size - 1) 1 ⟨left, right, g, a, [some 1]⟩
      (by simp) le_rfl).2 _ hL
    exact stripStep_no_indexError he
  cases angles with
  | none =>
    simp only at h
    cases h1 : localEpipolarLine m left off with
    | error e =>
      rw [h1] at h
      simp only [Except.error.injEq] at h
      subst h
      exact hloc h1
    | ok r =>
      rw [h1] at h
      simp only at h
      split at h
      · rename_i e he
        simp only [Except.error.injEq] at h
        subst h
        exact key _ _ he
      · split at h <;> simp at h
  | some a =>
    simp only at h
    cases h1 : m.directL (left.map rowCol) with
    | error e => rw [h1] at h; simp at h
    | ok r =>
      rw [h1] at h
      simp only at h
      split at h
      · rename_i e he
        simp only [Except.error.injEq] at h
        subst h
        exact key _ _ he
      · split at h <;> simp at h

/-- C44, limit: a strip of a single layer whose angles are given raises: no ratio is computed and their number 0 is the divisor of
the mean. -/
theorem C44_single_layer_raises (t : Trig K) (m : Stereo K) (left right : List (ORow K)) (spacing : K) (axis : ℤ)
    (step off : K) (a : List (Option K)) (ha : a.length = left.length) (ground : List (ORow K))
    (hd : m.directL (left.map rowCol) = .ok ground) :
    stripOfEpipolarGrid t m left right spacing axis 1 step off (some a) none = .error .zeroDivision := by
  unfold stripOfEpipolarGrid
  rw [maxStripSize_plain]
  simp only [one_ne_zero, if_false, hd]
  unfold stripLoop
  simp [anyBelow, ha]

theorem heads_getElem? {β : Type*} (d : β) (l : List (List β)) (n : ℕ) (x : List β) (hx : l[n]? = some x) (b : β)
    (hb : x = [b]) : (heads d l)[n]? = some b := by
  simp [heads, hx, hb]

/-- The nodes of a grid given by columns. -/
def nodeAt {β : Type*} (f : Layer K → List β) (cols : List (Layer K)) (i j : ℕ) : Option β :=
  (cols[j]?).bind fun l => (f l)[i]?

/-- C44. The grids computed without adaptive step have exactly the announced numbers of rows and columns.  The first left
node is the starting point; down the first column each left node is one step across the epipolar line (axis 0) from the
previous one, and along each row each left node is one step along the epipolar line (axis 1) from the previous one, with
the angle of the local epipolar line at that previous node. -/
theorem C44_grids (t : Trig K) (m : Stereo K) (hm : m.KeepsLength) (startL startR : ORow K) (spacing step off : K)
    (rows cols : ℕ) (hr : 1 ≤ rows) (hc : 1 ≤ cols) (g : EpiGrids K)
    (h : stereoGrids t m startL startR spacing step off rows cols = .ok g) :
    g.columns.length = cols ∧
    (∀ l ∈ g.columns, l.left.length = rows ∧ l.right.length = rows ∧ l.angles.length = rows) ∧
    nodeAt Layer.left g.columns 0 0 = some startL ∧ nodeAt Layer.right g.columns 0 0 = some startR ∧
    (∀ i : ℕ, i + 1 < rows → ∃ p a, nodeAt Layer.left g.columns i 0 = some p ∧ nodeAt Layer.angles g.columns i 0 = some a ∧
      nodeAt Layer.left g.columns (i + 1) 0 = some (movePoint t spacing step 0 p a)) ∧
    ∀ i j : ℕ, i < rows → j + 1 < cols → ∃ p a, nodeAt Layer.left g.columns i j = some p ∧
      nodeAt Layer.angles g.columns i j = some a ∧
      nodeAt Layer.left g.columns i (j + 1) = some (movePoint t spacing step 1 p a) := by
  unfold stereoGrids at h
  cases h0 : stripOfEpipolarGrid t m [startL] [startR] spacing 0 rows step off none none with
  | error e => rw [h0] at h; simp at h
  | ok s0 =>
    rw [h0] at h
    simp only at h
    generalize hL : heads nanRow (s0.layers.map fun l => l.left) = L at h
    generalize hR : heads nanRow (s0.layers.map fun l => l.right) = R at h
    generalize hA : heads none (s0.layers.map fun l => l.angles) = A at h
    cases h1 : stripOfEpipolarGrid t m L R spacing 1 cols step off (some A) none with
    | error e => rw [h1] at h; simp at h
    | ok s1 =>
      rw [h1] at h
      simp only [Except.ok.injEq] at h
      subst h
      obtain ⟨l0, ls, e0, hl0, hleft, hright, hch0, -, hang0, -, -⟩ := strip_plain hr h0
      obtain ⟨starts, ends, ground, hloc, hang, hbase⟩ := hang0 rfl
      have hloclen := localEpipolarLine_length hm hloc
      have hl0a : l0.angles.length = 1 := by rw [hang]; simp [hloclen.1, hloclen.2.1]
      -- every layer of the first strip has one point
      have hone : ∀ l ∈ s0.layers, l.left.length = 1 ∧ l.right.length = 1 ∧ l.angles.length = 1 := by
        rw [e0]
        intro l hmem
        rcases List.mem_cons.1 hmem with rfl | hmem
        · exact ⟨by rw [hleft]; rfl, by rw [hright]; rfl, hl0a⟩
        · have := hch0.lengths hm (by simp [hl0a]) l hmem
          exact ⟨this.1, this.2.1, this.2.2.1⟩
      have hlay : s0.layers.length = rows := by rw [e0]; simp [hl0]; omega
      have hLlen : L.length = rows := by rw [← hL]; simp [heads, hlay]
      have hRlen : R.length = rows := by rw [← hR]; simp [heads, hlay]
      have hAlen : A.length = rows := by rw [← hA]; simp [heads, hlay]
      obtain ⟨q0, qs, e1, hq, qleft, qright, qch, qa, -, -, -⟩ := strip_plain hc h1
      have qang := (qa A rfl).1
      have hlens : ∀ l ∈ q0 :: qs, l.left.length = rows ∧ l.right.length = rows ∧ l.angles.length = rows := by
        intro l hmem
        rcases List.mem_cons.1 hmem with rfl | hmem
        · exact ⟨by rw [qleft, hLlen], by rw [qright, hRlen], by rw [qang, hAlen]⟩
        · have := qch.lengths hm (by rw [qang, hAlen, hLlen]) l hmem
          rw [hLlen] at this
          exact ⟨this.1, this.2.1, this.2.2.1⟩
      -- nodes of the first column
      have hget : ∀ (i : ℕ) (l : Layer K), s0.layers[i]? = some l → ∀ p a, l.left = [p] → l.angles = [a] →
          L[i]? = some p ∧ A[i]? = some a := by
        intro i l hl p a hp ha
        rw [← hL, ← hA]
        exact ⟨heads_getElem? _ _ i [p] (by simp [hl, hp]) p rfl, heads_getElem? _ _ i [a] (by simp [hl, ha]) a rfl⟩
      have hstrip := (C44_strip t m [startL] [startR] spacing 0 rows step off none s0 hr h0).2.2
      refine ⟨by rw [e1]; simp [hq]; omega, by rw [e1]; exact hlens, ?_, ?_, ?_, ?_⟩
      · simp only [nodeAt, e1, List.getElem?_cons_zero, Option.bind_some, qleft]
        rw [← hL, e0]
        simp [heads, hleft]
      · simp only [nodeAt, e1, List.getElem?_cons_zero, Option.bind_some, qright]
        rw [← hR, e0]
        simp [heads, hright]
      · intro i hi
        obtain ⟨l, hl⟩ : ∃ l, s0.layers[i]? = some l := ⟨_, List.getElem?_eq_getElem (by omega)⟩
        obtain ⟨l', hl'⟩ : ∃ l, s0.layers[i + 1]? = some l := ⟨_, List.getElem?_eq_getElem (by omega)⟩
        obtain ⟨p1, p2, p3⟩ := hone l (List.mem_of_getElem? hl)
        obtain ⟨p1', p2', p3'⟩ := hone l' (List.mem_of_getElem? hl')
        obtain ⟨p, hp⟩ := List.length_eq_one_iff.1 p1
        obtain ⟨a, ha⟩ := List.length_eq_one_iff.1 p3
        obtain ⟨a', ha'⟩ := List.length_eq_one_iff.1 p3'
        have hs := (hstrip i l l' hl hl').1
        rw [hp, ha] at hs
        refine ⟨p, a, ?_, ?_, ?_⟩
        · simpa [nodeAt, e1, qleft] using (hget i l hl p a hp ha).1
        · simpa [nodeAt, e1, qang] using (hget i l hl p a hp ha).2
        · simpa [nodeAt, e1, qleft] using (hget (i + 1) l' hl' _ a' (by simpa using hs) ha').1
      · intro i j hi hj
        obtain ⟨k1, -, k3⟩ := C44_strip t m L R spacing 1 cols step off (some A) s1 hc h1
        obtain ⟨l, hl⟩ : ∃ l, s1.layers[j]? = some l := ⟨_, List.getElem?_eq_getElem (by omega)⟩
        obtain ⟨l', hl'⟩ : ∃ l, s1.layers[j + 1]? = some l := ⟨_, List.getElem?_eq_getElem (by omega)⟩
        have hlen := hlens l (by rw [← e1]; exact List.mem_of_getElem? hl)
        obtain ⟨p, hp⟩ : ∃ p, l.left[i]? = some p := ⟨_, List.getElem?_eq_getElem (by omega)⟩
        obtain ⟨a, ha⟩ : ∃ a, l.angles[i]? = some a := ⟨_, List.getElem?_eq_getElem (by omega)⟩
        refine ⟨p, a, by simp [nodeAt, hl, hp], by simp [nodeAt, hl, ha], ?_⟩
        have hs := (k3 j l l' hl hl').1
        simp only [nodeAt, hl', Option.bind_some, hs, List.getElem?_zipWith, hp, ha]

/-- C44. The right nodes and the angles: each node after the starting one carries the colocalisation of the left node,
and its angle is that of the local epipolar line there. -/
theorem C44_right_nodes (t : Trig K) (m : Stereo K) (startL startR : ORow K) (spacing step off : K)
    (rows cols : ℕ) (hc : 1 ≤ cols) (g : EpiGrids K)
    (h : stereoGrids t m startL startR spacing step off rows cols = .ok g) (j : ℕ) (l : Layer K)
    (hl : g.columns[j + 1]? = some l) :
    (∃ corr, m.l2r (l.left.map rowCol) = .ok corr ∧ l.right = corr.map fun c => c.1) ∧
    ∃ starts ends ground, localEpipolarLine m l.left off = .ok (starts, ends, ground) ∧
      l.angles = List.zipWith (epipolarAngle t) ends starts := by
  unfold stereoGrids at h
  cases h0 : stripOfEpipolarGrid t m [startL] [startR] spacing 0 rows step off none none with
  | error e => rw [h0] at h; simp at h
  | ok s0 =>
    rw [h0] at h
    simp only at h
    generalize heads nanRow (s0.layers.map fun l => l.left) = L at h
    generalize heads nanRow (s0.layers.map fun l => l.right) = R at h
    generalize heads none (s0.layers.map fun l => l.angles) = A at h
    cases h1 : stripOfEpipolarGrid t m L R spacing 1 cols step off (some A) none with
    | error e => rw [h1] at h; simp at h
    | ok s1 =>
      rw [h1] at h
      simp only [Except.ok.injEq] at h
      subst h
      obtain ⟨k1, -, k3⟩ := C44_strip t m L R spacing 1 cols step off (some A) s1 hc h1
      simp only at hl
      have : j + 1 < s1.layers.length := (List.getElem?_eq_some_iff.1 hl).1
      obtain ⟨l', hl'⟩ : ∃ l, s1.layers[j]? = some l := ⟨_, List.getElem?_eq_getElem (by omega)⟩
      obtain ⟨-, a2, starts, ends, ground, a3, a4, -⟩ := k3 j l' l hl' hl
      exact ⟨a2, starts, ends, ground, a3, a4⟩

/-- C44. Over the reals, when the local epipolar lines have no NaN, consecutive left nodes along a row are at distance
exactly |step × spacing|. -/
theorem C44_regular_distance (m : Stereo ℝ) (hm : m.KeepsLength) (startL startR : ORow ℝ) (spacing step off : ℝ)
    (rows cols : ℕ) (hr : 1 ≤ rows) (hc : 1 ≤ cols) (g : EpiGrids ℝ)
    (h : stereoGrids realTrig m startL startR spacing step off rows cols = .ok g) (i j : ℕ) (hi : i < rows)
    (hj : j + 1 < cols) (r c z a : ℝ) (hp : nodeAt Layer.left g.columns i j = some (pos3 r c z))
    (ha : nodeAt Layer.angles g.columns i j = some (some a)) :
    ∃ r' c', nodeAt Layer.left g.columns i (j + 1) = some (pos3 r' c' z) ∧
      Real.sqrt ((r' - r) ^ 2 + (c' - c) ^ 2) = |step * spacing| := by
  obtain ⟨p, a', e1, e2, e3⟩ := (C44_grids realTrig m hm startL startR spacing step off rows cols hr hc g h).2.2.2.2.2 i j hi hj
  rw [hp] at e1; rw [ha] at e2
  simp only [Option.some.injEq] at e1 e2
  subst e1 e2
  obtain ⟨r', c', e4, e5, -⟩ := C43_length_and_direction spacing step r c a (some z) 1 (Or.inr rfl)
  refine ⟨r', c', by rw [e3]; exact congrArg some e4, ?_⟩
  rw [e5, Real.sqrt_sq_eq_abs]

/-- C44. For models that locate each point by itself, the local epipolar line of a left point joins the left images of the two
ground points seen by its right correspondent `off` below and `off` above the ground. -/
theorem C44_local_line (m : Stereo K) (fr : Option K × Option K → ORow K × ORow K) (fl : ORow K → ORow K)
    (h1 : ∀ l, m.l2r l = .ok (l.map fr)) (h2 : ∀ l, m.r2l l = .ok (l.map fl)) (left : List (ORow K)) (off : K) :
    localEpipolarLine m left off = .ok
      (left.map (fun p => fl ⟨(fr (p.x, p.y)).1.x, (fr (p.x, p.y)).1.y, (fr (p.x, p.y)).1.z.map fun z => z - off⟩),
       left.map (fun p => fl ⟨(fr (p.x, p.y)).1.x, (fr (p.x, p.y)).1.y, (fr (p.x, p.y)).1.z.map fun z => z + off⟩),
       left.map (fun p => (fr (p.x, p.y)).2)) := by
  unfold localEpipolarLine
  simp only [h1, h2, List.map_map]
  simp only [Function.comp_def, shiftAlt, rowCol, sub_eq_add_neg]

/-! A toy case: both images see the ground with horizontal epipolar lines. -/

/-- Exact values at 0 and at a right angle (whose measure is 1, pi being 2). -/
def toyTrig : Trig ℚ := ⟨fun x => if x = 0 then 1 else 0, fun x => if x = 0 then 0 else 1, fun _ => 0, fun x => if x = 100 then 10 else x, 2⟩

/-- Horizontal epipolar lines. -/
def toyStereo : Stereo ℚ :=
  ⟨fun l => .ok (l.map fun p => (⟨p.1, p.2, some 7⟩, ⟨p.2, p.1, some 7⟩)),
   fun l => .ok (l.map fun p => ⟨p.x, olift2 (fun c z => c + z / 10) p.y p.z, p.z⟩),
   fun l => .ok (l.map fun p => ⟨p.2, p.1, some 7⟩)⟩

theorem toyStereo_keepsLength : toyStereo.KeepsLength := by
  refine ⟨?_, ?_, ?_⟩ <;> · intro l r h; simp only [toyStereo, Except.ok.injEq] at h; subst h; simp

/-- The hypotheses of `C44_grids` are met. -/
example : ∃ g, stereoGrids toyTrig toyStereo (pos3 0 0 0) (pos3 0 0 7) 1 30 50 2 3 = .ok g ∧
    g.columns.map (fun l => l.left) = [[pos3 0 0 0, pos3 30 0 0], [pos3 0 30 0, pos3 30 30 0], [pos3 0 60 0, pos3 30 60 0]] ∧
    g.columns.map (fun l => l.right) = [[pos3 0 0 7, pos3 30 0 7], [pos3 0 30 7, pos3 30 30 7], [pos3 0 60 7, pos3 30 60 7]] := by
  refine ⟨(match stereoGrids toyTrig toyStereo (pos3 0 0 0) (pos3 0 0 7) 1 30 50 2 3 with
    | .ok g => g
    | .error _ => ⟨[], none⟩), ?_, ?_, ?_⟩ <;> decide +kernel

end Shareloc
