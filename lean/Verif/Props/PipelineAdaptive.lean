import Verif.Props.Pipeline
import Verif.Props.Adaptive

/-!
# C77: the epipolar grids with the adaptive step, from the two geometric models
-/

set_option linter.unusedSectionVars false

namespace Shareloc
variable {K δ : Type*} [Field K] [LinearOrder K] [IsStrictOrderedRing K] [FloorRing K]

/-! ### Specification -/

/-- What an adaptive strip needs to know: the functions of the models, the parameters of the walk and of the adaptive step.
`fr` gives the right position and the ground point of a left position, `fl` the left position of a right position. -/
structure Walk (K : Type*) where
  t : Trig K
  fr : Option K × Option K → ORow K × ORow K
  fl : ORow K → ORow K
  spacing : K
  step : K
  off : K
  axis : ℤ
  ad : Adaptive K

/-- The next position without adaptive step. -/
def Walk.full (w : Walk K) (p : ORow K) : ORow K := movePoint w.t w.spacing w.step w.axis p (angleAt w.t w.fr w.fl w.off p)

/-- The ratio of the step from a left position: from the altitudes of the ground under the position and under the next one. -/
def Walk.ratio (w : Walk K) (p : ORow K) : Option K :=
  adaptRatio w.t w.ad (w.fr ((w.full p).x, (w.full p).y)).2.z (w.fr (p.x, p.y)).2.z

/-- A node of the two grids, left and right, and the next one: the left position goes the inverse of the ratio of the way to the next
position, the right position the inverse of the ratio of the way to the correspondent of the next left position. -/
def Walk.next (w : Walk K) (n : ORow K × ORow K) : ORow K × ORow K :=
  (rescale (w.ratio n.1) (w.full n.1) n.1, rescale (w.ratio n.1) (w.fr ((w.full n.1).x, (w.full n.1).y)).1 n.2)

/-- How many steps of the requested size `k` adaptive steps have covered, plus one. -/
def Walk.covered (w : Walk K) (n : ORow K × ORow K) : ℕ → Option K
  | 0 => some 1
  | k + 1 => olift2 (fun s r => s + 1 / r) (w.covered n k) (w.ratio (w.next^[k] n).1)

/-! ### Strips -/

theorem zipWith3_map {α α' β γ κ : Type*} (f : α → β → γ → κ) (a : α' → α) (b : α' → β) (c : α' → γ) (l : List α') :
    zipWith3 f (l.map a) (l.map b) (l.map c) = l.map fun x => f (a x) (b x) (c x) := by
  induction l with
  | nil => rfl
  | cons x xs ih => simp only [List.map_cons, zipWith3, ih]

/-- The state of the loop after `k` steps. -/
def Walk.state (w : Walk K) (ns : List (ORow K × ORow K)) (k : ℕ) : StripState K where
  left := ns.map fun n => (w.next^[k] n).1
  right := ns.map fun n => (w.next^[k] n).2
  ground := ns.map fun n => (w.fr ((w.next^[k] n).1.x, (w.next^[k] n).1.y)).2
  angles := ns.map fun n => angleAt w.t w.fr w.fl w.off (w.next^[k] n).1
  sums := ns.map fun n => w.covered n k

/-- The nodes of a layer. -/
def Walk.IsLayer (w : Walk K) (ns : List (ORow K × ORow K)) (k : ℕ) (l : Layer K) : Prop :=
  l.left = (ns.map fun n => (w.next^[k] n).1) ∧ l.right = (ns.map fun n => (w.next^[k] n).2) ∧
  l.angles = ns.map fun n => angleAt w.t w.fr w.fl w.off (w.next^[k] n).1

theorem Walk.step_state (w : Walk K) {m : Stereo K} (hm : m.PointByPoint w.fr w.fl) (hx : w.axis = 0 ∨ w.axis = 1)
    (ns : List (ORow K × ORow K)) (k : ℕ) :
    ∃ l, stripStep w.t m w.spacing w.step w.off w.axis (some w.ad) (w.state ns k) = .ok (l, w.state ns (k + 1)) ∧ w.IsLayer ns (k + 1) l := by
  have hx' : ¬ (w.axis ≠ 0 ∧ w.axis ≠ 1) := by rintro ⟨a, b⟩; rcases hx with h | h <;> contradiction
  have hmv : movingAlongAxis w.t m (w.state ns k).left w.spacing w.step (w.state ns k).angles w.axis =
      .ok (ns.map fun n => w.full (w.next^[k] n).1,
        ns.map fun n => (w.fr ((w.full (w.next^[k] n).1).x, (w.full (w.next^[k] n).1).y)).1,
        ns.map fun n => (w.fr ((w.full (w.next^[k] n).1).x, (w.full (w.next^[k] n).1).y)).2) := by
    unfold movingAlongAxis
    rw [if_neg hx']
    simp only [Walk.state, zipWith_map_same, hm.l2r, List.map_map, Except.ok.injEq, Prod.mk.injEq]
    exact ⟨rfl, rfl, rfl⟩
  have hratio : List.zipWith (adaptRatio w.t w.ad)
      ((ns.map fun n => (w.fr ((w.full (w.next^[k] n).1).x, (w.full (w.next^[k] n).1).y)).2).map fun p => p.z)
      ((w.state ns k).ground.map fun p => p.z) = ns.map fun n => w.ratio (w.next^[k] n).1 := by
    simp only [Walk.state, List.map_map]
    rw [zipWith_map_same]
    rfl
  have hit : ∀ n, w.next^[k + 1] n = w.next (w.next^[k] n) := fun n => Function.iterate_succ_apply' _ _ _
  unfold stripStep
  rw [hmv]
  simp only [hratio]
  have hleft : zipWith3 rescale (ns.map fun n => w.ratio (w.next^[k] n).1) (ns.map fun n => w.full (w.next^[k] n).1) (w.state ns k).left =
      ns.map fun n => (w.next^[k + 1] n).1 := by
    simp only [Walk.state]
    rw [zipWith3_map]
    apply List.map_congr_left
    intro n _
    rw [hit]; rfl
  have hright : zipWith3 rescale (ns.map fun n => w.ratio (w.next^[k] n).1)
      (ns.map fun n => (w.fr ((w.full (w.next^[k] n).1).x, (w.full (w.next^[k] n).1).y)).1) (w.state ns k).right =
      ns.map fun n => (w.next^[k + 1] n).2 := by
    simp only [Walk.state]
    rw [zipWith3_map]
    apply List.map_congr_left
    intro n _
    rw [hit]; rfl
  have hsums : List.zipWith (olift2 fun s r => s + 1 / r) (w.state ns k).sums (ns.map fun n => w.ratio (w.next^[k] n).1) =
      ns.map fun n => w.covered n (k + 1) := by
    simp only [Walk.state]
    rw [zipWith_map_same]
    rfl
  rw [hleft, hright, hsums, localEpipolarLine_points hm]
  simp only [List.map_map, zipWith_map_same]
  exact ⟨_, rfl, rfl, rfl, rfl⟩

theorem Walk.loop (w : Walk K) {m : Stereo K} (hm : m.PointByPoint w.fr w.fl) (hx : w.axis = 0 ∨ w.axis = 1)
    (ns : List (ORow K × ORow K)) (size room k : ℕ) :
    (∀ ls, stripLoop w.t m w.spacing w.step w.off w.axis (some w.ad) size room (w.state ns k) = .ok ls →
      (∀ (i : ℕ) l, ls[i]? = some l → w.IsLayer ns (k + 1 + i) l) ∧
      (∀ n ∈ ns, ∀ x, w.covered n (k + ls.length) = some x → (size : K) ≤ x) ∧
      ∀ i < ls.length, ∃ n ∈ ns, ∃ x, w.covered n (k + i) = some x ∧ x < (size : K)) ∧
    ∀ e, stripLoop w.t m w.spacing w.step w.off w.axis (some w.ad) size room (w.state ns k) = .error e → e = .indexError := by
  induction room generalizing k with
  | zero =>
    unfold stripLoop
    split
    · exact ⟨by simp, by simp⟩
    · rename_i hb
      refine ⟨?_, by simp⟩
      rintro ls h
      simp only [Except.ok.injEq] at h
      subst h
      refine ⟨by simp, ?_, by simp⟩
      intro n hn x hxx
      by_contra hcon
      push Not at hcon
      exact hb (anyBelow_eq_true.2 ⟨x, List.mem_map.2 ⟨n, hn, by simpa using hxx⟩, hcon⟩)
  | succ room ih =>
    unfold stripLoop
    split
    · rename_i hb
      obtain ⟨l, hl, hlayer⟩ := w.step_state hm hx ns k
      simp only [hl]
      obtain ⟨i1, i2⟩ := ih (k + 1)
      cases hrec : stripLoop w.t m w.spacing w.step w.off w.axis (some w.ad) size room (w.state ns (k + 1)) with
      | error e =>
        refine ⟨by simp, ?_⟩
        intro e' he
        simp only [Except.error.injEq] at he
        exact he ▸ i2 e hrec
      | ok ls =>
        refine ⟨?_, by simp⟩
        intro ls' h
        simp only [Except.ok.injEq] at h
        subst h
        obtain ⟨c1, c2, c3⟩ := i1 ls hrec
        refine ⟨?_, ?_, ?_⟩
        · intro i l' hi
          cases i with
          | zero => simp only [List.getElem?_cons_zero, Option.some.injEq] at hi; subst hi; exact hlayer
          | succ i =>
            rw [List.getElem?_cons_succ] at hi
            have := c1 i l' hi
            rwa [show k + 1 + 1 + i = k + 1 + (i + 1) by omega] at this
        · intro n hn x hxx
          exact c2 n hn x (by rw [← hxx, List.length_cons]; congr 1; omega)
        · intro i hi
          cases i with
          | zero =>
            obtain ⟨x, hmem, hlt⟩ := anyBelow_eq_true.1 hb
            obtain ⟨n, hn, e⟩ := List.mem_map.1 hmem
            exact ⟨n, hn, x, e, hlt⟩
          | succ i =>
            obtain ⟨n, hn, x, e, hlt⟩ := c3 i (by rw [List.length_cons] at hi; omega)
            exact ⟨n, hn, x, by rw [← e]; congr 1; omega, hlt⟩
    · rename_i hb
      refine ⟨?_, by simp⟩
      rintro ls h
      simp only [Except.ok.injEq] at h
      subst h
      refine ⟨by simp, ?_, by simp⟩
      intro n hn x hxx
      by_contra hcon
      push Not at hcon
      exact hb (anyBelow_eq_true.2 ⟨x, List.mem_map.2 ⟨n, hn, by simpa using hxx⟩, hcon⟩)

/-- The layers of an adaptive strip. -/
theorem Walk.strip (w : Walk K) {m : Stereo K} (hm : m.PointByPoint w.fr w.fl) (hx : w.axis = 0 ∨ w.axis = 1)
    (ns : List (ORow K × ORow K)) (size : ℕ) (angles : Option (List (Option K)))
    (ha : ∀ a, angles = some a → a = ns.map fun n => angleAt w.t w.fr w.fl w.off n.1) (s : Strip K)
    (h : stripOfEpipolarGrid w.t m (ns.map fun n => n.1) (ns.map fun n => n.2) w.spacing w.axis size w.step w.off angles (some w.ad) = .ok s) :
    1 ≤ s.layers.length ∧ (∀ (k : ℕ) l, s.layers[k]? = some l → w.IsLayer ns k l) ∧
    (∀ n ∈ ns, ∀ x, w.covered n (s.layers.length - 1) = some x → (size : K) ≤ x) ∧
    ∀ k < s.layers.length - 1, ∃ n ∈ ns, ∃ x, w.covered n k = some x ∧ x < (size : K) := by
  unfold stripOfEpipolarGrid at h
  simp only at h
  split at h
  · simp at h
  · have finish : ∀ (l0 : Layer K) (already : ℕ), w.IsLayer ns 0 l0 → ∀ st, st = w.state ns 0 →
        (match stripLoop w.t m w.spacing w.step w.off w.axis (some w.ad) size (maxStripSize (some w.ad) size - 1) st with
          | .error e => .error e
          | .ok ls =>
            if angles.isSome ∧ ls.length = 0 ∧ (ns.map fun n => n.1).length = already then .error .zeroDivision
            else .ok ⟨l0 :: ls, stripMean (stripBaselines (l0 :: ls)) (maxStripSize (some w.ad) size * (ns.map fun n => n.1).length)
              ((l0 :: ls).length * (ns.map fun n => n.1).length) already, countNan (stripBaselines (l0 :: ls))⟩ :
          Except RectError (Strip K)) = .ok s →
        1 ≤ s.layers.length ∧ (∀ (k : ℕ) l, s.layers[k]? = some l → w.IsLayer ns k l) ∧
        (∀ n ∈ ns, ∀ x, w.covered n (s.layers.length - 1) = some x → (size : K) ≤ x) ∧
        ∀ k < s.layers.length - 1, ∃ n ∈ ns, ∃ x, w.covered n k = some x ∧ x < (size : K) := by
      intro l0 already hl0 st hst h
      rw [hst] at h
      cases hloop : stripLoop w.t m w.spacing w.step w.off w.axis (some w.ad) size (maxStripSize (some w.ad) size - 1) (w.state ns 0) with
      | error e => rw [hloop] at h; simp at h
      | ok ls =>
        rw [hloop] at h
        simp only at h
        obtain ⟨c1, c2, c3⟩ := (w.loop hm hx ns size _ 0).1 ls hloop
        split at h
        · simp at h
        · simp only [Except.ok.injEq] at h
          subst h
          refine ⟨by simp, ?_, ?_, ?_⟩
          · intro k l hk
            cases k with
            | zero => simp only [List.getElem?_cons_zero, Option.some.injEq] at hk; subst hk; exact hl0
            | succ k =>
              rw [List.getElem?_cons_succ] at hk
              have := c1 k l hk
              rwa [show 0 + 1 + k = k + 1 by omega] at this
          · intro n hn x hxx
            exact c2 n hn x (by simpa using hxx)
          · intro k hk
            simpa using c3 k (by simpa using hk)

    cases angles with
    | none =>
      simp only [localEpipolarLine_points hm, List.map_map, zipWith_map_same] at h
      refine finish _ _ ?_ _ ?_ h
      · exact ⟨rfl, rfl, rfl⟩
      · rfl
    | some a =>
      obtain rfl := ha a rfl
      simp only [hm.directL, List.map_map] at h
      refine finish _ _ ?_ _ ?_ h
      · exact ⟨rfl, rfl, rfl⟩
      · rfl

/-! ### The two strips -/

/-- A node of the two grids: `j` steps along the epipolar line from the node reached by `i` steps across it. -/
def adaptiveNode (down along : Walk K) (start : ORow K × ORow K) (i j : ℕ) : ORow K × ORow K := along.next^[j] (down.next^[i] start)

theorem twoStrips_adaptive {m : Stereo K} (down along : Walk K) (ht : along.t = down.t) (hfr : along.fr = down.fr) (hfl : along.fl = down.fl)
    (hsp : along.spacing = down.spacing) (hstep : along.step = down.step) (hoff : along.off = down.off) (h0 : down.axis = 0)
    (h1 : along.axis = 1) (hm : m.PointByPoint down.fr down.fl) (start : ORow K × ORow K) (rows cols : ℕ) (g : EpiGrids K)
    (h : twoStrips down.t m start.1 start.2 down.spacing down.step down.off rows cols (some down.ad) (some along.ad) = .ok g) :
    ∃ n : ℕ, 1 ≤ n ∧ 1 ≤ g.columns.length ∧
      (∀ (j : ℕ) l, g.columns[j]? = some l → l.left = ((List.range n).map fun i => (adaptiveNode down along start i j).1) ∧
        l.right = ((List.range n).map fun i => (adaptiveNode down along start i j).2)) ∧
      (∀ x, down.covered start (n - 1) = some x → (rows : K) ≤ x) ∧
      (∀ i < n, ∀ x, along.covered (down.next^[i] start) (g.columns.length - 1) = some x → (cols : K) ≤ x) ∧
      (∀ k < n - 1, ∃ x, down.covered start k = some x ∧ x < (rows : K)) ∧
      ∀ k < g.columns.length - 1, ∃ i < n, ∃ x, along.covered (down.next^[i] start) k = some x ∧ x < (cols : K) := by
  unfold twoStrips at h
  cases hs0 : stripOfEpipolarGrid down.t m [start.1] [start.2] down.spacing 0 rows down.step down.off none (some down.ad) with
  | error e => rw [hs0] at h; simp at h
  | ok s0 =>
    rw [hs0] at h
    simp only at h
    obtain ⟨a1, a2, a3, a4⟩ := down.strip hm (Or.inl h0) [start] rows none (by simp) s0 (by rw [h0]; exact hs0)
    have hheads : ∀ {β : Type _} (d : β) (f : Layer K → List β) (v : ORow K × ORow K → β),
        (∀ (k : ℕ) l, s0.layers[k]? = some l → f l = [v (down.next^[k] start)]) →
        heads d (s0.layers.map f) = (List.range s0.layers.length).map fun k => v (down.next^[k] start) := by
      intro β d f v hv
      apply List.ext_getElem?
      intro k
      simp only [heads, List.map_map, List.getElem?_map]
      by_cases hk : k < s0.layers.length
      · rw [List.getElem?_eq_getElem hk, List.getElem?_eq_getElem (by simpa using hk)]
        simp [hv k _ (List.getElem?_eq_getElem hk)]
      · rw [List.getElem?_eq_none (by omega), List.getElem?_eq_none (by simpa using hk)]
        rfl
    have e1 := hheads nanRow (fun l => l.left) (fun n => n.1) (fun k l hk => by rw [(a2 k l hk).1]; rfl)
    have e2 := hheads nanRow (fun l => l.right) (fun n => n.2) (fun k l hk => by rw [(a2 k l hk).2.1]; rfl)
    have e3 := hheads none (fun l => l.angles) (fun n => angleAt down.t down.fr down.fl down.off n.1)
      (fun k l hk => by rw [(a2 k l hk).2.2]; rfl)
    rw [e1, e2, e3] at h
    set ns : List (ORow K × ORow K) := (List.range s0.layers.length).map fun k => down.next^[k] start with hns
    have hL : ((List.range s0.layers.length).map fun k => (down.next^[k] start).1) = ns.map fun n => n.1 := by
      rw [hns, List.map_map]; rfl
    have hR : ((List.range s0.layers.length).map fun k => (down.next^[k] start).2) = ns.map fun n => n.2 := by
      rw [hns, List.map_map]; rfl
    have hA : ((List.range s0.layers.length).map fun k => angleAt down.t down.fr down.fl down.off (down.next^[k] start).1) =
        ns.map fun n => angleAt along.t along.fr along.fl along.off n.1 := by
      rw [hns, List.map_map, ht, hfr, hfl, hoff]; rfl
    rw [hL, hR, hA, ← ht, ← hsp, ← hstep, ← hoff, ← h1] at h
    cases hs1 : stripOfEpipolarGrid along.t m (ns.map fun n => n.1) (ns.map fun n => n.2) along.spacing along.axis cols along.step along.off
        (some (ns.map fun n => angleAt along.t along.fr along.fl along.off n.1)) (some along.ad) with
    | error e => rw [hs1] at h; simp at h
    | ok s1 =>
      rw [hs1] at h
      simp only [Except.ok.injEq] at h
      subst h
      obtain ⟨b1, b2, b3, b4⟩ := along.strip (by rw [hfr, hfl]; exact hm) (Or.inr h1) ns cols _ (by rintro a ⟨rfl⟩; rfl) s1 hs1
      refine ⟨s0.layers.length, a1, b1, ?_, ?_, ?_, ?_, ?_⟩
      · intro j l hj
        obtain ⟨c1, c2, -⟩ := b2 j l hj
        rw [c1, c2, hns, List.map_map, List.map_map]
        exact ⟨rfl, rfl⟩
      · intro x hx; exact a3 start (by simp) x hx
      · intro i hi x hx
        exact b3 _ (List.mem_map.2 ⟨i, List.mem_range.2 hi, rfl⟩) x hx
      · intro k hk
        obtain ⟨n, hn, r⟩ := a4 k hk
        rw [List.mem_singleton] at hn
        exact hn ▸ r
      · intro k hk
        obtain ⟨n, hn, r⟩ := b4 k hk
        obtain ⟨i, hi, rfl⟩ := List.mem_map.1 hn
        exact ⟨i, List.mem_range.1 hi, r⟩

/-! ### From the models -/

/-- C77. With the adaptive step, for two models that locate each point by itself: when the computation succeeds, its nodes are the
successive adaptive steps from the starting point of the preparation, across the epipolar lines first and then along them, written as
positions or displacements.  The reference of the ratios is the distance on the ground, at the altitude of the starting point, of one full step
across (`d0`) for the first column and along (`d1`) for the rows.  Every row and the first column cover at least the size announced
by the preparation, with no step more than needed by one of them.  The size of the image is that of the grids. -/
theorem C77_adaptive_grids (t : Trig K) (conv : ℕ → ℕ → ORow K → ORow K) (left right : Geo K δ)
    (gl gr : Option K → Option K → Option K → ORow K) (dl dr : δ → Option K → Option K → ORow K)
    (sl sr : ORow K → Option K × Option K) (hl : LocatesEachPoint left gl dl sl) (hr : LocatesEachPoint right gr dr sr)
    (el : UserElevation K δ) (im : LeftImage K) (hsp : meanSpacing im ≠ 0) (epiStep off : K) (hst : epiStep ≠ 0) (disp : Bool)
    (margin : ℤ) (scale maxRatio : K) (fr : Option K × Option K → ORow K × ORow K) (fl : ORow K → ORow K)
    (hfr : fr = fun p => (seenAt sr (groundAt gl dl el p.1 p.2), groundAt gl dl el p.1 p.2))
    (hfl : fl = fun p => seenAt sl (gr p.x p.y p.z))
    (a : K) (ha : angleAt t fr fl off (leftOrigin im) = some a) (P : Prepared K)
    (hP : P = prepareRectification (t.cos a) (t.sin a) 0 im epiStep margin) (start : ORow K)
    (hstart : start = ⟨some P.start.x, some P.start.y,
      olift2 (fun u v => (u + v) / 2) (lineStart fr fl off (leftOrigin im)).z (lineEnd fr fl off (leftOrigin im)).z⟩)
    (onGround : ORow K → ORow K) (hground : onGround = fun p => conv left.epsg 4978 (gl p.x p.y p.z))
    (res : RectResult K)
    (h : stereoRectification t conv left right el.arg im epiStep off disp margin (some (scale, maxRatio)) = .ok res) :
    ∃ (d0 d1 : K) (rows cols : ℕ) (down along : Walk K),
      oDist t (onGround start) (onGround (movePoint t (meanSpacing im) epiStep 0 start (angleAt t fr fl off start))) = some d0 ∧
      oDist t (onGround start) (onGround (movePoint t (meanSpacing im) epiStep 1 start (angleAt t fr fl off start))) = some d1 ∧
      down = ⟨t, fr, fl, meanSpacing im, epiStep, off, 0, ⟨d0, scale, maxRatio⟩⟩ ∧
      along = ⟨t, fr, fl, meanSpacing im, epiStep, off, 1, ⟨d1, scale, maxRatio⟩⟩ ∧
      1 ≤ rows ∧ 1 ≤ cols ∧ res.left.length = cols ∧ res.right.length = cols ∧
      (∀ l ∈ res.left, l.length = rows) ∧ (∀ l ∈ res.right, l.length = rows) ∧
      (∀ i j : ℕ, i < rows → j < cols →
        gridNode res.left i j = some (written disp epiStep i j (adaptiveNode down along (start, (fr (start.x, start.y)).1) i j).1) ∧
        gridNode res.right i j = some (written disp epiStep i j (adaptiveNode down along (start, (fr (start.x, start.y)).1) i j).2)) ∧
      (∀ x, down.covered (start, (fr (start.x, start.y)).1) (rows - 1) = some x → (P.gridRows : K) ≤ x) ∧
      (∀ i < rows, ∀ x, along.covered (down.next^[i] (start, (fr (start.x, start.y)).1)) (cols - 1) = some x → (P.gridCols : K) ≤ x) ∧
      (∀ k < rows - 1, ∃ x, down.covered (start, (fr (start.x, start.y)).1) k = some x ∧ x < P.gridRows) ∧
      (∀ k < cols - 1, ∃ i < rows, ∃ x, along.covered (down.next^[i] (start, (fr (start.x, start.y)).1)) k = some x ∧ x < P.gridCols) ∧
      res.imageRows = pyInt ((rows : K) * epiStep - epiStep / 2 - 2 * epiStep * margin) ∧
      res.imageCols = pyInt ((cols : K) * epiStep - epiStep / 2 - 2 * epiStep * margin) := by
  have hm : (stereoOf conv left right el.arg).PointByPoint fr fl := by
    rw [hfr, hfl]; exact stereoOf_points hl hr conv el
  have hin := initInputs_points t hm im epiStep off margin a ha hsp hst
  rw [← hP, ← hstart] at hin
  unfold stereoRectification at h
  simp only at h
  rw [hin] at h
  simp only at h
  split at h
  · simp at h
  rename_i hpos
  push Not at hpos
  obtain ⟨p1, p2⟩ := hpos
  have hgsd : epipolarGsd t (stereoOf conv left right el.arg) left.directH (conv left.epsg 4978) start (meanSpacing im) epiStep off =
      .ok (oDist t (onGround start) (onGround (movePoint t (meanSpacing im) epiStep 0 start (angleAt t fr fl off start))),
        oDist t (onGround start) (onGround (movePoint t (meanSpacing im) epiStep 1 start (angleAt t fr fl off start)))) := by
    unfold epipolarGsd
    rw [localEpipolarLine_points hm]
    simp only [List.map_cons, List.map_nil]
    have := hl.eachAlt [start, movePoint t (meanSpacing im) epiStep 0 start (angleAt t fr fl off start),
      movePoint t (meanSpacing im) epiStep 1 start (angleAt t fr fl off start)]
    simp only [List.map_cons, List.map_nil, angleAt] at this
    rw [this, hground]
    rfl
  rw [hgsd] at h
  cases hd0 : oDist t (onGround start) (onGround (movePoint t (meanSpacing im) epiStep 0 start (angleAt t fr fl off start))) with
  | none => rw [hd0] at h; simp at h
  | some d0 =>
    cases hd1 : oDist t (onGround start) (onGround (movePoint t (meanSpacing im) epiStep 1 start (angleAt t fr fl off start))) with
    | none => rw [hd0, hd1] at h; simp at h
    | some d1 =>
      rw [hd0, hd1] at h
      simp only at h
      obtain ⟨down, hdown⟩ : ∃ w : Walk K, w = ⟨t, fr, fl, meanSpacing im, epiStep, off, 0, ⟨d0, scale, maxRatio⟩⟩ := ⟨_, rfl⟩
      obtain ⟨along, halong⟩ : ∃ w : Walk K, w = ⟨t, fr, fl, meanSpacing im, epiStep, off, 1, ⟨d1, scale, maxRatio⟩⟩ := ⟨_, rfl⟩
      have hsx : (some P.start.x, some P.start.y) = (start.x, start.y) := by rw [hstart]
      rw [hsx] at h
      cases hg : twoStrips t (stereoOf conv left right el.arg) start (fr (start.x, start.y)).1 (meanSpacing im) epiStep off P.gridRows.toNat
          P.gridCols.toNat (some ⟨d0, scale, maxRatio⟩) (some ⟨d1, scale, maxRatio⟩) with
      | error e => rw [hg] at h; simp at h
      | ok g =>
        rw [hg] at h
        simp only [Option.isSome_some, if_true, Except.ok.injEq] at h
        obtain ⟨n, n1, n2, n3, n4, n5, n6, n7⟩ := twoStrips_adaptive down along (by rw [hdown, halong]) (by rw [hdown, halong])
          (by rw [hdown, halong]) (by rw [hdown, halong]) (by rw [hdown, halong]) (by rw [hdown, halong]) (by rw [hdown]) (by rw [halong])
          (by rw [hdown]; exact hm) (start, (fr (start.x, start.y)).1) P.gridRows.toNat P.gridCols.toNat g
          (by rw [hdown, halong]; exact hg)
        have c1 : ((P.gridRows.toNat : ℕ) : K) = (P.gridRows : K) := by
          rw [← Int.cast_natCast, Int.toNat_of_nonneg p1]
        have c2 : ((P.gridCols.toNat : ℕ) : K) = (P.gridCols : K) := by
          rw [← Int.cast_natCast, Int.toNat_of_nonneg p2]
        rw [c1] at n4 n6
        rw [c2] at n5 n7
        have hnode : ∀ i j : ℕ, i < n → j < g.columns.length →
            nodeAt Layer.left g.columns i j = some (adaptiveNode down along (start, (fr (start.x, start.y)).1) i j).1 ∧
            nodeAt Layer.right g.columns i j = some (adaptiveNode down along (start, (fr (start.x, start.y)).1) i j).2 := by
          intro i j hi hj
          obtain ⟨q1, q2⟩ := n3 j _ (List.getElem?_eq_getElem hj)
          simp only [nodeAt, List.getElem?_eq_getElem hj, Option.bind_some, q1, q2, List.getElem?_map, List.getElem?_range hi, Option.map_some]
          exact ⟨trivial, trivial⟩
        have hlen : ∀ l ∈ g.columns, l.left.length = n ∧ l.right.length = n := by
          intro l hl'
          obtain ⟨j, hj⟩ := List.getElem?_of_mem hl'
          obtain ⟨q1, q2⟩ := n3 j l hj
          simp [q1, q2]
        have hhead : (g.columns.headD ⟨[], [], [], [], []⟩).left.length = n := by
          cases hc : g.columns with
          | nil => rw [hc] at n2; simp at n2
          | cons x xs => exact (hlen x (by rw [hc]; simp)).1
        have hcollen : ∀ f : Layer K → List (ORow K), (∀ l ∈ g.columns, (f l).length = n) →
            ∀ l ∈ outputGrid disp epiStep (g.columns.map f), l.length = n := by
          intro f hf l hmem
          simp only [outputGrid] at hmem
          split at hmem
          · obtain ⟨k, hk, rfl⟩ := List.mem_mapIdx.1 hmem
            simp only [List.length_mapIdx, List.getElem_map]
            exact hf _ (List.getElem_mem _)
          · obtain ⟨l', h', rfl⟩ := List.mem_map.1 hmem
            exact hf _ h'
        subst h
        refine ⟨d0, d1, n, g.columns.length, down, along, rfl, rfl, hdown, halong, n1, n2, ?_, ?_,
          hcollen _ fun l h' => (hlen l h').1, hcollen _ fun l h' => (hlen l h').2, ?_, n4, n5, n6, n7, ?_, rfl⟩
        · simp only [outputGrid]; split <;> simp
        · simp only [outputGrid]; split <;> simp
        · intro i j hi hj
          obtain ⟨q1, q2⟩ := hnode i j hi hj
          simp only [outputGrid_node, gridNode_map, written_eq]
          rw [show nodeAt (fun l => l.left) g.columns i j = some _ from q1, show nodeAt (fun l => l.right) g.columns i j = some _ from q2]
          exact ⟨rfl, rfl⟩
        · simp only [hhead]

/-- C77. With a positive reference, ratios of at least 1 and a scale that is not negative, `k` adaptive steps never cover more than `k` steps of
the requested size, and exactly `k` when the ground under the nodes and the next full steps has the same altitude: the adaptive grid has at
least as many rows and columns as announced by the preparation, and as many on a flat ground. -/
theorem C77_covered (w : Walk K) (hs : IsSqrt w.t.sqrt) (hok : w.ad.Ok) (n : ORow K × ORow K) (k : ℕ) :
    (∀ x, w.covered n k = some x → x ≤ k + 1 ∧ 1 + k / w.ad.worst ≤ x) ∧
    ((∀ i < k, ∃ z, (w.fr ((w.full (w.next^[i] n).1).x, (w.full (w.next^[i] n).1).y)).2.z = some z ∧
        (w.fr ((w.next^[i] n).1.x, (w.next^[i] n).1.y)).2.z = some z) → w.covered n k = some ((k : K) + 1)) := by
  have hw : 0 < w.ad.worst := lt_of_lt_of_le one_pos hok.one_le_worst
  induction k with
  | zero =>
    refine ⟨?_, fun _ => by simp [Walk.covered]⟩
    intro x hx
    simp only [Walk.covered, Option.some.injEq] at hx
    subst hx
    simp
  | succ k ih =>
    obtain ⟨i1, i2⟩ := ih
    refine ⟨?_, ?_⟩
    · intro x hx
      simp only [Walk.covered] at hx
      cases hc : w.covered n k with
      | none => rw [hc] at hx; simp [olift2] at hx
      | some y =>
        cases hr : w.ratio (w.next^[k] n).1 with
        | none => rw [hr] at hx; simp [olift2, hc] at hx
        | some r =>
          rw [hc, hr] at hx
          simp only [olift2, Option.some.injEq] at hx
          obtain ⟨y1, y2⟩ := i1 y hc
          obtain ⟨b1, b2⟩ : 1 ≤ r ∧ r ≤ w.ad.worst := by
            unfold Walk.ratio at hr
            generalize (w.fr ((w.full (w.next^[k] n).1).x, (w.full (w.next^[k] n).1).y)).2.z = z1 at hr
            generalize (w.fr ((w.next^[k] n).1.x, (w.next^[k] n).1.y)).2.z = z0 at hr
            cases z1 with
            | none => simp [adaptRatio, olift2] at hr
            | some z1 =>
              cases z0 with
              | none => simp [adaptRatio, olift2] at hr
              | some z0 =>
                obtain ⟨r', e, b1, b2, -⟩ := C45_ratio_bounds w.t hs w.ad hok z1 z0
                rw [e] at hr
                simp only [Option.some.injEq] at hr
                exact hr ▸ ⟨b1, b2⟩
          have q1 : 1 / r ≤ 1 := by rw [div_le_one (by linarith)]; exact b1
          have q2 : 1 / w.ad.worst ≤ 1 / r := one_div_le_one_div_of_le (by linarith) b2
          subst hx
          push_cast
          rw [add_div]
          constructor <;> linarith
    · intro hz
      have hc := i2 fun i hi => hz i (by omega)
      obtain ⟨z, z1, z2⟩ := hz k (by omega)
      obtain ⟨r, e, -, -, b3⟩ := C45_ratio_bounds w.t hs w.ad hok z z
      have hr : w.ratio (w.next^[k] n).1 = some 1 := by
        unfold Walk.ratio
        rw [z1, z2, e, b3 rfl]
      simp only [Walk.covered, hc, hr, olift2, Option.some.injEq]
      push_cast
      ring

/-- The hypotheses of `C77_adaptive_grids` are met: a step of 4 in the ground shortens the last steps along the rows. -/
example : meanSpacing onePixel ≠ 0 ∧ (3 : ℚ) ≠ 0 ∧
    angleAt exactTrig
      (fun p => (seenAt (fun p => (p.y, olift2 (fun x z => x - 1 / 10 * z) p.x p.z)) (groundAt (δ := Bool) (fun r c a => ⟨olift2 (fun c z => c + 0 * z) c a, r, a⟩)
        (fun d r c => ⟨c, r, c.map (stepAlt d)⟩) (.dtm 4326 true) p.1 p.2),
        groundAt (fun r c a => ⟨olift2 (fun c z => c + 0 * z) c a, r, a⟩) (fun d r c => ⟨c, r, c.map (stepAlt d)⟩) (.dtm 4326 true) p.1 p.2))
      (fun p => seenAt (fun p => (p.y, olift2 (fun x z => x - 0 * z) p.x p.z)) (⟨olift2 (fun c z => c + 1 / 10 * z) p.y p.z, p.x, p.z⟩))
      50 (leftOrigin onePixel) = some 0 ∧
    (stereoRectification exactTrig (fun _ _ p => p) (slantGeo 0) (slantGeo (1 / 10)) (.dtm 4326 true) onePixel 3 50 true 0 (some (1, 3))).toOption.isSome ∧
    (Walk.mk exactTrig (fun p => (⟨p.1, p.2, p.2.map (stepAlt true)⟩, ⟨p.1, p.2, p.2.map (stepAlt true)⟩)) id 1 3 50 1 ⟨3, 1, 3⟩).ad.Ok := by
  refine ⟨by decide +kernel, by norm_num, by decide +kernel, by decide +kernel, by norm_num [Adaptive.Ok]⟩

end Shareloc
