import Verif.Model.Pipeline
import Verif.Props.Strip
import Verif.Props.Localization

/-! Epipolar grids for models that locate each point by itself. -/

set_option linter.unusedSectionVars false

namespace Shareloc
variable {K : Type*} [Field K] [LinearOrder K] [IsStrictOrderedRing K] [FloorRing K]

/-- The colocalisations work point by point: `fr` gives the right position and the ground point of a left position, `fl` the left
position of a right position at its altitude. -/
structure Stereo.PointByPoint (m : Stereo K) (fr : Option K × Option K → ORow K × ORow K) (fl : ORow K → ORow K) : Prop where
  l2r : ∀ l, m.l2r l = .ok (l.map fr)
  r2l : ∀ l, m.r2l l = .ok (l.map fl)
  directL : ∀ l, m.directL l = .ok (l.map fun p => (fr p).2)

theorem Stereo.PointByPoint.keepsLength {m : Stereo K} {fr : Option K × Option K → ORow K × ORow K} {fl : ORow K → ORow K}
    (h : m.PointByPoint fr fl) : m.KeepsLength := by
  refine ⟨fun l r e => ?_, fun l r e => ?_, fun l r e => ?_⟩
  · rw [h.l2r] at e; simp only [Except.ok.injEq] at e; subst e; simp
  · rw [h.r2l] at e; simp only [Except.ok.injEq] at e; subst e; simp
  · rw [h.directL] at e; simp only [Except.ok.injEq] at e; subst e; simp

/-- Start of the local epipolar line of a left position: its right correspondent seen `off` below the ground. -/
def lineStart (fr : Option K × Option K → ORow K × ORow K) (fl : ORow K → ORow K) (off : K) (p : ORow K) : ORow K :=
  fl ⟨(fr (p.x, p.y)).1.x, (fr (p.x, p.y)).1.y, (fr (p.x, p.y)).1.z.map fun z => z - off⟩

/-- End of the local epipolar line of a left position: its right correspondent seen `off` above the ground. -/
def lineEnd (fr : Option K × Option K → ORow K × ORow K) (fl : ORow K → ORow K) (off : K) (p : ORow K) : ORow K :=
  fl ⟨(fr (p.x, p.y)).1.x, (fr (p.x, p.y)).1.y, (fr (p.x, p.y)).1.z.map fun z => z + off⟩

/-- The epipolar angle at a left position. -/
def angleAt (t : Trig K) (fr : Option K × Option K → ORow K × ORow K) (fl : ORow K → ORow K) (off : K) (p : ORow K) : Option K :=
  epipolarAngle t (lineEnd fr fl off p) (lineStart fr fl off p)

theorem localEpipolarLine_points {m : Stereo K} {fr : Option K × Option K → ORow K × ORow K} {fl : ORow K → ORow K}
    (h : m.PointByPoint fr fl) (left : List (ORow K)) (off : K) :
    localEpipolarLine m left off = .ok (left.map (lineStart fr fl off), left.map (lineEnd fr fl off),
      left.map fun p => (fr (p.x, p.y)).2) :=
  C44_local_line m fr fl h.l2r h.r2l left off

theorem zipWith_map_same {α β γ δ' : Type*} (f : β → γ → δ') (g : α → β) (k : α → γ) (l : List α) :
    List.zipWith f (l.map g) (l.map k) = l.map fun x => f (g x) (k x) := by
  rw [List.zipWith_map, List.zipWith_self]

/-- Every right position and angle of a layer is that of its left position. -/
def LayerOk (t : Trig K) (fr : Option K × Option K → ORow K × ORow K) (fl : ORow K → ORow K) (off : K) (l : Layer K) : Prop :=
  l.right = l.left.map (fun p => (fr (p.x, p.y)).1) ∧ l.angles = l.left.map (angleAt t fr fl off)

theorem LayerStep.ok {t : Trig K} {m : Stereo K} {fr : Option K × Option K → ORow K × ORow K} {fl : ORow K → ORow K}
    (hm : m.PointByPoint fr fl) {spacing step off : K} {axis : ℤ} {left : List (ORow K)} {angles : List (Option K)} {l : Layer K}
    (h : LayerStep t m spacing step off axis left angles l) : LayerOk t fr fl off l := by
  obtain ⟨-, ⟨corr, h2, h3⟩, starts, ends, ground, h4, h5, -⟩ := h
  rw [hm.l2r] at h2
  rw [localEpipolarLine_points hm] at h4
  simp only [Except.ok.injEq, Prod.mk.injEq] at h2 h4
  obtain ⟨rfl, rfl, -⟩ := h4
  subst h2
  refine ⟨?_, ?_⟩
  · rw [h3, List.map_map, List.map_map]; rfl
  · rw [h5, zipWith_map_same]; rfl

theorem LayerChain.ok {t : Trig K} {m : Stereo K} {fr : Option K × Option K → ORow K × ORow K} {fl : ORow K → ORow K}
    (hm : m.PointByPoint fr fl) {spacing step off : K} {axis : ℤ} {left : List (ORow K)} {angles : List (Option K)}
    {ls : List (Layer K)} (h : LayerChain t m spacing step off axis left angles ls) : ∀ l ∈ ls, LayerOk t fr fl off l := by
  induction ls generalizing left angles with
  | nil => simp
  | cons a as ih =>
    intro l hl
    rcases List.mem_cons.1 hl with rfl | hl
    · exact LayerStep.ok hm h.1
    · exact ih h.2 l hl

/-- A strip whose first layer is consistent is consistent. -/
theorem strip_ok {t : Trig K} {m : Stereo K} {fr : Option K × Option K → ORow K × ORow K} {fl : ORow K → ORow K}
    (hm : m.PointByPoint fr fl) {left : List (ORow K)} {spacing : K} {axis : ℤ} {size : ℕ} (hsize : 1 ≤ size) {step off : K}
    {angles : Option (List (Option K))} {s : Strip K}
    (ha : ∀ a, angles = some a → a = left.map (angleAt t fr fl off))
    (h : stripOfEpipolarGrid t m left (left.map fun p => (fr (p.x, p.y)).1) spacing axis size step off angles none = .ok s) :
    ∀ l ∈ s.layers, LayerOk t fr fl off l := by
  obtain ⟨l0, ls, e0, -, hl, hr, hch, h1, h2, -, -⟩ := strip_plain hsize h
  rw [e0]
  intro l hmem
  rcases List.mem_cons.1 hmem with rfl | hmem
  · refine ⟨by rw [hr, hl], ?_⟩
    cases angles with
    | some a => rw [(h1 a rfl).1, ha a rfl, hl]
    | none =>
      obtain ⟨starts, ends, ground, h3, h4, -⟩ := h2 rfl
      rw [localEpipolarLine_points hm] at h3
      simp only [Except.ok.injEq, Prod.mk.injEq] at h3
      obtain ⟨rfl, rfl, -⟩ := h3
      rw [h4, zipWith_map_same, hl]; rfl
  · exact LayerChain.ok hm hch l hmem

theorem stripStep_no_error {t : Trig K} {m : Stereo K} {fr : Option K × Option K → ORow K × ORow K} {fl : ORow K → ORow K}
    (hm : m.PointByPoint fr fl) {spacing step off : K} {axis : ℤ} (hx : axis = 0 ∨ axis = 1) {st : StripState K} {e : RectError} :
    stripStep t m spacing step off axis none st ≠ .error e := by
  intro h
  have hx' : ¬ (axis ≠ 0 ∧ axis ≠ 1) := by rintro ⟨a, b⟩; rcases hx with h | h <;> contradiction
  have hmv : movingAlongAxis t m st.left spacing step st.angles axis =
      .ok (List.zipWith (movePoint t spacing step axis) st.left st.angles,
        ((List.zipWith (movePoint t spacing step axis) st.left st.angles).map rowCol |>.map fr).map (fun c => c.1),
        ((List.zipWith (movePoint t spacing step axis) st.left st.angles).map rowCol |>.map fr).map (fun c => c.2)) := by
    unfold movingAlongAxis
    rw [if_neg hx']
    simp only [hm.l2r]
  unfold stripStep at h
  rw [hmv] at h
  simp only [localEpipolarLine_points hm] at h
  simp at h

/-- For models that locate each point by itself, a strip of the right shape is computed. -/
theorem strip_succeeds (t : Trig K) {m : Stereo K} {fr : Option K × Option K → ORow K × ORow K} {fl : ORow K → ORow K}
    (hm : m.PointByPoint fr fl) (left right : List (ORow K)) (spacing : K) {axis : ℤ} (hx : axis = 0 ∨ axis = 1) {size : ℕ}
    (hsize : 1 ≤ size) (step off : K) (angles : Option (List (Option K))) (h2 : angles.isSome → 2 ≤ size) :
    ∃ s, stripOfEpipolarGrid t m left right spacing axis size step off angles none = .ok s := by
  have key : ∀ g a, ∃ ls, stripLoop t m spacing step off axis none size (size - 1) ⟨left, right, g, a, [some 1]⟩ = .ok ls ∧
      ls.length = size - 1 := by
    intro g a
    have hp := stripLoop_plain t m spacing step off axis size (size - 1) 1 ⟨left, right, g, a, [some 1]⟩ (by simp) le_rfl
    cases hl : stripLoop t m spacing step off axis none size (size - 1) ⟨left, right, g, a, [some 1]⟩ with
    | ok ls => exact ⟨ls, rfl, (hp.1 ls hl).1⟩
    | error e =>
      obtain ⟨st', he⟩ := hp.2 e hl
      exact absurd he (stripStep_no_error hm hx)
  unfold stripOfEpipolarGrid
  rw [maxStripSize_plain]
  simp only [show size ≠ 0 by omega, if_false]
  cases angles with
  | none =>
    simp only [localEpipolarLine_points hm]
    obtain ⟨ls, hk, -⟩ := key (left.map fun p => (fr (p.x, p.y)).2)
      (List.zipWith (epipolarAngle t) (left.map (lineEnd fr fl off)) (left.map (lineStart fr fl off)))
    rw [hk]
    simp
  | some a =>
    simp only [hm.directL]
    obtain ⟨ls, hk, hlen⟩ := key ((left.map rowCol).map fun p => (fr p).2) a
    rw [hk]
    have := h2 rfl
    have hne : ¬ ls.length = 0 := by omega
    simp [List.length_eq_zero_iff] at hne
    simp [hne]

theorem heads_map {α β : Type*} (d : α) (d' : β) (f : α → β) (l : List (List α)) (h : ∀ x ∈ l, x ≠ []) :
    heads d' (l.map fun x => x.map f) = (heads d l).map f := by
  induction l with
  | nil => rfl
  | cons x xs ih =>
    have hx := h x (by simp)
    cases x with
    | nil => exact absurd rfl hx
    | cons a as =>
      simp only [heads, List.map_cons, List.headD_cons, List.cons.injEq, true_and]
      exact ih fun y hy => h y (by simp [hy])

/-- In the grids every right position and angle is that of the left position of the node. -/
theorem stereoGrids_ok {t : Trig K} {m : Stereo K} {fr : Option K × Option K → ORow K × ORow K} {fl : ORow K → ORow K}
    (hm : m.PointByPoint fr fl) {startL : ORow K} {spacing step off : K} {rows cols : ℕ} (hr : 1 ≤ rows) (hc : 1 ≤ cols)
    {g : EpiGrids K} (h : stereoGrids t m startL (fr (startL.x, startL.y)).1 spacing step off rows cols = .ok g) :
    ∀ l ∈ g.columns, LayerOk t fr fl off l := by
  unfold stereoGrids at h
  cases h0 : stripOfEpipolarGrid t m [startL] [(fr (startL.x, startL.y)).1] spacing 0 rows step off none none with
  | error e => rw [h0] at h; simp at h
  | ok s0 =>
    rw [h0] at h
    simp only at h
    have hok := strip_ok hm (left := [startL]) hr (by simp) h0
    have hne : ∀ l ∈ s0.layers, l.left ≠ [] := by
      obtain ⟨l0, ls, e0, -, hleft, -, hch, -, hang0, -, -⟩ := strip_plain hr h0
      obtain ⟨starts, ends, ground, hloc, hang, -⟩ := hang0 rfl
      have hll := localEpipolarLine_length hm.keepsLength hloc
      have h1 : l0.angles.length = 1 := by rw [hang]; simp [hll.1, hll.2.1]
      intro l hl
      rw [e0] at hl
      rcases List.mem_cons.1 hl with rfl | hl
      · rw [hleft]; simp
      · have := (hch.lengths hm.keepsLength (by simp [h1]) l hl).1
        intro hcon
        rw [hcon] at this
        simp at this
    have hR : heads nanRow (s0.layers.map fun l => l.right) =
        (heads nanRow (s0.layers.map fun l => l.left)).map fun p => (fr (p.x, p.y)).1 := by
      rw [← heads_map nanRow nanRow (fun p : ORow K => (fr (p.x, p.y)).1) (s0.layers.map fun l => l.left), List.map_map]
      · congr 1
        apply List.map_congr_left
        intro l hl
        exact (hok l hl).1
      · intro x hx
        obtain ⟨l, hl, rfl⟩ := List.mem_map.1 hx
        exact hne l hl
    have hA : heads none (s0.layers.map fun l => l.angles) =
        (heads nanRow (s0.layers.map fun l => l.left)).map (angleAt t fr fl off) := by
      rw [← heads_map nanRow none (angleAt t fr fl off) (s0.layers.map fun l => l.left), List.map_map]
      · congr 1
        apply List.map_congr_left
        intro l hl
        exact (hok l hl).2
      · intro x hx
        obtain ⟨l, hl, rfl⟩ := List.mem_map.1 hx
        exact hne l hl
    rw [hR, hA] at h
    generalize heads nanRow (s0.layers.map fun l => l.left) = L at h
    cases h1 : stripOfEpipolarGrid t m L (L.map fun p => (fr (p.x, p.y)).1) spacing 1 cols step off
        (some (L.map (angleAt t fr fl off))) none with
    | error e => rw [h1] at h; simp at h
    | ok s1 =>
      rw [h1] at h
      simp only [Except.ok.injEq] at h
      subst h
      exact strip_ok hm hc (by simp) h1

/-- For models that locate each point by itself, the grids are computed as soon as there are two columns. -/
theorem stereoGrids_succeeds (t : Trig K) {m : Stereo K} {fr : Option K × Option K → ORow K × ORow K} {fl : ORow K → ORow K}
    (hm : m.PointByPoint fr fl) (startL startR : ORow K) (spacing step off : K) {rows cols : ℕ} (hr : 1 ≤ rows) (hc : 2 ≤ cols) :
    ∃ g, stereoGrids t m startL startR spacing step off rows cols = .ok g := by
  unfold stereoGrids
  obtain ⟨s0, h0⟩ := strip_succeeds t hm [startL] [startR] spacing (axis := 0) (Or.inl rfl) hr step off none (by simp)
  rw [h0]
  simp only
  obtain ⟨s1, h1⟩ := strip_succeeds t hm (heads nanRow (s0.layers.map fun l => l.left))
    (heads nanRow (s0.layers.map fun l => l.right)) spacing (axis := 1) (Or.inr rfl) (by omega) step off
    (some (heads none (s0.layers.map fun l => l.angles))) (fun _ => hc)
  rw [h1]
  simp

end Shareloc
