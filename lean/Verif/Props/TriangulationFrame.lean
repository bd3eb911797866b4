import Verif.Props.Triangulation

/-!
C103: the triangulated point depends on the lines of sight only (not on the points and directions that represent them) and
it moves with them.
-/

set_option linter.unusedSectionVars false

namespace Shareloc
variable {K : Type*} [Field K] [LinearOrder K] [IsStrictOrderedRing K]

/-- The point is on the line. -/
def OnLine (w : V3 K × V3 K) (q : V3 K) : Prop := ∃ t, q = linePoint w.1 w.2 t

/-- A rigid motion of space (change of orthonormal frame, symmetries included): it keeps the distances and reaches every
point. -/
def IsMotion (T : V3 K → V3 K) : Prop := (∀ p q, sqDist (T p) (T q) = sqDist p q) ∧ Function.Surjective T

/-- The second line is the image of the first one. -/
def LineMoved (T : V3 K → V3 K) (w w' : V3 K × V3 K) : Prop := ∀ q, OnLine w q ↔ OnLine w' (T q)

theorem IsMotion.injective {T : V3 K → V3 K} (hT : IsMotion T) : Function.Injective T := by
  intro p q h
  have h1 := hT.1 p q
  rw [h] at h1
  simp only [sqDist, sub_self] at h1
  have a := sq_nonneg (p.x - q.x)
  have b := sq_nonneg (p.y - q.y)
  have c := sq_nonneg (p.z - q.z)
  obtain ⟨p1, p2, p3⟩ := p
  obtain ⟨q1, q2, q3⟩ := q
  simp only at a b c h1
  simp only [V3.mk.injEq]
  refine ⟨sub_eq_zero.1 (pow_eq_zero_iff (two_ne_zero) |>.1 (le_antisymm ?_ a)),
    sub_eq_zero.1 (pow_eq_zero_iff (two_ne_zero) |>.1 (le_antisymm ?_ b)),
    sub_eq_zero.1 (pow_eq_zero_iff (two_ne_zero) |>.1 (le_antisymm ?_ c))⟩ <;> linarith

/-- A motion keeps the distance to a line. -/
theorem isSqDistLine_moved (T : V3 K → V3 K) (hT : IsMotion T) (w w' : V3 K × V3 K) (hw : LineMoved T w w') (q : V3 K) (d : K)
    (h : IsSqDistLine w.1 w.2 q d) : IsSqDistLine w'.1 w'.2 (T q) d := by
  obtain ⟨⟨t, ht⟩, hmin⟩ := h
  refine ⟨?_, fun t' => ?_⟩
  · obtain ⟨t', ht'⟩ := (hw (linePoint w.1 w.2 t)).1 ⟨t, rfl⟩
    exact ⟨t', by rw [← ht', hT.1, ht]⟩
  · obtain ⟨p, hp⟩ := hT.2 (linePoint w'.1 w'.2 t')
    obtain ⟨t'', ht''⟩ := (hw p).2 ⟨t', hp⟩
    rw [← hp, hT.1, ht'']
    exact hmin t''

theorem crossSq_moved (T : V3 K → V3 K) (hT : IsMotion T) (w w' : V3 K × V3 K) (hw : LineMoved T w w') (hu : IsUnitVec w.2)
    (hu' : IsUnitVec w'.2) (q : V3 K) : crossSq w' (T q) = crossSq w q :=
  isSqDistLine_unique _ _ _ _ _ (crossSq_isSqDistLine w'.1 w'.2 (T q) hu')
    (isSqDistLine_moved T hT w w' hw q _ (crossSq_isSqDistLine w.1 w.2 q hu))

theorem parallel_iff_crossSq (v v' : V3 K) (hu : IsUnitVec v) : Parallel v v' ↔ crossSq (⟨0, 0, 0⟩, v) v' = 0 := by
  constructor
  · rintro ⟨t, rfl⟩
    simp only [crossSq, V3.minus, V3.cross]
    ring
  · intro h
    exact ⟨v'.dot v, crossSq_zero_eq v v' hu h⟩

theorem crossSq_second (w : V3 K × V3 K) (s v : V3 K) (a b c : K) (h1 : a + b = 2 * c) (h2 : (a - c) ^ 2 = 1) :
    crossSq w (linePoint s v a) + crossSq w (linePoint s v b) - 2 * crossSq w (linePoint s v c) =
      2 * crossSq (⟨0, 0, 0⟩, w.2) v := by
  obtain ⟨e, he⟩ : ∃ e, e = a - c := ⟨_, rfl⟩
  have ha : a = c + e := by rw [he]; ring
  have hb : b = c - e := by linear_combination h1 - ha
  rw [← he] at h2
  subst ha
  subst hb
  simp only [crossSq, V3.minus, V3.cross, linePoint]
  linear_combination (2 * ((v.y * w.2.z - v.z * w.2.y) ^ 2 + (v.z * w.2.x - v.x * w.2.z) ^ 2 +
    (v.x * w.2.y - v.y * w.2.x) ^ 2)) * h2

theorem sqDist_line (s v : V3 K) (hv : IsUnitVec v) (a b : K) : sqDist (linePoint s v a) (linePoint s v b) = (a - b) ^ 2 := by
  unfold IsUnitVec at hv
  simp only [sqDist, linePoint]
  linear_combination (a - b) ^ 2 * hv

theorem parallel_moved (T : V3 K → V3 K) (hT : IsMotion T) (w w' z z' : V3 K × V3 K) (hw : LineMoved T w w')
    (hz : LineMoved T z z') (hu : IsUnitVec w.2) (hu' : IsUnitVec w'.2) (huz : IsUnitVec z.2) (huz' : IsUnitVec z'.2) :
    Parallel w.2 z.2 ↔ Parallel w'.2 z'.2 := by
  obtain ⟨a, ha⟩ := (hz (linePoint z.1 z.2 1)).1 ⟨1, rfl⟩
  obtain ⟨b, hb⟩ := (hz (linePoint z.1 z.2 (-1))).1 ⟨-1, rfl⟩
  obtain ⟨c, hc⟩ := (hz (linePoint z.1 z.2 0)).1 ⟨0, rfl⟩
  have hac : (a - c) ^ 2 = 1 := by
    rw [← sqDist_line z'.1 z'.2 huz', ← ha, ← hc, hT.1, sqDist_line _ _ huz]; norm_num
  have hbc : (b - c) ^ 2 = 1 := by
    rw [← sqDist_line z'.1 z'.2 huz', ← hb, ← hc, hT.1, sqDist_line _ _ huz]; norm_num
  have hab : (a - b) ^ 2 = 4 := by
    rw [← sqDist_line z'.1 z'.2 huz', ← ha, ← hb, hT.1, sqDist_line _ _ huz]; norm_num
  have hsum : a + b = 2 * c := by
    have : (a + b - 2 * c) ^ 2 = 0 := by linear_combination 2 * hac + 2 * hbc - hab
    have := pow_eq_zero_iff (two_ne_zero) |>.1 this
    linear_combination this
  have h1 := crossSq_second w' z'.1 z'.2 a b c hsum hac
  have h2 := crossSq_second w z.1 z.2 1 (-1) 0 (by norm_num) (by norm_num)
  rw [← ha, ← hb, ← hc, crossSq_moved T hT w w' hw hu hu', crossSq_moved T hT w w' hw hu hu',
    crossSq_moved T hT w w' hw hu hu'] at h1
  rw [parallel_iff_crossSq _ _ hu, parallel_iff_crossSq _ _ hu']
  rw [h2] at h1
  constructor <;> intro h <;> linarith

/-- C103. If the lines of sight are the images of others by a rigid motion, whatever the point and the direction that
represent each line, the triangulated point is the image of the other one, and one is defined when the other one is. -/
theorem C103_moves_with_the_lines (T : V3 K → V3 K) (hT : IsMotion T) (views views' : List (V3 K × V3 K))
    (hu : ∀ w ∈ views, IsUnitVec w.2) (hu' : ∀ w ∈ views', IsUnitVec w.2) (h : List.Forall₂ (LineMoved T) views views') :
    nViewPoint (views'.map toView) = (nViewPoint (views.map toView)).map T := by
  have hsum : ∀ q, (views'.map fun w => crossSq w (T q)).sum = (views.map fun w => crossSq w q).sum := by
    intro q
    induction h with
    | nil => rfl
    | @cons w w' l l' hw _ ih =>
      simp only [List.map_cons, List.sum_cons]
      rw [crossSq_moved T hT w w' hw (hu w (by simp)) (hu' w' (by simp)),
        ih (fun x hx => hu x (by simp [hx])) (fun x hx => hu' x (by simp [hx]))]
  have hmem : ∀ w ∈ views, ∃ w' ∈ views', LineMoved T w w' := by
    intro w hw
    obtain ⟨n, hn⟩ := List.getElem?_of_mem hw
    obtain ⟨w', hw', hm⟩ := forall₂_getElem? h n w hn
    exact ⟨w', List.mem_of_getElem? hw', hm⟩
  have hmem' : ∀ w' ∈ views', ∃ w ∈ views, LineMoved T w w' := by
    intro w' hw'
    obtain ⟨n, hn⟩ := List.getElem?_of_mem hw'
    obtain ⟨w, hw, hm⟩ := forall₂_getElem? (List.Forall₂.flip h) n w' hn
    exact ⟨w, List.mem_of_getElem? hw, hm⟩
  have hdef : (∃ p, nViewPoint (views'.map toView) = .ok p) ↔ ∃ p, nViewPoint (views.map toView) = .ok p := by
    rw [C36_defined_iff views hu, C36_defined_iff views' hu']
    constructor
    · rintro ⟨w', hw', z', hz', hn⟩
      obtain ⟨w, hw, hm⟩ := hmem' w' hw'
      obtain ⟨z, hz, hmz⟩ := hmem' z' hz'
      exact ⟨w, hw, z, hz, fun hp =>
        hn ((parallel_moved T hT w w' z z' hm hmz (hu w hw) (hu' w' hw') (hu z hz) (hu' z' hz')).1 hp)⟩
    · rintro ⟨w, hw, z, hz, hn⟩
      obtain ⟨w', hw', hm⟩ := hmem w hw
      obtain ⟨z', hz', hmz⟩ := hmem z hz
      exact ⟨w', hw', z', hz', fun hp =>
        hn ((parallel_moved T hT w w' z z' hm hmz (hu w hw) (hu' w' hw') (hu z hz) (hu' z' hz')).2 hp)⟩
  have herr : ∀ l : List (ORow K × ORow K), (¬ ∃ p, nViewPoint l = .ok p) → nViewPoint l = .error .singular := by
    intro l hl
    simp only [nViewPoint] at hl ⊢
    split_ifs with h0
    · rfl
    · exact absurd ⟨_, by rw [if_neg h0]⟩ hl
  by_cases hp : ∃ p, nViewPoint (views.map toView) = .ok p
  · obtain ⟨p', hp'⟩ := hdef.2 hp
    obtain ⟨p, hp⟩ := hp
    rw [hp, hp']
    simp only [Except.map, Except.ok.injEq]
    obtain ⟨q, rfl⟩ := hT.2 p'
    have h1 := C36_minimises views hu p hp crossSq (fun w hw q => crossSq_isSqDistLine w.1 w.2 q (hu w hw)) q
    have h2 := C36_minimises views' hu' (T q) hp' crossSq (fun w hw q => crossSq_isSqDistLine w.1 w.2 q (hu' w hw)) (T p)
    rw [hsum, hsum] at h2
    rw [h1.2 (le_antisymm h2.1 h1.1)]
  · rw [herr _ hp, herr _ fun h => hp (hdef.1 h)]
    rfl

theorem isMotion_id : IsMotion (fun p : V3 K => p) := ⟨fun _ _ => rfl, fun p => ⟨p, rfl⟩⟩

/-- C103. Two representations of the same lines of sight (other points of the lines, opposite directions) give the same
point and the same residues. -/
theorem C103_same_lines (views views' : List (V3 K × V3 K)) (hu : ∀ w ∈ views, IsUnitVec w.2)
    (hu' : ∀ w ∈ views', IsUnitVec w.2) (h : List.Forall₂ (fun w w' => ∀ q, OnLine w q ↔ OnLine w' q) views views') :
    nViewPoint (views'.map toView) = nViewPoint (views.map toView) ∧
    ∀ (sqrt : K → K) (p : V3 K), List.Forall₂ (fun w w' => nViewDistance sqrt w'.1.toRow w'.2.toRow p.toRow =
      nViewDistance sqrt w.1.toRow w.2.toRow p.toRow) views views' := by
  refine ⟨?_, fun sqrt p => ?_⟩
  · rw [C103_moves_with_the_lines (fun p => p) isMotion_id views views' hu hu' h]
    cases nViewPoint (views.map toView) <;> rfl
  · induction h with
    | nil => exact List.Forall₂.nil
    | @cons w w' l l' hw _ ih =>
      refine List.Forall₂.cons ?_ (ih (fun x hx => hu x (by simp [hx])) (fun x hx => hu' x (by simp [hx])))
      have e : ∀ w : V3 K × V3 K, nViewDistance sqrt w.1.toRow w.2.toRow p.toRow = some (sqrt (crossSq w p)) := fun w => rfl
      rw [e, e]
      exact congrArg (fun x => some (sqrt x))
        (crossSq_moved (fun p => p) isMotion_id w w' hw (hu w (by simp)) (hu' w' (by simp)) p)

/-- C103. The residues do not change when the lines and the point are moved together. -/
theorem C103_residues_do_not_move (sqrt : K → K) (T : V3 K → V3 K) (hT : IsMotion T) (w w' : V3 K × V3 K)
    (hw : LineMoved T w w') (hu : IsUnitVec w.2) (hu' : IsUnitVec w'.2) (p : V3 K) :
    nViewDistance sqrt w'.1.toRow w'.2.toRow (T p).toRow = nViewDistance sqrt w.1.toRow w.2.toRow p.toRow := by
  have e : ∀ (w : V3 K × V3 K) (p : V3 K), nViewDistance sqrt w.1.toRow w.2.toRow p.toRow = some (sqrt (crossSq w p)) :=
    fun w p => rfl
  rw [e, e, crossSq_moved T hT w w' hw hu hu']

/-- A quarter of a turn about the vertical followed by a shift. -/
def quarterTurn (p : V3 ℚ) : V3 ℚ := ⟨-p.y + 1, p.x + 2, p.z - 7⟩

theorem isMotion_quarterTurn : IsMotion quarterTurn := by
  refine ⟨fun p q => ?_, fun p => ⟨⟨p.y - 2, 1 - p.x, p.z + 7⟩, ?_⟩⟩
  · simp only [quarterTurn, sqDist]; ring
  · simp [quarterTurn]

/-- The skew lines of C36, turned, with other starting points and a reversed direction. -/
def turnedViews : List (V3 ℚ × V3 ℚ) :=
  [(⟨-3, 5, -7⟩, ⟨-(4 / 5), 3 / 5, 0⟩), (⟨1, 3, -5⟩, ⟨3 / 5, 0, -(4 / 5)⟩), (⟨2, 7, -4⟩, ⟨1 / 3, 2 / 3, 2 / 3⟩)]

theorem onLine_turned : List.Forall₂ (LineMoved quarterTurn) skewViews turnedViews := by
  refine List.Forall₂.cons (fun q => ⟨?_, ?_⟩) (List.Forall₂.cons (fun q => ⟨?_, ?_⟩)
    (List.Forall₂.cons (fun q => ⟨?_, ?_⟩) List.Forall₂.nil))
  all_goals
    rintro ⟨t, ht⟩
    obtain ⟨a, b, c⟩ := q
    simp only [linePoint, quarterTurn, V3.mk.injEq] at ht
    obtain ⟨h1, h2, h3⟩ := ht
  · refine ⟨t - 5, ?_⟩
    simp only [quarterTurn, linePoint, V3.mk.injEq]
    exact ⟨by linarith, by linarith, by linarith⟩
  · refine ⟨t + 5, ?_⟩
    simp only [linePoint, V3.mk.injEq]
    exact ⟨by linarith, by linarith, by linarith⟩
  · refine ⟨-t, ?_⟩
    simp only [quarterTurn, linePoint, V3.mk.injEq]
    exact ⟨by linarith, by linarith, by linarith⟩
  · refine ⟨-t, ?_⟩
    simp only [linePoint, V3.mk.injEq]
    exact ⟨by linarith, by linarith, by linarith⟩
  · refine ⟨t, ?_⟩
    simp only [quarterTurn, linePoint, V3.mk.injEq]
    exact ⟨by linarith, by linarith, by linarith⟩
  · refine ⟨t, ?_⟩
    simp only [linePoint, V3.mk.injEq]
    exact ⟨by linarith, by linarith, by linarith⟩

/-- The hypotheses of `C103_moves_with_the_lines` on this case, and what it says of it. -/
example : (∀ w ∈ skewViews, IsUnitVec w.2) ∧ (∀ w ∈ turnedViews, IsUnitVec w.2) ∧
    List.Forall₂ (LineMoved quarterTurn) skewViews turnedViews ∧ IsMotion quarterTurn ∧
    ∃ p, nViewPoint (skewViews.map toView) = .ok p ∧ nViewPoint (turnedViews.map toView) = .ok (quarterTurn p) := by
  have hu : ∀ w ∈ skewViews, IsUnitVec w.2 := by
    intro w hw
    simp only [skewViews, List.mem_cons, List.not_mem_nil, or_false] at hw
    rcases hw with rfl | rfl | rfl <;> (unfold IsUnitVec; norm_num)
  have hu' : ∀ w ∈ turnedViews, IsUnitVec w.2 := by
    intro w hw
    simp only [turnedViews, List.mem_cons, List.not_mem_nil, or_false] at hw
    rcases hw with rfl | rfl | rfl <;> (unfold IsUnitVec; norm_num)
  refine ⟨hu, hu', onLine_turned, isMotion_quarterTurn, ?_⟩
  obtain ⟨p, hp⟩ : ∃ p, nViewPoint (skewViews.map toView) = .ok p := by
    rw [C36_defined_iff skewViews hu]
    refine ⟨(⟨0, 0, 0⟩, ⟨3 / 5, 4 / 5, 0⟩), by simp [skewViews], (⟨1, 0, 2⟩, ⟨0, 3 / 5, 4 / 5⟩), by simp [skewViews], ?_⟩
    rintro ⟨t, ht⟩
    simp only [V3.mk.injEq, mul_zero] at ht
    norm_num at ht
  refine ⟨p, hp, ?_⟩
  rw [C103_moves_with_the_lines quarterTurn isMotion_quarterTurn skewViews turnedViews hu hu' onLine_turned, hp]
  rfl

/-! ### From the lines of sight of the two images -/

/-- Two lines of sight given by their ends (highest point, lowest point): both have a NaN, or they are on the same line of
space (without being reduced to a point). -/
def SameSight (p p' : ORow K × ORow K) : Prop :=
  ((HasNan p.1 ∨ HasNan p.2) ∧ (HasNan p'.1 ∨ HasNan p'.2)) ∨
  ∃ a b a' b' : V3 K, p = (a.toRow, b.toRow) ∧ p' = (a'.toRow, b'.toRow) ∧ a ≠ b ∧ a' ≠ b' ∧
    OnLine (a, b.minus a) a' ∧ OnLine (a, b.minus a) b'

theorem rowSome_toRow (a : V3 K) : rowSome a.toRow = some a := rfl

theorem hasNan_rowSome (p : ORow K) : HasNan p ↔ rowSome p = none := by
  rcases p with ⟨_ | x, _ | y, _ | z⟩ <;> simp [HasNan, rowSome]

theorem viewingVector_nan (sqrt : K → K) (s e : ORow K) (h : HasNan s ∨ HasNan e) : viewingVector sqrt s e = nanRow := by
  rw [hasNan_rowSome, hasNan_rowSome] at h
  unfold viewingVector
  rcases h with h | h
  · rw [h]
  · rw [h]; cases rowSome s <;> rfl

/-- The viewing vector of two distinct points represents the line through them. -/
theorem viewingVector_line (sqrt : K → K) (hs : IsSqrt sqrt) (a b : V3 K) (h : a ≠ b) :
    ∃ v : V3 K, viewingVector sqrt a.toRow b.toRow = v.toRow ∧ IsUnitVec v ∧
      ∀ q, OnLine (a, b.minus a) q ↔ OnLine (a, v) q := by
  rcases C35_unit_vector sqrt hs a.toRow b.toRow with ⟨_, h' | h' | h'⟩ | ⟨a', b', v, n, ha, hb, _, hv, hu, hn, _, hl⟩
  · simp [rowSome_toRow] at h'
  · simp [rowSome_toRow] at h'
  · simp only [rowSome_toRow, Option.some.injEq] at h'
    exact absurd h' h
  · have ea : a' = a := by
      have := congrArg rowSome ha; simpa [rowSome_toRow] using this.symm
    have eb : b' = b := by
      have := congrArg rowSome hb; simpa [rowSome_toRow] using this.symm
    subst ea
    subst eb
    refine ⟨v, hv, hu, fun q => ?_⟩
    obtain ⟨a1, a2, a3⟩ := a'
    obtain ⟨b1, b2, b3⟩ := b'
    simp only [linePoint, V3.mk.injEq] at hl
    obtain ⟨h1, h2, h3⟩ := hl
    have hn0 := hn.ne'
    constructor
    · rintro ⟨t, rfl⟩
      refine ⟨-(t * n), ?_⟩
      simp only [linePoint, V3.minus, V3.mk.injEq]
      exact ⟨by linear_combination (-t) * h1, by linear_combination (-t) * h2, by linear_combination (-t) * h3⟩
    · rintro ⟨t, rfl⟩
      refine ⟨-(t / n), ?_⟩
      have e : t / n * n = t := by field_simp
      simp only [linePoint, V3.minus, V3.mk.injEq]
      refine ⟨?_, ?_, ?_⟩
      · linear_combination (-(t / n)) * h1 - v.x * e
      · linear_combination (-(t / n)) * h2 - v.y * e
      · linear_combination (-(t / n)) * h3 - v.z * e

/-- Two distinct points of a line give the same line. -/
theorem onLine_other_ends (a b a' b' : V3 K) (h : a' ≠ b') (ha : OnLine (a, b.minus a) a') (hb : OnLine (a, b.minus a) b')
    (q : V3 K) : OnLine (a, b.minus a) q ↔ OnLine (a', b'.minus a') q := by
  obtain ⟨t, rfl⟩ := ha
  obtain ⟨u, rfl⟩ := hb
  have hut : u - t ≠ 0 := by
    intro h0
    rw [sub_eq_zero.1 h0] at h
    exact h rfl
  constructor
  · rintro ⟨z, rfl⟩
    refine ⟨(z - t) / (u - t), ?_⟩
    have e : (z - t) / (u - t) * (u - t) = z - t := by field_simp
    simp only [linePoint, V3.minus, V3.mk.injEq]
    refine ⟨?_, ?_, ?_⟩
    · linear_combination (-(b.x - a.x)) * e
    · linear_combination (-(b.y - a.y)) * e
    · linear_combination (-(b.z - a.z)) * e
  · rintro ⟨z, rfl⟩
    refine ⟨t + z * (u - t), ?_⟩
    simp only [linePoint, V3.minus, V3.mk.injEq]
    refine ⟨by ring, by ring, by ring⟩

/-- A view as it is given to the triangulation: NaN, or a unit vector of a line. -/
theorem sameSight_view (sqrt : K → K) (hs : IsSqrt sqrt) (p p' : ORow K × ORow K) (h : SameSight p p') :
    ((HasNan p.1 ∨ viewingVector sqrt p.1 p.2 = nanRow) ∧ (HasNan p'.1 ∨ viewingVector sqrt p'.1 p'.2 = nanRow)) ∨
    ∃ w w' : V3 K × V3 K, (p.1, viewingVector sqrt p.1 p.2) = toView w ∧ (p'.1, viewingVector sqrt p'.1 p'.2) = toView w' ∧
      IsUnitVec w.2 ∧ IsUnitVec w'.2 ∧ ∀ q, OnLine w q ↔ OnLine w' q := by
  rcases h with ⟨h1, h2⟩ | ⟨a, b, a', b', rfl, rfl, hab, hab', ha, hb⟩
  · left
    exact ⟨Or.inr (viewingVector_nan sqrt _ _ h1), Or.inr (viewingVector_nan sqrt _ _ h2)⟩
  · right
    obtain ⟨v, hv, hu, hl⟩ := viewingVector_line sqrt hs a b hab
    obtain ⟨v', hv', hu', hl'⟩ := viewingVector_line sqrt hs a' b' hab'
    exact ⟨(a, v), (a', v'), by rw [hv]; rfl, by rw [hv']; rfl, hu, hu', fun q => by
      rw [← hl, ← hl', onLine_other_ends a b a' b' hab' ha hb q]⟩

theorem zip_viewing {f : ORow K → ORow K → ORow K} (s e : List (ORow K)) :
    s.zip (List.zipWith f s e) = (s.zip e).map fun p => (p.1, f p.1 p.2) := by
  induction s generalizing e with
  | nil => rfl
  | cons a s ih =>
    cases e with
    | nil => rfl
    | cons b e => simp [ih]

theorem losCreation_vis (sqrt : K → K) (conv : ORow K → ORow K) (m : LosModel K) (pos : List (Option K × Option K))
    (minMax : Option (K × K)) (fill : Bool) (l : Los K) (h : losCreation sqrt conv m pos minMax fill = .ok l) :
    l.start.zip l.vis = (l.start.zip l.stop).map fun p => (p.1, viewingVector sqrt p.1 p.2) := by
  simp only [losCreation] at h
  split at h
  · simp only [Except.ok.injEq] at h
    subst h
    exact zip_viewing _ _
  · cases h
  · cases h

theorem matchOk_nan (t : (ORow K × ORow K) × (ORow K × ORow K))
    (h : HasNan t.1.1 ∨ HasNan t.1.2 ∨ HasNan t.2.1 ∨ HasNan t.2.2) : matchPoint t = .ok nanRow := by
  simp only [← rowOk_false_iff] at h
  have : matchOk t = false := by
    simp only [matchOk, Bool.and_eq_false_iff]
    tauto
  simp [matchPoint, this]

theorem hasNan_nanRow : HasNan (nanRow : ORow K) := Or.inl rfl

theorem nViewDistance_nan (sqrt : K → K) (s v p : ORow K) (h : HasNan s ∨ HasNan v) : nViewDistance sqrt s v p = none := by
  rw [hasNan_rowSome, hasNan_rowSome] at h
  unfold nViewDistance
  rcases h with h | h
  · rw [h]
  · rw [h]; cases rowSome s <;> rfl

/-- The triangulation of a match whose lines of sight are given by other ends. -/
theorem matchPoint_sameSight (sqrt : K → K) (hs : IsSqrt sqrt) (p p' z z' : ORow K × ORow K) (h : SameSight p p')
    (h2 : SameSight z z') :
    matchPoint ((p'.1, viewingVector sqrt p'.1 p'.2), (z'.1, viewingVector sqrt z'.1 z'.2)) =
      matchPoint ((p.1, viewingVector sqrt p.1 p.2), (z.1, viewingVector sqrt z.1 z.2)) := by
  have hn : ∀ x : ORow K, x = nanRow → HasNan x := fun x hx => hx ▸ hasNan_nanRow
  rcases sameSight_view sqrt hs p p' h with ⟨ha, hb⟩ | ⟨w, w', e, e', hu, hu', hl⟩
  · rw [matchOk_nan _ (by rcases hb with hb | hb; exacts [Or.inl hb, Or.inr (Or.inl (hn _ hb))]),
      matchOk_nan _ (by rcases ha with ha | ha; exacts [Or.inl ha, Or.inr (Or.inl (hn _ ha))])]
  · rcases sameSight_view sqrt hs z z' h2 with ⟨ha, hb⟩ | ⟨x, x', f, f', hv, hv', hl2⟩
    · rw [matchOk_nan _ (by rcases hb with hb | hb; exacts [Or.inr (Or.inr (Or.inl hb)), Or.inr (Or.inr (Or.inr (hn _ hb)))]),
        matchOk_nan _ (by rcases ha with ha | ha; exacts [Or.inr (Or.inr (Or.inl ha)), Or.inr (Or.inr (Or.inr (hn _ ha)))])]
    · rw [e, e', f, f']
      have hok : ∀ w x : V3 K × V3 K, matchOk (toView w, toView x) = true := by
        intro w x
        simp [matchOk, toView, rowOk, V3.toRow]
      have := (C103_same_lines [w, x] [w', x'] (by
          intro y hy
          simp only [List.mem_cons, List.not_mem_nil, or_false] at hy
          rcases hy with rfl | rfl <;> assumption) (by
          intro y hy
          simp only [List.mem_cons, List.not_mem_nil, or_false] at hy
          rcases hy with rfl | rfl <;> assumption)
        (List.Forall₂.cons hl (List.Forall₂.cons hl2 List.Forall₂.nil))).1
      simp only [List.map_cons, List.map_nil] at this
      simp only [matchPoint, hok, if_true, this]

theorem forEach_zip {α β : Type*} (f : α × α → Except TriError β) (g : ORow K × ORow K → α) (R : ORow K × ORow K → ORow K × ORow K → Prop)
    (hf : ∀ p p' z z', R p p' → R z z' → f (g p', g z') = f (g p, g z)) :
    ∀ a a' b b' : List (ORow K × ORow K), List.Forall₂ R a a' → List.Forall₂ R b b' →
      forEach f ((a'.map g).zip (b'.map g)) = forEach f ((a.map g).zip (b.map g)) := by
  intro a a' b b' ha
  induction ha generalizing b b' with
  | nil => intro _; rfl
  | cons h _ ih =>
    intro hb
    cases hb with
    | nil => rfl
    | cons h2 h3 =>
      simp only [List.map_cons, List.zip_cons_cons, forEach, hf _ _ _ _ h h2, ih _ _ h3]

/-- C103. The points and the residues of `sensor_triangulation` do not depend on the altitudes chosen to build the lines of
sight as long as these lines are the same ones. -/
theorem C103_other_altitudes (sqrt : K → K) (hs : IsSqrt sqrt) (toEcef toWgs84 : ORow K → ORow K) (mL mR : LosModel K)
    (pts : List ((Option K × Option K) × (Option K × Option K))) (minMaxL minMaxR minMaxL' minMaxR' : Option (K × K))
    (residues fill : Bool) (l r l' r' : Los K)
    (hl : losCreation sqrt toEcef mL (pts.map fun t => t.1) minMaxL fill = .ok l)
    (hr : losCreation sqrt toEcef mR (pts.map fun t => t.2) minMaxR fill = .ok r)
    (hl' : losCreation sqrt toEcef mL (pts.map fun t => t.1) minMaxL' fill = .ok l')
    (hr' : losCreation sqrt toEcef mR (pts.map fun t => t.2) minMaxR' fill = .ok r')
    (hsl : List.Forall₂ SameSight (l.start.zip l.stop) (l'.start.zip l'.stop))
    (hsr : List.Forall₂ SameSight (r.start.zip r.stop) (r'.start.zip r'.stop)) :
    sensorTriangulation sqrt toEcef toWgs84 mL mR pts minMaxL' minMaxR' residues fill =
      sensorTriangulation sqrt toEcef toWgs84 mL mR pts minMaxL minMaxR residues fill := by
  have e1 := losCreation_vis sqrt toEcef mL _ minMaxL fill l hl
  have e2 := losCreation_vis sqrt toEcef mR _ minMaxR fill r hr
  have e3 := losCreation_vis sqrt toEcef mL _ minMaxL' fill l' hl'
  have e4 := losCreation_vis sqrt toEcef mR _ minMaxR' fill r' hr'
  have ht : losTriangulation l' r' = losTriangulation l r := by
    rw [losTriangulation_eq, losTriangulation_eq, e1, e2, e3, e4]
    exact forEach_zip matchPoint _ SameSight (fun p p' z z' h h2 => matchPoint_sameSight sqrt hs p p' z z' h h2) _ _ _ _ hsl hsr
  have hd : ∀ points, distancePointLos sqrt l' points = distancePointLos sqrt l points := by
    intro points
    simp only [distancePointLos, e1, e3]
    clear e1 e2 e3 e4 ht hl hl' hr hr' hsr
    generalize l.start.zip l.stop = u at hsl ⊢
    generalize l'.start.zip l'.stop = u' at hsl ⊢
    induction hsl generalizing points with
    | nil => rfl
    | @cons p p' _ _ h _ ih =>
      cases points with
      | nil => simp
      | cons q points =>
        simp only [List.map_cons, List.zip_cons_cons]
        rw [ih]
        congr 1
        rcases sameSight_view sqrt hs p p' h with ⟨ha, hb⟩ | ⟨w, w', e, e', hu, hu', hlw⟩
        · rw [nViewDistance_nan _ _ _ _ (ha.imp_right fun h => h ▸ hasNan_nanRow),
            nViewDistance_nan _ _ _ _ (hb.imp_right fun h => h ▸ hasNan_nanRow)]
        · have ea := congrArg Prod.fst e
          have eb := congrArg Prod.snd e
          have ea' := congrArg Prod.fst e'
          have eb' := congrArg Prod.snd e'
          simp only [toView] at ea eb ea' eb'
          rw [eb, eb', ea, ea']
          cases hq : rowSome q with
          | none => simp [nViewDistance, hq, rowSome_toRow]
          | some c =>
            have hqc : q = c.toRow := by
              rcases q with ⟨_ | x, _ | y, _ | z⟩ <;> simp [rowSome] at hq
              simp [V3.toRow, ← hq]
            rw [hqc]
            have := (C103_same_lines [w] [w'] (by simpa using hu) (by simpa using hu')
              (List.Forall₂.cons hlw List.Forall₂.nil)).2 sqrt c
            cases this with
            | cons h _ => exact h
  simp only [sensorTriangulation, hl, hr, hl', hr', ht, hd]

/-- A model with straight and inclined lines of sight, NaN for a NaN position. -/
def slantModel (a b : ℝ) : LosModel ℝ :=
  ⟨fun row col alt _ => .ok (List.zipWith (fun r c => match r, c with
    | some r, some c => ⟨some (r + a * alt), some (c + b * alt), some alt⟩
    | _, _ => nanRow) row col), (0, 100)⟩

/-- The hypotheses of `C103_other_altitudes` on two matches, one of which has a NaN, for the ranges [0, 100] and
[-5, 12]. -/
example : ∃ l r l' r' : Los ℝ,
    losCreation Real.sqrt (fun p => p) (slantModel 1 2) [(some 3, some 4), (none, some 1)] none false = .ok l ∧
    losCreation Real.sqrt (fun p => p) (slantModel (-1) 0) [(some 5, some 6), (some 2, some 1)] none false = .ok r ∧
    losCreation Real.sqrt (fun p => p) (slantModel 1 2) [(some 3, some 4), (none, some 1)] (some (-5, 12)) false = .ok l' ∧
    losCreation Real.sqrt (fun p => p) (slantModel (-1) 0) [(some 5, some 6), (some 2, some 1)] (some (-5, 12)) false = .ok r' ∧
    List.Forall₂ SameSight (l.start.zip l.stop) (l'.start.zip l'.stop) ∧
    List.Forall₂ SameSight (r.start.zip r.stop) (r'.start.zip r'.stop) := by
  have key : ∀ a b r c : ℝ, SameSight ((⟨some (r + a * 100), some (c + b * 100), some 100⟩ : ORow ℝ),
      (⟨some (r + a * 0), some (c + b * 0), some 0⟩ : ORow ℝ))
      ((⟨some (r + a * 12), some (c + b * 12), some 12⟩ : ORow ℝ),
      (⟨some (r + a * (-5)), some (c + b * (-5)), some (-5)⟩ : ORow ℝ)) := by
    intro a b r c
    right
    refine ⟨⟨r + a * 100, c + b * 100, 100⟩, ⟨r + a * 0, c + b * 0, 0⟩, ⟨r + a * 12, c + b * 12, 12⟩,
      ⟨r + a * (-5), c + b * (-5), -5⟩, rfl, rfl, ?_, ?_, ⟨88 / 100, ?_⟩, ⟨105 / 100, ?_⟩⟩
    · simp only [ne_eq, V3.mk.injEq]; norm_num
    · simp only [ne_eq, V3.mk.injEq]; norm_num
    · simp only [linePoint, V3.minus, V3.mk.injEq]; refine ⟨by ring, by ring, by norm_num⟩
    · simp only [linePoint, V3.minus, V3.mk.injEq]; refine ⟨by ring, by ring, by norm_num⟩
  have hnan : SameSight ((nanRow : ORow ℝ), (nanRow : ORow ℝ)) ((nanRow : ORow ℝ), (nanRow : ORow ℝ)) :=
    Or.inl ⟨Or.inl hasNan_nanRow, Or.inl hasNan_nanRow⟩
  refine ⟨_, _, _, _, rfl, rfl, rfl, rfl, ?_, ?_⟩
  · exact List.Forall₂.cons (key 1 2 4 3) (List.Forall₂.cons hnan List.Forall₂.nil)
  · exact List.Forall₂.cons (key (-1) 0 6 5) (List.Forall₂.cons (key (-1) 0 1 2) List.Forall₂.nil)

end Shareloc
