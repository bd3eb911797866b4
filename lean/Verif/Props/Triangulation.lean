import Verif.Lemmas.Triangulation
import Mathlib.Data.Real.Sqrt

/-!
# C35 - C39: lines of sight and triangulation
-/

set_option linter.unusedSectionVars false

namespace Shareloc
variable {K : Type*} [Field K] [LinearOrder K] [IsStrictOrderedRing K]

/-! ### C35 -/

/-- The real square root meets the specification used below. -/
theorem isSqrt_real : IsSqrt Real.sqrt := fun x hx => ⟨Real.sqrt_nonneg x, Real.mul_self_sqrt hx⟩

/-- C35. The starting points are the converted locations at the maximum altitude, the ending points those at the
minimum altitude, in the order of the positions (the first coordinate of a position being the column), and each
viewing vector is that of its own row. -/
theorem C35_extrema (sqrt : K → K) (conv : ORow K → ORow K) (m : LosModel K) (pos : List (Option K × Option K))
    (minMax : Option (K × K)) (fill : Bool) (hi lo : List (ORow K))
    (hhi : m.directLocH (pos.map Prod.snd) (pos.map Prod.fst) (minMax.getD m.altMinMax).2 fill = .ok hi)
    (hlo : m.directLocH (pos.map Prod.snd) (pos.map Prod.fst) (minMax.getD m.altMinMax).1 fill = .ok lo)
    (hlen : hi.length = lo.length) :
    losCreation sqrt conv m pos minMax fill =
      .ok ⟨hi.map conv, lo.map conv, List.zipWith (viewingVector sqrt) (hi.map conv) (lo.map conv)⟩ := by
  simp only [losCreation]
  rw [show (pos.map fun p => p.1) = pos.map Prod.fst from rfl, show (pos.map fun p => p.2) = pos.map Prod.snd from rfl]
  rw [hhi, hlo]
  simp only [map_interleave]
  rw [evens_interleave _ _ (by simpa using hlen), odds_interleave _ _ (by simpa using hlen)]

/-- C35. A viewing vector is the unit vector from the end (minimum altitude) to the start (maximum altitude) of the line
of sight; it is NaN exactly when an extremum has a NaN or the two are the same point. -/
theorem C35_unit_vector (sqrt : K → K) (hs : IsSqrt sqrt) (s e : ORow K) :
    (viewingVector sqrt s e = nanRow ∧ (rowSome s = none ∨ rowSome e = none ∨ rowSome s = rowSome e)) ∨
    ∃ a b v : V3 K, ∃ n : K, s = a.toRow ∧ e = b.toRow ∧ a ≠ b ∧ viewingVector sqrt s e = v.toRow ∧ IsUnitVec v ∧
      0 < n ∧ n ^ 2 = sqDist a b ∧ a = linePoint b v n := by
  cases ha : rowSome s with
  | none => left; simp [viewingVector, ha]
  | some a =>
    cases hb : rowSome e with
    | none => left; simp [viewingVector, ha, hb]
    | some b =>
      have hrow : ∀ (p : ORow K) (q : V3 K), rowSome p = some q → p = q.toRow := by
        rintro ⟨_ | x, _ | y, _ | z⟩ ⟨a, b, c⟩ h <;> simp [rowSome] at h
        simp [V3.toRow, h]
      by_cases hab : a = b
      · left
        subst hab
        refine ⟨?_, Or.inr (Or.inr rfl)⟩
        have h0 : sqrt (0 : K) = 0 := by
          have := (hs 0 le_rfl).2
          exact mul_self_eq_zero.1 this
        simp [viewingVector, ha, hb, V3.minus, h0]
      · right
        set d := a.minus b with hd
        set q := d.x * d.x + d.y * d.y + d.z * d.z with hq
        have hq0 : 0 < q := by
          have h1 := mul_self_nonneg d.x
          have h2 := mul_self_nonneg d.y
          have h3 := mul_self_nonneg d.z
          rcases lt_or_eq_of_le (show 0 ≤ q by rw [hq]; linarith) with h | h
          · exact h
          · exfalso
            apply hab
            have e1 : d.x = 0 := mul_self_eq_zero.1 (by linarith)
            have e2 : d.y = 0 := mul_self_eq_zero.1 (by linarith)
            have e3 : d.z = 0 := mul_self_eq_zero.1 (by linarith)
            obtain ⟨a1, a2, a3⟩ := a
            obtain ⟨b1, b2, b3⟩ := b
            simp only [hd, V3.minus] at e1 e2 e3
            simp only [V3.mk.injEq]
            exact ⟨sub_eq_zero.1 e1, sub_eq_zero.1 e2, sub_eq_zero.1 e3⟩
        obtain ⟨hn0, hnn⟩ := hs q hq0.le
        have hn : sqrt q ≠ 0 := by
          intro h0; rw [h0] at hnn; simp at hnn; exact hq0.ne hnn
        refine ⟨a, b, ⟨d.x / sqrt q, d.y / sqrt q, d.z / sqrt q⟩, sqrt q, hrow _ _ ha, hrow _ _ hb, hab, ?_, ?_,
          lt_of_le_of_ne hn0 hn.symm, ?_, ?_⟩
        · simp only [viewingVector, ha, hb, ← hd, ← hq, if_neg hn, V3.toRow]
        · simp only [IsUnitVec, div_pow]
          rw [← add_div, ← add_div, div_eq_one_iff_eq (pow_ne_zero 2 hn), sq (sqrt q), hnn, hq]
          ring
        · rw [sq, hnn, hq, hd]
          simp only [sqDist, V3.minus]
          ring
        · simp only [linePoint]
          have h1 : ∀ t : K, sqrt q * (t / sqrt q) = t := fun t => by field_simp
          rw [h1, h1, h1, hd]
          simp [V3.minus]

/-- A line of sight of length 5 in the plane, over the reals. -/
example : viewingVector Real.sqrt ⟨some 3, some 4, some 0⟩ ⟨some 0, some 0, some 0⟩ = ⟨some (3 / 5), some (4 / 5), some 0⟩ := by
  have : Real.sqrt (3 * 3 + 4 * 4 + 0 * 0 : ℝ) = 5 := by
    rw [show (3 * 3 + 4 * 4 + 0 * 0 : ℝ) = 5 ^ 2 by norm_num]
    exact Real.sqrt_sq (by norm_num)
  simp only [viewingVector, rowSome, V3.minus, sub_zero, this]
  norm_num

/-- A NaN position gives a NaN line for that row only (square root given on the values used). -/
example : losCreation (fun x : ℚ => if x = 25 then 5 else x) (fun p => p)
    ⟨fun row col alt _ => .ok (List.zipWith (fun r c => match r, c with
      | some r, some c => ⟨some (r + alt), some (c + 4 * alt / 3), some 0⟩
      | _, _ => nanRow) row col), (0, 3)⟩ [(some 1, some 2), (none, some 2), (some 7, some 9)] none false =
    .ok ⟨[⟨some 5, some 5, some 0⟩, nanRow, ⟨some 12, some 11, some 0⟩],
      [⟨some 2, some 1, some 0⟩, nanRow, ⟨some 9, some 7, some 0⟩],
      [⟨some (3 / 5), some (4 / 5), some 0⟩, nanRow, ⟨some (3 / 5), some (4 / 5), some 0⟩]⟩ := by
  decide +kernel

/-! ### C36 -/

/-- C36. With unit viewing vectors, triangulation gives a point unless all the lines are parallel. -/
theorem C36_defined_iff (views : List (V3 K × V3 K)) (hu : ∀ w ∈ views, IsUnitVec w.2) :
    (∃ p, nViewPoint (views.map toView) = .ok p) ↔ ∃ w ∈ views, ∃ w' ∈ views, ¬ Parallel w.2 w'.2 := by
  have hdef : (∃ p, nViewPoint (views.map toView) = .ok p) ↔ M3.det (sumIdVivi (views.map toView)) ≠ 0 := by
    constructor
    · rintro ⟨p, hp⟩
      exact (nViewPoint_ok _ p hp).1
    · intro h
      exact ⟨_, by simp only [nViewPoint]; rw [if_neg h]⟩
  rw [hdef]
  constructor
  · intro hdet
    by_contra hall
    push Not at hall
    cases views with
    | nil => simp [sumIdVivi, nansum, M3.det] at hdet
    | cons w ws =>
      have huw := hu w (by simp)
      have hz : (sumIdVivi ((w :: ws).map toView)).mulVec w.2 = ⟨0, 0, 0⟩ := by
        rw [sumIdVivi_mulVec]
        have key : ∀ w' ∈ w :: ws, w.2.x - w'.2.x * w.2.dot w'.2 = 0 ∧ w.2.y - w'.2.y * w.2.dot w'.2 = 0 ∧
            w.2.z - w'.2.z * w.2.dot w'.2 = 0 := by
          intro w' hw'
          obtain ⟨t, ht⟩ := hall w (by simp) w' hw'
          have hu' := hu w' hw'
          unfold IsUnitVec at huw hu'
          rw [ht] at hu' ⊢
          simp only at hu'
          have ht2 : t * t = 1 := by linear_combination hu' - t ^ 2 * huw
          simp only [V3.dot]
          refine ⟨?_, ?_, ?_⟩
          · linear_combination (-(w.2.x * t ^ 2)) * huw - w.2.x * ht2
          · linear_combination (-(w.2.y * t ^ 2)) * huw - w.2.y * ht2
          · linear_combination (-(w.2.z * t ^ 2)) * huw - w.2.z * ht2
        have hsum : ∀ f : V3 K × V3 K → K, (∀ w' ∈ w :: ws, f w' = 0) → ((w :: ws).map f).sum = 0 := by
          intro f hf
          apply List.sum_eq_zero
          intro x hx
          obtain ⟨w', hw', rfl⟩ := List.mem_map.1 hx
          exact hf w' hw'
        rw [hsum _ fun w' hw' => (key w' hw').1, hsum _ fun w' hw' => (key w' hw').2.1,
          hsum _ fun w' hw' => (key w' hw').2.2]
      have h2 := M3.inv_mul _ w.2 hdet
      rw [hz] at h2
      simp only [M3.mulVec, V3.dot, mul_zero, add_zero] at h2
      unfold IsUnitVec at huw
      rw [← h2] at huw
      simp at huw
  · rintro ⟨w, hw, w', hw', hnp⟩ hdet
    obtain ⟨d, hd, hm⟩ := M3.exists_null _ hdet
    have hn := null_parallel views hu d hm
    have e1 := crossSq_zero_eq w.2 d (hu w hw) (hn w hw)
    have e2 := crossSq_zero_eq w'.2 d (hu w' hw') (hn w' hw')
    have hne : d.dot w'.2 ≠ 0 := by
      intro h0; rw [h0] at e2; simp at e2; exact hd e2
    apply hnp
    refine ⟨d.dot w.2 / d.dot w'.2, ?_⟩
    have h1 := e1.symm.trans e2
    simp only [V3.mk.injEq] at h1
    obtain ⟨a1, a2, a3⟩ := h1
    obtain ⟨⟨p1, p2, p3⟩, q⟩ := w'
    obtain ⟨b1, b2, b3⟩ := q
    simp only at a1 a2 a3 hne ⊢
    simp only [V3.mk.injEq]
    refine ⟨?_, ?_, ?_⟩
    · rw [div_mul_eq_mul_div, a1]; field_simp
    · rw [div_mul_eq_mul_div, a2]; field_simp
    · rw [div_mul_eq_mul_div, a3]; field_simp

/-- C36. The triangulated point minimises the sum of the squared distances to the lines, and it is the only one. -/
theorem C36_minimises (views : List (V3 K × V3 K)) (hu : ∀ w ∈ views, IsUnitVec w.2) (p : V3 K)
    (hp : nViewPoint (views.map toView) = .ok p) (D : V3 K × V3 K → V3 K → K)
    (hD : ∀ w ∈ views, ∀ q, IsSqDistLine w.1 w.2 q (D w q)) (q : V3 K) :
    (views.map fun w => D w p).sum ≤ (views.map fun w => D w q).sum ∧
    ((views.map fun w => D w q).sum = (views.map fun w => D w p).sum → q = p) := by
  have hDe : ∀ q, (views.map fun w => D w q) = views.map fun w => crossSq w q := by
    intro q
    apply List.map_congr_left
    intro w hw
    exact isSqDistLine_unique _ _ _ _ _ (hD w hw q) (crossSq_isSqDistLine w.1 w.2 q (hu w hw))
  rw [hDe, hDe]
  obtain ⟨hdet, hsol⟩ := nViewPoint_ok _ p hp
  have hexp := sum_crossSq_expand views hu p q
  obtain ⟨s1, s2, s3⟩ := sum_perp views p
  rw [hsol, sub_self] at s1 s2 s3
  rw [s1, s2, s3] at hexp
  have hnn : 0 ≤ (views.map fun w => crossSq (⟨0, 0, 0⟩, w.2) (q.minus p)).sum := by
    apply List.sum_nonneg
    intro x hx
    obtain ⟨w, _, rfl⟩ := List.mem_map.1 hx
    exact crossSq_nonneg _ _
  refine ⟨by rw [hexp]; linarith, fun he => ?_⟩
  have hz : (views.map fun w => crossSq (⟨0, 0, 0⟩, w.2) (q.minus p)).sum = 0 := by
    rw [hexp] at he; linarith
  have hall := sum_nonneg_eq_zero views (fun w => crossSq (⟨0, 0, 0⟩, w.2) (q.minus p)) (fun w => crossSq_nonneg _ _) hz
  have hm : (sumIdVivi (views.map toView)).mulVec (q.minus p) = ⟨0, 0, 0⟩ := by
    rw [sumIdVivi_mulVec]
    have hsum : ∀ f : V3 K × V3 K → K, (∀ w' ∈ views, f w' = 0) → (views.map f).sum = 0 := by
      intro f hf
      apply List.sum_eq_zero
      intro x hx
      obtain ⟨w', hw', rfl⟩ := List.mem_map.1 hx
      exact hf w' hw'
    have key : ∀ w ∈ views, q.minus p = ⟨(q.minus p).dot w.2 * w.2.x, (q.minus p).dot w.2 * w.2.y,
        (q.minus p).dot w.2 * w.2.z⟩ := fun w hw => crossSq_zero_eq _ _ (hu w hw) (hall w hw)
    rw [hsum, hsum, hsum]
    · intro w hw
      have := congrArg V3.z (key w hw)
      simp only at this
      linear_combination this
    · intro w hw
      have := congrArg V3.y (key w hw)
      simp only at this
      linear_combination this
    · intro w hw
      have := congrArg V3.x (key w hw)
      simp only at this
      linear_combination this
  have h2 := M3.inv_mul _ (q.minus p) hdet
  rw [hm] at h2
  simp only [M3.mulVec, V3.dot, mul_zero, add_zero, V3.minus, V3.mk.injEq] at h2
  obtain ⟨q1, q2, q3⟩ := q
  obtain ⟨p1, p2, p3⟩ := p
  simp only at h2
  simp only [V3.mk.injEq]
  obtain ⟨h3, h4, h5⟩ := h2
  exact ⟨by linarith, by linarith, by linarith⟩

/-- Three skew lines with unit directions. -/
def skewViews : List (V3 ℚ × V3 ℚ) :=
  [(⟨0, 0, 0⟩, ⟨3 / 5, 4 / 5, 0⟩), (⟨1, 0, 2⟩, ⟨0, 3 / 5, 4 / 5⟩), (⟨5, -1, 3⟩, ⟨2 / 3, -1 / 3, 2 / 3⟩)]

example : (∀ w ∈ skewViews, IsUnitVec w.2) ∧ (∃ p, nViewPoint (skewViews.map toView) = .ok p) ∧
    (∀ w ∈ skewViews, ∀ q, IsSqDistLine w.1 w.2 q (crossSq w q)) := by
  have hu : ∀ w ∈ skewViews, IsUnitVec w.2 := by
    intro w hw
    simp only [skewViews, List.mem_cons, List.not_mem_nil, or_false] at hw
    rcases hw with rfl | rfl | rfl <;> (unfold IsUnitVec; norm_num)
  refine ⟨hu, ?_, fun w hw q => crossSq_isSqDistLine w.1 w.2 q (hu w hw)⟩
  rw [C36_defined_iff skewViews hu]
  refine ⟨(⟨0, 0, 0⟩, ⟨3 / 5, 4 / 5, 0⟩), by simp [skewViews], (⟨1, 0, 2⟩, ⟨0, 3 / 5, 4 / 5⟩), by simp [skewViews], ?_⟩
  rintro ⟨t, ht⟩
  simp only [V3.mk.injEq, mul_zero] at ht
  norm_num at ht

/-! ### C37 -/

/-- C37. If all the lines pass through one point, this point is returned. -/
theorem C37_exact (views : List (V3 K × V3 K)) (hu : ∀ w ∈ views, IsUnitVec w.2) (p p0 : V3 K)
    (hp : nViewPoint (views.map toView) = .ok p) (hmeet : ∀ w ∈ views, ∃ t, p0 = linePoint w.1 w.2 t) :
    p = p0 ∧ ∀ w ∈ views, IsSqDistLine w.1 w.2 p 0 := by
  have hz : ∀ w ∈ views, IsSqDistLine w.1 w.2 p0 0 := by
    intro w hw
    obtain ⟨t, ht⟩ := hmeet w hw
    refine ⟨⟨t, ?_⟩, fun t => ?_⟩
    · rw [← ht]; simp [sqDist]
    · simp only [sqDist]; positivity
  have h := C36_minimises views hu p hp crossSq (fun w hw q => crossSq_isSqDistLine w.1 w.2 q (hu w hw)) p0
  have h0 : (views.map fun w => crossSq w p0).sum = 0 := by
    apply List.sum_eq_zero
    intro x hx
    obtain ⟨w, hw, rfl⟩ := List.mem_map.1 hx
    exact isSqDistLine_unique _ _ _ _ _ (crossSq_isSqDistLine w.1 w.2 p0 (hu w hw)) (hz w hw)
  have hnn : 0 ≤ (views.map fun w => crossSq w p).sum := by
    apply List.sum_nonneg
    intro x hx
    obtain ⟨w, _, rfl⟩ := List.mem_map.1 hx
    exact crossSq_nonneg _ _
  have heq : p0 = p := h.2 (by linarith [h.1])
  subst heq
  exact ⟨rfl, hz⟩

/-- C37. The order of the views does not matter (NaN views included). -/
theorem C37_order (views views' : List (ORow K × ORow K)) (h : views.Perm views') : nViewPoint views = nViewPoint views' := by
  have h1 : sumIdVivi views = sumIdVivi views' := by
    simp only [sumIdVivi, nansum, List.map_map]
    simp only [V3.mk.injEq]
    refine ⟨⟨?_, ?_, ?_⟩, ⟨?_, ?_, ?_⟩, ⟨?_, ?_, ?_⟩⟩ <;> exact (h.map _).sum_eq
  have h2 : sumIdViviSi views = sumIdViviSi views' := by
    simp only [sumIdViviSi, V3.mk.injEq]
    refine ⟨?_, ?_, ?_⟩ <;> exact (h.map _).sum_eq
  simp only [nViewPoint, h1, h2]

/-- Two lines that meet at (1, 2, 3), in both orders. -/
example : nViewPoint ([(⟨-2, -2, 3⟩, ⟨3 / 5, 4 / 5, 0⟩), (⟨1, -4, -5⟩, ⟨0, 3 / 5, 4 / 5⟩)].map toView) =
      .ok (⟨1, 2, 3⟩ : V3 ℚ) ∧
    nViewPoint ([(⟨1, -4, -5⟩, ⟨0, 3 / 5, 4 / 5⟩), (⟨-2, -2, 3⟩, ⟨3 / 5, 4 / 5, 0⟩)].map toView) =
      .ok (⟨1, 2, 3⟩ : V3 ℚ) := by
  decide +kernel

/-! ### C38 -/

/-- C38. The residue of a view is the distance between the point and the line of sight. -/
theorem C38_residue_is_distance (sqrt : K → K) (hs : IsSqrt sqrt) (s v p : V3 K) (hv : IsUnitVec v) :
    ∃ d, nViewDistance sqrt s.toRow v.toRow p.toRow = some d ∧ 0 ≤ d ∧ IsSqDistLine s v p (d ^ 2) := by
  have h := hs _ (crossSq_nonneg (s, v) p)
  refine ⟨sqrt (crossSq (s, v) p), rfl, h.1, ?_⟩
  rw [sq, h.2]
  exact crossSq_isSqDistLine s v p hv

theorem perp_sq (w : V3 K × V3 K) (p : V3 K) (hu : IsUnitVec w.2) :
    (perp w p).x ^ 2 + (perp w p).y ^ 2 + (perp w p).z ^ 2 = crossSq w p := by
  unfold IsUnitVec at hu
  obtain ⟨⟨a, b, c⟩, ⟨v1, v2, v3⟩⟩ := w
  simp only [crossSq, perp, V3.minus, V3.cross, V3.dot] at hu ⊢
  linear_combination (((p.x - a) * v1 + (p.y - b) * v2 + (p.z - c) * v3) ^ 2 -
    ((p.x - a) ^ 2 + (p.y - b) ^ 2 + (p.z - c) ^ 2)) * hu

/-- C38. With two views, the point is at the same distance of both lines. -/
theorem C38_two_views_equal (sqrt : K → K) (w w' : V3 K × V3 K) (hu : IsUnitVec w.2) (hu' : IsUnitVec w'.2) (p : V3 K)
    (hp : nViewPoint [toView w, toView w'] = .ok p) :
    nViewDistance sqrt w.1.toRow w.2.toRow p.toRow = nViewDistance sqrt w'.1.toRow w'.2.toRow p.toRow := by
  obtain ⟨hdet, hsol⟩ := nViewPoint_ok _ p hp
  obtain ⟨s1, s2, s3⟩ := sum_perp [w, w'] p
  simp only [List.map_cons, List.map_nil, List.sum_cons, List.sum_nil, add_zero] at s1 s2 s3
  rw [hsol, sub_self] at s1 s2 s3
  have h1 := perp_sq w p hu
  have h2 := perp_sq w' p hu'
  have h3 : crossSq w p = crossSq w' p := by
    rw [← h1, ← h2, eq_neg_of_add_eq_zero_left s1, eq_neg_of_add_eq_zero_left s2, eq_neg_of_add_eq_zero_left s3]
    ring
  have e : ∀ w : V3 K × V3 K, nViewDistance sqrt w.1.toRow w.2.toRow p.toRow = some (sqrt (crossSq w p)) := fun w => rfl
  rw [e, e, h3]

/-- Two skew lines at distance 2: the residues are 1. -/
example : nViewPoint [toView (⟨0, 0, 0⟩, ⟨1, 0, 0⟩), toView (⟨0, 5, 2⟩, ⟨0, 1, 0⟩)] = .ok (⟨0, 0, 1⟩ : V3 ℚ) ∧
    nViewDistance (fun x : ℚ => x) (V3.toRow ⟨0, 0, 0⟩) (V3.toRow ⟨1, 0, 0⟩) (V3.toRow ⟨0, 0, 1⟩) = some 1 ∧
    nViewDistance (fun x : ℚ => x) (V3.toRow ⟨0, 5, 2⟩) (V3.toRow ⟨0, 1, 0⟩) (V3.toRow ⟨0, 0, 1⟩) = some 1 := by
  decide +kernel

/-! ### C39 -/

/-- A component of the row is NaN. -/
def HasNan (p : ORow K) : Prop := p.x = none ∨ p.y = none ∨ p.z = none

theorem rowOk_false_iff (p : ORow K) : rowOk p = false ↔ HasNan p := by
  rcases p with ⟨x, y, z⟩
  cases x <;> cases y <;> cases z <;> simp [rowOk, HasNan]

theorem rowOk_iff_toRow (p : ORow K) : rowOk p = true ↔ ∃ v : V3 K, p = v.toRow := by
  rcases p with ⟨x, y, z⟩
  constructor
  · intro h
    cases x <;> cases y <;> cases z <;> simp [rowOk] at h
    exact ⟨⟨_, _, _⟩, rfl⟩
  · rintro ⟨v, hv⟩
    rw [hv]; simp [rowOk, V3.toRow]

/-- All the components of a match are numbers. -/
def matchOk (t : (ORow K × ORow K) × (ORow K × ORow K)) : Bool :=
  rowOk t.1.1 && rowOk t.1.2 && rowOk t.2.1 && rowOk t.2.2

/-- Triangulation of one match. -/
def matchPoint (t : (ORow K × ORow K) × (ORow K × ORow K)) : Except TriError (ORow K) :=
  if matchOk t then
    match nViewPoint [t.1, t.2] with
    | .ok p => .ok p.toRow
    | .error e => .error e
  else .ok nanRow

theorem losTriangulation_eq (l r : Los K) :
    losTriangulation l r = forEach matchPoint ((l.start.zip l.vis).zip (r.start.zip r.vis)) := by
  simp only [losTriangulation]
  generalize (l.start.zip l.vis).zip (r.start.zip r.vis) = ms
  induction ms with
  | nil => rfl
  | cons t ts ih =>
    cases hok : matchOk t with
    | false =>
      have hok' : (rowOk t.1.1 && rowOk t.1.2 && rowOk t.2.1 && rowOk t.2.2) = false := hok
      have hm : matchPoint t = .ok nanRow := by simp [matchPoint, hok]
      simp only [List.filter_cons, List.map_cons, hok', forEach, hm]
      rw [← ih]
      simp only [Bool.false_eq_true, if_false]
      cases nViewTriangulation (List.map (fun t => [t.1, t.2])
        (List.filter (fun t => rowOk t.1.1 && rowOk t.1.2 && rowOk t.2.1 && rowOk t.2.2) ts)) with
      | error e => rfl
      | ok r => rfl
    | true =>
      have hok' : (rowOk t.1.1 && rowOk t.1.2 && rowOk t.2.1 && rowOk t.2.2) = true := hok
      simp only [List.filter_cons, List.map_cons, hok', forEach, if_true, nViewTriangulation]
      simp only [matchPoint, hok, if_true]
      cases hp : nViewPoint [t.1, t.2] with
      | error e => rfl
      | ok p =>
        simp only
        simp only [nViewTriangulation] at ih
        rw [← ih]
        cases forEach nViewPoint (List.map (fun t => [t.1, t.2])
          (List.filter (fun t => rowOk t.1.1 && rowOk t.1.2 && rowOk t.2.1 && rowOk t.2.2) ts)) with
        | error e => rfl
        | ok r => rfl

/-- C39 (when the batch does not raise): a match with a NaN gives a NaN row and every match gives what it gives alone.
Missing: batches that raise (`C39_parallel_match_raises_for_all`). -/
theorem C39_each_match_alone_partial (l r : Los K) (out : List (ORow K)) (h : losTriangulation l r = .ok out) (n : ℕ)
    (ls lv rs rv : ORow K) (h1 : l.start[n]? = some ls) (h2 : l.vis[n]? = some lv) (h3 : r.start[n]? = some rs)
    (h4 : r.vis[n]? = some rv) :
    ∃ q, out[n]? = some q ∧
      (∀ e e', losTriangulation ⟨[ls], e, [lv]⟩ ⟨[rs], e', [rv]⟩ = .ok [q]) ∧
      (HasNan ls ∨ HasNan lv ∨ HasNan rs ∨ HasNan rv → q = nanRow) := by
  rw [losTriangulation_eq, forEach_ok_iff] at h
  obtain ⟨q, hq, hm⟩ := forall₂_getElem? h n ((ls, lv), (rs, rv)) (by
    rw [List.getElem?_zip_eq_some]
    exact ⟨List.getElem?_zip_eq_some.2 ⟨h1, h2⟩, List.getElem?_zip_eq_some.2 ⟨h3, h4⟩⟩)
  refine ⟨q, hq, fun e e' => ?_, fun hbad => ?_⟩
  · rw [losTriangulation_eq, forEach_ok_iff]
    exact List.Forall₂.cons hm List.Forall₂.nil
  · have hf : matchOk ((ls, lv), (rs, rv)) = false := by
      simp only [← rowOk_false_iff] at hbad
      simp only [matchOk, Bool.and_eq_false_iff]
      tauto
    simp only [matchPoint, hf, Bool.false_eq_true, if_false, Except.ok.injEq] at hm
    exact hm.symm

/-- C39 (batch): with unit viewing vectors, the batch does not raise if no match without NaN has parallel lines.
Missing: parallel lines (`C39_parallel_match_raises_for_all`). -/
theorem C39_no_raise_partial (l r : Los K)
    (h : ∀ a b : V3 K × V3 K, (toView a, toView b) ∈ (l.start.zip l.vis).zip (r.start.zip r.vis) →
      IsUnitVec a.2 ∧ IsUnitVec b.2 ∧ ¬ Parallel a.2 b.2) :
    ∃ out, losTriangulation l r = .ok out ∧ out.length = ((l.start.zip l.vis).zip (r.start.zip r.vis)).length := by
  rw [losTriangulation_eq]
  set ms := (l.start.zip l.vis).zip (r.start.zip r.vis) with hms
  clear_value ms
  have key : ∀ t ∈ ms, ∃ q, matchPoint t = .ok q := by
    intro t ht
    cases hok : matchOk t with
    | false => exact ⟨nanRow, by simp [matchPoint, hok]⟩
    | true =>
      obtain ⟨a, b, rfl⟩ : ∃ a b : V3 K × V3 K, t = (toView a, toView b) := by
        rcases t with ⟨⟨t1, t2⟩, ⟨t3, t4⟩⟩
        simp only [matchOk, Bool.and_eq_true, rowOk_iff_toRow] at hok
        obtain ⟨⟨⟨⟨v1, h1⟩, ⟨v2, h2⟩⟩, ⟨v3, h3⟩⟩, ⟨v4, h4⟩⟩ := hok
        exact ⟨(v1, v2), (v3, v4), by rw [h1, h2, h3, h4]; rfl⟩
      obtain ⟨ha, hb, hab⟩ := h a b ht
      have hdef := (C36_defined_iff [a, b] (by
        intro w hw
        simp only [List.mem_cons, List.not_mem_nil, or_false] at hw
        rcases hw with rfl | rfl
        · exact ha
        · exact hb)).2 ⟨a, by simp, b, by simp, hab⟩
      obtain ⟨p, hp⟩ := hdef
      simp only [List.map_cons, List.map_nil] at hp
      exact ⟨p.toRow, by simp [matchPoint, hok, hp]⟩
  clear h hms
  induction ms with
  | nil => exact ⟨[], rfl, rfl⟩
  | cons t ts ih =>
    obtain ⟨q, hq⟩ := key t (by simp)
    obtain ⟨out, ho, hl⟩ := ih fun t' ht' => key t' (by simp [ht'])
    exact ⟨q :: out, by simp [forEach, hq, ho], by simp [hl]⟩

/-- C39, a match with exactly parallel lines of sight raises an exception for the whole batch: the valid first match is
lost (alone it gives (0, 0, 1)). -/
theorem C39_parallel_match_raises_for_all :
    let l : Los ℚ := ⟨[V3.toRow ⟨0, 0, 0⟩, V3.toRow ⟨0, 0, 0⟩], [], [V3.toRow ⟨1, 0, 0⟩, V3.toRow ⟨1, 0, 0⟩]⟩
    let r : Los ℚ := ⟨[V3.toRow ⟨0, 5, 2⟩, V3.toRow ⟨0, 0, 3⟩], [], [V3.toRow ⟨0, 1, 0⟩, V3.toRow ⟨1, 0, 0⟩]⟩
    losTriangulation l r = .error .singular ∧
    losTriangulation ⟨l.start.take 1, [], l.vis.take 1⟩ ⟨r.start.take 1, [], r.vis.take 1⟩ =
      .ok [V3.toRow ⟨0, 0, 1⟩] := by
  decide +kernel

/-- C39, exact condition: with unit viewing vectors the batch raises exactly when the two lines of some match without NaN are
parallel; all the points of the batch are then lost. -/
theorem C39_raises_iff (l r : Los K)
    (hu : ∀ a b : V3 K × V3 K, (toView a, toView b) ∈ (l.start.zip l.vis).zip (r.start.zip r.vis) → IsUnitVec a.2 ∧ IsUnitVec b.2) :
    losTriangulation l r = .error .singular ↔
      ∃ a b : V3 K × V3 K, (toView a, toView b) ∈ (l.start.zip l.vis).zip (r.start.zip r.vis) ∧ Parallel a.2 b.2 := by
  constructor
  · intro h
    by_contra hcon
    push Not at hcon
    obtain ⟨out, ho, -⟩ := C39_no_raise_partial l r fun a b hab => ⟨(hu a b hab).1, (hu a b hab).2, hcon a b hab⟩
    rw [ho] at h
    exact absurd h (by simp)
  · rintro ⟨a, b, hab, hpar⟩
    obtain ⟨ua, ub⟩ := hu a b hab
    have hmatch : matchPoint (toView a, toView b) = .error .singular := by
      have hok : matchOk (toView a, toView b) = true := by simp [matchOk, toView, V3.toRow, rowOk]
      have hno := (C36_defined_iff [a, b] (by
        intro w hw
        simp only [List.mem_cons, List.not_mem_nil, or_false] at hw
        rcases hw with rfl | rfl
        · exact ua
        · exact ub)).not.2 (by
        have refl : ∀ v : V3 K, Parallel v v := fun v => ⟨1, by simp⟩
        have symm : Parallel b.2 a.2 := by
          obtain ⟨t, ht⟩ := hpar
          have ht0 : t ≠ 0 := by
            rintro rfl
            rw [ht] at ub
            simp [IsUnitVec] at ub
          refine ⟨t⁻¹, ?_⟩
          rw [ht]
          simp [ht0]
        rintro ⟨w, hw, w', hw', hn⟩
        simp only [List.mem_cons, List.not_mem_nil, or_false] at hw hw'
        rcases hw with rfl | rfl <;> rcases hw' with rfl | rfl
        · exact hn (refl _)
        · exact hn hpar
        · exact hn symm
        · exact hn (refl _))
      simp only [List.map_cons, List.map_nil] at hno
      simp only [matchPoint, hok, if_true]
      cases hp : nViewPoint [toView a, toView b] with
      | ok p => exact absurd ⟨p, hp⟩ hno
      | error e =>
        simp only [nViewPoint] at hp
        split at hp
        · simp only [Except.error.injEq] at hp
          rw [← hp]
        · exact absurd hp (by simp)
    rw [losTriangulation_eq]
    clear hu
    generalize (l.start.zip l.vis).zip (r.start.zip r.vis) = ms at hab
    have herr : ∀ (t : (ORow K × ORow K) × (ORow K × ORow K)) e, matchPoint t = .error e → e = TriError.singular := by
      intro t e h
      simp only [matchPoint, nViewPoint] at h
      split at h
      · split at h
        · exact absurd h (by simp)
        · rename_i e' he'
          split at he'
          · simp only [Except.error.injEq] at he' h
            rw [← h, ← he']
          · exact absurd he' (by simp)
      · exact absurd h (by simp)
    induction ms with
    | nil => exact absurd hab (by simp)
    | cons t ts ih =>
      simp only [forEach]
      cases ht : matchPoint t with
      | error e => simp only; rw [herr t e ht]
      | ok q =>
        rcases List.mem_cons.1 hab with rfl | hmem
        · rw [hmatch] at ht; exact absurd ht (by simp)
        · simp only [ih hmem]

/-- The hypothesis of `C39_raises_iff` is met by the batch of `C39_parallel_match_raises_for_all`, whose second match is parallel. -/
example : ∀ a b : V3 ℚ × V3 ℚ, (toView a, toView b) ∈
      (([V3.toRow ⟨0, 0, 0⟩, V3.toRow ⟨0, 0, 0⟩] : List (ORow ℚ)).zip [V3.toRow ⟨1, 0, 0⟩, V3.toRow ⟨1, 0, 0⟩]).zip
        (([V3.toRow ⟨0, 5, 2⟩, V3.toRow ⟨0, 0, 3⟩] : List (ORow ℚ)).zip [V3.toRow ⟨0, 1, 0⟩, V3.toRow ⟨1, 0, 0⟩]) →
      IsUnitVec a.2 ∧ IsUnitVec b.2 := by
  rintro ⟨⟨_, _, _⟩, ⟨_, _, _⟩⟩ ⟨⟨_, _, _⟩, ⟨_, _, _⟩⟩ h
  simp [toView, V3.toRow] at h
  rcases h with h | h <;> simp [IsUnitVec, h]

/-- C39. In `n_view_triangulation` itself a view with a NaN viewing vector is ignored. -/
theorem C39_nan_view_ignored (views : List (ORow K × ORow K)) (s : ORow K) :
    nViewPoint ((s, nanRow) :: views) = nViewPoint views := by
  have h1 : sumIdVivi ((s, nanRow) :: views) = sumIdVivi views := by
    simp [sumIdVivi, nansum, idVivi, nanRow, idMinus, omul]
  have h2 : sumIdViviSi ((s, nanRow) :: views) = sumIdViviSi views := by
    simp [sumIdViviSi, idViviSi, nansum, idVivi, nanRow, idMinus, omul]
  simp only [nViewPoint, h1, h2]

/-- C39. But a NaN starting point with a valid viewing vector counts as a line through the centre of the Earth: two lines
that meet at (0, 0, 1) give another point. -/
theorem C39_nan_start_biases :
    nViewPoint [toView (⟨0, 0, 1⟩, ⟨1, 0, 0⟩), toView (⟨0, 5, 1⟩, ⟨0, 1, 0⟩)] = .ok (⟨0, 0, 1⟩ : V3 ℚ) ∧
    nViewPoint [toView (⟨0, 0, 1⟩, ⟨1, 0, 0⟩), toView (⟨0, 5, 1⟩, ⟨0, 1, 0⟩), (nanRow, V3.toRow ⟨1, 0, 0⟩)] =
      .ok (⟨0, 0, 2 / 3⟩ : V3 ℚ) := by
  decide +kernel

/-- A batch with a NaN match in the middle. -/
example : losTriangulation
    (⟨[V3.toRow ⟨0, 0, 0⟩, nanRow, V3.toRow ⟨-2, -2, 3⟩], [], [V3.toRow ⟨1, 0, 0⟩, nanRow, V3.toRow ⟨3 / 5, 4 / 5, 0⟩]⟩ : Los ℚ)
    ⟨[V3.toRow ⟨0, 5, 2⟩, V3.toRow ⟨0, 0, 0⟩, V3.toRow ⟨1, -4, -5⟩], [],
      [V3.toRow ⟨0, 1, 0⟩, V3.toRow ⟨0, 1, 0⟩, V3.toRow ⟨0, 3 / 5, 4 / 5⟩]⟩ =
    .ok [V3.toRow ⟨0, 0, 1⟩, nanRow, V3.toRow ⟨1, 2, 3⟩] := by
  decide +kernel

end Shareloc
