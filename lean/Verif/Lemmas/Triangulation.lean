import Verif.Spec.Lines
import Verif.Lemmas.Rpc
import Mathlib.LinearAlgebra.Matrix.ToLinearEquiv
import Mathlib.LinearAlgebra.Matrix.Determinant.Basic
import Mathlib.Algebra.BigOperators.Group.List.Basic
import Mathlib.Algebra.Order.BigOperators.Group.List

/-! Lemmas on the triangulation of lines. -/

set_option linter.unusedSectionVars false

namespace Shareloc
variable {K : Type*} [Field K] [LinearOrder K] [IsStrictOrderedRing K]

/-- A view without NaN. -/
def toView (w : V3 K × V3 K) : ORow K × ORow K := (w.1.toRow, w.2.toRow)

/-- Projection of `p - s` orthogonally to `v`. -/
def perp (w : V3 K × V3 K) (p : V3 K) : V3 K :=
  let d := p.minus w.1
  let t := d.dot w.2
  ⟨d.x - t * w.2.x, d.y - t * w.2.y, d.z - t * w.2.z⟩

/-- Squared norm of the cross product used by the residues. -/
def crossSq (w : V3 K × V3 K) (p : V3 K) : K :=
  let c := (p.minus w.1).cross w.2
  c.x * c.x + c.y * c.y + c.z * c.z

theorem crossSq_nonneg (w : V3 K × V3 K) (p : V3 K) : 0 ≤ crossSq w p := by
  simp only [crossSq]
  nlinarith [mul_self_nonneg ((p.minus w.1).cross w.2).x, mul_self_nonneg ((p.minus w.1).cross w.2).y,
    mul_self_nonneg ((p.minus w.1).cross w.2).z]

theorem crossSq_isSqDistLine (s v q : V3 K) (hv : IsUnitVec v) : IsSqDistLine s v q (crossSq (s, v) q) := by
  unfold IsUnitVec at hv
  have key : ∀ t, sqDist q (linePoint s v t) = crossSq (s, v) q + (t - (q.minus s).dot v) ^ 2 := by
    intro t
    simp only [sqDist, linePoint, crossSq, V3.minus, V3.cross, V3.dot]
    linear_combination (t ^ 2 + 0 - ((q.x - s.x) ^ 2 + (q.y - s.y) ^ 2 + (q.z - s.z) ^ 2)) * hv
  exact ⟨⟨(q.minus s).dot v, by rw [key]; ring⟩, fun t => by rw [key]; nlinarith [sq_nonneg (t - (q.minus s).dot v)]⟩

theorem isSqDistLine_unique (s v q : V3 K) (d d' : K) (h : IsSqDistLine s v q d) (h' : IsSqDistLine s v q d') : d = d' := by
  obtain ⟨⟨t, ht⟩, h2⟩ := h
  obtain ⟨⟨t', ht'⟩, h2'⟩ := h'
  apply le_antisymm
  · rw [← ht']; exact h2 t'
  · rw [← ht]; exact h2' t

/-! ### 3x3 systems -/

/-- Product of a matrix and a vector. -/
def M3.mulVec (m : M3 K) (d : V3 K) : V3 K := ⟨m.x.dot d, m.y.dot d, m.z.dot d⟩

theorem M3.mul_inv (m : M3 K) (b : V3 K) (h : M3.det m ≠ 0) : m.mulVec ((M3.inv m).mulVec b) = b := by
  have h1 : M3.det m * (M3.det m)⁻¹ = 1 := mul_inv_cancel₀ h
  obtain ⟨⟨a1, a2, a3⟩, ⟨b1, b2, b3⟩, ⟨c1, c2, c3⟩⟩ := m
  obtain ⟨x, y, z⟩ := b
  simp only [M3.mulVec, M3.inv, V3.dot, div_eq_mul_inv]
  generalize (M3.det (⟨⟨a1, a2, a3⟩, ⟨b1, b2, b3⟩, ⟨c1, c2, c3⟩⟩ : M3 K))⁻¹ = e at h1 ⊢
  simp only [M3.det] at h1
  simp only [V3.mk.injEq]
  refine ⟨?_, ?_, ?_⟩
  · linear_combination x * h1
  · linear_combination y * h1
  · linear_combination z * h1

theorem M3.inv_mul (m : M3 K) (b : V3 K) (h : M3.det m ≠ 0) : (M3.inv m).mulVec (m.mulVec b) = b := by
  have h1 : M3.det m * (M3.det m)⁻¹ = 1 := mul_inv_cancel₀ h
  obtain ⟨⟨a1, a2, a3⟩, ⟨b1, b2, b3⟩, ⟨c1, c2, c3⟩⟩ := m
  obtain ⟨x, y, z⟩ := b
  simp only [M3.mulVec, M3.inv, V3.dot, div_eq_mul_inv]
  generalize (M3.det (⟨⟨a1, a2, a3⟩, ⟨b1, b2, b3⟩, ⟨c1, c2, c3⟩⟩ : M3 K))⁻¹ = e at h1 ⊢
  simp only [M3.det] at h1
  simp only [V3.mk.injEq]
  refine ⟨?_, ?_, ?_⟩
  · linear_combination x * h1
  · linear_combination y * h1
  · linear_combination z * h1

theorem M3.exists_null (m : M3 K) (h : M3.det m = 0) : ∃ d : V3 K, d ≠ ⟨0, 0, 0⟩ ∧ m.mulVec d = ⟨0, 0, 0⟩ := by
  let M : Matrix (Fin 3) (Fin 3) K := !![m.x.x, m.x.y, m.x.z; m.y.x, m.y.y, m.y.z; m.z.x, m.z.y, m.z.z]
  have hM : M.det = 0 := by
    rw [Matrix.det_fin_three]
    simp only [M3.det] at h
    simp [M]
    linear_combination h
  obtain ⟨v, hv, h0⟩ := Matrix.exists_mulVec_eq_zero_iff.2 hM
  refine ⟨⟨v 0, v 1, v 2⟩, ?_, ?_⟩
  · intro he
    apply hv
    simp only [V3.mk.injEq] at he
    ext i
    fin_cases i
    · exact he.1
    · exact he.2.1
    · exact he.2.2
  · have e0 := congrFun h0 0
    have e1 := congrFun h0 1
    have e2 := congrFun h0 2
    simp [M, Matrix.mulVec, dotProduct, Fin.sum_univ_three] at e0 e1 e2
    simp only [M3.mulVec, V3.dot, V3.mk.injEq]
    refine ⟨e0, e1, e2⟩

/-! ### The sums of the code on views without NaN -/

theorem sumIdVivi_mulVec (views : List (V3 K × V3 K)) (p : V3 K) :
    (sumIdVivi (views.map toView)).mulVec p =
      ⟨(views.map fun w => p.x - w.2.x * p.dot w.2).sum, (views.map fun w => p.y - w.2.y * p.dot w.2).sum,
       (views.map fun w => p.z - w.2.z * p.dot w.2).sum⟩ := by
  simp only [sumIdVivi, nansum, M3.mulVec, V3.dot, List.map_map]
  induction views with
  | nil => simp
  | cons w ws ih =>
    simp only [V3.mk.injEq, List.map_cons, List.sum_cons, Function.comp] at ih ⊢
    simp only [idVivi, toView, V3.toRow, idMinus, omul, Option.map_some, Option.getD_some] at ih ⊢
    obtain ⟨h1, h2, h3⟩ := ih
    refine ⟨?_, ?_, ?_⟩
    · linear_combination h1
    · linear_combination h2
    · linear_combination h3

theorem sumIdViviSi_eq (views : List (V3 K × V3 K)) :
    sumIdViviSi (views.map toView) =
      ⟨(views.map fun w => w.1.x - w.2.x * w.1.dot w.2).sum, (views.map fun w => w.1.y - w.2.y * w.1.dot w.2).sum,
       (views.map fun w => w.1.z - w.2.z * w.1.dot w.2).sum⟩ := by
  simp only [sumIdViviSi, V3.dot, List.map_map]
  induction views with
  | nil => simp
  | cons w ws ih =>
    simp only [V3.mk.injEq, List.map_cons, List.sum_cons, Function.comp] at ih ⊢
    simp only [idViviSi, nansum, idVivi, toView, V3.toRow, idMinus, omul, Option.map_some, Option.getD_some,
      List.map_cons, List.map_nil, List.sum_cons, List.sum_nil] at ih ⊢
    obtain ⟨h1, h2, h3⟩ := ih
    refine ⟨?_, ?_, ?_⟩
    · linear_combination h1
    · linear_combination h2
    · linear_combination h3

/-- The quadratic form of the matrix. -/
theorem quadForm (views : List (V3 K × V3 K)) (hu : ∀ w ∈ views, IsUnitVec w.2) (d : V3 K) :
    d.dot ((sumIdVivi (views.map toView)).mulVec d) = (views.map fun w => crossSq (⟨0, 0, 0⟩, w.2) d).sum := by
  rw [sumIdVivi_mulVec]
  induction views with
  | nil => simp [V3.dot]
  | cons w ws ih =>
    have h1 := ih fun w' hw' => hu w' (by simp [hw'])
    have h2 := hu w (by simp)
    unfold IsUnitVec at h2
    simp only [V3.dot, List.map_cons, List.sum_cons] at h1 ⊢
    rw [← h1]
    simp only [crossSq, V3.minus, V3.cross]
    linear_combination (-(d.x ^ 2 + d.y ^ 2 + d.z ^ 2)) * h2

/-- The solution of the system makes the sum of the projections null. -/
theorem sum_perp (views : List (V3 K × V3 K)) (p : V3 K) :
    (views.map fun w => (perp w p).x).sum =
      ((sumIdVivi (views.map toView)).mulVec p).x - (sumIdViviSi (views.map toView)).x ∧
    (views.map fun w => (perp w p).y).sum =
      ((sumIdVivi (views.map toView)).mulVec p).y - (sumIdViviSi (views.map toView)).y ∧
    (views.map fun w => (perp w p).z).sum =
      ((sumIdVivi (views.map toView)).mulVec p).z - (sumIdViviSi (views.map toView)).z := by
  rw [sumIdVivi_mulVec, sumIdViviSi_eq]
  induction views with
  | nil => simp
  | cons w ws ih =>
    obtain ⟨h1, h2, h3⟩ := ih
    simp only [List.map_cons, List.sum_cons, perp, V3.minus, V3.dot] at h1 h2 h3 ⊢
    refine ⟨?_, ?_, ?_⟩
    · linear_combination h1
    · linear_combination h2
    · linear_combination h3

theorem crossSq_expand (w : V3 K × V3 K) (p q : V3 K) (hu : IsUnitVec w.2) :
    crossSq w q = crossSq w p + crossSq (⟨0, 0, 0⟩, w.2) (q.minus p) +
      2 * ((q.x - p.x) * (perp w p).x + (q.y - p.y) * (perp w p).y + (q.z - p.z) * (perp w p).z) := by
  unfold IsUnitVec at hu
  obtain ⟨⟨a, b, c⟩, ⟨v1, v2, v3⟩⟩ := w
  simp only [crossSq, perp, V3.minus, V3.cross, V3.dot] at hu ⊢
  linear_combination (2 * ((q.x - p.x) * (p.x - a) + (q.y - p.y) * (p.y - b) + (q.z - p.z) * (p.z - c))) * hu

theorem sum_crossSq_expand (views : List (V3 K × V3 K)) (hu : ∀ w ∈ views, IsUnitVec w.2) (p q : V3 K) :
    (views.map fun w => crossSq w q).sum = (views.map fun w => crossSq w p).sum +
      (views.map fun w => crossSq (⟨0, 0, 0⟩, w.2) (q.minus p)).sum +
      2 * ((q.x - p.x) * (views.map fun w => (perp w p).x).sum + (q.y - p.y) * (views.map fun w => (perp w p).y).sum +
        (q.z - p.z) * (views.map fun w => (perp w p).z).sum) := by
  induction views with
  | nil => simp
  | cons w ws ih =>
    have h1 := ih fun w' hw' => hu w' (by simp [hw'])
    have h2 := crossSq_expand w p q (hu w (by simp))
    simp only [List.map_cons, List.sum_cons]
    linear_combination h1 + h2

theorem nViewPoint_ok (views : List (ORow K × ORow K)) (p : V3 K) (h : nViewPoint views = .ok p) :
    M3.det (sumIdVivi views) ≠ 0 ∧ (sumIdVivi views).mulVec p = sumIdViviSi views := by
  simp only [nViewPoint] at h
  split_ifs at h with h0
  refine ⟨h0, ?_⟩
  simp only [Except.ok.injEq] at h
  rw [← h]
  exact M3.mul_inv _ _ h0

theorem sum_nonneg_eq_zero {α : Type*} (l : List α) (f : α → K) (hf : ∀ a, 0 ≤ f a) (h : (l.map f).sum = 0) :
    ∀ a ∈ l, f a = 0 := by
  induction l with
  | nil => simp
  | cons a as ih =>
    have hs : 0 ≤ (as.map f).sum := List.sum_nonneg (by
      intro x hx
      obtain ⟨b, _, rfl⟩ := List.mem_map.1 hx
      exact hf b)
    simp only [List.map_cons, List.sum_cons] at h
    have h1 := hf a
    intro b hb
    rcases List.mem_cons.1 hb with rfl | hb
    · linarith
    · exact ih (by linarith) b hb

theorem crossSq_zero_eq (v d : V3 K) (hu : IsUnitVec v) (h : crossSq (⟨0, 0, 0⟩, v) d = 0) :
    d = ⟨d.dot v * v.x, d.dot v * v.y, d.dot v * v.z⟩ := by
  unfold IsUnitVec at hu
  obtain ⟨d1, d2, d3⟩ := d
  obtain ⟨v1, v2, v3⟩ := v
  simp only [crossSq, V3.minus, V3.cross, V3.dot, sub_zero] at h hu ⊢
  have h1 : d2 * v3 - d3 * v2 = 0 := by
    have := mul_self_nonneg (d2 * v3 - d3 * v2)
    have := mul_self_nonneg (d3 * v1 - d1 * v3)
    have := mul_self_nonneg (d1 * v2 - d2 * v1)
    exact mul_self_eq_zero.1 (by linarith)
  have h2 : d3 * v1 - d1 * v3 = 0 := by
    have := mul_self_nonneg (d2 * v3 - d3 * v2)
    have := mul_self_nonneg (d3 * v1 - d1 * v3)
    have := mul_self_nonneg (d1 * v2 - d2 * v1)
    exact mul_self_eq_zero.1 (by linarith)
  have h3 : d1 * v2 - d2 * v1 = 0 := by
    have := mul_self_nonneg (d2 * v3 - d3 * v2)
    have := mul_self_nonneg (d3 * v1 - d1 * v3)
    have := mul_self_nonneg (d1 * v2 - d2 * v1)
    exact mul_self_eq_zero.1 (by linarith)
  simp only [V3.mk.injEq]
  refine ⟨?_, ?_, ?_⟩
  · linear_combination (-d1) * hu + v2 * h3 - v3 * h2
  · linear_combination (-d2) * hu + v3 * h1 - v1 * h3
  · linear_combination (-d3) * hu + v1 * h2 - v2 * h1

/-- The directions of which the matrix cancels a vector are all parallel to it. -/
theorem null_parallel (views : List (V3 K × V3 K)) (hu : ∀ w ∈ views, IsUnitVec w.2) (d : V3 K)
    (h : (sumIdVivi (views.map toView)).mulVec d = ⟨0, 0, 0⟩) :
    ∀ w ∈ views, crossSq (⟨0, 0, 0⟩, w.2) d = 0 := by
  have hq := quadForm views hu d
  rw [h] at hq
  simp only [V3.dot, mul_zero, add_zero] at hq
  exact sum_nonneg_eq_zero views (fun w => crossSq (⟨0, 0, 0⟩, w.2) d) (fun w => crossSq_nonneg _ _) hq.symm

/-! ### Arrays -/

theorem forEach_ok_iff {α β : Type*} (f : α → Except TriError β) (l : List α) (out : List β) :
    forEach f l = .ok out ↔ List.Forall₂ (fun a b => f a = .ok b) l out := by
  induction l generalizing out with
  | nil =>
    simp only [forEach, Except.ok.injEq, List.forall₂_nil_left_iff]
    exact ⟨fun h => h.symm, fun h => h.symm⟩
  | cons a as ih =>
    simp only [forEach]
    cases hfa : f a with
    | error e =>
      simp only [reduceCtorEq, false_iff]
      intro h
      cases h with
      | cons h1 _ => rw [hfa] at h1; cases h1
    | ok b =>
      cases hr : forEach f as with
      | error e =>
        simp only [reduceCtorEq, false_iff]
        intro h
        cases h with
        | cons h1 h2 => rw [(ih _).2 h2] at hr; cases hr
      | ok bs =>
        simp only [Except.ok.injEq]
        constructor
        · rintro rfl
          exact List.Forall₂.cons hfa ((ih _).1 hr)
        · intro h
          cases h with
          | cons h1 h2 =>
            rw [hfa] at h1
            rw [(ih _).2 h2] at hr
            simp only [Except.ok.injEq] at h1 hr
            rw [h1, hr]

theorem forall₂_getElem? {α β : Type*} {R : α → β → Prop} {l : List α} {out : List β} (h : List.Forall₂ R l out)
    (n : ℕ) (a : α) (ha : l[n]? = some a) : ∃ b, out[n]? = some b ∧ R a b := by
  induction h generalizing n with
  | nil => simp at ha
  | cons h1 h2 ih =>
    cases n with
    | zero => simp at ha; subst ha; exact ⟨_, rfl, h1⟩
    | succ n => simpa using ih n (by simpa using ha)

theorem evens_interleave {α : Type*} (a b : List α) (h : a.length = b.length) : evens (interleave a b) = a := by
  induction a generalizing b with
  | nil => cases b with
    | nil => rfl
    | cons _ _ => simp at h
  | cons x xs ih => cases b with
    | nil => simp at h
    | cons y ys => simp only [interleave, evens]; rw [ih ys (by simpa using h)]

theorem odds_interleave {α : Type*} (a b : List α) (h : a.length = b.length) : odds (interleave a b) = b := by
  induction a generalizing b with
  | nil => cases b with
    | nil => rfl
    | cons _ _ => simp at h
  | cons x xs ih => cases b with
    | nil => simp at h
    | cons y ys => simp only [interleave, odds]; rw [ih ys (by simpa using h)]

theorem map_interleave {α β : Type*} (f : α → β) (a b : List α) :
    (interleave a b).map f = interleave (a.map f) (b.map f) := by
  induction a generalizing b with
  | nil => rfl
  | cons x xs ih => cases b with
    | nil => rfl
    | cons y ys => simp [interleave, ih]

theorem scatterMask_filter {α β : Type*} (fill : β) (ok : α → Bool) (g : α → β) (l : List α) :
    scatterMask fill (l.map ok) ((l.filter ok).map g) = l.map fun a => if ok a then g a else fill := by
  induction l with
  | nil => rfl
  | cons a as ih =>
    cases h : ok a with
    | true => simp [List.filter_cons, h, scatterMask, ih]
    | false => simp [List.filter_cons, h, scatterMask, ih]

end Shareloc
