import Verif.Model.DtmIntersection
import Verif.Spec.Polyline
import Mathlib.Tactic.FinCases
import Mathlib.Data.List.Sort

set_option linter.unusedSectionVars false
/-! Helper lemmas about the DTM cube. -/

namespace Shareloc
open Spec
variable {K : Type*} [Field K] [LinearOrder K] [IsStrictOrderedRing K] [FloorRing K]

/-- Coordinate tested by plane `k`. -/
def coordOf (k : Fin 6) (p : V3 K) : K :=
  match k with
  | 0 => p.x
  | 1 => p.x
  | 2 => p.y
  | 3 => p.y
  | 4 => p.z
  | 5 => p.z

theorem eqPlan_eq (d : Dtm K) (k : Fin 6) (p : V3 K) : eqPlan d k p = coordOf k p - planeD d k := by
  fin_cases k <;> rfl

theorem eqPlan_zero_iff (d : Dtm K) (k : Fin 6) (p : V3 K) :
    eqPlan d k p = 0 ↔ OnFacePlane d.nbRows d.nbCols d.altMin d.altMax k p := by
  fin_cases k <;> simp [eqPlan, OnFacePlane, planeD, sub_eq_zero]

theorem coordOf_lerp (k : Fin 6) (a b : V3 K) (t : K) :
    coordOf k (lerp a b t) = coordOf k a + t * (coordOf k b - coordOf k a) := by
  fin_cases k <;> rfl

theorem eqPlan_lerp (d : Dtm K) (k : Fin 6) (a b : V3 K) (t : K) :
    eqPlan d k (lerp a b t) = eqPlan d k a + t * (eqPlan d k b - eqPlan d k a) := by
  simp only [eqPlan_eq, coordOf_lerp]; ring

theorem lerp_zero (a b : V3 K) : lerp a b 0 = a := by simp [lerp]
theorem lerp_one (a b : V3 K) : lerp a b 1 = b := by simp [lerp]

theorem onCube_iff (d : Dtm K) (p : V3 K) :
    onCube d p = true ↔ InBox d.nbRows d.nbCols d.altMin d.altMax p := by
  simp only [onCube, Bool.and_eq_true, decide_eq_true_eq, and_assoc]
  exact Iff.rfl

/-- The crossing computed between two vertices not both on the plane is on the segment, on the plane,
and there is no earlier point of the segment on the plane (when the first vertex is not on it). -/
theorem crossingOf_spec (d : Dtm K) (k : Fin 6) (layer : ℕ) (a b : V3 K) (ha : eqPlan d k a ≠ 0)
    (hab : eqPlan d k a * eqPlan d k b ≤ 0) :
    ∃ t, 0 ≤ t ∧ t ≤ 1 ∧ (crossingOf d k layer a b).p = lerp a b t ∧
      (crossingOf d k layer a b).h = layer - 1 + t ∧ eqPlan d k (lerp a b t) = 0 ∧
      ∀ u, eqPlan d k (lerp a b u) = 0 → u = t := by
  have hne : eqPlan d k b - eqPlan d k a ≠ 0 := by
    intro h
    have : eqPlan d k b = eqPlan d k a := by linarith
    rw [this] at hab
    exact ha (mul_self_eq_zero.mp (le_antisymm hab (mul_self_nonneg _)))
  have uniq : ∀ t u, eqPlan d k (lerp a b t) = 0 → eqPlan d k (lerp a b u) = 0 → u = t := by
    intro t u ht hu
    rw [eqPlan_lerp] at ht hu
    have : (u - t) * (eqPlan d k b - eqPlan d k a) = 0 := by linear_combination hu - ht
    rcases mul_eq_zero.mp this with h | h
    · linarith
    · exact absurd h hne
  by_cases hb : eqPlan d k b = 0
  · refine ⟨1, zero_le_one, le_refl _, ?_, ?_, ?_, ?_⟩
    · simp [crossingOf, ha, hb, lerp_one]
    · simp [crossingOf, ha, hb]
    · rw [lerp_one, hb]
    · intro u hu; exact uniq 1 u (by rw [lerp_one, hb]) hu
  · have hcc : eqPlan d k (lerp a b (-eqPlan d k a / (eqPlan d k b - eqPlan d k a))) = 0 := by
      rw [eqPlan_lerp]; field_simp; ring
    refine ⟨-eqPlan d k a / (eqPlan d k b - eqPlan d k a), ?_, ?_, ?_, ?_, hcc, fun u hu => uniq _ u hcc hu⟩
    · rcases lt_or_gt_of_ne ha with h | h
      · have : 0 ≤ eqPlan d k b := by
          by_contra hc
          exact absurd hab (not_le.mpr (mul_pos_of_neg_of_neg h (not_le.mp hc)))
        exact div_nonneg (by linarith) (by linarith)
      · have : eqPlan d k b ≤ 0 := by
          by_contra hc
          exact absurd hab (not_le.mpr (mul_pos h (not_le.mp hc)))
        exact div_nonneg_of_nonpos (by linarith) (by linarith)
    · rcases lt_or_gt_of_ne ha with h | h
      · have : 0 ≤ eqPlan d k b := by
          by_contra hc
          exact absurd hab (not_le.mpr (mul_pos_of_neg_of_neg h (not_le.mp hc)))
        rw [div_le_one (by linarith)]; linarith
      · have : eqPlan d k b ≤ 0 := by
          by_contra hc
          exact absurd hab (not_le.mpr (mul_pos h (not_le.mp hc)))
        rw [div_le_one_of_neg (by linarith)]; linarith
    · have key : coordOf k (lerp a b (-eqPlan d k a / (eqPlan d k b - eqPlan d k a))) = planeD d k := by
        rw [eqPlan_eq] at hcc; linarith
      have e1 : ∀ u v : K, eqPlan d k b / (eqPlan d k b - eqPlan d k a) * u
          + -eqPlan d k a / (eqPlan d k b - eqPlan d k a) * v
          = u + -eqPlan d k a / (eqPlan d k b - eqPlan d k a) * (v - u) := by
        intro u v; field_simp; ring
      simp only [crossingOf, if_neg ha, if_neg hb, e1]
      fin_cases k <;> simp [lerp, coordOf] at key ⊢ <;> exact key.symm
    · simp only [crossingOf, if_neg ha, if_neg hb]
      field_simp; ring

/-- Along a segment whose ends are strictly on the same side, the plane is never met. -/
theorem no_crossing (d : Dtm K) (k : Fin 6) (a b : V3 K) (hab : ¬ eqPlan d k a * eqPlan d k b ≤ 0)
    (t : K) (t0 : 0 ≤ t) (t1 : t ≤ 1) : eqPlan d k (lerp a b t) ≠ 0 := by
  have hab := not_le.mp hab
  rw [eqPlan_lerp]
  intro h
  have e : (1 - t) * eqPlan d k a + t * eqPlan d k b = 0 := by linear_combination h
  rcases pos_and_pos_or_neg_and_neg_of_mul_pos hab with ⟨p, q⟩ | ⟨p, q⟩
  · rcases eq_or_lt_of_le t0 with h0 | h0
    · rw [← h0] at e; linarith
    · have := mul_pos h0 q
      have := mul_nonneg (sub_nonneg.mpr t1) p.le
      linarith
  · rcases eq_or_lt_of_le t0 with h0 | h0
    · rw [← h0] at e; linarith
    · have := mul_neg_of_pos_of_neg h0 q
      have := mul_nonpos_of_nonneg_of_nonpos (sub_nonneg.mpr t1) p.le
      linarith

/-- The scan of a plane from a vertex that is not on it. -/
theorem faceScan_spec (impl : Impl) (d : Dtm K) (k : Fin 6) :
    ∀ (rest : List (V3 K)) (a : V3 K) (layer : ℕ), eqPlan d k a ≠ 0 →
      (faceScan impl d k a layer rest = .ok none ∧
        ∀ (i : ℕ) x y t, (a :: rest)[i]? = some x → (a :: rest)[i + 1]? = some y → 0 ≤ t → t ≤ 1 →
          eqPlan d k (lerp x y t) ≠ 0) ∨
      (∃ c, faceScan impl d k a layer rest = .ok (some c) ∧
        (∃ (i : ℕ) (x y : V3 K) (t : K), (a :: rest)[i]? = some x ∧ (a :: rest)[i + 1]? = some y ∧ 0 ≤ t ∧ t ≤ 1 ∧
          c.p = lerp x y t ∧ c.h = layer - 1 + (i : K) + t ∧ eqPlan d k c.p = 0) ∧
        ∀ (i : ℕ) x y t, (a :: rest)[i]? = some x → (a :: rest)[i + 1]? = some y → 0 ≤ t → t ≤ 1 →
          eqPlan d k (lerp x y t) = 0 → c.h ≤ layer - 1 + (i : K) + t) := by
  intro rest
  induction rest with
  | nil =>
    intro a layer ha
    left
    refine ⟨rfl, ?_⟩
    intro i x y t _ hy
    simp at hy
  | cons b rest ih =>
    intro a layer ha
    by_cases hab : eqPlan d k a * eqPlan d k b ≤ 0
    · right
      have hcpp : ¬ (impl = .cpp ∧ eqPlan d k a = 0 ∧ eqPlan d k b = 0) := fun h => ha h.2.1
      obtain ⟨t, t0, t1, hp, hh, hz, hu⟩ := crossingOf_spec d k layer a b ha hab
      refine ⟨crossingOf d k layer a b, ?_, ⟨0, a, b, t, by simp, by simp, t0, t1, hp, ?_, ?_⟩, ?_⟩
      · simp only [faceScan, if_pos hab, if_neg hcpp]
      · rw [hh]; simp
      · rw [hp]; exact hz
      · intro i x y u hx hy u0 u1 hzero
        cases i with
        | zero =>
          simp at hx hy
          subst hx; subst hy
          rw [hh, hu u hzero]; simp
        | succ i =>
          rw [hh]; push_cast
          have : (0 : K) ≤ i := Nat.cast_nonneg i
          linarith
    · have hb : eqPlan d k b ≠ 0 := by
        intro h; rw [h, mul_zero] at hab; exact hab (le_refl _)
      have hstep : faceScan impl d k a layer (b :: rest) = faceScan impl d k b (layer + 1) rest := by
        simp only [faceScan, if_neg hab]
      rcases ih b (layer + 1) hb with ⟨h1, h2⟩ | ⟨c, h1, ⟨i, x, y, t, hx, hy, t0, t1, hp, hh, hz⟩, h3⟩
      · left
        refine ⟨by rw [hstep, h1], ?_⟩
        intro i x y t hx hy t0 t1
        cases i with
        | zero =>
          simp at hx hy
          subst hx; subst hy
          exact no_crossing d k a b hab t t0 t1
        | succ i => exact h2 i x y t (by simpa using hx) (by simpa using hy) t0 t1
      · right
        refine ⟨c, by rw [hstep, h1], ⟨i + 1, x, y, t, by simpa using hx, by simpa using hy, t0, t1, hp, ?_, hz⟩, ?_⟩
        · rw [hh]; push_cast; ring
        · intro j x' y' u hx' hy' u0 u1 hzero
          cases j with
          | zero =>
            simp at hx' hy'
            subst hx'; subst hy'
            exact absurd hzero (no_crossing d k a b hab u u0 u1)
          | succ j =>
            have := h3 j x' y' u (by simpa using hx') (by simpa using hy') u0 u1 hzero
            push_cast at this ⊢
            linarith

/-- Characterisation of the hit of one face plane. -/
theorem faceHit_spec (impl : Impl) (d : Dtm K) (k : Fin 6) (v : V3 K) (rest : List (V3 K))
    (hv : eqPlan d k v ≠ 0) :
    (faceHit impl d k (v :: rest) = .ok none ∧
      ∀ h p, OnPolyline (v :: rest) h p → eqPlan d k p ≠ 0) ∨
    (∃ c, faceHit impl d k (v :: rest) = .ok (some c) ∧ OnPolyline (v :: rest) c.h c.p ∧
      eqPlan d k c.p = 0 ∧ ∀ h p, OnPolyline (v :: rest) h p → eqPlan d k p = 0 → c.h ≤ h) := by
  have hsq : ¬ eqPlan d k v * eqPlan d k v ≤ 0 := by
    intro h; exact hv (mul_self_eq_zero.mp (le_antisymm h (mul_self_nonneg _)))
  have hstep : faceHit impl d k (v :: rest) = faceScan impl d k v 1 rest := by
    simp only [faceHit, faceScan, if_neg hsq, Nat.zero_add]
  rw [hstep]
  rcases faceScan_spec impl d k rest v 1 hv with ⟨h1, h2⟩ | ⟨c, h1, ⟨i, x, y, t, hx, hy, t0, t1, hp, hh, hz⟩, h3⟩
  · left
    refine ⟨h1, ?_⟩
    rintro h p ⟨i, a, b, t, ha, hb, t0, t1, rfl, rfl⟩
    exact h2 i a b t ha hb t0 t1
  · right
    refine ⟨c, h1, ⟨i, x, y, t, hx, hy, t0, t1, ?_, hp⟩, hz, ?_⟩
    · rw [hh]; push_cast; ring
    · rintro h p ⟨j, a, b, u, ha, hb, u0, u1, rfl, rfl⟩ hzero
      have := h3 j a b u ha hb u0 u1 hzero
      push_cast at this
      linarith

/-- When the first vertex is on the plane: rank -1 in Python, exception in C++. -/
theorem faceHit_first_on_plane (d : Dtm K) (k : Fin 6) (v : V3 K) (rest : List (V3 K))
    (hv : eqPlan d k v = 0) :
    faceHit .py d k (v :: rest) = .ok (some ⟨v, -1⟩) ∧
    faceHit .cpp d k (v :: rest) = .error .tooManySolutions := by
  constructor
  · simp [faceHit, faceScan, hv, crossingOf]
  · simp [faceHit, faceScan, hv]

theorem exchangePass_perm (x : Crossing K) (l : List (Crossing K)) :
    ((exchangePass x l).1 :: (exchangePass x l).2).Perm (x :: l) := by
  induction l generalizing x with
  | nil => exact List.Perm.refl _
  | cons y ys ih =>
    simp only [exchangePass]
    split
    · refine (List.Perm.swap _ _ _).trans ?_
      exact (ih y).cons x
    · refine (List.Perm.swap _ _ _).trans ?_
      refine ((ih x).cons y).trans ?_
      exact List.Perm.swap _ _ _

theorem exchangePass_min (x : Crossing K) (l : List (Crossing K)) :
    (exchangePass x l).1.h ≤ x.h ∧ ∀ c ∈ (exchangePass x l).2, (exchangePass x l).1.h ≤ c.h := by
  induction l generalizing x with
  | nil => simp [exchangePass]
  | cons y ys ih =>
    simp only [exchangePass]
    split
    · rename_i h
      obtain ⟨h1, h2⟩ := ih y
      refine ⟨h1.trans h.le, ?_⟩
      intro c hc
      rcases List.mem_cons.mp hc with rfl | hc
      · exact h1.trans h.le
      · exact h2 c hc
    · rename_i h
      obtain ⟨h1, h2⟩ := ih x
      refine ⟨h1, ?_⟩
      intro c hc
      rcases List.mem_cons.mp hc with rfl | hc
      · exact h1.trans (not_lt.mp h)
      · exact h2 c hc

theorem exchangeLoop_spec : ∀ (n : ℕ) (l : List (Crossing K)), l.length ≤ n →
    (exchangeLoop n l).Perm l ∧ (exchangeLoop n l).Pairwise (fun a b => a.h ≤ b.h) := by
  intro n
  induction n with
  | zero =>
    intro l hl
    have : l = [] := List.length_eq_zero_iff.mp (by omega)
    subst this
    exact ⟨List.Perm.refl _, List.Pairwise.nil⟩
  | succ n ih =>
    intro l hl
    cases l with
    | nil => exact ⟨List.Perm.refl _, List.Pairwise.nil⟩
    | cons x xs =>
      have hperm := exchangePass_perm x xs
      have hlen : (exchangePass x xs).2.length ≤ n := by
        have := hperm.length_eq
        simp at this hl
        omega
      obtain ⟨p1, p2⟩ := ih _ hlen
      simp only [exchangeLoop]
      refine ⟨(p1.cons _).trans hperm, ?_⟩
      rw [List.pairwise_cons]
      refine ⟨?_, p2⟩
      intro c hc
      exact (exchangePass_min x xs).2 c (p1.mem_iff.mp hc)

theorem exchangeSort_spec (l : List (Crossing K)) :
    (exchangeSort l).Perm l ∧ (exchangeSort l).Pairwise (fun a b => a.h ≤ b.h) :=
  exchangeLoop_spec _ _ (le_refl _)

/-- Members of the candidate list. -/
theorem mem_faceHits (impl : Impl) (d : Dtm K) (los : List (V3 K)) :
    ∀ (ks : List (Fin 6)) (cs : List (Crossing K)), faceHits impl d los ks = .ok cs →
      ∀ c, c ∈ cs ↔ ∃ k ∈ ks, faceHit impl d k los = .ok (some c) := by
  intro ks
  induction ks with
  | nil =>
    intro cs h c
    simp only [faceHits] at h
    injection h with h
    subst h
    simp
  | cons k ks ih =>
    intro cs h c
    simp only [faceHits] at h
    split at h
    · exact absurd h (by simp)
    · rename_i h1
      rw [ih cs h c]
      constructor
      · rintro ⟨k', hk', h'⟩; exact ⟨k', List.mem_cons_of_mem _ hk', h'⟩
      · rintro ⟨k', hk', h'⟩
        rcases List.mem_cons.mp hk' with rfl | hk'
        · rw [h1] at h'; exact absurd h' (by simp)
        · exact ⟨k', hk', h'⟩
    · rename_i c0 h1
      split at h
      · exact absurd h (by simp)
      · rename_i cs' h2
        injection h with h
        subst h
        rw [List.mem_cons, ih cs' h2 c]
        constructor
        · rintro (rfl | ⟨k', hk', h'⟩)
          · exact ⟨k, List.mem_cons_self, h1⟩
          · exact ⟨k', List.mem_cons_of_mem _ hk', h'⟩
        · rintro ⟨k', hk', h'⟩
          rcases List.mem_cons.mp hk' with rfl | hk'
          · left
            rw [h1] at h'
            injection h' with h'
            injection h' with h'
            exact h'.symm
          · right; exact ⟨k', hk', h'⟩

/-- No error when no scan of the listed planes errs. -/
theorem faceHits_ok (impl : Impl) (d : Dtm K) (los : List (V3 K)) :
    ∀ (ks : List (Fin 6)), (∀ k ∈ ks, ∃ o, faceHit impl d k los = .ok o) →
      ∃ cs, faceHits impl d los ks = .ok cs := by
  intro ks
  induction ks with
  | nil => intro _; exact ⟨[], rfl⟩
  | cons k ks ih =>
    intro h
    obtain ⟨cs, hcs⟩ := ih (fun k' hk' => h k' (List.mem_cons_of_mem _ hk'))
    obtain ⟨o, ho⟩ := h k List.mem_cons_self
    cases o with
    | none => exact ⟨cs, by simp only [faceHits, ho, hcs]⟩
    | some c => exact ⟨c :: cs, by simp only [faceHits, ho, hcs]⟩

theorem mem_six (k : Fin 6) : k ∈ ([0, 1, 2, 3, 4, 5] : List (Fin 6)) := by
  fin_cases k <;> simp

/-- Two different planes hit give two distinct positions of the candidate list: the list of on-cube
candidates has at least two elements. -/
theorem faceHits_two (impl : Impl) (d : Dtm K) (los : List (V3 K)) (P : Crossing K → Bool) :
    ∀ (ks : List (Fin 6)) (cs : List (Crossing K)), faceHits impl d los ks = .ok cs → ks.Nodup →
      (∀ k1 k2 c1 c2, k1 ∈ ks → k2 ∈ ks → k1 ≠ k2 → faceHit impl d k1 los = .ok (some c1) →
        faceHit impl d k2 los = .ok (some c2) → P c1 → P c2 → 2 ≤ (cs.filter P).length) ∧
      (2 ≤ (cs.filter P).length → ∃ k1 k2 c1 c2, k1 ∈ ks ∧ k2 ∈ ks ∧ k1 ≠ k2 ∧
        faceHit impl d k1 los = .ok (some c1) ∧ faceHit impl d k2 los = .ok (some c2) ∧ P c1 ∧ P c2) := by
  intro ks
  induction ks with
  | nil =>
    intro cs h _
    simp only [faceHits] at h
    injection h with h
    subst h
    simp
  | cons k ks ih =>
    intro cs h hnd
    rw [List.nodup_cons] at hnd
    have hmem := mem_faceHits impl d los (k :: ks) cs h
    simp only [faceHits] at h
    split at h
    · exact absurd h (by simp)
    · rename_i h1
      obtain ⟨i1, i2⟩ := ih cs h hnd.2
      constructor
      · intro k1 k2 c1 c2 m1 m2 hne e1 e2 p1 p2
        have a1 : k1 ∈ ks := by
          rcases List.mem_cons.mp m1 with rfl | h'
          · rw [h1] at e1; exact absurd e1 (by simp)
          · exact h'
        have a2 : k2 ∈ ks := by
          rcases List.mem_cons.mp m2 with rfl | h'
          · rw [h1] at e2; exact absurd e2 (by simp)
          · exact h'
        exact i1 k1 k2 c1 c2 a1 a2 hne e1 e2 p1 p2
      · intro hl
        obtain ⟨k1, k2, c1, c2, m1, m2, r⟩ := i2 hl
        exact ⟨k1, k2, c1, c2, List.mem_cons_of_mem _ m1, List.mem_cons_of_mem _ m2, r⟩
    · rename_i c0 h1
      split at h
      · exact absurd h (by simp)
      · rename_i cs' h2
        injection h with h
        subst h
        obtain ⟨i1, i2⟩ := ih cs' h2 hnd.2
        have hmem' := mem_faceHits impl d los ks cs' h2
        have one : ∀ k' c', k' ∈ ks → faceHit impl d k' los = .ok (some c') → P c' →
            1 ≤ (cs'.filter P).length := by
          intro k' c' hk' e' p'
          exact List.length_pos_of_mem (List.mem_filter.mpr ⟨(hmem' c').mpr ⟨k', hk', e'⟩, p'⟩)
        constructor
        · intro k1 k2 c1 c2 m1 m2 hne e1 e2 p1 p2
          rcases List.mem_cons.mp m1 with rfl | a1 <;> rcases List.mem_cons.mp m2 with rfl | a2
          · exact absurd rfl hne
          · have : c0 = c1 := by rw [h1] at e1; injection e1 with e1; injection e1
            subst this
            have := one k2 c2 a2 e2 p2
            rw [List.filter_cons_of_pos p1]; simp; omega
          · have : c0 = c2 := by rw [h1] at e2; injection e2 with e2; injection e2
            subst this
            have := one k1 c1 a1 e1 p1
            rw [List.filter_cons_of_pos p2]; simp; omega
          · have := i1 k1 k2 c1 c2 a1 a2 hne e1 e2 p1 p2
            have h3 : (cs'.filter P).length ≤ ((c0 :: cs').filter P).length := by
              by_cases hp : P c0
              · rw [List.filter_cons_of_pos hp]; simp
              · rw [List.filter_cons_of_neg hp]
            omega
        · intro hl
          by_cases hp : P c0
          · rw [List.filter_cons_of_pos hp] at hl
            simp at hl
            obtain ⟨c', hc'⟩ := List.exists_mem_of_length_pos (l := cs'.filter P) (by omega)
            obtain ⟨hm, hpc⟩ := List.mem_filter.mp hc'
            obtain ⟨k', hk', e'⟩ := (hmem' c').mp hm
            refine ⟨k, k', c0, c', List.mem_cons_self, List.mem_cons_of_mem _ hk', ?_, h1, e', hp, hpc⟩
            rintro rfl
            exact hnd.1 hk'
          · rw [List.filter_cons_of_neg hp] at hl
            obtain ⟨k1, k2, c1, c2, m1, m2, r⟩ := i2 hl
            exact ⟨k1, k2, c1, c2, List.mem_cons_of_mem _ m1, List.mem_cons_of_mem _ m2, r⟩

/-- Everything `cubeOfIndex` says, from the candidates. -/
theorem cubeOfIndex_spec (impl : Impl) (d : Dtm K) (los : List (V3 K)) (cs : List (Crossing K))
    (hcs : faceHits impl d los [0, 1, 2, 3, 4, 5] = .ok cs) :
    (∀ c, cubeOfIndex impl d los = .ok (some c) →
      c ∈ cs ∧ onCube d c.p = true ∧ ∀ c' ∈ cs, onCube d c'.p = true → c.h ≤ c'.h) ∧
    ((∃ c, cubeOfIndex impl d los = .ok (some c)) ↔ 2 ≤ (cs.filter (fun c => onCube d c.p)).length) ∧
    (cubeOfIndex impl d los = .ok none ∨ ∃ c, cubeOfIndex impl d los = .ok (some c)) := by
  obtain ⟨hperm, hsort⟩ := exchangeSort_spec cs
  have hlen : ((exchangeSort cs).filter (fun c => onCube d c.p)).length =
      (cs.filter (fun c => onCube d c.p)).length := (hperm.filter _).length_eq
  have hsub : ((exchangeSort cs).filter (fun c => onCube d c.p)).Pairwise (fun a b => a.h ≤ b.h) :=
    hsort.filter _
  have hmem : ∀ c, c ∈ (exchangeSort cs).filter (fun c => onCube d c.p) ↔ c ∈ cs ∧ onCube d c.p = true := by
    intro c
    rw [List.mem_filter, hperm.mem_iff]
  have hdef : cubeOfIndex impl d los = match (exchangeSort cs).filter (fun c => onCube d c.p) with
      | c :: _ :: _ => .ok (some c)
      | _ => .ok none := by
    simp only [cubeOfIndex, hcs]
    rfl
  rw [hdef]
  generalize (exchangeSort cs).filter (fun c => onCube d c.p) = L at *
  match L, hlen, hsub, hmem with
  | [], hlen, hsub, hmem =>
    refine ⟨fun c h => by simp at h, ⟨fun ⟨c, h⟩ => by simp at h, fun h => ?_⟩, .inl rfl⟩
    rw [← hlen] at h; simp at h
  | [c0], hlen, hsub, hmem =>
    refine ⟨fun c h => by simp at h, ⟨fun ⟨c, h⟩ => by simp at h, fun h => ?_⟩, .inl rfl⟩
    rw [← hlen] at h; simp at h
  | c0 :: c1 :: L', hlen, hsub, hmem =>
    refine ⟨?_, ⟨fun _ => ?_, fun _ => ⟨c0, rfl⟩⟩, .inr ⟨c0, rfl⟩⟩
    · intro c h
      injection h with h
      injection h with h
      subst h
      have h0 := (hmem c0).mp List.mem_cons_self
      refine ⟨h0.1, h0.2, ?_⟩
      intro c' hc' ho
      have := (hmem c').mpr ⟨hc', ho⟩
      rcases List.mem_cons.mp this with rfl | hin
      · exact le_refl _
      · exact (List.pairwise_cons.mp hsub).1 c' hin
    · rw [← hlen]; simp

end Shareloc
