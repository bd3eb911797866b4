import Verif.Lemmas.Cube
import Verif.Props.Affine
import Mathlib.Data.Finset.Max

set_option linter.unusedSectionVars false
/-! C12, C13: intersection of a line of sight with the DTM bounding box. -/

namespace Shareloc
open Spec
variable {K : Type*} [Field K] [LinearOrder K] [IsStrictOrderedRing K] [FloorRing K]

/-- No vertex-on-face degeneracy: the first vertex of the line is on no face plane of the DTM box. -/
def FirstOffPlanes (d : Dtm K) (los : List (V3 K)) : Prop :=
  ∀ v, los.head? = some v → ∀ k, ¬ OnFacePlane d.nbRows d.nbCols d.altMin d.altMax k v

theorem faceHit_cases (impl : Impl) (d : Dtm K) (k : Fin 6) (los : List (V3 K)) (c : Crossing K)
    (h : faceHit impl d k los = .ok (some c)) :
    (OnPolyline los c.h c.p ∧ OnFacePlane d.nbRows d.nbCols d.altMin d.altMax k c.p) ∨
    (impl = .py ∧ c.h = -1 ∧ los.head? = some c.p ∧ OnFacePlane d.nbRows d.nbCols d.altMin d.altMax k c.p) := by
  cases los with
  | nil => simp [faceHit] at h
  | cons v rest =>
    by_cases hv : eqPlan d k v = 0
    · have := faceHit_first_on_plane d k v rest hv
      cases impl with
      | py =>
        rw [this.1] at h
        injection h with h; injection h with h
        subst h
        exact .inr ⟨rfl, rfl, rfl, (eqPlan_zero_iff d k v).mp hv⟩
      | cpp => rw [this.2] at h; exact absurd h (by simp)
    · rcases faceHit_spec impl d k v rest hv with ⟨h1, _⟩ | ⟨c', h1, h2, h3, _⟩
      · rw [h1] at h; exact absurd h (by simp)
      · rw [h1] at h
        injection h with h; injection h with h
        subst h
        exact .inl ⟨h2, (eqPlan_zero_iff d k _).mp h3⟩

/-- C12 (both implementations): whenever an entry point is reported, it is in the closed box; it is the
point of the polyline at the reported parameter, except when (Python only) the first vertex of the line
is itself on a face plane, in which case the reported point may be that vertex with parameter -1.
The returned index line describes the same ground points. -/
theorem C12_entry_on_line_and_in_box (impl : Impl) (d : Dtm K)
    (hdet : d.transform.a * d.transform.e - d.transform.b * d.transform.d ≠ 0)
    (los li : List (V3 K)) (c : Crossing K) (h : intersectDtmCube impl d los = .ok (some c, li)) :
    InBox d.nbRows d.nbCols d.altMin d.altMax c.p ∧
    (OnPolyline li c.h c.p ∨
      (impl = .py ∧ c.h = -1 ∧ li.head? = some c.p ∧
        ∃ k, OnFacePlane d.nbRows d.nbCols d.altMin d.altMax k c.p)) ∧
    li.map (indexToTerPy d.transform) = los := by
  have hli : li = tersToIndexsPy d.transform los ∧ cubeOfIndex impl d (tersToIndexsPy d.transform los) = .ok (some c) := by
    simp only [intersectDtmCube] at h
    split at h
    · exact absurd h (by simp)
    · rename_i r hr
      injection h with h
      injection h with h1 h2
      exact ⟨h2.symm, by rw [hr, h1]⟩
  obtain ⟨rfl, hc⟩ := hli
  have hok : ∃ cs, faceHits impl d (tersToIndexsPy d.transform los) [0, 1, 2, 3, 4, 5] = .ok cs := by
    cases hh : faceHits impl d (tersToIndexsPy d.transform los) [0, 1, 2, 3, 4, 5] with
    | error e => simp [cubeOfIndex, hh] at hc
    | ok cs => exact ⟨cs, rfl⟩
  obtain ⟨cs, hcs⟩ := hok
  obtain ⟨h1, _, _⟩ := cubeOfIndex_spec impl d _ cs hcs
  obtain ⟨hm, hb, _⟩ := h1 c hc
  obtain ⟨k, _, hk⟩ := (mem_faceHits impl d _ _ cs hcs c).mp hm
  refine ⟨(onCube_iff d c.p).mp hb, ?_, ?_⟩
  · rcases faceHit_cases impl d k _ c hk with h | h
    · exact .inl h.1
    · exact .inr ⟨h.1, h.2.1, h.2.2.1, k, h.2.2.2⟩
  · simp only [tersToIndexsPy, List.map_map]
    conv_rhs => rw [← List.map_id los]
    apply List.map_congr_left
    intro v _
    exact C02_py_index_to_ter_ter_to_index d.transform hdet v

/-- C12: when the first vertex is on no face plane the entry is always on the polyline. -/
theorem C12_entry_on_line (impl : Impl) (d : Dtm K)
    (hdet : d.transform.a * d.transform.e - d.transform.b * d.transform.d ≠ 0)
    (los li : List (V3 K)) (c : Crossing K) (h : intersectDtmCube impl d los = .ok (some c, li))
    (hoff : FirstOffPlanes d li) : OnPolyline li c.h c.p := by
  rcases (C12_entry_on_line_and_in_box impl d hdet los li c h).2.1 with h | ⟨_, _, h2, k, hk⟩
  · exact h
  · exact absurd hk (hoff _ h2 k)

theorem faceHit_ok_of_off (impl : Impl) (d : Dtm K) (k : Fin 6) (los : List (V3 K))
    (hoff : FirstOffPlanes d los) : ∃ o, faceHit impl d k los = .ok o := by
  cases los with
  | nil => exact ⟨none, rfl⟩
  | cons v rest =>
    have hv : eqPlan d k v ≠ 0 := fun h => hoff v rfl k ((eqPlan_zero_iff d k v).mp h)
    rcases faceHit_spec impl d k v rest hv with ⟨h, _⟩ | ⟨c, h, _⟩
    · exact ⟨_, h⟩
    · exact ⟨_, h⟩

theorem faceHit_iff_first (impl : Impl) (d : Dtm K) (k : Fin 6) (los : List (V3 K))
    (hoff : FirstOffPlanes d los) (c : Crossing K) :
    faceHit impl d k los = .ok (some c) → FirstCrossing d.nbRows d.nbCols d.altMin d.altMax k los c.h c.p := by
  cases los with
  | nil => intro h; simp [faceHit] at h
  | cons v rest =>
    intro h
    have hv : eqPlan d k v ≠ 0 := fun h => hoff v rfl k ((eqPlan_zero_iff d k v).mp h)
    rcases faceHit_spec impl d k v rest hv with ⟨h1, _⟩ | ⟨c', h1, h2, h3, h4⟩
    · rw [h1] at h; exact absurd h (by simp)
    · rw [h1] at h
      injection h with h; injection h with h
      subst h
      exact ⟨h2, (eqPlan_zero_iff d k _).mp h3,
        fun h' p' a b => h4 h' p' a ((eqPlan_zero_iff d k _).mpr b)⟩

/-- Two points of a polyline with the same parameter are the same. -/
theorem onPolyline_unique (vs : List (V3 K)) (h : K) (p q : V3 K) (hp : OnPolyline vs h p)
    (hq : OnPolyline vs h q) : p = q := by
  obtain ⟨i, a, b, t, ha, hb, t0, t1, rfl, rfl⟩ := hp
  obtain ⟨j, a', b', u, ha', hb', u0, u1, he, rfl⟩ := hq
  rcases lt_trichotomy i j with hij | rfl | hij
  · have : (i : K) + 1 ≤ j := by exact_mod_cast hij
    have ht : t = 1 := by linarith
    have hu : u = 0 := by linarith
    have hij' : (j : K) = ((i + 1 : ℕ) : K) := by push_cast; linarith
    have : j = i + 1 := by exact_mod_cast hij'
    subst this
    rw [ht, hu, lerp_one, lerp_zero]
    rw [hb] at ha'
    exact Option.some.inj ha'
  · rw [ha] at ha'
    rw [hb] at hb'
    obtain rfl := Option.some.inj ha'
    obtain rfl := Option.some.inj hb'
    have : t = u := by linarith
    rw [this]
  · have : (j : K) + 1 ≤ i := by exact_mod_cast hij
    have ht : t = 0 := by linarith
    have hu : u = 1 := by linarith
    have hij' : (i : K) = ((j + 1 : ℕ) : K) := by push_cast; linarith
    have : i = j + 1 := by exact_mod_cast hij'
    subst this
    rw [ht, hu, lerp_one, lerp_zero]
    rw [hb'] at ha
    exact (Option.some.inj ha).symm

theorem first_faceHit (impl : Impl) (d : Dtm K) (k : Fin 6) (los : List (V3 K))
    (hoff : FirstOffPlanes d los) (h : K) (p : V3 K)
    (hf : FirstCrossing d.nbRows d.nbCols d.altMin d.altMax k los h p) :
    faceHit impl d k los = .ok (some ⟨p, h⟩) := by
  cases los with
  | nil => obtain ⟨⟨i, a, b, t, ha, _⟩, _⟩ := hf; simp at ha
  | cons v rest =>
    have hv : eqPlan d k v ≠ 0 := fun h => hoff v rfl k ((eqPlan_zero_iff d k v).mp h)
    rcases faceHit_spec impl d k v rest hv with ⟨h1, h2⟩ | ⟨c', h1, h2, h3, h4⟩
    · exact absurd ((eqPlan_zero_iff d k p).mpr hf.2.1) (h2 h p hf.1)
    · have e1 := h4 h p hf.1 ((eqPlan_zero_iff d k p).mpr hf.2.1)
      have e2 := hf.2.2 c'.h c'.p h2 ((eqPlan_zero_iff d k c'.p).mp h3)
      have e : c'.h = h := le_antisymm e1 e2
      have ep : c'.p = p := onPolyline_unique _ h _ _ (e ▸ h2) hf.1
      rw [h1, ← e, ← ep]

/-- C13 (both implementations): for a line whose first vertex is on no face plane, the box intersection
succeeds (no error), and reports an entry exactly when the first crossings of two different face planes
are on the box. -/
theorem C13_found_iff_two_faces (impl : Impl) (d : Dtm K) (los : List (V3 K))
    (hoff : FirstOffPlanes d (los.map (terToIndexPy d.transform))) :
    ∃ o, intersectDtmCube impl d los = .ok (o, los.map (terToIndexPy d.transform)) ∧
    (o.isSome ↔ ∃ k1 k2 h1 h2 p1 p2, k1 ≠ k2 ∧
      FirstCrossing d.nbRows d.nbCols d.altMin d.altMax k1 (los.map (terToIndexPy d.transform)) h1 p1 ∧
      FirstCrossing d.nbRows d.nbCols d.altMin d.altMax k2 (los.map (terToIndexPy d.transform)) h2 p2 ∧
      InBox d.nbRows d.nbCols d.altMin d.altMax p1 ∧ InBox d.nbRows d.nbCols d.altMin d.altMax p2) := by
  change FirstOffPlanes d (tersToIndexsPy d.transform los) at hoff
  obtain ⟨cs, hcs⟩ := faceHits_ok impl d _ [0, 1, 2, 3, 4, 5]
    (fun k _ => faceHit_ok_of_off impl d k _ hoff)
  obtain ⟨_, s2, s3⟩ := cubeOfIndex_spec impl d _ cs hcs
  obtain ⟨f1, f2⟩ := faceHits_two impl d _ (fun c => onCube d c.p) _ cs hcs (by decide)
  have hsome : ∀ o, cubeOfIndex impl d (tersToIndexsPy d.transform los) = .ok o →
      (o.isSome ↔ 2 ≤ (cs.filter (fun c => onCube d c.p)).length) := by
    intro o ho
    rw [← s2, ho]
    cases o <;> simp
  have hex : ∃ o, cubeOfIndex impl d (tersToIndexsPy d.transform los) = .ok o := by
    rcases s3 with h | ⟨c, h⟩ <;> exact ⟨_, h⟩
  obtain ⟨o, ho⟩ := hex
  refine ⟨o, ?_, ?_⟩
  · simp only [intersectDtmCube, ho]; rfl
  · rw [hsome o ho]
    constructor
    · intro h
      obtain ⟨k1, k2, c1, c2, _, _, hne, e1, e2, b1, b2⟩ := f2 h
      exact ⟨k1, k2, c1.h, c2.h, c1.p, c2.p, hne, faceHit_iff_first impl d k1 _ hoff c1 e1,
        faceHit_iff_first impl d k2 _ hoff c2 e2, (onCube_iff d _).mp b1, (onCube_iff d _).mp b2⟩
    · rintro ⟨k1, k2, h1, h2, p1, p2, hne, a1, a2, b1, b2⟩
      exact f1 k1 k2 ⟨p1, h1⟩ ⟨p2, h2⟩ (mem_six k1) (mem_six k2) hne
        (first_faceHit impl d k1 _ hoff h1 p1 a1) (first_faceHit impl d k2 _ hoff h2 p2 a2)
        ((onCube_iff d _).mpr b1) ((onCube_iff d _).mpr b2)

/-- C13: the reported entry is one of these first crossings, and has the smallest parameter among those
on the box. -/
theorem C13_entry_is_smallest (impl : Impl) (d : Dtm K) (los li : List (V3 K)) (c : Crossing K)
    (hoff : FirstOffPlanes d (los.map (terToIndexPy d.transform)))
    (h : intersectDtmCube impl d los = .ok (some c, li)) :
    (∃ k, FirstCrossing d.nbRows d.nbCols d.altMin d.altMax k li c.h c.p) ∧
    ∀ k h' p', FirstCrossing d.nbRows d.nbCols d.altMin d.altMax k li h' p' →
      InBox d.nbRows d.nbCols d.altMin d.altMax p' → c.h ≤ h' := by
  change FirstOffPlanes d (tersToIndexsPy d.transform los) at hoff
  obtain ⟨cs, hcs⟩ := faceHits_ok impl d _ [0, 1, 2, 3, 4, 5]
    (fun k _ => faceHit_ok_of_off impl d k _ hoff)
  obtain ⟨s1, _, _⟩ := cubeOfIndex_spec impl d _ cs hcs
  simp only [intersectDtmCube] at h
  split at h
  · exact absurd h (by simp)
  · rename_i r hr
    injection h with h
    injection h with e1 e2
    subst e2
    rw [e1] at hr
    obtain ⟨hm, hb, hmin⟩ := s1 c hr
    obtain ⟨k, _, hk⟩ := (mem_faceHits impl d _ _ cs hcs c).mp hm
    refine ⟨⟨k, faceHit_iff_first impl d k _ hoff c hk⟩, ?_⟩
    intro k' h' p' hf hin
    exact hmin ⟨p', h'⟩ ((mem_faceHits impl d _ _ cs hcs _).mpr
      ⟨k', mem_six k', first_faceHit impl d k' _ hoff h' p' hf⟩) ((onCube_iff d _).mpr hin)

/-- Signed distance to face `k`, positive on the side of the box. -/
def inward (d : Dtm K) (k : Fin 6) (p : V3 K) : K :=
  match k with
  | 0 => eqPlan d 0 p
  | 1 => -eqPlan d 1 p
  | 2 => eqPlan d 2 p
  | 3 => -eqPlan d 3 p
  | 4 => eqPlan d 4 p
  | 5 => -eqPlan d 5 p

theorem inward_zero_iff (d : Dtm K) (k : Fin 6) (p : V3 K) :
    inward d k p = 0 ↔ OnFacePlane d.nbRows d.nbCols d.altMin d.altMax k p := by
  rw [← eqPlan_zero_iff]
  fin_cases k <;> simp [inward]

theorem inward_lerp (d : Dtm K) (k : Fin 6) (a b : V3 K) (t : K) :
    inward d k (lerp a b t) = inward d k a + t * (inward d k b - inward d k a) := by
  fin_cases k <;> simp only [inward, eqPlan_lerp] <;> ring

theorem inBox_iff (d : Dtm K) (p : V3 K) :
    InBox d.nbRows d.nbCols d.altMin d.altMax p ↔ ∀ k, 0 ≤ inward d k p := by
  constructor
  · rintro ⟨h1, h2, h3, h4, h5, h6⟩ k
    fin_cases k <;> simp [inward, eqPlan, planeD] <;> linarith
  · intro h
    have h0 := h 0
    have h1 := h 1
    have h2 := h 2
    have h3 := h 3
    have h4 := h 4
    have h5 := h 5
    simp only [inward, eqPlan, planeD] at h0 h1 h2 h3 h4 h5
    refine ⟨?_, ?_, ?_, ?_, ?_, ?_⟩ <;> linarith

theorem insideBox_iff (d : Dtm K) (p : V3 K) :
    InsideBox d.nbRows d.nbCols d.altMin d.altMax p ↔ ∀ k, 0 < inward d k p := by
  constructor
  · rintro ⟨h1, h2, h3, h4, h5, h6⟩ k
    fin_cases k <;> simp [inward, eqPlan, planeD] <;> linarith
  · intro h
    have h0 := h 0
    have h1 := h 1
    have h2 := h 2
    have h3 := h 3
    have h4 := h 4
    have h5 := h 5
    simp only [inward, eqPlan, planeD] at h0 h1 h2 h3 h4 h5
    refine ⟨?_, ?_, ?_, ?_, ?_, ?_⟩ <;> linarith

/-- Where a segment from outside reaches the box: on some face plane, in the box. -/
theorem reach_box (d : Dtm K) (a b : V3 K) (ha : ¬ InBox d.nbRows d.nbCols d.altMin d.altMax a)
    (hb : InsideBox d.nbRows d.nbCols d.altMin d.altMax b) :
    ∃ k t, 0 < t ∧ t < 1 ∧ inward d k a < 0 ∧ inward d k (lerp a b t) = 0 ∧
      InBox d.nbRows d.nbCols d.altMin d.altMax (lerp a b t) := by
  rw [insideBox_iff] at hb
  rw [inBox_iff] at ha
  push Not at ha
  obtain ⟨k0, hk0⟩ := ha
  let τ : Fin 6 → K := fun k => -inward d k a / (inward d k b - inward d k a)
  obtain ⟨k, hk, hmax⟩ := Finset.exists_max_image (Finset.univ.filter fun k => inward d k a < 0) τ
    ⟨k0, by simp [hk0]⟩
  rw [Finset.mem_filter] at hk
  have hka := hk.2
  have hkb := hb k
  have hden : 0 < inward d k b - inward d k a := by linarith
  have hτ0 : 0 < τ k := div_pos (by linarith) hden
  have hτ1 : τ k < 1 := by
    simp only [τ]; rw [div_lt_one hden]; linarith
  refine ⟨k, τ k, hτ0, hτ1, hka, ?_, ?_⟩
  · rw [inward_lerp]
    simp only [τ]
    field_simp
    ring
  · rw [inBox_iff]
    intro j
    rw [inward_lerp]
    have hjb := hb j
    by_cases hj : inward d j a < 0
    · have hle := hmax j (by rw [Finset.mem_filter]; exact ⟨Finset.mem_univ _, hj⟩)
      have hdj : 0 < inward d j b - inward d j a := by linarith
      have : -inward d j a ≤ τ k * (inward d j b - inward d j a) := by
        rwa [← div_le_iff₀ hdj]
      linarith
    · have h1 := mul_nonneg (sub_nonneg.mpr hτ1.le) (not_lt.mp hj)
      have h2 := mul_nonneg hτ0.le hjb.le
      linarith

theorem lerp_lerp_left (a b : V3 K) (s t : K) : lerp a (lerp a b s) t = lerp a b (t * s) := by
  simp only [lerp, V3.mk.injEq]
  refine ⟨?_, ?_, ?_⟩ <;> ring

theorem lerp_swap (a b : V3 K) (s t : K) : lerp b (lerp a b s) t = lerp a b (1 - t * (1 - s)) := by
  simp only [lerp, V3.mk.injEq]
  refine ⟨?_, ?_, ?_⟩ <;> ring

theorem onPolyline_pair (a b : V3 K) (h : K) (p : V3 K) :
    OnPolyline [a, b] h p ↔ 0 ≤ h ∧ h ≤ 1 ∧ p = lerp a b h := by
  constructor
  · rintro ⟨i, x, y, t, hx, hy, t0, t1, rfl, rfl⟩
    cases i with
    | zero =>
      simp at hx hy
      subst hx; subst hy
      simp [t0, t1]
    | succ i => simp at hy
  · rintro ⟨h0, h1, rfl⟩
    exact ⟨0, a, b, h, rfl, rfl, h0, h1, by simp, rfl⟩

/-- C13, geometric form for a straight line of sight (two vertices, in DTM index coordinates): if both
ends are outside the box, the first one on no face plane, and some point between them is inside the box,
then an entry is reported, and it is the first point of the segment in the box. -/
theorem C13_straight_line_through_box (impl : Impl) (d : Dtm K) (a b : V3 K) (s : K) (s0 : 0 ≤ s) (s1 : s ≤ 1)
    (hoff : FirstOffPlanes d [a, b])
    (ha : ¬ InBox d.nbRows d.nbCols d.altMin d.altMax a)
    (hb : ¬ InBox d.nbRows d.nbCols d.altMin d.altMax b)
    (hs : InsideBox d.nbRows d.nbCols d.altMin d.altMax (lerp a b s)) :
    ∃ c, cubeOfIndex impl d [a, b] = .ok (some c) ∧ 0 < c.h ∧ c.h < s ∧ c.p = lerp a b c.h ∧
      InBox d.nbRows d.nbCols d.altMin d.altMax c.p ∧
      ∀ t, 0 ≤ t → t < c.h → ¬ InBox d.nbRows d.nbCols d.altMin d.altMax (lerp a b t) := by
  have hin := fun k => (insideBox_iff d (lerp a b s)).mp hs k
  obtain ⟨k1, u, u0, u1, hk1, hz1, hin1⟩ := reach_box d a _ ha hs
  obtain ⟨k2, w, w0, w1, hk2, hz2, hin2⟩ := reach_box d b _ hb hs
  rw [lerp_lerp_left] at hz1 hin1
  rw [lerp_swap] at hz2 hin2
  have spos : 0 < s := by
    rcases eq_or_lt_of_le s0 with h | h
    · exfalso; apply ha; rw [← h, lerp_zero] at hs
      rw [inBox_iff]; rw [insideBox_iff] at hs; exact fun k => (hs k).le
    · exact h
  have slt : s < 1 := by
    rcases eq_or_lt_of_le s1 with h | h
    · exfalso; apply hb; rw [h, lerp_one] at hs
      rw [inBox_iff]; rw [insideBox_iff] at hs; exact fun k => (hs k).le
    · exact h
  have e1 : 0 < u * s := mul_pos u0 spos
  have e2 : u * s < s := by nlinarith
  have w2 : s < 1 - w * (1 - s) := by nlinarith
  have w3 : 1 - w * (1 - s) < 1 := by nlinarith
  -- the plane of entry is met once
  have slope : ∀ k t, inward d k a ≠ 0 → inward d k (lerp a b t) = 0 → ∀ t', inward d k (lerp a b t') = 0 → t' = t := by
    intro k t hne h t' h'
    rw [inward_lerp] at h h'
    have : (t' - t) * (inward d k b - inward d k a) = 0 := by linear_combination h' - h
    rcases mul_eq_zero.mp this with e | e
    · linarith
    · rw [e] at h; simp at h; exact absurd h hne
  have hane : ∀ k, inward d k a ≠ 0 := fun k h => hoff a rfl k ((inward_zero_iff d k a).mp h)
  have first : ∀ k t, 0 ≤ t → t ≤ 1 → inward d k (lerp a b t) = 0 →
      FirstCrossing d.nbRows d.nbCols d.altMin d.altMax k [a, b] t (lerp a b t) := by
    intro k t t0 t1 h
    refine ⟨(onPolyline_pair a b t _).mpr ⟨t0, t1, rfl⟩, (inward_zero_iff d k _).mp h, ?_⟩
    intro h' p' hp hk
    obtain ⟨_, _, rfl⟩ := (onPolyline_pair a b h' p').mp hp
    exact (slope k t (hane k) h h' ((inward_zero_iff d k _).mpr hk)).ge
  have hne : k1 ≠ k2 := by
    rintro rfl
    have h1 := hin k1
    rw [inward_lerp] at h1
    nlinarith
  obtain ⟨cs, hcs⟩ := faceHits_ok impl d _ [0, 1, 2, 3, 4, 5]
    (fun k _ => faceHit_ok_of_off impl d k _ hoff)
  obtain ⟨q1, q2, _⟩ := cubeOfIndex_spec impl d _ cs hcs
  obtain ⟨f1, _⟩ := faceHits_two impl d _ (fun c => onCube d c.p) _ cs hcs (by decide)
  have hit1 := first_faceHit impl d k1 _ hoff _ _ (first k1 (u * s) e1.le (by linarith) hz1)
  have hit2 := first_faceHit impl d k2 _ hoff _ _ (first k2 _ (by linarith) (by linarith) hz2)
  obtain ⟨c, hc⟩ := q2.mpr (f1 k1 k2 _ _ (mem_six k1) (mem_six k2) hne hit1 hit2
    ((onCube_iff d _).mpr hin1) ((onCube_iff d _).mpr hin2))
  obtain ⟨hm, hbx, hmin⟩ := q1 c hc
  have hc1 : c.h ≤ u * s := hmin _ ((mem_faceHits impl d _ _ cs hcs _).mpr ⟨k1, mem_six k1, hit1⟩)
    ((onCube_iff d _).mpr hin1)
  obtain ⟨k, _, hk⟩ := (mem_faceHits impl d _ _ cs hcs c).mp hm
  have hf := faceHit_iff_first impl d k _ hoff c hk
  obtain ⟨hh0, hh1, hp⟩ := (onPolyline_pair a b c.h c.p).mp hf.1
  have hbx' := (onCube_iff d _).mp hbx
  -- before `u * s` the line is outside through `k1`
  have before : ∀ t, t < u * s → ¬ InBox d.nbRows d.nbCols d.altMin d.altMax (lerp a b t) := by
    intro t ht hbox
    have h1 := (inBox_iff d _).mp hbox k1
    rw [inward_lerp] at h1 hz1
    have hpos : 0 < inward d k1 b - inward d k1 a := by
      by_contra hc
      have := mul_nonpos_of_nonneg_of_nonpos e1.le (not_lt.mp hc)
      linarith
    have := mul_lt_mul_of_pos_right ht hpos
    linarith
  have hceq : c.h = u * s := by
    refine le_antisymm hc1 (not_lt.mp fun h => before c.h h ?_)
    rw [← hp]; exact hbx'
  refine ⟨c, hc, by rw [hceq]; exact e1, by rw [hceq]; exact e2, hp, hbx', ?_⟩
  intro t _ ht
  exact before t (by rw [← hceq]; exact ht)

/-- Test DTM: a 3x3 hill of altitudes 0..10. -/
def coneDtm : Dtm ℚ := ⟨fun i j => if i = 1 ∧ j = 1 then 10 else i + j, 3, 3, ⟨2, 0, 100, 0, -2, 50⟩⟩

/-- Non-vacuity of C12/C13: an oblique line from above the box to below it. -/
example : ∃ c li, intersectDtmCube .py coneDtm
    [⟨102, 47, 20⟩, ⟨104, 45, -10⟩] = .ok (some c, li) ∧ c.h = 1 / 3 ∧ c.p = ⟨1 + 1 / 3, 5 / 6, 10⟩ := by
  refine ⟨⟨⟨1 + 1 / 3, 5 / 6, 10⟩, 1 / 3⟩, [⟨1, 1 / 2, 20⟩, ⟨2, 3 / 2, -10⟩], ?_, rfl, rfl⟩
  decide +kernel

/-- Non-vacuity of the geometric form. -/
example : ∃ c, cubeOfIndex .cpp coneDtm [⟨-1, 1 / 2, 20⟩, ⟨3, 3 / 2, -10⟩] = .ok (some c) ∧ 0 < c.h := by
  obtain ⟨c, h1, h2, _⟩ := C13_straight_line_through_box .cpp coneDtm ⟨-1, 1 / 2, 20⟩ ⟨3, 3 / 2, -10⟩ (1 / 2)
    (by norm_num) (by norm_num)
    (by
      intro v hv k
      simp only [List.head?_cons, Option.some.injEq] at hv
      subst hv
      rw [← eqPlan_zero_iff]
      revert k
      decide +kernel)
    (by
      have e1 : coneDtm.altMin = 0 := by decide +kernel
      have e2 : coneDtm.altMax = 10 := by decide +kernel
      rw [e1, e2]
      rintro ⟨h, _⟩
      norm_num at h)
    (by
      rintro ⟨_, h, _⟩
      norm_num [coneDtm] at h)
    (by
      have e1 : coneDtm.altMin = 0 := by decide +kernel
      have e2 : coneDtm.altMax = 10 := by decide +kernel
      rw [e1, e2]
      simp only [InsideBox, lerp, coneDtm]
      norm_num)
  exact ⟨c, h1, h2⟩

/-- C12, finding: when the first vertex is exactly on a face plane (here the top face) the Python code
reports the parameter -1, which is the parameter of no point of the line, and the C++ code throws. -/
theorem C12_first_vertex_on_face :
    cubeOfIndex .py coneDtm [⟨1, 1 / 2, 10⟩, ⟨2, 3 / 2, -10⟩] = .ok (some ⟨⟨1, 1 / 2, 10⟩, -1⟩) ∧
    cubeOfIndex .cpp coneDtm [⟨1, 1 / 2, 10⟩, ⟨2, 3 / 2, -10⟩] = .error .tooManySolutions ∧
    ¬ OnPolyline [⟨1, 1 / 2, 10⟩, ⟨2, 3 / 2, -10⟩] (-1 : ℚ) ⟨1, 1 / 2, 10⟩ := by
  refine ⟨by decide +kernel, by decide +kernel, ?_⟩
  rw [onPolyline_pair]
  rintro ⟨h, _⟩
  norm_num at h

/-- C13, finding: a line of sight that enters the box and stops inside it is not found (only one face
is crossed), although it goes through the interior. -/
theorem C13_line_ending_inside_not_found :
    cubeOfIndex .py coneDtm [⟨1, 1 / 2, 20⟩, ⟨1, 3 / 2, 1⟩] = .ok none ∧
    cubeOfIndex .cpp coneDtm [⟨1, 1 / 2, 20⟩, ⟨1, 3 / 2, 1⟩] = .ok none ∧
    InsideBox coneDtm.nbRows coneDtm.nbCols (0 : ℚ) 10 ⟨1, 3 / 2, 1⟩ := by
  refine ⟨by decide +kernel, by decide +kernel, ?_⟩
  simp only [InsideBox, coneDtm]; norm_num

end Shareloc
