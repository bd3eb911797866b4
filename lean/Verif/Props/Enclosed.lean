import Verif.Props.DirectDtm

/-!
Lines of sight of several segments (as those of the multi altitude grids), one of which contains the whole altitude range of
the DTM: the intersection is that of this segment.
-/

namespace Shareloc
open Spec
set_option linter.unusedSectionVars false

variable {K : Type*} [Field K] [LinearOrder K] [IsStrictOrderedRing K] [FloorRing K]

theorem interpolate_ge (d : Dtm K) (hr : 2 ≤ d.nbRows) (hc : 2 ≤ d.nbCols) (p : V3 K) (h : InFootprint d.nbRows d.nbCols p) :
    d.altMin ≤ d.interpolate p.x p.y :=
  ((C11_global_bounds d hr hc).2.2.2 p.x p.y h.1 h.2.1 h.2.2.1 h.2.2.2).1

/-- The cell loop does not go past the end of a segment that ends below the DTM. -/
theorem marchCells_stays (d : Dtm K) (hr : 2 ≤ d.nbRows) (hc : 2 ≤ d.nbCols) (N : ℕ) (v0 v1 : V3 K)
    (hdir : v1.x - v0.x ≠ 0 ∨ v1.y - v0.y ≠ 0) (hz : v1.z < v0.z) (hlow : v1.z < d.altMin) :
    ∀ (n : ℕ) (s : March K) (α : K), CellInv v0 (segDir v0 v1) s α → s.p2 = Spec.lerp v0 v1 α → s.a2 = α → α < 1 →
      0 ≤ height d.interpolate v0 v1 α → ∀ s', marchCells d N v0 v1 n s = .inr s' → s'.a2 < 1 := by
  intro n
  induction n with
  | zero => intro s α _ _ _ _ _ s' h; simp [marchCells] at h
  | succ n ih =>
    intro s α hinv hp ha hα hd s1 h
    rw [marchCells_succ] at h
    have st := cellExit_spec v0 (segDir v0 v1) s α hinv hdir
    set s' := cellExit v0 (segDir v0 v1) s with hs'
    split_ifs at h with h1 h2
    · obtain ⟨-, hcell⟩ := (marchInside_iff d s).mp h1
      have hin0 : InCell s.colC s.rowC (Spec.lerp v0 v1 α).x (Spec.lerp v0 v1 α).y := by rw [← hp]; exact hinv.inCell
      have hin1 : InCell s.colC s.rowC (Spec.lerp v0 v1 s'.a2).x (Spec.lerp v0 v1 s'.a2).y := by rw [← st.p2_eq]; exact st.inCell
      have below : ∀ t, 1 ≤ t → t ≤ s'.a2 → height d.interpolate v0 v1 t < 0 := by
        intro t t1 t2
        have hf := inCell_footprint hcell (inCell_between v0 v1 _ _ (hα.le.trans t1) t2 hin0 hin1)
        have hi := interpolate_ge d hr hc _ hf
        have : (Spec.lerp v0 v1 t).z ≤ v1.z := by
          simp only [Spec.lerp]
          nlinarith
        simp only [height]
        linarith
      have hnot1 : s'.a2 < 1 := by
        by_contra hcon
        have hcon := not_lt.mp hcon
        by_cases hb : bIntersect v0.z v1.z (altMinCellPy d.alt s.colC s.rowC)
            (altMaxCellPy d.alt s.colC s.rowC) s.p2.z s'.p2.z = true
        · apply h2
          refine ⟨hb, ?_⟩
          rw [hp, st.p2_eq]
          exact mul_nonpos_of_nonneg_of_nonpos hd (below _ hcon le_rfl).le
        · have := height_pos_of_skip d v0 v1 s s' α hcell hinv st hp hd (by simpa using hb) 1 hα.le hcon le_rfl
          have := below 1 le_rfl hcon
          linarith
      refine ih s' s'.a2 st.inv st.p2_eq rfl hnot1 ?_ s1 h
      by_cases hb : bIntersect v0.z v1.z (altMinCellPy d.alt s.colC s.rowC)
          (altMaxCellPy d.alt s.colC s.rowC) s.p2.z s'.p2.z = true
      · have hprod : ¬ height d.interpolate v0 v1 α * height d.interpolate v0 v1 s'.a2 ≤ 0 := by
          intro hc
          apply h2
          refine ⟨hb, ?_⟩
          rw [hp, st.p2_eq]
          exact hc
        by_contra hc
        exact hprod (mul_nonpos_of_nonneg_of_nonpos hd (not_le.mp hc).le)
      · exact (height_pos_of_skip d v0 v1 s s' α hcell hinv st hp hd (by simpa using hb) s'.a2 st.lt.le
          (le_refl _) hnot1.le).le
    · injection h with h
      rw [← h, ha]
      exact hα

/-- The intersection from an entry point on a segment that ends below the DTM is that of the segment alone. -/
theorem intersectionIdx_enclosed (d : Dtm K) (hr : 2 ≤ d.nbRows) (hc : 2 ≤ d.nbCols) (N : ℕ) (los : List (V3 K)) (k : ℕ)
    (a b : V3 K) (ha : los[k]? = some a) (hb : los[k + 1]? = some b) (hz : b.z < a.z) (hlow : b.z < d.altMin) (t : K) (t0 : 0 ≤ t)
    (t1 : t < 1) (hf : InFootprint d.nbRows d.nbCols (Spec.lerp a b t)) :
    intersectionIdx .py d N los (Spec.lerp a b t) ((k : K) + t) = intersectionIdx .py d N [a, b] (Spec.lerp a b t) t := by
  rw [intersectionIdx_pair .py d N a b _ t t0 t1]
  unfold intersectionIdx
  have hfl : ⌊(k : K) + t⌋ = (k : ℤ) := by
    rw [Int.floor_eq_iff]; push_cast; constructor <;> linarith
  have hlen : k + 1 < los.length := (List.getElem?_eq_some_iff.1 hb).1
  rw [hfl]
  split_ifs with c0 cv cz
  · rfl
  · rw [marchPlanes_succ, if_pos (by omega), pyGet_nat los k a ha, show ((k : ℤ) + 1) = ((k + 1 : ℕ) : ℤ) by push_cast; ring,
      pyGet_nat los (k + 1) b hb, if_pos cv, if_pos cz]
  · exfalso
    apply cz
    have hx : (Spec.lerp a b t).x = a.x := by simp only [Spec.lerp]; rw [cv.1]; ring
    have hy : (Spec.lerp a b t).y = a.y := by simp only [Spec.lerp]; rw [cv.2]; ring
    have := interpolate_ge d hr hc _ hf
    rw [hx, hy] at this
    linarith
  · have hdir : b.x - a.x ≠ 0 ∨ b.y - a.y ≠ 0 := by
      by_contra hcon
      push Not at hcon
      exact cv hcon
    have e2 : (if (k : K) + t - ((k : ℤ) : K) ≥ 1 then 0 else (k : K) + t - ((k : ℤ) : K)) = t := by
      have e3 : (k : K) + t - ((k : ℤ) : K) = t := by push_cast; ring
      rw [e3, if_neg (not_le.mpr t1)]
    rw [marchPlanes_succ, if_pos (by omega), pyGet_nat los k a ha, show ((k : ℤ) + 1) = ((k + 1 : ℕ) : ℤ) by push_cast; ring,
      pyGet_nat los (k + 1) b hb, if_neg cv, e2]
    split_ifs with hin
    · cases hm : marchCells d N a b (cellFuel d)
        ⟨Spec.lerp a b t, startCell .py (Spec.lerp a b t).x (b.x - a.x), startCell .py (Spec.lerp a b t).y (b.y - a.y), t⟩ with
      | inl o => rfl
      | inr s' =>
        have := marchCells_stays d hr hc N a b hdir hz hlow _ _ t (start_inv a b (Spec.lerp a b t) t t rfl rfl) rfl rfl t1
          (not_lt.mp c0) s' hm
        dsimp only
        rw [if_neg (not_le.mpr this)]
    · have : cellFuel d = (d.nbRows * d.nbCols + d.nbRows + d.nbCols) + 1 := rfl
      rw [this, marchCells_succ, if_neg hin]

/-- Specification: the altitude strictly decreases along the line of sight, and its segment `k`, from `a` to `b`, contains the
altitudes of the DTM. -/
structure Encloses (d : Dtm K) (los : List (V3 K)) (k : ℕ) (a b : V3 K) : Prop where
  down : los.Pairwise fun p q => q.z < p.z
  first : los[k]? = some a
  last : los[k + 1]? = some b
  above : d.altMax < a.z
  below : b.z < d.altMin

theorem Encloses.index {d : Dtm K} {los : List (V3 K)} {k : ℕ} {a b : V3 K} (he : Encloses d los k a b) (t : Affine K) :
    Encloses d (los.map (terToIndexPy t)) k (terToIndexPy t a) (terToIndexPy t b) := by
  refine ⟨?_, by rw [List.getElem?_map, he.first]; rfl, by rw [List.getElem?_map, he.last]; rfl, he.above, he.below⟩
  rw [List.pairwise_map]
  exact he.down

theorem Encloses.lt {d : Dtm K} {los : List (V3 K)} {k : ℕ} {a b : V3 K} (he : Encloses d los k a b) : b.z < a.z := by
  obtain ⟨hk, e1⟩ := List.getElem?_eq_some_iff.1 he.first
  obtain ⟨hk', e2⟩ := List.getElem?_eq_some_iff.1 he.last
  have := List.pairwise_iff_getElem.1 he.down k (k + 1) hk hk' (by omega)
  rwa [e1, e2] at this

/-- The vertices before the segment are above the DTM, those after are below. -/
theorem Encloses.sides {d : Dtm K} {los : List (V3 K)} {k : ℕ} {a b : V3 K} (he : Encloses d los k a b) (i : ℕ) (v : V3 K)
    (hv : los[i]? = some v) : (i ≤ k → d.altMax < v.z) ∧ (k < i → v.z < d.altMin) := by
  obtain ⟨hk, e1⟩ := List.getElem?_eq_some_iff.1 he.first
  obtain ⟨hk', e2⟩ := List.getElem?_eq_some_iff.1 he.last
  obtain ⟨hi, e3⟩ := List.getElem?_eq_some_iff.1 hv
  constructor
  · intro h
    rcases eq_or_lt_of_le h with rfl | h
    · rw [← e3, e1]; exact he.above
    · have := List.pairwise_iff_getElem.1 he.down i k hi hk h
      rw [e1, e3] at this
      exact he.above.trans this
  · intro h
    rcases eq_or_lt_of_le (Nat.succ_le_of_lt h) with h | h
    · subst h
      rw [← e3, e2]; exact he.below
    · have := List.pairwise_iff_getElem.1 he.down (k + 1) i hk' hi h
      rw [e2, e3] at this
      exact this.trans he.below

/-- A point of the line between the altitudes of the DTM is on the enclosing segment. -/
theorem Encloses.point {d : Dtm K} {los : List (V3 K)} {k : ℕ} {a b : V3 K} (he : Encloses d los k a b) (h : K) (p : V3 K)
    (hon : OnPolyline los h p) (hlo : d.altMin ≤ p.z) (hhi : p.z ≤ d.altMax) :
    ∃ t, 0 ≤ t ∧ t < 1 ∧ h = k + t ∧ p = Spec.lerp a b t := by
  obtain ⟨i, x, y, t, hx, hy, t0, t1, hh, hp⟩ := hon
  have hs := he.sides i x hx
  have hs' := he.sides (i + 1) y hy
  have hpz : p.z = x.z + t * (y.z - x.z) := by rw [hp]; rfl
  have hik : i = k := by
    rcases lt_trichotomy i k with h | h | h
    · exfalso
      have h1 := hs.1 h.le
      have h2 := hs'.1 h
      have e : p.z - d.altMax = (1 - t) * (x.z - d.altMax) + t * (y.z - d.altMax) := by rw [hpz]; ring
      rcases eq_or_lt_of_le t1 with rfl | ht
      · rw [sub_self, zero_mul, zero_add, one_mul] at e; linarith
      · have := mul_pos (sub_pos.2 ht) (sub_pos.2 h1)
        have := mul_nonneg t0 (sub_pos.2 h2).le
        linarith
    · exact h
    · exfalso
      have h1 := hs.2 h
      have h2 := hs'.2 (by omega)
      have e : d.altMin - p.z = (1 - t) * (d.altMin - x.z) + t * (d.altMin - y.z) := by rw [hpz]; ring
      rcases eq_or_lt_of_le t1 with rfl | ht
      · rw [sub_self, zero_mul, zero_add, one_mul] at e; linarith
      · have := mul_pos (sub_pos.2 ht) (sub_pos.2 h1)
        have := mul_nonneg t0 (sub_pos.2 h2).le
        linarith
  subst hik
  rw [he.first] at hx
  rw [he.last] at hy
  injection hx with hx
  injection hy with hy
  subst hx hy
  refine ⟨t, t0, ?_, hh, hp⟩
  rcases eq_or_lt_of_le t1 with rfl | h
  · exfalso
    have := he.below
    rw [one_mul] at hpz
    linarith
  · exact h

theorem Encloses.entry {d : Dtm K} {los : List (V3 K)} {k : ℕ} {a b : V3 K} (he : Encloses d los k a b) (c : Crossing K)
    (h : cubeOfIndex .py d los = .ok (some c)) :
    InBox d.nbRows d.nbCols d.altMin d.altMax c.p ∧ ∃ t, 0 ≤ t ∧ t < 1 ∧ c.h = k + t ∧ c.p = Spec.lerp a b t := by
  obtain ⟨hbox, hon⟩ := cubeOfIndex_entry .py d los c h
  refine ⟨hbox, ?_⟩
  rcases hon with hon | ⟨-, -, hhead, -⟩
  · exact he.point c.h c.p hon hbox.2.2.2.2.1 hbox.2.2.2.2.2
  · exfalso
    rw [List.head?_eq_getElem?] at hhead
    have := (he.sides 0 _ hhead).1 (Nat.zero_le _)
    have := hbox.2.2.2.2.2
    linarith

/-- C14 for a line of sight of several segments one of which contains the altitudes of the DTM, with the tolerance to spare: what is
answered is NaN, an exception, (0, 0, 0), or a point of that segment, in the footprint and on the terrain to a tenth of a
millimetre. -/
theorem C14_enclosing_segment (d : Dtm K) (hr : 2 ≤ d.nbRows) (hc : 2 ≤ d.nbCols)
    (hdet : d.transform.a * d.transform.e - d.transform.b * d.transform.d ≠ 0) (N : ℕ) (los : List (V3 K)) (k : ℕ) (A B : V3 K)
    (he : Encloses d los k A B) (hB : B.z ≤ d.altMin - 1 / 10000) :
    losDtm .py d N los = .nan ∨ losDtm .py d N los = .failure ∨ losDtm .py d N los = .point ⟨0, 0, 0⟩ ∨
    ∃ t, 0 ≤ t ∧ t ≤ 1 ∧ losDtm .py d N los = .point (Spec.lerp A B t) ∧
      InFootprint d.nbRows d.nbCols (terToIndexPy d.transform (Spec.lerp A B t)) ∧
      |d.interpolate (terToIndexPy d.transform (Spec.lerp A B t)).x (terToIndexPy d.transform (Spec.lerp A B t)).y
        - (Spec.lerp A B t).z| ≤ 1 / 10000 := by
  have hi := he.index d.transform
  unfold losDtm intersectDtmCube
  simp only [show tersToIndexsPy d.transform los = los.map (terToIndexPy d.transform) from rfl]
  cases hcube : cubeOfIndex .py d (los.map (terToIndexPy d.transform)) with
  | error e => right; left; rfl
  | ok o =>
    cases o with
    | none => left; rfl
    | some c =>
      simp only
      obtain ⟨hbox, t, t0, t1, hh, hp⟩ := hi.entry c hcube
      rw [hp] at hbox
      have hfoot : InFootprint d.nbRows d.nbCols (Spec.lerp (terToIndexPy d.transform A) (terToIndexPy d.transform B) t) :=
        ⟨hbox.1, hbox.2.1, hbox.2.2.1, hbox.2.2.2.1⟩
      rw [hp, hh, intersectionIdx_enclosed d hr hc N _ k _ _ hi.first hi.last hi.lt hi.below t t0 t1 hfoot]
      cases hx : intersectionIdx .py d N [terToIndexPy d.transform A, terToIndexPy d.transform B]
          (Spec.lerp (terToIndexPy d.transform A) (terToIndexPy d.transform B) t) t with
      | notFound => right; right; left; rfl
      | nonFinite => right; left; rfl
      | falsiFuel => right; left; rfl
      | marchFuel => right; left; rfl
      | found p =>
        right; right; right
        obtain ⟨u, hu, hpt, hfp, htol, hu1⟩ := C14_straight_line d hr hc N _ _ t t0 t1.le hfoot p hx
        have hpi : p = terToIndexPy d.transform (Spec.lerp A B u) := by rw [hpt, terToIndex_lerp]
        refine ⟨u, t0.trans hu, hu1 hi.lt hB, ?_, ?_, ?_⟩
        · simp only
          rw [hpi, C02_py_index_to_ter_ter_to_index d.transform hdet]
        · rw [← hpi]; exact hfp
        · rw [← hpi]
          have : (Spec.lerp A B u).z = p.z := by rw [hpi]; rfl
          rw [this]; exact htol

/-- Crossing of a horizontal face by the enclosing segment. -/
theorem Encloses.horizontal_hit {d : Dtm K} {los : List (V3 K)} {k : ℕ} {a b : V3 K} (he : Encloses d los k a b)
    (hmm : d.altMin ≤ d.altMax) (f : Fin 6) (hf : f = 4 ∨ f = 5) (τ : K) (τ0 : 0 ≤ τ) (τ1 : τ ≤ 1)
    (hz : eqPlan d f (Spec.lerp a b τ) = 0) : faceHit .py d f los = .ok (some ⟨Spec.lerp a b τ, (k : K) + τ⟩) := by
  have hrange : ∀ p : V3 K, eqPlan d f p = 0 → d.altMin ≤ p.z ∧ p.z ≤ d.altMax := by
    intro p hp
    rcases hf with rfl | rfl
    · simp only [eqPlan, planeD] at hp; constructor <;> linarith
    · simp only [eqPlan, planeD] at hp; constructor <;> linarith
  have hsame : ∀ p q : V3 K, eqPlan d f p = 0 → eqPlan d f q = 0 → p.z = q.z := by
    intro p q h1 h2
    rcases hf with rfl | rfl <;> simp only [eqPlan] at h1 h2 <;> linarith
  cases los with
  | nil => have := he.first; simp at this
  | cons v rest =>
    have hv : eqPlan d f v ≠ 0 := by
      intro h
      have h1 := (he.sides 0 v rfl).1 (Nat.zero_le _)
      have h2 := (hrange v h).2
      linarith
    have hon : OnPolyline (v :: rest) ((k : K) + τ) (Spec.lerp a b τ) := ⟨k, a, b, τ, he.first, he.last, τ0, τ1, rfl, rfl⟩
    rcases faceHit_spec .py d f v rest hv with ⟨_, h2⟩ | ⟨c, h1, h2, h3, _⟩
    · exact absurd hz (h2 _ _ hon)
    · obtain ⟨hl, hh⟩ := hrange _ h3
      obtain ⟨u, u0, u1, hu, hpu⟩ := he.point c.h c.p h2 hl hh
      have hzz := hsame _ _ h3 hz
      rw [hpu] at hzz
      simp only [Spec.lerp] at hzz
      have : (u - τ) * (b.z - a.z) = 0 := by linear_combination hzz
      rcases mul_eq_zero.mp this with e | e
      · have e : u = τ := by linarith
        rw [h1]
        congr 2
        cases c
        simp only at hu hpu
        rw [hu, hpu, e]
      · have := he.lt
        linarith

theorem Encloses.downward_entry {d : Dtm K} (hr : 2 ≤ d.nbRows) (hc : 2 ≤ d.nbCols) {los : List (V3 K)} {k : ℕ} {a b : V3 K}
    (he : Encloses d los k a b) (top bot : K) (t0 : 0 ≤ top) (htop : (Spec.lerp a b top).z = d.altMax) (t1 : bot ≤ 1)
    (hbot : (Spec.lerp a b bot).z = d.altMin) (htb : top ≤ bot)
    (ftop : InFootprint d.nbRows d.nbCols (Spec.lerp a b top)) (fbot : InFootprint d.nbRows d.nbCols (Spec.lerp a b bot)) :
    cubeOfIndex .py d los = .ok (some ⟨Spec.lerp a b top, (k : K) + top⟩) := by
  have hmm := altMin_le_altMax d hr hc
  have z5 : eqPlan d 5 (Spec.lerp a b top) = 0 := by simp only [eqPlan, planeD]; linarith
  have z4 : eqPlan d 4 (Spec.lerp a b bot) = 0 := by simp only [eqPlan, planeD]; linarith
  have hit5 := he.horizontal_hit hmm 5 (.inr rfl) top t0 (htb.trans t1) z5
  have hit4 := he.horizontal_hit hmm 4 (.inl rfl) bot (t0.trans htb) t1 z4
  have b5 : InBox d.nbRows d.nbCols d.altMin d.altMax (Spec.lerp a b top) :=
    ⟨ftop.1, ftop.2.1, ftop.2.2.1, ftop.2.2.2, by rw [htop]; exact hmm, by rw [htop]⟩
  have b4 : InBox d.nbRows d.nbCols d.altMin d.altMax (Spec.lerp a b bot) :=
    ⟨fbot.1, fbot.2.1, fbot.2.2.1, fbot.2.2.2, by rw [hbot], by rw [hbot]; exact hmm⟩
  obtain ⟨cs, hcs⟩ := faceHits_ok .py d los [0, 1, 2, 3, 4, 5] (fun k _ => faceHit_py_ok d k _)
  obtain ⟨q1, q2, _⟩ := cubeOfIndex_spec .py d _ cs hcs
  obtain ⟨f1, _⟩ := faceHits_two .py d _ (fun c => onCube d c.p) _ cs hcs (by decide)
  obtain ⟨c, hcc⟩ := q2.mpr (f1 4 5 _ _ (mem_six 4) (mem_six 5) (by decide) hit4 hit5
    ((onCube_iff d _).mpr b4) ((onCube_iff d _).mpr b5))
  obtain ⟨_, _, hmin⟩ := q1 c hcc
  have hle : c.h ≤ (k : K) + top := hmin _ ((mem_faceHits .py d _ _ cs hcs _).mpr ⟨5, mem_six 5, hit5⟩)
    ((onCube_iff d _).mpr b5)
  obtain ⟨hbox, u, u0, u1, hu, hpu⟩ := he.entry c hcc
  have hz : c.p.z ≤ d.altMax := hbox.2.2.2.2.2
  rw [hpu] at hz
  have : u = top := by
    refine le_antisymm (by linarith) ?_
    by_contra hlt
    have := mul_lt_mul_of_neg_right (not_le.mp hlt) (sub_neg.mpr he.lt)
    simp only [Spec.lerp] at hz htop
    linarith
  rw [hcc]
  congr 2
  cases c
  simp only at hu hpu
  rw [hu, hpu, this]

/-- C16 for a line of sight of several segments: if the segment from `A` to `B` contains the altitudes of the DTM and is in its
footprint at its extreme altitudes, the answer is that of the segment alone. -/
theorem C16_enclosing_segment (d : Dtm K) (hr : 2 ≤ d.nbRows) (hc : 2 ≤ d.nbCols) (N : ℕ) (los : List (V3 K)) (k : ℕ) (A B : V3 K)
    (he : Encloses d los k A B) (top bot : K) (t0 : 0 ≤ top) (t1 : bot ≤ 1)
    (htop : (Spec.lerp A B top).z = d.altMax) (hbot : (Spec.lerp A B bot).z = d.altMin)
    (ftop : InFootprint d.nbRows d.nbCols (terToIndexPy d.transform (Spec.lerp A B top)))
    (fbot : InFootprint d.nbRows d.nbCols (terToIndexPy d.transform (Spec.lerp A B bot))) :
    losDtm .py d N los = losDtm .py d N [A, B] := by
  have hi := he.index d.transform
  rw [terToIndex_lerp] at ftop fbot
  have htb : top ≤ bot := by
    by_contra hcon
    have := mul_lt_mul_of_neg_right (not_le.mp hcon) (sub_neg.mpr he.lt)
    have := altMin_le_altMax d hr hc
    simp only [Spec.lerp] at htop hbot
    linarith
  have hb1 : bot < 1 := by
    rcases eq_or_lt_of_le t1 with rfl | h
    · exfalso
      have := he.below
      simp only [Spec.lerp] at hbot
      linarith
    · exact h
  unfold losDtm intersectDtmCube
  simp only [show tersToIndexsPy d.transform los = los.map (terToIndexPy d.transform) from rfl,
    show tersToIndexsPy d.transform [A, B] = [terToIndexPy d.transform A, terToIndexPy d.transform B] from rfl,
    hi.downward_entry hr hc top bot t0 htop t1 hbot htb ftop fbot,
    Shareloc.downward_entry d hr hc (terToIndexPy d.transform A) (terToIndexPy d.transform B) top bot hi.above t0 htop t1 hbot htb ftop fbot]
  rw [intersectionIdx_enclosed d hr hc N _ k _ _ hi.first hi.last hi.lt hi.below top t0 (lt_of_le_of_lt htb hb1) ftop]

end Shareloc
