import Verif.Model.DtmNan
import Verif.Props.March
import Verif.Props.DtmRange

set_option linter.unusedSectionVars false
/-! C100: DTM of which some cells have no altitude. -/

namespace Shareloc
open Spec
variable {K : Type*} [Field K] [LinearOrder K] [IsStrictOrderedRing K] [FloorRing K]

/-! ### Extreme altitudes -/

theorem NanDtm.mem_values (d : NanDtm K) (o : Option K) :
    o ∈ d.values ↔ ∃ i j : ℤ, IsNode d.nbRows d.nbCols i j ∧ o = d.alt i j := by
  simp only [NanDtm.values, List.mem_flatMap, List.mem_range, List.mem_map, IsNode]
  constructor
  · rintro ⟨i, hi, j, hj, rfl⟩
    exact ⟨i, j, ⟨by omega, by omega, by omega, by omega⟩, rfl⟩
  · rintro ⟨i, j, ⟨h1, h2, h3, h4⟩, rfl⟩
    refine ⟨i.toNat, by omega, j.toNat, by omega, ?_⟩
    rw [Int.toNat_of_nonneg h1, Int.toNat_of_nonneg h3]

theorem NanDtm.values_cons (d : NanDtm K) (hr : 0 < d.nbRows) (hc : 0 < d.nbCols) : ∃ l, d.values = d.alt 0 0 :: l := by
  obtain ⟨m, hm⟩ : ∃ m, d.nbRows = m + 1 := ⟨d.nbRows - 1, by omega⟩
  obtain ⟨n, hn⟩ : ∃ n, d.nbCols = n + 1 := ⟨d.nbCols - 1, by omega⟩
  unfold NanDtm.values
  rw [hm, hn, List.range_succ_eq_map, List.range_succ_eq_map]
  exact ⟨_, rfl⟩

theorem foldl_minElement_none (l : List (Option K)) :
    l.foldl (fun m x => if nanLt x m then x else m) none = none := by
  induction l with
  | nil => rfl
  | cons a l ih =>
    rw [List.foldl_cons]
    have : nanLt a none = false := by cases a <;> rfl
    rw [this]; exact ih

theorem foldl_maxElement_none (l : List (Option K)) :
    l.foldl (fun m x => if nanLt m x then x else m) none = none := by
  induction l with
  | nil => rfl
  | cons a l ih =>
    rw [List.foldl_cons]
    have : nanLt none a = false := by cases a <;> rfl
    rw [this]; exact ih

theorem foldl_minElement (l : List (Option K)) : ∀ a : K, ∃ m, l.foldl (fun m x => if nanLt x m then x else m) (some a) = some m ∧
    m ≤ a ∧ (∀ z, some z ∈ l → m ≤ z) ∧ (m = a ∨ some m ∈ l) := by
  induction l with
  | nil => intro a; exact ⟨a, rfl, le_rfl, by simp, .inl rfl⟩
  | cons o l ih =>
    intro a
    rw [List.foldl_cons]
    cases o with
    | none =>
      obtain ⟨m, h1, h2, h3, h4⟩ := ih a
      refine ⟨m, by simpa [nanLt] using h1, h2, ?_, ?_⟩
      · intro z hz; exact h3 z (by simpa using hz)
      · rcases h4 with h4 | h4
        · exact .inl h4
        · exact .inr (List.mem_cons_of_mem _ h4)
    | some x =>
      by_cases hx : x < a
      · obtain ⟨m, h1, h2, h3, h4⟩ := ih x
        refine ⟨m, by simpa [nanLt, hx] using h1, h2.trans hx.le, ?_, ?_⟩
        · intro z hz
          rcases List.mem_cons.1 hz with h | h
          · injection h with h; rw [h]; exact h2
          · exact h3 z h
        · rcases h4 with h4 | h4
          · right; rw [h4]; simp
          · exact .inr (List.mem_cons_of_mem _ h4)
      · obtain ⟨m, h1, h2, h3, h4⟩ := ih a
        refine ⟨m, by simpa [nanLt, hx] using h1, h2, ?_, ?_⟩
        · intro z hz
          rcases List.mem_cons.1 hz with h | h
          · injection h with h; rw [h]; exact h2.trans (not_lt.1 hx)
          · exact h3 z h
        · rcases h4 with h4 | h4
          · exact .inl h4
          · exact .inr (List.mem_cons_of_mem _ h4)

theorem foldl_maxElement (l : List (Option K)) : ∀ a : K, ∃ m, l.foldl (fun m x => if nanLt m x then x else m) (some a) = some m ∧
    a ≤ m ∧ (∀ z, some z ∈ l → z ≤ m) ∧ (m = a ∨ some m ∈ l) := by
  induction l with
  | nil => intro a; exact ⟨a, rfl, le_rfl, by simp, .inl rfl⟩
  | cons o l ih =>
    intro a
    rw [List.foldl_cons]
    cases o with
    | none =>
      obtain ⟨m, h1, h2, h3, h4⟩ := ih a
      refine ⟨m, by simpa [nanLt] using h1, h2, ?_, ?_⟩
      · intro z hz; exact h3 z (by simpa using hz)
      · rcases h4 with h4 | h4
        · exact .inl h4
        · exact .inr (List.mem_cons_of_mem _ h4)
    | some x =>
      by_cases hx : a < x
      · obtain ⟨m, h1, h2, h3, h4⟩ := ih x
        refine ⟨m, by simpa [nanLt, hx] using h1, hx.le.trans h2, ?_, ?_⟩
        · intro z hz
          rcases List.mem_cons.1 hz with h | h
          · injection h with h; rw [h]; exact h2
          · exact h3 z h
        · rcases h4 with h4 | h4
          · right; rw [h4]; simp
          · exact .inr (List.mem_cons_of_mem _ h4)
      · obtain ⟨m, h1, h2, h3, h4⟩ := ih a
        refine ⟨m, by simpa [nanLt, hx] using h1, h2, ?_, ?_⟩
        · intro z hz
          rcases List.mem_cons.1 hz with h | h
          · injection h with h; rw [h]; exact (not_lt.1 hx).trans h2
          · exact h3 z h
        · rcases h4 with h4 | h4
          · exact .inl h4
          · exact .inr (List.mem_cons_of_mem _ h4)

/-- `f` is the DTM `d` with its holes filled: same size and position, same altitudes where `d` has one, and altitudes that are not
out of the range of the altitudes of `d` in the holes. -/
structure Fills (d : NanDtm K) (f : Dtm K) : Prop where
  rows : f.nbRows = d.nbRows
  cols : f.nbCols = d.nbCols
  transform : f.transform = d.transform
  same : ∀ i j, IsNode d.nbRows d.nbCols i j → ∀ z, d.alt i j = some z → f.alt i j = z
  above : ∀ i j, IsNode d.nbRows d.nbCols i j → ∃ i' j' z, IsNode d.nbRows d.nbCols i' j' ∧ d.alt i' j' = some z ∧ z ≤ f.alt i j
  below : ∀ i j, IsNode d.nbRows d.nbCols i j → ∃ i' j' z, IsNode d.nbRows d.nbCols i' j' ∧ d.alt i' j' = some z ∧ f.alt i j ≤ z

/-- A member of the altitudes that is lower than the others is the lowest altitude of the filled DTM. -/
theorem Fills.altMin {d : NanDtm K} {f : Dtm K} (hf : Fills d f) (m : K) (hm : some m ∈ d.values)
    (hle : ∀ z, some z ∈ d.values → m ≤ z) : f.altMin = m := by
  obtain ⟨i, j, hn, e⟩ := (d.mem_values _).1 hm
  have hmem : m ∈ altValues f.alt f.nbRows f.nbCols := by
    rw [mem_altValues, hf.rows, hf.cols]
    exact ⟨i, j, hn, (hf.same i j hn m e.symm).symm⟩
  obtain ⟨h1, h2⟩ := listMin_spec (List.ne_nil_of_mem hmem)
  refine le_antisymm (h2 m hmem) ?_
  obtain ⟨i', j', hn', e'⟩ := (mem_altValues _ _ _ _).1 h1
  rw [hf.rows, hf.cols] at hn'
  obtain ⟨i2, j2, z, hn2, hz, hzle⟩ := hf.above i' j' hn'
  have := hle z ((d.mem_values _).2 ⟨i2, j2, hn2, hz.symm⟩)
  show m ≤ listMin _
  rw [e']
  exact this.trans hzle

theorem Fills.altMax {d : NanDtm K} {f : Dtm K} (hf : Fills d f) (m : K) (hm : some m ∈ d.values)
    (hle : ∀ z, some z ∈ d.values → z ≤ m) : f.altMax = m := by
  obtain ⟨i, j, hn, e⟩ := (d.mem_values _).1 hm
  have hmem : m ∈ altValues f.alt f.nbRows f.nbCols := by
    rw [mem_altValues, hf.rows, hf.cols]
    exact ⟨i, j, hn, (hf.same i j hn m e.symm).symm⟩
  obtain ⟨h1, h2⟩ := listMax_spec (List.ne_nil_of_mem hmem)
  refine le_antisymm ?_ (h2 m hmem)
  obtain ⟨i', j', hn', e'⟩ := (mem_altValues _ _ _ _).1 h1
  rw [hf.rows, hf.cols] at hn'
  obtain ⟨i2, j2, z, hn2, hz, hzle⟩ := hf.below i' j' hn'
  have := hle z ((d.mem_values _).2 ⟨i2, j2, hn2, hz.symm⟩)
  show listMax _ ≤ m
  rw [e']
  exact hzle.trans this

/-- The range of altitudes in C++ is that of the cells with data, if the first cell has data. -/
theorem Fills.range_cpp {d : NanDtm K} {f : Dtm K} (hf : Fills d f) (hr : 0 < d.nbRows) (hc : 0 < d.nbCols) (h00 : d.alt 0 0 ≠ none) :
    d.lowest .cpp = some f.altMin ∧ d.highest .cpp = some f.altMax := by
  obtain ⟨l, hl⟩ := d.values_cons hr hc
  obtain ⟨z, hz⟩ := Option.ne_none_iff_exists'.1 h00
  rw [hz] at hl
  constructor
  · obtain ⟨m, h1, h2, h3, h4⟩ := foldl_minElement l z
    have : d.lowest .cpp = some m := by show minElement d.values = _; rw [hl]; exact h1
    rw [this, hf.altMin m]
    · rw [hl]
      rcases h4 with rfl | h4
      · simp
      · exact List.mem_cons_of_mem _ h4
    · intro y hy
      rw [hl] at hy
      rcases List.mem_cons.1 hy with h | h
      · injection h with h; rw [h]; exact h2
      · exact h3 y h
  · obtain ⟨m, h1, h2, h3, h4⟩ := foldl_maxElement l z
    have : d.highest .cpp = some m := by show maxElement d.values = _; rw [hl]; exact h1
    rw [this, hf.altMax m]
    · rw [hl]
      rcases h4 with rfl | h4
      · simp
      · exact List.mem_cons_of_mem _ h4
    · intro y hy
      rw [hl] at hy
      rcases List.mem_cons.1 hy with h | h
      · injection h with h; rw [h]; exact h2
      · exact h3 y h

theorem Fills.range_py {d : NanDtm K} {f : Dtm K} (hf : Fills d f) (hr : 0 < d.nbRows) (hc : 0 < d.nbCols)
    (hd : ∀ i j, IsNode d.nbRows d.nbCols i j → d.alt i j ≠ none) :
    d.lowest .py = some f.altMin ∧ d.highest .py = some f.altMax := by
  have hall : ∀ o ∈ d.values, o ≠ none := by
    intro o ho
    obtain ⟨i, j, hn, rfl⟩ := (d.mem_values o).1 ho
    exact hd i j hn
  obtain ⟨l, hl⟩ := d.values_cons hr hc
  obtain ⟨z, hz⟩ := Option.ne_none_iff_exists'.1 (hall (d.alt 0 0) (by rw [hl]; simp))
  have hmin : ∃ m, d.lowest .py = some m := by
    have : ∀ (l : List (Option K)) (a : K), (∀ o ∈ l, o ≠ none) → ∃ m, l.foldl omin (some a) = some m := by
      intro l
      induction l with
      | nil => intro a _; exact ⟨a, rfl⟩
      | cons o l ih =>
        intro a h
        obtain ⟨v, rfl⟩ := Option.ne_none_iff_exists'.1 (h o (by simp))
        exact ih (min a v) fun o ho => h o (List.mem_cons_of_mem _ ho)
    show ∃ m, olistMin d.values = some m
    rw [hl, hz]
    exact this l z fun o ho => hall o (by rw [hl]; exact List.mem_cons_of_mem _ ho)
  have hmax : ∃ m, d.highest .py = some m := by
    have : ∀ (l : List (Option K)) (a : K), (∀ o ∈ l, o ≠ none) → ∃ m, l.foldl omax (some a) = some m := by
      intro l
      induction l with
      | nil => intro a _; exact ⟨a, rfl⟩
      | cons o l ih =>
        intro a h
        obtain ⟨v, rfl⟩ := Option.ne_none_iff_exists'.1 (h o (by simp))
        exact ih (max a v) fun o ho => h o (List.mem_cons_of_mem _ ho)
    show ∃ m, olistMax d.values = some m
    rw [hl, hz]
    exact this l z fun o ho => hall o (by rw [hl]; exact List.mem_cons_of_mem _ ho)
  obtain ⟨m, hm⟩ := hmin
  obtain ⟨M, hM⟩ := hmax
  obtain ⟨a1, a2⟩ := olistMin_spec _ _ hm
  obtain ⟨b1, b2⟩ := olistMax_spec _ _ hM
  refine ⟨?_, ?_⟩
  · rw [hm, hf.altMin m a2 fun y hy => ?_]
    obtain ⟨v, hv, hle⟩ := a1 _ hy
    injection hv with hv; rw [hv]; exact hle
  · rw [hM, hf.altMax M b2 fun y hy => ?_]
    obtain ⟨v, hv, hle⟩ := b1 _ hy
    injection hv with hv; rw [hv]; exact hle

/-! ### The box -/

theorem NanDtm.onCube_of_range {impl : Impl} {d : NanDtm K} {f : Dtm K} (hr : f.nbRows = d.nbRows) (hc : f.nbCols = d.nbCols)
    (h1 : d.lowest impl = some f.altMin) (h2 : d.highest impl = some f.altMax) (p : V3 K) :
    NanDtm.onCube impl d p = Shareloc.onCube f p := by
  rw [Bool.eq_iff_iff, onCube_iff, hr, hc]
  unfold NanDtm.onCube InBox
  rw [h1, h2]
  simp [and_assoc]

theorem NanDtm.planeD_of_range {impl : Impl} {d : NanDtm K} {f : Dtm K} (hr : f.nbRows = d.nbRows) (hc : f.nbCols = d.nbCols)
    (h1 : d.lowest impl = some f.altMin) (h2 : d.highest impl = some f.altMax) (k : Fin 6) :
    d.planeD impl k = some (Shareloc.planeD f k) := by
  fin_cases k <;> simp [NanDtm.planeD, Shareloc.planeD, hr, hc, h1, h2]

theorem NanDtm.eqPlan_coord (f : Dtm K) (k : Fin 6) (p : V3 K) : NanDtm.coord k p - Shareloc.planeD f k = eqPlan f k p := by
  fin_cases k <;> rfl

theorem NanDtm.crossingOf_eq (f : Dtm K) (k : Fin 6) (layer : ℕ) (a b : V3 K) :
    NanDtm.crossingOf k (Shareloc.planeD f k) layer a b = Shareloc.crossingOf f k layer a b := by
  unfold NanDtm.crossingOf Shareloc.crossingOf
  simp only [NanDtm.eqPlan_coord]

theorem NanDtm.faceScan_of_range {impl : Impl} {d : NanDtm K} {f : Dtm K} (hr : f.nbRows = d.nbRows) (hc : f.nbCols = d.nbCols)
    (h1 : d.lowest impl = some f.altMin) (h2 : d.highest impl = some f.altMax) (k : Fin 6) :
    ∀ (l : List (V3 K)) (a : V3 K) (layer : ℕ),
      NanDtm.faceScan impl d k (some a) layer (l.map some) = Shareloc.faceScan impl f k a layer l := by
  intro l
  induction l with
  | nil => intro a layer; rfl
  | cons b l ih =>
    intro a layer
    rw [List.map_cons]
    unfold NanDtm.faceScan Shareloc.faceScan
    simp only [NanDtm.planeD_of_range hr hc h1 h2 k, NanDtm.eqPlan_coord, NanDtm.crossingOf_eq, ih]

theorem NanDtm.cube_of_range {impl : Impl} {d : NanDtm K} {f : Dtm K} (hr : f.nbRows = d.nbRows) (hc : f.nbCols = d.nbCols)
    (h1 : d.lowest impl = some f.altMin) (h2 : d.highest impl = some f.altMax) (l : List (V3 K)) :
    NanDtm.cubeOfIndex impl d (l.map some) = Shareloc.cubeOfIndex impl f l := by
  have hhit : ∀ k, NanDtm.faceHit impl d k (l.map some) = Shareloc.faceHit impl f k l := by
    intro k
    cases l with
    | nil => rfl
    | cons v l => exact NanDtm.faceScan_of_range hr hc h1 h2 k (v :: l) v 0
  have hhits : ∀ ks, NanDtm.faceHits impl d (l.map some) ks = Shareloc.faceHits impl f l ks := by
    intro ks
    induction ks with
    | nil => rfl
    | cons k ks ih =>
      unfold NanDtm.faceHits Shareloc.faceHits
      rw [hhit, ih]
      cases Shareloc.faceHit impl f k l with
      | error e => rfl
      | ok o =>
        cases o with
        | none => rfl
        | some c => cases Shareloc.faceHits impl f l ks <;> rfl
  have hon : (fun c : Crossing K => NanDtm.onCube impl d c.p) = fun c => Shareloc.onCube f c.p :=
    funext fun c => NanDtm.onCube_of_range hr hc h1 h2 c.p
  unfold NanDtm.cubeOfIndex Shareloc.cubeOfIndex
  rw [hhits, hon]
  cases Shareloc.faceHits impl f l [0, 1, 2, 3, 4, 5] with
  | error e => rfl
  | ok cs =>
    dsimp only
    generalize (exchangeSort cs).filter (fun c => Shareloc.onCube f c.p) = l
    match l with
    | [] => rfl
    | [_] => rfl
    | _ :: _ :: _ => rfl

theorem NanDtm.pyGetO_map (l : List (V3 K)) (i : ℤ) : NanDtm.pyGetO (l.map some) i = some (pyGet l i) := by
  unfold NanDtm.pyGetO pyGet
  rw [List.length_map]
  split_ifs
  · generalize ((l.length : ℤ) + i).toNat = n
    simp only [List.getD_eq_getElem?_getD, List.getElem?_map]
    cases l[n]? <;> rfl
  · generalize i.toNat = n
    simp only [List.getD_eq_getElem?_getD, List.getElem?_map]
    cases l[n]? <;> rfl

/-- Without NaN vertex the march is that of `intersectionIdx`. -/
theorem NanDtm.marchPlanesNan_map (impl : Impl) (d : NanDtm K) (N turns : ℕ) (l : List (V3 K)) : ∀ (n : ℕ) (i0 : ℤ) (p2 : V3 K) (hp2 : K),
    d.marchPlanesNan impl N turns (l.map some) n i0 p2 hp2 = d.marchPlanes impl N l n i0 p2 hp2 := by
  intro n
  induction n with
  | zero => intros; rfl
  | succ n ih =>
    intro i0 p2 hp2
    unfold NanDtm.marchPlanesNan NanDtm.marchPlanes
    simp only [NanDtm.pyGetO_map, List.length_map, ih]

theorem NanDtm.intersectionNan_map (impl : Impl) (d : NanDtm K) (N turns : ℕ) (l : List (V3 K)) (pb : V3 K) (h : K) :
    d.intersectionNan impl N turns (l.map some) pb h = d.intersectionIdx impl N l pb h := by
  unfold NanDtm.intersectionNan NanDtm.intersectionIdx
  simp only [NanDtm.marchPlanesNan_map, List.length_map]

/-! ### Cells -/

/-- The altitude interpolated at a position whose four nodes have data. -/
theorem Fills.interpolate {d : NanDtm K} {f : Dtm K} (hf : Fills d f) (hr : 2 ≤ d.nbRows) (hc : 2 ≤ d.nbCols) (x y : K)
    (h : ∀ i j, IsNode d.nbRows d.nbCols i j → (i = lowerShift d.nbRows x ∨ i = lowerShift d.nbRows x + 1) →
      (j = lowerShift d.nbCols y ∨ j = lowerShift d.nbCols y + 1) → d.alt i j ≠ none) :
    d.interpolate x y = some (f.interpolate x y) := by
  obtain ⟨a1, a2⟩ := lowerShift_range (nb := d.nbRows) (by omega) x
  obtain ⟨b1, b2⟩ := lowerShift_range (nb := d.nbCols) (by omega) y
  have node : ∀ i j, (i = lowerShift d.nbRows x ∨ i = lowerShift d.nbRows x + 1) →
      (j = lowerShift d.nbCols y ∨ j = lowerShift d.nbCols y + 1) → d.alt i j = some (f.alt i j) := by
    intro i j hi hj
    have hn : IsNode d.nbRows d.nbCols i j := ⟨by omega, by omega, by omega, by omega⟩
    obtain ⟨z, hz⟩ := Option.ne_none_iff_exists'.1 (h i j hn hi hj)
    rw [hz, hf.same i j hn z hz]
  unfold NanDtm.interpolate interpolBilinChecked Dtm.interpolate interpolBilin
  rw [hf.rows, hf.cols]
  simp only [node _ _ (.inl rfl) (.inl rfl), node _ _ (.inl rfl) (.inr rfl), node _ _ (.inr rfl) (.inl rfl),
    node _ _ (.inr rfl) (.inr rfl)]
  rfl

theorem nanLt_some (a b : K) : nanLt (some a) (some b) = decide (a < b) := rfl

theorem minElement_four (a b c d : K) : minElement [some a, some b, some c, some d] = some (min (min (min a c) b) d) := by
  obtain ⟨m, h1, h2, h3, h4⟩ := foldl_minElement [some b, some c, some d] a
  have : minElement [some a, some b, some c, some d] = some m := h1
  rw [this]
  congr 1
  have hb := h3 b (by simp)
  have hc := h3 c (by simp)
  have hd := h3 d (by simp)
  refine le_antisymm (le_min (le_min (le_min h2 hc) hb) hd) ?_
  rcases h4 with rfl | h4
  · exact (min_le_left _ _).trans ((min_le_left _ _).trans (min_le_left _ _))
  · simp only [List.mem_cons, Option.some.injEq, List.not_mem_nil, or_false] at h4
    rcases h4 with rfl | rfl | rfl
    · exact (min_le_left _ _).trans (min_le_right _ _)
    · exact (min_le_left _ _).trans ((min_le_left _ _).trans (min_le_right _ _))
    · exact min_le_right _ _

theorem maxElement_four (a b c d : K) : maxElement [some a, some b, some c, some d] = some (max (max (max a c) b) d) := by
  obtain ⟨m, h1, h2, h3, h4⟩ := foldl_maxElement [some b, some c, some d] a
  have : maxElement [some a, some b, some c, some d] = some m := h1
  rw [this]
  congr 1
  have hb := h3 b (by simp)
  have hc := h3 c (by simp)
  have hd := h3 d (by simp)
  refine le_antisymm ?_ (max_le (max_le (max_le h2 hc) hb) hd)
  rcases h4 with rfl | h4
  · exact (le_max_left _ _).trans ((le_max_left _ _).trans (le_max_left _ _))
  · simp only [List.mem_cons, Option.some.injEq, List.not_mem_nil, or_false] at h4
    rcases h4 with rfl | rfl | rfl
    · exact (le_max_right _ _).trans (le_max_left _ _)
    · exact (le_max_right _ _).trans ((le_max_left _ _).trans (le_max_left _ _))
    · exact le_max_right _ _

theorem Fills.cell {d : NanDtm K} {f : Dtm K} (hf : Fills d f) (impl : Impl) (i j : ℤ) (hcell : IsCell d.nbRows d.nbCols i j)
    (h : ∀ i' j', (i' = i ∨ i' = i + 1) → (j' = j ∨ j' = j + 1) → d.alt i' j' ≠ none) :
    d.altMinCell impl i j = some (altMinCellPy f.alt i j) ∧ d.altMaxCell impl i j = some (altMaxCellPy f.alt i j) := by
  obtain ⟨a1, a2, a3, a4⟩ := hcell
  have node : ∀ i' j', (i' = i ∨ i' = i + 1) → (j' = j ∨ j' = j + 1) → d.alt i' j' = some (f.alt i' j') := by
    intro i' j' hi hj
    obtain ⟨z, hz⟩ := Option.ne_none_iff_exists'.1 (h i' j' hi hj)
    rw [hz, hf.same i' j' ⟨by omega, by omega, by omega, by omega⟩ z hz]
  unfold NanDtm.altMinCell NanDtm.altMaxCell
  rw [node _ _ (.inl rfl) (.inl rfl), node _ _ (.inl rfl) (.inr rfl), node _ _ (.inr rfl) (.inl rfl),
    node _ _ (.inr rfl) (.inr rfl)]
  cases impl with
  | py => exact ⟨rfl, rfl⟩
  | cpp => simp only [minElement_four, maxElement_four]; exact ⟨rfl, rfl⟩

theorem NanDtm.bIntersect_some (z0 z1 hI hS p1 p2 : K) :
    NanDtm.bIntersect z0 z1 (some hI) (some hS) p1 p2 = Shareloc.bIntersect z0 z1 hI hS p1 p2 := by
  unfold NanDtm.bIntersect Shareloc.bIntersect
  simp only [nanLt_some, gt_iff_lt, Bool.decide_and]

/-! ### Python: one hole and nothing is located -/

/-- A DTM whose range of altitudes is NaN has no entry point. -/
theorem NanDtm.losDtm_of_nan_range (impl : Impl) (d : NanDtm K) (N : ℕ) (los : List (Option (V3 K))) (h : d.lowest impl = none) :
    d.losDtm impl N los = .nan ∨ d.losDtm impl N los = .failure := by
  have hon : ∀ p, NanDtm.onCube impl d p = false := by
    intro p; unfold NanDtm.onCube; rw [h]; simp
  unfold NanDtm.losDtm NanDtm.losDtmTurns NanDtm.cubeOfIndex
  cases hh : NanDtm.faceHits impl d (los.map fun v => v.map (terToIndexPy d.transform)) [0, 1, 2, 3, 4, 5] with
  | error e => right; simp only [hh]
  | ok cs =>
    left
    have : (exchangeSort cs).filter (fun c => NanDtm.onCube impl d c.p) = [] := by
      rw [List.filter_eq_nil_iff]; intro c _; simp [hon]
    simp only [hh, this]

theorem NanDtm.faceHits_py_ok (d : NanDtm K) (los : List (Option (V3 K))) : ∀ ks, ∃ cs, NanDtm.faceHits .py d los ks = .ok cs := by
  have hscan : ∀ (k : Fin 6) (l : List (Option (V3 K))) (a : Option (V3 K)) (layer : ℕ),
      ∃ o, NanDtm.faceScan .py d k a layer l = .ok o := by
    intro k l
    induction l with
    | nil => intro a layer; exact ⟨none, rfl⟩
    | cons b l ih =>
      intro a layer
      unfold NanDtm.faceScan
      split
      · split_ifs with h1 h2
        · exact absurd h2.1 (by simp)
        · exact ⟨_, rfl⟩
        · exact ih _ _
      · exact ih _ _
  intro ks
  induction ks with
  | nil => exact ⟨[], rfl⟩
  | cons k ks ih =>
    obtain ⟨cs, hcs⟩ := ih
    have : ∃ o, NanDtm.faceHit .py d k los = .ok o := by
      cases los with
      | nil => exact ⟨none, rfl⟩
      | cons v l => exact hscan k _ v 0
    obtain ⟨o, ho⟩ := this
    rw [NanDtm.faceHits, ho]
    cases o with
    | none => exact ⟨cs, hcs⟩
    | some c => simp only [hcs]; exact ⟨_, rfl⟩

/-- C100, Python: as soon as one cell of the DTM has no altitude, every line of sight (whatever its vertices, NaN or not) gets NaN:
`direct_loc_dtm` of any model, which returns the intersections of its lines of sight, locates no pixel. -/
theorem C100_python_one_hole_locates_nothing (d : NanDtm K) (N : ℕ) (i j : ℤ) (hn : IsNode d.nbRows d.nbCols i j)
    (hole : d.alt i j = none) (los : List (Option (V3 K))) : d.losDtm .py N los = .nan := by
  have hmin : d.lowest .py = none := by
    cases h : d.lowest .py with
    | none => rfl
    | some m =>
      obtain ⟨v, hv, _⟩ := (olistMin_spec d.values m h).1 (d.alt i j) ((d.mem_values _).2 ⟨i, j, hn, rfl⟩)
      rw [hole] at hv; cases hv
  have hon : ∀ p, NanDtm.onCube .py d p = false := by
    intro p; unfold NanDtm.onCube; rw [hmin]; simp
  obtain ⟨cs, hcs⟩ := d.faceHits_py_ok (los.map fun v => v.map (terToIndexPy d.transform)) [0, 1, 2, 3, 4, 5]
  unfold NanDtm.losDtm NanDtm.losDtmTurns NanDtm.cubeOfIndex
  have : (exchangeSort cs).filter (fun c => NanDtm.onCube .py d c.p) = [] := by
    rw [List.filter_eq_nil_iff]; intro c _; simp [hon]
  simp only [hcs, this]

/-- C100, C++: if the first cell of the DTM has no altitude, every line of sight gets NaN (or the exception of a line that starts on a
side of the DTM). -/
theorem C100_cpp_first_cell_hole (d : NanDtm K) (N : ℕ) (hr : 0 < d.nbRows) (hc : 0 < d.nbCols) (hole : d.alt 0 0 = none)
    (los : List (Option (V3 K))) : d.losDtm .cpp N los = .nan ∨ d.losDtm .cpp N los = .failure := by
  refine NanDtm.losDtm_of_nan_range .cpp d N los ?_
  obtain ⟨l, hl⟩ := d.values_cons hr hc
  show minElement d.values = none
  rw [hl, hole]
  exact foldl_minElement_none l

/-! ### No hole: the model of the other properties -/

theorem NanDtm.falsi_of_total (f : K → K → K) (N : ℕ) : ∀ p1 a p2 h,
    NanDtm.falsi (fun x y => some (f x y)) N p1 a p2 h = Shareloc.falsi f N p1 a p2 h := by
  induction N with
  | zero => intros; rfl
  | succ n ih =>
    intro p1 a p2 h
    unfold NanDtm.falsi Shareloc.falsi
    simp only [ih]

theorem NanDtm.inside_sizes {d : NanDtm K} {f : Dtm K} (hr : f.nbRows = d.nbRows) (hc : f.nbCols = d.nbCols) (s : March K) :
    marchInside d.sizes s = marchInside f s := by
  unfold marchInside NanDtm.sizes
  rw [hr, hc]

theorem NanDtm.fuel_sizes {d : NanDtm K} {f : Dtm K} (hr : f.nbRows = d.nbRows) (hc : f.nbCols = d.nbCols) :
    cellFuel d.sizes = cellFuel f := by
  unfold cellFuel NanDtm.sizes
  rw [hr, hc]

section
variable {d : NanDtm K} {f : Dtm K} (hf : Fills d f) (hr : 2 ≤ d.nbRows) (hc : 2 ≤ d.nbCols)
  (hd : ∀ i j, IsNode d.nbRows d.nbCols i j → d.alt i j ≠ none)
include hf hr hc hd

theorem Fills.interpolate_total : d.interpolate = fun x y => some (f.interpolate x y) :=
  funext fun x => funext fun y => hf.interpolate hr hc x y fun i j hn _ _ => hd i j hn

theorem Fills.marchCells_total (impl : Impl) (N : ℕ) (v0 v1 : V3 K) : ∀ (n : ℕ) (s : March K),
    d.marchCells impl N v0 v1 n s = Shareloc.marchCells f N v0 v1 n s := by
  intro n
  induction n with
  | zero => intro s; rfl
  | succ n ih =>
    intro s
    unfold NanDtm.marchCells Shareloc.marchCells
    rw [NanDtm.inside_sizes hf.rows hf.cols]
    by_cases hin : marchInside f s = true
    · rw [if_pos hin, if_pos hin]
      have hcell := ((marchInside_iff f s).mp hin).2
      rw [hf.rows, hf.cols] at hcell
      obtain ⟨e1, e2⟩ := hf.cell impl _ _ hcell (by
        obtain ⟨a1, a2, a3, a4⟩ := hcell
        intro i' j' hi hj
        exact hd i' j' ⟨by omega, by omega, by omega, by omega⟩)
      simp only [e1, e2, NanDtm.bIntersect_some, hf.interpolate_total hr hc hd, NanDtm.falsi_of_total, ih]
    · rw [if_neg hin, if_neg hin]

theorem Fills.marchPlanes_total (impl : Impl) (N : ℕ) (los : List (V3 K)) : ∀ (n : ℕ) (i0 : ℤ) (p2 : V3 K) (hp2 : K),
    d.marchPlanes impl N los n i0 p2 hp2 = Shareloc.marchPlanes impl f N los n i0 p2 hp2 := by
  intro n
  induction n with
  | zero => intros; rfl
  | succ n ih =>
    intro i0 p2 hp2
    unfold NanDtm.marchPlanes Shareloc.marchPlanes
    simp only [hf.interpolate_total hr hc hd, NanDtm.inside_sizes hf.rows hf.cols, NanDtm.fuel_sizes hf.rows hf.cols,
      hf.marchCells_total hr hc hd, ih]
    split_ifs <;> try rfl

/-- C100 without hole: the model with NaN is the model of the other properties, in both implementations and for every line. -/
theorem C100_no_hole (impl : Impl) (N : ℕ) (los : List (V3 K)) :
    d.losDtm impl N (los.map some) = Shareloc.losDtm impl f N los := by
  have hrange : d.lowest impl = some f.altMin ∧ d.highest impl = some f.altMax := by
    cases impl with
    | py => exact hf.range_py (by omega) (by omega) hd
    | cpp => exact hf.range_cpp (by omega) (by omega) (hd 0 0 ⟨le_rfl, by omega, le_rfl, by omega⟩)
  have e : (los.map some).map (fun v => v.map (terToIndexPy d.transform)) = (los.map (terToIndexPy d.transform)).map some := by
    simp [List.map_map]
  unfold NanDtm.losDtm NanDtm.losDtmTurns Shareloc.losDtm intersectDtmCube tersToIndexsPy
  rw [hf.transform, e]
  dsimp only
  rw [NanDtm.cube_of_range hf.rows hf.cols hrange.1 hrange.2]
  simp only [NanDtm.intersectionNan_map]
  cases Shareloc.cubeOfIndex impl f (los.map (terToIndexPy d.transform)) with
  | error e => rfl
  | ok o =>
    cases o with
    | none => rfl
    | some c =>
      have : d.intersectionIdx impl N (los.map (terToIndexPy d.transform)) c.p c.h =
          Shareloc.intersectionIdx impl f N (los.map (terToIndexPy d.transform)) c.p c.h := by
        unfold NanDtm.intersectionIdx Shareloc.intersectionIdx
        simp only [hf.interpolate_total hr hc hd, hf.marchPlanes_total hr hc hd]
      simp only [this]
      rfl

end

/-! ### C++: lines that stay away from the holes -/

/-- Two nodes around a position of a cell: among the three rows (columns) from the one of the cell. -/
theorem lowerShift_near {nb i : ℤ} (hi0 : 0 ≤ i) (hi1 : i + 1 ≤ nb - 1) {q p : K} (q0 : (i : K) ≤ q) (q1 : q ≤ i + 1)
    (p0 : (i : K) ≤ p) (p1 : p ≤ i + 1) {k : ℤ} (hk : k = lowerShift nb q ∨ k = lowerShift nb q + 1) : |(k : K) - p| ≤ 2 := by
  have h : k = i ∨ k = i + 1 ∨ k = i + 2 := by
    rcases lowerShift_cell hi0 hi1 q0 q1 with h | ⟨h, _⟩ <;> omega
  rw [abs_le]
  rcases h with rfl | rfl | rfl <;> push_cast <;> constructor <;> linarith

/-- One turn of the root search, once the point is known. -/
def NanDtm.falsiNext (g : K → K → Option K) (n : ℕ) (p1 : V3 K) (a : K) (p2 : V3 K) (h : K) (q : V3 K) : Outcome K :=
  match g q.x q.y with
  | none => .found q
  | some zv =>
    if |zv - q.z| > tolZ then
      if zv - q.z < 0 then NanDtm.falsi g n q zv p2 h else NanDtm.falsi g n p1 a q zv
    else .found q

theorem NanDtm.falsi_succ (g : K → K → Option K) (n : ℕ) (p1 : V3 K) (a : K) (p2 : V3 K) (h : K) :
    NanDtm.falsi g (n + 1) p1 a p2 h = if (h - a) - (p2.z - p1.z) = 0 then .nonFinite else
      NanDtm.falsiNext g n p1 a p2 h ⟨p1.x + (p1.z - a) / ((h - a) - (p2.z - p1.z)) * (p2.x - p1.x),
        p1.y + (p1.z - a) / ((h - a) - (p2.z - p1.z)) * (p2.y - p1.y),
        p1.z + (p1.z - a) / ((h - a) - (p2.z - p1.z)) * (p2.z - p1.z)⟩ := rfl

/-- The root search between two points between which the terrain is known. -/
theorem NanDtm.falsi_of_bracket (g : K → K → Option K) (f : K → K → K) (P Q : V3 K) : ∀ (n : ℕ) (l u : K), l ≤ u →
    (∀ t, l ≤ t → t ≤ u → g (Spec.lerp P Q t).x (Spec.lerp P Q t).y = some (f (Spec.lerp P Q t).x (Spec.lerp P Q t).y)) →
    0 ≤ height f P Q l → height f P Q u ≤ 0 →
    NanDtm.falsi g n (Spec.lerp P Q l) (f (Spec.lerp P Q l).x (Spec.lerp P Q l).y) (Spec.lerp P Q u) (f (Spec.lerp P Q u).x (Spec.lerp P Q u).y) =
    Shareloc.falsi f n (Spec.lerp P Q l) (f (Spec.lerp P Q l).x (Spec.lerp P Q l).y) (Spec.lerp P Q u) (f (Spec.lerp P Q u).x (Spec.lerp P Q u).y) := by
  intro n
  induction n with
  | zero => intros; rfl
  | succ n ih =>
    intro l u hlu hg hl hu
    have hd : (f (Spec.lerp P Q u).x (Spec.lerp P Q u).y - f (Spec.lerp P Q l).x (Spec.lerp P Q l).y) - ((Spec.lerp P Q u).z - (Spec.lerp P Q l).z) =
        height f P Q l - height f P Q u := by unfold height; ring
    rw [NanDtm.falsi_succ]
    by_cases hne : height f P Q l - height f P Q u = 0
    · unfold Shareloc.falsi
      rw [hd, if_pos hne, if_pos hne]
    · obtain ⟨s1, s2⟩ := secant_between hl hu hne hlu
      rw [falsi_step, hd, if_neg hne, if_neg hne]
      have hq : (⟨(Spec.lerp P Q l).x + ((Spec.lerp P Q l).z - f (Spec.lerp P Q l).x (Spec.lerp P Q l).y) / (height f P Q l - height f P Q u) *
            ((Spec.lerp P Q u).x - (Spec.lerp P Q l).x),
          (Spec.lerp P Q l).y + ((Spec.lerp P Q l).z - f (Spec.lerp P Q l).x (Spec.lerp P Q l).y) / (height f P Q l - height f P Q u) *
            ((Spec.lerp P Q u).y - (Spec.lerp P Q l).y),
          (Spec.lerp P Q l).z + ((Spec.lerp P Q l).z - f (Spec.lerp P Q l).x (Spec.lerp P Q l).y) / (height f P Q l - height f P Q u) *
            ((Spec.lerp P Q u).z - (Spec.lerp P Q l).z)⟩ : V3 K) =
          Spec.lerp P Q (l + height f P Q l / (height f P Q l - height f P Q u) * (u - l)) := by
        rw [← lerp_lerp]; rfl
      rw [hq]
      dsimp only
      generalize l + height f P Q l / (height f P Q l - height f P Q u) * (u - l) = q at s1 s2 ⊢
      unfold NanDtm.falsiNext
      rw [hg q s1 s2]
      dsimp only
      have hh : f (Spec.lerp P Q q).x (Spec.lerp P Q q).y - (Spec.lerp P Q q).z = - height f P Q q := by unfold height; ring
      rw [hh, abs_neg]
      by_cases ht : |height f P Q q| > tolZ
      · rw [if_pos ht, if_pos ht]
        by_cases hp : 0 < height f P Q q
        · rw [if_pos (by linarith : - height f P Q q < 0), if_pos hp]
          exact ih q u s2 (fun t h1 h2 => hg t (s1.trans h1) h2) hp.le hu
        · rw [if_neg (by linarith : ¬ - height f P Q q < 0), if_neg hp]
          exact ih l q s1 (fun t h1 h2 => hg t h1 (h2.trans s2)) hl (not_lt.1 hp)
      · rw [if_neg ht, if_neg ht]

/-- The nodes at most two rows and two columns away from the position have data. -/
def ClearAround (d : NanDtm K) (p : V3 K) : Prop :=
  ∀ i j : ℤ, IsNode d.nbRows d.nbCols i j → |(i : K) - p.x| ≤ 2 → |(j : K) - p.y| ≤ 2 → d.alt i j ≠ none

theorem Fills.interpolate_clear {d : NanDtm K} {f : Dtm K} (hf : Fills d f) {i j : ℤ} (hcell : IsCell d.nbRows d.nbCols i j) {p : V3 K}
    (hp : InCell i j p.x p.y) (hclear : ClearAround d p) {x y : K} (hxy : InCell i j x y) :
    d.interpolate x y = some (f.interpolate x y) := by
  obtain ⟨a1, a2, a3, a4⟩ := hcell
  obtain ⟨p1, p2, p3, p4⟩ := hp
  obtain ⟨q1, q2, q3, q4⟩ := hxy
  refine hf.interpolate (by omega) (by omega) x y fun i' j' hn hi hj => hclear i' j' hn ?_ ?_
  · exact lowerShift_near a1 a2 q1 q2 p1 p2 hi
  · exact lowerShift_near a3 a4 q3 q4 p3 p4 hj

theorem Fills.cell_clear {d : NanDtm K} {f : Dtm K} (hf : Fills d f) (impl : Impl) {i j : ℤ} (hcell : IsCell d.nbRows d.nbCols i j)
    {p : V3 K} (hp : InCell i j p.x p.y) (hclear : ClearAround d p) :
    d.altMinCell impl i j = some (altMinCellPy f.alt i j) ∧ d.altMaxCell impl i j = some (altMaxCellPy f.alt i j) := by
  refine hf.cell impl i j hcell fun i' j' hi hj => ?_
  obtain ⟨a1, a2, a3, a4⟩ := hcell
  obtain ⟨p1, p2, p3, p4⟩ := hp
  refine hclear i' j' ⟨by omega, by omega, by omega, by omega⟩ ?_ ?_
  · rw [abs_le]; rcases hi with rfl | rfl <;> push_cast <;> constructor <;> linarith
  · rw [abs_le]; rcases hj with rfl | rfl <;> push_cast <;> constructor <;> linarith

theorem Fills.marchCells_clear {d : NanDtm K} {f : Dtm K} (hf : Fills d f) (impl : Impl) (N : ℕ) (v0 v1 : V3 K)
    (hdir : v1.x - v0.x ≠ 0 ∨ v1.y - v0.y ≠ 0)
    (hclear : ∀ t, 0 ≤ t → t ≤ 1 → InFootprint d.nbRows d.nbCols (Spec.lerp v0 v1 t) → ClearAround d (Spec.lerp v0 v1 t)) :
    ∀ (n : ℕ) (s : March K) (α : K), CellInv v0 (segDir v0 v1) s α → s.p2 = Spec.lerp v0 v1 α → s.a2 = α → 0 ≤ α →
      (α < 1 → 0 ≤ height f.interpolate v0 v1 α) →
      d.marchCells impl N v0 v1 n s = Shareloc.marchCells f N v0 v1 n s := by
  intro n
  induction n with
  | zero => intros; rfl
  | succ n ih =>
    intro s α hinv hp ha α0 hd
    have st := cellExit_spec v0 (segDir v0 v1) s α hinv hdir
    by_cases hin : marchInside f s = true
    swap
    · unfold NanDtm.marchCells Shareloc.marchCells
      rw [NanDtm.inside_sizes hf.rows hf.cols, if_neg hin, if_neg hin]
    obtain ⟨hlt, hcell⟩ := (marchInside_iff f s).mp hin
    rw [ha] at hlt
    have hd := hd hlt
    have hcellf := hcell
    rw [hf.rows, hf.cols] at hcell
    have i0 : InCell s.colC s.rowC (Spec.lerp v0 v1 α).x (Spec.lerp v0 v1 α).y := by rw [← hp]; exact hinv.inCell
    have i1 : InCell s.colC s.rowC (Spec.lerp v0 v1 (cellExit v0 (segDir v0 v1) s).a2).x (Spec.lerp v0 v1 (cellExit v0 (segDir v0 v1) s).a2).y := by
      rw [← st.p2_eq]; exact st.inCell
    have hcl := hclear α α0 hlt.le (inCell_footprint hcell i0)
    obtain ⟨e1, e2⟩ := hf.cell_clear impl hcell i0 hcl
    have hint : ∀ t, α ≤ t → t ≤ (cellExit v0 (segDir v0 v1) s).a2 →
        d.interpolate (Spec.lerp v0 v1 t).x (Spec.lerp v0 v1 t).y = some (f.interpolate (Spec.lerp v0 v1 t).x (Spec.lerp v0 v1 t).y) := fun t h1 h2 =>
      hf.interpolate_clear hcell i0 hcl (inCell_between v0 v1 _ _ h1 h2 i0 i1)
    have hnext : (α < 1 → (cellExit v0 (segDir v0 v1) s).a2 < 1 → 0 ≤ height f.interpolate v0 v1 (cellExit v0 (segDir v0 v1) s).a2) →
        d.marchCells impl N v0 v1 n (cellExit v0 (segDir v0 v1) s) = Shareloc.marchCells f N v0 v1 n (cellExit v0 (segDir v0 v1) s) :=
      fun h => ih _ _ st.inv st.p2_eq rfl (α0.trans st.lt.le) (h hlt)
    have hskip := height_pos_of_skip f v0 v1 s _ α hcellf hinv st hp hd
    rw [marchCells_succ]
    unfold NanDtm.marchCells
    rw [NanDtm.inside_sizes hf.rows hf.cols, if_pos hin, if_pos hin]
    show (if NanDtm.bIntersect v0.z v1.z _ _ s.p2.z (cellExit v0 (segDir v0 v1) s).p2.z = true then
        (match d.interpolate s.p2.x s.p2.y, d.interpolate (cellExit v0 (segDir v0 v1) s).p2.x (cellExit v0 (segDir v0 v1) s).p2.y with
        | some alti1, some h2 =>
          if (s.p2.z - alti1) * ((cellExit v0 (segDir v0 v1) s).p2.z - h2) ≤ 0 then
            .inl (NanDtm.falsi d.interpolate N s.p2 alti1 (cellExit v0 (segDir v0 v1) s).p2 h2)
          else NanDtm.marchCells impl d N v0 v1 n (cellExit v0 (segDir v0 v1) s)
        | _, _ => NanDtm.marchCells impl d N v0 v1 n (cellExit v0 (segDir v0 v1) s))
      else NanDtm.marchCells impl d N v0 v1 n (cellExit v0 (segDir v0 v1) s)) = _
    rw [e1, e2, NanDtm.bIntersect_some]
    have g0 := hint α le_rfl st.lt.le
    have g1 := hint _ st.lt.le le_rfl
    rw [← hp] at g0
    rw [← st.p2_eq] at g1
    rw [g0, g1]
    dsimp only
    by_cases hb : Shareloc.bIntersect v0.z v1.z (altMinCellPy f.alt s.colC s.rowC) (altMaxCellPy f.alt s.colC s.rowC) s.p2.z
        (cellExit v0 (segDir v0 v1) s).p2.z = true
    · rw [if_pos hb]
      by_cases hprod : (s.p2.z - f.interpolate s.p2.x s.p2.y) * ((cellExit v0 (segDir v0 v1) s).p2.z -
          f.interpolate (cellExit v0 (segDir v0 v1) s).p2.x (cellExit v0 (segDir v0 v1) s).p2.y) ≤ 0
      · rw [if_pos hprod, if_pos ⟨hb, hprod⟩]
        congr 1
        rw [hp, st.p2_eq] at hprod ⊢
        have hprod : height f.interpolate v0 v1 α * height f.interpolate v0 v1 (cellExit v0 (segDir v0 v1) s).a2 ≤ 0 := hprod
        by_cases hβ : height f.interpolate v0 v1 (cellExit v0 (segDir v0 v1) s).a2 ≤ 0
        · exact NanDtm.falsi_of_bracket _ _ v0 v1 N _ _ st.lt.le hint hd hβ
        · -- the entry is on the terrain: the search stops at once
          have hβ := not_le.mp hβ
          have hα : height f.interpolate v0 v1 α = 0 := by
            by_contra hne
            have := mul_pos (lt_of_le_of_ne hd (Ne.symm hne)) hβ
            linarith
          cases N with
          | zero => rfl
          | succ n =>
            have hz : (Spec.lerp v0 v1 α).z - f.interpolate (Spec.lerp v0 v1 α).x (Spec.lerp v0 v1 α).y = 0 := hα
            unfold NanDtm.falsi Shareloc.falsi
            have hne : (f.interpolate (Spec.lerp v0 v1 (cellExit v0 (segDir v0 v1) s).a2).x (Spec.lerp v0 v1 (cellExit v0 (segDir v0 v1) s).a2).y -
                f.interpolate (Spec.lerp v0 v1 α).x (Spec.lerp v0 v1 α).y) -
                ((Spec.lerp v0 v1 (cellExit v0 (segDir v0 v1) s).a2).z - (Spec.lerp v0 v1 α).z) ≠ 0 := by
              unfold height at hβ hα
              intro h; linarith
            rw [if_neg hne, if_neg hne]
            simp only [hz, zero_div, zero_mul, add_zero]
            rw [hp] at g0
            simp only [g0]
            have hz' : f.interpolate (Spec.lerp v0 v1 α).x (Spec.lerp v0 v1 α).y - (Spec.lerp v0 v1 α).z = 0 := by linarith
            rw [hz', abs_zero, if_neg (not_lt.mpr tolZ_pos.le), if_neg (not_lt.mpr tolZ_pos.le)]
      · rw [if_neg hprod, if_neg (fun h => hprod h.2)]
        refine hnext fun _ _ => ?_
        by_contra hc
        apply hprod
        rw [hp, st.p2_eq]
        exact mul_nonpos_of_nonneg_of_nonpos hd (not_le.mp hc).le
    · rw [if_neg hb, if_neg (fun h => hb h.1)]
      exact hnext fun _ h => (hskip (by simpa using hb) _ st.lt.le le_rfl h.le).le

theorem footprint_cell {nr nc : ℕ} (hr : 2 ≤ nr) (hc : 2 ≤ nc) {p : V3 K} (h : InFootprint nr nc p) :
    ∃ i j, IsCell nr nc i j ∧ InCell i j p.x p.y := by
  obtain ⟨h1, h2, h3, h4⟩ := h
  obtain ⟨a1, a2⟩ := lowerShift_range (nb := (nr : ℤ)) (by omega) p.x
  obtain ⟨b1, b2⟩ := lowerShift_range (nb := (nc : ℤ)) (by omega) p.y
  obtain ⟨c1, c2⟩ := lowerShift_inside (nb := (nr : ℤ)) h1 (by push_cast; exact h2)
  obtain ⟨e1, e2⟩ := lowerShift_inside (nb := (nc : ℤ)) h3 (by push_cast; exact h4)
  exact ⟨_, _, ⟨a1, a2, b1, b2⟩, c1, c2, e1, e2⟩

/-- The march along a line of two vertices that stays away from the holes. -/
theorem Fills.intersectionIdx_clear {d : NanDtm K} {f : Dtm K} (hf : Fills d f) (hr : 2 ≤ d.nbRows) (hc : 2 ≤ d.nbCols) (N : ℕ)
    (a b : V3 K) (h : K) (h0 : 0 ≤ h) (h1 : h ≤ 1) (hfoot : InFootprint d.nbRows d.nbCols (Spec.lerp a b h))
    (hclear : ∀ t, 0 ≤ t → t ≤ 1 → InFootprint d.nbRows d.nbCols (Spec.lerp a b t) → ClearAround d (Spec.lerp a b t))
    (hx : b.x < a.x → ∀ m : ℤ, (Spec.lerp a b h).x = m → m = 2) (hy : b.y < a.y → ∀ m : ℤ, (Spec.lerp a b h).y = m → m = 2) :
    d.intersectionIdx .cpp N [a, b] (Spec.lerp a b h) h = Shareloc.intersectionIdx .cpp f N [a, b] (Spec.lerp a b h) h := by
  obtain ⟨i, j, hcell, hin⟩ := footprint_cell hr hc hfoot
  have hint := hf.interpolate_clear hcell hin (hclear h h0 h1 hfoot) hin
  unfold NanDtm.intersectionIdx Shareloc.intersectionIdx
  rw [hint]
  dsimp only
  by_cases hneg : (Spec.lerp a b h).z - f.interpolate (Spec.lerp a b h).x (Spec.lerp a b h).y < 0
  · rw [if_pos hneg, if_pos hneg]
  rw [if_neg hneg, if_neg hneg]
  rcases eq_or_lt_of_le h1 with rfl | h1
  · rw [Int.floor_one]
    show NanDtm.marchPlanes _ _ _ _ (3 + 1) _ _ _ = Shareloc.marchPlanes _ _ _ _ (3 + 1) _ _ _
    rw [marchPlanes_succ, if_neg (by simp)]
    unfold NanDtm.marchPlanes
    rw [if_neg (by simp)]
  have hfl : ⌊h⌋ = 0 := by rw [Int.floor_eq_iff]; simp; exact ⟨h0, h1⟩
  rw [hfl]
  have stop : ∀ n p2 hp2, Shareloc.marchPlanes .cpp f N [a, b] (n + 1) 1 p2 hp2 = .notFound := by
    intro n p2 hp2; rw [marchPlanes_succ, if_neg (by simp)]
  have stop' : ∀ n p2 hp2, NanDtm.marchPlanes .cpp d N [a, b] (n + 1) 1 p2 hp2 = .notFound := by
    intro n p2 hp2; unfold NanDtm.marchPlanes; rw [if_neg (by simp)]
  show NanDtm.marchPlanes _ _ _ _ (3 + 1) _ _ _ = Shareloc.marchPlanes _ _ _ _ (3 + 1) _ _ _
  have g0 : pyGet [a, b] 0 = a := rfl
  have g1 : pyGet [a, b] (0 + 1) = b := rfl
  have g1' : pyGet [a, b] 1 = b := rfl
  have e1 : (0 : ℤ) + 1 = 1 := rfl
  have e2 : (if h - ((0 : ℤ) : K) ≥ 1 then 0 else h - ((0 : ℤ) : K)) = h := by
    have e3 : h - ((0 : ℤ) : K) = h := by push_cast; ring
    rw [e3, if_neg (not_le.mpr h1)]
  have hl : (0 : ℤ) < (([a, b] : List (V3 K)).length : ℤ) - 1 := by simp
  rw [marchPlanes_succ]
  unfold NanDtm.marchPlanes
  rw [if_pos hl, if_pos hl]
  simp only [g0, g1, g1', e1, e2, stop, stop', NanDtm.inside_sizes hf.rows hf.cols, NanDtm.fuel_sizes hf.rows hf.cols]
  by_cases hv : b.x - a.x = 0 ∧ b.y - a.y = 0
  · rw [if_pos hv, if_pos hv]
    have ex : (Spec.lerp a b h).x = a.x := by simp only [Spec.lerp]; rw [hv.1]; ring
    have ey : (Spec.lerp a b h).y = a.y := by simp only [Spec.lerp]; rw [hv.2]; ring
    rw [ex, ey] at hint
    rw [hint]
  · rw [if_neg hv, if_neg hv]
    have hdir : b.x - a.x ≠ 0 ∨ b.y - a.y ≠ 0 := by
      by_contra hcon
      push Not at hcon
      exact hv hcon
    rw [startCell_impl _ _ fun hn => hx (by linarith), startCell_impl _ _ fun hn => hy (by linarith)]
    rw [hf.marchCells_clear .cpp N a b hdir hclear _ _ h (start_inv a b (Spec.lerp a b h) h h rfl rfl) rfl rfl h0
      fun _ => not_lt.mp hneg]
    by_cases hins : marchInside f ⟨Spec.lerp a b h, startCell .py (Spec.lerp a b h).x (b.x - a.x),
        startCell .py (Spec.lerp a b h).y (b.y - a.y), h⟩ = true
    · rw [if_pos hins, if_neg (by rw [hins]; decide)]
      cases Shareloc.marchCells f N a b (cellFuel f) _ with
      | inl o => rfl
      | inr s => rfl
    · rw [if_neg hins, if_pos (by simpa using hins)]

/-- C100, C++: if the first cell has data, a straight line of sight that stays more than two rows and two columns away from the
holes gets the answer it gets when the holes are filled with any altitudes of the range of the DTM.  As in C60, the line does not
enter the box at a whole row or column other than 2 in the direction in which they decrease. -/
theorem C100_cpp_far_from_holes {d : NanDtm K} {f : Dtm K} (hf : Fills d f) (hr : 2 ≤ d.nbRows) (hc : 2 ≤ d.nbCols)
    (h00 : d.alt 0 0 ≠ none) (N : ℕ) (A B a b : V3 K) (ha : a = terToIndexPy d.transform A) (hb : b = terToIndexPy d.transform B)
    (hclear : ∀ t, 0 ≤ t → t ≤ 1 → InFootprint d.nbRows d.nbCols (Spec.lerp a b t) → ClearAround d (Spec.lerp a b t))
    (hentry : ∀ t, 0 ≤ t → t ≤ 1 → (∃ k, OnFacePlane d.nbRows d.nbCols f.altMin f.altMax k (Spec.lerp a b t)) →
      (b.x < a.x → ∀ m : ℤ, (Spec.lerp a b t).x = m → m = 2) ∧ (b.y < a.y → ∀ m : ℤ, (Spec.lerp a b t).y = m → m = 2)) :
    d.losDtm .cpp N [some A, some B] = Shareloc.losDtm .cpp f N [A, B] := by
  obtain ⟨hlo, hhi⟩ := hf.range_cpp (by omega) (by omega) h00
  unfold NanDtm.losDtm NanDtm.losDtmTurns Shareloc.losDtm intersectDtmCube tersToIndexsPy
  rw [hf.transform]
  simp only [List.map_cons, List.map_nil, Option.map_some]
  rw [← ha, ← hb]
  have e : [some a, some b] = [a, b].map some := rfl
  rw [e, NanDtm.cube_of_range hf.rows hf.cols hlo hhi]
  simp only [NanDtm.intersectionNan_map]
  cases hcube : Shareloc.cubeOfIndex .cpp f [a, b] with
  | error e => rfl
  | ok o =>
    cases o with
    | none => rfl
    | some c =>
      obtain ⟨cs, hcs⟩ : ∃ cs, faceHits .cpp f [a, b] [0, 1, 2, 3, 4, 5] = .ok cs := by
        cases hh : faceHits .cpp f [a, b] [0, 1, 2, 3, 4, 5] with
        | error e => simp [Shareloc.cubeOfIndex, hh] at hcube
        | ok cs => exact ⟨cs, rfl⟩
      obtain ⟨hm, _, _⟩ := (cubeOfIndex_spec .cpp f _ cs hcs).1 c hcube
      obtain ⟨k, _, hk⟩ := (mem_faceHits .cpp f _ _ cs hcs c).mp hm
      obtain ⟨hon, hface⟩ : OnPolyline [a, b] c.h c.p ∧ OnFacePlane f.nbRows f.nbCols f.altMin f.altMax k c.p := by
        rcases faceHit_cases .cpp f k _ c hk with h | h
        · exact ⟨h.1, h.2⟩
        · exact absurd h.1 (by simp)
      obtain ⟨h0, h1, hp⟩ := (onPolyline_pair a b c.h c.p).1 hon
      have hbox := (cubeOfIndex_entry .cpp f _ c hcube).1
      rw [hf.rows, hf.cols, hp] at hface hbox
      obtain ⟨hx, hy⟩ := hentry c.h h0 h1 ⟨k, hface⟩
      simp only [hp]
      rw [hf.intersectionIdx_clear hr hc N a b c.h h0 h1 ⟨hbox.1, hbox.2.1, hbox.2.2.1, hbox.2.2.2.1⟩ hclear hx hy]
      cases Shareloc.intersectionIdx .cpp f N [a, b] (Spec.lerp a b c.h) c.h <;> rfl

/-! ### What is located near a hole -/

theorem NanDtm.falsi_found (g : K → K → Option K) : ∀ (n : ℕ) (p1 p2 : V3 K) (a h : K) (q : V3 K),
    NanDtm.falsi g n p1 a p2 h = .found q → g q.x q.y = none ∨ ∃ z, g q.x q.y = some z ∧ |z - q.z| ≤ 1 / 10000 := by
  intro n
  induction n with
  | zero => intro p1 p2 a h q hq; cases hq
  | succ n ih =>
    intro p1 p2 a h q hq
    rw [NanDtm.falsi_succ] at hq
    split_ifs at hq with h1
    generalize (⟨p1.x + (p1.z - a) / ((h - a) - (p2.z - p1.z)) * (p2.x - p1.x),
        p1.y + (p1.z - a) / ((h - a) - (p2.z - p1.z)) * (p2.y - p1.y),
        p1.z + (p1.z - a) / ((h - a) - (p2.z - p1.z)) * (p2.z - p1.z)⟩ : V3 K) = r at hq
    unfold NanDtm.falsiNext at hq
    split at hq
    · rename_i hz
      injection hq with hq
      subst hq
      exact .inl hz
    · rename_i zv hz
      split_ifs at hq with h2 h3
      · exact ih _ _ _ _ _ hq
      · exact ih _ _ _ _ _ hq
      · injection hq with hq
        subst hq
        exact .inr ⟨zv, hz, not_lt.1 h2⟩

theorem NanDtm.marchCells_found (impl : Impl) (d : NanDtm K) (N : ℕ) (v0 v1 : V3 K) : ∀ (n : ℕ) (s : March K) (q : V3 K),
    d.marchCells impl N v0 v1 n s = .inl (.found q) →
    d.interpolate q.x q.y = none ∨ ∃ z, d.interpolate q.x q.y = some z ∧ |z - q.z| ≤ 1 / 10000 := by
  intro n
  induction n with
  | zero => intro s q h; cases h
  | succ n ih =>
    intro s q h
    unfold NanDtm.marchCells at h
    split at h
    · dsimp only at h
      split at h
      · split at h
        · split at h
          · injection h with h
            exact NanDtm.falsi_found _ _ _ _ _ _ _ h
          · exact ih _ _ h
        · exact ih _ _ h
      · exact ih _ _ h
    · cases h

theorem NanDtm.marchPlanes_found (impl : Impl) (d : NanDtm K) (N : ℕ) (los : List (V3 K)) : ∀ (n : ℕ) (i0 : ℤ) (p2 : V3 K) (hp2 : K)
    (q : V3 K), d.marchPlanes impl N los n i0 p2 hp2 = .found q →
    d.interpolate q.x q.y = none ∨ ∃ z, d.interpolate q.x q.y = some z ∧ |z - q.z| ≤ 1 / 10000 := by
  intro n
  induction n with
  | zero => intro i0 p2 hp2 q h; cases h
  | succ n ih =>
    intro i0 p2 hp2 q h
    unfold NanDtm.marchPlanes at h
    split_ifs at h with h1
    dsimp only at h
    split at h
    · split at h
      · rename_i z hz
        split_ifs at h with h4
        · injection h with h
          subst h
          exact .inr ⟨z, hz, by rw [sub_self, abs_zero]; positivity⟩
        · exact ih _ _ _ _ h
      · exact ih _ _ _ _ h
    · generalize (if hp2 - (i0 : K) ≥ 1 then 0 else hp2 - (i0 : K)) = a2 at h
      split at h
      · cases h
      · split at h
        · rename_i o ho
          rw [h] at ho
          exact NanDtm.marchCells_found impl d N _ _ _ _ _ ho
        · split at h
          · exact ih _ _ _ _ h
          · cases h

/-- The cell loop of a segment with a NaN vertex: no turn changes anything. -/
theorem NanDtm.nanCells_eq (d : NanDtm K) (s : March K) (h : marchInside d.sizes s = true) : ∀ n,
    NanDtm.nanCells d (n + 1) s = .inl (if d.interpolate s.p2.x s.p2.y = some s.p2.z then .nonFinite else .marchFuel) := by
  intro n
  induction n with
  | zero =>
    unfold NanDtm.nanCells
    rw [if_pos h]
    cases hz : d.interpolate s.p2.x s.p2.y with
    | none => rfl
    | some z =>
      dsimp only
      by_cases e : z = s.p2.z
      · subst e; simp
      · rw [if_neg (fun hc : some z = some s.p2.z => e (by injection hc)), if_neg]
        · rfl
        · intro hc
          have := mul_self_nonneg (s.p2.z - z)
          have := mul_self_eq_zero.1 (le_antisymm hc this)
          exact e (by linarith)
  | succ n ih =>
    unfold NanDtm.nanCells
    rw [if_pos h]
    cases hz : d.interpolate s.p2.x s.p2.y with
    | none => rw [hz] at ih; exact ih
    | some z =>
      dsimp only
      by_cases e : z = s.p2.z
      · subst e; simp
      · rw [if_neg]
        · rw [hz] at ih; exact ih
        · intro hc
          have := mul_self_nonneg (s.p2.z - z)
          have := mul_self_eq_zero.1 (le_antisymm hc this)
          exact e (by linarith)

theorem NanDtm.marchPlanesNan_turns (impl : Impl) (d : NanDtm K) (N t : ℕ) (los : List (Option (V3 K))) :
    ∀ (n : ℕ) (i0 : ℤ) (p2 : V3 K) (hp2 : K),
    d.marchPlanesNan impl N (t + 1) los n i0 p2 hp2 = d.marchPlanesNan impl N 1 los n i0 p2 hp2 := by
  intro n
  induction n with
  | zero => intros; rfl
  | succ n ih =>
    intro i0 p2 hp2
    unfold NanDtm.marchPlanesNan
    by_cases hi : i0 < (los.length : ℤ) - 1
    swap
    · rw [if_neg hi, if_neg hi]
    rw [if_pos hi, if_pos hi]
    simp only [ih]
    generalize (if hp2 - (i0 : K) ≥ 1 then 0 else hp2 - (i0 : K)) = a2
    by_cases hin : marchInside d.sizes ⟨p2, ⌊p2.x⌋, ⌊p2.y⌋, a2⟩ = true
    · rw [NanDtm.nanCells_eq d _ hin t, NanDtm.nanCells_eq d _ hin 0]
    · have : (!marchInside d.sizes ⟨p2, ⌊p2.x⌋, ⌊p2.y⌋, a2⟩) = true := by simpa using hin
      simp only [this, if_true]

/-- The number of turns made on a segment with a NaN vertex does not matter, if there is at least one. -/
theorem NanDtm.losDtmTurns_eq (impl : Impl) (d : NanDtm K) (N t : ℕ) (los : List (Option (V3 K))) :
    d.losDtmTurns impl N (t + 1) los = d.losDtm impl N los := by
  unfold NanDtm.losDtm NanDtm.losDtmTurns NanDtm.intersectionNan
  simp only [NanDtm.marchPlanesNan_turns]

theorem NanDtm.marchPlanesNan_found (impl : Impl) (d : NanDtm K) (N turns : ℕ) (los : List (Option (V3 K))) :
    ∀ (n : ℕ) (i0 : ℤ) (p2 : V3 K) (hp2 : K) (q : V3 K), d.marchPlanesNan impl N (turns + 1) los n i0 p2 hp2 = .found q →
    d.interpolate q.x q.y = none ∨ ∃ z, d.interpolate q.x q.y = some z ∧ |z - q.z| ≤ 1 / 10000 := by
  intro n
  induction n with
  | zero => intro i0 p2 hp2 q h; cases h
  | succ n ih =>
    intro i0 p2 hp2 q h
    unfold NanDtm.marchPlanesNan at h
    by_cases h1 : i0 < (los.length : ℤ) - 1
    swap
    · rw [if_neg h1] at h; cases h
    rw [if_pos h1] at h
    dsimp only at h
    generalize (if hp2 - (i0 : K) ≥ 1 then 0 else hp2 - (i0 : K)) = a2 at h
    split at h
    · split at h
      · split at h
        · rename_i z hz
          split_ifs at h with h4
          · injection h with h
            subst h
            exact .inr ⟨z, hz, by rw [sub_self, abs_zero]; positivity⟩
          · exact ih _ _ _ _ h
        · exact ih _ _ _ _ h
      · split at h
        · cases h
        · split at h
          · rename_i o ho
            rw [h] at ho
            exact NanDtm.marchCells_found impl d N _ _ _ _ _ ho
          · split at h
            · exact ih _ _ _ _ h
            · cases h
    · by_cases hin : marchInside d.sizes ⟨p2, ⌊p2.x⌋, ⌊p2.y⌋, a2⟩ = true
      · rw [NanDtm.nanCells_eq d _ hin] at h
        simp only [hin] at h
        split_ifs at h
      · have : (!marchInside d.sizes ⟨p2, ⌊p2.x⌋, ⌊p2.y⌋, a2⟩) = true := by simpa using hin
        simp only [this, if_true] at h
        cases h

/-- C100: a point located on a DTM with holes is within the tolerance of the terrain, or it is where the interpolated altitude is
NaN (`C100_cpp_point_in_a_hole`: this happens), or it is the (0, 0, 0) of Python for a line that misses the terrain. -/
theorem C100_located_points (impl : Impl) (d : NanDtm K)
    (hdet : d.transform.a * d.transform.e - d.transform.b * d.transform.d ≠ 0) (N : ℕ) (los : List (Option (V3 K))) (P : V3 K)
    (h : d.losDtm impl N los = .point P) :
    d.interpolate (terToIndexPy d.transform P).x (terToIndexPy d.transform P).y = none ∨
    (∃ z, d.interpolate (terToIndexPy d.transform P).x (terToIndexPy d.transform P).y = some z ∧ |z - P.z| ≤ 1 / 10000) ∨
    (impl = .py ∧ P = ⟨0, 0, 0⟩) := by
  unfold NanDtm.losDtm NanDtm.losDtmTurns at h
  dsimp only at h
  split at h
  · cases h
  · cases h
  · rename_i c _
    unfold NanDtm.stored at h
    split at h
    · rename_i p hp
      injection h with h
      have : p.z = P.z ∧ terToIndexPy d.transform P = p := by
        rw [← h]
        exact ⟨rfl, C02_py_ter_to_index_index_to_ter d.transform hdet p⟩
      rw [this.2]
      have hfound : d.interpolate p.x p.y = none ∨ ∃ z, d.interpolate p.x p.y = some z ∧ |z - p.z| ≤ 1 / 10000 := by
        unfold NanDtm.intersectionNan at hp
        split at hp
        · split_ifs at hp
          exact NanDtm.marchPlanesNan_found _ _ _ _ _ _ _ _ _ _ hp
        · exact NanDtm.marchPlanesNan_found _ _ _ _ _ _ _ _ _ _ hp
      rcases hfound with h | h
      · exact .inl h
      · rw [this.1] at h
        exact .inr (.inl h)
    · cases impl with
      | py => injection h with h; exact .inr (.inr ⟨rfl, h.symm⟩)
      | cpp => cases h
    · cases h

/-! ### Wrong points near a hole, in C++ -/

/-- One hole, at the node (1, 1). -/
def holeNan : NanDtm ℚ :=
  ⟨fun i j => if i = 1 ∧ j = 1 then none else if i = 3 ∧ j = 3 then some 10 else some 0, 4, 5, ⟨1, 0, -1/2, 0, 1, -1/2⟩⟩

/-- The same DTM with some altitude at the hole. -/
def holeFilled (z : ℚ) : Dtm ℚ :=
  ⟨fun i j => if i = 1 ∧ j = 1 then z else if i = 3 ∧ j = 3 then 10 else 0, 4, 5, ⟨1, 0, -1/2, 0, 1, -1/2⟩⟩

theorem holeFilled_fills (z : ℚ) (h0 : 0 ≤ z) (h1 : z ≤ 10) : Fills holeNan (holeFilled z) where
  rows := rfl
  cols := rfl
  transform := rfl
  same := by
    intro i j _ w hw
    simp only [holeNan, holeFilled] at hw ⊢
    split_ifs at hw ⊢ <;> simpa using hw
  above := by
    intro i j _
    refine ⟨0, 0, 0, by unfold IsNode; decide, rfl, ?_⟩
    simp only [holeFilled]
    split_ifs <;> linarith
  below := by
    intro i j _
    refine ⟨3, 3, 10, by unfold IsNode; decide, rfl, ?_⟩
    simp only [holeFilled]
    split_ifs <;> linarith

/-- C100, C++: a point is located inside a hole, at an altitude that has nothing to do with the terrain there: if the altitude of the
hole is 10 (it is in the range of the DTM) the terrain is 5/8 above the point. -/
theorem C100_cpp_point_in_a_hole :
    holeNan.losDtm .cpp 5 [some ⟨9/2, -1, 11⟩, some ⟨1/2, 3, -5⟩] = .point ⟨7/4, 7/4, 0⟩ ∧
    holeNan.interpolate (7/4) (7/4) = none ∧
    Fills holeNan (holeFilled 10) ∧ (holeFilled 10).interpolate (7/4) (7/4) = 5/8 :=
  ⟨by decide +kernel, by decide +kernel, holeFilled_fills 10 (by norm_num) le_rfl, by decide +kernel⟩

/-- A ridge (rows 4 and 5, altitude 10) of which the slope that faces the sensor (row 3) is missing. -/
def ridgeNan : NanDtm ℚ :=
  ⟨fun i _ => if i = 3 then none else if i = 4 ∨ i = 5 then some 10 else some 0, 8, 4, ⟨1, 0, -1/2, 0, 1, -1/2⟩⟩

/-- C100, C++: a line of sight that enters the ground inside a hole goes on under the ground and is located where it comes out of it,
on the hidden side of the relief: the line is at row 4 under the ground (altitude 6, terrain 10) and the point located is at row
131/24 = 5.46. -/
theorem C100_cpp_point_behind_the_relief :
    ridgeNan.losDtm .cpp 5 [some ⟨3/2, -1, 8⟩, some ⟨3/2, 9, 4⟩] = .point ⟨3/2, 131/24, 65/12⟩ ∧
    terToIndexPy ridgeNan.transform ⟨3/2, 131/24, 65/12⟩ = ⟨131/24, 3/2, 65/12⟩ ∧
    Spec.lerp (⟨-1, 3/2, 8⟩ : V3 ℚ) ⟨9, 3/2, 4⟩ (1/2) = ⟨4, 3/2, 6⟩ ∧ ridgeNan.interpolate 4 (3/2) = some 10 := by
  decide +kernel

/-- The hypotheses of `C100_python_one_hole_locates_nothing`. -/
example : ridgeNan.losDtm .py 5 [some ⟨3/2, -1, 8⟩, some ⟨3/2, 9, 4⟩] = .nan :=
  C100_python_one_hole_locates_nothing ridgeNan 5 3 0 (by unfold IsNode; decide) rfl _

/-- A DTM of which the first cell has no altitude. -/
example (los : List (Option (V3 ℚ))) :
    let d : NanDtm ℚ := ⟨fun i j => if i = 0 ∧ j = 0 then none else some (i + j), 4, 4, ⟨1, 0, -1/2, 0, 1, -1/2⟩⟩
    d.losDtm .cpp 5 los = .nan ∨ d.losDtm .cpp 5 los = .failure :=
  C100_cpp_first_cell_hole _ 5 (by decide) (by decide) rfl los

/-- A DTM of ten rows of which the last one has no altitude. -/
def slopeNan : NanDtm ℚ := ⟨fun i _ => if i = 9 then none else some i, 10, 4, ⟨1, 0, -1/2, 0, 1, -1/2⟩⟩

/-- The same DTM with the altitudes 8 in the last row. -/
def slopeFilled : Dtm ℚ := ⟨fun i _ => if i = 9 then 8 else i, 10, 4, ⟨1, 0, -1/2, 0, 1, -1/2⟩⟩

theorem slopeFilled_fills : Fills slopeNan slopeFilled where
  rows := rfl
  cols := rfl
  transform := rfl
  same := by
    intro i j _ w hw
    simp only [slopeNan, slopeFilled] at hw ⊢
    split_ifs at hw ⊢
    simpa using hw
  above := by
    intro i j hn
    refine ⟨0, 0, 0, by unfold IsNode; decide, rfl, ?_⟩
    have := hn.1
    simp only [slopeFilled]
    split_ifs
    · norm_num
    · exact_mod_cast this
  below := by
    intro i j hn
    refine ⟨8, 0, 8, by unfold IsNode; decide, rfl, ?_⟩
    have h := hn.2.1
    simp only [slopeFilled] 
    split_ifs with h9
    · norm_num
    · have h' : i < 10 := by simpa [slopeNan] using h
      have : i ≤ 8 := by omega
      exact_mod_cast this

/-- The hypotheses of `C100_cpp_far_from_holes` and its conclusion: the line crosses the terrain, far from the hole. -/
example : slopeNan.losDtm .cpp 5 [some ⟨3/2, 1/2, 9⟩, some ⟨3/2, 6, -2⟩] = Shareloc.losDtm .cpp slopeFilled 5 [⟨3/2, 1/2, 9⟩, ⟨3/2, 6, -2⟩] ∧
    slopeNan.losDtm .cpp 5 [some ⟨3/2, 1/2, 9⟩, some ⟨3/2, 6, -2⟩] = .point ⟨3/2, 10/3, 10/3⟩ := by
  refine ⟨C100_cpp_far_from_holes slopeFilled_fills (by decide) (by decide) (by decide) 5 _ _ ⟨1/2, 3/2, 9⟩ ⟨6, 3/2, -2⟩
    (by decide +kernel) (by decide +kernel) ?_ ?_, by decide +kernel⟩
  · intro t h0 h1 _ i j hn hx hy
    simp only [slopeNan, Spec.lerp] at hx ⊢
    rw [abs_le] at hx
    split_ifs with h9
    · subst h9
      push_cast at hx
      linarith [hx.2]
    · simp
  · intro t _ _ _
    exact ⟨fun h => absurd h (by norm_num), fun h => absurd h (by norm_num)⟩

/-- A DTM without hole. -/
def fullNan : NanDtm ℚ := ⟨fun i j => some (i + j), 4, 4, ⟨1, 0, -1/2, 0, 1, -1/2⟩⟩

/-- The hypotheses of `C100_no_hole`. -/
example (impl : Impl) (los : List (V3 ℚ)) :
    fullNan.losDtm impl 5 (los.map some) =
      Shareloc.losDtm impl (⟨fun i j => (i : ℚ) + j, 4, 4, ⟨1, 0, -1/2, 0, 1, -1/2⟩⟩ : Dtm ℚ) 5 los :=
  C100_no_hole (d := fullNan) ⟨rfl, rfl, rfl, fun i j _ z h => by simpa [fullNan] using h, fun i j hn => ⟨i, j, _, hn, rfl, le_rfl⟩,
    fun i j hn => ⟨i, j, _, hn, rfl, le_rfl⟩⟩ (by decide) (by decide) (fun _ _ _ h => by cases h) impl 5 los

end Shareloc
