import Verif.Model.GridNan
import Verif.Props.GridDtm
import Verif.Props.GridPredictor
import Verif.Props.DtmNan

set_option linter.unusedSectionVars false
/-! C101: grids of which some nodes have no longitude or latitude. -/

namespace Shareloc
variable {K : Type*} [Field K] [LinearOrder K] [IsStrictOrderedRing K] [FloorRing K]

/-! ### Specification -/

/-- `f` is the grid `g` with its holes filled in any way. -/
structure FillsGrid (g : NanGrid K) (f : MultiGrid K) : Prop where
  nbalt : f.nbalt = g.nbalt
  nbrow : f.nbrow = g.nbrow
  nbcol : f.nbcol = g.nbcol
  alts : f.alts = g.alts
  row0 : f.row0 = g.row0
  col0 : f.col0 = g.col0
  steprow : f.steprow = g.steprow
  stepcol : f.stepcol = g.stepcol
  geographic : f.geographic = g.geographic
  lon : ∀ k i j, k < g.nbalt → i < g.nbrow → j < g.nbcol → ∀ v, g.lon k i j = some v → f.lon k i j = v
  lat : ∀ k i j, k < g.nbalt → i < g.nbrow → j < g.nbcol → ∀ v, g.lat k i j = some v → f.lat k i j = v

/-- A grid with at least two layers, of decreasing altitudes, two rows and two columns. -/
structure NanGrid.Usable (g : NanGrid K) : Prop where
  alt2 : 2 ≤ g.nbalt
  row2 : 2 ≤ g.nbrow
  col2 : 2 ≤ g.nbcol
  dec : Decreasing g.nbalt g.alts

/-- The nodes `c` and `c + 1` of an axis of `n` nodes surround the coordinate `t`; the outer cells extend outwards. -/
def CellOf (n : ℕ) (t : K) (c : ℕ) : Prop := c + 1 < n ∧ (c = 0 ∨ (c : K) ≤ t) ∧ (c + 2 = n ∨ t < (c : K) + 1)

/-- The layers `k` and `k + 1` surround the altitude; the outer intervals extend outwards. -/
def LayersOf (n : ℕ) (alts : ℕ → K) (alt : K) (k : ℕ) : Prop := k + 1 < n ∧ (k = 0 ∨ alt ≤ alts k) ∧ (k + 2 = n ∨ alts (k + 1) < alt)

/-- `(k, i, j)` (layer, row, column) is one of the eight nodes that surround a pixel and an altitude. -/
def NanGrid.Around (g : NanGrid K) (row col alt : K) (k i j : ℕ) : Prop :=
  (∃ c, LayersOf g.nbalt g.alts alt c ∧ (k = c ∨ k = c + 1)) ∧
  (∃ c, CellOf g.nbrow ((row - g.row0) / g.steprow) c ∧ (i = c ∨ i = c + 1)) ∧
  (∃ c, CellOf g.nbcol ((col - g.col0) / g.stepcol) c ∧ (j = c ∨ j = c + 1))

/-! ### Interpolation -/

theorem cellOf_gridCell (n : ℕ) (hn : 2 ≤ n) (t : K) : CellOf n t (gridCell n t) := by
  refine ⟨gridCell_le n hn t, ?_, ?_⟩
  · by_cases h : gridCell n t = 0
    · exact .inl h
    · right
      have : (gridCell n t : ℤ) ≤ ⌊t⌋ := by unfold gridCell at h ⊢; omega
      calc ((gridCell n t : ℕ) : K) = ((gridCell n t : ℤ) : K) := by norm_cast
        _ ≤ t := Int.le_floor.1 this
  · by_cases h : gridCell n t + 2 = n
    · exact .inl h
    · right
      have : ⌊t⌋ < (gridCell n t : ℤ) + 1 := by unfold gridCell at h ⊢; omega
      have := Int.floor_lt.1 this
      push_cast at this
      exact this

theorem cellOf_iff (n : ℕ) (hn : 2 ≤ n) (t : K) (c : ℕ) : CellOf n t c ↔ c = gridCell n t :=
  ⟨fun h => (gridCell_eq n t c h.1 h.2.1 h.2.2).symm, fun h => h ▸ cellOf_gridCell n hn t⟩

theorem layersOf_altUp (g : MultiGrid K) (hn : 2 ≤ g.nbalt) (hdec : Decreasing g.nbalt g.alts) (alt : K) :
    LayersOf g.nbalt g.alts alt (altUp g.alts g.nbalt alt) ∧ gridCell g.nbalt (altNorm g alt) = altUp g.alts g.nbalt alt := by
  obtain ⟨m, hm, hiff, hup, -⟩ := altUp_eq g.alts g.nbalt alt hdec
  have h1 : altUp g.alts g.nbalt alt + 1 < g.nbalt := by omega
  have h2 : altUp g.alts g.nbalt alt = 0 ∨ alt ≤ g.alts (altUp g.alts g.nbalt alt) := by
    by_cases h : altUp g.alts g.nbalt alt = 0
    · exact .inl h
    · exact .inr ((hiff _ (by omega)).2 (by omega))
  have h3 : altUp g.alts g.nbalt alt + 2 = g.nbalt ∨ g.alts (altUp g.alts g.nbalt alt + 1) < alt := by
    by_cases h : altUp g.alts g.nbalt alt + 2 = g.nbalt
    · exact .inl h
    · right
      by_contra hlt
      push Not at hlt
      have := (hiff (altUp g.alts g.nbalt alt + 1) h1).1 hlt
      omega
  refine ⟨⟨h1, h2, h3⟩, ?_⟩
  have e : altNorm g alt = (altUp g.alts g.nbalt alt : K) + 1 - (alt - g.alts (altUp g.alts g.nbalt alt + 1)) /
      (g.alts (altUp g.alts g.nbalt alt) - g.alts (altUp g.alts g.nbalt alt + 1)) := rfl
  have hd : 0 < g.alts (altUp g.alts g.nbalt alt) - g.alts (altUp g.alts g.nbalt alt + 1) := sub_pos.2 (hdec _ _ (by omega) h1)
  apply gridCell_eq _ _ _ h1
  · rcases h2 with h | h
    · exact .inl h
    · right
      rw [e]
      have := (div_le_one hd).2 (sub_le_sub_right h (g.alts (altUp g.alts g.nbalt alt + 1)))
      linarith
  · rcases h3 with h | h
    · exact .inl h
    · right
      rw [e]
      have := div_pos (sub_pos.2 h) hd
      linarith

theorem layersOf_iff (g : MultiGrid K) (hn : 2 ≤ g.nbalt) (hdec : Decreasing g.nbalt g.alts) (alt : K) (c : ℕ) :
    LayersOf g.nbalt g.alts alt c ↔ c = altUp g.alts g.nbalt alt := by
  refine ⟨fun h => ?_, fun h => h ▸ (layersOf_altUp g hn hdec alt).1⟩
  obtain ⟨a1, a2, a3⟩ := h
  obtain ⟨⟨b1, b2, b3⟩, -⟩ := layersOf_altUp g hn hdec alt
  rcases lt_trichotomy c (altUp g.alts g.nbalt alt) with h | h | h
  · exfalso
    rcases a3 with h' | h'
    · omega
    · rcases b2 with h'' | h''
      · omega
      · have : g.alts (altUp g.alts g.nbalt alt) ≤ g.alts (c + 1) := by
          rcases Nat.eq_or_lt_of_le (Nat.succ_le_of_lt h) with e | e
          · exact (congrArg g.alts e).ge
          · exact (hdec _ _ e (by omega)).le
        exact absurd (h''.trans this) (not_le.2 h')
  · exact h
  · exfalso
    rcases b3 with h' | h'
    · omega
    · rcases a2 with h'' | h''
      · omega
      · have : g.alts c ≤ g.alts (altUp g.alts g.nbalt alt + 1) := by
          rcases Nat.eq_or_lt_of_le (Nat.succ_le_of_lt h) with e | e
          · exact (congrArg g.alts e).ge
          · exact (hdec _ _ e (by omega)).le
        exact absurd (h''.trans this) (not_le.2 h')

theorem olerp_none_iff (n : ℕ) (f : ℕ → Option K) (t : K) :
    olerp n f t = none ↔ f (gridCell n t) = none ∨ f (gridCell n t + 1) = none := by
  unfold olerp
  cases f (gridCell n t) <;> cases f (gridCell n t + 1) <;> simp

theorem olerp_some (n : ℕ) (hn : 2 ≤ n) (f : ℕ → Option K) (h : ℕ → K) (hf : ∀ i < n, ∀ v, f i = some v → h i = v) (t v : K)
    (e : olerp n f t = some v) : lerp n h t = v := by
  have := gridCell_le n hn t
  unfold olerp at e
  split at e
  · rename_i a b ha hb
    injection e with e
    rw [← e]
    simp only [lerp]
    rw [hf _ (by omega) _ ha, hf _ this _ hb]
  · cases e

variable {g : NanGrid K} {f : MultiGrid K}

theorem NanGrid.interp_none_iff (hu : g.Usable) (data : ℕ → ℕ → ℕ → Option K) (row col alt : K) :
    g.interp data (altNorm g.sizes alt) row col = none ↔ ∃ k i j, g.Around row col alt k i j ∧ data k i j = none := by
  have hl := layersOf_iff g.sizes hu.alt2 hu.dec alt
  have hc : gridCell g.nbalt (altNorm g.sizes alt) = altUp g.alts g.nbalt alt := (layersOf_altUp g.sizes hu.alt2 hu.dec alt).2
  unfold NanGrid.interp
  simp only [olerp_none_iff, hc]
  constructor
  · intro h
    have key : ∃ k i j, (k = altUp g.alts g.nbalt alt ∨ k = altUp g.alts g.nbalt alt + 1) ∧
        (i = gridCell g.nbrow ((row - g.row0) / g.steprow) ∨ i = gridCell g.nbrow ((row - g.row0) / g.steprow) + 1) ∧
        (j = gridCell g.nbcol ((col - g.col0) / g.stepcol) ∨ j = gridCell g.nbcol ((col - g.col0) / g.stepcol) + 1) ∧
        data k i j = none := by
      rcases h with ((h | h) | (h | h)) | ((h | h) | (h | h))
      · exact ⟨_, _, _, .inl rfl, .inl rfl, .inl rfl, h⟩
      · exact ⟨_, _, _, .inl rfl, .inl rfl, .inr rfl, h⟩
      · exact ⟨_, _, _, .inl rfl, .inr rfl, .inl rfl, h⟩
      · exact ⟨_, _, _, .inl rfl, .inr rfl, .inr rfl, h⟩
      · exact ⟨_, _, _, .inr rfl, .inl rfl, .inl rfl, h⟩
      · exact ⟨_, _, _, .inr rfl, .inl rfl, .inr rfl, h⟩
      · exact ⟨_, _, _, .inr rfl, .inr rfl, .inl rfl, h⟩
      · exact ⟨_, _, _, .inr rfl, .inr rfl, .inr rfl, h⟩
    obtain ⟨k, i, j, hk, hi, hj, hd⟩ := key
    exact ⟨k, i, j, ⟨⟨_, (hl _).2 rfl, hk⟩, ⟨_, cellOf_gridCell _ hu.row2 _, hi⟩, ⟨_, cellOf_gridCell _ hu.col2 _, hj⟩⟩, hd⟩
  · rintro ⟨k, i, j, ⟨⟨c1, h1, hk⟩, ⟨c2, h2, hi⟩, ⟨c3, h3, hj⟩⟩, hd⟩
    obtain rfl := (hl _).1 h1
    obtain rfl := (cellOf_iff _ hu.row2 _ _).1 h2
    obtain rfl := (cellOf_iff _ hu.col2 _ _).1 h3
    rcases hk with rfl | rfl <;> rcases hi with rfl | rfl <;> rcases hj with rfl | rfl
    · exact .inl (.inl (.inl hd))
    · exact .inl (.inl (.inr hd))
    · exact .inl (.inr (.inl hd))
    · exact .inl (.inr (.inr hd))
    · exact .inr (.inl (.inl hd))
    · exact .inr (.inl (.inr hd))
    · exact .inr (.inr (.inl hd))
    · exact .inr (.inr (.inr hd))

theorem FillsGrid.norm (hf : FillsGrid g f) (alt : K) : altNorm f alt = altNorm g.sizes alt := by
  unfold altNorm; rw [hf.alts, hf.nbalt]; rfl

theorem FillsGrid.interp (hf : FillsGrid g f) (hu : g.Usable) (data : ℕ → ℕ → ℕ → Option K) (full : ℕ → ℕ → ℕ → K)
    (hd : ∀ k i j, k < g.nbalt → i < g.nbrow → j < g.nbcol → ∀ v, data k i j = some v → full k i j = v) (a row col v : K)
    (h : g.interp data a row col = some v) : gridInterp f full a row col = v := by
  unfold gridInterp
  rw [hf.nbalt, hf.nbrow, hf.nbcol, hf.row0, hf.col0, hf.steprow, hf.stepcol]
  refine olerp_some _ hu.alt2 _ _ ?_ _ _ h
  intro k hk w hw
  refine olerp_some _ hu.row2 _ _ ?_ _ _ hw
  intro i hi w hw
  refine olerp_some _ hu.col2 _ _ ?_ _ _ hw
  intro j hj w hw
  exact hd k i j hk hi hj w hw

/-! ### Direct location -/

theorem NanGrid.point_cases (hf : FillsGrid g f) (hu : g.Usable) (row col alt : Option K) :
    g.point row col alt = gridPoint f row col alt ∨ (g.point row col alt).x = none ∨ (g.point row col alt).y = none := by
  unfold NanGrid.point gridPoint
  rw [hf.geographic]
  rcases row with _ | r <;> rcases col with _ | c <;> rcases alt with _ | a <;> try (exact .inl rfl)
  dsimp only
  cases hx : g.interp g.lon (altNorm g.sizes a) r c with
  | none =>
    right; left
    split
    · rw [checkRow_nan (.inl rfl)]; rfl
    · rfl
  | some x =>
    cases hy : g.interp g.lat (altNorm g.sizes a) r c with
    | none =>
      right; right
      split
      · rw [checkRow_nan (.inr (.inl rfl))]; rfl
      · rfl
    | some y =>
      left
      rw [hf.norm, hf.interp hu g.lon f.lon hf.lon _ _ _ _ hx, hf.interp hu g.lat f.lat hf.lat _ _ _ _ hy]

/-- C101, direct location at an altitude: if one of the eight nodes around the pixel and the altitude has no longitude (no latitude) the
located point has none; if the eight nodes have both, the located point is the one of the grid with its holes filled in any way. -/
theorem C101_direct_loc (hf : FillsGrid g f) (hu : g.Usable) (row col alt : K) :
    ((∃ k i j, g.Around row col alt k i j ∧ g.lon k i j = none) → (g.point (some row) (some col) (some alt)).x = none) ∧
    ((∃ k i j, g.Around row col alt k i j ∧ g.lat k i j = none) → (g.point (some row) (some col) (some alt)).y = none) ∧
    ((∀ k i j, g.Around row col alt k i j → g.lon k i j ≠ none ∧ g.lat k i j ≠ none) →
      g.point (some row) (some col) (some alt) = gridPoint f (some row) (some col) (some alt)) := by
  refine ⟨fun h => ?_, fun h => ?_, fun h => ?_⟩
  · rw [← NanGrid.interp_none_iff hu] at h
    simp only [NanGrid.point, h]
    split
    · rw [checkRow_nan (.inl rfl)]; rfl
    · rfl
  · rw [← NanGrid.interp_none_iff hu] at h
    simp only [NanGrid.point, h]
    split
    · rw [checkRow_nan (.inr (.inl rfl))]; rfl
    · rfl
  · have hx : g.interp g.lon (altNorm g.sizes alt) row col ≠ none := by
      rw [Ne, NanGrid.interp_none_iff hu]
      rintro ⟨k, i, j, ha, hd⟩
      exact (h k i j ha).1 hd
    have hy : g.interp g.lat (altNorm g.sizes alt) row col ≠ none := by
      rw [Ne, NanGrid.interp_none_iff hu]
      rintro ⟨k, i, j, ha, hd⟩
      exact (h k i j ha).2 hd
    obtain ⟨x, hx⟩ := Option.ne_none_iff_exists'.1 hx
    obtain ⟨y, hy⟩ := Option.ne_none_iff_exists'.1 hy
    simp only [NanGrid.point, gridPoint, hx, hy]
    rw [hf.geographic, hf.norm, hf.interp hu g.lon f.lon hf.lon _ _ _ _ hx, hf.interp hu g.lat f.lat hf.lat _ _ _ _ hy]

/-- C101, arrays of pixels: the holes do not change the errors, nor any located point but to NaN. -/
theorem C101_direct_loc_arrays (hf : FillsGrid g f) (hu : g.Usable) (row col alt : List (Option K)) :
    (∀ e, gridDirectLocH f row col alt = .error e → g.directLocH row col alt = .error e) ∧
    ∀ full, gridDirectLocH f row col alt = .ok full → ∃ out, g.directLocH row col alt = .ok out ∧ out.length = full.length ∧
      ∀ (n : ℕ) p q, out[n]? = some p → full[n]? = some q → p = q ∨ p.x = none ∨ p.y = none := by
  unfold gridDirectLocH NanGrid.directLocH
  cases broadcastAlt col.length alt with
  | error e => exact ⟨fun e h => h, fun full h => by cases h⟩
  | ok alt' =>
    dsimp only
    split_ifs with hl
    · refine ⟨fun e h => (by cases h), fun full h => ?_⟩
      injection h with h
      refine ⟨_, rfl, by rw [← h]; simp, fun n p q hp hq => ?_⟩
      rw [← h, List.getElem?_map] at hq
      rw [List.getElem?_map] at hp
      cases hn : (row.zip (col.zip alt'))[n]? with
      | none => rw [hn] at hp; cases hp
      | some t =>
        rw [hn] at hp hq
        simp only [Option.map_some, Option.some.injEq] at hp hq
        rw [← hp, ← hq]
        exact NanGrid.point_cases hf hu _ _ _
    · exact ⟨fun e h => h, fun full h => by cases h⟩

/-! ### Inverse location -/

theorem NanGrid.diff_of_interp (hf : FillsGrid g f) (hu : g.Usable) (data : ℕ → ℕ → ℕ → Option K) (full : ℕ → ℕ → ℕ → K)
    (hd : ∀ k i j, k < g.nbalt → i < g.nbrow → j < g.nbcol → ∀ v, data k i j = some v → full k i j = v) (row col alt v step : K)
    (h : g.interp data (altNorm g.sizes alt) row col = some v) (i' j' : ℕ)
    (hi : i' = gridCell g.nbrow ((row - g.row0) / g.steprow) ∨ i' = gridCell g.nbrow ((row - g.row0) / g.steprow) + 1)
    (hj : j' = gridCell g.nbcol ((col - g.col0) / g.stepcol) ∨ j' = gridCell g.nbcol ((col - g.col0) / g.stepcol) + 1) :
    ∃ u : ℕ, returnGridIndex f alt = ((u : ℤ), ((u + 1 : ℕ) : ℤ)) ∧ u + 1 < g.nbalt ∧
    g.diff data step alt (gridCell g.nbrow ((row - g.row0) / g.steprow)) (gridCell g.nbcol ((col - g.col0) / g.stepcol)) i' j' =
      some ((1 - (alt - g.alts (u + 1)) / (g.alts u - g.alts (u + 1))) *
          ((full (u + 1) i' j' - full (u + 1) (gridCell g.nbrow ((row - g.row0) / g.steprow)) (gridCell g.nbcol ((col - g.col0) / g.stepcol))) / step) +
        (alt - g.alts (u + 1)) / (g.alts u - g.alts (u + 1)) *
          ((full u i' j' - full u (gridCell g.nbrow ((row - g.row0) / g.steprow)) (gridCell g.nbcol ((col - g.col0) / g.stepcol))) / step)) := by
  obtain ⟨u, hu1, hu2, hu3, -, -⟩ := C30_bracketing g.sizes alt hu.alt2 hu.dec
  have hidx : returnGridIndex f alt = returnGridIndex g.sizes alt := by
    unfold returnGridIndex; rw [hf.alts, hf.nbalt]; rfl
  have hc : gridCell g.nbalt (altNorm g.sizes alt) = u := (layersOf_altUp g.sizes hu.alt2 hu.dec alt).2.trans hu3.symm
  have hall : ∀ k i j, (k = u ∨ k = u + 1) →
      (i = gridCell g.nbrow ((row - g.row0) / g.steprow) ∨ i = gridCell g.nbrow ((row - g.row0) / g.steprow) + 1) →
      (j = gridCell g.nbcol ((col - g.col0) / g.stepcol) ∨ j = gridCell g.nbcol ((col - g.col0) / g.stepcol) + 1) →
      data k i j = some (full k i j) := by
    intro k i j hk hi hj
    cases hdk : data k i j with
    | some w =>
      have r := gridCell_le g.nbrow hu.row2 ((row - g.row0) / g.steprow)
      have c := gridCell_le g.nbcol hu.col2 ((col - g.col0) / g.stepcol)
      have hu2' : u + 1 < g.nbalt := hu2
      rw [hd k i j (by omega) (by omega) (by omega) w hdk]
    | none =>
      exfalso
      have := (NanGrid.interp_none_iff hu data row col alt).2 ⟨k, i, j, ⟨⟨u, (layersOf_iff g.sizes hu.alt2 hu.dec alt u).2 hu3, hk⟩,
        ⟨_, cellOf_gridCell _ hu.row2 _, hi⟩, ⟨_, cellOf_gridCell _ hu.col2 _, hj⟩⟩, hdk⟩
      rw [this] at h
      cases h
  refine ⟨u, hidx.trans hu1, hu2, ?_⟩
  have p1 : pyIndex g.nbalt ((u : ℕ) : ℤ) = u := by unfold pyIndex; rw [if_neg (by omega)]; omega
  have p2 : pyIndex g.nbalt ((u + 1 : ℕ) : ℤ) = u + 1 := by unfold pyIndex; rw [if_neg (by omega)]; omega
  unfold NanGrid.diff
  simp only [hu1, p1, p2]
  rw [hall _ _ _ (.inr rfl) (.inl rfl) (.inl rfl), hall _ _ _ (.inr rfl) hi hj, hall _ _ _ (.inl rfl) (.inl rfl) (.inl rfl),
    hall _ _ _ (.inl rfl) hi hj]

theorem NanGrid.partial_of_interp (hf : FillsGrid g f) (hu : g.Usable) (rad row col alt x y : K)
    (hx : g.interp g.lon (altNorm g.sizes alt) row col = some x) (hy : g.interp g.lat (altNorm g.sizes alt) row col = some y) :
    g.inversePartial rad row col alt = Shareloc.inversePartial f rad row col alt := by
  obtain ⟨u, e1, l1, d1⟩ := NanGrid.diff_of_interp hf hu g.lon f.lon hf.lon row col alt x g.stepcol hx _ _ (.inl rfl) (.inr rfl)
  obtain ⟨u2, e2, l2, d2⟩ := NanGrid.diff_of_interp hf hu g.lon f.lon hf.lon row col alt x g.steprow hx _ _ (.inr rfl) (.inl rfl)
  obtain ⟨u3, e3, l3, d3⟩ := NanGrid.diff_of_interp hf hu g.lat f.lat hf.lat row col alt y g.stepcol hy _ _ (.inl rfl) (.inr rfl)
  obtain ⟨u4, e4, l4, d4⟩ := NanGrid.diff_of_interp hf hu g.lat f.lat hf.lat row col alt y g.steprow hy _ _ (.inr rfl) (.inl rfl)
  have same : ∀ w : ℕ, returnGridIndex f alt = ((w : ℤ), ((w + 1 : ℕ) : ℤ)) → w = u := by
    intro w hw
    rw [e1] at hw
    have := congrArg Prod.fst hw
    simpa using this.symm
  obtain rfl := same u2 e2
  obtain rfl := same u3 e3
  obtain rfl := same u4 e4
  have p1 : pyIndex g.nbalt ((u4 : ℕ) : ℤ) = u4 := by unfold pyIndex; rw [if_neg (by omega)]; omega
  have p2 : pyIndex g.nbalt ((u4 + 1 : ℕ) : ℤ) = u4 + 1 := by unfold pyIndex; rw [if_neg (by omega)]; omega
  unfold NanGrid.inversePartial Shareloc.inversePartial gridDiffs
  simp only [d1, d2, d3, d4, e1, hf.nbalt, hf.nbrow, hf.nbcol, hf.row0, hf.col0, hf.steprow, hf.stepcol, hf.alts, p1, p2]

theorem NanGrid.step_cases (hf : FillsGrid g f) (hu : g.Usable) (rad rtx coslat lon lat alt : K) (s : GridIter K) :
    g.step rad rtx coslat lon lat alt s = gridStep f rad rtx coslat lon lat alt s ∨
    g.step rad rtx coslat lon lat alt s = ⟨none, none, none⟩ := by
  unfold NanGrid.step gridStep
  rcases s with ⟨_ | row, _ | col, err⟩ <;> try (exact .inl rfl)
  dsimp only
  rcases NanGrid.point_cases hf hu (some row) (some col) (some alt) with h | h | h
  · rw [h]
    split
    · rename_i x y hx hy
      left
      have hlon : g.interp g.lon (altNorm g.sizes alt) row col ≠ none := fun hn => by
        have := (C101_direct_loc hf hu row col alt).1 ((NanGrid.interp_none_iff hu _ _ _ _).1 hn)
        rw [h, hx] at this
        cases this
      have hlat : g.interp g.lat (altNorm g.sizes alt) row col ≠ none := fun hn => by
        have := (C101_direct_loc hf hu row col alt).2.1 ((NanGrid.interp_none_iff hu _ _ _ _).1 hn)
        rw [h, hy] at this
        cases this
      obtain ⟨x', hx'⟩ := Option.ne_none_iff_exists'.1 hlon
      obtain ⟨y', hy'⟩ := Option.ne_none_iff_exists'.1 hlat
      rw [NanGrid.partial_of_interp hf hu rad row col alt x' y' hx' hy']
      rw [hx, hy]
      cases Shareloc.inversePartial f rad row col alt <;> rfl
    · exact .inr rfl
  · right
    split
    · rename_i x y hx hy
      rw [h] at hx
      cases hx
    · rfl
  · right
    split
    · rename_i x y hx hy
      rw [h] at hy
      cases hy
    · rfl

theorem NanGrid.loop_nan (rad rtx coslat lon lat alt : K) (n : ℕ) :
    g.loop rad rtx coslat lon lat alt n ⟨none, none, none⟩ = (⟨none, none, none⟩, 0) := by
  cases n with
  | zero => rfl
  | succ n => unfold NanGrid.loop; rw [if_neg (by simp [gridErrBig])]

theorem NanGrid.loop_cases (hf : FillsGrid g f) (hu : g.Usable) (rad rtx coslat lon lat alt : K) : ∀ (n : ℕ) (s : GridIter K),
    g.loop rad rtx coslat lon lat alt n s = gridLoop f rad rtx coslat lon lat alt n s ∨
    ((g.loop rad rtx coslat lon lat alt n s).1.row = none ∧ (g.loop rad rtx coslat lon lat alt n s).1.col = none) := by
  intro n
  induction n with
  | zero => intro s; exact .inl rfl
  | succ n ih =>
    intro s
    unfold NanGrid.loop gridLoop
    split_ifs with hbig
    · dsimp only
      rcases NanGrid.step_cases hf hu rad rtx coslat lon lat alt s with h | h
      · rw [h]
        rcases ih (gridStep f rad rtx coslat lon lat alt s) with h' | h'
        · rw [h']; exact .inl rfl
        · exact .inr h'
      · rw [h, NanGrid.loop_nan]
        exact .inr ⟨rfl, rfl⟩
    · exact .inl rfl

theorem NanGrid.turnNan_full (hf : FillsGrid g f) (hu : g.Usable) (rad lon lat alt row col : K)
    (h : g.turnNan rad lon lat alt row col = true) : gridTurnNan f rad lon lat alt row col = true := by
  unfold NanGrid.turnNan at h
  dsimp only at h
  split at h
  swap
  · cases h
  rename_i plon plat hx hy
  have hpt : g.point (some row) (some col) (some alt) = gridPoint f (some row) (some col) (some alt) := by
    rcases NanGrid.point_cases hf hu (some row) (some col) (some alt) with h' | h' | h'
    · exact h'
    · rw [h'] at hx; cases hx
    · rw [h'] at hy; cases hy
  have hlon : g.interp g.lon (altNorm g.sizes alt) row col ≠ none := fun hn => by
    have := (C101_direct_loc hf hu row col alt).1 ((NanGrid.interp_none_iff hu _ _ _ _).1 hn)
    rw [hx] at this
    cases this
  have hlat : g.interp g.lat (altNorm g.sizes alt) row col ≠ none := fun hn => by
    have := (C101_direct_loc hf hu row col alt).2.1 ((NanGrid.interp_none_iff hu _ _ _ _).1 hn)
    rw [hy] at this
    cases this
  obtain ⟨x', hx'⟩ := Option.ne_none_iff_exists'.1 hlon
  obtain ⟨y', hy'⟩ := Option.ne_none_iff_exists'.1 hlat
  obtain ⟨u, e1, l1, d1⟩ := NanGrid.diff_of_interp hf hu g.lon f.lon hf.lon row col alt x' g.stepcol hx' _ _ (.inl rfl) (.inr rfl)
  obtain ⟨u2, e2, l2, d2⟩ := NanGrid.diff_of_interp hf hu g.lon f.lon hf.lon row col alt x' g.steprow hx' _ _ (.inr rfl) (.inl rfl)
  obtain ⟨u3, e3, l3, d3⟩ := NanGrid.diff_of_interp hf hu g.lat f.lat hf.lat row col alt y' g.stepcol hy' _ _ (.inl rfl) (.inr rfl)
  obtain ⟨u4, e4, l4, d4⟩ := NanGrid.diff_of_interp hf hu g.lat f.lat hf.lat row col alt y' g.steprow hy' _ _ (.inr rfl) (.inl rfl)
  have same : ∀ w : ℕ, returnGridIndex f alt = ((w : ℤ), ((w + 1 : ℕ) : ℤ)) → w = u := by
    intro w hw
    rw [e1] at hw
    have := congrArg Prod.fst hw
    simpa using this.symm
  obtain rfl := same u2 e2
  obtain rfl := same u3 e3
  obtain rfl := same u4 e4
  have p1 : pyIndex g.nbalt ((u4 : ℕ) : ℤ) = u4 := by unfold pyIndex; rw [if_neg (by omega)]; omega
  have p2 : pyIndex g.nbalt ((u4 + 1 : ℕ) : ℤ) = u4 + 1 := by unfold pyIndex; rw [if_neg (by omega)]; omega
  rw [d1, d2, d3, d4] at h
  dsimp only at h
  unfold gridTurnNan gridDiffs
  simp only [← hpt, hx, hy, e1, hf.nbalt, hf.nbrow, hf.nbcol, hf.row0, hf.col0, hf.steprow, hf.stepcol, hf.alts, p1, p2]
  exact h

/-- A hole makes no turn raise. -/
theorem NanGrid.raises_full (hf : FillsGrid g f) (hu : g.Usable) (rad rtx coslat lon lat alt : K) : ∀ (n : ℕ) (s : GridIter K),
    g.raises rad rtx coslat lon lat alt n s = true → gridRaises f rad rtx coslat lon lat alt n s = true := by
  intro n
  induction n with
  | zero => intro s h; cases h
  | succ n ih =>
    intro s h
    unfold NanGrid.raises at h
    unfold gridRaises
    by_cases hb : gridErrBig s.err = true
    swap
    · rw [if_neg hb] at h; cases h
    rw [if_pos hb] at h ⊢
    rcases s with ⟨_ | row, _ | col, err⟩ <;> try (cases h)
    dsimp only at h ⊢
    rw [Bool.or_eq_true] at h ⊢
    rcases NanGrid.step_cases hf hu rad rtx coslat lon lat alt ⟨some row, some col, err⟩ with hs | hs
    · rcases h with h | h
      · left
        simp only [Bool.and_eq_true] at h ⊢
        refine ⟨⟨NanGrid.turnNan_full hf hu rad lon lat alt row col h.1.1, ?_⟩, h.2⟩
        rw [← hs]; exact h.1.2
      · right
        rw [← hs]
        exact ih _ h
    · rw [hs] at h
      rcases h with h | h
      · simp [gridErrBig] at h
      · exfalso
        cases n with
        | zero => cases h
        | succ n => unfold NanGrid.raises at h; rw [if_neg (by simp [gridErrBig])] at h; cases h

/-- C101, inverse location: with the same predictor, the holes do not change any pixel found but to NaN. -/
theorem C101_inverse_loc (hf : FillsGrid g f) (hu : g.Usable) (p : Predictor K) (rad rtx : K) (cosdeg : K → K) (nbIterations : ℕ)
    (lon lat alt : Option K) :
    g.inversePoint p rad rtx cosdeg nbIterations lon lat alt = gridInversePoint f p rad rtx cosdeg nbIterations lon lat alt ∨
    ((g.inversePoint p rad rtx cosdeg nbIterations lon lat alt).x = none ∧
      (g.inversePoint p rad rtx cosdeg nbIterations lon lat alt).y = none) := by
  unfold NanGrid.inversePoint gridInversePoint gridInverse
  dsimp only
  have hp : ∀ lo la a, gridPredict g.sizes p lo la a = gridPredict f p lo la a := by
    intro lo la a
    unfold gridPredict
    rw [hf.alts, hf.nbalt]
    rfl
  generalize checkRow (⟨lon, lat, alt⟩ : ORow K) = q
  rcases q with ⟨_ | lo, _ | la, _ | a⟩ <;> try (exact .inl rfl)
  dsimp only
  rw [hp]
  rcases NanGrid.loop_cases hf hu rad rtx (cosdeg la) lo la a nbIterations
    ⟨some (gridPredict f p lo la a).1, some (gridPredict f p lo la a).2.1, some 10⟩ with h | h
  · rw [h]
    left
    split_ifs <;> rfl
  · right
    split_ifs
    · exact ⟨rfl, rfl⟩
    · exact h

/-- A hole makes no point raise. -/
theorem NanGrid.pointRaises_full (hf : FillsGrid g f) (hu : g.Usable) (p : Predictor K) (rad rtx : K) (cosdeg : K → K) (nbIterations : ℕ)
    (lon lat alt : Option K) (h : g.pointRaises p rad rtx cosdeg nbIterations lon lat alt = true) :
    gridPointRaises f p rad rtx cosdeg nbIterations lon lat alt = true := by
  unfold NanGrid.pointRaises at h
  unfold gridPointRaises
  dsimp only at h ⊢
  have hp : ∀ lo la a, gridPredict g.sizes p lo la a = gridPredict f p lo la a := by
    intro lo la a
    unfold gridPredict
    rw [hf.alts, hf.nbalt]
    rfl
  generalize checkRow (⟨lon, lat, alt⟩ : ORow K) = q at h ⊢
  rcases q with ⟨_ | lo, _ | la, _ | a⟩ <;> try (cases h)
  dsimp only at h ⊢
  rw [hp] at h
  exact NanGrid.raises_full hf hu _ _ _ _ _ _ _ _ h

/-- C101, arrays of ground points: when the full grid raises, so does the grid with holes, unless the exception is that of a null
determinant, which a hole can avoid; when the full grid answers, so does the grid with holes. -/
theorem C101_inverse_loc_arrays (hf : FillsGrid g f) (hu : g.Usable) (p : Predictor K) (rad rtx : K) (cosdeg : K → K) (nbIterations : ℕ)
    (lon lat alt : List (Option K)) :
    (∀ e, gridInverseLoc f p rad rtx cosdeg lon lat alt nbIterations = .error e →
      g.inverseLoc p rad rtx cosdeg lon lat alt nbIterations = .error e ∨
      (e = .derivativeNan ∧ ∃ out, g.inverseLoc p rad rtx cosdeg lon lat alt nbIterations = .ok out)) ∧
    ∀ full, gridInverseLoc f p rad rtx cosdeg lon lat alt nbIterations = .ok full →
      ∃ out, g.inverseLoc p rad rtx cosdeg lon lat alt nbIterations = .ok out ∧ out.length = full.length ∧
        ∀ (n : ℕ) a b, out[n]? = some a → full[n]? = some b → a = b ∨ (a.x = none ∧ a.y = none) := by
  unfold gridInverseLoc NanGrid.inverseLoc
  cases broadcastAlt lon.length alt with
  | error e => exact ⟨fun e h => .inl h, fun full h => by cases h⟩
  | ok alt' =>
    dsimp only
    by_cases hl : lon.length = lat.length
    · rw [if_pos hl, if_pos hl]
      have himp : ((lon.zip (lat.zip alt')).any fun t => g.pointRaises p rad rtx cosdeg nbIterations t.1 t.2.1 t.2.2) = true →
          ((lon.zip (lat.zip alt')).any fun t => gridPointRaises f p rad rtx cosdeg nbIterations t.1 t.2.1 t.2.2) = true := by
        intro h
        obtain ⟨t, ht, hr⟩ := List.any_eq_true.1 h
        exact List.any_eq_true.2 ⟨t, ht, NanGrid.pointRaises_full hf hu _ _ _ _ _ _ _ _ hr⟩
      by_cases hr : ((lon.zip (lat.zip alt')).any fun t => gridPointRaises f p rad rtx cosdeg nbIterations t.1 t.2.1 t.2.2) = true
      · rw [if_pos hr]
        refine ⟨fun e h => ?_, fun full h => by cases h⟩
        injection h with h
        subst h
        split_ifs
        · exact .inl rfl
        · exact .inr ⟨rfl, _, rfl⟩
      rw [if_neg hr, if_neg (fun h => hr (himp h))]
      refine ⟨fun e h => (by cases h), fun full h => ?_⟩
      injection h with h
      refine ⟨_, rfl, by rw [← h]; simp, fun n a b ha hb => ?_⟩
      rw [← h, List.getElem?_map] at hb
      rw [List.getElem?_map] at ha
      cases hn : (lon.zip (lat.zip alt'))[n]? with
      | none => rw [hn] at ha; cases ha
      | some t =>
        rw [hn] at ha hb
        simp only [Option.map_some, Option.some.injEq] at ha hb
        rw [← ha, ← hb]
        exact C101_inverse_loc hf hu _ _ _ _ _ _ _ _
    · rw [if_neg hl, if_neg hl]
      exact ⟨fun e h => .inl h, fun full h => by cases h⟩

/-! ### Predictor -/

theorem NanGrid.inAltitude_cases (hf : FillsGrid g f) (hu : g.Usable) (nbrow nbcol k i j : ℕ) :
    g.inAltitude nbrow nbcol k i j = gridInAltitude f nbrow nbcol 2 k i j ∨
    (g.inAltitude nbrow nbcol k i j).x = none ∨ (g.inAltitude nbrow nbcol k i j).y = none := by
  unfold NanGrid.inAltitude gridInAltitude gridDirectLocGridH
  rw [hf.nbalt, hf.nbrow, hf.nbcol, hf.row0, hf.col0, hf.steprow, hf.stepcol, hf.alts]
  dsimp only
  generalize (meshIj g.row0 g.col0 _ _ nbrow nbcol) = pts
  generalize linspace (g.alts 0) (g.alts (g.nbalt - 1)) 2 k = a
  obtain ⟨h1, h2⟩ := C101_direct_loc_arrays hf hu (pts.map fun p => some p.1) (pts.map fun p => some p.2) [some a]
  cases hfull : gridDirectLocH f (pts.map fun p => some p.1) (pts.map fun p => some p.2) [some a] with
  | error e => rw [h1 e hfull]; exact .inl rfl
  | ok full =>
    obtain ⟨out, ho, hlen, hout⟩ := h2 full hfull
    rw [ho]
    dsimp only
    rw [List.getD_eq_getElem?_getD, List.getD_eq_getElem?_getD]
    by_cases hb : i * nbcol + j < out.length
    · have hb' : i * nbcol + j < full.length := hlen ▸ hb
      rw [List.getElem?_eq_getElem hb, List.getElem?_eq_getElem hb']
      exact hout _ _ _ (List.getElem?_eq_getElem hb) (List.getElem?_eq_getElem hb')
    · rw [List.getElem?_eq_none (by omega), List.getElem?_eq_none (by omega)]
      exact .inl rfl

theorem mem_sampled (nbrow nbcol : ℕ) (c : ORow K → Option K) (o : Option K) :
    o ∈ g.sampled nbrow nbcol c ↔ ∃ k i j, k < 2 ∧ i < nbrow ∧ j < nbcol ∧ o = c (g.inAltitude nbrow nbcol k i j) := by
  simp only [NanGrid.sampled, List.mem_flatMap, List.mem_range, List.mem_map]
  constructor
  · rintro ⟨k, hk, i, hi, j, hj, rfl⟩; exact ⟨k, i, j, hk, hi, hj, rfl⟩
  · rintro ⟨k, i, j, hk, hi, hj, rfl⟩; exact ⟨k, hk, i, hi, j, hj, rfl⟩

theorem NanGrid.estimate_nan (nbrow nbcol : ℕ) (hr : 2 ≤ nbrow) (hc : 2 ≤ nbcol) (k i j : ℕ) (hk : k < 2) (hi : i < nbrow) (hj : j < nbcol)
    (h : (g.inAltitude nbrow nbcol k i j).x = none ∨ (g.inAltitude nbrow nbcol k i j).y = none) : g.estimate nbrow nbcol = .ok .nan := by
  unfold NanGrid.estimate
  rw [if_neg (by omega), if_neg (by omega)]
  have hmin : olistMin (g.sampled nbrow nbcol fun p => p.x) = none ∨ olistMin (g.sampled nbrow nbcol fun p => p.y) = none := by
    rcases h with h | h
    · left
      cases hm : olistMin (g.sampled nbrow nbcol fun p => p.x) with
      | none => rfl
      | some m =>
        obtain ⟨v, hv, _⟩ := (olistMin_spec _ m hm).1 none ((mem_sampled nbrow nbcol _ _).2 ⟨k, i, j, hk, hi, hj, h.symm⟩)
        cases hv
    · right
      cases hm : olistMin (g.sampled nbrow nbcol fun p => p.y) with
      | none => rfl
      | some m =>
        obtain ⟨v, hv, _⟩ := (olistMin_spec _ m hm).1 none ((mem_sampled nbrow nbcol _ _).2 ⟨k, i, j, hk, hi, hj, h.symm⟩)
        cases hv
  rcases hmin with h | h
  · rw [h]
  · rw [h]
    cases olistMin (g.sampled nbrow nbcol fun p => p.x) with
    | none => rfl
    | some a => cases olistMax (g.sampled nbrow nbcol fun p => p.x) <;> rfl

/-- C101, predictor of the inverse location: the holes do not change it, nor its exceptions, but to NaN. -/
theorem C101_predictor (hf : FillsGrid g f) (hu : g.Usable) (nbrow nbcol : ℕ) :
    g.estimate nbrow nbcol = estimatePred f nbrow nbcol ∨ g.estimate nbrow nbcol = .ok .nan := by
  by_cases h1 : nbrow = 1 ∨ nbcol = 1
  · left; unfold NanGrid.estimate estimatePred; rw [if_pos h1, if_pos h1]
  by_cases h0 : nbrow = 0 ∨ nbcol = 0
  · left; unfold NanGrid.estimate estimatePred; rw [if_neg h1, if_neg h1, if_pos h0, if_pos h0]
  by_cases hall : ∀ k i j, k < 2 → i < nbrow → j < nbcol →
      g.inAltitude nbrow nbcol k i j = gridInAltitude f nbrow nbcol 2 k i j
  · left
    have hs : ∀ c : ORow K → Option K, g.sampled nbrow nbcol c = sampledNodes f nbrow nbcol c := by
      intro c
      unfold NanGrid.sampled sampledNodes
      refine List.flatMap_congr fun k hk => List.flatMap_congr fun i hi => List.map_congr_left fun j hj => ?_
      rw [hall k i j (List.mem_range.1 hk) (List.mem_range.1 hi) (List.mem_range.1 hj)]
    unfold NanGrid.estimate estimatePred ownPredictor
    rw [if_neg h1, if_neg h1, if_neg h0, if_neg h0]
    simp only [hs]
    cases olistMin (sampledNodes f nbrow nbcol fun p => p.x) with
    | none => rfl
    | some lonMin =>
    cases olistMax (sampledNodes f nbrow nbcol fun p => p.x) with
    | none => rfl
    | some lonMax =>
    cases olistMin (sampledNodes f nbrow nbcol fun p => p.y) with
    | none => rfl
    | some latMin =>
    cases olistMax (sampledNodes f nbrow nbcol fun p => p.y) with
    | none => rfl
    | some latMax =>
      dsimp only
      by_cases hsame : lonMax = lonMin ∨ latMax = latMin
      · rw [if_pos hsame, if_pos hsame]
      rw [if_neg hsame, if_neg hsame]
      have hpos : ∀ m : Fin (nbrow * nbcol), m.val / nbcol < nbrow ∧ m.val % nbcol < nbcol := fun m =>
        ⟨Nat.div_lt_of_lt_mul (Nat.mul_comm nbrow nbcol ▸ m.isLt), Nat.mod_lt _ (by omega)⟩
      have e : ∀ k, k < 2 → ∀ m : Fin (nbrow * nbcol), g.inAltitude nbrow nbcol k (m.val / nbcol) (m.val % nbcol) =
          gridInAltitude f nbrow nbcol 2 k (m.val / nbcol) (m.val % nbcol) := fun k hk m => hall k _ _ hk (hpos m).1 (hpos m).2
      have hest : estimatePredictor g.sizes nbrow nbcol (fun k i j => (g.inAltitude nbrow nbcol k i j).x.getD 0)
          (fun k i j => (g.inAltitude nbrow nbcol k i j).y.getD 0) lonMin lonMax latMin latMax =
          estimatePredictor f nbrow nbcol (fun k i j => (gridInAltitude f nbrow nbcol 2 k i j).x.getD 0)
          (fun k i j => (gridInAltitude f nbrow nbcol 2 k i j).y.getD 0) lonMin lonMax latMin latMax := by
        unfold estimatePredictor
        simp only [e 0 (by norm_num), e 1 (by norm_num), hf.nbrow, hf.nbcol, hf.row0, hf.col0, hf.steprow, hf.stepcol]
        rfl
      simp only [e 0 (by norm_num), e 1 (by norm_num), hest]
      push Not at hsame
      simp only [hsame.1, hsame.2, false_or]
      split_ifs <;> rfl
  · right
    push Not at hall
    obtain ⟨k, i, j, hk, hi, hj, hne⟩ := hall
    rcases NanGrid.inAltitude_cases hf hu nbrow nbcol k i j with h | h
    · exact absurd h hne
    · exact NanGrid.estimate_nan nbrow nbcol (by omega) (by omega) k i j hk hi hj h

theorem NanGrid.inAltitude_eq (nbrow nbcol k i j : ℕ) (hi : i < nbrow) (hj : j < nbcol) :
    g.inAltitude nbrow nbcol k i j =
      g.point (some (g.row0 + i * (g.steprow * ((g.nbrow : K) - 1) / ((nbrow : K) - 1))))
        (some (g.col0 + j * (g.stepcol * ((g.nbcol : K) - 1) / ((nbcol : K) - 1))))
        (some (linspace (g.alts 0) (g.alts (g.nbalt - 1)) 2 k)) := by
  unfold NanGrid.inAltitude
  dsimp only
  rw [add_sub_cancel_left, add_sub_cancel_left]
  generalize g.steprow * ((g.nbrow : K) - 1) / ((nbrow : K) - 1) = sr
  generalize g.stepcol * ((g.nbcol : K) - 1) / ((nbcol : K) - 1) = sc
  generalize linspace (g.alts 0) (g.alts (g.nbalt - 1)) 2 k = a
  set pts := meshIj g.row0 g.col0 sr sc nbrow nbcol with hpts
  have hb : broadcastAlt pts.length [some a] = .ok (List.replicate pts.length (some a)) := by
    by_cases h : pts.length = 1
    · simp [broadcastAlt, h]
    · simp only [broadcastAlt, List.length_cons, List.length_nil]
      rw [if_neg (by omega)]
  have hget : pts[i * nbcol + j]? = some (g.row0 + (i : K) * sr, g.col0 + (j : K) * sc) := by
    rw [hpts]
    exact flatMap_range_getElem? (fun (i j : ℕ) => (g.row0 + (i : K) * sr, g.col0 + (j : K) * sc)) nbrow nbcol i j hi hj
  have hlt : i * nbcol + j < pts.length := (List.getElem?_eq_some_iff.1 hget).1
  unfold NanGrid.directLocH
  simp only [List.length_map, hb, if_true]
  rw [List.getD_eq_getElem?_getD, List.getElem?_map,
    List.getElem?_zip_eq_some (z := (some (g.row0 + (i : K) * sr), some (g.col0 + (j : K) * sc), some a)) |>.2]
  · rfl
  · refine ⟨by rw [List.getElem?_map, hget]; rfl, List.getElem?_zip_eq_some.2 ⟨?_, ?_⟩⟩
    · rw [List.getElem?_map, hget]; rfl
    · rw [List.getElem?_replicate, if_pos hlt]

/-- C101: the predictor is NaN as soon as one of the `nbrow × nbcol` positions that it samples, at the highest and the lowest altitude,
has a hole among its surrounding nodes. -/
theorem C101_predictor_hole (hf : FillsGrid g f) (hu : g.Usable) (nbrow nbcol : ℕ) (hr : 2 ≤ nbrow) (hc : 2 ≤ nbcol) (a i j : ℕ)
    (alt : K) (ha : a = 0 ∧ alt = g.alts 0 ∨ a = 1 ∧ alt = g.alts (g.nbalt - 1)) (hi : i < nbrow) (hj : j < nbcol)
    (hole : ∃ k' i' j', g.Around (g.row0 + i * (g.steprow * ((g.nbrow : K) - 1) / ((nbrow : K) - 1)))
      (g.col0 + j * (g.stepcol * ((g.nbcol : K) - 1) / ((nbcol : K) - 1))) alt k' i' j' ∧
      (g.lon k' i' j' = none ∨ g.lat k' i' j' = none)) :
    g.estimate nbrow nbcol = .ok .nan := by
  have ea : linspace (g.alts 0) (g.alts (g.nbalt - 1)) 2 a = alt := by
    rcases ha with ⟨rfl, rfl⟩ | ⟨rfl, rfl⟩ <;> simp only [linspace] <;> push_cast <;> ring
  refine NanGrid.estimate_nan nbrow nbcol hr hc a i j (by omega) hi hj ?_
  rw [NanGrid.inAltitude_eq nbrow nbcol a i j hi hj, ea]
  obtain ⟨k', i', j', har, hd⟩ := hole
  obtain ⟨h1, h2, -⟩ := C101_direct_loc hf hu (g.row0 + i * (g.steprow * ((g.nbrow : K) - 1) / ((nbrow : K) - 1)))
    (g.col0 + j * (g.stepcol * ((g.nbcol : K) - 1) / ((nbcol : K) - 1))) alt
  rcases hd with hd | hd
  · exact .inl (h1 ⟨k', i', j', har, hd⟩)
  · exact .inr (h2 ⟨k', i', j', har, hd⟩)

/-- C101: one hole at a corner of the highest or of the lowest layer, and the inverse location of the whole grid is lost: with a predictor
estimated with any numbers of rows and columns, `inverse_loc` raises for every valid point. -/
theorem C101_corner_hole (hf : FillsGrid g f) (hu : g.Usable) (hsr : g.steprow ≠ 0) (hsc : g.stepcol ≠ 0) (k i j : ℕ)
    (hk : k = 0 ∨ k + 1 = g.nbalt) (hi : i = 0 ∨ i + 1 = g.nbrow) (hj : j = 0 ∨ j + 1 = g.nbcol)
    (hole : g.lon k i j = none ∨ g.lat k i j = none) (nbrow nbcol : ℕ) (hr : 2 ≤ nbrow) (hc : 2 ≤ nbcol) :
    g.estimate nbrow nbcol = .ok .nan ∧
    ∀ (rad rtx : K) (cosdeg : K → K) (n : ℕ) (lon lat alt : K), 0 < n → |lon| ≤ 180 → |lat| ≤ 90 →
      g.inverseIn .nan rad rtx cosdeg [some lon] [some lat] [some alt] n = .error .predictorNan := by
  constructor
  · have hu1 := hu.alt2
    have hu2 := hu.row2
    have hu3 := hu.col2
    have hlay : LayersOf g.nbalt g.alts (g.alts k) (if k = 0 then 0 else g.nbalt - 2) ∧
        (k = (if k = 0 then 0 else g.nbalt - 2) ∨ k = (if k = 0 then 0 else g.nbalt - 2) + 1) := by
      by_cases h : k = 0
      · subst h
        exact ⟨⟨by simp; omega, .inl (by simp), .inr (by simpa using hu.dec 0 1 (by omega) (by omega))⟩, .inl (by simp)⟩
      · rw [if_neg h]
        exact ⟨⟨by omega, .inr (hu.dec _ _ (by omega) (by omega)).le, .inl (by omega)⟩, .inr (by omega)⟩
    have axis : ∀ (n n' c : ℕ) (o st : K), st ≠ 0 → 2 ≤ n → 2 ≤ n' → (c = 0 ∨ c + 1 = n) →
        ∃ c' < n', ∃ d, CellOf n ((o + c' * (st * ((n : K) - 1) / ((n' : K) - 1)) - o) / st) d ∧ (c = d ∨ c = d + 1) := by
      intro n n' c o st hst hn hn' hc
      rcases hc with rfl | hc
      · refine ⟨0, by omega, 0, ⟨by omega, .inl rfl, .inr ?_⟩, .inl rfl⟩
        simp
      · refine ⟨n' - 1, by omega, n - 2, ⟨by omega, .inr ?_, .inl (by omega)⟩, .inr (by omega)⟩
        have e : ((n' - 1 : ℕ) : K) = (n' : K) - 1 := by rw [Nat.cast_sub (by omega)]; simp
        have hne : (n' : K) - 1 ≠ 0 := by
          rw [sub_ne_zero]; exact_mod_cast (by omega : n' ≠ 1)
        have : (o + ((n' - 1 : ℕ) : K) * (st * ((n : K) - 1) / ((n' : K) - 1)) - o) / st = (n : K) - 1 := by
          rw [e]; field_simp; ring
        rw [this, Nat.cast_sub (by omega)]
        push_cast
        linarith
    obtain ⟨i', hi', di, hdi, hdi'⟩ := axis g.nbrow nbrow i g.row0 g.steprow hsr hu2 hr hi
    obtain ⟨j', hj', dj, hdj, hdj'⟩ := axis g.nbcol nbcol j g.col0 g.stepcol hsc hu3 hc hj
    refine C101_predictor_hole hf hu nbrow nbcol hr hc (if k = 0 then 0 else 1) i' j' (g.alts k) ?_ hi' hj'
      ⟨k, i, j, ⟨⟨_, hlay.1, hlay.2⟩, ⟨di, hdi, hdi'⟩, ⟨dj, hdj, hdj'⟩⟩, hole⟩
    rcases hk with rfl | hk
    · exact .inl ⟨by simp, rfl⟩
    · exact .inr ⟨by rw [if_neg (by omega)], by rw [← hk]; rfl⟩
  · intro rad rtx cosdeg n lon lat alt hn hlon hlat
    simp only [NanGrid.inverseIn, gridInverseIn, broadcastAlt, List.length_cons, List.length_nil, if_true]
    have hv : checkRow (⟨some lon, some lat, some alt⟩ : ORow K) = ⟨some lon, some lat, some alt⟩ := checkRow_valid ⟨hlon, hlat⟩
    rw [if_pos]
    refine ⟨by omega, ?_⟩
    simp [someValidPoint, hv]

/-! ### Location on a DTM -/

theorem NanDtm.losDtm_all_nan (impl : Impl) (d : NanDtm K) (N : ℕ) (los : List (Option (V3 K))) (h : ∀ v ∈ los, v = none) :
    d.losDtm impl N los = .nan := by
  have hli : ∀ v ∈ los.map (fun v => v.map (terToIndexPy d.transform)), v = none := by
    intro v hv
    obtain ⟨w, hw, rfl⟩ := List.mem_map.1 hv
    rw [h w hw]; rfl
  have hscan : ∀ (k : Fin 6) (l : List (Option (V3 K))), (∀ v ∈ l, v = none) → ∀ layer, NanDtm.faceScan impl d k none layer l = .ok none := by
    intro k l
    induction l with
    | nil => intro _ layer; rfl
    | cons b l ih =>
      intro hl layer
      unfold NanDtm.faceScan
      obtain rfl : b = none := hl b List.mem_cons_self
      have := ih (fun v hv => hl v (List.mem_cons_of_mem _ hv)) (layer + 1)
      cases d.planeD impl k <;> exact this
  have hits : ∀ ks, NanDtm.faceHits impl d (los.map fun v => v.map (terToIndexPy d.transform)) ks = .ok [] := by
    intro ks
    induction ks with
    | nil => rfl
    | cons k ks ih =>
      unfold NanDtm.faceHits
      have : NanDtm.faceHit impl d k (los.map fun v => v.map (terToIndexPy d.transform)) = .ok none := by
        unfold NanDtm.faceHit
        cases hl : los.map (fun v => v.map (terToIndexPy d.transform)) with
        | nil => rfl
        | cons v l =>
          rw [hl] at hli
          obtain rfl : v = none := hli v List.mem_cons_self
          exact hscan k _ hli 0
      rw [this]
      exact ih
  unfold NanDtm.losDtm NanDtm.losDtmTurns NanDtm.cubeOfIndex
  simp only [hits]
  rfl

/-- C101, location on a DTM: if all the nodes around the pixel, at all the altitudes of its line of sight, have data, the pixel gets the
answer of the grid with its holes filled in any way. -/
theorem C101_dtm_same (hf : FillsGrid g f) (hu : g.Usable) (impl : Impl) (N : ℕ) {d : NanDtm K} {e : Dtm K} (hd : Fills d e)
    (hr : 2 ≤ d.nbRows) (hc : 2 ≤ d.nbCols) (hfull : ∀ i j, Spec.IsNode d.nbRows d.nbCols i j → d.alt i j ≠ none) (minDtm maxDtm row col : K)
    (h : ∀ a ∈ dtmAlts (layers f) minDtm maxDtm, ∀ k i j, g.Around row col a k i j → g.lon k i j ≠ none ∧ g.lat k i j ≠ none) :
    NanGrid.dtmPixel impl N g d minDtm maxDtm row col =
      gridDtmValue impl N f e (sightLine f row col (dtmAlts (layers f) minDtm maxDtm)) := by
  have hl : (List.range g.nbalt).map g.alts = layers f := by unfold layers; rw [hf.nbalt, hf.alts]
  have hlos : g.los row col (dtmAlts (layers f) minDtm maxDtm) = (sightLine f row col (dtmAlts (layers f) minDtm maxDtm)).map some := by
    unfold NanGrid.los sightLine
    rw [List.map_map]
    refine List.map_congr_left fun a ha => ?_
    have hx : g.interp g.lon (altNorm g.sizes a) row col ≠ none := by
      rw [Ne, NanGrid.interp_none_iff hu]
      rintro ⟨k, i, j, har, hn⟩
      exact (h a ha k i j har).1 hn
    have hy : g.interp g.lat (altNorm g.sizes a) row col ≠ none := by
      rw [Ne, NanGrid.interp_none_iff hu]
      rintro ⟨k, i, j, har, hn⟩
      exact (h a ha k i j har).2 hn
    obtain ⟨x, hx⟩ := Option.ne_none_iff_exists'.1 hx
    obtain ⟨y, hy⟩ := Option.ne_none_iff_exists'.1 hy
    simp only [hx, hy, Function.comp, gridLonLat]
    rw [hf.norm, hf.interp hu g.lon f.lon hf.lon _ _ _ _ hx, hf.interp hu g.lat f.lat hf.lat _ _ _ _ hy]
  unfold NanGrid.dtmPixel gridDtmValue
  rw [hl, hlos, C100_no_hole hd hr hc hfull, hf.geographic]

/-- C101, location on a DTM: if at each altitude of its line of sight one of the nodes around the pixel has no data, the pixel is not
located (NaN). -/
theorem C101_dtm_nan (hu : g.Usable) (impl : Impl) (N : ℕ) (d : NanDtm K) (minDtm maxDtm row col : K)
    (h : ∀ a ∈ dtmAlts ((List.range g.nbalt).map g.alts) minDtm maxDtm, ∃ k i j, g.Around row col a k i j ∧
      (g.lon k i j = none ∨ g.lat k i j = none)) :
    NanGrid.dtmPixel impl N g d minDtm maxDtm row col = .nan := by
  unfold NanGrid.dtmPixel
  rw [NanDtm.losDtm_all_nan]
  · split_ifs <;> rfl
  · intro v hv
    unfold NanGrid.los at hv
    obtain ⟨a, ha, rfl⟩ := List.mem_map.1 hv
    obtain ⟨k, i, j, har, hn⟩ := h a ha
    rcases hn with hn | hn
    · rw [(NanGrid.interp_none_iff hu g.lon row col a).2 ⟨k, i, j, har, hn⟩]
    · rw [(NanGrid.interp_none_iff hu g.lat row col a).2 ⟨k, i, j, har, hn⟩]
      cases g.interp g.lon (altNorm g.sizes a) row col <;> rfl

/-- C101, location on a DTM by a grid of two layers: a pixel with a hole among its eight nodes is not located, and the others are located
as if there were no hole. -/
theorem C101_dtm_two_layers (hf : FillsGrid g f) (hu : g.Usable) (h2 : g.nbalt = 2) (impl : Impl) (N : ℕ) {d : NanDtm K} {e : Dtm K}
    (hd : Fills d e) (hr : 2 ≤ d.nbRows) (hc : 2 ≤ d.nbCols) (hfull : ∀ i j, Spec.IsNode d.nbRows d.nbCols i j → d.alt i j ≠ none)
    (minDtm maxDtm row col : K) :
    ((∃ k i j, g.Around row col (g.alts 0) k i j ∧ (g.lon k i j = none ∨ g.lat k i j = none)) →
      NanGrid.dtmPixel impl N g d minDtm maxDtm row col = .nan) ∧
    ((∀ k i j, g.Around row col (g.alts 0) k i j → g.lon k i j ≠ none ∧ g.lat k i j ≠ none) →
      NanGrid.dtmPixel impl N g d minDtm maxDtm row col =
        gridDtmValue impl N f e (sightLine f row col (dtmAlts (layers f) minDtm maxDtm))) := by
  have hany : ∀ a b k i j, g.Around row col a k i j → g.Around row col b k i j := by
    rintro a b k i j ⟨⟨c, ⟨h1, _, _⟩, hk⟩, h'⟩
    exact ⟨⟨c, ⟨h1, .inl (by omega), .inl (by omega)⟩, hk⟩, h'⟩
  constructor
  · rintro ⟨k, i, j, har, hn⟩
    exact C101_dtm_nan hu impl N d minDtm maxDtm row col fun a _ => ⟨k, i, j, hany _ _ _ _ _ har, hn⟩
  · intro h
    exact C101_dtm_same hf hu impl N hd hr hc hfull minDtm maxDtm row col fun a _ k i j har => h k i j (hany _ _ _ _ _ har)

/-! ### Concrete cases -/

/-- `demoGrid`, of which the node of the last column, second row and lowest layer has no latitude. -/
def demoNan : NanGrid ℚ where
  nbalt := 3
  nbrow := 2
  nbcol := 3
  alts := demoGrid.alts
  lon := fun k i j => some (demoGrid.lon k i j)
  lat := fun k i j => if k = 2 ∧ i = 1 ∧ j = 2 then none else some (demoGrid.lat k i j)
  row0 := 1 / 2
  col0 := 3 / 2
  steprow := 100
  stepcol := 200
  geographic := true

theorem demoNan_fills : FillsGrid demoNan demoGrid where
  nbalt := rfl
  nbrow := rfl
  nbcol := rfl
  alts := rfl
  row0 := rfl
  col0 := rfl
  steprow := rfl
  stepcol := rfl
  geographic := rfl
  lon := by
    intro k i j _ _ _ v hv
    simpa [demoNan] using hv
  lat := by
    intro k i j _ _ _ v hv
    simp only [demoNan] at hv
    split_ifs at hv
    simpa using hv

theorem demoNan_usable : demoNan.Usable where
  alt2 := by decide
  row2 := by decide
  col2 := by decide
  dec := by
    intro i j hij hj
    have hj' : j < 3 := hj
    interval_cases j <;> interval_cases i <;> decide +kernel

/-- In the cell of the hole and between its two layers the point is lost; above, or in the other cell, the answer
is that of the grid without hole. -/
example : demoNan.point (some 60) (some 300) (some 100) = nanRow ∧
    demoNan.point (some 60) (some 300) (some 300) = gridPoint demoGrid (some 60) (some 300) (some 300) ∧
    demoNan.point (some 60) (some 100) (some 100) = gridPoint demoGrid (some 60) (some 100) (some 100) := by
  decide +kernel

/-- The hypotheses of `C101_direct_loc`: the hole is around the first point, and not around the second. -/
example : (demoNan.point (some 60) (some 300) (some 100)).y = none ∧
    demoNan.point (some 60) (some 100) (some 100) = gridPoint demoGrid (some 60) (some 100) (some 100) := by
  constructor
  · refine (C101_direct_loc demoNan_fills demoNan_usable 60 300 100).2.1 ⟨2, 1, 2, ⟨⟨1, ⟨by decide, .inr ?_, .inl (by decide)⟩, .inr rfl⟩,
      ⟨0, ⟨by decide, .inl rfl, .inl (by decide)⟩, .inr rfl⟩, ⟨1, ⟨by decide, .inr ?_, .inl (by decide)⟩, .inr rfl⟩⟩, rfl⟩
    · decide +kernel
    · simp only [demoNan]; norm_num
  · refine (C101_direct_loc demoNan_fills demoNan_usable 60 100 100).2.2 fun k i j h => ⟨by simp [demoNan], ?_⟩
    obtain ⟨-, -, c, ⟨-, h2, h3⟩, hj⟩ := h
    have hc : c = 0 := by
      rcases h2 with h | h
      · exact h
      · simp only [demoNan] at h
        have : (c : ℚ) < 1 := lt_of_le_of_lt h (by norm_num)
        have : c < 1 := by exact_mod_cast this
        omega
    have : j ≠ 2 := by omega
    simp [demoNan, this]

/-- The hole is at a corner of the lowest layer: the predictor of the grid is NaN, whatever the sampling, and the inverse location of every
valid point raises. -/
example (n m : ℕ) (hn : 2 ≤ n) (hm : 2 ≤ m) : demoNan.estimate n m = .ok .nan ∧
    ∀ (rad rtx : ℚ) (cosdeg : ℚ → ℚ) (t : ℕ) (lon lat alt : ℚ), 0 < t → |lon| ≤ 180 → |lat| ≤ 90 →
      demoNan.inverseIn .nan rad rtx cosdeg [some lon] [some lat] [some alt] t = .error .predictorNan :=
  C101_corner_hole demoNan_fills demoNan_usable (by decide +kernel) (by decide +kernel) 2 1 2 (.inr rfl) (.inr rfl) (.inr rfl) (.inr rfl) n m hn hm

/-- A predictor that answers always the same pixel. -/
def demoGuess : Predictor ℚ := ⟨0, 0, 0, 0, 0, 1, 0, 1, 50, 0, 120, 0⟩

/-- With a predictor of another origin a point is located in the cell without hole as by the grid without hole, and is lost in the cell of
the hole, at the second turn. -/
example :
    let q := gridPoint demoGrid (some 60) (some 100) (some 100)
    let q' := gridPoint demoGrid (some 60) (some 300) (some 100)
    let a := demoNan.inversePoint demoGuess 17453 40 (fun _ => 766 / 1000) 2 q.x q.y q.z
    a = gridInversePoint demoGrid demoGuess 17453 40 (fun _ => 766 / 1000) 2 q.x q.y q.z ∧ a.x.isSome = true ∧
    demoNan.inversePoint demoGuess 17453 40 (fun _ => 766 / 1000) 2 q'.x q'.y q'.z = ⟨none, none, some 100⟩ := by
  decide +kernel

/-- Two layers, and a hole at the node of the second column and first row of the lower one. -/
def twoLayersNan : NanGrid ℚ where
  nbalt := 2
  nbrow := 2
  nbcol := 4
  alts := fun k => if k = 0 then 8 else 0
  lon := fun k i j => if k = 1 ∧ i = 0 ∧ j = 0 then none else some (1 / 2 + j / 2 + k / 8)
  lat := fun k i j => some (1 / 2 + i + k)
  row0 := 0
  col0 := 0
  steprow := 1
  stepcol := 1
  geographic := true

/-- The same grid with the longitude 0 at the hole. -/
def twoLayersFilled : MultiGrid ℚ where
  nbalt := 2
  nbrow := 2
  nbcol := 4
  alts := fun k => if k = 0 then 8 else 0
  lon := fun k i j => if k = 1 ∧ i = 0 ∧ j = 0 then 0 else 1 / 2 + j / 2 + k / 8
  lat := fun k i j => 1 / 2 + i + k
  row0 := 0
  col0 := 0
  steprow := 1
  stepcol := 1
  geographic := true

theorem twoLayers_fills : FillsGrid twoLayersNan twoLayersFilled where
  nbalt := rfl
  nbrow := rfl
  nbcol := rfl
  alts := rfl
  row0 := rfl
  col0 := rfl
  steprow := rfl
  stepcol := rfl
  geographic := rfl
  lon := by
    intro k i j _ _ _ v hv
    simp only [twoLayersNan, twoLayersFilled] at hv ⊢
    split_ifs at hv ⊢
    simpa using hv
  lat := by
    intro k i j _ _ _ v hv
    simpa [twoLayersNan, twoLayersFilled] using hv

theorem twoLayers_usable : twoLayersNan.Usable where
  alt2 := by decide
  row2 := by decide
  col2 := by decide
  dec := by
    intro i j hij hj
    have hj' : j < 2 := hj
    interval_cases j <;> interval_cases i <;> decide +kernel

/-- The two cases of `C101_dtm_two_layers`: a pixel of the first column is not located, and another one is, at a point. -/
example : twoLayersNan.dtmPixel .py 5 fullNan 0 6 (1 / 2) (1 / 2) = .nan ∧
    twoLayersNan.dtmPixel .py 5 fullNan 0 6 (1 / 2) (3 / 2) =
      gridDtmValue .py 5 twoLayersFilled (⟨fun i j => (i : ℚ) + j, 4, 4, ⟨1, 0, -1/2, 0, 1, -1/2⟩⟩ : Dtm ℚ)
        (sightLine twoLayersFilled (1 / 2) (3 / 2) (dtmAlts (layers twoLayersFilled) 0 6)) ∧
    ∃ q, twoLayersNan.dtmPixel .py 5 fullNan 0 6 (1 / 2) (3 / 2) = .point q := by
  have hd : Fills fullNan (⟨fun i j => (i : ℚ) + j, 4, 4, ⟨1, 0, -1/2, 0, 1, -1/2⟩⟩ : Dtm ℚ) :=
    ⟨rfl, rfl, rfl, fun i j _ z h => by simpa [fullNan] using h, fun i j hn => ⟨i, j, _, hn, rfl, le_rfl⟩,
      fun i j hn => ⟨i, j, _, hn, rfl, le_rfl⟩⟩
  have h := fun row col => C101_dtm_two_layers twoLayers_fills twoLayers_usable rfl .py 5 hd (by decide) (by decide)
    (fun _ _ _ h => by cases h) 0 6 row col
  refine ⟨(h _ _).1 ⟨1, 0, 0, ⟨⟨0, ⟨by decide, .inl rfl, .inl rfl⟩, .inr rfl⟩, ⟨0, ⟨by decide, .inl rfl, .inl rfl⟩, .inl rfl⟩,
    ⟨0, ⟨by decide, .inl rfl, .inr ?_⟩, .inl rfl⟩⟩, .inl rfl⟩, (h _ _).2 fun k i j har => ?_, ?_⟩
  · simp only [twoLayersNan]; norm_num
  · obtain ⟨-, -, c, ⟨-, -, h3⟩, hj⟩ := har
    have : j ≠ 0 := by
      rintro rfl
      obtain rfl : c = 0 := by omega
      rcases h3 with h3 | h3
      · exact absurd h3 (by decide)
      · simp only [twoLayersNan] at h3
        norm_num at h3
    simp [twoLayersNan, this]
  · exact ⟨⟨97 / 73, 119 / 73, 216 / 73⟩, by decide +kernel⟩

end Shareloc
