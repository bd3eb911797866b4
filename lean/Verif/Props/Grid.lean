import Verif.Lemmas.Grid
import Verif.Lemmas.Rpc
import Mathlib.Tactic.IntervalCases

/-!
# C29 - C32, C61: loading of a grid, altitude bracketing, direct location by grid
-/

set_option linter.unusedSectionVars false

namespace Shareloc
variable {K : Type*} [Field K] [LinearOrder K] [IsStrictOrderedRing K] [FloorRing K]

/-! ### C29 -/

/-- Specification of `np.argsort`: a permutation of the indexes that sorts the array in increasing order (the order of
equal elements is not specified). -/
def IsArgsort (argsort : List K → List ℕ) : Prop :=
  ∀ l, (argsort l).Perm (List.range l.length) ∧ ((argsort l).map fun i => l.getD i 0).Pairwise (· ≤ ·)

theorem altArray_length (n : ℕ) (s : Bool) (entries : List (ℕ × K)) : (altArray n s entries).length = n := by
  unfold altArray
  have : ∀ (l : List (ℕ × K)) (arr : List K),
      (l.foldl (fun arr e => arr.set (e.1 / (2 + s.toNat)) e.2) arr).length = arr.length := by
    intro l
    induction l with
    | nil => intro arr; rfl
    | cons e es ih => intro arr; rw [List.foldl_cons, ih, List.length_set]
  rw [this, List.length_replicate]

/-- The altitudes recorded by consistent metadata. -/
theorem altArray_get (n : ℕ) (s : Bool) (entries : List (ℕ × K)) (v : ℕ → K)
    (hcons : ∀ e ∈ entries, e.2 = v (e.1 / (2 + s.toNat)))
    (hall : ∀ k < n, ∃ e ∈ entries, e.1 / (2 + s.toNat) = k) (k : ℕ) (hk : k < n) :
    (altArray n s entries).getD k 0 = v k := by
  have main : ∀ (l : List (ℕ × K)) (arr : List K), k < arr.length → (∀ e ∈ l, e.2 = v (e.1 / (2 + s.toNat))) →
      ((∃ e ∈ l, e.1 / (2 + s.toNat) = k) ∨ arr.getD k 0 = v k) →
      (l.foldl (fun arr e => arr.set (e.1 / (2 + s.toNat)) e.2) arr).getD k 0 = v k := by
    intro l
    induction l with
    | nil =>
      intro arr _ _ h
      rcases h with ⟨e, he, _⟩ | h
      · simp at he
      · simpa using h
    | cons e es ih =>
      intro arr hlen hc h
      rw [List.foldl_cons]
      apply ih
      · simpa using hlen
      · exact fun e' he' => hc e' (by simp [he'])
      · by_cases hek : e.1 / (2 + s.toNat) = k
        · right
          have h2 := hc e (by simp)
          rw [hek] at h2 ⊢
          simp [List.getD_eq_getElem?_getD, List.getElem?_set, hlen, h2]
        · rcases h with ⟨e', he', hk'⟩ | h
          · rcases List.mem_cons.1 he' with rfl | he'
            · exact absurd hk' hek
            · exact Or.inl ⟨e', he', hk'⟩
          · right
            simp only [List.getD_eq_getElem?_getD, List.getElem?_set, hek, if_false] at h ⊢
            exact h
  exact main entries _ (by simpa using hk) hcons (Or.inl (hall k hk))

/-- C29. Whatever the order of the layers in the file and of the entries in the metadata, and with or without status
bands: if layer `k` of the file (bands `k·w`, `k·w+1`, ...; `w` bands per layer) is recorded at altitude `v k`, the
loaded altitudes are in decreasing order and the loaded layers are the layers of the file, each with its own altitude,
longitudes and latitudes, each taken once (`σ` is a permutation). -/
theorem C29_layers_sorted (argsort : List K → List ℕ) (hs : IsArgsort argsort) (bands : List (ℕ → ℕ → K)) (status : Bool)
    (entries : List (ℕ × K)) (v : ℕ → K)
    (hcons : ∀ e ∈ entries, e.2 = v (e.1 / (2 + status.toNat)))
    (hall : ∀ k < bands.length / (2 + status.toNat), ∃ e ∈ entries, e.1 / (2 + status.toNat) = k) :
    ∃ σ : List ℕ, σ.Perm (List.range (bands.length / (2 + status.toNat))) ∧
      (readGrid argsort bands status entries).1 = bands.length / (2 + status.toNat) ∧
      (readGrid argsort bands status entries).2.1 = σ.map v ∧
      (σ.map v).Pairwise (· ≥ ·) ∧
      ∀ (i k : ℕ), σ[i]? = some k →
        (readGrid argsort bands status entries).2.2.1 i = bands.getD (k * (2 + status.toNat)) (fun _ _ => 0) ∧
        (readGrid argsort bands status entries).2.2.2 i = bands.getD (k * (2 + status.toNat) + 1) (fun _ _ => 0) := by
  set n := bands.length / (2 + status.toNat) with hn
  obtain ⟨hp, ho⟩ := hs (altArray n status entries)
  rw [altArray_length] at hp
  have hσ : ((argsort (altArray n status entries)).reverse).Perm (List.range n) :=
    (List.reverse_perm _).trans hp
  have hmap : ((argsort (altArray n status entries)).reverse.map fun i => (altArray n status entries).getD i 0) =
      (argsort (altArray n status entries)).reverse.map v := by
    apply List.map_congr_left
    intro k hk
    have : k < n := by simpa using hσ.mem_iff.1 hk
    exact altArray_get n status entries v hcons hall k this
  refine ⟨(argsort (altArray n status entries)).reverse, hσ, rfl, hmap, ?_, ?_⟩
  · rw [← hmap, List.map_reverse, List.pairwise_reverse]
    exact ho.imp fun h => h
  · intro i k hik
    have hget : (parseMetadataAlti argsort n status entries).1.getD i 0 = k := by
      simp only [parseMetadataAlti, List.getD_eq_getElem?_getD, hik, Option.getD_some]
    constructor
    · simp only [readGrid, ← hn, hget]
    · simp only [readGrid, ← hn, hget]

/-- An executable argsort (insertion of indexes). -/
def insertArg (l : List ℚ) (i : ℕ) : List ℕ → List ℕ
  | [] => [i]
  | j :: js => if l.getD i 0 ≤ l.getD j 0 then i :: j :: js else j :: insertArg l i js

def argsortEx (l : List ℚ) : List ℕ := (List.range l.length).foldr (insertArg l) []

/-- The specification of `np.argsort` is satisfiable. -/
theorem argsortEx_spec : IsArgsort argsortEx := by
  intro l
  have hins : ∀ i js, (insertArg l i js).Perm (i :: js) := by
    intro i js
    induction js with
    | nil => exact List.Perm.refl _
    | cons j js ih =>
      simp only [insertArg]
      split
      · exact List.Perm.refl _
      · exact (ih.cons j).trans (List.Perm.swap i j js)
  have hso : ∀ i js, (js.map fun i => l.getD i 0).Pairwise (· ≤ ·) →
      ((insertArg l i js).map fun i => l.getD i 0).Pairwise (· ≤ ·) := by
    intro i js
    induction js with
    | nil => intro _; simp [insertArg]
    | cons j js ih =>
      intro h
      rw [List.map_cons, List.pairwise_cons] at h
      simp only [insertArg]
      split
      · rename_i hle
        rw [List.map_cons, List.pairwise_cons]
        refine ⟨?_, by rw [List.map_cons, List.pairwise_cons]; exact h⟩
        intro b hb
        rw [List.map_cons, List.mem_cons] at hb
        rcases hb with rfl | hb
        · exact hle
        · exact hle.trans (h.1 b hb)
      · rename_i hle
        rw [List.map_cons, List.pairwise_cons]
        refine ⟨?_, ih h.2⟩
        intro b hb
        rw [List.mem_map] at hb
        obtain ⟨k, hk, rfl⟩ := hb
        rcases List.mem_cons.1 ((hins i js).mem_iff.1 hk) with rfl | hk
        · exact (not_le.1 hle).le
        · exact h.1 _ (List.mem_map.2 ⟨k, hk, rfl⟩)
  have : ∀ ks : List ℕ, (ks.foldr (insertArg l) []).Perm ks ∧
      ((ks.foldr (insertArg l) []).map fun i => l.getD i 0).Pairwise (· ≤ ·) := by
    intro ks
    induction ks with
    | nil => exact ⟨List.Perm.refl _, by simp⟩
    | cons k ks ih =>
      exact ⟨(hins k _).trans (ih.1.cons k), hso k _ ih.2⟩
  exact this _

/-- Three layers stored by increasing altitude with status bands: loaded in decreasing order with their bands. -/
example : let bands : List (ℕ → ℕ → ℚ) := (List.range 9).map fun b => fun _ _ => (b : ℚ)
    let g := readGrid argsortEx bands true [(0, 10), (3, 500), (6, 200)]
    g.1 = 3 ∧ g.2.1 = [500, 200, 10] ∧ [g.2.2.1 0 0 0, g.2.2.1 1 0 0, g.2.2.1 2 0 0] = [3, 6, 0] ∧
      [g.2.2.2 0 0 0, g.2.2.2 1 0 0, g.2.2.2 2 0 0] = [4, 7, 1] := by
  decide +kernel

/-- A layer whose altitude is missing in the metadata is silently loaded at altitude 0. -/
theorem C29_missing_altitude :
    let bands : List (ℕ → ℕ → ℚ) := (List.range 4).map fun b => fun _ _ => (b : ℚ)
    (readGrid argsortEx bands false [(0, 300)]).2.1 = [300, 0] := by
  decide +kernel

/-! ### C30 -/

/-- C30. With at least two layers, `return_grid_index` gives two adjacent layers of the grid; when the altitude is in
the range of the grid they enclose it and the weight used for the upper layer is in [0, 1]; and in all cases (also
outside) the weighted altitudes of the two layers give back the altitude. -/
theorem C30_bracketing (g : MultiGrid K) (alt : K) (hn : 2 ≤ g.nbalt) (hdec : Decreasing g.nbalt g.alts) :
    ∃ u : ℕ, returnGridIndex g alt = ((u : ℤ), ((u + 1 : ℕ) : ℤ)) ∧ u + 1 < g.nbalt ∧
      u = altUp g.alts g.nbalt alt ∧
      (g.alts (g.nbalt - 1) ≤ alt → alt ≤ g.alts 0 →
        g.alts (u + 1) ≤ alt ∧ alt ≤ g.alts u ∧
        0 ≤ (alt - g.alts (u + 1)) / (g.alts u - g.alts (u + 1)) ∧
        (alt - g.alts (u + 1)) / (g.alts u - g.alts (u + 1)) ≤ 1) ∧
      (alt - g.alts (u + 1)) / (g.alts u - g.alts (u + 1)) * g.alts u +
        (1 - (alt - g.alts (u + 1)) / (g.alts u - g.alts (u + 1))) * g.alts (u + 1) = alt := by
  obtain ⟨m, hm, hiff, hup, htw⟩ := altUp_eq g.alts g.nbalt alt hdec
  have hrep : ∀ u, u + 1 < g.nbalt → (alt - g.alts (u + 1)) / (g.alts u - g.alts (u + 1)) * g.alts u +
        (1 - (alt - g.alts (u + 1)) / (g.alts u - g.alts (u + 1))) * g.alts (u + 1) = alt := by
    intro u hu
    have : g.alts u - g.alts (u + 1) ≠ 0 := (sub_pos.2 (hdec u (u + 1) (by omega) hu)).ne'
    field_simp
    ring
  have hw : ∀ u, u + 1 < g.nbalt → g.alts (u + 1) ≤ alt → alt ≤ g.alts u →
        0 ≤ (alt - g.alts (u + 1)) / (g.alts u - g.alts (u + 1)) ∧
        (alt - g.alts (u + 1)) / (g.alts u - g.alts (u + 1)) ≤ 1 := by
    intro u hu h1 h2
    have : 0 < g.alts u - g.alts (u + 1) := sub_pos.2 (hdec u (u + 1) (by omega) hu)
    exact ⟨div_nonneg (by linarith) this.le, (div_le_one this).2 (by linarith)⟩
  simp only [returnGridIndex]
  by_cases h1 : alt > g.alts 0
  · rw [if_pos h1]
    have hm0 : m = 0 := by
      by_contra h
      have := (hiff 0 (by omega)).2 (by omega)
      exact absurd this (not_le.2 h1)
    refine ⟨0, rfl, by omega, by omega, fun _ h2 => absurd h2 (not_le.2 h1), hrep 0 (by omega)⟩
  rw [if_neg h1]
  push Not at h1
  have hm1 : 1 ≤ m := by
    have := (hiff 0 (by omega)).1 h1
    omega
  by_cases h2 : alt < g.alts (g.nbalt - 1)
  · rw [if_pos h2]
    have hmn : m = g.nbalt := by
      have := (hiff (g.nbalt - 1) (by omega)).1 h2.le
      omega
    refine ⟨g.nbalt - 2, ?_, by omega, by omega, fun h3 => absurd h3 (not_le.2 h2), hrep _ (by omega)⟩
    simp only [Prod.mk.injEq]
    omega
  rw [if_neg h2]
  push Not at h2
  rw [htw]
  by_cases hmn : m = g.nbalt
  · rw [if_pos hmn]
    have hge := (hiff (g.nbalt - 1) (by omega)).2 (by omega)
    have heq : alt = g.alts (g.nbalt - 1) := le_antisymm hge h2
    refine ⟨g.nbalt - 2, ?_, by omega, by omega, fun _ _ => ?_, hrep _ (by omega)⟩
    · simp only [Prod.mk.injEq]; omega
    · have e : g.nbalt - 2 + 1 = g.nbalt - 1 := by omega
      have l1 : g.alts (g.nbalt - 2 + 1) ≤ alt := by rw [e]; exact heq.ge
      have l2 : alt ≤ g.alts (g.nbalt - 2) := (hiff _ (by omega)).2 (by omega)
      exact ⟨l1, l2, hw _ (by omega) l1 l2⟩
  · rw [if_neg hmn]
    refine ⟨m - 1, ?_, by omega, by omega, fun _ _ => ?_, hrep _ (by omega)⟩
    · simp only [Prod.mk.injEq]; omega
    · have e : m - 1 + 1 = m := by omega
      have l1 : g.alts (m - 1 + 1) ≤ alt := by
        rw [e]
        by_contra h
        push Not at h
        have := (hiff m (by omega)).1 h.le
        omega
      have l2 : alt ≤ g.alts (m - 1) := (hiff _ (by omega)).2 (by omega)
      exact ⟨l1, l2, hw _ (by omega) l1 l2⟩

/-- A small grid: three layers, two by three nodes. -/
def demoGrid : MultiGrid ℚ where
  nbalt := 3
  nbrow := 2
  nbcol := 3
  alts := fun k => if k = 0 then 500 else if k = 1 then 200 else 10
  lon := fun k i j => 2 + i / 100 + j / 50 + k / 200 + i * j / 1000
  lat := fun k i j => 40 - i / 50 + j / 200 + k * i / 300
  row0 := 1 / 2
  col0 := 3 / 2
  steprow := 100
  stepcol := 200
  geographic := true

example : 2 ≤ demoGrid.nbalt ∧ Decreasing demoGrid.nbalt demoGrid.alts ∧ returnGridIndex demoGrid 350 = (0, 1) ∧
    returnGridIndex demoGrid 200 = (1, 2) ∧ returnGridIndex demoGrid 10 = (1, 2) := by
  refine ⟨by decide, ?_, by decide +kernel, by decide +kernel, by decide +kernel⟩
  intro i j hij hj
  have hj' : j < 3 := hj
  interval_cases j <;> interval_cases i <;> decide +kernel

/-- C30, limit: with a single layer the upper index is -1 at the altitude of the layer. -/
theorem C30_single_layer : returnGridIndex { demoGrid with nbalt := 1 } 500 = (-1, 0) := by decide +kernel

/-! ### C31 -/

theorem altNorm_between (g : MultiGrid K) (hdec : Decreasing g.nbalt g.alts) (alt : K) (k : ℕ) (hk : k + 1 < g.nbalt)
    (hhi : k = 0 ∨ alt ≤ g.alts k) (hlo : k + 2 = g.nbalt ∨ g.alts (k + 1) ≤ alt) :
    altNorm g alt = (k : K) + 1 - (alt - g.alts (k + 1)) / (g.alts k - g.alts (k + 1)) := by
  obtain ⟨m, hm, hiff, hup, -⟩ := altUp_eq g.alts g.nbalt alt hdec
  by_cases h : altUp g.alts g.nbalt alt = k
  · simp only [altNorm, h]
  · -- the altitude is exactly the one of the layer below
    have hkm : k < altUp g.alts g.nbalt alt := by
      by_contra hlt
      have hlt : altUp g.alts g.nbalt alt < k := by omega
      have hk0 : k ≠ 0 := by omega
      have hmk : m - 1 < k := by omega
      have := hhi.resolve_left hk0
      have := (hiff k (by omega)).1 this
      omega
    have h2 : k + 2 ≠ g.nbalt := by omega
    have hge := hlo.resolve_left h2
    have hle : alt ≤ g.alts (k + 1) := (hiff (k + 1) (by omega)).2 (by omega)
    have heq : alt = g.alts (k + 1) := le_antisymm hle hge
    have hup1 : altUp g.alts g.nbalt alt = k + 1 := by
      have : ¬ k + 2 < m := by
        intro hlt
        have h3 := (hiff (k + 2) (by omega)).2 hlt
        have := hdec (k + 1) (k + 2) (by omega) (by omega)
        linarith
      omega
    simp only [altNorm, hup1]
    rw [heq]
    have h3 : g.alts (k + 1) - g.alts (k + 1 + 1) ≠ 0 :=
      (sub_pos.2 (hdec (k + 1) (k + 2) (by omega) (by omega))).ne'
    rw [div_self h3, sub_self, zero_div]
    push_cast
    ring

theorem altNorm_layer (g : MultiGrid K) (hn : 2 ≤ g.nbalt) (hdec : Decreasing g.nbalt g.alts) (k : ℕ) (hk : k < g.nbalt) :
    altNorm g (g.alts k) = (k : K) := by
  by_cases h : k + 1 < g.nbalt
  · rw [altNorm_between g hdec _ k h (Or.inr le_rfl) (Or.inr (hdec k (k + 1) (by omega) h).le)]
    have h3 : g.alts k - g.alts (k + 1) ≠ 0 := (sub_pos.2 (hdec k (k + 1) (by omega) h)).ne'
    rw [div_self h3]
    ring
  · have e : k = (k - 1) + 1 := by omega
    rw [altNorm_between g hdec _ (k - 1) (by omega)
      (Or.inr (hdec (k - 1) k (by omega) hk).le) (Or.inr (by rw [← e]))]
    rw [← e, sub_self, zero_div]
    have : ((k - 1 : ℕ) : K) + 1 = (k : K) := by
      rw [Nat.cast_sub (by omega)]; push_cast; ring
    rw [sub_zero, this]

/-- C31. At a node of a layer the direct location is the stored longitude and latitude at the altitude of the layer
(masked if they are not a valid longitude and latitude of a geographic grid). -/
theorem C31_exact_at_nodes (g : MultiGrid K) (hn : 2 ≤ g.nbalt) (hr : 2 ≤ g.nbrow) (hc : 2 ≤ g.nbcol)
    (hdec : Decreasing g.nbalt g.alts) (hsr : g.steprow ≠ 0) (hsc : g.stepcol ≠ 0) (k i j : ℕ) (hk : k < g.nbalt)
    (hi : i < g.nbrow) (hj : j < g.nbcol) :
    gridPoint g (some (g.row0 + g.steprow * i)) (some (g.col0 + g.stepcol * j)) (some (g.alts k)) =
      if g.geographic = true ∧ ¬ (|g.lon k i j| ≤ 180 ∧ |g.lat k i j| ≤ 90) then ⟨none, none, none⟩
      else ⟨some (g.lon k i j), some (g.lat k i j), some (g.alts k)⟩ := by
  have e1 : (g.row0 + g.steprow * i - g.row0) / g.steprow = (i : K) := by field_simp; ring
  have e2 : (g.col0 + g.stepcol * j - g.col0) / g.stepcol = (j : K) := by field_simp; ring
  have hi' : ∀ data : ℕ → ℕ → ℕ → K, gridInterp g data (altNorm g (g.alts k)) (g.row0 + g.steprow * i)
      (g.col0 + g.stepcol * j) = data k i j := by
    intro data
    simp only [gridInterp, e1, e2, altNorm_layer g hn hdec k hk, lerp_node _ _ _ hn hk, lerp_node _ _ _ hr hi,
      lerp_node _ _ _ hc hj]
  simp only [gridPoint, hi']
  cases hg : g.geographic with
  | false => simp
  | true =>
    by_cases hv : ValidLonLat (g.lon k i j) (g.lat k i j)
    · rw [if_pos rfl, checkRow_valid hv, if_neg]
      exact fun h => h.2 hv
    · rw [if_pos rfl, checkRow_invalid hv, if_pos ⟨rfl, hv⟩]
      rfl

/-- C31. Between two consecutive layers, and above the first or below the last, at any row and column, inside or
outside the grid, the location is the affine interpolation in altitude of the locations at the two layers. -/
theorem C31_affine_in_altitude (g : MultiGrid K) (hn : 2 ≤ g.nbalt) (hdec : Decreasing g.nbalt g.alts)
    (hg : g.geographic = false) (row col alt : K) (k : ℕ) (hk : k + 1 < g.nbalt)
    (hhi : k = 0 ∨ alt ≤ g.alts k) (hlo : k + 2 = g.nbalt ∨ g.alts (k + 1) ≤ alt) :
    ∃ lonU latU lonD latD h : K,
      gridPoint g (some row) (some col) (some (g.alts k)) = ⟨some lonU, some latU, some (g.alts k)⟩ ∧
      gridPoint g (some row) (some col) (some (g.alts (k + 1))) = ⟨some lonD, some latD, some (g.alts (k + 1))⟩ ∧
      h * g.alts k + (1 - h) * g.alts (k + 1) = alt ∧
      gridPoint g (some row) (some col) (some alt) =
        ⟨some (h * lonU + (1 - h) * lonD), some (h * latU + (1 - h) * latD), some alt⟩ := by
  have hd : 0 < g.alts k - g.alts (k + 1) := sub_pos.2 (hdec k (k + 1) (by omega) hk)
  set h := (alt - g.alts (k + 1)) / (g.alts k - g.alts (k + 1)) with hh
  have hL : ∀ data : ℕ → ℕ → ℕ → K, gridInterp g data (altNorm g alt) row col =
      h * gridInterp g data (altNorm g (g.alts k)) row col +
      (1 - h) * gridInterp g data (altNorm g (g.alts (k + 1))) row col := by
    intro data
    simp only [gridInterp]
    rw [altNorm_layer g hn hdec k (by omega), altNorm_layer g hn hdec (k + 1) hk, lerp_node _ _ _ hn (by omega),
      lerp_node _ _ _ hn hk, altNorm_between g hdec alt k hk hhi hlo, ← hh]
    rw [lerp_eq g.nbalt _ _ k hk]
    · ring
    · rcases hhi with h0 | h0
      · exact Or.inl h0
      · right
        have : h ≤ 1 := (div_le_one hd).2 (by linarith)
        linarith
    · rcases hlo with h0 | h0
      · exact Or.inl h0
      · right
        have : 0 ≤ h := div_nonneg (by linarith) hd.le
        linarith
  refine ⟨gridInterp g g.lon (altNorm g (g.alts k)) row col, gridInterp g g.lat (altNorm g (g.alts k)) row col,
    gridInterp g g.lon (altNorm g (g.alts (k + 1))) row col, gridInterp g g.lat (altNorm g (g.alts (k + 1))) row col,
    h, ?_, ?_, ?_, ?_⟩
  · simp only [gridPoint, hg, Bool.false_eq_true, if_false]
  · simp only [gridPoint, hg, Bool.false_eq_true, if_false]
  · rw [hh]; field_simp; ring
  · simp only [gridPoint, hg, Bool.false_eq_true, if_false, hL]

/-- C31. In a cell of a layer the location is the bilinear interpolation of the four stored corners. -/
theorem C31_bilinear_in_cell (g : MultiGrid K) (hn : 2 ≤ g.nbalt) (hdec : Decreasing g.nbalt g.alts)
    (hsr : g.steprow ≠ 0) (hsc : g.stepcol ≠ 0) (hg : g.geographic = false) (k i j : ℕ) (u v : K) (hk : k < g.nbalt)
    (hi : i + 1 < g.nbrow) (hj : j + 1 < g.nbcol) (hu0 : 0 ≤ u) (hu1 : u ≤ 1) (hv0 : 0 ≤ v) (hv1 : v ≤ 1) :
    gridPoint g (some (g.row0 + g.steprow * (i + u))) (some (g.col0 + g.stepcol * (j + v))) (some (g.alts k)) =
      ⟨some ((1 - u) * (1 - v) * g.lon k i j + (1 - u) * v * g.lon k i (j + 1) +
          u * (1 - v) * g.lon k (i + 1) j + u * v * g.lon k (i + 1) (j + 1)),
       some ((1 - u) * (1 - v) * g.lat k i j + (1 - u) * v * g.lat k i (j + 1) +
          u * (1 - v) * g.lat k (i + 1) j + u * v * g.lat k (i + 1) (j + 1)), some (g.alts k)⟩ := by
  have e1 : (g.row0 + g.steprow * (i + u) - g.row0) / g.steprow = i + u := by field_simp; ring
  have e2 : (g.col0 + g.stepcol * (j + v) - g.col0) / g.stepcol = j + v := by field_simp; ring
  have hi' : ∀ data : ℕ → ℕ → ℕ → K, gridInterp g data (altNorm g (g.alts k)) (g.row0 + g.steprow * (i + u))
      (g.col0 + g.stepcol * (j + v)) = (1 - u) * (1 - v) * data k i j + (1 - u) * v * data k i (j + 1) +
          u * (1 - v) * data k (i + 1) j + u * v * data k (i + 1) (j + 1) := by
    intro data
    simp only [gridInterp, e1, e2, altNorm_layer g hn hdec k hk, lerp_node _ _ _ hn hk]
    rw [lerp_eq g.nbrow _ _ i hi (Or.inr (by linarith)) (Or.inr (by linarith))]
    rw [lerp_eq g.nbcol _ _ j hj (Or.inr (by linarith)) (Or.inr (by linarith)),
      lerp_eq g.nbcol _ _ j hj (Or.inr (by linarith)) (Or.inr (by linarith))]
    ring
  simp only [gridPoint, hi', hg, Bool.false_eq_true, if_false]

/-- A node, a point between layers and a point in a cell of the demonstration grid. -/
example : gridPoint demoGrid (some (201 / 2)) (some (803 / 2)) (some 200) =
      ⟨some (demoGrid.lon 1 1 2), some (demoGrid.lat 1 1 2), some 200⟩ ∧
    gridPoint { demoGrid with geographic := false } (some (101 / 2)) (some (203 / 2)) (some 500) =
      ⟨some (2 + 1 / 200 + 1 / 100 + 1 / 4000), some (40 - 1 / 100 + 1 / 400), some 500⟩ := by
  decide +kernel

/-! ### C32 -/

/-- C32. The grid built at an altitude holds at each node what direct location gives there for the node alone. -/
theorem C32_grid_is_pointwise (g : MultiGrid K) (row0 col0 steprow stepcol : K) (nbrow nbcol : ℕ) (alt : K) :
    ∃ f, gridDirectLocGridH g row0 col0 steprow stepcol nbrow nbcol alt = .ok f ∧
      ∀ i < nbrow, ∀ j < nbcol,
        gridDirectLocH g [some (row0 + i * steprow)] [some (col0 + j * stepcol)] [some alt] = .ok [f i j] := by
  set pts := meshIj row0 col0 steprow stepcol nbrow nbcol with hpts
  have hb : broadcastAlt pts.length [some alt] =
      .ok (List.replicate pts.length (some alt)) := by
    by_cases h : pts.length = 1
    · simp [broadcastAlt, h]
    · simp only [broadcastAlt, List.length_cons, List.length_nil]
      rw [if_neg (by omega)]
  refine ⟨fun i j => (List.map (fun t => gridPoint g t.1 t.2.1 t.2.2) ((pts.map fun p => some p.1).zip
    ((pts.map fun p => some p.2).zip (List.replicate pts.length (some alt))))).getD (i * nbcol + j) nanRow, ?_, ?_⟩
  · simp only [gridDirectLocGridH, gridDirectLocH, ← hpts, hb, List.length_map, if_true]
  · intro i hi j hj
    have hget : pts[i * nbcol + j]? = some (row0 + (i : K) * steprow, col0 + (j : K) * stepcol) := by
      rw [hpts]
      exact flatMap_range_getElem? (fun (i j : ℕ) => (row0 + (i : K) * steprow, col0 + (j : K) * stepcol))
        nbrow nbcol i j hi hj
    have hlt : i * nbcol + j < pts.length := (List.getElem?_eq_some_iff.1 hget).1
    have hval : ((List.map (fun t => gridPoint g t.1 t.2.1 t.2.2)
        ((pts.map fun p => some p.1).zip ((pts.map fun p => some p.2).zip
          (List.replicate pts.length (some alt))))).getD (i * nbcol + j) nanRow) =
        gridPoint g (some (row0 + (i : K) * steprow)) (some (col0 + (j : K) * stepcol)) (some alt) := by
      rw [List.getD_eq_getElem?_getD, List.getElem?_map,
        List.getElem?_zip_eq_some (z := (some (row0 + (i : K) * steprow), some (col0 + (j : K) * stepcol), some alt)) |>.2]
      · rfl
      · refine ⟨by rw [List.getElem?_map, hget]; rfl, List.getElem?_zip_eq_some.2 ⟨?_, ?_⟩⟩
        · rw [List.getElem?_map, hget]; rfl
        · rw [List.getElem?_replicate, if_pos hlt]
    beta_reduce
    rw [hval]
    simp [gridDirectLocH, broadcastAlt]

/-- The nodes of a two by two grid at an intermediate altitude. -/
example : (match gridDirectLocGridH demoGrid (1 / 2) (3 / 2) 100 400 2 2 200 with
    | .ok f => [f 0 0, f 0 1, f 1 0, f 1 1]
    | .error _ => []) =
    [⟨some (demoGrid.lon 1 0 0), some (demoGrid.lat 1 0 0), some 200⟩,
     ⟨some (demoGrid.lon 1 0 2), some (demoGrid.lat 1 0 2), some 200⟩,
     ⟨some (demoGrid.lon 1 1 0), some (demoGrid.lat 1 1 0), some 200⟩,
     ⟨some (demoGrid.lon 1 1 2), some (demoGrid.lat 1 1 2), some 200⟩] := by
  decide +kernel

end Shareloc
