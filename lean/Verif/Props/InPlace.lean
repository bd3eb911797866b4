import Verif.Model.InPlace
import Verif.Props.Geoid
import Verif.Props.RectGrid
import Verif.Lemmas.Rpc

/-!
# C93: which arrays of the caller are modified
-/

namespace Shareloc

open Spec

set_option linter.unusedSectionVars false

variable {K : Type*} [Field K] [LinearOrder K] [IsStrictOrderedRing K] [FloorRing K]

theorem Memory.put_same {A : Type*} (s : Memory A) (r : ℕ) (a : A) : s.put r a r = a := by simp [Memory.put]

theorem Memory.put_other {A : Type*} (s : Memory A) {r q : ℕ} (h : q ≠ r) (a : A) : s.put r a q = s q := by simp [Memory.put, h]

theorem displacement_rows (step : K) (i j : ℕ) :
    indexToPhysical (⟨step, 0, -(step * (1 / 2)), 0, step, -(step * (1 / 2))⟩ : Affine K) (j : K) (i : K) = (step * j, step * i) := by
  simp only [indexToPhysical, Affine.apply, Prod.mk.injEq]
  constructor <;> ring

/-! ### Displacement grids -/

/-- C93. Given two different arrays, `positions_to_displacement_grid` returns these two arrays themselves, in this order, and
overwrites both: after the call each holds its former positions minus the position of the node.  No other array changes. -/
theorem C93_displacement (step : K) (s : Memory (ℕ → ℕ → V3 K)) (l r : ℕ) (h : l ≠ r) :
    let out := positionsToDisplacementGrid step s l r
    out.2.1 = l ∧ out.2.2.1 = r ∧
    (∀ i j : ℕ, out.1 l i j = ⟨(s l i j).x - step * i, (s l i j).y - step * j, (s l i j).z⟩) ∧
    (∀ i j : ℕ, out.1 r i j = ⟨(s r i j).x - step * i, (s r i j).y - step * j, (s r i j).z⟩) ∧
    ∀ q, q ≠ l → q ≠ r → out.1 q = s q := by
  simp only [positionsToDisplacementGrid, subtractFirst, subtractSecond, displacement_rows]
  refine ⟨trivial, trivial, ?_, ?_, ?_⟩
  · intro i j
    simp [Memory.put, h]
  · intro i j
    simp [Memory.put, h.symm]
  · intro q h1 h2
    simp [Memory.put, h1, h2]

/-- C93. The displacements are those of `toDisplacement`, the function used for the written grids (C48). -/
theorem C93_displacement_values (step : K) (s : Memory (ℕ → ℕ → V3 K)) (l r : ℕ) (h : l ≠ r) :
    (positionsToDisplacementGrid step s l r).1 l = toDisplacement step (s l) ∧
    (positionsToDisplacementGrid step s l r).1 r = toDisplacement step (s r) ∧
    (positionsToDisplacementGrid step s l r).2.2.2 = displacementTransform step := by
  obtain ⟨-, -, h1, h2, -⟩ := C93_displacement step s l r h
  refine ⟨?_, ?_, rfl⟩ <;> funext i j
  · rw [h1]; simp only [toDisplacement, displacement_rows]
  · rw [h2]; simp only [toDisplacement, displacement_rows]

/-- C93. Called again on the same grids, the position of the node is subtracted once more at each call. -/
theorem C93_displacement_repeated (step : K) (s : Memory (ℕ → ℕ → V3 K)) (l r : ℕ) (h : l ≠ r) (n i j : ℕ) :
    let again := fun s => (positionsToDisplacementGrid step s l r).1
    again^[n] s l i j = ⟨(s l i j).x - n * (step * i), (s l i j).y - n * (step * j), (s l i j).z⟩ ∧
    again^[n] s r i j = ⟨(s r i j).x - n * (step * i), (s r i j).y - n * (step * j), (s r i j).z⟩ := by
  intro again
  induction n with
  | zero => simp
  | succ n ih =>
    rw [Function.iterate_succ_apply']
    obtain ⟨-, -, h1, h2, -⟩ := C93_displacement step (again^[n] s) l r h
    refine ⟨(h1 i j).trans ?_, (h2 i j).trans ?_⟩
    · rw [ih.1]
      simp only [V3.mk.injEq, and_true]
      push_cast
      constructor <;> ring
    · rw [ih.2]
      simp only [V3.mk.injEq, and_true]
      push_cast
      constructor <;> ring

/-- C93. Given twice the same array (the grid of one image), the position of the node is subtracted twice. -/
theorem C93_displacement_same_array (step : K) (s : Memory (ℕ → ℕ → V3 K)) (l i j : ℕ) :
    (positionsToDisplacementGrid step s l l).1 l i j =
      ⟨(s l i j).x - 2 * (step * i), (s l i j).y - 2 * (step * j), (s l i j).z⟩ := by
  simp only [positionsToDisplacementGrid, subtractFirst, subtractSecond, displacement_rows, Memory.put, if_true, V3.mk.injEq, and_true]
  constructor <;> ring

/-- A node at row 2 and column 1 of two grids of step 10, one at its own place and one 3 columns away. -/
example :
    let s : Memory (ℕ → ℕ → V3 ℚ) := fun r i j => ⟨10 * i, 10 * j + 3 * r, 7⟩
    ((positionsToDisplacementGrid 10 s 0 1).1 0 2 1, (positionsToDisplacementGrid 10 s 0 1).1 1 2 1) =
      (⟨0, 0, 7⟩, ⟨0, 3, 7⟩) ∧
    (positionsToDisplacementGrid 10 (positionsToDisplacementGrid 10 s 0 1).1 0 1).1 0 2 1 = ⟨-20, -10, 7⟩ ∧
    (positionsToDisplacementGrid 10 s 0 0).1 0 2 1 = ⟨-20, -10, 7⟩ := by
  decide +kernel

/-! ### Positions given to the geoid -/

theorem heightWrapped_wrap (g : GeoidImage K) (p : Option K × Option K) : g.heightWrapped (g.wrapPosition p) = g.heightAt p := by
  obtain ⟨a, b⟩ := p
  cases a <;> cases b <;> rfl

theorem wrap_turns (g : GeoidImage K) (lon : K) : g.wrap lon = lon ∨ g.wrap lon = lon + 360 ∨ g.wrap lon = lon - 360 := by
  unfold GeoidImage.wrap
  by_cases h1 : lon + g.minLon < 0
  · simp only [h1, if_true]
    split_ifs with h2
    · left; ring
    · right; left; rfl
  · simp only [h1, if_false]
    split_ifs with h2
    · right; right; rfl
    · left; rfl

theorem any_beyond_wrap (g : GeoidImage K) (l : List (Option K × Option K)) :
    ((l.map g.wrapPosition).any fun p => beyondPole p.2) = l.any fun p => beyondPole p.2 := by
  rw [List.any_map]
  rfl

/-- C93. `interpolate_geoid_height` returns or raises as `interpolateGeoidHeight` on the former positions (C59), and whether it
returns or raises, the positions of the caller are overwritten: same number, same latitudes, NaN stays NaN, and each longitude is
the former one or one turn more or less.  No other array changes. -/
theorem C93_geoid_positions (g : GeoidImage K) (s : Memory (List (Option K × Option K))) (r : ℕ) :
    let out := interpolateGeoidInPlace g s r
    out.2 = interpolateGeoidHeight g (s r) ∧
    (out.1 r).length = (s r).length ∧
    (∀ (i : ℕ) (lon lat : Option K), (s r)[i]? = some (lon, lat) → ∃ lon', (out.1 r)[i]? = some (lon', lat) ∧
      (lon = none → lon' = none) ∧ ∀ x, lon = some x → lon' = some x ∨ lon' = some (x + 360) ∨ lon' = some (x - 360)) ∧
    ∀ q, q ≠ r → out.1 q = s q := by
  intro out
  have hm : out.1 = s.put r ((s r).map g.overlap.wrapPosition) := by
    simp only [out, interpolateGeoidInPlace]
    split_ifs <;> rfl
  refine ⟨?_, ?_, ?_, ?_⟩
  · simp only [out, interpolateGeoidInPlace, interpolateGeoidHeight, Memory.put_same, any_beyond_wrap, List.map_map]
    split_ifs
    · rfl
    · simp only [Except.ok.injEq]
      exact List.map_congr_left fun p _ => heightWrapped_wrap g.overlap p
  · rw [hm, Memory.put_same, List.length_map]
  · intro i lon lat hi
    rw [hm, Memory.put_same, List.getElem?_map, hi]
    refine ⟨lon.map g.overlap.wrap, rfl, ?_, ?_⟩
    · rintro rfl; rfl
    · rintro x rfl
      simp only [Option.map_some, Option.some.injEq]
      exact wrap_turns _ _
  · intro q hq
    rw [hm, Memory.put_other s hq]

/-- Equal heights at longitudes of the geoid which are equal or one turn apart. -/
theorem heightWrapped_turn (g : GeoidImage K) (n : ℕ) (west north dlat : K) (hg : Global g n west north dlat)
    (hpix : g.nbCols = n + 1 → 1 / 10 ^ 8 ≤ g.transform.a) (v w : K) (lat : Option K) (hv1 : west ≤ v) (hv2 : v ≤ west + 360)
    (hw1 : west ≤ w) (hw2 : w ≤ west + 360) (h : w = v ∨ w = v + 360 ∨ w = v - 360) :
    g.overlap.heightWrapped (some w, lat) = g.overlap.heightWrapped (some v, lat) := by
  obtain ⟨o1, o2, o3, o4, o5⟩ := overlap_global g n west north dlat hg hpix
  have hn : (0 : K) < (n : K) := by exact_mod_cast hg.pos
  have haeq : g.transform.a = 360 / (n : K) := by rw [eq_div_iff hn.ne']; exact hg.a
  have ha0 : 0 < g.transform.a := by rw [haeq]; positivity
  have hturn : (360 : K) / g.transform.a = n := by rw [div_eq_iff ha0.ne', mul_comm]; exact hg.a.symm
  cases lat with
  | none => rfl
  | some lat =>
    simp only [GeoidImage.heightWrapped, o3]
    rw [index_straight g.transform hg.b hg.d ha0.ne' (by rw [hg.e]; exact hg.e0), index_straight g.transform hg.b hg.d ha0.ne' (by rw [hg.e]; exact hg.e0)]
    simp only [hg.c, hg.e, hg.f]
    by_cases hrow : 0 ≤ (lat - north) / dlat ∧ (lat - north) / dlat ≤ ((g.nbRows - 1 : ℕ) : K)
    · have key : ∀ u : K, west ≤ u → u ≤ west + 360 → g.overlap.interpn ((lat - north) / dlat) ((u - west) / g.transform.a) =
          some (circleHeight g.data n ((lat - north) / dlat) ((u - west) / g.transform.a)) := fun u h1 h2 =>
        circle_of_overlap g.overlap n hg.pos g.data (by rw [o2]; exact hg.rows) o1 o4 o5 _ _ hrow.1 (by rw [o2]; exact hrow.2)
          (div_nonneg (by linarith) ha0.le) (by rw [div_le_iff₀ ha0, mul_comm, hg.a]; linarith)
      rw [key w hw1 hw2, key v hv1 hv2]
      rcases h with rfl | rfl | rfl
      · rfl
      · rw [show (v + 360 - west) / g.transform.a = (v - west) / g.transform.a + n by rw [← hturn]; ring, circleHeight_turn]
      · rw [← circleHeight_turn g.data n _ ((v - 360 - west) / g.transform.a),
          show (v - 360 - west) / g.transform.a + n = (v - west) / g.transform.a by rw [← hturn]; ring]
    · have none' : ∀ c : K, g.overlap.interpn ((lat - north) / dlat) c = none := by
        intro c
        unfold GeoidImage.interpn
        rw [if_neg]
        rintro ⟨h1, h2, -⟩
        exact hrow ⟨h1, by rwa [o2] at h2⟩
      rw [none', none']

/-- C93. For a geoid covering all longitudes, whose first column is between longitudes -180 and 0, and positions of one turn on
either side: although the positions have been overwritten, calling again with the same array, any number of times, returns the
same heights or raises the same error. -/
theorem C93_geoid_repeated (g : GeoidImage K) (n : ℕ) (west north dlat : K) (hg : Global g n west north dlat) (h1 : -180 ≤ west) (h2 : west ≤ 0)
    (hpix : g.nbCols = n + 1 → 1 / 10 ^ 8 ≤ g.transform.a) (s : Memory (List (Option K × Option K))) (r : ℕ)
    (hlon : ∀ p ∈ s r, ∀ lon, p.1 = some lon → west - 360 ≤ lon ∧ lon ≤ west + 720) (k : ℕ) :
    (interpolateGeoidInPlace g ((fun s => (interpolateGeoidInPlace g s r).1)^[k] s) r).2 = (interpolateGeoidInPlace g s r).2 := by
  obtain ⟨o1, o2, o3, o4, o5⟩ := overlap_global g n west north dlat hg hpix
  have hmin : g.overlap.minLon = west := by unfold GeoidImage.minLon; rw [o3]; exact hg.c
  have hmax : g.overlap.maxLon = west + 360 := by
    have e := hg.a
    have c := hg.c
    unfold GeoidImage.maxLon
    rw [o3, o1]
    push_cast
    linarith
  have step : ∀ s : Memory (List (Option K × Option K)), (interpolateGeoidInPlace g s r).1 r = (s r).map g.overlap.wrapPosition := by
    intro s
    simp only [interpolateGeoidInPlace]
    split_ifs <;> simp [Memory.put]
  have res : ∀ s : Memory (List (Option K × Option K)), (interpolateGeoidInPlace g s r).2 = interpolateGeoidHeight g (s r) :=
    fun s => (C93_geoid_positions g s r).1
  induction k generalizing s with
  | zero => rfl
  | succ k ih =>
    rw [Function.iterate_succ_apply, ih]
    · rw [res, res, step]
      unfold interpolateGeoidHeight
      rw [any_beyond_wrap]
      split_ifs
      · rfl
      · simp only [Except.ok.injEq, List.map_map]
        refine List.map_congr_left fun p hp => ?_
        simp only [Function.comp]
        rw [← heightWrapped_wrap, ← heightWrapped_wrap]
        obtain ⟨a, b⟩ := p
        cases a with
        | none => rfl
        | some lon =>
          obtain ⟨l1, l2⟩ := hlon _ hp lon rfl
          obtain ⟨w1, w2, -⟩ := wrap_global g.overlap west hmin hmax h1 h2 lon l1 l2
          obtain ⟨v1, v2, v3⟩ := wrap_global g.overlap west hmin hmax h1 h2 (g.overlap.wrap lon) (by linarith) (by linarith)
          exact heightWrapped_turn g n west north dlat hg hpix _ _ b w1 w2 v1 v2 v3
    · intro p hp lon hl
      rw [step, List.mem_map] at hp
      obtain ⟨⟨a, b⟩, hq, rfl⟩ := hp
      cases a with
      | none => simp [GeoidImage.wrapPosition] at hl
      | some x =>
        simp only [GeoidImage.wrapPosition, Option.map_some, Option.some.injEq] at hl
        subst hl
        obtain ⟨l1, l2⟩ := hlon _ hq x rfl
        obtain ⟨w1, w2, -⟩ := wrap_global g.overlap west hmin hmax h1 h2 x l1 l2
        constructor <;> linarith

/-- C93. Further than one turn, the same call on the same array does not return the same thing twice: NaN, then a height. -/
theorem C93_geoid_far_longitude :
    ∃ (g : GeoidImage ℚ) (s : Memory (List (Option ℚ × Option ℚ))), Global g 4 (-180) 90 (-90) ∧ s 0 = [(some 900, some 0)] ∧
      (interpolateGeoidInPlace g s 0).2 = .ok [none] ∧
      (interpolateGeoidInPlace g (interpolateGeoidInPlace g s 0).1 0).2 = .ok [some 10] := by
  refine ⟨geoidEx, fun _ => [(some 900, some 0)], geoidEx_global, rfl, ?_, ?_⟩ <;> decide +kernel

/-- C93. The longitudes are changed although the call raises `RuntimeError`. -/
theorem C93_geoid_raises_modified :
    ∃ (g : GeoidImage ℚ) (s : Memory (List (Option ℚ × Option ℚ))), s 0 = [(some 200, some 91)] ∧
      (interpolateGeoidInPlace g s 0).2 = .error .runtimeError ∧
      (interpolateGeoidInPlace g s 0).1 0 = [(some (-160), some 91)] := by
  refine ⟨geoidEx, fun _ => [(some 200, some 91)], rfl, ?_, ?_⟩ <;> decide +kernel

/-- The hypotheses of `C93_geoid_repeated` with three positions, one of them on the first column and one of them NaN. -/
example (k : ℕ) :
    let s : Memory (List (Option ℚ × Option ℚ)) := fun _ => [(some (-540), some 0), (some 135, some 0), (none, some 3)]
    (interpolateGeoidInPlace geoidEx ((fun s => (interpolateGeoidInPlace geoidEx s 5).1)^[k] s) 5).2 =
      .ok [some 10, some (23 / 2), none] := by
  intro s
  rw [C93_geoid_repeated geoidEx 4 (-180) 90 (-90) geoidEx_global (by norm_num) (by norm_num) (by intro h; exact absurd h (by decide)) s 5]
  · decide +kernel
  · intro p hp lon hl
    simp only [s, List.mem_cons, List.not_mem_nil, or_false] at hp
    rcases hp with rfl | rfl | rfl
    · simp only [Option.some.injEq] at hl; subst hl; constructor <;> norm_num
    · simp only [Option.some.injEq] at hl; subst hl; constructor <;> norm_num
    · simp at hl

/-! ### Ground positions given to `check_lonlat` -/

/-- C93. `check_lonlat` returns the array it was given, overwritten: rows with a NaN, a longitude beyond 180 or a latitude beyond
90 degrees become NaN, the others are unchanged, and so are the other arrays; called again it changes nothing more. -/
theorem C93_check_lonlat (s : Memory (List (ORow K))) (r : ℕ) :
    let out := checkLonLatInPlace s r
    out.2 = r ∧ (out.1 r).length = (s r).length ∧
    (∀ (i : ℕ) (x y z : K), (s r)[i]? = some ⟨some x, some y, some z⟩ →
      (out.1 r)[i]? = some (if 180 < |x| ∨ 90 < |y| then ⟨none, none, none⟩ else ⟨some x, some y, some z⟩)) ∧
    (∀ (i : ℕ) (p : ORow K), (s r)[i]? = some p → p.x = none ∨ p.y = none ∨ p.z = none → (out.1 r)[i]? = some ⟨none, none, none⟩) ∧
    (∀ q, q ≠ r → out.1 q = s q) ∧ (checkLonLatInPlace out.1 r).1 = out.1 := by
  simp only [checkLonLatInPlace]
  refine ⟨trivial, by rw [Memory.put_same, List.length_map], ?_, ?_, ?_, ?_⟩
  · intro i x y z hi
    rw [Memory.put_same, List.getElem?_map, hi]
    rfl
  · intro i p hi hp
    rw [Memory.put_same, List.getElem?_map, hi, Option.map_some, checkRow_nan hp]
    rfl
  · intro q hq
    rw [Memory.put_other s hq]
  · funext q
    by_cases hq : q = r
    · subst hq
      rw [Memory.put_same, Memory.put_same, List.map_map]
      exact List.map_congr_left fun p _ => checkRow_idem p
    · rw [Memory.put_other _ hq]

example : (checkLonLatInPlace (fun _ => [⟨some 7, some 43, some 100⟩, ⟨some 181, some 43, some 100⟩, ⟨some 7, none, some 0⟩] : Memory (List (ORow ℚ))) 3).1 3 =
    [⟨some 7, some 43, some 100⟩, ⟨none, none, none⟩, ⟨none, none, none⟩] := by decide +kernel

end Shareloc
