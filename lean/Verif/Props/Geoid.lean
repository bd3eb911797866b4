import Verif.Model.DtmReader
import Verif.Props.RectGrid

/-!
# C59: geoid heights
-/

set_option linter.unusedSectionVars false

namespace Shareloc
variable {K : Type*} [Field K] [LinearOrder K] [IsStrictOrderedRing K] [FloorRing K]

/-! ### Specification -/

namespace Spec

/-- Bilinear interpolation of heights given at integer rows and columns, the columns being those of a full circle of `n`
columns: column `j` and column `j + n` are the same. -/
def circleHeight (height : ℕ → ℕ → K) (n : ℕ) (row col : K) : K :=
  let i := ⌊row⌋.toNat
  let u := row - (i : K)
  let v := col - ((⌊col⌋ : ℤ) : K)
  let h (i : ℕ) (j : ℤ) : K := height i (j % (n : ℤ)).toNat
  (1 - u) * ((1 - v) * h i ⌊col⌋ + v * h i (⌊col⌋ + 1)) + u * ((1 - v) * h (i + 1) ⌊col⌋ + v * h (i + 1) (⌊col⌋ + 1))

/-- A full turn changes nothing. -/
theorem circleHeight_turn (height : ℕ → ℕ → K) (n : ℕ) (row col : K) :
    circleHeight height n row (col + n) = circleHeight height n row col := by
  unfold circleHeight
  have h1 : ⌊col + (n : K)⌋ = ⌊col⌋ + (n : ℤ) := by exact_mod_cast Int.floor_add_intCast col (n : ℤ)
  simp only [h1]
  have h2 : (⌊col⌋ + (n : ℤ) + 1) % (n : ℤ) = (⌊col⌋ + 1) % (n : ℤ) := by
    rw [show ⌊col⌋ + (n : ℤ) + 1 = ⌊col⌋ + 1 + (n : ℤ) by ring, Int.add_emod_right]
  simp only [Int.add_emod_right, h2, Int.cast_add, Int.cast_natCast]
  rw [show col + (n : K) - (((⌊col⌋ : ℤ) : K) + (n : K)) = col - ((⌊col⌋ : ℤ) : K) by ring]

/-- A geoid that covers all longitudes with `n` columns, rows of constant latitude, columns of increasing longitude, the centre
of the first column at longitude `west`, the centre of the first row at latitude `north`, rows `dlat` apart. -/
structure Global (g : GeoidImage K) (n : ℕ) (west north dlat : K) : Prop where
  pos : 0 < n
  rows : 2 ≤ g.nbRows
  b : g.transform.b = 0
  d : g.transform.d = 0
  a : g.transform.a * (n : K) = 360
  c : g.transform.c + g.transform.a / 2 = west
  e : g.transform.e = dlat
  e0 : dlat ≠ 0
  f : g.transform.f + dlat / 2 = north
  /-- the columns are those of the circle, or the first one is repeated at the end -/
  cols : g.nbCols = n ∨ (g.nbCols = n + 1 ∧ ∀ i, g.data i n = g.data i 0)

end Spec
open Spec

/-! ### Interpolation -/

theorem linear_floor (n : ℕ) (hn : 2 ≤ n) (p : ℕ → K) (x : K) (h0 : 0 ≤ x) (h1 : x ≤ ((n - 1 : ℕ) : K)) (k : ℕ)
    (hk : k = intervalIndex n (fun k => (k : K)) x) :
    p k * (1 - (x - k)) + p (k + 1) * (x - k) =
      (1 - (x - (⌊x⌋.toNat : K))) * p ⌊x⌋.toNat + (x - (⌊x⌋.toNat : K)) * p (⌊x⌋.toNat + 1) := by
  have hspec := intervalIndex_spec n hn (fun k : ℕ => (k : K)) (fun a b h => by simpa using h) x
  simp only [← hk] at hspec
  obtain ⟨a1, a2, a3⟩ := hspec
  have b1 : (k : K) ≤ x := a2.elim id (fun h => by rw [h]; simpa using h0)
  have b2 : x ≤ (k : K) + 1 := by
    rcases a3 with h | h
    · simpa using h
    · have : n - 1 = k + 1 := by omega
      rw [this] at h1
      simpa using h1
  rcases b2.eq_or_lt with hx | hx
  · have hf : ⌊x⌋ = ((k + 1 : ℕ) : ℤ) := by rw [hx]; exact_mod_cast Int.floor_natCast (k + 1)
    have ht : ⌊x⌋.toNat = k + 1 := by rw [hf]; exact Int.toNat_natCast _
    rw [ht, hx]
    push_cast
    ring
  · have hf : ⌊x⌋ = ((k : ℕ) : ℤ) := by
      rw [Int.floor_eq_iff]
      exact ⟨by simpa using b1, by simpa using hx⟩
    have ht : ⌊x⌋.toNat = k := by rw [hf]; exact Int.toNat_natCast _
    rw [ht]
    ring

theorem interpn_floor (g : GeoidImage K) (hr : 2 ≤ g.nbRows) (hc : 2 ≤ g.nbCols) (row col : K) (h1 : 0 ≤ row)
    (h2 : row ≤ ((g.nbRows - 1 : ℕ) : K)) (h3 : 0 ≤ col) (h4 : col ≤ ((g.nbCols - 1 : ℕ) : K)) :
    g.interpn row col = some (
      (1 - (row - (⌊row⌋.toNat : K))) * ((1 - (col - (⌊col⌋.toNat : K))) * g.data ⌊row⌋.toNat ⌊col⌋.toNat +
        (col - (⌊col⌋.toNat : K)) * g.data ⌊row⌋.toNat (⌊col⌋.toNat + 1)) +
      (row - (⌊row⌋.toNat : K)) * ((1 - (col - (⌊col⌋.toNat : K))) * g.data (⌊row⌋.toNat + 1) ⌊col⌋.toNat +
        (col - (⌊col⌋.toNat : K)) * g.data (⌊row⌋.toNat + 1) (⌊col⌋.toNat + 1))) := by
  unfold GeoidImage.interpn
  rw [if_pos ⟨h1, h2, h3, h4⟩]
  simp only [Option.some.injEq]
  have hcol := fun r => linear_floor g.nbCols hc (g.data r) col h3 h4 _ rfl
  have hrow := linear_floor g.nbRows hr (fun r => (1 - (col - (⌊col⌋.toNat : K))) * g.data r ⌊col⌋.toNat +
        (col - (⌊col⌋.toNat : K)) * g.data r (⌊col⌋.toNat + 1)) row h1 h2 _ rfl
  rw [← hrow, ← hcol, ← hcol]
  ring

/-- Once the overlap is made: `n + 1` columns, the last one being the first one. -/
theorem overlap_global (g : GeoidImage K) (n : ℕ) (west north dlat : K) (hg : Global g n west north dlat)
    (hpix : g.nbCols = n + 1 → 1 / 10 ^ 8 ≤ g.transform.a) :
    g.overlap.nbCols = n + 1 ∧ g.overlap.nbRows = g.nbRows ∧ g.overlap.transform = g.transform ∧
      (∀ i j, j < n → g.overlap.data i j = g.data i j) ∧ ∀ i, g.overlap.data i n = g.data i 0 := by
  have ha : (n : K) * g.transform.a = 360 := by rw [mul_comm]; exact hg.a
  unfold GeoidImage.overlap
  rcases hg.cols with h | ⟨h, hd⟩
  · rw [h, ha]
    rw [if_pos (by norm_num)]
    refine ⟨rfl, rfl, rfl, ?_, ?_⟩
    · intro i j hj
      simp only [hj.ne, if_false]
    · intro i
      simp
  · have : ¬ ((g.nbCols : K) * g.transform.a - 360 < 1 / 10 ^ 8) := by
      have := hpix h
      rw [h]
      push_cast
      rw [add_mul, ha]
      linarith
    rw [if_neg this]
    exact ⟨h, rfl, rfl, fun _ _ _ => rfl, hd⟩

theorem circle_of_overlap (g : GeoidImage K) (n : ℕ) (hn : 0 < n) (data : ℕ → ℕ → K) (hr : 2 ≤ g.nbRows) (hc : g.nbCols = n + 1)
    (hd : ∀ i j, j < n → g.data i j = data i j) (hl : ∀ i, g.data i n = data i 0) (row col : K) (h1 : 0 ≤ row)
    (h2 : row ≤ ((g.nbRows - 1 : ℕ) : K)) (h3 : 0 ≤ col) (h4 : col ≤ (n : K)) :
    g.interpn row col = some (circleHeight data n row col) := by
  rw [interpn_floor g hr (by omega) row col h1 h2 h3 (by rw [hc]; simpa using h4)]
  unfold circleHeight
  simp only [Option.some.injEq]
  have hfl : ⌊col⌋ = ((⌊col⌋.toNat : ℕ) : ℤ) := (Int.toNat_of_nonneg (Int.floor_nonneg.2 h3)).symm
  have hle : (⌊col⌋.toNat : K) ≤ col := by
    have := Int.floor_le col
    rw [hfl] at this
    exact_mod_cast this
  have hcast : ((⌊col⌋ : ℤ) : K) = (⌊col⌋.toNat : K) := by
    conv_lhs => rw [hfl]
    exact Int.cast_natCast _
  have hbound : ⌊col⌋.toNat ≤ n := by exact_mod_cast hle.trans h4
  have hzero : ⌊col⌋.toNat = n → col - (⌊col⌋.toNat : K) = 0 := by
    intro h
    rw [h] at hle ⊢
    exact sub_eq_zero.2 (le_antisymm h4 hle)
  have key : ∀ i, (1 - (col - (⌊col⌋.toNat : K))) * g.data i ⌊col⌋.toNat + (col - (⌊col⌋.toNat : K)) * g.data i (⌊col⌋.toNat + 1) =
      (1 - (col - ((⌊col⌋ : ℤ) : K))) * data i (⌊col⌋ % (n : ℤ)).toNat + (col - ((⌊col⌋ : ℤ) : K)) * data i ((⌊col⌋ + 1) % (n : ℤ)).toNat := by
    intro i
    rw [hcast]
    have e1 : (⌊col⌋ % (n : ℤ)).toNat = ⌊col⌋.toNat % n := by 
      conv_lhs => rw [hfl]
      norm_cast
    have e2 : ((⌊col⌋ + 1) % (n : ℤ)).toNat = (⌊col⌋.toNat + 1) % n := by
      conv_lhs => rw [hfl]
      norm_cast
    rw [e1, e2]
    generalize ⌊col⌋.toNat = f at *
    rcases hbound.eq_or_lt with h | h
    · rw [hzero h, h, Nat.mod_self, hl]
      ring
    · rw [Nat.mod_eq_of_lt h, hd i f h]
      rcases Nat.lt_or_ge (f + 1) n with h' | h'
      · rw [Nat.mod_eq_of_lt h', hd i (f + 1) h']
      · have : f + 1 = n := by omega
        rw [this, Nat.mod_self, hl]
  rw [key, key]

/-! ### Longitudes -/

/-- For a first column between longitudes -180 and 0, the two changes of longitude bring every longitude of one turn on
either side into the geoid, by a whole number of turns. -/
theorem wrap_global (g : GeoidImage K) (west : K) (hw : g.minLon = west) (hmax : g.maxLon = west + 360) (h1 : -180 ≤ west) (h2 : west ≤ 0)
    (lon : K) (h3 : west - 360 ≤ lon) (h4 : lon ≤ west + 720) :
    west ≤ g.wrap lon ∧ g.wrap lon ≤ west + 360 ∧ (g.wrap lon = lon ∨ g.wrap lon = lon + 360 ∨ g.wrap lon = lon - 360) := by
  unfold GeoidImage.wrap
  simp only [hw, hmax]
  by_cases c1 : lon + west < 0
  · simp only [c1, if_true]
    by_cases c2 : lon + 360 - (west + 360) > 0
    · simp only [c2, if_true]
      exact ⟨by linarith, by linarith, .inl (by ring)⟩
    · simp only [c2, if_false]
      exact ⟨by linarith, by linarith, .inr (.inl trivial)⟩
  · simp only [c1, if_false]
    by_cases c2 : lon - (west + 360) > 0
    · simp only [c2, if_true]
      exact ⟨by linarith, by linarith, .inr (.inr trivial)⟩
    · simp only [c2, if_false]
      exact ⟨by linarith, by linarith, .inl trivial⟩

theorem index_straight (t : Affine K) (hb : t.b = 0) (hd : t.d = 0) (ha : t.a ≠ 0) (he : t.e ≠ 0) (lat lon : K) :
    physicalToIndex t.inv lat lon = ((lat - (t.f + t.e / 2)) / t.e, (lon - (t.c + t.a / 2)) / t.a) := by
  unfold physicalToIndex Affine.inv Affine.apply Affine.det
  simp only [hb, hd]
  ext
  · simp only; field_simp; ring
  · simp only; field_simp; ring

/-! ### C59 -/

/-- C59. For a geoid covering all longitudes, whose first column is between longitudes -180 and 0: one height per position,
in order; the height is the interpolated one at the longitude modulo 360, for all longitudes of one turn on either side of
the geoid and all latitudes within its rows.
Missing: a first column east of longitude 0 (`C59_positive_west`). -/
theorem C59_global_partial (g : GeoidImage K) (n : ℕ) (west north dlat : K) (hg : Global g n west north dlat) (h1 : -180 ≤ west) (h2 : west ≤ 0)
    (hpix : g.nbCols = n + 1 → 1 / 10 ^ 8 ≤ g.transform.a) (pos : List (Option K × Option K))
    (hlat : ∀ p ∈ pos, ∀ lat, p.2 = some lat → |lat| ≤ 90) :
    ∃ out, interpolateGeoidHeight g pos = .ok out ∧ out.length = pos.length ∧
      ∀ (i : ℕ) (lon lat : K), pos[i]? = some (some lon, some lat) → west - 360 ≤ lon → lon ≤ west + 720 →
        0 ≤ (lat - north) / dlat → (lat - north) / dlat ≤ ((g.nbRows - 1 : ℕ) : K) →
        out[i]? = some (some (circleHeight g.data n ((lat - north) / dlat) ((lon - west) / (360 / (n : K))))) := by
  obtain ⟨o1, o2, o3, o4, o5⟩ := overlap_global g n west north dlat hg hpix
  have hn : (0 : K) < (n : K) := by exact_mod_cast hg.pos
  have haeq : g.transform.a = 360 / (n : K) := by rw [eq_div_iff hn.ne']; exact hg.a
  have ha0 : 0 < g.transform.a := by rw [haeq]; positivity
  have hany : (pos.any fun p => beyondPole p.2) = false := by
    rw [List.any_eq_false]
    rintro ⟨a, b⟩ hp
    cases b with
    | none => simp [beyondPole]
    | some lat => simpa [beyondPole] using hlat _ hp lat rfl
  refine ⟨_, by simp only [interpolateGeoidHeight, hany, Bool.false_eq_true, if_false]; rfl, by simp, ?_⟩
  intro i lon lat hi h3 h4 h5 h6
  rw [List.getElem?_map, hi, Option.map_some]
  simp only [GeoidImage.heightAt, o3]
  have hmin : g.overlap.minLon = west := by unfold GeoidImage.minLon; rw [o3]; exact hg.c
  have hmax : g.overlap.maxLon = west + 360 := by
    have e := hg.a
    have c := hg.c
    unfold GeoidImage.maxLon
    rw [o3, o1]
    push_cast
    linarith
  obtain ⟨w1, w2, w3⟩ := wrap_global g.overlap west hmin hmax h1 h2 lon h3 h4
  rw [index_straight g.transform hg.b hg.d ha0.ne' (by rw [hg.e]; exact hg.e0)]
  simp only [hg.c, hg.e, hg.f]
  have hturn : (360 : K) / g.transform.a = n := by rw [div_eq_iff ha0.ne', mul_comm]; exact hg.a.symm
  rw [circle_of_overlap g.overlap n hg.pos g.data (by rw [o2]; exact hg.rows) o1 o4 o5 _ _ h5 (by rw [o2]; exact h6)
    (div_nonneg (by linarith) ha0.le) (by rw [div_le_iff₀ ha0, mul_comm, hg.a]; linarith), ← haeq]
  congr 2
  rcases w3 with h | h | h
  · rw [h]
  · rw [h, show (lon + 360 - west) / g.transform.a = (lon - west) / g.transform.a + n by rw [← hturn]; ring]
    exact circleHeight_turn _ _ _ _
  · rw [h, ← circleHeight_turn, show (lon - 360 - west) / g.transform.a + n = (lon - west) / g.transform.a by rw [← hturn]; ring]

/-- C59. Two longitudes a full turn apart have the same height. -/
theorem C59_full_turn (g : GeoidImage K) (n : ℕ) (west north dlat : K) (hg : Global g n west north dlat) (h1 : -180 ≤ west) (h2 : west ≤ 0)
    (hpix : g.nbCols = n + 1 → 1 / 10 ^ 8 ≤ g.transform.a) (lon lat : K) (hlat : |lat| ≤ 90) (h3 : west - 360 ≤ lon) (h4 : lon ≤ west + 360)
    (h5 : 0 ≤ (lat - north) / dlat) (h6 : (lat - north) / dlat ≤ ((g.nbRows - 1 : ℕ) : K)) :
    ∃ h, interpolateGeoidHeight g [(some lon, some lat), (some (lon + 360), some lat)] = .ok [some h, some h] := by
  obtain ⟨out, e, hlen, hout⟩ := C59_global_partial g n west north dlat hg h1 h2 hpix [(some lon, some lat), (some (lon + 360), some lat)]
    (by
      intro p hp l hl
      simp only [List.mem_cons, List.not_mem_nil, or_false] at hp
      rcases hp with rfl | rfl
      · simp only [Option.some.injEq] at hl; exact hl ▸ hlat
      · simp only [Option.some.injEq] at hl; exact hl ▸ hlat)
  have hn : (0 : K) < (n : K) := by exact_mod_cast hg.pos
  have a := hout 0 lon lat rfl h3 (by linarith) h5 h6
  have b := hout 1 (lon + 360) lat rfl (by linarith) (by linarith) h5 h6
  rw [show (lon + 360 - west) / (360 / (n : K)) = (lon - west) / (360 / (n : K)) + n by field_simp; ring, circleHeight_turn] at b
  match out, hlen, a, b with
  | [x, y], _, a, b =>
    simp only [List.getElem?_cons_zero, List.getElem?_cons_succ, Option.some.injEq] at a b
    exact ⟨_, by rw [e, a, b]⟩

/-- C59. A latitude beyond 90 degrees anywhere in the positions raises `RuntimeError`, and nothing else does. -/
theorem C59_latitude_error (g : GeoidImage K) (pos : List (Option K × Option K)) :
    (interpolateGeoidHeight g pos = .error .runtimeError ↔ ∃ p ∈ pos, ∃ lat, p.2 = some lat ∧ 90 < |lat|) ∧
    (∀ e, interpolateGeoidHeight g pos = .error e → e = .runtimeError) := by
  unfold interpolateGeoidHeight
  have hiff : (pos.any fun p => beyondPole p.2) = true ↔
      ∃ p ∈ pos, ∃ lat, p.2 = some lat ∧ 90 < |lat| := by
    rw [List.any_eq_true]
    constructor
    · rintro ⟨⟨a, b⟩, hp, h⟩
      cases b with
      | none => simp [beyondPole] at h
      | some lat => exact ⟨_, hp, lat, rfl, by simpa [beyondPole] using h⟩
    · rintro ⟨⟨a, b⟩, hp, lat, h, hl⟩
      simp only at h
      subst h
      exact ⟨_, hp, by simpa [beyondPole] using hl⟩
  rw [← hiff]
  split_ifs with h
  · simp [h]
  · simp [h]

/-- C59. A NaN position has a NaN height. -/
theorem C59_nan (g : GeoidImage K) (pos : List (Option K × Option K)) (out : List (Option K))
    (h : interpolateGeoidHeight g pos = .ok out) (i : ℕ) (p : Option K × Option K) (hi : pos[i]? = some p) (hp : p.1 = none ∨ p.2 = none) :
    out[i]? = some none := by
  unfold interpolateGeoidHeight at h
  split_ifs at h
  simp only [Except.ok.injEq] at h
  subst h
  rw [List.getElem?_map, hi, Option.map_some]
  obtain ⟨a, b⟩ := p
  rcases hp with rfl | rfl
  · rfl
  · cases a <;> rfl

/-- C59, full claim false when the first column is east of longitude 0 (an image whose left border is at 0): all the
longitudes between the opposite of that of the first column and it have no height, although the geoid covers the circle. -/
theorem C59_positive_west (g : GeoidImage K) (n : ℕ) (west north dlat : K) (hg : Global g n west north dlat) (_h1 : 0 < west)
    (hpix : g.nbCols = n + 1 → 1 / 10 ^ 8 ≤ g.transform.a) (lon lat : K) (hlat : |lat| ≤ 90) (h2 : -west ≤ lon) (h3 : lon < west) :
    interpolateGeoidHeight g [(some lon, some lat)] = .ok [none] := by
  obtain ⟨o1, o2, o3, o4, o5⟩ := overlap_global g n west north dlat hg hpix
  have hn : (0 : K) < (n : K) := by exact_mod_cast hg.pos
  have haeq : g.transform.a = 360 / (n : K) := by rw [eq_div_iff hn.ne']; exact hg.a
  have ha0 : 0 < g.transform.a := by rw [haeq]; positivity
  have hmin : g.overlap.minLon = west := by unfold GeoidImage.minLon; rw [o3]; exact hg.c
  have hmax : g.overlap.maxLon = west + 360 := by
    have e := hg.a
    have c := hg.c
    unfold GeoidImage.maxLon
    rw [o3, o1]
    push_cast
    linarith
  have hw : g.overlap.wrap lon = lon := by
    unfold GeoidImage.wrap
    simp only [hmin, hmax]
    rw [if_neg (show ¬ lon + west < 0 by linarith), if_neg (show ¬ lon - (west + 360) > 0 by linarith)]
  have hl : ¬ (90 < |lat|) := not_lt.2 hlat
  simp only [interpolateGeoidHeight, List.any_cons, List.any_nil, beyondPole, GeoidImage.heightAt, hl, decide_false, Bool.or_false, Bool.false_eq_true, if_false,
    List.map_cons, List.map_nil, Except.ok.injEq, List.cons.injEq, and_true]
  rw [hw, o3, index_straight g.transform hg.b hg.d ha0.ne' (by rw [hg.e]; exact hg.e0)]
  simp only [hg.c]
  unfold GeoidImage.interpn
  rw [if_neg]
  rintro ⟨-, -, h, -⟩
  exact absurd h (not_le.2 (div_neg_of_neg_of_pos (by linarith) ha0))

/-- A geoid of four columns of 90 degrees and three rows, the first column at longitude -180, latitudes 90, 0 and -90. -/
def geoidEx : GeoidImage ℚ := ⟨3, 4, ⟨90, 0, -225, 0, -90, 135⟩, fun i j => 10 * i + j⟩

theorem geoidEx_global : Global geoidEx 4 (-180) 90 (-90) :=
  ⟨by decide, by decide, rfl, rfl, by norm_num [geoidEx], by norm_num [geoidEx], rfl, by norm_num, by norm_num [geoidEx], .inl rfl⟩

/-- At longitude 135, half way between the last column (13) and the first one (10), on the middle row. -/
example : interpolateGeoidHeight geoidEx [(some 135, some 0), (some (-225), some 0), (some (-180), some 0), (some 180, some 0), (some 495, some 0)] =
    .ok [some (23 / 2), some (23 / 2), some 10, some 10, some (23 / 2)] := by decide +kernel

/-- The same geoid with its left border at longitude 0 (first column at 45). -/
theorem C59_positive_west_example : Global ({ geoidEx with transform := ⟨90, 0, 0, 0, -90, 135⟩ } : GeoidImage ℚ) 4 45 90 (-90) ∧
    interpolateGeoidHeight ({ geoidEx with transform := ⟨90, 0, 0, 0, -90, 135⟩ } : GeoidImage ℚ) [(some 0, some 0), (some 360, some 0)] =
      .ok [none, some (23 / 2)] :=
  ⟨⟨by decide, by decide, rfl, rfl, by norm_num, by norm_num, rfl, by norm_num, by norm_num, .inl rfl⟩, by decide +kernel⟩

/-- C59. A regional geoid is also extended by its first column: east of it, heights are interpolated towards the height of its
western border instead of being NaN. -/
theorem C59_regional_extension :
    ∃ g : GeoidImage ℚ, (g.nbCols : ℚ) * g.transform.a < 360 ∧
      (∀ i j, j < g.nbCols → g.data i j = if j = 0 then 100 else 0) ∧
      (indexToPhysical g.transform 0 ((g.nbCols : ℚ) - 1)).2 = 3 ∧
      interpolateGeoidHeight g [(some 3, some 40), (some (7 / 2), some 40)] = .ok [some 0, some 50] := by
  refine ⟨⟨2, 4, ⟨1, 0, -1 / 2, 0, -1, 81 / 2⟩, fun _ j => if j = 0 then 100 else 0⟩, by norm_num, fun _ _ _ => rfl, ?_, ?_⟩
  · norm_num [indexToPhysical, Affine.apply]
  · decide +kernel

/-! ### The DTM above the ellipsoid -/

/-- C59. Each altitude of the DTM is the one of the file (filled) plus the height of the geoid at the centre of the cell, cell by
cell. -/
theorem C59_added_pointwise (ext : List (Option K) → List ℕ → List (Option K)) (conv : ℕ → Option K × Option K → Option K × Option K)
    (f : DtmFile K) (g : GeoidImage K) (strategy : Option FillStrategy) (fill : Option (Option K)) (alt : List (Option K))
    (ha : readAltitudes ext f.dtype f.nodata f.mask f.data strategy fill = .ok alt) (hsize : alt.length = f.nbRows * f.nbCols)
    (out : List (Option K)) (h : dtmReader ext conv f (some g) strategy fill = .ok out) :
    out.length = f.nbRows * f.nbCols ∧
    ∀ i j, i < f.nbRows → j < f.nbCols → ∀ z, alt[i * f.nbCols + j]? = some z →
      ∃ hgt, interpolateGeoidHeight g [(if f.epsg ≠ 4326 then conv f.epsg else id)
          (some (indexToPhysical f.transform (i : K) (j : K)).2, some (indexToPhysical f.transform (i : K) (j : K)).1)] = .ok [hgt] ∧
        out[i * f.nbCols + j]? = some (olift2 (fun a b => a + b) z hgt) := by
  unfold dtmReader at h
  rw [ha] at h
  simp only [bind, Except.bind, addGeoid] at h
  have hpos : (if f.epsg ≠ 4326 then (cellPositions f.transform f.nbRows f.nbCols).map (conv f.epsg) else cellPositions f.transform f.nbRows f.nbCols) =
      (cellPositions f.transform f.nbRows f.nbCols).map (if f.epsg ≠ 4326 then conv f.epsg else id) := by
    split_ifs <;> simp
  rw [hpos] at h
  clear hpos
  generalize (if f.epsg ≠ 4326 then conv f.epsg else id) = cv at h ⊢
  cases hi : interpolateGeoidHeight g ((cellPositions f.transform f.nbRows f.nbCols).map cv) with
  | error e => rw [hi] at h; simp at h
  | ok hs =>
    rw [hi] at h
    simp only [pure, Except.pure, Except.ok.injEq] at h
    subst h
    unfold interpolateGeoidHeight at hi
    split_ifs at hi with hany
    simp only [Except.ok.injEq] at hi
    have hlen : hs.length = f.nbRows * f.nbCols := by rw [← hi]; simp [cellPositions]
    refine ⟨by simp [hsize, hlen], ?_⟩
    intro i j hir hjc z hz
    have hk : i * f.nbCols + j < f.nbRows * f.nbCols := by nlinarith
    have hdiv : (i * f.nbCols + j) / f.nbCols = i := by
      rw [mul_comm, Nat.mul_add_div (by omega), Nat.div_eq_of_lt hjc, add_zero]
    have hmod : (i * f.nbCols + j) % f.nbCols = j := by
      rw [mul_comm, Nat.mul_add_mod, Nat.mod_eq_of_lt hjc]
    have hp : ((cellPositions f.transform f.nbRows f.nbCols).map cv)[i * f.nbCols + j]? =
        some (cv
          (some (indexToPhysical f.transform (i : K) (j : K)).2, some (indexToPhysical f.transform (i : K) (j : K)).1)) := by
      simp only [cellPositions, List.getElem?_map, List.getElem?_range hk, Option.map_some, hdiv, hmod]
    generalize hpp : cv
          (some (indexToPhysical f.transform (i : K) (j : K)).2, some (indexToPhysical f.transform (i : K) (j : K)).1) = pp at hp ⊢
    obtain ⟨hgt, e1, e2⟩ : ∃ hgt, interpolateGeoidHeight g [pp] = .ok [hgt] ∧ hs[i * f.nbCols + j]? = some hgt := by
      refine ⟨_, ?_, by rw [← hi, List.getElem?_map, hp, Option.map_some]⟩
      unfold interpolateGeoidHeight
      rw [if_neg]
      · rfl
      · intro hc
        apply hany
        rw [List.any_eq_true] at hc ⊢
        obtain ⟨q, hq, hc⟩ := hc
        simp only [List.mem_singleton] at hq
        subst hq
        exact ⟨_, List.mem_of_getElem? hp, hc⟩
    refine ⟨hgt, e1, ?_⟩
    rw [List.getElem?_zipWith, hz, e2]

/-- Without geoid, the altitudes are those of the file (filled). -/
theorem C59_no_geoid (ext : List (Option K) → List ℕ → List (Option K)) (conv : ℕ → Option K × Option K → Option K × Option K)
    (f : DtmFile K) (strategy : Option FillStrategy) (fill : Option (Option K)) :
    dtmReader ext conv f none strategy fill = readAltitudes ext f.dtype f.nodata f.mask f.data strategy fill := by
  unfold dtmReader
  cases readAltitudes ext f.dtype f.nodata f.mask f.data strategy fill <;> rfl

/-- The hypotheses of `C59_added_pointwise` are met: a DTM of two cells, the second one NaN and filled by the minimum. -/
example : dtmReader (K := ℚ) (fun d _ => d) (fun _ p => p) ⟨.float, none, 4326, ⟨90, 0, 90, 0, -90, 45⟩, 1, 2, [], [some 1000, none]⟩ (some geoidEx)
    (some .min) none = .ok [some (1000 + 23 / 2), some (1000 + 21 / 2)] := by decide +kernel

end Shareloc
