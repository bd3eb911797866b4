import Verif.Props.FloatDtm
import Verif.Model.FloatFalsi
import Verif.Lemmas.Lipschitz

/-!
C91 (altitude of the point that the DTM intersection returns, in floating point).
-/

set_option linter.unusedSectionVars false
set_option linter.unusedSimpArgs false

namespace Shareloc
variable {K : Type*} [Field K] [LinearOrder K] [IsStrictOrderedRing K] [FloorRing K]

open Spec

/-! ### The interpolated surface -/

/-- The cell along one axis is the nearest one. -/
theorem lowerShift_eq_gridCell (n : ℕ) (hn : 2 ≤ n) (t : K) : lowerShift (n : ℤ) t = (gridCell n t : ℤ) := by
  unfold lowerShift gridCell
  split_ifs with h0 h1
  · have : ⌊t⌋ < 0 := Int.floor_lt.2 (by exact_mod_cast h0)
    omega
  · have : (n : ℤ) - 1 ≤ ⌊t⌋ := Int.le_floor.2 h1
    omega
  · have a : 0 ≤ ⌊t⌋ := Int.floor_nonneg.2 (not_lt.1 h0)
    have b : ⌊t⌋ < (n : ℤ) - 1 := Int.floor_lt.2 (not_le.1 h1)
    omega

theorem interpolBilin_eq_lerp2 (n m : ℕ) (hn : 2 ≤ n) (hm : 2 ≤ m) (mat : ℤ → ℤ → K) (row col : K) :
    interpolBilin mat n m row col = lerp2 n m (fun i j => mat i j) row col := by
  simp only [interpolBilin, lowerShift_eq_gridCell n hn, lowerShift_eq_gridCell m hm, lerp2, lerp]
  push_cast
  ring

/-- Between two positions no further than half a pixel from the raster the interpolated altitude changes by at most twice
the largest step between neighbours, per pixel of distance. -/
theorem interpolBilin_lipschitz (n m : ℕ) (hn : 2 ≤ n) (hm : 2 ≤ m) (mat : ℤ → ℤ → K) (S : K)
    (hS : ∀ i j i' j', IsNode n m i j → IsNode n m i' j' → |i' - i| + |j' - j| = 1 → |mat i' j' - mat i j| ≤ S)
    (row col row' col' : K) (hr : Within n (1 / 2) row) (hc : Within m (1 / 2) col') :
    |interpolBilin mat n m row' col' - interpolBilin mat n m row col| ≤ 2 * S * (|row' - row| + |col' - col|) := by
  rw [interpolBilin_eq_lerp2 n m hn hm, interpolBilin_eq_lerp2 n m hn hm]
  have := lerp2_increment n m hn hm (fun i j => mat i j) 0 0 S (1 / 2) (by norm_num)
    (by
      intro i j hi hj
      rw [sub_zero]
      apply hS
      · exact ⟨by omega, by omega, by omega, by omega⟩
      · exact ⟨by omega, by omega, by omega, by omega⟩
      · push_cast; simp)
    (by
      intro i j hi hj
      rw [sub_zero]
      apply hS
      · exact ⟨by omega, by omega, by omega, by omega⟩
      · exact ⟨by omega, by omega, by omega, by omega⟩
      · push_cast; simp) row col row' col' hr hc
  simp only [zero_mul, add_zero, sub_zero] at this
  refine this.trans (le_of_eq ?_)
  ring

/-- The rounding error of an interpolation no further than half a pixel from the raster. -/
theorem bilin_error_within {u : K} (hu : 0 ≤ u) (n m : ℕ) (hn : 2 ≤ n) (hm : 2 ≤ m) (mat : ℤ → ℤ → K) (row col v H : K)
    (hr : Within n (1 / 2) row) (hc : Within m (1 / 2) col) (hH : ∀ a b, IsNode n m a b → |mat a b| ≤ H)
    (h : FloatBilin u mat n m row col v) :
    |v - interpolBilin mat n m row col| ≤ 16 * ((1 + u) ^ 12 - 1) * H := by
  refine (bilin_error hu mat n m row col v h).trans ?_
  have key : ∀ (k : ℕ) (hk : 2 ≤ k) (t : K), Within k (1 / 2) t → |t - (lowerShift (k : ℤ) t : K)| ≤ 3 / 2 := by
    intro k hk t ⟨t0, t1⟩
    rw [lowerShift_eq_gridCell k hk]
    obtain ⟨g1, g2⟩ := gridCell_bounds k hk t
    have g1' : (gridCell k t : K) - 1 / 2 ≤ t := by
      rcases g1 with g1 | g1
      · rw [g1]; push_cast; linarith
      · linarith
    have g2' : t ≤ (gridCell k t : K) + 3 / 2 := by
      rcases g2 with g2 | g2
      · have : (k : K) = (gridCell k t : K) + 2 := by exact_mod_cast g2.symm
        linarith
      · linarith
    push_cast
    rw [abs_le]
    constructor <;> linarith
  have hs := key n hn row hr
  have ht := key m hm col hc
  have rr := lowerShift_range (nb := (n : ℤ)) (by exact_mod_cast hn) row
  have rc := lowerShift_range (nb := (m : ℤ)) (by exact_mod_cast hm) col
  have hg : 0 ≤ (1 + u) ^ 12 - 1 := sub_nonneg.mpr (one_le_pow_u hu 12)
  generalize (1 + u) ^ 12 - 1 = g at *
  simp only [bilSrc, mag_hadd, mag_hmul, mag_hsub, FExpr.mag, bilEnv]
  generalize lowerShift (n : ℤ) row = a at *
  generalize lowerShift (m : ℤ) col = b at *
  have h00 := hH a b ⟨by omega, by omega, by omega, by omega⟩
  have h01 := hH a (b + 1) ⟨by omega, by omega, by omega, by omega⟩
  have h10 := hH (a + 1) b ⟨by omega, by omega, by omega, by omega⟩
  have h11 := hH (a + 1) (b + 1) ⟨by omega, by omega, by omega, by omega⟩
  have s0 := abs_nonneg (row - (a : K))
  have t0 := abs_nonneg (col - (b : K))
  generalize |row - (a : K)| = s at *
  generalize |col - (b : K)| = t at *
  have e : ∀ w m W : K, 0 ≤ w → w ≤ W → m ≤ H → 0 ≤ m → w * m ≤ W * H :=
    fun w m W hw hW hm hm0 => mul_le_mul hW hm hm0 (le_trans hw hW)
  have k1 := e ((1 + t) * (1 + s)) _ (25 / 4) (by positivity) (by nlinarith) h00 (abs_nonneg _)
  have k2 := e (t * (1 + s)) _ (15 / 4) (by positivity) (by nlinarith) h01 (abs_nonneg _)
  have k3 := e ((1 + t) * s) _ (15 / 4) (by positivity) (by nlinarith) h10 (abs_nonneg _)
  have k4 := e (t * s) _ (9 / 4) (by positivity) (by nlinarith) h11 (abs_nonneg _)
  have : g * ((1 + t) * (1 + s) * |mat a b| + t * (1 + s) * |mat a (b + 1)| + (1 + t) * s * |mat (a + 1) b| +
      t * s * |mat (a + 1) (b + 1)|) ≤ g * (16 * H) := mul_le_mul_of_nonneg_left (by linarith) hg
  push_cast
  linarith

/-! ### The regula falsi -/

/-- The loop ends on a turn whose difference is within the tolerance. -/
theorem FloatFalsi.last {u tol : K} {mat : ℤ → ℤ → K} {nr nc : ℤ} {p1 p2 q : V3 K} {a h : K}
    (hf : FloatFalsi u tol mat nr nc p1 a p2 h q) :
    ∃ zv d2, FloatBilin u mat nr nc q.x q.y zv ∧ Rounds u (zv - q.z) d2 ∧ |d2| ≤ tol := by
  induction hf with
  | @stop p1 p2 q a h zv d2 ht hd =>
    obtain ⟨num, dh, dz, den, ch, -, -, -, -, -, -, -, -, -, hb, hr⟩ := ht
    exact ⟨zv, d2, hb, hr, hd⟩
  | top _ _ _ _ ih => exact ih
  | low _ _ _ _ ih => exact ih

theorem Rounds.abs_le_of {u x v w : K} (hu1 : u < 1) (h : Rounds u x v) (hv : |v| ≤ w) : |x| ≤ w / (1 - u) := by
  have h1 : |x| - |v| ≤ |v - x| := by rw [abs_sub_comm]; exact abs_sub_abs_le_abs_sub x v
  have h2 : |x| - |v| ≤ u * |x| := h1.trans h
  rw [le_div_iff₀ (by linarith)]
  nlinarith

/-- The altitude of a found point, in index coordinates. -/
theorem FloatFound.altitude {u tol : K} (hu : 0 ≤ u) (hu1 : u < 1) (htol : 0 ≤ tol) (n m : ℕ) (hn : 2 ≤ n) (hm : 2 ≤ m)
    (mat : ℤ → ℤ → K) (H : K) (hH : ∀ a b, IsNode n m a b → |mat a b| ≤ H) (q : V3 K) (hq : FloatFound u tol mat n m q)
    (hr : Within n (1 / 2) q.x) (hc : Within m (1 / 2) q.y) :
    |q.z - interpolBilin mat n m q.x q.y| ≤ tol / (1 - u) + 16 * ((1 + u) ^ 12 - 1) * H := by
  cases hq with
  | @vertical row col alti hb =>
    have := bilin_error_within hu n m hn hm mat row col alti H hr hc hH hb
    have h0 : 0 ≤ tol / (1 - u) := div_nonneg htol (by linarith)
    simp only
    linarith
  | @crossing p1 p2 q a h hf =>
    obtain ⟨zv, d2, hb, hd, ht⟩ := hf.last
    have h1 := bilin_error_within hu n m hn hm mat q.x q.y zv H hr hc hH hb
    have h2 := hd.abs_le_of hu1 ht
    rw [abs_sub_comm] at h2
    have : q.z - interpolBilin mat n m q.x q.y = (q.z - zv) + (zv - interpolBilin mat n m q.x q.y) := by ring
    rw [this]
    exact (abs_add_le _ _).trans (add_le_add h2 h1)

/-! ### The returned ground point -/

/-- One axis of the conversion of an index to a ground coordinate: the exact index of the result. -/
theorem axis_index {u : K} (hu : 0 ≤ u) {p s t vt vo x : K} (hp : p ≠ 0) (h1 : Rounds u (t + 1 / 2) vt)
    (h2 : FloatApply u p 0 s vt vo x) : |((x - s) / p - 1 / 2) - t| ≤ ((1 + u) ^ 5 - 1) * (|t + 1 / 2| + |s / p|) := by
  have a2 := h2.approx hu (vy := vo) rfl rfl ((Approx.refl u p).mono hu (Nat.zero_le 1) le_rfl)
    ((Approx.refl u s).mono hu (Nat.zero_le _) le_rfl) h1.approx
  have a3 := a2.1
  have e : ((x - s) / p - 1 / 2) - t = (x - ((t + 1 / 2) * p + vo * 0 + s)) / p := by field_simp; ring
  have em : (|t + 1 / 2| * |p| + |s|) / |p| = |t + 1 / 2| + |s / p| := by
    have : |p| ≠ 0 := abs_ne_zero.2 hp
    rw [abs_div]; field_simp
  rw [e, abs_div, ← em, ← mul_div_assoc]
  exact div_le_div_of_nonneg_right a3 (abs_nonneg p)

/-- The computed index is close to the exact index of the ground coordinate. -/
theorem axis_close {g r t o δ : K} {n : ℕ} (hg : 0 ≤ g) (h : |r - t| ≤ g * (|t + 1 / 2| + o)) (hr0 : 0 ≤ r) (hr1 : r ≤ n - 1)
    (hδ : g * (n + 1 + o) ≤ δ) (hδ1 : δ ≤ 1 / 2) (ho : 0 ≤ o) : |t - r| ≤ δ ∧ Within n (1 / 2) t := by
  have ht : |t + 1 / 2| ≤ n + 1 := by
    by_contra hc
    have hc := not_le.1 hc
    have e : |t + 1 / 2| ≤ |r + 1 / 2| + |r - t| := by
      have : t + 1 / 2 = (r + 1 / 2) - (r - t) := by ring
      rw [this]; exact abs_sub _ _
    rw [abs_of_nonneg (by linarith : 0 ≤ r + 1 / 2)] at e
    have hg1 : g * (n + 1) ≤ 1 / 2 := by nlinarith
    have hn0 : (0 : K) ≤ n := Nat.cast_nonneg n
    have hg2 : g ≤ 1 / 2 := by nlinarith
    nlinarith
  have h2 : |t - r| ≤ δ := by
    rw [abs_sub_comm]
    exact h.trans ((mul_le_mul_of_nonneg_left (by linarith) hg).trans hδ)
  refine ⟨h2, ?_⟩
  obtain ⟨a, b⟩ := abs_le.1 h2
  exact ⟨by linarith, by linarith⟩

/-- C91. In floating point, whatever the line of sight, the bracket and the number of turns, a point that the intersection
returns inside the footprint of the pixel centres of a DTM without rotation has the altitude of the exact bilinear surface at
its exact ground position, up to the tolerance, the roundings of the interpolation — `H` bounds the altitudes — and the
roundings of the ground position: `δ` pixels, `S` bounding the altitude step between neighbouring nodes. -/
theorem C91_altitude {u tol : K} (hu : 0 ≤ u) (hu1 : u < 1) (htol : 0 ≤ tol) (n m : ℕ) (hn : 2 ≤ n) (hm : 2 ≤ m)
    (mat : ℤ → ℤ → K) (H S δ : K) (hH : ∀ a b, IsNode n m a b → |mat a b| ≤ H)
    (hS : ∀ i j i' j', IsNode n m i j → IsNode n m i' j' → |i' - i| + |j' - j| = 1 → |mat i' j' - mat i j| ≤ S)
    (t : Affine K) (hb : t.b = 0) (hd : t.d = 0) (ha : t.a ≠ 0) (he : t.e ≠ 0) (p : V3 K)
    (hp : FloatReturned u tol mat n m t p) (row col : K) (hcol : t.a * (col + 1 / 2) + t.c = p.x)
    (hrow : t.e * (row + 1 / 2) + t.f = p.y) (hr0 : 0 ≤ row) (hr1 : row ≤ n - 1) (hc0 : 0 ≤ col) (hc1 : col ≤ m - 1)
    (hδr : ((1 + u) ^ 5 - 1) * (n + 1 + |t.f / t.e|) ≤ δ) (hδc : ((1 + u) ^ 5 - 1) * (m + 1 + |t.c / t.a|) ≤ δ) (hδ : δ ≤ 1 / 2) :
    |p.z - interpolBilin mat n m row col| ≤ tol / (1 - u) + 16 * ((1 + u) ^ 12 - 1) * H + 4 * S * δ := by
  obtain ⟨q, hq, ⟨vx, vy, hvx, hvy, hx, hy⟩, hz⟩ := hp
  rw [hb] at hx
  rw [hd] at hy
  have k1 := axis_index hu ha hvx hx
  have k2 := axis_index hu he hvy hy.swap
  have e1 : (p.x - t.c) / t.a - 1 / 2 = col := by rw [← hcol]; field_simp; ring
  have e2 : (p.y - t.f) / t.e - 1 / 2 = row := by rw [← hrow]; field_simp; ring
  rw [e1] at k1
  rw [e2] at k2
  have hg : 0 ≤ (1 + u) ^ 5 - 1 := sub_nonneg.mpr (one_le_pow_u hu 5)
  obtain ⟨c1, c2⟩ := axis_close hg k1 hc0 hc1 hδc hδ (abs_nonneg _)
  obtain ⟨r1, r2⟩ := axis_close hg k2 hr0 hr1 hδr hδ (abs_nonneg _)
  have h1 := hq.altitude hu hu1 htol n m hn hm mat H hH q r2 c2
  have h2 := interpolBilin_lipschitz n m hn hm mat S hS row col q.x q.y ⟨by linarith, by linarith⟩ c2
  have hS0 : 0 ≤ S := le_trans (abs_nonneg _) (hS 0 0 1 0 ⟨by omega, by omega, by omega, by omega⟩
    ⟨by omega, by omega, by omega, by omega⟩ (by norm_num))
  rw [hz]
  have : q.z - interpolBilin mat n m row col = (q.z - interpolBilin mat n m q.x q.y) +
      (interpolBilin mat n m q.x q.y - interpolBilin mat n m row col) := by ring
  rw [this]
  refine (abs_add_le _ _).trans (add_le_add h1 (h2.trans ?_))
  nlinarith

/-- C91. In double precision, with at most a million rows and columns, an origin at most ten million pixels away, altitudes of
at most 10000 metres and steps of at most 1000 metres between neighbours, the altitude returned is that of the surface to
0.00015 metre. -/
theorem C91_altitude_double {tol : K} (htol : Rounds doubleUnit (1 / 10000) tol) (n m : ℕ) (hn : 2 ≤ n) (hm : 2 ≤ m)
    (hn1 : n ≤ 1000000) (hm1 : m ≤ 1000000) (mat : ℤ → ℤ → K) (hH : ∀ a b, IsNode n m a b → |mat a b| ≤ 10000)
    (hS : ∀ i j i' j', IsNode n m i j → IsNode n m i' j' → |i' - i| + |j' - j| = 1 → |mat i' j' - mat i j| ≤ 1000)
    (t : Affine K) (hb : t.b = 0) (hd : t.d = 0) (ha : t.a ≠ 0) (he : t.e ≠ 0) (hc : |t.c / t.a| ≤ 10000000)
    (hf : |t.f / t.e| ≤ 10000000) (p : V3 K) (hp : FloatReturned doubleUnit tol mat n m t p) (row col : K)
    (hcol : t.a * (col + 1 / 2) + t.c = p.x) (hrow : t.e * (row + 1 / 2) + t.f = p.y)
    (hr0 : 0 ≤ row) (hr1 : row ≤ n - 1) (hc0 : 0 ≤ col) (hc1 : col ≤ m - 1) :
    |p.z - interpolBilin mat n m row col| ≤ 15 / 100000 := by
  have e : (doubleUnit : K) = 1 / 9007199254740992 := by unfold doubleUnit; norm_num
  have hu : (0 : K) ≤ doubleUnit := by rw [e]; norm_num
  have hu1 : (doubleUnit : K) < 1 := by rw [e]; norm_num
  have ht := abs_le.1 htol
  rw [abs_of_pos (by norm_num : (0 : K) < 1 / 10000), e] at ht
  have ht0 : 0 ≤ tol := by linarith [ht.1]
  have hn2 : (n : K) ≤ 1000000 := by exact_mod_cast hn1
  have hm2 : (m : K) ≤ 1000000 := by exact_mod_cast hm1
  have g5 : (1 + doubleUnit : K) ^ 5 - 1 ≤ 6 / 9007199254740992 := by
    have := pow_u_le (K := K) hu (by rw [e]; norm_num) 5 (by rw [e]; norm_num)
    rw [e] at this ⊢
    norm_num at this ⊢
  have g12 : (1 + doubleUnit : K) ^ 12 - 1 ≤ 13 / 9007199254740992 := by
    have := pow_u_le (K := K) hu (by rw [e]; norm_num) 12 (by rw [e]; norm_num)
    rw [e] at this ⊢
    norm_num at this ⊢
  have hg : 0 ≤ (1 + doubleUnit : K) ^ 5 - 1 := sub_nonneg.mpr (one_le_pow_u hu 5)
  have b : ∀ x o : K, 0 ≤ x → x ≤ 1000000 → 0 ≤ o → o ≤ 10000000 →
      ((1 + doubleUnit : K) ^ 5 - 1) * (x + 1 + o) ≤ 1 / 100000000 := by
    intro x o hx0 hx ho0 ho
    calc ((1 + doubleUnit : K) ^ 5 - 1) * (x + 1 + o) ≤ 6 / 9007199254740992 * (1000000 + 1 + 10000000) :=
          mul_le_mul g5 (by linarith) (by linarith) (by norm_num)
      _ ≤ 1 / 100000000 := by norm_num
  have := C91_altitude hu hu1 ht0 n m hn hm mat 10000 1000 (1 / 100000000) hH hS t hb hd ha he p hp row col hcol hrow hr0 hr1 hc0
    hc1 (b _ _ (Nat.cast_nonneg n) hn2 (abs_nonneg _) hf) (b _ _ (Nat.cast_nonneg m) hm2 (abs_nonneg _) hc) (by norm_num)
  have hdiv : tol / (1 - doubleUnit) ≤ 11 / 100000 - 1 / 1000000 := by
    rw [e, div_le_iff₀ (by norm_num)]
    have := ht.2
    norm_num at this ⊢
    linarith
  generalize (1 + doubleUnit : K) ^ 12 - 1 = g at *
  have : 16 * g * 10000 ≤ 1 / 1000000 := by linarith
  linarith

/-! ### The hypotheses are met -/

/-- A slope of 10 metres per row, with a step of a third of a metre per column. -/
def slopeMat : ℤ → ℤ → ℚ := fun i j => 100 + 10 * i + j / 3

/-- One turn of the regula falsi with a rounding function. -/
def turnPoint (rnd : ℚ → ℚ) (p1 : V3 ℚ) (a : ℚ) (p2 : V3 ℚ) (h : ℚ) : V3 ℚ :=
  let ch := rnd (rnd (p1.z - a) / rnd (rnd (h - a) - rnd (p2.z - p1.z)))
  ⟨rnd (p1.x + rnd (ch * rnd (p2.x - p1.x))), rnd (p1.y + rnd (ch * rnd (p2.y - p1.y))), rnd (p1.z + rnd (ch * rnd (p2.z - p1.z)))⟩

def bilRun (rnd : ℚ → ℚ) (mat : ℤ → ℤ → ℚ) (n m : ℤ) (row col : ℚ) : ℚ :=
  bilSrc.run rnd (bilEnv mat n m row col (rnd (col - (lowerShift m col : ℚ))) (rnd (row - (lowerShift n row : ℚ))))

theorem turnPoint_turn {u : ℚ} {rnd : ℚ → ℚ} (h : ∀ x, Rounds u x (rnd x)) (mat : ℤ → ℤ → ℚ) (n m : ℤ) (p1 p2 : V3 ℚ) (a b : ℚ)
    (hden : rnd (rnd (b - a) - rnd (p2.z - p1.z)) ≠ 0) :
    FloatTurn u mat n m p1 a p2 b (turnPoint rnd p1 a p2 b)
      (bilRun rnd mat n m (turnPoint rnd p1 a p2 b).x (turnPoint rnd p1 a p2 b).y)
      (rnd (bilRun rnd mat n m (turnPoint rnd p1 a p2 b).x (turnPoint rnd p1 a p2 b).y - (turnPoint rnd p1 a p2 b).z)) :=
  ⟨_, _, _, _, _, h _, h _, h _, h _, hden, h _, ⟨_, _, h _, h _, h _⟩, ⟨_, _, h _, h _, h _⟩, ⟨_, _, h _, h _, h _⟩,
    ⟨_, _, _, h _, h _, .refl _, FExpr.run_computes h _ _⟩, h _⟩

/-- A run in double precision on a raster with an origin that is not a double. -/
example : ∃ p : V3 ℚ, FloatReturned (K := ℚ) doubleUnit (rnd53 (1 / 10000)) slopeMat 4 4 ⟨1 / 3, 0, 10 / 7, 0, -1 / 3, 45 / 7⟩ p ∧
    |p.z - interpolBilin slopeMat 4 4 ((p.y - 45 / 7) / (-1 / 3) - 1 / 2) ((p.x - 10 / 7) / (1 / 3) - 1 / 2)| ≤ 15 / 100000 ∧
    |p.z - 21200 / 181| ≤ 1 / 10 ^ 10 ∧ p.z ≠ 21200 / 181 ∧
    1 < (p.y - 45 / 7) / (-1 / 3) - 1 / 2 ∧ (p.y - 45 / 7) / (-1 / 3) - 1 / 2 < 2 ∧
    1 < (p.x - 10 / 7) / (1 / 3) - 1 / 2 ∧ (p.x - 10 / 7) / (1 / 3) - 1 / 2 < 2 := by
  let p1 : V3 ℚ := ⟨1, 1, 150⟩
  let p2 : V3 ℚ := ⟨2, 2, 100⟩
  have hf : FloatFalsi (K := ℚ) doubleUnit (rnd53 (1 / 10000)) slopeMat 4 4 p1 (331 / 3) p2 (362 / 3)
      (turnPoint rnd53 p1 (331 / 3) p2 (362 / 3)) := by
    refine .stop (turnPoint_turn rnd53_rounds _ _ _ p1 p2 _ _ (by decide +kernel)) (by decide +kernel)
  exact ⟨⟨rnd53 (rnd53 (rnd53 (rnd53 ((turnPoint rnd53 p1 (331 / 3) p2 (362 / 3)).y + 1 / 2) * (1 / 3)) +
        rnd53 (rnd53 ((turnPoint rnd53 p1 (331 / 3) p2 (362 / 3)).x + 1 / 2) * 0)) + 10 / 7),
      rnd53 (rnd53 (rnd53 (rnd53 ((turnPoint rnd53 p1 (331 / 3) p2 (362 / 3)).y + 1 / 2) * 0) +
        rnd53 (rnd53 ((turnPoint rnd53 p1 (331 / 3) p2 (362 / 3)).x + 1 / 2) * (-1 / 3))) + 45 / 7),
      (turnPoint rnd53 p1 (331 / 3) p2 (362 / 3)).z⟩,
    ⟨_, .crossing hf, ⟨_, _, rnd53_rounds _, rnd53_rounds _, ⟨_, _, _, rnd53_rounds _, rnd53_rounds _, rnd53_rounds _, rnd53_rounds _⟩,
      ⟨_, _, _, rnd53_rounds _, rnd53_rounds _, rnd53_rounds _, rnd53_rounds _⟩⟩, rfl⟩, by decide +kernel⟩

end Shareloc
