import Verif.Props.FloatDtm
import Verif.Lemmas.FloatTri

/-!
C84, rasters with rotation terms: the index of the ground position of an index in floating point, for any invertible transform whose
determinant is not lost in the rounding of its two products.
-/

namespace Shareloc
variable {K : Type*} [Field K] [LinearOrder K] [IsStrictOrderedRing K] [FloorRing K]

theorem FloatApply.approx_full {u : K} (hu : 0 ≤ u) {p q s vx vy p' q' s' vx' vy' v mp mq ms mx my : K} {n m k N : ℕ}
    (hp : Approx u n mp p p') (hq : Approx u n mq q q') (hs : Approx u k ms s s') (hx : Approx u m mx vx vx') (hy : Approx u m my vy vy')
    (h : FloatApply u p' q' s' vx' vy' v) (hN : m + n + 2 + 1 ≤ N) (hk : k + 1 ≤ N) :
    Approx u N (mx * mp + my * mq + ms) (vx * p + vy * q + s) v := by
  obtain ⟨a, b, c, ha, hb, hc, hv⟩ := h
  refine ((((hx.mul hu hp ha).add hu (hy.mul hu hq hb) hc)).add hu hs hv).mono hu ?_ le_rfl
  rw [max_self]
  omega

/-- One axis of the round trip: the stored line of the inverse is `(p, q, s)`, computed from the exact line `(P, Q, S)`. -/
theorem axis_rotated {u : K} (hu : 0 ≤ u) {a b c d e f P Q S p q s tx ty vx vy x y px t' : K} {mx my : K}
    (hp : Approx u 1 |P| P p) (hq : Approx u 1 |Q| Q q) (hs : Approx u 3 (|c * P| + |f * Q|) S s)
    (hvx : Rounds u (tx + 1 / 2) vx) (hvy : Rounds u (ty + 1 / 2) vy) (h1 : FloatApply u a b c vx vy x) (h2 : FloatApply u d e f vx vy y)
    (hmx : mx = |tx + 1 / 2| * |a| + |ty + 1 / 2| * |b| + |c|) (hmy : my = |tx + 1 / 2| * |d| + |ty + 1 / 2| * |e| + |f|)
    (h3 : FloatApply u p q s x y px) (h4 : Rounds u (px - 1 / 2) t') :
    |t' - (((tx + 1 / 2) * a + (ty + 1 / 2) * b + c) * P + ((tx + 1 / 2) * d + (ty + 1 / 2) * e + f) * Q + S - 1 / 2)| ≤
      ((1 + u) ^ 9 - 1) * (mx * |P| + my * |Q| + (|c * P| + |f * Q|) + 1 / 2) := by
  have ax := h1.approx_full hu (Approx.refl u a) (Approx.refl u b) (Approx.refl u c) hvx.approx hvy.approx (N := 4) (by norm_num) (by norm_num)
  have ay := h2.approx_full hu (Approx.refl u d) (Approx.refl u e) (Approx.refl u f) hvx.approx hvy.approx (N := 4) (by norm_num) (by norm_num)
  have ap := h3.approx_full hu hp hq hs ax ay (N := 8) (by norm_num) (by norm_num)
  have at' := ap.sub hu (Approx.refl u (1 / 2)) h4
  have h := at'.1
  rw [hmx, hmy]
  have e2 : |(1 / 2 : K)| = 1 / 2 := abs_of_pos (by norm_num)
  rw [e2] at h
  exact h

/-- The computed reciprocal of a determinant: `S` bounds the two products, and the determinant is at least twice their rounding errors. -/
theorem recip_det {u : K} (hu : 0 ≤ u) {p q D pp qq det idet : K} (hD : D = p - q) (hD0 : D ≠ 0) (hpp : Rounds u p pp) (hqq : Rounds u q qq)
    (hdet : Rounds u (pp - qq) det) (hid : Rounds u (1 / det) idet) (hc : 2 * (((1 + u) ^ 2 - 1) * (|p| + |q|)) ≤ |D|) :
    |idet * D - 1| ≤ u + (1 + u) * (2 * (((1 + u) ^ 2 - 1) * ((|p| + |q|) / |D|))) ∧ |idet| ≤ 2 * (1 + u) / |D| := by
  have hDp : 0 < |D| := abs_pos.mpr hD0
  have ad := (hpp.approx.sub hu hqq.approx hdet).1
  simp only [max_self, Nat.reduceAdd] at ad
  rw [← hD] at ad
  have hhalf : |D| / 2 ≤ |det| := by
    have := abs_sub_abs_le_abs_sub D det
    rw [abs_sub_comm] at this
    linarith
  have hdp : 0 < |det| := by linarith
  have hd0 : det ≠ 0 := abs_pos.mp hdp
  have hinv : |1 / det| ≤ 2 / |D| := by
    rw [abs_div, abs_one, div_le_div_iff₀ hdp hDp]
    linarith
  have hid' : |idet - 1 / det| ≤ u * |1 / det| := hid
  have hidet : |idet| ≤ (1 + u) * |1 / det| := by
    have := abs_sub_abs_le_abs_sub idet (1 / det)
    linarith
  refine ⟨?_, ?_⟩
  · have e1 : idet * D - 1 = (idet - 1 / det) * D + (D - det) / det := by field_simp; ring
    have h1 : |(D - det) / det| ≤ 2 * (((1 + u) ^ 2 - 1) * ((|p| + |q|) / |D|)) := by
      rw [abs_div, div_le_iff₀ hdp, abs_sub_comm]
      have h0 : 0 ≤ ((1 + u) ^ 2 - 1) * ((|p| + |q|) / |D|) :=
        mul_nonneg (sub_nonneg.mpr (one_le_pow_u hu 2)) (div_nonneg (by positivity) hDp.le)
      have e3 : ((1 + u) ^ 2 - 1) * ((|p| + |q|) / |D|) * |D| = ((1 + u) ^ 2 - 1) * (|p| + |q|) := by field_simp
      nlinarith [mul_le_mul_of_nonneg_left hhalf h0]
    have e4 : D / det = 1 + (D - det) / det := by field_simp; ring
    have h2 : |(idet - 1 / det) * D| ≤ u * (1 + |(D - det) / det|) := by
      rw [abs_mul]
      calc |idet - 1 / det| * |D| ≤ u * |1 / det| * |D| := mul_le_mul_of_nonneg_right hid' (abs_nonneg _)
        _ = u * |D / det| := by rw [mul_assoc, ← abs_mul, one_div_mul_eq_div]
        _ ≤ u * (1 + |(D - det) / det|) := by
          apply mul_le_mul_of_nonneg_left _ hu
          rw [e4]
          exact (abs_add_le _ _).trans (by rw [abs_one])
    rw [e1]
    refine (abs_add_le _ _).trans ?_
    generalize |(D - det) / det| = z at *
    nlinarith [mul_le_mul_of_nonneg_left h1 hu]
  · refine hidet.trans ?_
    calc (1 + u) * |1 / det| ≤ (1 + u) * (2 / |D|) := mul_le_mul_of_nonneg_left hinv (by linarith)
      _ = 2 * (1 + u) / |D| := by ring

/-- C84, rotated rasters.  The determinant being at least twice the rounding error of its two products, the index of the ground position of
an index is this index up to the rounding of the determinant, relatively to the index, and of the other operations, relatively to the
magnitude of the products of coordinates. -/
theorem C84_index_round_trip_rotated {u : K} (hu : 0 ≤ u) (t i : Affine K) (D : K) (hD : D = t.a * t.e - t.b * t.d) (hD0 : D ≠ 0)
    (hc : 2 * (((1 + u) ^ 2 - 1) * (|t.a * t.e| + |t.b * t.d|)) ≤ |D|) (hi : FloatInverse u t i) (row col x y row' col' mx my : K)
    (hmx : mx = |col + 1 / 2| * |t.a| + |row + 1 / 2| * |t.b| + |t.c|) (hmy : my = |col + 1 / 2| * |t.d| + |row + 1 / 2| * |t.e| + |t.f|)
    (h1 : FloatIndexToPhysical u t row col x y) (h2 : FloatPhysicalToIndex u i x y row' col') :
    |col' - col| ≤ ((1 + u) ^ 9 - 1) * (2 * (1 + u) * (((mx + |t.c|) * |t.e| + (my + |t.f|) * |t.b|) / |D|) + 1 / 2) +
      (u + (1 + u) * (2 * (((1 + u) ^ 2 - 1) * ((|t.a * t.e| + |t.b * t.d|) / |D|)))) * |col + 1 / 2| ∧
    |row' - row| ≤ ((1 + u) ^ 9 - 1) * (2 * (1 + u) * (((mx + |t.c|) * |t.d| + (my + |t.f|) * |t.a|) / |D|) + 1 / 2) +
      (u + (1 + u) * (2 * (((1 + u) ^ 2 - 1) * ((|t.a * t.e| + |t.b * t.d|) / |D|)))) * |row + 1 / 2| := by
  obtain ⟨ae, bd, det, idet, k1, k2, k3, k4, hae, hbd, hdet, hidet, hia, hib, hid, hie, hk1, hk2, hic, hk3, hk4, hif⟩ := hi
  obtain ⟨vx, vy, hvx, hvy, hx, hy⟩ := h1
  obtain ⟨px, py, hpx, hpy, hr, hcc⟩ := h2
  obtain ⟨hs, hb⟩ := recip_det hu hD hD0 hae hbd hdet hidet hc
  have hg9 : 0 ≤ (1 + u) ^ 9 - 1 := sub_nonneg.mpr (one_le_pow_u hu 9)
  have aia := hia.approx
  have aib := hib.approx
  have aid := hid.approx
  have aie := hie.approx
  have aic := (((Approx.refl u (-t.c)).mul hu aia hk1).sub hu ((Approx.refl u t.f).mul hu aib hk2) hic)
  have aif := (((Approx.refl u (-t.c)).mul hu aid hk3).sub hu ((Approx.refl u t.f).mul hu aie hk4) hif)
  simp only [Nat.reduceAdd, max_self, Nat.zero_add] at aic aif
  have c1 := axis_rotated hu (c := t.c) (f := t.f) aia aib (by rw [abs_mul t.c, abs_mul t.f, ← abs_neg t.c]; exact aic) hvx hvy hx hy hmx hmy hpx hcc
  have c2 := axis_rotated hu (c := t.c) (f := t.f) aid aie (by rw [abs_mul t.c, abs_mul t.f, ← abs_neg t.c]; exact aif) hvx hvy hx hy hmx hmy hpy hr
  have e1 : ((col + 1 / 2) * t.a + (row + 1 / 2) * t.b + t.c) * (t.e * idet) + ((col + 1 / 2) * t.d + (row + 1 / 2) * t.e + t.f) * (-t.b * idet) +
      (-t.c * (t.e * idet) - t.f * (-t.b * idet)) - 1 / 2 = col + (idet * D - 1) * (col + 1 / 2) := by rw [hD]; ring
  have e2 : ((col + 1 / 2) * t.a + (row + 1 / 2) * t.b + t.c) * (-t.d * idet) + ((col + 1 / 2) * t.d + (row + 1 / 2) * t.e + t.f) * (t.a * idet) +
      (-t.c * (-t.d * idet) - t.f * (t.a * idet)) - 1 / 2 = row + (idet * D - 1) * (row + 1 / 2) := by rw [hD]; ring
  rw [e1] at c1
  rw [e2] at c2
  have hmx0 : 0 ≤ mx := by rw [hmx]; positivity
  have hmy0 : 0 ≤ my := by rw [hmy]; positivity
  have fin : ∀ z w m g : K, |z - (w + (idet * D - 1) * m)| ≤ g →
      |z - w| ≤ g + (u + (1 + u) * (2 * (((1 + u) ^ 2 - 1) * ((|t.a * t.e| + |t.b * t.d|) / |D|)))) * |m| := by
    intro z w m g h
    have e : z - w = (z - (w + (idet * D - 1) * m)) + (idet * D - 1) * m := by ring
    rw [e]
    refine (abs_add_le _ _).trans (add_le_add h ?_)
    rw [abs_mul]
    exact mul_le_mul_of_nonneg_right hs (abs_nonneg _)
  have mag : ∀ A B : K, mx * |A * idet| + my * |B * idet| + (|t.c * (A * idet)| + |t.f * (B * idet)|) + 1 / 2 ≤
      2 * (1 + u) * (((mx + |t.c|) * |A| + (my + |t.f|) * |B|) / |D|) + 1 / 2 := by
    intro A B
    have e : mx * |A * idet| + my * |B * idet| + (|t.c * (A * idet)| + |t.f * (B * idet)|) =
        ((mx + |t.c|) * |A| + (my + |t.f|) * |B|) * |idet| := by simp only [abs_mul]; ring
    rw [e]
    have h0 : 0 ≤ (mx + |t.c|) * |A| + (my + |t.f|) * |B| := by positivity
    have := mul_le_mul_of_nonneg_left hb h0
    have e' : ((mx + |t.c|) * |A| + (my + |t.f|) * |B|) * (2 * (1 + u) / |D|) =
      2 * (1 + u) * (((mx + |t.c|) * |A| + (my + |t.f|) * |B|) / |D|) := by ring
    linarith
  have m1 := mul_le_mul_of_nonneg_left (mag t.e (-t.b)) hg9
  have m2 := mul_le_mul_of_nonneg_left (mag (-t.d) t.a) hg9
  rw [abs_neg] at m1 m2
  exact ⟨fin _ _ _ _ (c1.trans m1), fin _ _ _ _ (c2.trans m2)⟩

/-- C84, rotated rasters in double precision: the terms of the transform being at most `s`, its determinant at least `s² / 2` (a rotation
has `s²`), the indices at most a million pixels and the origin at most ten million times `s`, the round trip is right to 2·10⁻⁷
pixel. -/
theorem C84_index_round_trip_rotated_double (t i : Affine K) (s : K) (hs : 0 < s) (ha : |t.a| ≤ s) (hb : |t.b| ≤ s) (hd : |t.d| ≤ s)
    (he : |t.e| ≤ s) (hD : s ^ 2 / 2 ≤ |t.a * t.e - t.b * t.d|) (hcc : |t.c| ≤ 10000000 * s) (hff : |t.f| ≤ 10000000 * s)
    (hi : FloatInverse doubleUnit t i) (row col x y row' col' : K) (hrow : |row + 1 / 2| ≤ 1000000) (hcol : |col + 1 / 2| ≤ 1000000)
    (h1 : FloatIndexToPhysical doubleUnit t row col x y) (h2 : FloatPhysicalToIndex doubleUnit i x y row' col') :
    |col' - col| ≤ 2 / 10 ^ 7 ∧ |row' - row| ≤ 2 / 10 ^ 7 := by
  have eu : (doubleUnit : K) = 1 / 9007199254740992 := by unfold doubleUnit; norm_num
  have hu : (0 : K) ≤ doubleUnit := by rw [eu]; norm_num
  have hs2 : 0 < s ^ 2 := by positivity
  set D := t.a * t.e - t.b * t.d with hDd
  have hDp : 0 < |D| := by linarith
  have hprod : ∀ p q m n : K, |p| ≤ m * s → |q| ≤ n * s → 0 ≤ m → |p| * |q| ≤ m * n * s ^ 2 := by
    intro p q m n hp hq hm
    calc |p| * |q| ≤ (m * s) * (n * s) := mul_le_mul hp hq (abs_nonneg _) (by positivity)
      _ = m * n * s ^ 2 := by ring
  have hS : |t.a * t.e| + |t.b * t.d| ≤ 2 * s ^ 2 := by
    rw [abs_mul, abs_mul]
    have h3 := hprod t.a t.e 1 1 (by linarith) (by linarith) (by norm_num)
    have h4 := hprod t.b t.d 1 1 (by linarith) (by linarith) (by norm_num)
    linarith
  have hk : (|t.a * t.e| + |t.b * t.d|) / |D| ≤ 4 := by rw [div_le_iff₀ hDp]; linarith
  have hg2 : (1 + doubleUnit : K) ^ 2 - 1 ≤ 3 / 9007199254740992 := by rw [eu]; norm_num
  have hg20 : 0 ≤ (1 + doubleUnit : K) ^ 2 - 1 := sub_nonneg.mpr (one_le_pow_u hu 2)
  have hg9 : (1 + doubleUnit : K) ^ 9 - 1 ≤ 10 / 9007199254740992 := by rw [eu]; norm_num
  have hg90 : 0 ≤ (1 + doubleUnit : K) ^ 9 - 1 := sub_nonneg.mpr (one_le_pow_u hu 9)
  have hu2 : (1 + doubleUnit : K) ≤ 1001 / 1000 := by rw [eu]; norm_num
  have hc : 2 * (((1 + doubleUnit : K) ^ 2 - 1) * (|t.a * t.e| + |t.b * t.d|)) ≤ |D| := by
    have : ((1 + doubleUnit : K) ^ 2 - 1) * (|t.a * t.e| + |t.b * t.d|) ≤ 3 / 9007199254740992 * (2 * s ^ 2) :=
      mul_le_mul hg2 hS (by positivity) (by norm_num)
    linarith
  have key := C84_index_round_trip_rotated hu t i D hDd (abs_pos.mp hDp) hc hi row col x y row' col' _ _ rfl rfl h1 h2
  have hm : ∀ p q r : K, |p| ≤ s → |q| ≤ s → |r| ≤ 10000000 * s →
      |col + 1 / 2| * |p| + |row + 1 / 2| * |q| + |r| + |r| ≤ 22000000 * s := by
    intro p q r hp hq hr
    have h3 : |col + 1 / 2| * |p| ≤ 1000000 * s := mul_le_mul hcol hp (abs_nonneg _) (by norm_num)
    have h4 : |row + 1 / 2| * |q| ≤ 1000000 * s := mul_le_mul hrow hq (abs_nonneg _) (by norm_num)
    linarith
  have hx := hm t.a t.b t.c ha hb hcc
  have hy := hm t.d t.e t.f hd he hff
  have hx0 : 0 ≤ |col + 1 / 2| * |t.a| + |row + 1 / 2| * |t.b| + |t.c| + |t.c| := by positivity
  have hy0 : 0 ≤ |col + 1 / 2| * |t.d| + |row + 1 / 2| * |t.e| + |t.f| + |t.f| := by positivity
  generalize |col + 1 / 2| * |t.a| + |row + 1 / 2| * |t.b| + |t.c| + |t.c| = X at *
  generalize |col + 1 / 2| * |t.d| + |row + 1 / 2| * |t.e| + |t.f| + |t.f| = Y at *
  have fin : ∀ A B z : K, |A| ≤ s → |B| ≤ s → |z| ≤ 1000000 →
      ((1 + doubleUnit : K) ^ 9 - 1) * (2 * (1 + doubleUnit) * ((X * |A| + Y * |B|) / |D|) + 1 / 2) +
        (doubleUnit + (1 + doubleUnit) * (2 * (((1 + doubleUnit) ^ 2 - 1) * ((|t.a * t.e| + |t.b * t.d|) / |D|)))) * |z| ≤ 2 / 10 ^ 7 := by
    intro A B z hA hB hz
    have q1 : (X * |A| + Y * |B|) / |D| ≤ 88000000 := by
      rw [div_le_iff₀ hDp]
      have h3 : X * |A| ≤ 22000000 * s * s := mul_le_mul hx hA (abs_nonneg _) (by positivity)
      have h4 : Y * |B| ≤ 22000000 * s * s := mul_le_mul hy hB (abs_nonneg _) (by positivity)
      nlinarith
    have q10 : 0 ≤ (X * |A| + Y * |B|) / |D| := by positivity
    have q2 : 2 * (1 + doubleUnit) * ((X * |A| + Y * |B|) / |D|) ≤ 2 * (1001 / 1000) * 88000000 :=
      mul_le_mul (by linarith) q1 q10 (by norm_num)
    have q20 : 0 ≤ 2 * (1 + doubleUnit) * ((X * |A| + Y * |B|) / |D|) := by positivity
    have q3 : ((1 + doubleUnit : K) ^ 9 - 1) * (2 * (1 + doubleUnit) * ((X * |A| + Y * |B|) / |D|) + 1 / 2) ≤
        10 / 9007199254740992 * (2 * (1001 / 1000) * 88000000 + 1 / 2) := mul_le_mul hg9 (by linarith) (by linarith) (by norm_num)
    have k0 : 0 ≤ (|t.a * t.e| + |t.b * t.d|) / |D| := by positivity
    have q4 : ((1 + doubleUnit : K) ^ 2 - 1) * ((|t.a * t.e| + |t.b * t.d|) / |D|) ≤ 3 / 9007199254740992 * 4 :=
      mul_le_mul hg2 hk k0 (by norm_num)
    have q40 := mul_nonneg hg20 k0
    have q5 : (1 + doubleUnit) * (2 * (((1 + doubleUnit : K) ^ 2 - 1) * ((|t.a * t.e| + |t.b * t.d|) / |D|))) ≤
        1001 / 1000 * (2 * (3 / 9007199254740992 * 4)) := mul_le_mul hu2 (by linarith) (by linarith) (by norm_num)
    have q50 : 0 ≤ (1 + doubleUnit) * (2 * (((1 + doubleUnit : K) ^ 2 - 1) * ((|t.a * t.e| + |t.b * t.d|) / |D|))) := by positivity
    have q6 : (doubleUnit + (1 + doubleUnit) * (2 * (((1 + doubleUnit) ^ 2 - 1) * ((|t.a * t.e| + |t.b * t.d|) / |D|)))) * |z| ≤
        (1 / 9007199254740992 + 1001 / 1000 * (2 * (3 / 9007199254740992 * 4))) * 1000000 :=
      mul_le_mul (by linarith [eu.le]) hz (abs_nonneg _) (by norm_num)
    refine (add_le_add q3 q6).trans ?_
    norm_num
  exact ⟨key.1.trans (fin _ _ _ he hb hcol), key.2.trans (fin _ _ _ hd ha hrow)⟩

/-- A raster turned by the angle of the triangle 3, 4, 5, with an origin that is not a double, and the rounding of doubles. -/
example : ∃ row' col' : ℚ, |col' - 27 / 10| ≤ 2 / 10 ^ 7 ∧ |row' - 13 / 10| ≤ 2 / 10 ^ 7 := by
  obtain ⟨i, x, y, row', col', hi, h1, h2⟩ := exists_floatRoundTrip (K := ℚ) rnd53_rounds
    ⟨3 / 5, 4 / 5, 10 / 7, 4 / 5, -3 / 5, 45 / 7⟩ (13 / 10) (27 / 10)
  exact ⟨row', col', C84_index_round_trip_rotated_double ⟨3 / 5, 4 / 5, 10 / 7, 4 / 5, -3 / 5, 45 / 7⟩ i 1 (by norm_num)
    (by norm_num [abs_le]) (by norm_num [abs_le]) (by norm_num [abs_le]) (by norm_num [abs_le]) (by norm_num) (by norm_num [abs_le])
    (by norm_num [abs_le]) hi (13 / 10) (27 / 10) x y row' col' (by norm_num [abs_le]) (by norm_num [abs_le]) h1 h2⟩

end Shareloc
