import Verif.Model.FloatCube
import Verif.Props.Cube
import Verif.Props.FloatMarch
import Verif.Props.FloatNodes

/-! C111: the entry into the box of the DTM in floating point. -/

set_option linter.unusedSectionVars false
set_option linter.unusedVariables false

namespace Shareloc
open Spec
variable {K : Type*} [Field K] [LinearOrder K] [IsStrictOrderedRing K] [FloorRing K]

/-! ### Signs are exact -/

/-- A rounded number is null, positive or negative as the exact one. -/
theorem rounds_sign {u x v : K} (hu1 : u < 1) (h : Rounds u x v) : (v = 0 ↔ x = 0) ∧ (v ≤ 0 ↔ x ≤ 0) ∧ (0 ≤ v ↔ 0 ≤ x) := by
  unfold Rounds at h
  obtain ⟨h1, h2⟩ := _root_.abs_le.1 h
  rcases lt_trichotomy x 0 with hx | hx | hx
  · rw [_root_.abs_of_neg hx] at h1 h2
    have : v < 0 := by nlinarith
    exact ⟨⟨fun e => absurd e this.ne, fun e => absurd e hx.ne⟩, ⟨fun _ => hx.le, fun _ => this.le⟩, ⟨fun e => absurd e (not_le.2 this), fun e => absurd e (not_le.2 hx)⟩⟩
  · subst hx
    have : v = 0 := by simpa using le_antisymm (by simpa using h2) (by simpa using h1)
    simp [this]
  · rw [_root_.abs_of_pos hx] at h1 h2
    have : 0 < v := by nlinarith
    exact ⟨⟨fun e => absurd e this.ne', fun e => absurd e hx.ne'⟩, ⟨fun e => absurd e (not_le.2 this), fun e => absurd e (not_le.2 hx)⟩, ⟨fun _ => hx.le, fun _ => this.le⟩⟩

theorem eqPlanA_rounds {A : Arith K} {u : K} (hA : A.RoundsBy u) (d : Dtm K) (k : Fin 6) (p : V3 K) : Rounds u (eqPlan d k p) (eqPlanA A d k p) := by
  fin_cases k <;> exact hA.sub _ _

theorem eqPlanA_zero {A : Arith K} {u : K} (hA : A.RoundsBy u) (hu1 : u < 1) (d : Dtm K) (k : Fin 6) (p : V3 K) :
    eqPlanA A d k p = 0 ↔ eqPlan d k p = 0 := (rounds_sign hu1 (eqPlanA_rounds hA d k p)).1

/-- The product of two rounded numbers is not positive exactly when the exact product is not. -/
theorem mulA_sign {A : Arith K} {u x y v w : K} (hA : A.RoundsBy u) (hu1 : u < 1) (hx : Rounds u x v) (hy : Rounds u y w) :
    A.mul v w ≤ 0 ↔ x * y ≤ 0 := by
  obtain ⟨x1, x2, x3⟩ := rounds_sign hu1 hx
  obtain ⟨y1, y2, y3⟩ := rounds_sign hu1 hy
  rw [(rounds_sign hu1 (hA.mul v w)).2.1, mul_nonpos_iff, mul_nonpos_iff, x2, x3, y2, y3]

/-! ### Error of a crossing -/

/-- `c'` is the computed crossing, `c` the exact one: the bounds on the errors of the three coordinates and of the parameter. -/
def CloseTo (u : K) (B : V3 K) (n : ℕ) (c' c : Crossing K) : Prop :=
  |c'.p.x - c.p.x| ≤ 8 * u * B.x ∧ |c'.p.y - c.p.y| ≤ 8 * u * B.y ∧ |c'.p.z - c.p.z| ≤ 8 * u * B.z ∧ |c'.h - c.h| ≤ 6 * u * n

/-- `B` bounds the absolute values of the coordinates of the vertices. -/
def BoundsVertices (B : V3 K) (los : List (V3 K)) : Prop := ∀ v ∈ los, |v.x| ≤ B.x ∧ |v.y| ≤ B.y ∧ |v.z| ≤ B.z

/-- A quotient of rounded positive numbers. -/
theorem quotient_bound {u P S n D q : K} (hu : 0 ≤ u) (hu1 : u ≤ 1 / 20) (hP : 0 < P) (hS : 0 < S) (n1 : (1 - u) * P ≤ n) (n2 : n ≤ (1 + u) * P)
    (d1 : (1 - u) * ((1 - u) * S) ≤ D) (d2 : D ≤ (1 + u) * ((1 + u) * S)) (hq : Rounds u (n / D) q) : |q - P / S| ≤ 5 * u * (P / S) := by
  have a1 : 0 < 1 - u := by linarith
  have a2 : 0 < 1 + u := by linarith
  have hD : 0 < D := lt_of_lt_of_le (mul_pos a1 (mul_pos a1 hS)) d1
  have hn : 0 < n := lt_of_lt_of_le (mul_pos a1 hP) n1
  have hr : 0 < n / D := div_pos hn hD
  set t := P / S with ht
  have htp : 0 < t := div_pos hP hS
  have hPt : P = t * S := by rw [ht]; field_simp
  unfold Rounds at hq
  rw [_root_.abs_of_pos hr] at hq
  obtain ⟨q1, q2⟩ := _root_.abs_le.1 hq
  have rn : n / D * D = n := by field_simp
  have up : (n / D) * ((1 - u) * (1 - u)) ≤ (1 + u) * t := by
    have h1 : (n / D) * ((1 - u) * ((1 - u) * S)) ≤ (n / D) * D := mul_le_mul_of_nonneg_left d1 hr.le
    rw [rn] at h1
    have h2 : (n / D) * ((1 - u) * (1 - u)) * S ≤ (1 + u) * t * S := by rw [hPt] at n2; linarith
    exact le_of_mul_le_mul_right h2 hS
  have lo : (1 - u) * t ≤ (n / D) * ((1 + u) * (1 + u)) := by
    have h1 : (n / D) * D ≤ (n / D) * ((1 + u) * ((1 + u) * S)) := mul_le_mul_of_nonneg_left d2 hr.le
    rw [rn] at h1
    have h2 : (1 - u) * t * S ≤ (n / D) * ((1 + u) * (1 + u)) * S := by rw [hPt] at n1; linarith
    exact le_of_mul_le_mul_right h2 hS
  have qu : q * ((1 - u) * (1 - u)) ≤ (1 + u) * ((1 + u) * t) := by
    have : q * ((1 - u) * (1 - u)) ≤ ((1 + u) * (n / D)) * ((1 - u) * (1 - u)) := mul_le_mul_of_nonneg_right (by linarith) (mul_pos a1 a1).le
    have h2 := mul_le_mul_of_nonneg_left up a2.le
    linarith
  have ql : (1 - u) * ((1 - u) * t) ≤ q * ((1 + u) * (1 + u)) := by
    have : ((1 - u) * (n / D)) * ((1 + u) * (1 + u)) ≤ q * ((1 + u) * (1 + u)) := mul_le_mul_of_nonneg_right (by linarith) (mul_pos a2 a2).le
    have h2 := mul_le_mul_of_nonneg_left lo a1.le
    linarith
  have k1 : (1 + u) * (1 + u) ≤ (1 + 5 * u) * ((1 - u) * (1 - u)) := by
    have : 0 ≤ u * (1 - 10 * u + 5 * u * u) := mul_nonneg hu (by have := mul_nonneg hu hu; linarith)
    linarith
  have k2 : (1 - 5 * u) * ((1 + u) * (1 + u)) ≤ (1 - u) * (1 - u) := by
    have := mul_nonneg hu hu
    have := mul_nonneg hu this
    linarith
  rw [_root_.abs_le]
  constructor
  · have h : (1 - 5 * u) * t * ((1 + u) * (1 + u)) ≤ q * ((1 + u) * (1 + u)) := by
      have := mul_le_mul_of_nonneg_right k2 htp.le
      linarith
    have := le_of_mul_le_mul_right h (mul_pos a2 a2)
    linarith
  · have h : q * ((1 - u) * (1 - u)) ≤ (1 + 5 * u) * t * ((1 - u) * (1 - u)) := by
      have := mul_le_mul_of_nonneg_right k1 htp.le
      linarith
    have := le_of_mul_le_mul_right h (mul_pos a1 a1)
    linarith

/-- Bounds of a rounded positive number. -/
theorem rounds_pos {u x v : K} (hx : 0 < x) (h : Rounds u x v) : (1 - u) * x ≤ v ∧ v ≤ (1 + u) * x := by
  unfold Rounds at h
  rw [_root_.abs_of_pos hx] at h
  obtain ⟨h1, h2⟩ := _root_.abs_le.1 h
  constructor <;> linarith

/-- Bounds of a rounded negative number. -/
theorem rounds_neg {u x v : K} (hx : x < 0) (h : Rounds u x v) : (1 - u) * -x ≤ -v ∧ -v ≤ (1 + u) * -x := by
  unfold Rounds at h
  rw [_root_.abs_of_neg hx] at h
  obtain ⟨h1, h2⟩ := _root_.abs_le.1 h
  constructor <;> linarith

/-- The two rounded weights, for vertices strictly on both sides of a plane. -/
theorem weight_bound {A : Arith K} {u x y v w : K} (hA : A.RoundsBy u) (hu : 0 ≤ u) (hu1 : u ≤ 1 / 20) (hx : Rounds u x v) (hy : Rounds u y w)
    (hs : x * y < 0) : |A.div w (A.sub w v) - y / (y - x)| ≤ 5 * u * (y / (y - x)) ∧
      |A.div (-v) (A.sub w v) - -x / (y - x)| ≤ 5 * u * (-x / (y - x)) := by
  have a1 : 0 < 1 - u := by linarith
  have a2 : 0 < 1 + u := by linarith
  rcases mul_neg_iff.1 hs with ⟨hx0, hy0⟩ | ⟨hx0, hy0⟩
  · obtain ⟨v1, v2⟩ := rounds_pos hx0 hx
    obtain ⟨w1, w2⟩ := rounds_neg hy0 hy
    have hyx : y - x < 0 := by linarith
    have vpos := lt_of_lt_of_le (mul_pos a1 hx0) v1
    have wneg := lt_of_lt_of_le (mul_pos a1 (neg_pos.2 hy0)) w1
    have hwv : w - v < 0 := by linarith
    obtain ⟨D1, D2⟩ := rounds_neg hwv (hA.sub w v)
    have hD : A.sub w v ≠ 0 := by
      have := lt_of_lt_of_le (mul_pos a1 (neg_pos.2 hwv)) D1
      intro h; rw [h] at this; simp at this
    have d1 : (1 - u) * ((1 - u) * (x - y)) ≤ -(A.sub w v) := le_trans (mul_le_mul_of_nonneg_left (by linarith) a1.le) D1
    have d2 : -(A.sub w v) ≤ (1 + u) * ((1 + u) * (x - y)) := le_trans D2 (mul_le_mul_of_nonneg_left (by linarith) a2.le)
    constructor
    · have := quotient_bound hu hu1 (neg_pos.2 hy0) (by linarith : 0 < x - y) w1 w2 d1 d2 (q := A.div w (A.sub w v))
        (by rw [neg_div_neg_eq]; exact hA.div w _ hD)
      have e : -y / (x - y) = y / (y - x) := by rw [← neg_div_neg_eq]; congr 1 <;> ring
      rwa [e] at this
    · have := quotient_bound hu hu1 hx0 (by linarith : 0 < x - y) v1 v2 d1 d2 (q := A.div (-v) (A.sub w v))
        (by
          have := hA.div (-v) _ hD
          rwa [← neg_div_neg_eq, neg_neg] at this)
      have e : x / (x - y) = -x / (y - x) := by rw [← neg_div_neg_eq]; congr 1; ring
      rwa [e] at this
  · obtain ⟨v1, v2⟩ := rounds_neg hx0 hx
    obtain ⟨w1, w2⟩ := rounds_pos hy0 hy
    have vneg := lt_of_lt_of_le (mul_pos a1 (neg_pos.2 hx0)) v1
    have wpos := lt_of_lt_of_le (mul_pos a1 hy0) w1
    have hwv : 0 < w - v := by linarith
    obtain ⟨D1, D2⟩ := rounds_pos hwv (hA.sub w v)
    have hD : A.sub w v ≠ 0 := (lt_of_lt_of_le (mul_pos a1 hwv) D1).ne'
    have d1 : (1 - u) * ((1 - u) * (y - x)) ≤ A.sub w v := le_trans (mul_le_mul_of_nonneg_left (by linarith) a1.le) D1
    have d2 : A.sub w v ≤ (1 + u) * ((1 + u) * (y - x)) := le_trans D2 (mul_le_mul_of_nonneg_left (by linarith) a2.le)
    exact ⟨quotient_bound hu hu1 hy0 (by linarith) w1 w2 d1 d2 (hA.div _ _ hD),
      quotient_bound hu hu1 (neg_pos.2 hx0) (by linarith) v1 v2 d1 d2 (hA.div _ _ hD)⟩

/-- A product with a rounded weight. -/
theorem weighted_bound {A : Arith K} {u ca ca' a B : K} (hA : A.RoundsBy u) (hu : 0 ≤ u) (hu1 : u ≤ 1 / 20) (h0 : 0 ≤ ca)
    (hc : |ca' - ca| ≤ 5 * u * ca) (ha : |a| ≤ B) : |A.mul ca' a - ca * a| ≤ 25 / 4 * u * (ca * B) := by
  have hB : 0 ≤ B := (abs_nonneg a).trans ha
  have hm : |A.mul ca' a - ca' * a| ≤ u * |ca' * a| := hA.mul ca' a
  have h1 : |ca'| ≤ (1 + 5 * u) * ca := by
    have := abs_sub_abs_le_abs_sub ca' ca
    rw [_root_.abs_of_nonneg h0] at this
    linarith
  have h2 : |ca' * a| ≤ (1 + 5 * u) * (ca * B) := by
    rw [abs_mul]
    calc |ca'| * |a| ≤ (1 + 5 * u) * ca * B := mul_le_mul h1 ha (abs_nonneg _) (mul_nonneg (by linarith) h0)
      _ = _ := by ring
  have h3 : |ca' * a - ca * a| ≤ 5 * u * (ca * B) := by
    rw [← sub_mul, abs_mul]
    calc |ca' - ca| * |a| ≤ 5 * u * ca * B := mul_le_mul hc ha (abs_nonneg _) (mul_nonneg (by linarith) h0)
      _ = _ := by ring
  have h4 : u * |ca' * a| ≤ u * ((1 + 5 * u) * (ca * B)) := mul_le_mul_of_nonneg_left h2 hu
  have h5 : u * ((1 + 5 * u) * (ca * B)) ≤ 5 / 4 * u * (ca * B) := by
    have : u * (ca * B) * (1 + 5 * u) ≤ u * (ca * B) * (5 / 4) :=
      mul_le_mul_of_nonneg_left (by linarith) (mul_nonneg hu (mul_nonneg h0 hB))
    linarith
  have h6 := abs_add_le (A.mul ca' a - ca' * a) (ca' * a - ca * a)
  have e : A.mul ca' a - ca' * a + (ca' * a - ca * a) = A.mul ca' a - ca * a := by ring
  rw [e] at h6
  linarith

/-- A coordinate of a rounded crossing. -/
theorem coordinate_bound {A : Arith K} {u ca ca' cb cb' a b B : K} (hA : A.RoundsBy u) (hu : 0 ≤ u) (hu1 : u ≤ 1 / 20) (h0 : 0 ≤ ca) (h1 : 0 ≤ cb)
    (hab : ca + cb = 1) (hc : |ca' - ca| ≤ 5 * u * ca) (hd : |cb' - cb| ≤ 5 * u * cb) (ha : |a| ≤ B) (hb : |b| ≤ B) :
    |A.add (A.mul ca' a) (A.mul cb' b) - (ca * a + cb * b)| ≤ 8 * u * B := by
  have hB : 0 ≤ B := (abs_nonneg a).trans ha
  have m1 := weighted_bound hA hu hu1 h0 hc ha
  have m2 := weighted_bound hA hu hu1 h1 hd hb
  have hs : |A.add (A.mul ca' a) (A.mul cb' b) - (A.mul ca' a + A.mul cb' b)| ≤ u * |A.mul ca' a + A.mul cb' b| := hA.add _ _
  have e1 : 25 / 4 * u * (ca * B) + 25 / 4 * u * (cb * B) = 25 / 4 * u * B := by
    have : 25 / 4 * u * (ca * B) + 25 / 4 * u * (cb * B) = 25 / 4 * u * ((ca + cb) * B) := by ring
    rw [this, hab, one_mul]
  have s1 : |A.mul ca' a + A.mul cb' b - (ca * a + cb * b)| ≤ 25 / 4 * u * B := by
    have := abs_add_le (A.mul ca' a - ca * a) (A.mul cb' b - cb * b)
    have e : A.mul ca' a - ca * a + (A.mul cb' b - cb * b) = A.mul ca' a + A.mul cb' b - (ca * a + cb * b) := by ring
    rw [e] at this
    linarith
  have s2 : |ca * a + cb * b| ≤ B := by
    have h2 := abs_add_le (ca * a) (cb * b)
    rw [abs_mul, abs_mul, _root_.abs_of_nonneg h0, _root_.abs_of_nonneg h1] at h2
    have h3 := mul_le_mul_of_nonneg_left ha h0
    have h4 := mul_le_mul_of_nonneg_left hb h1
    have h5 : ca * B + cb * B = B := by rw [← add_mul, hab, one_mul]
    linarith
  have s3 : |A.mul ca' a + A.mul cb' b| ≤ 25 / 4 * u * B + B := by
    have := abs_sub_abs_le_abs_sub (A.mul ca' a + A.mul cb' b) (ca * a + cb * b)
    linarith
  have s4 : u * |A.mul ca' a + A.mul cb' b| ≤ u * (21 / 16 * B) := by
    refine mul_le_mul_of_nonneg_left ?_ hu
    have : u * B ≤ 1 / 20 * B := mul_le_mul_of_nonneg_right hu1 hB
    linarith
  have h6 := abs_add_le (A.add (A.mul ca' a) (A.mul cb' b) - (A.mul ca' a + A.mul cb' b)) (A.mul ca' a + A.mul cb' b - (ca * a + cb * b))
  have e : A.add (A.mul ca' a) (A.mul cb' b) - (A.mul ca' a + A.mul cb' b) + (A.mul ca' a + A.mul cb' b - (ca * a + cb * b)) =
      A.add (A.mul ca' a) (A.mul cb' b) - (ca * a + cb * b) := by ring
  rw [e] at h6
  have : 0 ≤ u * B := mul_nonneg hu hB
  linarith

/-- The crossing computed is close to the exact one. -/
theorem crossingA_close {A : Arith K} {u : K} (hA : A.RoundsBy u) (hu : 0 ≤ u) (hu1 : u ≤ 1 / 20) (d : Dtm K) (k : Fin 6) (layer n : ℕ) (a b : V3 K)
    (B : V3 K) (ha : |a.x| ≤ B.x ∧ |a.y| ≤ B.y ∧ |a.z| ≤ B.z) (hb : |b.x| ≤ B.x ∧ |b.y| ≤ B.y ∧ |b.z| ≤ B.z)
    (hab : eqPlan d k a * eqPlan d k b ≤ 0) (hl : layer ≤ n) (hl1 : layer = 0 → a = b) :
    CloseTo u B n (crossingA A d k layer a b) (crossingOf d k layer a b) := by
  have u1 : u < 1 := by linarith
  have hBx : 0 ≤ B.x := (abs_nonneg _).trans ha.1
  have hBy : 0 ≤ B.y := (abs_nonneg _).trans ha.2.1
  have hBz : 0 ≤ B.z := (abs_nonneg _).trans ha.2.2
  have nn : ∀ x : K, 0 ≤ x → |(0 : K)| ≤ 8 * u * x := fun x hx => by rw [abs_zero]; positivity
  have n6 : |(0 : K)| ≤ 6 * u * n := by rw [abs_zero]; positivity
  unfold crossingA crossingOf
  simp only [eqPlanA_zero hA u1]
  by_cases h1 : eqPlan d k a = 0
  · rw [if_pos h1, if_pos h1]
    refine ⟨?_, ?_, ?_, ?_⟩ <;> simp only [sub_self]
    exacts [nn _ hBx, nn _ hBy, nn _ hBz, n6]
  rw [if_neg h1, if_neg h1]
  by_cases h2 : eqPlan d k b = 0
  · rw [if_pos h2, if_pos h2]
    refine ⟨?_, ?_, ?_, ?_⟩ <;> simp only [sub_self]
    exacts [nn _ hBx, nn _ hBy, nn _ hBz, n6]
  rw [if_neg h2, if_neg h2]
  have hs : eqPlan d k a * eqPlan d k b < 0 := lt_of_le_of_ne hab (mul_ne_zero h1 h2)
  obtain ⟨wa, wb⟩ := weight_bound hA hu hu1 (eqPlanA_rounds hA d k a) (eqPlanA_rounds hA d k b) hs
  have hlay : 1 ≤ layer := by
    by_contra h
    have := hl1 (by omega)
    rw [this] at hs
    exact absurd hs (not_lt.2 (mul_self_nonneg _))
  set x := eqPlan d k a
  set y := eqPlan d k b
  have hyx : y - x ≠ 0 := by
    intro h
    have : y = x := by linarith
    rw [this] at hs
    exact absurd hs (not_lt.2 (mul_self_nonneg _))
  have ca0 : 0 ≤ y / (y - x) := by
    rcases mul_neg_iff.1 hs with ⟨p, q⟩ | ⟨p, q⟩
    · exact div_nonneg_of_nonpos q.le (by linarith)
    · exact div_nonneg q.le (by linarith)
  have cb0 : 0 ≤ -x / (y - x) := by
    rcases mul_neg_iff.1 hs with ⟨p, q⟩ | ⟨p, q⟩
    · exact div_nonneg_of_nonpos (by linarith) (by linarith)
    · exact div_nonneg (by linarith) (by linarith)
  have hsum : y / (y - x) + -x / (y - x) = 1 := by rw [← add_div, ← sub_eq_add_neg, div_self hyx]
  refine ⟨?_, ?_, ?_, ?_⟩
  · by_cases hk : k.val < 2
    · rw [if_pos hk, if_pos hk, sub_self]; exact nn _ hBx
    · rw [if_neg hk, if_neg hk]; exact coordinate_bound hA hu hu1 ca0 cb0 hsum wa wb ha.1 hb.1
  · by_cases hk : 1 < k.val ∧ k.val < 4
    · rw [if_pos hk, if_pos hk, sub_self]; exact nn _ hBy
    · rw [if_neg hk, if_neg hk]; exact coordinate_bound hA hu hu1 ca0 cb0 hsum wa wb ha.2.1 hb.2.1
  · by_cases hk : k.val > 3
    · rw [if_pos hk, if_pos hk, sub_self]; exact nn _ hBz
    · rw [if_neg hk, if_neg hk]; exact coordinate_bound hA hu hu1 ca0 cb0 hsum wa wb ha.2.2 hb.2.2
  · simp only
    set ca := y / (y - x) with hca
    set q := A.div (eqPlanA A d k b) (A.sub (eqPlanA A d k b) (eqPlanA A d k a)) with hq
    have ca1 : ca ≤ 1 := by linarith
    have hl' : (1 : K) ≤ layer := by exact_mod_cast hlay
    have hln : (layer : K) ≤ n := by exact_mod_cast hl
    have h5 : 5 * u * ca ≤ 5 * u := by
      have := mul_le_mul_of_nonneg_left ca1 (by linarith : 0 ≤ 5 * u)
      linarith
    have hqa := _root_.abs_le.1 (wa.trans h5)
    have q0 : 0 ≤ q := by
      have := (_root_.abs_le.1 wa).1
      have : 0 ≤ (1 - 5 * u) * ca := mul_nonneg (by linarith) ca0
      linarith
    have hr : |A.sub (layer : K) q - (layer - q)| ≤ u * |(layer : K) - q| := hA.sub _ _
    have h6 : |(layer : K) - q| ≤ layer := by rw [_root_.abs_le]; constructor <;> linarith
    have h7 : u * |(layer : K) - q| ≤ u * layer := mul_le_mul_of_nonneg_left h6 hu
    have h8 := abs_add_le (A.sub (layer : K) q - (layer - q)) (ca - q)
    have e : A.sub (layer : K) q - (layer - q) + (ca - q) = A.sub (layer : K) q - (layer - ca) := by ring
    rw [e, abs_sub_comm ca q] at h8
    have h9 : u * layer ≤ u * n := mul_le_mul_of_nonneg_left hln hu
    have h10 : u * 1 ≤ u * n := mul_le_mul_of_nonneg_left (by linarith) hu
    have h11 := wa.trans h5
    linarith

/-! ### The planes crossed are those of the exact computation -/

/-- Same outcome for one plane, with close crossings. -/
def SameHit (u : K) (B : V3 K) (n : ℕ) : Except CubeError (Option (Crossing K)) → Except CubeError (Option (Crossing K)) → Prop
  | .error _, .error _ => True
  | .ok none, .ok none => True
  | .ok (some c'), .ok (some c) => CloseTo u B n c' c
  | _, _ => False

theorem faceScanA_same {A : Arith K} {u : K} (hA : A.RoundsBy u) (hu : 0 ≤ u) (hu1 : u ≤ 1 / 20) (impl : Impl) (d : Dtm K) (k : Fin 6) (B : V3 K) (n : ℕ) :
    ∀ (rest : List (V3 K)) (a : V3 K) (layer : ℕ), (|a.x| ≤ B.x ∧ |a.y| ≤ B.y ∧ |a.z| ≤ B.z) → BoundsVertices B rest → layer + rest.length ≤ n + 1 →
      (layer = 0 → rest.head? = some a) → SameHit u B n (faceScanA A impl d k a layer rest) (faceScan impl d k a layer rest)
  | [], a, layer, _, _, _, _ => trivial
  | b :: rest, a, layer, ha, hB, hn, h0 => by
    have u1 : u < 1 := by linarith
    have hm : A.mul (eqPlanA A d k a) (eqPlanA A d k b) ≤ 0 ↔ eqPlan d k a * eqPlan d k b ≤ 0 :=
      mulA_sign hA u1 (eqPlanA_rounds hA d k a) (eqPlanA_rounds hA d k b)
    have hb := hB b (by simp)
    simp only [List.length_cons] at hn
    unfold faceScanA faceScan
    simp only [hm, eqPlanA_zero hA u1]
    by_cases h1 : eqPlan d k a * eqPlan d k b ≤ 0
    · rw [if_pos h1, if_pos h1]
      by_cases h2 : impl = .cpp ∧ eqPlan d k a = 0 ∧ eqPlan d k b = 0
      · rw [if_pos h2, if_pos h2]; trivial
      · rw [if_neg h2, if_neg h2]
        exact crossingA_close hA hu hu1 d k layer n a b B ha hb h1 (by omega) fun h => by
          have := h0 h
          simp only [List.head?_cons, Option.some.injEq] at this
          exact this.symm
    · rw [if_neg h1, if_neg h1]
      exact faceScanA_same hA hu hu1 impl d k B n rest b (layer + 1) hb (fun v hv => hB v (by simp [hv])) (by omega) (by omega)

theorem faceHitA_same {A : Arith K} {u : K} (hA : A.RoundsBy u) (hu : 0 ≤ u) (hu1 : u ≤ 1 / 20) (impl : Impl) (d : Dtm K) (k : Fin 6) (B : V3 K)
    (los : List (V3 K)) (hB : BoundsVertices B los) : SameHit u B los.length (faceHitA A impl d k los) (faceHit impl d k los) := by
  cases los with
  | nil => trivial
  | cons v rest => exact faceScanA_same hA hu hu1 impl d k B _ _ v 0 (hB v (by simp)) hB (by simp) (by simp)

theorem mem_faceHitsA (A : Arith K) (impl : Impl) (d : Dtm K) (los : List (V3 K)) :
    ∀ (ks : List (Fin 6)) (cs : List (Crossing K)), faceHitsA A impl d los ks = .ok cs →
      ∀ c, c ∈ cs ↔ ∃ k ∈ ks, faceHitA A impl d k los = .ok (some c)
  | [], cs, h, c => by
    injection h with h
    subst h
    simp
  | k :: ks, cs, h, c => by
    simp only [faceHitsA] at h
    cases hk : faceHitA A impl d k los with
    | error e => simp only [hk] at h; cases h
    | ok r =>
      cases r with
      | none =>
        simp only [hk] at h
        rw [mem_faceHitsA A impl d los ks cs h c]
        constructor
        · rintro ⟨j, hj, e⟩; exact ⟨j, by simp [hj], e⟩
        · rintro ⟨j, hj, e⟩
          rcases List.mem_cons.1 hj with rfl | hj
          · rw [hk] at e; cases e
          · exact ⟨j, hj, e⟩
      | some c0 =>
        simp only [hk] at h
        cases hr : faceHitsA A impl d los ks with
        | error e => simp only [hr] at h; cases h
        | ok cs' =>
          simp only [hr] at h
          injection h with h
          subst h
          rw [List.mem_cons, mem_faceHitsA A impl d los ks cs' hr c]
          constructor
          · rintro (rfl | ⟨j, hj, e⟩)
            · exact ⟨k, by simp, hk⟩
            · exact ⟨j, by simp [hj], e⟩
          · rintro ⟨j, hj, e⟩
            rcases List.mem_cons.1 hj with rfl | hj
            · rw [hk] at e
              injection e with e
              injection e with e
              exact .inl e.symm
            · exact .inr ⟨j, hj, e⟩

theorem faceHitsA_ok (A : Arith K) (impl : Impl) (d : Dtm K) (los : List (V3 K)) : ∀ (ks : List (Fin 6)),
    (∀ k ∈ ks, ∃ o, faceHitA A impl d k los = .ok o) → ∃ cs, faceHitsA A impl d los ks = .ok cs
  | [], _ => ⟨[], rfl⟩
  | k :: ks, h => by
    obtain ⟨o, ho⟩ := h k (by simp)
    obtain ⟨cs, hcs⟩ := faceHitsA_ok A impl d los ks fun j hj => h j (by simp [hj])
    cases o with
    | none => exact ⟨cs, by simp only [faceHitsA, ho, hcs]⟩
    | some c => exact ⟨c :: cs, by simp only [faceHitsA, ho, hcs]⟩

/-- Two planes with a candidate on the box give two candidates on the box. -/
theorem faceHitsA_two (A : Arith K) (impl : Impl) (d : Dtm K) (los : List (V3 K)) (P : Crossing K → Bool) (k1 k2 : Fin 6) (hk : k1 ≠ k2)
    (c1 c2 : Crossing K) (h1 : faceHitA A impl d k1 los = .ok (some c1)) (h2 : faceHitA A impl d k2 los = .ok (some c2)) (p1 : P c1 = true)
    (p2 : P c2 = true) : ∀ (ks : List (Fin 6)) (cs : List (Crossing K)), faceHitsA A impl d los ks = .ok cs →
      (k1 ∈ ks → k2 ∈ ks → 2 ≤ (cs.filter P).length) ∧ (k1 ∈ ks ∨ k2 ∈ ks → 1 ≤ (cs.filter P).length)
  | [], cs, h => by simp
  | k :: ks, cs, h => by
    simp only [faceHitsA] at h
    cases hk' : faceHitA A impl d k los with
    | error e => simp only [hk'] at h; cases h
    | ok r =>
      cases r with
      | none =>
        simp only [hk'] at h
        obtain ⟨i1, i2⟩ := faceHitsA_two A impl d los P k1 k2 hk c1 c2 h1 h2 p1 p2 ks cs h
        have n1 : k1 ≠ k := fun e => by rw [e, hk'] at h1; cases h1
        have n2 : k2 ≠ k := fun e => by rw [e, hk'] at h2; cases h2
        simp only [List.mem_cons, n1, n2, false_or]
        exact ⟨i1, i2⟩
      | some c0 =>
        simp only [hk'] at h
        cases hr : faceHitsA A impl d los ks with
        | error e => simp only [hr] at h; cases h
        | ok cs' =>
          simp only [hr] at h
          injection h with h
          subst h
          obtain ⟨i1, i2⟩ := faceHitsA_two A impl d los P k1 k2 hk c1 c2 h1 h2 p1 p2 ks cs' hr
          have hle : (cs'.filter P).length ≤ ((c0 :: cs').filter P).length := by
            rw [List.filter_cons]; split <;> simp
          by_cases e1 : k = k1
          · subst e1
            rw [hk'] at h1
            injection h1 with h1
            injection h1 with h1
            subst h1
            rw [List.filter_cons, if_pos p1, List.length_cons]
            refine ⟨fun _ m2 => ?_, fun _ => by omega⟩
            rcases List.mem_cons.1 m2 with e | m2
            · exact absurd e.symm hk
            · have := i2 (.inr m2); omega
          · by_cases e2 : k = k2
            · subst e2
              rw [hk'] at h2
              injection h2 with h2
              injection h2 with h2
              subst h2
              rw [List.filter_cons, if_pos p2, List.length_cons]
              refine ⟨fun m1 _ => ?_, fun _ => by omega⟩
              rcases List.mem_cons.1 m1 with e | m1
              · exact absurd e hk
              · have := i2 (.inl m1); omega
            · simp only [List.mem_cons, Ne.symm e1, Ne.symm e2, false_or]
              exact ⟨fun m1 m2 => (i1 m1 m2).trans hle, fun m => (i2 m).trans hle⟩

/-- What the sort and the filter keep. -/
theorem cubeA_spec (A : Arith K) (impl : Impl) (d : Dtm K) (los : List (V3 K)) (cs : List (Crossing K))
    (hcs : faceHitsA A impl d los [0, 1, 2, 3, 4, 5] = .ok cs) :
    (∀ c, cubeA A impl d los = .ok (some c) → c ∈ cs ∧ onCube d c.p = true ∧ ∀ c' ∈ cs, onCube d c'.p = true → c.h ≤ c'.h) ∧
    (2 ≤ (cs.filter (fun c => onCube d c.p)).length → ∃ c, cubeA A impl d los = .ok (some c)) := by
  obtain ⟨hperm, hsort⟩ := exchangeSort_spec cs
  have hlen : ((exchangeSort cs).filter (fun c => onCube d c.p)).length = (cs.filter (fun c => onCube d c.p)).length := (hperm.filter _).length_eq
  have hsub : ((exchangeSort cs).filter (fun c => onCube d c.p)).Pairwise (fun a b => a.h ≤ b.h) := hsort.filter _
  have hmem : ∀ c, c ∈ (exchangeSort cs).filter (fun c => onCube d c.p) ↔ c ∈ cs ∧ onCube d c.p = true := by
    intro c
    rw [List.mem_filter, hperm.mem_iff]
  have hdef : cubeA A impl d los = match (exchangeSort cs).filter (fun c => onCube d c.p) with
      | c :: _ :: _ => .ok (some c)
      | _ => .ok none := by
    simp only [cubeA, hcs]
    rfl
  rw [hdef]
  generalize (exchangeSort cs).filter (fun c => onCube d c.p) = L at *
  match L, hlen, hsub, hmem with
  | [], hlen, hsub, hmem => exact ⟨fun c h => by simp at h, fun h => by rw [← hlen] at h; simp at h⟩
  | [c0], hlen, hsub, hmem => exact ⟨fun c h => by simp at h, fun h => by rw [← hlen] at h; simp at h⟩
  | c0 :: c1 :: L', hlen, hsub, hmem =>
    refine ⟨fun c h => ?_, fun _ => ⟨c0, rfl⟩⟩
    injection h with h
    injection h with h
    subst h
    obtain ⟨a1, a2⟩ := (hmem c0).1 List.mem_cons_self
    refine ⟨a1, a2, fun c' h1 h2 => ?_⟩
    rcases List.mem_cons.1 ((hmem c').2 ⟨h1, h2⟩) with rfl | hm
    · exact le_rfl
    · exact (List.pairwise_cons.1 hsub).1 c' hm

/-! ### C111 -/

/-- C111, with exact operations this is the intersection with the box of C12 and C13. -/
theorem C111_exact (impl : Impl) (d : Dtm K) (los : List (V3 K)) : cubeA Arith.exact impl d los = cubeOfIndex impl d los := by
  have e : ∀ k p, eqPlanA Arith.exact d k p = eqPlan d k p := fun k p => by fin_cases k <;> rfl
  have ec : ∀ k layer a b, crossingA Arith.exact d k layer a b = crossingOf d k layer a b := fun k layer a b => by
    unfold crossingA crossingOf
    simp only [e]
    rfl
  have es : ∀ k (rest : List (V3 K)) a layer, faceScanA Arith.exact impl d k a layer rest = faceScan impl d k a layer rest := fun k rest => by
    induction rest with
    | nil => intro a layer; rfl
    | cons b rest ih =>
      intro a layer
      unfold faceScanA faceScan
      simp only [e, ec, ih]
      rfl
  have eh : ∀ k, faceHitA Arith.exact impl d k los = faceHit impl d k los := fun k => by
    cases los with
    | nil => rfl
    | cons v rest => exact es k _ v 0
  have ehs : ∀ ks, faceHitsA Arith.exact impl d los ks = faceHits impl d los ks := fun ks => by
    induction ks with
    | nil => rfl
    | cons k ks ih =>
      simp only [faceHitsA, faceHits, eh, ih]
      rfl
  unfold cubeA cubeOfIndex
  rw [ehs]
  rfl

/-- C111, soundness: whenever an entry is reported it is in the closed box, exactly, and it is close to a point of the line of sight on the plane of one
of the faces; or (Python only) the first vertex is on the plane of a face, and is the point reported, with the parameter -1. -/
theorem C111_entry_in_box_and_near_the_line {A : Arith K} {u : K} (hA : A.RoundsBy u) (hu : 0 ≤ u) (hu1 : u ≤ 1 / 20) (impl : Impl) (d : Dtm K)
    (los : List (V3 K)) (B : V3 K) (hB : BoundsVertices B los) (c' : Crossing K) (h : cubeA A impl d los = .ok (some c')) :
    InBox d.nbRows d.nbCols d.altMin d.altMax c'.p ∧
    ∃ (k : Fin 6) (t : K) (q : V3 K), OnFacePlane d.nbRows d.nbCols d.altMin d.altMax k q ∧
      |c'.p.x - q.x| ≤ 8 * u * B.x ∧ |c'.p.y - q.y| ≤ 8 * u * B.y ∧ |c'.p.z - q.z| ≤ 8 * u * B.z ∧ |c'.h - t| ≤ 6 * u * los.length ∧
      (OnPolyline los t q ∨ (impl = .py ∧ t = -1 ∧ los.head? = some q)) := by
  cases hcs : faceHitsA A impl d los [0, 1, 2, 3, 4, 5] with
  | error e => simp only [cubeA, hcs] at h; cases h
  | ok cs =>
    obtain ⟨s1, -⟩ := cubeA_spec A impl d los cs hcs
    obtain ⟨m, hc, -⟩ := s1 c' h
    obtain ⟨k, -, hk⟩ := (mem_faceHitsA A impl d los _ cs hcs c').1 m
    refine ⟨(onCube_iff d _).1 hc, k, ?_⟩
    have hsame := faceHitA_same hA hu hu1 impl d k B los hB
    rw [hk] at hsame
    cases he : faceHit impl d k los with
    | error e => rw [he] at hsame; exact hsame.elim
    | ok o =>
      cases o with
      | none => rw [he] at hsame; exact hsame.elim
      | some c =>
        rw [he] at hsame
        obtain ⟨x1, x2, x3, x4⟩ := hsame
        rcases faceHit_cases impl d k los c he with ⟨h1, h2⟩ | ⟨h1, h2, h3, h4⟩
        · exact ⟨c.h, c.p, h2, x1, x2, x3, x4, .inl h1⟩
        · exact ⟨c.h, c.p, h4, x1, x2, x3, x4, .inr ⟨h1, h2, h3⟩⟩

/-- The point is in the box, at a distance of at least `m` of the four faces that are not parallel to face `k`. -/
def WellInFace (rows cols : ℕ) (lo hi : K) (m : V3 K) (k : Fin 6) (p : V3 K) : Prop :=
  match k with
  | 0 | 1 => m.y ≤ p.y ∧ p.y + m.y ≤ (cols : K) - 1 ∧ lo + m.z ≤ p.z ∧ p.z + m.z ≤ hi
  | 2 | 3 => m.x ≤ p.x ∧ p.x + m.x ≤ (rows : K) - 1 ∧ lo + m.z ≤ p.z ∧ p.z + m.z ≤ hi
  | 4 | 5 => m.x ≤ p.x ∧ p.x + m.x ≤ (rows : K) - 1 ∧ m.y ≤ p.y ∧ p.y + m.y ≤ (cols : K) - 1

/-- The error bounds of the three coordinates. -/
def errBox (u : K) (B : V3 K) : V3 K := ⟨8 * u * B.x, 8 * u * B.y, 8 * u * B.z⟩

theorem planeA_coord {A : Arith K} {u : K} (hA : A.RoundsBy u) (hu1 : u < 1) (impl : Impl) (d : Dtm K) (k : Fin 6) (los : List (V3 K)) (c' : Crossing K)
    (h : faceHitA A impl d k los = .ok (some c')) : OnFacePlane d.nbRows d.nbCols d.altMin d.altMax k c'.p := by
  have key : ∀ layer a b, (eqPlan d k a * eqPlan d k b ≤ 0) → eqPlan d k (crossingA A d k layer a b).p = 0 := by
    intro layer a b _
    unfold crossingA
    simp only [eqPlanA_zero hA hu1]
    split_ifs with h1 h2
    · exact h1
    · exact h2
    all_goals (fin_cases k <;> simp_all [eqPlan])
  have scan : ∀ (rest : List (V3 K)) a layer, faceScanA A impl d k a layer rest = .ok (some c') → eqPlan d k c'.p = 0 := by
    intro rest
    induction rest with
    | nil => intro a layer h; cases h
    | cons b rest ih =>
      intro a layer h
      simp only [faceScanA] at h
      split_ifs at h with h1 h2
      · injection h with h
        injection h with h
        rw [← h]
        exact key layer a b ((mulA_sign hA hu1 (eqPlanA_rounds hA d k a) (eqPlanA_rounds hA d k b)).1 h1)
      · exact ih b (layer + 1) h
  rw [← eqPlan_zero_iff]
  cases los with
  | nil => cases h
  | cons v rest => exact scan _ v 0 h

/-- A crossing whose exact position is well in its face is kept by the filter. -/
theorem kept_of_well_in {u : K} (d : Dtm K) (B : V3 K) (n : ℕ) (k : Fin 6) (c' c : Crossing K)
    (hr : 0 ≤ (d.nbRows : K) - 1) (hc : 0 ≤ (d.nbCols : K) - 1) (hz : d.altMin ≤ d.altMax) (hclose : CloseTo u B n c' c)
    (hk : OnFacePlane d.nbRows d.nbCols d.altMin d.altMax k c'.p) (hw : WellInFace d.nbRows d.nbCols d.altMin d.altMax (errBox u B) k c.p) :
    onCube d c'.p = true := by
  rw [onCube_iff]
  obtain ⟨x1, x2, x3, -⟩ := hclose
  obtain ⟨x1a, x1b⟩ := _root_.abs_le.1 x1
  obtain ⟨x2a, x2b⟩ := _root_.abs_le.1 x2
  obtain ⟨x3a, x3b⟩ := _root_.abs_le.1 x3
  unfold InBox
  fin_cases k <;> simp only [OnFacePlane] at hk <;> simp only [WellInFace, errBox] at hw <;> obtain ⟨w1, w2, w3, w4⟩ := hw <;> rw [hk]
  · exact ⟨le_rfl, hr, by linarith, by linarith, by linarith, by linarith⟩
  · exact ⟨hr, le_rfl, by linarith, by linarith, by linarith, by linarith⟩
  · exact ⟨by linarith, by linarith, le_rfl, hc, by linarith, by linarith⟩
  · exact ⟨by linarith, by linarith, hc, le_rfl, by linarith, by linarith⟩
  · exact ⟨by linarith, by linarith, by linarith, by linarith, le_rfl, hz⟩
  · exact ⟨by linarith, by linarith, by linarith, by linarith, hz, le_rfl⟩

theorem altMin_le_altMax (d : Dtm K) (hr : 2 ≤ d.nbRows) (hc : 2 ≤ d.nbCols) : d.altMin ≤ d.altMax := by
  obtain ⟨h1, h2⟩ := (C11_global_bounds d hr hc).2.2.1 0 0 ⟨by omega, by omega, by omega, by omega⟩
  exact h1.trans h2

/-- C111, completeness: if the line crosses the planes of two faces, first at points that are well inside these faces, an entry is reported. -/
theorem C111_found {A : Arith K} {u : K} (hA : A.RoundsBy u) (hu : 0 ≤ u) (hu1 : u ≤ 1 / 20) (impl : Impl) (d : Dtm K) (hr : 2 ≤ d.nbRows)
    (hc : 2 ≤ d.nbCols) (los : List (V3 K)) (hoff : FirstOffPlanes d los) (B : V3 K) (hB : BoundsVertices B los) (k1 k2 : Fin 6) (hk : k1 ≠ k2)
    (t1 t2 : K) (q1 q2 : V3 K)
    (h1 : FirstCrossing d.nbRows d.nbCols d.altMin d.altMax k1 los t1 q1) (w1 : WellInFace d.nbRows d.nbCols d.altMin d.altMax (errBox u B) k1 q1)
    (h2 : FirstCrossing d.nbRows d.nbCols d.altMin d.altMax k2 los t2 q2) (w2 : WellInFace d.nbRows d.nbCols d.altMin d.altMax (errBox u B) k2 q2) :
    ∃ c', cubeA A impl d los = .ok (some c') ∧ c'.h ≤ t1 + 6 * u * los.length ∧ c'.h ≤ t2 + 6 * u * los.length := by
  have u1 : u < 1 := by linarith
  have hR : (0 : K) ≤ (d.nbRows : K) - 1 := by
    have : (2 : K) ≤ d.nbRows := by exact_mod_cast hr
    linarith
  have hC : (0 : K) ≤ (d.nbCols : K) - 1 := by
    have : (2 : K) ≤ d.nbCols := by exact_mod_cast hc
    linarith
  have hit : ∀ k t q, FirstCrossing d.nbRows d.nbCols d.altMin d.altMax k los t q → ∃ c', faceHitA A impl d k los = .ok (some c') ∧
      CloseTo u B los.length c' ⟨q, t⟩ := fun k t q hf => by
    have hs := faceHitA_same hA hu hu1 impl d k B los hB
    rw [first_faceHit impl d k los hoff t q hf] at hs
    cases he : faceHitA A impl d k los with
    | error e => rw [he] at hs; exact hs.elim
    | ok o =>
      cases o with
      | none => rw [he] at hs; exact hs.elim
      | some c' => rw [he] at hs; exact ⟨c', rfl, hs⟩
  obtain ⟨c1, e1, l1⟩ := hit k1 t1 q1 h1
  obtain ⟨c2, e2, l2⟩ := hit k2 t2 q2 h2
  have hz := altMin_le_altMax d hr hc
  have o1 := kept_of_well_in d B _ k1 c1 ⟨q1, t1⟩ hR hC hz l1 (planeA_coord hA u1 impl d k1 los c1 e1) w1
  have o2 := kept_of_well_in d B _ k2 c2 ⟨q2, t2⟩ hR hC hz l2 (planeA_coord hA u1 impl d k2 los c2 e2) w2
  obtain ⟨cs, hcs⟩ := faceHitsA_ok A impl d los [0, 1, 2, 3, 4, 5] fun k _ => by
    have hs := faceHitA_same hA hu hu1 impl d k B los hB
    obtain ⟨o, ho⟩ := faceHit_ok_of_off impl d k los hoff
    rw [ho] at hs
    cases he : faceHitA A impl d k los with
    | error e => rw [he] at hs; cases o <;> exact hs.elim
    | ok o' => exact ⟨o', rfl⟩
  obtain ⟨s1, s2⟩ := cubeA_spec A impl d los cs hcs
  obtain ⟨f1, -⟩ := faceHitsA_two A impl d los (fun c => onCube d c.p) k1 k2 hk c1 c2 e1 e2 o1 o2 _ cs hcs
  obtain ⟨c', h'⟩ := s2 (f1 (mem_six k1) (mem_six k2))
  obtain ⟨-, -, m⟩ := s1 c' h'
  refine ⟨c', h', ?_, ?_⟩
  · have := m c1 ((mem_faceHitsA A impl d los _ cs hcs c1).2 ⟨k1, mem_six k1, e1⟩) o1
    have := (_root_.abs_le.1 l1.2.2.2).2
    simp only at this
    linarith
  · have := m c2 ((mem_faceHitsA A impl d los _ cs hcs c2).2 ⟨k2, mem_six k2, e2⟩) o2
    have := (_root_.abs_le.1 l2.2.2.2).2
    simp only at this
    linarith

/-- The box is on one side of the plane of a face: `a` is on the other side. -/
def OuterSide (rows cols : ℕ) (lo hi : K) (k : Fin 6) (a : V3 K) : Prop :=
  match k with
  | 0 => a.x < 0
  | 1 => (rows : K) - 1 < a.x
  | 2 => a.y < 0
  | 3 => (cols : K) - 1 < a.y
  | 4 => a.z < lo
  | 5 => hi < a.z

/-- C111, straight line: a line of sight from `a` to `b` that enters the box through the face `k1` at parameter `t1`, and crosses the plane of another
face, both well inside these faces.  The entry reported is late by at most the error of a parameter, and early by at most what the errors of the
coordinates are worth along the line: `(t1 - t)` times the change of the coordinate of the face. -/
theorem C111_straight_line {A : Arith K} {u : K} (hA : A.RoundsBy u) (hu : 0 ≤ u) (hu1 : u ≤ 1 / 20) (impl : Impl) (d : Dtm K) (hr : 2 ≤ d.nbRows)
    (hc : 2 ≤ d.nbCols) (a b : V3 K) (hoff : FirstOffPlanes d [a, b]) (B : V3 K) (hB : BoundsVertices B [a, b]) (k1 k2 : Fin 6) (hk : k1 ≠ k2)
    (ha : OuterSide d.nbRows d.nbCols d.altMin d.altMax k1 a) (t1 t2 : K) (q1 q2 : V3 K)
    (h1 : FirstCrossing d.nbRows d.nbCols d.altMin d.altMax k1 [a, b] t1 q1) (w1 : WellInFace d.nbRows d.nbCols d.altMin d.altMax (errBox u B) k1 q1)
    (h2 : FirstCrossing d.nbRows d.nbCols d.altMin d.altMax k2 [a, b] t2 q2) (w2 : WellInFace d.nbRows d.nbCols d.altMin d.altMax (errBox u B) k2 q2) :
    ∃ c' t, cubeA A impl d [a, b] = .ok (some c') ∧ InBox d.nbRows d.nbCols d.altMin d.altMax c'.p ∧
      |c'.p.x - (Spec.lerp a b t).x| ≤ 8 * u * B.x ∧ |c'.p.y - (Spec.lerp a b t).y| ≤ 8 * u * B.y ∧ |c'.p.z - (Spec.lerp a b t).z| ≤ 8 * u * B.z ∧
      |c'.h - t| ≤ 12 * u ∧ t ≤ t1 + 24 * u ∧
      (t1 - t) * |coordOf k1 b - coordOf k1 a| ≤ coordOf k1 (errBox u B) := by
  obtain ⟨c', hc', b1, b2⟩ := C111_found hA hu hu1 impl d hr hc [a, b] hoff B hB k1 k2 hk t1 t2 q1 q2 h1 w1 h2 w2
  obtain ⟨i, k, t, q, hkq, x1, x2, x3, x4, hon⟩ := C111_entry_in_box_and_near_the_line hA hu hu1 impl d [a, b] B hB c' hc'
  have e2 : ((([a, b] : List (V3 K)).length : ℕ) : K) = 2 := by norm_num
  rw [e2] at x4 b1
  have hon : OnPolyline [a, b] t q := by
    rcases hon with h | ⟨-, -, h⟩
    · exact h
    · exact absurd hkq (hoff q h k)
  have seg : ∀ s p, OnPolyline [a, b] s p → 0 ≤ s ∧ s ≤ 1 ∧ p = Spec.lerp a b s := by
    rintro s p ⟨j, x, y, r, hx, hy, r0, r1, rfl, rfl⟩
    have : j = 0 := by
      by_contra hj
      have : j + 1 < 2 := by
        have := (List.getElem?_eq_some_iff.1 hy).1
        simpa using this
      omega
    subst this
    simp only [List.getElem?_cons_zero, Option.some.injEq, List.getElem?_cons_succ] at hx hy
    subst hx hy
    simp [r0, r1]
  obtain ⟨-, -, rfl⟩ := seg t q hon
  obtain ⟨t10, t11, rfl⟩ := seg t1 q1 h1.1
  refine ⟨c', t, hc', i, x1, x2, x3, by linarith, ?_, ?_⟩
  · have := (_root_.abs_le.1 x4).1
    linarith
  · have hz := coordOf_lerp k1 a b t1
    have hzt := coordOf_lerp k1 a b t
    have hf := (eqPlan_zero_iff d k1 _).2 h1.2.1
    rw [eqPlan_eq] at hf
    have hxyz : |coordOf k1 c'.p - coordOf k1 (Spec.lerp a b t)| ≤ coordOf k1 (errBox u B) := by
      fin_cases k1 <;> first | exact x1 | exact x2 | exact x3
    obtain ⟨y1, y2⟩ := _root_.abs_le.1 hxyz
    rw [hzt] at y1 y2
    rw [hz] at hf
    have hside : (coordOf k1 a < planeD d k1 ∧ planeD d k1 ≤ coordOf k1 c'.p) ∨ (planeD d k1 < coordOf k1 a ∧ coordOf k1 c'.p ≤ planeD d k1) := by
      obtain ⟨i1, i2, i3, i4, i5, i6⟩ := i
      fin_cases k1
      · exact .inl ⟨ha, i1⟩
      · exact .inr ⟨ha, i2⟩
      · exact .inl ⟨ha, i3⟩
      · exact .inr ⟨ha, i4⟩
      · exact .inl ⟨ha, i5⟩
      · exact .inr ⟨ha, i6⟩
    rcases hside with ⟨g1, g2⟩ | ⟨g1, g2⟩
    · have hpos : 0 < coordOf k1 b - coordOf k1 a := by
        by_contra hn
        push Not at hn
        have := mul_nonpos_of_nonneg_of_nonpos t10 hn
        linarith
      rw [_root_.abs_of_pos hpos]
      linarith
    · have hneg : coordOf k1 b - coordOf k1 a < 0 := by
        by_contra hn
        push Not at hn
        have := mul_nonneg t10 hn
        linarith
      rw [_root_.abs_of_neg hneg]
      linarith

/-- C111 in double precision, for indexes below ten thousand and altitudes below ten thousand metres: the position of the entry is within 1e-10
pixel and metre of the line of sight. -/
theorem C111_double {A : Arith K} (hA : A.RoundsBy doubleUnit) (impl : Impl) (d : Dtm K) (los : List (V3 K))
    (hB : BoundsVertices ⟨10000, 10000, 10000⟩ los) (hoff : FirstOffPlanes d los) (c' : Crossing K) (h : cubeA A impl d los = .ok (some c')) :
    InBox d.nbRows d.nbCols d.altMin d.altMax c'.p ∧ ∃ t q, OnPolyline los t q ∧ |c'.p.x - q.x| ≤ 1 / 10 ^ 10 ∧ |c'.p.y - q.y| ≤ 1 / 10 ^ 10 ∧
      |c'.p.z - q.z| ≤ 1 / 10 ^ 10 := by
  have hu : (0 : K) ≤ doubleUnit := by unfold doubleUnit; positivity
  have hu1 : (doubleUnit : K) ≤ 1 / 20 := by unfold doubleUnit; norm_num
  obtain ⟨i, k, t, q, hkq, x1, x2, x3, -, hon⟩ := C111_entry_in_box_and_near_the_line hA hu hu1 impl d los _ hB c' h
  have e : 8 * (doubleUnit : K) * 10000 ≤ 1 / 10 ^ 10 := by unfold doubleUnit; norm_num
  refine ⟨i, t, q, ?_, x1.trans e, x2.trans e, x3.trans e⟩
  rcases hon with h | ⟨-, -, h⟩
  · exact h
  · exact absurd hkq (hoff q h k)

/-! ### The parameter stays in its segment -/

/-- What a rounding mode of doubles is, here: non-decreasing, keeping what is already rounded, and the numbers of 53 bits. -/
structure IsRounding (rnd : K → K) : Prop where
  mono : ∀ x y, x ≤ y → rnd x ≤ rnd y
  idem : ∀ x, rnd (rnd x) = rnd x
  keeps : Keeps53 rnd

/-- The operations rounded by `rnd`. -/
def Arith.ofRounding (rnd : K → K) : Arith K :=
  ⟨fun x y => rnd (x + y), fun x y => rnd (x - y), fun x y => rnd (x * y), fun x y => rnd (x / y)⟩

theorem IsRounding.int {rnd : K → K} (h : IsRounding rnd) (n : ℤ) (hn : |n| ≤ 2 ^ 53) : rnd (n : K) = n := by
  have := h.keeps n 0 hn
  simpa using this

/-- The weight of the first vertex is between 0 and 1. -/
theorem weight_range {rnd : K → K} (h : IsRounding rnd) (x y : K) (hs : rnd x * rnd y < 0) :
    0 ≤ rnd (rnd y / rnd (rnd y - rnd x)) ∧ rnd (rnd y / rnd (rnd y - rnd x)) ≤ 1 := by
  have r0 : rnd 0 = 0 := by simpa using h.int 0 (by norm_num)
  have r1 : rnd 1 = 1 := by simpa using h.int 1 (by norm_num)
  have key : 0 ≤ rnd y / rnd (rnd y - rnd x) ∧ rnd y / rnd (rnd y - rnd x) ≤ 1 := by
    rcases mul_neg_iff.1 hs with ⟨p, q⟩ | ⟨p, q⟩
    · have hD : rnd (rnd y - rnd x) ≤ rnd y := by
        have := h.mono (rnd y - rnd x) (rnd y) (by linarith)
        rwa [h.idem] at this
      have hneg : rnd (rnd y - rnd x) < 0 := lt_of_le_of_lt hD q
      exact ⟨div_nonneg_of_nonpos q.le hneg.le, (div_le_one_of_neg hneg).2 hD⟩
    · have hD : rnd y ≤ rnd (rnd y - rnd x) := by
        have := h.mono (rnd y) (rnd y - rnd x) (by linarith)
        rwa [h.idem] at this
      have hpos : 0 < rnd (rnd y - rnd x) := lt_of_lt_of_le q hD
      exact ⟨div_nonneg q.le hpos.le, (div_le_one hpos).2 hD⟩
  constructor
  · have := h.mono _ _ key.1
    rwa [r0] at this
  · have := h.mono _ _ key.2
    rwa [r1] at this

/-- The parameter of a crossing between vertices `layer - 1` and `layer`. -/
theorem crossingA_parameter {rnd : K → K} (h : IsRounding rnd) (d : Dtm K) (k : Fin 6) (layer : ℕ) (h1 : 1 ≤ layer) (h2 : layer ≤ 2 ^ 53) (a b : V3 K)
    (hab : eqPlanA (.ofRounding rnd) d k a * eqPlanA (.ofRounding rnd) d k b ≤ 0) :
    (layer : K) - 1 ≤ (crossingA (.ofRounding rnd) d k layer a b).h ∧ (crossingA (.ofRounding rnd) d k layer a b).h ≤ layer := by
  have he : ∀ p, ∃ x, eqPlanA (.ofRounding rnd) d k p = rnd x := fun p => by fin_cases k <;> exact ⟨_, rfl⟩
  obtain ⟨x, hx⟩ := he a
  obtain ⟨y, hy⟩ := he b
  unfold crossingA
  simp only
  rw [hx, hy] at hab ⊢
  by_cases e1 : rnd x = 0
  · rw [if_pos e1]; simp
  rw [if_neg e1]
  by_cases e2 : rnd y = 0
  · rw [if_pos e2]; simp
  rw [if_neg e2]
  obtain ⟨w1, w2⟩ := weight_range h x y (lt_of_le_of_ne hab (mul_ne_zero e1 e2))
  have i1 : rnd ((layer : K) - 1) = (layer : K) - 1 := by
    have := h.int ((layer : ℤ) - 1) (by rw [_root_.abs_le]; constructor <;> omega)
    push_cast at this
    exact this
  have i2 : rnd (layer : K) = layer := by
    have := h.int (layer : ℤ) (by rw [_root_.abs_le]; constructor <;> omega)
    push_cast at this
    exact this
  simp only [Arith.ofRounding]
  constructor
  · have := h.mono ((layer : K) - 1) ((layer : K) - rnd (rnd y / rnd (rnd y - rnd x))) (by linarith)
    rwa [i1] at this
  · have := h.mono ((layer : K) - rnd (rnd y / rnd (rnd y - rnd x))) (layer : K) (by linarith)
    rwa [i2] at this

/-- Where the crossing of a plane comes from. -/
theorem faceScanA_segment (A : Arith K) (impl : Impl) (d : Dtm K) (k : Fin 6) (c' : Crossing K) : ∀ (rest : List (V3 K)) (a : V3 K) (layer : ℕ),
    faceScanA A impl d k a layer rest = .ok (some c') → ∃ (j : ℕ) (x y : V3 K), (a :: rest)[j]? = some x ∧ (a :: rest)[j + 1]? = some y ∧
      A.mul (eqPlanA A d k x) (eqPlanA A d k y) ≤ 0 ∧ c' = crossingA A d k (layer + j) x y
  | [], a, layer, h => by cases h
  | b :: rest, a, layer, h => by
    simp only [faceScanA] at h
    split_ifs at h with h1 h2
    · injection h with h
      injection h with h
      exact ⟨0, a, b, rfl, rfl, h1, h.symm⟩
    · obtain ⟨j, x, y, e1, e2, e3, e4⟩ := faceScanA_segment A impl d k c' rest b (layer + 1) h
      exact ⟨j + 1, x, y, by simpa using e1, by simpa using e2, e3, by rw [e4]; congr 1; omega⟩

/-- C111, with a rounding mode: the parameter reported is in the segment of the line of sight that crosses the face, so that the march starts in this
segment, or in the next one if the parameter is rounded to its end; it is never negative. -/
theorem C111_parameter_in_its_segment {rnd : K → K} {u : K} (h : IsRounding rnd) (hu : 0 ≤ u) (hu1 : u ≤ 1 / 20) (hr : ∀ x, Rounds u x (rnd x))
    (impl : Impl) (d : Dtm K) (los : List (V3 K)) (hl : los.length ≤ 2 ^ 53) (hoff : FirstOffPlanes d los) (c' : Crossing K)
    (hc : cubeA (.ofRounding rnd) impl d los = .ok (some c')) :
    ∃ (i : ℕ) (a b : V3 K) (k : Fin 6) (s : K), los[i]? = some a ∧ los[i + 1]? = some b ∧ 0 ≤ s ∧ s ≤ 1 ∧
      OnFacePlane d.nbRows d.nbCols d.altMin d.altMax k (Spec.lerp a b s) ∧ (i : K) ≤ c'.h ∧ c'.h ≤ i + 1 := by
  have u1 : u < 1 := by linarith
  have hA : (Arith.ofRounding rnd).RoundsBy u := ⟨fun _ _ => hr _, fun _ _ => hr _, fun _ _ => hr _, fun _ _ _ => hr _⟩
  cases hcs : faceHitsA (.ofRounding rnd) impl d los [0, 1, 2, 3, 4, 5] with
  | error e => simp only [cubeA, hcs] at hc; cases hc
  | ok cs =>
    obtain ⟨m, -, -⟩ := (cubeA_spec _ impl d los cs hcs).1 c' hc
    obtain ⟨k, -, hk⟩ := (mem_faceHitsA _ impl d los _ cs hcs c').1 m
    cases los with
    | nil => cases hk
    | cons v rest =>
      obtain ⟨j, x, y, e1, e2, e3, e4⟩ := faceScanA_segment _ impl d k c' _ v 0 hk
      have hv : eqPlan d k v ≠ 0 := fun e => hoff v rfl k ((eqPlan_zero_iff d k v).1 e)
      have hxy : eqPlan d k x * eqPlan d k y ≤ 0 := (mulA_sign hA u1 (eqPlanA_rounds hA d k x) (eqPlanA_rounds hA d k y)).1 e3
      cases j with
      | zero =>
        simp only [List.getElem?_cons_zero, Option.some.injEq, zero_add, List.getElem?_cons_succ] at e1 e2
        subst e1 e2
        exact absurd hxy (not_le.2 (lt_of_le_of_ne (mul_self_nonneg _) (mul_ne_zero hv hv).symm))
      | succ j =>
        have e1' : (v :: rest)[j]? = some x := by simpa using e1
        have e2' : (v :: rest)[j + 1]? = some y := by simpa using e2
        have hlen : j + 1 < (v :: rest).length := (List.getElem?_eq_some_iff.1 e2').1
        have hp := crossingA_parameter h d k (0 + (j + 1)) (by omega) (by omega) x y
          ((rounds_sign u1 (hA.mul _ _)).2.1.1 e3)
        rw [← e4] at hp
        push_cast at hp
        obtain ⟨s, s0, s1, hs⟩ : ∃ s, 0 ≤ s ∧ s ≤ 1 ∧ eqPlan d k (Spec.lerp x y s) = 0 := by
          by_cases hx0 : eqPlan d k x = 0
          · exact ⟨0, le_rfl, zero_le_one, by rw [lerp_zero]; exact hx0⟩
          · obtain ⟨s, s0, s1, -, -, hs, -⟩ := crossingOf_spec d k 1 x y hx0 hxy
            exact ⟨s, s0, s1, hs⟩
        exact ⟨j, x, y, k, s, e1', e2', s0, s1, (eqPlan_zero_iff d k _).1 hs, by linarith [hp.1], by linarith [hp.2]⟩

/-- C111, the whole line: started from the entry computed in floating point, the march through the cells of the DTM comes to an end (see C104: only the
refinement of a crossing is bounded by the number of iterations `N`). -/
theorem C111_march_from_the_entry_ends {rnd : K → K} {u : K} (h : IsRounding rnd) (hu : 0 ≤ u) (hu1 : u ≤ 1 / 20) (hr : ∀ x, Rounds u x (rnd x))
    (impl : Impl) (d : Dtm K) (G : GroundA K) (N : ℕ) (los : List (V3 K)) (hl : los.length ≤ 2 ^ 53) (hoff : FirstOffPlanes d los) (c' : Crossing K)
    (hc : cubeA (.ofRounding rnd) impl d los = .ok (some c')) :
    intersectionA (.ofRounding rnd) impl G N los c'.p c'.h ≠ .marchFuel := by
  obtain ⟨i, -, -, -, -, -, -, -, -, -, h1, -⟩ := C111_parameter_in_its_segment h hu hu1 hr impl d los hl hoff c' hc
  have : (0 : K) ≤ i := Nat.cast_nonneg i
  exact C104_march_ends _ impl G N los c'.p c'.h (by linarith)

/-! ### Rounding to the nearest -/

theorem round_le_round {x y : K} (h : x ≤ y) : round x ≤ round y := by
  rw [round_eq, round_eq]; exact Int.floor_mono (by linarith)

/-- The result of a rounding is a 53 bit integer times the unit of the binade, in the same binade as the argument or at its end. -/
theorem rnd53_binade (x : K) (hx : x ≠ 0) : ∃ m : ℤ, rnd53 x = (m : K) * 2 ^ (Int.log 2 |x| - 52) ∧ m = round (x / 2 ^ (Int.log 2 |x| - 52)) ∧
    (0 < x → 2 ^ 52 ≤ m ∧ m ≤ 2 ^ 53) ∧ (x < 0 → -2 ^ 53 ≤ m ∧ m ≤ -2 ^ 52) := by
  have hx' : 0 < |x| := abs_pos.mpr hx
  have h1 : ((2 : ℕ) : K) ^ Int.log 2 |x| ≤ |x| := Int.zpow_log_le_self (by norm_num) hx'
  have h2 : |x| < ((2 : ℕ) : K) ^ (Int.log 2 |x| + 1) := Int.lt_zpow_succ_log_self (by norm_num) _
  push_cast at h1 h2
  have hpos : (0 : K) < 2 ^ (Int.log 2 |x| - 52) := by positivity
  have e1 : (2 : K) ^ Int.log 2 |x| = 2 ^ 52 * 2 ^ (Int.log 2 |x| - 52) := by
    have : (2 : K) ^ Int.log 2 |x| = 2 ^ ((52 : ℤ) + (Int.log 2 |x| - 52)) := by congr 1; ring
    rw [this, zpow_add₀ (by norm_num)]; norm_cast
  have e2 : (2 : K) ^ (Int.log 2 |x| + 1) = 2 ^ 53 * 2 ^ (Int.log 2 |x| - 52) := by
    have : (2 : K) ^ (Int.log 2 |x| + 1) = 2 ^ ((53 : ℤ) + (Int.log 2 |x| - 52)) := by congr 1; ring
    rw [this, zpow_add₀ (by norm_num)]; norm_cast
  rw [e1] at h1
  rw [e2] at h2
  refine ⟨_, by unfold rnd53; rw [if_neg hx], rfl, fun h => ?_, fun h => ?_⟩
  · generalize (2 : K) ^ (Int.log 2 |x| - 52) = ulp at *
    rw [abs_of_pos h] at h1 h2
    have a1 : (((2 ^ 52 : ℤ)) : K) ≤ x / ulp := by rw [le_div_iff₀ hpos]; push_cast; linarith
    have a2 : x / ulp ≤ (((2 ^ 53 : ℤ)) : K) := by rw [div_le_iff₀ hpos]; push_cast; linarith
    have b1 := round_le_round a1
    have b2 := round_le_round a2
    rw [round_intCast] at b1 b2
    exact ⟨b1, b2⟩
  · generalize (2 : K) ^ (Int.log 2 |x| - 52) = ulp at *
    rw [abs_of_neg h] at h1 h2
    have a1 : (((-2 ^ 53 : ℤ)) : K) ≤ x / ulp := by rw [le_div_iff₀ hpos]; push_cast; linarith
    have a2 : x / ulp ≤ (((-2 ^ 52 : ℤ)) : K) := by rw [div_le_iff₀ hpos]; push_cast; linarith
    have b1 := round_le_round a1
    have b2 := round_le_round a2
    rw [round_intCast] at b1 b2
    exact ⟨b1, b2⟩

theorem rnd53_pos_range (x : K) (hx : 0 < x) : (2 : K) ^ Int.log 2 |x| ≤ rnd53 x ∧ rnd53 x ≤ 2 ^ (Int.log 2 |x| + 1) := by
  obtain ⟨m, e, -, h, -⟩ := rnd53_binade x hx.ne'
  obtain ⟨h1, h2⟩ := h hx
  have hpos : (0 : K) < 2 ^ (Int.log 2 |x| - 52) := by positivity
  have e1 : (2 : K) ^ Int.log 2 |x| = 2 ^ 52 * 2 ^ (Int.log 2 |x| - 52) := by
    have : (2 : K) ^ Int.log 2 |x| = 2 ^ ((52 : ℤ) + (Int.log 2 |x| - 52)) := by congr 1; ring
    rw [this, zpow_add₀ (by norm_num)]; norm_cast
  have e2 : (2 : K) ^ (Int.log 2 |x| + 1) = 2 ^ 53 * 2 ^ (Int.log 2 |x| - 52) := by
    have : (2 : K) ^ (Int.log 2 |x| + 1) = 2 ^ ((53 : ℤ) + (Int.log 2 |x| - 52)) := by congr 1; ring
    rw [this, zpow_add₀ (by norm_num)]; norm_cast
  rw [e, e1, e2]
  exact ⟨mul_le_mul_of_nonneg_right (by exact_mod_cast h1) hpos.le, mul_le_mul_of_nonneg_right (by exact_mod_cast h2) hpos.le⟩

theorem rnd53_neg_range (x : K) (hx : x < 0) : -(2 : K) ^ (Int.log 2 |x| + 1) ≤ rnd53 x ∧ rnd53 x ≤ -2 ^ Int.log 2 |x| := by
  obtain ⟨m, e, -, -, h⟩ := rnd53_binade x hx.ne
  obtain ⟨h1, h2⟩ := h hx
  have hpos : (0 : K) < 2 ^ (Int.log 2 |x| - 52) := by positivity
  have e1 : (2 : K) ^ Int.log 2 |x| = 2 ^ 52 * 2 ^ (Int.log 2 |x| - 52) := by
    have : (2 : K) ^ Int.log 2 |x| = 2 ^ ((52 : ℤ) + (Int.log 2 |x| - 52)) := by congr 1; ring
    rw [this, zpow_add₀ (by norm_num)]; norm_cast
  have e2 : (2 : K) ^ (Int.log 2 |x| + 1) = 2 ^ 53 * 2 ^ (Int.log 2 |x| - 52) := by
    have : (2 : K) ^ (Int.log 2 |x| + 1) = 2 ^ ((53 : ℤ) + (Int.log 2 |x| - 52)) := by congr 1; ring
    rw [this, zpow_add₀ (by norm_num)]; norm_cast
  rw [e, e1, e2, ← neg_mul, ← neg_mul]
  exact ⟨mul_le_mul_of_nonneg_right (by exact_mod_cast h1) hpos.le, mul_le_mul_of_nonneg_right (by exact_mod_cast h2) hpos.le⟩

theorem rnd53_mono (x y : K) (hxy : x ≤ y) : rnd53 x ≤ rnd53 y := by
  rcases lt_trichotomy x 0 with hx | hx | hx
  · have rx := rnd53_neg_range x hx
    rcases lt_trichotomy y 0 with hy | hy | hy
    · have ry := rnd53_neg_range y hy
      have hl : Int.log 2 |y| ≤ Int.log 2 |x| := Int.log_mono_right (abs_pos.2 hy.ne) (by rw [abs_of_neg hx, abs_of_neg hy]; linarith)
      rcases hl.lt_or_eq with hl | hl
      · have : (2 : K) ^ (Int.log 2 |y| + 1) ≤ 2 ^ Int.log 2 |x| := zpow_le_zpow_right₀ (by norm_num) (by omega)
        linarith [rx.2, ry.1]
      · obtain ⟨m, e, em, -⟩ := rnd53_binade x hx.ne
        obtain ⟨m', e', em', -⟩ := rnd53_binade y hy.ne
        have hpos : (0 : K) < 2 ^ (Int.log 2 |x| - 52) := by positivity
        rw [hl] at e' em'
        have : m ≤ m' := by rw [em, em']; exact round_le_round (div_le_div_of_nonneg_right hxy hpos.le)
        rw [e, e']
        exact mul_le_mul_of_nonneg_right (by exact_mod_cast this) hpos.le
    · have : (0 : K) < 2 ^ Int.log 2 |x| := by positivity
      have : rnd53 y = 0 := by simp [rnd53, hy]
      linarith [rx.2]
    · have ry := rnd53_pos_range y hy
      have : (0 : K) < 2 ^ Int.log 2 |x| := by positivity
      have : (0 : K) < 2 ^ Int.log 2 |y| := by positivity
      linarith [rx.2, ry.1]
  · have : rnd53 x = 0 := by simp [rnd53, hx]
    rcases (hx ▸ hxy : 0 ≤ y).lt_or_eq with hy | hy
    · have ry := rnd53_pos_range y hy
      have : (0 : K) < 2 ^ Int.log 2 |y| := by positivity
      linarith [ry.1]
    · rw [hx, ← hy]
  · have hy : 0 < y := lt_of_lt_of_le hx hxy
    have rx := rnd53_pos_range x hx
    have ry := rnd53_pos_range y hy
    have hl : Int.log 2 |x| ≤ Int.log 2 |y| := Int.log_mono_right (abs_pos.2 hx.ne') (by rw [abs_of_pos hx, abs_of_pos hy]; exact hxy)
    rcases hl.lt_or_eq with hl | hl
    · have : (2 : K) ^ (Int.log 2 |x| + 1) ≤ 2 ^ Int.log 2 |y| := zpow_le_zpow_right₀ (by norm_num) (by omega)
      linarith [rx.2, ry.1]
    · obtain ⟨m, e, em, -⟩ := rnd53_binade x hx.ne'
      obtain ⟨m', e', em', -⟩ := rnd53_binade y hy.ne'
      have hpos : (0 : K) < 2 ^ (Int.log 2 |x| - 52) := by positivity
      rw [← hl] at e' em'
      have : m ≤ m' := by rw [em, em']; exact round_le_round (div_le_div_of_nonneg_right hxy hpos.le)
      rw [e, e']
      exact mul_le_mul_of_nonneg_right (by exact_mod_cast this) hpos.le

theorem rnd53_idem (x : K) : rnd53 (rnd53 x) = rnd53 x := by
  by_cases hx : x = 0
  · simp [rnd53, hx]
  obtain ⟨m, e, -, h1, h2⟩ := rnd53_binade x hx
  rw [e]
  refine rnd53_keeps m _ (_root_.abs_le.2 ?_)
  rcases lt_or_gt_of_ne hx with h | h
  · have := h2 h; constructor <;> omega
  · have := h1 h; constructor <;> omega

/-- Rounding to the nearest binary number of 53 bits is a rounding. -/
theorem rnd53_isRounding : IsRounding (rnd53 : K → K) := ⟨rnd53_mono, rnd53_idem, rnd53_keeps⟩

/-! ### The hypotheses are met -/

/-- A line of sight through the top and the bottom of the box of a small terrain. -/
def boxLine : List (V3 ℚ) := [⟨2 / 3, 4 / 7, 20⟩, ⟨5 / 3, 8 / 7, -10⟩]

theorem boxLine_off : FirstOffPlanes coneDtm boxLine := by
  intro v hv k hk
  obtain rfl : (⟨2 / 3, 4 / 7, 20⟩ : V3 ℚ) = v := by simpa [boxLine] using hv
  revert hk
  fin_cases k <;> simp only [OnFacePlane] <;> decide +kernel

/-- The hypotheses of `C111_straight_line` hold, with the operations of double precision; the position computed is not the exact one. -/
theorem C111_inhabited : ∃ t1 t2 q1 q2,
    FirstCrossing coneDtm.nbRows coneDtm.nbCols coneDtm.altMin coneDtm.altMax 5 boxLine t1 q1 ∧
    WellInFace coneDtm.nbRows coneDtm.nbCols coneDtm.altMin coneDtm.altMax (errBox doubleUnit ⟨20, 20, 20⟩) 5 q1 ∧
    FirstCrossing coneDtm.nbRows coneDtm.nbCols coneDtm.altMin coneDtm.altMax 4 boxLine t2 q2 ∧
    WellInFace coneDtm.nbRows coneDtm.nbCols coneDtm.altMin coneDtm.altMax (errBox doubleUnit ⟨20, 20, 20⟩) 4 q2 ∧
    OuterSide coneDtm.nbRows coneDtm.nbCols coneDtm.altMin coneDtm.altMax 5 (⟨2 / 3, 4 / 7, 20⟩ : V3 ℚ) ∧
    BoundsVertices ⟨20, 20, 20⟩ boxLine ∧
    (∃ c, cubeA arith53 .cpp coneDtm boxLine = .ok (some c) ∧ c.p ≠ q1 ∧ c.h ≠ t1) := by
  refine ⟨1 / 3, 2 / 3, ⟨1, 16 / 21, 10⟩, ⟨4 / 3, 20 / 21, 0⟩,
    faceHit_iff_first .py coneDtm 5 boxLine boxLine_off ⟨⟨1, 16 / 21, 10⟩, 1 / 3⟩ (by decide +kernel), ?_,
    faceHit_iff_first .py coneDtm 4 boxLine boxLine_off ⟨⟨4 / 3, 20 / 21, 0⟩, 2 / 3⟩ (by decide +kernel), ?_, ?_, ?_, ?_⟩
  · simp only [WellInFace, errBox]; decide +kernel
  · simp only [WellInFace, errBox]; decide +kernel
  · simp only [OuterSide]; decide +kernel
  · intro v hv
    simp only [boxLine, List.mem_cons, List.not_mem_nil, or_false] at hv
    rcases hv with rfl | rfl <;> decide +kernel
  · refine ⟨(match cubeA arith53 .cpp coneDtm boxLine with | .ok (some c) => c | _ => ⟨⟨0, 0, 0⟩, 0⟩), ?_⟩
    decide +kernel

/-- The hypotheses of `C111_parameter_in_its_segment` hold in double precision: the rounding to the nearest, and an entry found. -/
theorem C111_rounding_inhabited : IsRounding (rnd53 : ℚ → ℚ) ∧ (∀ x : ℚ, Rounds doubleUnit x (rnd53 x)) ∧
    (Arith.ofRounding (rnd53 : ℚ → ℚ)) = arith53 ∧ ∃ c, cubeA (.ofRounding rnd53) .py coneDtm boxLine = .ok (some c) ∧ 0 < c.h ∧ c.h < 1 := by
  refine ⟨rnd53_isRounding, rnd53_rounds, rfl,
    (match cubeA (.ofRounding rnd53) .py coneDtm boxLine with | .ok (some c) => c | _ => ⟨⟨0, 0, 0⟩, 0⟩), ?_⟩
  decide +kernel

/-- C111: the margin of `C111_found` is needed. A line of sight that touches the box at an edge has an entry in exact arithmetic, and none in double
precision, where one of the two crossings is computed outside of the box. -/
theorem C111_grazing_line_is_lost :
    cubeOfIndex .py coneDtm [⟨13 / 8, -1, 4⟩, ⟨13 / 8, 5, 40⟩] = .ok (some ⟨⟨13 / 8, 0, 10⟩, 1 / 6⟩) ∧
    cubeA arith53 .py coneDtm [⟨13 / 8, -1, 4⟩, ⟨13 / 8, 5, 40⟩] = .ok none := by
  decide +kernel

end Shareloc
