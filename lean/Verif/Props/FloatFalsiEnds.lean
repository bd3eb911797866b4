import Verif.Props.FloatMarch

/-!
C105: the regula falsi of the DTM intersection ends in floating point.
-/

set_option linter.unusedSectionVars false

namespace Shareloc
variable {K : Type*} [Field K] [LinearOrder K] [IsStrictOrderedRing K] [FloorRing K]

open Spec

/-! ### Rounded operations -/

theorem Rounds.nonneg_of {u x v : K} (hu1 : u ≤ 1) (h : Rounds u x v) (hx : 0 ≤ x) : 0 ≤ v := by
  have := abs_le.1 h
  rw [abs_of_nonneg hx] at this
  nlinarith [this.1]

/-- The error of `p + c * (q - p)`. -/
theorem lerp_round {u p q c e f v B : K} (hu : 0 ≤ u) (hu1 : u ≤ 1 / 10) (h1 : Rounds u (q - p) e) (h2 : Rounds u (c * e) f)
    (h3 : Rounds u (p + f) v) (hp : |p| ≤ B) (hq : |q| ≤ B) (hc0 : 0 ≤ c) (hc1 : c ≤ 1) :
    |v - (p + c * (q - p))| ≤ 8 * u * B := by
  have hB : 0 ≤ B := le_trans (abs_nonneg p) hp
  have hd : |q - p| ≤ 2 * B := by
    have := abs_sub q p
    linarith
  have k1 : |e - (q - p)| ≤ u * (2 * B) := h1.trans (mul_le_mul_of_nonneg_left hd hu)
  have ke : |e| ≤ 2 * B + u * (2 * B) := by
    have : e = (q - p) + (e - (q - p)) := by ring
    rw [this]
    exact (abs_add_le _ _).trans (add_le_add hd k1)
  have kce : |c * e| ≤ 2 * B + u * (2 * B) := by
    rw [abs_mul, abs_of_nonneg hc0]
    calc c * |e| ≤ 1 * |e| := mul_le_mul_of_nonneg_right hc1 (abs_nonneg _)
      _ ≤ _ := by rw [one_mul]; exact ke
  have k2 : |f - c * e| ≤ u * (2 * B + u * (2 * B)) := h2.trans (mul_le_mul_of_nonneg_left kce hu)
  have k2' : |c * e - c * (q - p)| ≤ u * (2 * B) := by
    rw [← mul_sub, abs_mul, abs_of_nonneg hc0]
    calc c * |e - (q - p)| ≤ 1 * |e - (q - p)| := mul_le_mul_of_nonneg_right hc1 (abs_nonneg _)
      _ ≤ _ := by rw [one_mul]; exact k1
  have hl : |p + c * (q - p)| ≤ B := by
    obtain ⟨p0, p1⟩ := abs_le.1 hp
    obtain ⟨q0, q1⟩ := abs_le.1 hq
    rw [abs_le]
    constructor <;> nlinarith
  have k4 : |f - c * (q - p)| ≤ u * (2 * B) + u * (2 * B + u * (2 * B)) := by
    have : f - c * (q - p) = (c * e - c * (q - p)) + (f - c * e) := by ring
    rw [this]
    exact (abs_add_le _ _).trans (add_le_add k2' k2)
  have k5 : |p + f| ≤ B + (u * (2 * B) + u * (2 * B + u * (2 * B))) := by
    have : p + f = (p + c * (q - p)) + (f - c * (q - p)) := by ring
    rw [this]
    exact (abs_add_le _ _).trans (add_le_add hl k4)
  have k6 : |v - (p + f)| ≤ u * (B + (u * (2 * B) + u * (2 * B + u * (2 * B)))) := h3.trans (mul_le_mul_of_nonneg_left k5 hu)
  have : v - (p + c * (q - p)) = (v - (p + f)) + (f - c * (q - p)) := by ring
  rw [this]
  refine (abs_add_le _ _).trans ((add_le_add k6 k4).trans ?_)
  have e1 : u * (u * B) ≤ 1 / 10 * (u * B) := mul_le_mul_of_nonneg_right hu1 (mul_nonneg hu hB)
  have e2 : u * (u * (u * B)) ≤ 1 / 10 * (u * (u * B)) := mul_le_mul_of_nonneg_right hu1 (mul_nonneg hu (mul_nonneg hu hB))
  have e0 : 0 ≤ u * B := mul_nonneg hu hB
  nlinarith

/-- The error of the denominator of the interpolation coefficient. -/
theorem den_round {u a h z1 z2 dh dz den W : K} (hu : 0 ≤ u) (hu1 : u ≤ 1 / 10) (h1 : Rounds u (h - a) dh) (h2 : Rounds u (z2 - z1) dz)
    (h3 : Rounds u (dh - dz) den) (ha : |a| ≤ W) (hh : |h| ≤ W) (hz1 : |z1| ≤ W) (hz2 : |z2| ≤ W) :
    |den - ((z1 - a) - (z2 - h))| ≤ 9 * u * W := by
  have hW : 0 ≤ W := le_trans (abs_nonneg a) ha
  have d1 : |h - a| ≤ 2 * W := by have := abs_sub h a; linarith
  have d2 : |z2 - z1| ≤ 2 * W := by have := abs_sub z2 z1; linarith
  have k1 : |dh - (h - a)| ≤ u * (2 * W) := h1.trans (mul_le_mul_of_nonneg_left d1 hu)
  have k2 : |dz - (z2 - z1)| ≤ u * (2 * W) := h2.trans (mul_le_mul_of_nonneg_left d2 hu)
  have k3 : |(dh - dz) - ((z1 - a) - (z2 - h))| ≤ u * (2 * W) + u * (2 * W) := by
    have : (dh - dz) - ((z1 - a) - (z2 - h)) = (dh - (h - a)) - (dz - (z2 - z1)) := by ring
    rw [this]
    exact (abs_sub _ _).trans (add_le_add k1 k2)
  have k4 : |(z1 - a) - (z2 - h)| ≤ 4 * W := by
    have : (z1 - a) - (z2 - h) = (h - a) - (z2 - z1) := by ring
    rw [this]
    have := abs_sub (h - a) (z2 - z1)
    linarith
  have k5 : |dh - dz| ≤ 4 * W + (u * (2 * W) + u * (2 * W)) := by
    have : dh - dz = ((z1 - a) - (z2 - h)) + ((dh - dz) - ((z1 - a) - (z2 - h))) := by ring
    rw [this]
    exact (abs_add_le _ _).trans (add_le_add k4 k3)
  have k6 : |den - (dh - dz)| ≤ u * (4 * W + (u * (2 * W) + u * (2 * W))) := h3.trans (mul_le_mul_of_nonneg_left k5 hu)
  have : den - ((z1 - a) - (z2 - h)) = (den - (dh - dz)) + ((dh - dz) - ((z1 - a) - (z2 - h))) := by ring
  rw [this]
  refine (abs_add_le _ _).trans ((add_le_add k6 k3).trans ?_)
  have e1 : u * (u * W) ≤ 1 / 10 * (u * W) := mul_le_mul_of_nonneg_right hu1 (mul_nonneg hu hW)
  have e0 : 0 ≤ u * W := mul_nonneg hu hW
  nlinarith

/-- The interpolation coefficient is between 0 and 1, and is close to the ratio of the heights above the ground: `g1` above at one end,
`g2` below at the other. -/
theorem coef_round {u g1 g2 num den ch W : K} (hu : 0 ≤ u) (hu1 : u ≤ 1 / 10) (hW : 0 ≤ W) (hn : Rounds u g1 num)
    (hd : |den - (g1 + g2)| ≤ 9 * u * W) (hc : den ≠ 0 → Rounds u (num / den) ch) (hg1 : 0 ≤ g1) (hg1W : g1 ≤ 2 * W)
    (hg2 : 16 * u * W ≤ g2) (hg2' : 0 < g2) :
    0 < den ∧ 0 ≤ ch ∧ ch ≤ 1 ∧ (1 - 2 * u) * g1 ≤ ch * (g1 + g2 + 9 * u * W) ∧
      g2 - 16 * u * W ≤ (1 - ch) * (g1 + g2 + 9 * u * W) := by
  have e0 : 0 ≤ u * W := mul_nonneg hu hW
  obtain ⟨d0, d1⟩ := abs_le.1 hd
  have hden : 0 < den := by nlinarith
  have hc := hc hden.ne'
  have hn0 := hn.nonneg_of (by linarith) hg1
  have hnd : 0 ≤ num / den := div_nonneg hn0 hden.le
  have hc0 := hc.nonneg_of (by linarith) hnd
  obtain ⟨n0, n1⟩ := abs_le.1 hn
  rw [abs_of_nonneg hg1] at n0 n1
  obtain ⟨c0, c1⟩ := abs_le.1 hc
  rw [abs_of_nonneg hnd] at c0 c1
  -- `ch * den` is close to `num`
  have m : num / den * den = num := div_mul_cancel₀ _ hden.ne'
  have m0 : (1 - u) * num ≤ ch * den := by nlinarith
  have m1 : ch * den ≤ (1 + u) * num := by nlinarith
  have t0 : (1 - 2 * u) * g1 ≤ ch * den := by nlinarith [mul_nonneg hu hg1, mul_nonneg hu (mul_nonneg hu hg1)]
  have t1 : ch * den ≤ g1 + 3 * u * g1 := by
    have : u * (u * g1) ≤ 1 / 10 * (u * g1) := mul_le_mul_of_nonneg_right hu1 (mul_nonneg hu hg1)
    nlinarith [mul_nonneg hu hg1]
  have t2 : g2 - 16 * u * W ≤ (1 - ch) * den := by nlinarith
  have hc1 : ch ≤ 1 := by
    by_contra hcon
    have : (1 - ch) * den < 0 := mul_neg_of_neg_of_pos (by linarith [not_le.1 hcon]) hden
    linarith
  refine ⟨hden, hc0, hc1, t0.trans (mul_le_mul_of_nonneg_left (by linarith) hc0),
    t2.trans (mul_le_mul_of_nonneg_left (by linarith) (by linarith))⟩

/-! ### One turn -/

/-- Distance between two points that bounds the change of height above a ground whose slope is at most `S`. -/
def tiltDist (S : K) (p q : V3 K) : K := |q.z - p.z| + S * (|q.x - p.x| + |q.y - p.y|)

/-- Distances to the ends of a bracket of a point close to it. -/
theorem tiltDist_split {S ex ez c : K} (hS : 0 ≤ S) (hc0 : 0 ≤ c) (hc1 : c ≤ 1) (p1 p2 q : V3 K)
    (hx : |q.x - (p1.x + c * (p2.x - p1.x))| ≤ ex) (hy : |q.y - (p1.y + c * (p2.y - p1.y))| ≤ ex)
    (hz : |q.z - (p1.z + c * (p2.z - p1.z))| ≤ ez) :
    tiltDist S p1 q ≤ c * tiltDist S p1 p2 + (ez + 2 * S * ex) ∧
      tiltDist S q p2 ≤ (1 - c) * tiltDist S p1 p2 + (ez + 2 * S * ex) := by
  have key : ∀ a b v e : K, |v - (a + c * (b - a))| ≤ e → |v - a| ≤ c * |b - a| + e ∧ |b - v| ≤ (1 - c) * |b - a| + e := by
    intro a b v e h
    constructor
    · have : v - a = c * (b - a) + (v - (a + c * (b - a))) := by ring
      rw [this]
      refine (abs_add_le _ _).trans (add_le_add ?_ h)
      rw [abs_mul, abs_of_nonneg hc0]
    · have : b - v = (1 - c) * (b - a) - (v - (a + c * (b - a))) := by ring
      rw [this]
      refine (abs_sub _ _).trans (add_le_add ?_ h)
      rw [abs_mul, abs_of_nonneg (by linarith)]
  obtain ⟨x1, x2⟩ := key _ _ _ _ hx
  obtain ⟨y1, y2⟩ := key _ _ _ _ hy
  obtain ⟨z1, z2⟩ := key _ _ _ _ hz
  unfold tiltDist
  constructor
  · have a := mul_le_mul_of_nonneg_left x1 hS
    have b := mul_le_mul_of_nonneg_left y1 hS
    linarith
  · have a := mul_le_mul_of_nonneg_left x2 hS
    have b := mul_le_mul_of_nonneg_left y2 hS
    linarith

theorem between_round {p q v c e lo hi : K} (hc0 : 0 ≤ c) (hc1 : c ≤ 1) (h : |v - (p + c * (q - p))| ≤ e) (hp0 : lo + e ≤ p)
    (hp1 : p ≤ hi - e) (hq0 : lo + e ≤ q) (hq1 : q ≤ hi - e) : lo ≤ v ∧ v ≤ hi := by
  obtain ⟨a, b⟩ := abs_le.1 h
  constructor <;> nlinarith

/-- The part of the bracket left behind, from the heights above the ground at an end (`g`), at the other (`g'`) and at the new point (`gq`):
`w` bounds the rounding errors of heights and `e` those of positions. -/
theorem turn_progress {c D g g' gq k η w w' e tol : K} (hc0 : 0 ≤ c) (hc1 : c ≤ 1) (hlo : k * g - w' ≤ c * (g + g' + w))
    (hE : g + g' ≤ D + η) (hd : gq - g ≤ c * D + e + η) (hgq : tol ≤ 11 / 10 * gq) (hk : 8 / 10 ≤ k) (hw : 0 ≤ w) (hη : 0 ≤ η)
    (htol : 0 < tol) (he : e ≤ tol / 20) (hηw : η + w + w' ≤ tol / 10) (hw' : 0 ≤ w') : tol / 4 ≤ c * D := by
  by_cases hbig : 9 / 20 * tol ≤ g
  · have e1 : c * (g + g' + w) ≤ c * (D + η + w) := mul_le_mul_of_nonneg_left (by linarith) hc0
    have e2 : c * (η + w) ≤ 1 * (η + w) := mul_le_mul_of_nonneg_right hc1 (by linarith)
    have e3 : (8 / 10) * (9 / 20 * tol) ≤ k * g := mul_le_mul hk hbig (by linarith) (by linarith)
    linarith
  · have := not_le.1 hbig
    linarith

theorem Rounds.neg_of {u x v : K} (hu1 : u < 1) (h : Rounds u x v) (hx : x < 0) : v < 0 := by
  have := (abs_le.1 h).2
  rw [abs_of_neg hx] at this
  nlinarith

/-- The region of a bracket: `m` margins inside the DTM enlarged by half a pixel, and altitudes `m` margins inside `[-W, W]`. -/
structure FalsiBox (nbRows nbCols : ℕ) (W ex ez : K) (m : ℕ) (p : V3 K) : Prop where
  x0 : -(1 / 2) + m * ex ≤ p.x
  x1 : p.x ≤ nbRows - 1 / 2 - m * ex
  y0 : -(1 / 2) + m * ex ≤ p.y
  y1 : p.y ≤ nbCols - 1 / 2 - m * ex
  z0 : -W + m * ez ≤ p.z
  z1 : p.z ≤ W - m * ez

theorem FalsiBox.less {nr nc : ℕ} {W ex ez : K} (hex : 0 ≤ ex) (hez : 0 ≤ ez) {m k : ℕ} (hk : k ≤ m) {p : V3 K}
    (h : FalsiBox nr nc W ex ez m p) : FalsiBox nr nc W ex ez k p := by
  have hk' : (k : K) ≤ m := by exact_mod_cast hk
  have a := mul_le_mul_of_nonneg_right hk' hex
  have b := mul_le_mul_of_nonneg_right hk' hez
  obtain ⟨h1, h2, h3, h4, h5, h6⟩ := h
  exact ⟨by linarith, by linarith, by linarith, by linarith, by linarith, by linarith⟩

/-- What is used of the interpolated ground, at most half a pixel away from the DTM: a slope of at most `S` up to `η`, and altitudes of
at most `W`. -/
structure FalsiGround (G : GroundA K) (S η W : K) : Prop where
  slope : ∀ x y x' y', Within G.nbRows (1 / 2) x → Within G.nbCols (1 / 2) y → Within G.nbRows (1 / 2) x' → Within G.nbCols (1 / 2) y' →
    |G.interp x' y' - G.interp x y| ≤ S * (|x' - x| + |y' - y|) + η
  bound : ∀ x y, Within G.nbRows (1 / 2) x → Within G.nbCols (1 / 2) y → |G.interp x y| ≤ W

/-- The regula falsi ends after at most `m` turns, when `m` is larger than five times the size of the bracket in units of the tolerance. -/
theorem falsiA_ends {A : Arith K} {u : K} (hA : A.RoundsBy u) (hu : 0 ≤ u) (hu1 : u ≤ 1 / 10) (G : GroundA K) {S η W ex ez : K}
    (hS : 0 ≤ S) (hη : 0 ≤ η) (hG : FalsiGround G S η W) (hr : 1 ≤ G.nbRows) (hc : 1 ≤ G.nbCols) (hexr : 8 * u * G.nbRows ≤ ex)
    (hexc : 8 * u * G.nbCols ≤ ex) (hez : 8 * u * W ≤ ez) (hW : 0 ≤ W) (htol : 0 < G.tol) (herr : ez + 2 * S * ex ≤ G.tol / 20)
    (hηt : η + 25 * u * W ≤ G.tol / 10) :
    ∀ (m : ℕ) (p1 p2 : V3 K), FalsiBox G.nbRows G.nbCols W ex ez m p1 → FalsiBox G.nbRows G.nbCols W ex ez m p2 →
      G.interp p1.x p1.y ≤ p1.z → p2.z + 16 * u * W ≤ G.interp p2.x p2.y → p2.z < G.interp p2.x p2.y →
      tiltDist S p1 p2 < m * (G.tol / 5) →
      ∃ q, falsiA A G m p1 (G.interp p1.x p1.y) p2 (G.interp p2.x p2.y) = .found q ∧ FalsiBox G.nbRows G.nbCols W ex ez 0 q := by
  have hr' : (1 : K) ≤ G.nbRows := by exact_mod_cast hr
  have hc' : (1 : K) ≤ G.nbCols := by exact_mod_cast hc
  have hex0 : 0 ≤ ex := le_trans (by positivity) hexr
  have hez0 : 0 ≤ ez := le_trans (by positivity) hez
  have huW : 0 ≤ u * W := mul_nonneg hu hW
  intro m
  induction m with
  | zero =>
    intro p1 p2 _ _ _ _ _ hD
    exfalso
    have : 0 ≤ tiltDist S p1 p2 := by unfold tiltDist; positivity
    simp at hD
    linarith
  | succ m ih =>
    intro p1 p2 hb1 hb2 hg1 hg2 hg2' hD
    have in0 : ∀ {k : ℕ} {p : V3 K}, FalsiBox G.nbRows G.nbCols W ex ez k p → Within G.nbRows (1 / 2) p.x ∧ Within G.nbCols (1 / 2) p.y ∧
        |p.x| ≤ G.nbRows ∧ |p.y| ≤ G.nbCols ∧ |p.z| ≤ W := by
      intro k p h
      obtain ⟨h1, h2, h3, h4, h5, h6⟩ := h.less hex0 hez0 (Nat.zero_le k)
      simp only [Nat.cast_zero, zero_mul, add_zero, sub_zero] at h1 h2 h3 h4 h5 h6
      exact ⟨⟨h1, by linarith⟩, ⟨h3, by linarith⟩, abs_le.2 ⟨by linarith, by linarith⟩, abs_le.2 ⟨by linarith, by linarith⟩,
        abs_le.2 ⟨h5, h6⟩⟩
    obtain ⟨wx1, wy1, bx1, bY1, bz1⟩ := in0 hb1
    obtain ⟨wx2, wy2, bx2, bY2, bz2⟩ := in0 hb2
    have ba := hG.bound _ _ wx1 wy1
    have bh := hG.bound _ _ wx2 wy2
    have hsl := hG.slope _ _ _ _ wx1 wy1 wx2 wy2
    generalize ea : G.interp p1.x p1.y = a at *
    generalize eh : G.interp p2.x p2.y = h at *
    have hd := den_round hu hu1 (hA.sub h a) (hA.sub p2.z p1.z) (hA.sub _ _) ba bh bz1 bz2
    have hE : (p1.z - a) - (p2.z - h) = (p1.z - a) + (h - p2.z) := by ring
    rw [hE] at hd
    obtain ⟨hden, hc0, hc1, hlo, hhi⟩ := coef_round hu hu1 hW (hA.sub p1.z a) hd (hA.div _ _) (by linarith)
      (by have := abs_le.1 ba; have := abs_le.1 bz1; linarith) (by linarith) (by linarith)
    simp only [falsiA]
    rw [if_neg hden.ne']
    generalize A.div (A.sub p1.z a) (A.sub (A.sub h a) (A.sub p2.z p1.z)) = ch at *
    have rx := lerp_round hu hu1 (hA.sub p2.x p1.x) (hA.mul ch _) (hA.add p1.x _) bx1 bx2 hc0 hc1
    have ry := lerp_round hu hu1 (hA.sub p2.y p1.y) (hA.mul ch _) (hA.add p1.y _) bY1 bY2 hc0 hc1
    have rz := lerp_round hu hu1 (hA.sub p2.z p1.z) (hA.mul ch _) (hA.add p1.z _) bz1 bz2 hc0 hc1
    obtain ⟨q, hq⟩ : ∃ q : V3 K, q = ⟨A.add p1.x (A.mul ch (A.sub p2.x p1.x)), A.add p1.y (A.mul ch (A.sub p2.y p1.y)),
      A.add p1.z (A.mul ch (A.sub p2.z p1.z))⟩ := ⟨_, rfl⟩
    have qx : q.x = A.add p1.x (A.mul ch (A.sub p2.x p1.x)) := by rw [hq]
    have qy : q.y = A.add p1.y (A.mul ch (A.sub p2.y p1.y)) := by rw [hq]
    have qz : q.z = A.add p1.z (A.mul ch (A.sub p2.z p1.z)) := by rw [hq]
    rw [← qx] at rx
    rw [← qy] at ry
    rw [← qz] at rz
    rw [← hq, ← qx, ← qy, ← qz]
    have rx := rx.trans hexr
    have ry := ry.trans hexc
    have rz := rz.trans hez
    have hbq : FalsiBox G.nbRows G.nbCols W ex ez m q := by
      obtain ⟨a1, a2, a3, a4, a5, a6⟩ := hb1
      obtain ⟨c1, c2, c3, c4, c5, c6⟩ := hb2
      push_cast at a1 a2 a3 a4 a5 a6 c1 c2 c3 c4 c5 c6
      have kx := between_round (lo := -(1 / 2) + m * ex) (hi := G.nbRows - 1 / 2 - m * ex) hc0 hc1 rx (by linarith) (by linarith)
        (by linarith) (by linarith)
      have ky := between_round (lo := -(1 / 2) + m * ex) (hi := G.nbCols - 1 / 2 - m * ex) hc0 hc1 ry (by linarith) (by linarith)
        (by linarith) (by linarith)
      have kz := between_round (lo := -W + m * ez) (hi := W - m * ez) hc0 hc1 rz (by linarith) (by linarith)
        (by linarith) (by linarith)
      exact ⟨kx.1, kx.2, ky.1, ky.2, kz.1, kz.2⟩
    obtain ⟨wxq, wyq, -, -, bzq⟩ := in0 hbq
    obtain ⟨sp1, sp2⟩ := tiltDist_split hS hc0 hc1 p1 p2 q rx ry rz
    have s1 := hG.slope _ _ _ _ wx1 wy1 wxq wyq
    have s2 := hG.slope _ _ _ _ wxq wyq wx2 wy2
    rw [ea] at s1
    rw [eh] at s2
    have hsub := hA.sub (G.interp q.x q.y) q.z
    generalize ezv : G.interp q.x q.y = zv at *
    generalize A.sub zv q.z = d2 at *
    -- heights against distances
    have hE2 : (p1.z - a) + (h - p2.z) ≤ tiltDist S p1 p2 + η := by
      unfold tiltDist
      have := (abs_le.1 hsl).2
      have := neg_abs_le (p2.z - p1.z)
      linarith
    have t1 : |(q.z - zv) - (p1.z - a)| ≤ tiltDist S p1 q + η := by
      unfold tiltDist
      have : (q.z - zv) - (p1.z - a) = (q.z - p1.z) - (zv - a) := by ring
      rw [this]
      have := abs_sub (q.z - p1.z) (zv - a)
      linarith
    have t2 : |(q.z - zv) - (p2.z - h)| ≤ tiltDist S q p2 + η := by
      unfold tiltDist
      have : (q.z - zv) - (p2.z - h) = (h - zv) - (p2.z - q.z) := by ring
      rw [this]
      have := abs_sub (h - zv) (p2.z - q.z)
      linarith
    generalize tiltDist S p1 p2 = D at *
    have hD' : D < m * (G.tol / 5) + G.tol / 5 := by push_cast at hD; linarith
    by_cases hstop : |d2| > G.tol
    swap
    · rw [if_neg hstop]
      exact ⟨q, rfl, hbq.less hex0 hez0 (Nat.zero_le m)⟩
    rw [if_pos hstop]
    have hsz : G.tol ≤ 11 / 10 * |zv - q.z| := by
      have : |d2| ≤ |zv - q.z| + u * |zv - q.z| := by
        have e : d2 = (zv - q.z) + (d2 - (zv - q.z)) := by ring
        rw [e]
        exact (abs_add_le _ _).trans (add_le_add le_rfl hsub)
      have := mul_le_mul_of_nonneg_right hu1 (abs_nonneg (zv - q.z))
      linarith
    by_cases hneg : d2 < 0
    · rw [if_pos hneg]
      have hpos : zv - q.z < 0 := by
        by_contra hcon
        exact absurd (hsub.nonneg_of (by linarith) (not_lt.1 hcon)) (not_le.2 hneg)
      rw [abs_of_neg hpos] at hsz
      have hch : G.tol / 4 ≤ ch * D :=
        turn_progress (w' := 0) (gq := q.z - zv) (g := p1.z - a) (g' := h - p2.z) (k := 1 - 2 * u) (w := 9 * u * W) (e := ez + 2 * S * ex)
          hc0 hc1 (by linarith) hE2 (by linarith [(abs_le.1 t1).2]) (by linarith) (by linarith) (by linarith) hη htol herr (by linarith) le_rfl
      have := ih q p2 hbq (hb2.less hex0 hez0 (Nat.le_succ m)) (by rw [ezv]; linarith) (by rw [eh]; exact hg2) (by rw [eh]; exact hg2')
        (by linarith)
      rw [ezv, eh] at this
      exact this
    · rw [if_neg hneg]
      have hpos : 0 ≤ zv - q.z := by
        by_contra hcon
        exact hneg (hsub.neg_of (by linarith) (not_le.1 hcon))
      rw [abs_of_nonneg hpos] at hsz
      have hch : G.tol / 4 ≤ (1 - ch) * D :=
        turn_progress (w' := 16 * u * W) (gq := zv - q.z) (g := h - p2.z) (g' := p1.z - a) (k := 1) (w := 9 * u * W)
          (e := ez + 2 * S * ex) (by linarith) (by linarith) (by linarith) (by linarith) (by linarith [(abs_le.1 t2).1]) (by linarith)
          (by norm_num) (by linarith) hη htol herr (by linarith) (by linarith)
      have := ih p1 q (hb1.less hex0 hez0 (Nat.le_succ m)) hbq (by rw [ea]; exact hg1) (by rw [ezv]; linarith) (by rw [ezv]; linarith)
        (by linarith)
      rw [ea, ezv] at this
      exact this

/-- With more turns allowed the result is the same. -/
theorem falsiA_more_fuel (A : Arith K) (G : GroundA K) (q : V3 K) : ∀ (m : ℕ) (p1 p2 : V3 K) (a h : K) (n : ℕ),
    falsiA A G m p1 a p2 h = .found q → m ≤ n → falsiA A G n p1 a p2 h = .found q := by
  intro m
  induction m with
  | zero => intro p1 p2 a h n hf; simp [falsiA] at hf
  | succ m ih =>
    intro p1 p2 a h n hf hn
    obtain ⟨n, rfl⟩ : ∃ n', n = n' + 1 := ⟨n - 1, by omega⟩
    simp only [falsiA] at hf ⊢
    split_ifs at hf ⊢
    · exact ih _ _ _ _ n hf (by omega)
    · exact ih _ _ _ _ n hf (by omega)
    · exact hf

/-! ### The interpolated DTM -/

/-- The interpolation in floating point has the slopes and the altitudes of the DTM, up to the roundings. -/
theorem falsiGround_float {u : K} (hu : 0 ≤ u) (G : GroundA K) (mat : ℤ → ℤ → K) (hr : 2 ≤ G.nbRows) (hc : 2 ≤ G.nbCols)
    (hG : ∀ x y, FloatBilin u mat G.nbRows G.nbCols x y (G.interp x y)) {H S : K}
    (hH : ∀ a b, IsNode G.nbRows G.nbCols a b → |mat a b| ≤ H)
    (hS : ∀ i j i' j', IsNode G.nbRows G.nbCols i j → IsNode G.nbRows G.nbCols i' j' → |i' - i| + |j' - j| = 1 →
      |mat i' j' - mat i j| ≤ S) :
    FalsiGround G (2 * S) (32 * ((1 + u) ^ 12 - 1) * H) (4 * H + 16 * ((1 + u) ^ 12 - 1) * H) := by
  have err : ∀ x y, Within G.nbRows (1 / 2) x → Within G.nbCols (1 / 2) y →
      |G.interp x y - interpolBilin mat G.nbRows G.nbCols x y| ≤ 16 * ((1 + u) ^ 12 - 1) * H :=
    fun x y hx hy => bilin_error_within hu G.nbRows G.nbCols hr hc mat x y _ H hx hy hH (hG x y)
  constructor
  · intro x y x' y' hx hy hx' hy'
    have e1 := err x y hx hy
    have e2 := err x' y' hx' hy'
    have e3 := interpolBilin_lipschitz G.nbRows G.nbCols hr hc mat S hS x y x' y' hx hy'
    have : G.interp x' y' - G.interp x y = (G.interp x' y' - interpolBilin mat G.nbRows G.nbCols x' y') +
      ((interpolBilin mat G.nbRows G.nbCols x' y' - interpolBilin mat G.nbRows G.nbCols x y) -
        (G.interp x y - interpolBilin mat G.nbRows G.nbCols x y)) := by ring
    rw [this]
    have k1 := abs_add_le (G.interp x' y' - interpolBilin mat G.nbRows G.nbCols x' y')
      ((interpolBilin mat G.nbRows G.nbCols x' y' - interpolBilin mat G.nbRows G.nbCols x y) -
        (G.interp x y - interpolBilin mat G.nbRows G.nbCols x y))
    have k2 := abs_sub (interpolBilin mat G.nbRows G.nbCols x' y' - interpolBilin mat G.nbRows G.nbCols x y)
      (G.interp x y - interpolBilin mat G.nbRows G.nbCols x y)
    linarith
  · intro x y hx hy
    have e1 := err x y hx hy
    have e2 : |interpolBilin mat G.nbRows G.nbCols x y| ≤ 4 * H := by
      rw [interpolBilin_eq_lerp2 G.nbRows G.nbCols hr hc]
      have inner : ∀ i, i < G.nbRows → |lerp G.nbCols (fun j => mat i j) y| ≤ (1 + 2 * (1 / 2)) * H := by
        intro i hi
        refine lerp_bounded G.nbCols hc _ H ?_ (1 / 2) y (by norm_num) hy
        intro j hj
        exact hH _ _ ⟨by omega, by omega, by omega, by omega⟩
      have := lerp_bounded G.nbRows hr (fun i => lerp G.nbCols (fun j => mat i j) y) _ inner (1 / 2) x (by norm_num) hx
      refine le_trans (le_of_eq ?_) (this.trans (le_of_eq (by ring)))
      rfl
    have : G.interp x y = interpolBilin mat G.nbRows G.nbCols x y + (G.interp x y - interpolBilin mat G.nbRows G.nbCols x y) := by ring
    rw [this]
    exact (abs_add_le _ _).trans (add_le_add e2 e1)

/-! ### The theorems -/

/-- C105. In any precision `u`, on any DTM with altitudes of at most `H` and steps of at most `S` between neighbouring nodes, the regula
falsi from a bracket `p1`, `p2` ends, with a point at most half a pixel away from the DTM, after at most `m` turns, where `m` only has
to exceed five times the size of the bracket divided by the tolerance, and be small enough for the drifts `m * ex` (position) and
`m * ez` (altitude) of the roundings to remain within the margins (`FalsiBox`).  The first end is not below the ground computed there, and
the second end is below it by more than the roundings, `16 * u * W`. -/
theorem C105_falsi_ends {A : Arith K} {u : K} (hA : A.RoundsBy u) (hu : 0 ≤ u) (hu1 : u ≤ 1 / 10) (G : GroundA K) (mat : ℤ → ℤ → K)
    (hr : 2 ≤ G.nbRows) (hc : 2 ≤ G.nbCols) (hG : ∀ x y, FloatBilin u mat G.nbRows G.nbCols x y (G.interp x y)) {H S W ex ez : K}
    (hH : ∀ a b, IsNode G.nbRows G.nbCols a b → |mat a b| ≤ H)
    (hS : ∀ i j i' j', IsNode G.nbRows G.nbCols i j → IsNode G.nbRows G.nbCols i' j' → |i' - i| + |j' - j| = 1 →
      |mat i' j' - mat i j| ≤ S)
    (hW : 4 * H + 16 * ((1 + u) ^ 12 - 1) * H ≤ W) (hexr : 8 * u * G.nbRows ≤ ex) (hexc : 8 * u * G.nbCols ≤ ex) (hez : 8 * u * W ≤ ez)
    (htol : 0 < G.tol) (herr : ez + 4 * S * ex ≤ G.tol / 20) (hηt : 32 * ((1 + u) ^ 12 - 1) * H + 25 * u * W ≤ G.tol / 10)
    (m : ℕ) (p1 p2 : V3 K) (hb1 : FalsiBox G.nbRows G.nbCols W ex ez m p1) (hb2 : FalsiBox G.nbRows G.nbCols W ex ez m p2)
    (hg1 : G.interp p1.x p1.y ≤ p1.z) (hg2 : p2.z + 16 * u * W ≤ G.interp p2.x p2.y) (hg2' : p2.z < G.interp p2.x p2.y)
    (hD : |p2.z - p1.z| + 2 * S * (|p2.x - p1.x| + |p2.y - p1.y|) < m * (G.tol / 5)) :
    ∃ q, (∀ n ≥ m, falsiA A G n p1 (G.interp p1.x p1.y) p2 (G.interp p2.x p2.y) = .found q) ∧
      Within G.nbRows (1 / 2) q.x ∧ Within G.nbCols (1 / 2) q.y ∧ |q.z| ≤ W := by
  have hH0 : 0 ≤ H := le_trans (abs_nonneg _) (hH 0 0 ⟨by omega, by omega, by omega, by omega⟩)
  have hS0 : 0 ≤ S := le_trans (abs_nonneg _) (hS 0 0 1 0 ⟨by omega, by omega, by omega, by omega⟩
    ⟨by omega, by omega, by omega, by omega⟩ (by norm_num))
  have hg : 0 ≤ (1 + u) ^ 12 - 1 := sub_nonneg.mpr (one_le_pow_u hu 12)
  have hgH : 0 ≤ ((1 + u) ^ 12 - 1) * H := mul_nonneg hg hH0
  have fg := falsiGround_float hu G mat hr hc hG hH hS
  have fg' : FalsiGround G (2 * S) (32 * ((1 + u) ^ 12 - 1) * H) W := ⟨fg.slope, fun x y hx hy => (fg.bound x y hx hy).trans hW⟩
  obtain ⟨q, hq, hb⟩ := falsiA_ends hA hu hu1 G (by linarith) (by linarith) fg' (by omega) (by omega) hexr hexc hez
    (by linarith) htol (by linarith) hηt m p1 p2 hb1 hb2 hg1 hg2 hg2' hD
  obtain ⟨h1, h2, h3, h4, h5, h6⟩ := hb
  simp only [Nat.cast_zero, zero_mul, add_zero, sub_zero] at h1 h2 h3 h4 h5 h6
  exact ⟨q, fun n hn => falsiA_more_fuel A G q m p1 p2 _ _ n hq hn, ⟨h1, by linarith⟩, ⟨h3, by linarith⟩, abs_le.2 ⟨h5, h6⟩⟩

/-- C105. In double precision, on a DTM of at most 100000 rows and columns, altitudes of at most 10000 metres and steps of at most 1000
metres between neighbours, the regula falsi ends from any bracket at most two pixels long inside the DTM, with altitudes of at most 20000
metres, whose first end is not below the ground computed there and whose second end is at least a nanometre below it: at most
2500000000 turns, and a point at most half a pixel away from the DTM. -/
theorem C105_falsi_ends_double {A : Arith K} (hA : A.RoundsBy doubleUnit) (G : GroundA K) (mat : ℤ → ℤ → K) (hr : 2 ≤ G.nbRows)
    (hc : 2 ≤ G.nbCols) (hr1 : G.nbRows ≤ 100000) (hc1 : G.nbCols ≤ 100000)
    (hG : ∀ x y, FloatBilin doubleUnit mat G.nbRows G.nbCols x y (G.interp x y)) (htol : Rounds doubleUnit (1 / 10000) G.tol)
    (hH : ∀ a b, IsNode G.nbRows G.nbCols a b → |mat a b| ≤ 10000)
    (hS : ∀ i j i' j', IsNode G.nbRows G.nbCols i j → IsNode G.nbRows G.nbCols i' j' → |i' - i| + |j' - j| = 1 →
      |mat i' j' - mat i j| ≤ 1000) (p1 p2 : V3 K)
    (h1 : 0 ≤ p1.x ∧ p1.x ≤ G.nbRows - 1 ∧ 0 ≤ p1.y ∧ p1.y ≤ G.nbCols - 1 ∧ |p1.z| ≤ 20000)
    (h2 : 0 ≤ p2.x ∧ p2.x ≤ G.nbRows - 1 ∧ 0 ≤ p2.y ∧ p2.y ≤ G.nbCols - 1 ∧ |p2.z| ≤ 20000)
    (hx : |p2.x - p1.x| ≤ 2) (hy : |p2.y - p1.y| ≤ 2)
    (hg1 : G.interp p1.x p1.y ≤ p1.z) (hg2 : p2.z + 1 / 10 ^ 9 ≤ G.interp p2.x p2.y) :
    ∃ q, (∀ n ≥ 2500000000, falsiA A G n p1 (G.interp p1.x p1.y) p2 (G.interp p2.x p2.y) = .found q) ∧
      Within G.nbRows (1 / 2) q.x ∧ Within G.nbCols (1 / 2) q.y ∧ |q.z| ≤ 40001 := by
  have e : (doubleUnit : K) = 1 / 9007199254740992 := by unfold doubleUnit; norm_num
  have hu : (0 : K) ≤ doubleUnit := by rw [e]; norm_num
  have g12 : (1 + doubleUnit : K) ^ 12 - 1 ≤ 13 / 9007199254740992 := by
    have := pow_u_le (K := K) hu (by rw [e]; norm_num) 12 (by rw [e]; norm_num)
    rw [e] at this ⊢
    norm_num at this ⊢
  have ht := abs_le.1 htol
  rw [abs_of_pos (by norm_num : (0 : K) < 1 / 10000), e] at ht
  obtain ⟨t0, t1⟩ := ht
  have t0' : 1 / 10000 - 1 / 10 ^ 15 ≤ G.tol := by linarith
  have hr2 : (G.nbRows : K) ≤ 100000 := by exact_mod_cast hr1
  have hc2 : (G.nbCols : K) ≤ 100000 := by exact_mod_cast hc1
  have box : ∀ p : V3 K, 0 ≤ p.x ∧ p.x ≤ G.nbRows - 1 ∧ 0 ≤ p.y ∧ p.y ≤ G.nbCols - 1 ∧ |p.z| ≤ 20000 →
      FalsiBox G.nbRows G.nbCols 40001 (1 / 10 ^ 10 : K) (1 / 10 ^ 10) 2500000000 p := by
    intro p ⟨a1, a2, a3, a4, a5⟩
    obtain ⟨a5, a6⟩ := abs_le.1 a5
    have w : ((2500000000 : ℕ) : K) * (1 / 10 ^ 10) = 1 / 4 := by norm_num
    refine ⟨?_, ?_, ?_, ?_, ?_, ?_⟩ <;> rw [w] <;> linarith
  refine C105_falsi_ends hA hu (by rw [e]; norm_num) G mat hr hc hG (H := 10000) (S := 1000) (W := 40001) (ex := 1 / 10 ^ 10)
    (ez := 1 / 10 ^ 10) hH hS (by linarith) (by rw [e]; linarith) (by rw [e]; linarith) (by rw [e]; norm_num) (by linarith)
    (by linarith) ?_ 2500000000 p1 p2 (box p1 h1) (box p2 h2) hg1 ?_ (by linarith) ?_
  · have : (25 : K) * doubleUnit * 40001 ≤ 1 / 10 ^ 9 := by rw [e]; norm_num
    linarith
  · have : (16 : K) * doubleUnit * 40001 ≤ 1 / 10 ^ 9 := by rw [e]; norm_num
    linarith
  · have a := abs_sub p2.z p1.z
    obtain ⟨-, -, -, -, z1⟩ := h1
    obtain ⟨-, -, -, -, z2⟩ := h2
    push_cast
    linarith

/-! ### The hypotheses are met -/

/-- A bracket of one cell of the slope, in double precision. -/
example : ∃ q, (∀ n ≥ 2500000000, falsiA arith53 slopeGround n ⟨1, 1, 150⟩ (slopeGround.interp 1 1) ⟨2, 2, 100⟩ (slopeGround.interp 2 2) =
    .found q) ∧ Within 5 (1 / 2) q.x ∧ Within 5 (1 / 2) q.y ∧ |q.z| ≤ 40001 := by
  refine C105_falsi_ends_double arith53_rounds slopeGround slopeMat (by decide) (by decide) (by decide) (by decide) slopeGround_float
    (rnd53_rounds _) ?_ ?_ ⟨1, 1, 150⟩ ⟨2, 2, 100⟩ (by decide +kernel) (by decide +kernel) (by decide +kernel) (by decide +kernel)
    (by decide +kernel) (by decide +kernel)
  · intro a b ⟨h1, h2, h3, h4⟩
    change a < 5 at h2
    change b < 5 at h4
    have a1 : (0 : ℚ) ≤ a := by exact_mod_cast h1
    have a2 : (a : ℚ) ≤ 5 := by exact_mod_cast h2.le
    have b1 : (0 : ℚ) ≤ b := by exact_mod_cast h3
    have b2 : (b : ℚ) ≤ 5 := by exact_mod_cast h4.le
    unfold slopeMat
    rw [abs_le]
    constructor <;> linarith
  · intro i j i' j' ⟨h1, h2, h3, h4⟩ ⟨h5, h6, h7, h8⟩ _
    change i < 5 at h2
    change j < 5 at h4
    change i' < 5 at h6
    change j' < 5 at h8
    have a1 : (0 : ℚ) ≤ i := by exact_mod_cast h1
    have a2 : (i : ℚ) ≤ 5 := by exact_mod_cast h2.le
    have b1 : (0 : ℚ) ≤ j := by exact_mod_cast h3
    have b2 : (j : ℚ) ≤ 5 := by exact_mod_cast h4.le
    have c1 : (0 : ℚ) ≤ i' := by exact_mod_cast h5
    have c2 : (i' : ℚ) ≤ 5 := by exact_mod_cast h6.le
    have d1 : (0 : ℚ) ≤ j' := by exact_mod_cast h7
    have d2 : (j' : ℚ) ≤ 5 := by exact_mod_cast h8.le
    unfold slopeMat
    rw [abs_le]
    constructor <;> linarith

/-- The second end has to be below the ground: when both ends are on it, the coefficient is `0 / 0`. -/
example : falsiA arith53 ⟨fun _ _ => 100, fun _ _ => 100, fun _ _ => 100, 5, 5, rnd53 (1 / 10000)⟩ 10 ⟨1, 1, 100⟩ 100 ⟨2, 2, 100⟩ 100 =
    .nonFinite := by decide +kernel

end Shareloc
