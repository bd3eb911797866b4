import Verif.Props.FloatTri

/-!
# C107: rounding of the residues
-/

set_option linter.unusedSectionVars false

namespace Shareloc
variable {K : Type*} [Field K] [LinearOrder K] [IsStrictOrderedRing K]

/-- Squared norm. -/
def V3.nsq (c : V3 K) : K := c.x * c.x + c.y * c.y + c.z * c.z

theorem V3.nsq_nonneg (c : V3 K) : 0 ≤ c.nsq := by
  unfold V3.nsq
  nlinarith [mul_self_nonneg c.x, mul_self_nonneg c.y, mul_self_nonneg c.z]

/-- Triangle inequality. -/
theorem norm_lipschitz (c c' : V3 K) (A B E : K) (hA : 0 ≤ A) (hA2 : A * A = c.nsq) (hB : 0 ≤ B) (hB2 : B * B = c'.nsq) (hE : 0 ≤ E)
    (h : (c.minus c').nsq ≤ E ^ 2) : |A - B| ≤ E := by
  have hcs : c.dot c' ≤ A * B := by
    refine le_of_sq_le_sq (α := K) ?_ (by positivity) |> (le_abs_self _).trans
    rw [sq_abs, mul_pow, sq, sq, hA2, sq, hB2]
    have : c.nsq * c'.nsq - c.dot c' * c.dot c' =
      (c.x * c'.y - c.y * c'.x) ^ 2 + (c.x * c'.z - c.z * c'.x) ^ 2 + (c.y * c'.z - c.z * c'.y) ^ 2 := by
      simp only [V3.nsq, V3.dot]; ring
    nlinarith [sq_nonneg (c.x * c'.y - c.y * c'.x), sq_nonneg (c.x * c'.z - c.z * c'.x), sq_nonneg (c.y * c'.z - c.z * c'.y)]
  refine abs_le_of_sq_le_sq ?_ hE
  refine le_trans ?_ h
  have : (c.minus c').nsq = c.nsq + c'.nsq - 2 * c.dot c' := by
    simp only [V3.nsq, V3.minus, V3.dot]; ring
  rw [this, ← hA2, ← hB2]
  nlinarith

theorem FloatCross.approx {u : K} (hu : 0 ≤ u) {a b c d a' b' c' d' r : K} (ha : Approx u 1 |a| a a') (hb : Approx u 9 |b| b b')
    (hc : Approx u 1 |c| c c') (hd : Approx u 9 |d| d d') (h : FloatCross u a' b' c' d' r) :
    Approx u 12 (|a| * |b| + |c| * |d|) (a * b - c * d) r := by
  obtain ⟨m, n, hm, hn, hr⟩ := h
  exact Approx.sub hu (Approx.mul hu ha hb hm) (Approx.mul hu hc hd hn) hr

/-- Lagrange: magnitude of the cross product with a unit vector. -/
theorem cross_mag (d w : V3 K) (hw : IsUnitVec w) :
    (|d.y| * |w.z| + |d.z| * |w.y|) ^ 2 + (|d.z| * |w.x| + |d.x| * |w.z|) ^ 2 + (|d.x| * |w.y| + |d.y| * |w.x|) ^ 2 ≤ 2 * d.nsq := by
  have hu : w.x ^ 2 + w.y ^ 2 + w.z ^ 2 = 1 := by unfold IsUnitVec at hw; linear_combination hw
  rw [← sq_abs w.x, ← sq_abs w.y, ← sq_abs w.z] at hu
  have hn : d.nsq = |d.x| ^ 2 + |d.y| ^ 2 + |d.z| ^ 2 := by rw [sq_abs, sq_abs, sq_abs, V3.nsq]; ring
  rw [hn]
  generalize |d.x| = x at *
  generalize |d.y| = y at *
  generalize |d.z| = z at *
  generalize |w.x| = p at *
  generalize |w.y| = q at *
  generalize |w.z| = r at *
  have h1 : ∀ y z q r : K, (y * r + z * q) ^ 2 ≤ (y ^ 2 + z ^ 2) * (q ^ 2 + r ^ 2) := fun y z q r => by nlinarith [sq_nonneg (y * q - z * r)]
  have h2 : ∀ y z q r : K, q ^ 2 + r ^ 2 ≤ 1 → (y ^ 2 + z ^ 2) * (q ^ 2 + r ^ 2) ≤ y ^ 2 + z ^ 2 := fun y z q r h => by
    have : 0 ≤ y ^ 2 + z ^ 2 := by positivity
    nlinarith
  have a1 := (h1 y z q r).trans (h2 y z q r (by nlinarith [sq_nonneg p]))
  have a2 := (h1 z x r p).trans (h2 z x r p (by nlinarith [sq_nonneg q]))
  have a3 := (h1 x y p q).trans (h2 x y p q (by nlinarith [sq_nonneg r]))
  linarith

theorem floatView_unit {u : K} (hu : 0 ≤ u) (hu1 : u ≤ 1 / 1000) {a b w v : V3 K} {m : K} (hm : 0 < m) (hm2 : m ^ 2 = sqDist a b)
    (hline : a = linePoint b w m) (hv : FloatView u a b v) (i : Fin 3) : Approx u 9 |w.at i| (w.at i) (v.at i) := by
  have hmk := hm.ne'
  have hwat : w.at i = (a.at i - b.at i) / m := by
    have h2 : (a.minus b).at i = m * w.at i := by rw [minus_scaled hline]; fin_cases i <;> rfl
    have h3 : (a.minus b).at i = a.at i - b.at i := by fin_cases i <;> rfl
    rw [← h3, h2]
    field_simp
  rw [hwat]
  exact FloatView.approx hu hu1 hm (by rw [← sq]; exact hm2) hv i

theorem floatView_exact {u : K} (hu : 0 ≤ u) {a b w : V3 K} {m : K} (hm : 0 < m) (hm2 : m ^ 2 = sqDist a b) (hline : a = linePoint b w m) :
    FloatView u a b w := by
  have hmk := hm.ne'
  refine ⟨fun i => a.at i - b.at i, fun i => (a.at i - b.at i) * (a.at i - b.at i), sqDist a b, m,
    fun i => Rounds.refl hu _, fun i => Rounds.refl hu _, ?_, ⟨m, hm.le, by rw [← sq]; exact hm2, Rounds.refl hu _⟩, hm.ne', fun i => ?_⟩
  · have := FloatSum.of_sum hu (fun i => (a.at i - b.at i) * (a.at i - b.at i)) (Finset.univ : Finset (Fin 3))
    have e : ∑ i, (a.at i - b.at i) * (a.at i - b.at i) = sqDist a b := by
      simp only [Fin.sum_univ_three, V3.at, sqDist]
      ring
    rwa [e] at this
  · have hwat : (a.at i - b.at i) / m = w.at i := by
      have h2 : (a.minus b).at i = m * w.at i := by rw [minus_scaled hline]; fin_cases i <;> rfl
      have h3 : (a.minus b).at i = a.at i - b.at i := by fin_cases i <;> rfl
      rw [← h3, h2]
      field_simp
    rw [hwat]
    exact Rounds.refl hu _

theorem floatDistance_bound (sqrt : K → K) (hsqrt : IsSqrt sqrt) {u : K} (hu : 0 ≤ u) (s w v q : V3 K) (hw : IsUnitVec w) (hv : ∀ i, Approx u 9 |w.at i| (w.at i) (v.at i))
    (r D L : K) (hr : FloatDistance u s v q r) (hD : 0 ≤ D) (hD2 : D * D = ((q.minus s).cross w).nsq) (hL : 0 ≤ L) (hL2 : L * L = (q.minus s).nsq)
    (hγ : (1 + u) ^ 12 - 1 ≤ 1 / 3) : |r - D| ≤ 3 * ((1 + u) ^ 12 - 1) * L := by
  obtain ⟨d, c, m, t, hd, hx, hy, hz, hm, ht, hsq⟩ := hr
  set δ := q.minus s with hδ
  have hda : ∀ i, Approx u 1 |δ.at i| (δ.at i) (d.at i) := fun i => by
    have : δ.at i = q.at i - s.at i := by fin_cases i <;> rfl
    rw [this]
    exact (hd i).approx
  have ax := FloatCross.approx hu (hda 1) (hv 2) (hda 2) (hv 1) hx
  have ay := FloatCross.approx hu (hda 2) (hv 0) (hda 0) (hv 2) hy
  have az := FloatCross.approx hu (hda 0) (hv 1) (hda 1) (hv 0) hz
  set γ := (1 + u) ^ 12 - 1 with hγd
  have hγ0 : 0 ≤ γ := sub_nonneg.2 (one_le_pow_u hu 12)
  -- the cross product
  have hcm := cross_mag δ w hw
  have hE : (c.minus (δ.cross w)).nsq ≤ (3 / 2 * γ * L) ^ 2 := by
    have e : ∀ x M : K, |x| ≤ γ * M → x * x ≤ γ ^ 2 * M ^ 2 := fun x M h => by
      have := mul_self_le_mul_self (abs_nonneg x) h
      rw [abs_mul_abs_self] at this
      linarith [this, show γ * M * (γ * M) = γ ^ 2 * M ^ 2 by ring]
    have e1 := e _ _ ax.1
    have e2 := e _ _ ay.1
    have e3 := e _ _ az.1
    have : (c.minus (δ.cross w)).nsq ≤ γ ^ 2 * (2 * δ.nsq) := by
      refine le_trans ?_ (mul_le_mul_of_nonneg_left hcm (sq_nonneg γ))
      simp only [V3.at] at e1 e2 e3
      simp only [V3.nsq, V3.minus, V3.cross]
      linarith
    rw [← hL2] at this
    refine this.trans ?_
    have h0 : 0 ≤ γ ^ 2 * (L * L) := mul_nonneg (sq_nonneg γ) (mul_nonneg hL hL)
    have h9 : (3 / 2 * γ * L) ^ 2 = 9 / 4 * (γ ^ 2 * (L * L)) := by ring
    rw [h9]
    linarith
  -- the norm
  have hsum : Approx u 3 (∑ i, c.at i * c.at i) (∑ i, c.at i * c.at i) t := by
    have := ht.approx hu fun i => (hm i).approx
    simpa [abs_mul_self] using this
  have hcn : ∑ i, c.at i * c.at i = c.nsq := by simp only [Fin.sum_univ_three, V3.at, V3.nsq]
  rw [hcn] at hsum
  have hDL : D ≤ L := by
    refine le_of_sq_le_sq (α := K) ?_ hL
    rw [sq, sq, hD2, hL2]
    have hu' : w.x ^ 2 + w.y ^ 2 + w.z ^ 2 = 1 := by unfold IsUnitVec at hw; linear_combination hw
    have : (δ.cross w).nsq = δ.nsq - δ.dot w ^ 2 := by
      simp only [V3.nsq, V3.cross, V3.dot]
      linear_combination (δ.x ^ 2 + δ.y ^ 2 + δ.z ^ 2) * hu'
    rw [this]
    nlinarith [sq_nonneg (δ.dot w)]
  obtain ⟨hN0, hN2⟩ := hsqrt c.nsq c.nsq_nonneg
  set N := sqrt c.nsq
  have hE0 : 0 ≤ 3 / 2 * γ * L := by positivity
  have h1 := norm_lipschitz c (δ.cross w) N D _ hN0 hN2 hD hD2 hE0 hE
  have h2 := ((hsq.approx hu hN0 hN2 hsum).mono hu (show 3 + 1 ≤ 12 by norm_num) le_rfl).1
  have h3 : N ≤ D + 3 / 2 * γ * L := by linarith [(abs_le.1 h1).2]
  have h4 : γ * N ≤ γ * (L + 1 / 2 * L) := by
    refine mul_le_mul_of_nonneg_left ?_ hγ0
    have : 3 / 2 * γ * L ≤ 1 / 2 * L := mul_le_mul_of_nonneg_right (by linarith) hL
    linarith
  have h5 : |r - D| ≤ |r - N| + |N - D| := by
    have := abs_add_le (r - N) (N - D)
    rwa [sub_add_sub_cancel] at this
  linarith

/-- C107. The residue of a view, every operation rounded, is the distance from the point to the line of sight up to a few roundings of the distance `L` from the
point to the start of the line. -/
theorem C107_residue (sqrt : K → K) (hs : IsSqrt sqrt) {u : K} (hu : 0 ≤ u) (hu1 : u ≤ 1 / 1000) (a b q : V3 K) (hab : a ≠ b) (r D : K)
    (hr : FloatResidue u a b q r) (hD : nViewDistance sqrt a.toRow (viewingVector sqrt a.toRow b.toRow) q.toRow = some D) (L : K) (hL : 0 ≤ L)
    (hL2 : sqDist q a ≤ L ^ 2) : |r - D| ≤ 3 * ((1 + u) ^ 12 - 1) * L := by
  obtain ⟨v, hv, hr⟩ := hr
  obtain ⟨w, m, hw, hunit, hm, hm2, hline, -⟩ := line_of_sight sqrt hs a b hab
  have hva := floatView_unit hu hu1 hm hm2 hline hv
  rw [hw] at hD
  have hD' : sqrt ((q.minus a).cross w).nsq = D := Option.some.inj hD
  obtain ⟨d0, d2⟩ := hs _ ((q.minus a).cross w).nsq_nonneg
  rw [hD'] at d0 d2
  obtain ⟨l0, l2⟩ := hs _ (q.minus a).nsq_nonneg
  have hn : (q.minus a).nsq = sqDist q a := by simp only [V3.nsq, V3.minus, sqDist]; ring
  have hγ : (1 + u) ^ 12 - 1 ≤ 1 / 3 := by
    have h1 : (1 + u) ^ 12 ≤ (1 + 1 / 1000) ^ 12 := pow_le_pow_left₀ (by linarith) (by linarith) 12
    have h2 : ((1 : K) + 1 / 1000) ^ 12 ≤ 4 / 3 := by norm_num
    linarith
  have hγ0 : 0 ≤ (1 + u) ^ 12 - 1 := sub_nonneg.2 (one_le_pow_u hu 12)
  have hb := floatDistance_bound sqrt hs hu a w v q hunit hva r D _ hr d0 d2 l0 l2 hγ
  refine hb.trans (mul_le_mul_of_nonneg_left ?_ (by positivity))
  refine le_of_sq_le_sq (α := K) ?_ hL
  rw [sq, l2, hn]
  exact hL2

/-- Moving the point moves its distance to a line by at most as much. -/
theorem distance_lipschitz (sqrt : K → K) (hs : IsSqrt sqrt) (a b q p : V3 K) (hab : a ≠ b) (D D' E : K)
    (hD : nViewDistance sqrt a.toRow (viewingVector sqrt a.toRow b.toRow) q.toRow = some D)
    (hD' : nViewDistance sqrt a.toRow (viewingVector sqrt a.toRow b.toRow) p.toRow = some D') (hE : 0 ≤ E) (h : sqDist q p ≤ E ^ 2) : |D - D'| ≤ E := by
  obtain ⟨w, m, hw, hunit, -⟩ := line_of_sight sqrt hs a b hab
  rw [hw] at hD hD'
  have e1 : sqrt ((q.minus a).cross w).nsq = D := Option.some.inj hD
  have e2 : sqrt ((p.minus a).cross w).nsq = D' := Option.some.inj hD'
  obtain ⟨d0, d2⟩ := hs _ ((q.minus a).cross w).nsq_nonneg
  obtain ⟨f0, f2⟩ := hs _ ((p.minus a).cross w).nsq_nonneg
  rw [e1] at d0 d2
  rw [e2] at f0 f2
  refine norm_lipschitz _ _ D D' E d0 d2 f0 f2 hE (le_trans ?_ h)
  have hu' : w.x ^ 2 + w.y ^ 2 + w.z ^ 2 = 1 := by unfold IsUnitVec at hunit; linear_combination hunit
  have : (((q.minus a).cross w).minus ((p.minus a).cross w)).nsq = sqDist q p - ((q.minus p).dot w) ^ 2 := by
    simp only [V3.nsq, V3.minus, V3.cross, V3.dot, sqDist]
    linear_combination ((q.x - p.x) ^ 2 + (q.y - p.y) ^ 2 + (q.z - p.z) ^ 2) * hu'
  rw [this]
  nlinarith [sq_nonneg ((q.minus p).dot w)]

/-- C107. In double precision, under the hypotheses of `C107_double` and for a point at most 1000 km from the start of the line (the highest point of the line of
sight): the residue returned, which is computed at the rounded point, is the exact one to within 1 cm. -/
theorem C107_residue_double (sqrt : ℝ → ℝ) (hs : IsSqrt sqrt) (η : ℝ) (hη : η ≤ 1 / 10 ^ 13) (a b : Fin 2 → V3 ℝ) (hab : ∀ k, a k ≠ b k) (c : ℝ)
    (hc : c ^ 2 * (sqDist (a 0) (b 0) * sqDist (a 1) (b 1)) = ((a 0).minus (b 0)).dot ((a 1).minus (b 1)) ^ 2) (hl : |c| ≤ 99 / 100)
    (hS : ∀ k, |(a k).x| ≤ 7000000 ∧ |(a k).y| ≤ 7000000 ∧ |(a k).z| ≤ 7000000) (q p : V3 ℝ) (hq : FloatTriangulation (1 / 2 ^ 53) η a b q)
    (hp : nViewPoint [((a 0).toRow, viewingVector sqrt (a 0).toRow (b 0).toRow), ((a 1).toRow, viewingVector sqrt (a 1).toRow (b 1).toRow)] = .ok p)
    (hP : |p.x| ≤ 7000000 ∧ |p.y| ≤ 7000000 ∧ |p.z| ≤ 7000000) (k : Fin 2) (hfar : sqDist q (a k) ≤ 1000000 ^ 2) (r D : ℝ)
    (hr : FloatResidue (1 / 2 ^ 53) (a k) (b k) q r)
    (hD : nViewDistance sqrt (a k).toRow (viewingVector sqrt (a k).toRow (b k).toRow) p.toRow = some D) : |r - D| ≤ 1 / 100 := by
  obtain ⟨p', hp', h⟩ := C107_double sqrt hs η hη a b hab c hc hl hS q hq
  obtain rfl : p' = p := Except.ok.inj (hp'.symm.trans hp)
  obtain ⟨e1, e2, e3⟩ := h hP.1 hP.2.1 hP.2.2
  have hsq : sqDist q p' ≤ (9 / 1000) ^ 2 := by
    have k1 : (q.x - p'.x) ^ 2 ≤ (5 / 1000) ^ 2 := by rw [← sq_abs]; exact pow_le_pow_left₀ (abs_nonneg _) e1 2
    have k2 : (q.y - p'.y) ^ 2 ≤ (5 / 1000) ^ 2 := by rw [← sq_abs]; exact pow_le_pow_left₀ (abs_nonneg _) e2 2
    have k3 : (q.z - p'.z) ^ 2 ≤ (5 / 1000) ^ 2 := by rw [← sq_abs]; exact pow_le_pow_left₀ (abs_nonneg _) e3 2
    simp only [sqDist]
    norm_num at k1 k2 k3 ⊢
    linarith
  obtain ⟨w, m, hw, -⟩ := line_of_sight sqrt hs (a k) (b k) (hab k)
  have hDq : ∃ Dq, nViewDistance sqrt (a k).toRow (viewingVector sqrt (a k).toRow (b k).toRow) q.toRow = some Dq := by
    rw [hw]; exact ⟨_, rfl⟩
  obtain ⟨Dq, hDq⟩ := hDq
  have h1 := C107_residue sqrt hs (u := 1 / 2 ^ 53) (by norm_num) (by norm_num) (a k) (b k) q (hab k) r Dq hr hDq 1000000 (by norm_num) hfar
  have h2 := distance_lipschitz sqrt hs (a k) (b k) q p' (hab k) Dq D (9 / 1000) hDq hD (by norm_num) hsq
  have h3 : 3 * (((1 : ℝ) + 1 / 2 ^ 53) ^ 12 - 1) * 1000000 ≤ 1 / 1000 := by norm_num
  have h4 : |r - D| ≤ |r - Dq| + |Dq - D| := by
    have := abs_add_le (r - Dq) (Dq - D)
    rwa [sub_add_sub_cancel] at this
  linarith

/-- Exact residues satisfy the relation: the hypotheses of `C107_residue` are met by every line of sight and every point. -/
theorem floatResidue_inhabited (sqrt : K → K) (hs : IsSqrt sqrt) {u : K} (hu : 0 ≤ u) (a b q : V3 K) (hab : a ≠ b) (D : K)
    (hD : nViewDistance sqrt a.toRow (viewingVector sqrt a.toRow b.toRow) q.toRow = some D) : FloatResidue u a b q D := by
  obtain ⟨w, m, hw, hunit, hm, hm2, hline, -⟩ := line_of_sight sqrt hs a b hab
  rw [hw] at hD
  have e1 : sqrt ((q.minus a).cross w).nsq = D := Option.some.inj hD
  obtain ⟨d0, d2⟩ := hs _ ((q.minus a).cross w).nsq_nonneg
  rw [e1] at d0 d2
  refine ⟨w, floatView_exact hu hm hm2 hline, q.minus a, (q.minus a).cross w, fun i => ((q.minus a).cross w).at i * ((q.minus a).cross w).at i,
    ((q.minus a).cross w).nsq, fun i => ?_, ⟨_, _, Rounds.refl hu _, Rounds.refl hu _, Rounds.refl hu _⟩,
    ⟨_, _, Rounds.refl hu _, Rounds.refl hu _, Rounds.refl hu _⟩, ⟨_, _, Rounds.refl hu _, Rounds.refl hu _, Rounds.refl hu _⟩,
    fun i => Rounds.refl hu _, ?_, ⟨D, d0, d2, Rounds.refl hu _⟩⟩
  · have : (q.minus a).at i = q.at i - a.at i := by fin_cases i <;> rfl
    rw [this]
    exact Rounds.refl hu _
  · have := FloatSum.of_sum hu (fun i => ((q.minus a).cross w).at i * ((q.minus a).cross w).at i) (Finset.univ : Finset (Fin 3))
    rwa [Fin.sum_univ_three] at this

/-- The hypotheses of `C107_residue_double` are met by the lines of sight of the example of `C107_double`, whose residue is null, and a rounded point. -/
example : nViewDistance Real.sqrt (exStarts 0).toRow (viewingVector Real.sqrt (exStarts 0).toRow (exEnds 0).toRow) (⟨6371000, 0, 0⟩ : V3 ℝ).toRow = some 0 ∧
    FloatResidue (1 / 2 ^ 53) (exStarts 0) (exEnds 0) ⟨6371000, 0, 0⟩ 0 ∧ sqDist ⟨6371000, 0, 0⟩ (exStarts 0) ≤ 1000000 ^ 2 := by
  have h1 : Real.sqrt 100 = 10 := by
    rw [show (100 : ℝ) = 10 ^ 2 by norm_num]
    exact Real.sqrt_sq (by norm_num)
  have hd : nViewDistance Real.sqrt (exStarts 0).toRow (viewingVector Real.sqrt (exStarts 0).toRow (exEnds 0).toRow) (⟨6371000, 0, 0⟩ : V3 ℝ).toRow = some 0 := by
    norm_num [exStarts, exEnds, viewingVector, rowSome, V3.toRow, V3.minus, h1, nViewDistance, V3.cross]
  exact ⟨hd, floatResidue_inhabited Real.sqrt isSqrt_real (by norm_num) _ _ _ (by norm_num [exStarts, exEnds]) _ hd, by norm_num [exStarts, sqDist]⟩

end Shareloc
