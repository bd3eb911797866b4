import Verif.Lemmas.FloatTri

/-!
# C107: rounding of the triangulation
-/

set_option linter.unusedSectionVars false

namespace Shareloc
variable {K : Type*} [Field K] [LinearOrder K] [IsStrictOrderedRing K]

/-- Core estimate: unit viewing vectors `w`, computed ones `v` with relative errors. -/
theorem floatNView_bound {u η : K} (hu : 0 ≤ u) {n : ℕ} (s w v : Fin n → V3 K) (hw : ∀ k, IsUnitVec (w k))
    (hv : ∀ k i, Approx u 9 |(w k).at i| ((w k).at i) ((v k).at i)) (k l : Fin n) (lam : K) (hl0 : 0 < lam)
    (hl : lam ≤ 1 - |(w k).dot (w l)|) (S : K) (hS : ∀ k i, |(s k).at i| ≤ S) (γ : K) (hγ : (1 + u) ^ (n + 23) - 1 = γ)
    (hγ1 : γ ≤ 1 / 5) (hγ2 : 35 * n * γ ≤ 4 * lam) (hη : η ≤ 1 / 7) (q p : V3 K) (hq : FloatNView u η s v q)
    (hp : ∀ i, ∑ j, triA w i j * p.at j = triB s w i) (P : K) (hP : ∀ i, |p.at i| ≤ P) (i : Fin 3) :
    lam * |q.at i - p.at i| ≤ n * (36 * γ * S + 35 / 4 * γ * (P + S) + 63 / 2 * η * S) := by
  obtain ⟨g, A, X, t, b, hg, hA, ht, hb, hX, hm⟩ := hq
  have hS0 : 0 ≤ S := (abs_nonneg _).trans (hS k 0)
  have hP0 : 0 ≤ P := (abs_nonneg _).trans (hP 0)
  have hη0 : 0 ≤ η := (abs_nonneg _).trans (hX 0 0)
  have hγ0 : 0 ≤ γ := by rw [← hγ]; linarith [one_le_pow_u hu (n + 23)]
  have hn0 : (0 : K) ≤ n := Nat.cast_nonneg n
  -- the matrix
  have hAa := triA_approx hu hv hg hA
  have hAz : ∀ (z : V3 K) (Z : K), (∀ j, |z.at j| ≤ Z) → ∀ i, |∑ j, triA w i j * z.at j - ∑ j, A i j * z.at j| ≤ γ * (n * (5 / 2 * Z)) := by
    intro z Z hz i
    rw [← Finset.sum_sub_distrib]
    refine (Finset.abs_sum_le_sum_abs _ _).trans ?_
    refine le_trans ?_ (mul_le_mul_of_nonneg_left (triMagA_row w hw z.at Z hz i) hγ0)
    rw [Finset.mul_sum]
    refine Finset.sum_le_sum fun j _ => ?_
    rw [← sub_mul, abs_mul, ← mul_assoc, abs_sub_comm]
    refine mul_le_mul_of_nonneg_right ?_ (abs_nonneg _)
    rw [← hγ]
    exact (hAa i j).1
  -- the right-hand side
  have hBa := triB_approx hu hv hg ht hb
  have hB1 : ∀ i, |b i - triB s w i| ≤ γ * (n * (5 / 2 * S)) := fun i => by
    refine (hBa i).1.trans ?_
    rw [hγ]
    exact mul_le_mul_of_nonneg_left (triMagB_le s w hw S hS i) hγ0
  have hB2 : ∀ i, |b i| ≤ 3 * n * S := fun i => by
    have h1 := (hBa i).2.trans (triMagB_le s w hw S hS i)
    have h2 := abs_sub_abs_le_abs_sub (b i) (triB s w i)
    have h3 := hB1 i
    have h4 : γ * (n * (5 / 2 * S)) ≤ 1 / 5 * (n * (5 / 2 * S)) := mul_le_mul_of_nonneg_right hγ1 (by positivity)
    linarith
  -- the inverse
  have hcol : ∀ i j, lam * |X i j| ≤ 4 := by
    intro i j
    let x : V3 K := ⟨X 0 j, X 1 j, X 2 j⟩
    have hx : ∀ l, x.at l = X l j := fun l => by fin_cases l <;> rfl
    obtain ⟨m, hm⟩ : ∃ m, ∀ l, |X l j| ≤ |X m j| := by
      obtain ⟨m, -, h⟩ := Finset.exists_max_image (Finset.univ : Finset (Fin 3)) (fun l => |X l j|) ⟨0, Finset.mem_univ _⟩
      exact ⟨m, fun l => h l (Finset.mem_univ l)⟩
    have h1 : ∀ l, |∑ j, triA w l j * x.at j| ≤ 1 + η + γ * (n * (5 / 2 * |X m j|)) := by
      intro l
      have e1 := hAz x |X m j| (fun l => by rw [hx]; exact hm l) l
      have e2 := hX l j
      simp only [hx] at e1 ⊢
      have e3 : |(if l = j then (1 : K) else 0)| ≤ 1 := by split_ifs <;> simp
      calc |∑ i, triA w l i * X i j| = |(∑ i, triA w l i * X i j - ∑ i, A l i * X i j) + (∑ i, A l i * X i j - (if l = j then 1 else 0)) + (if l = j then (1 : K) else 0)| := by congr 1; ring
        _ ≤ _ := abs_add_three _ _ _
        _ ≤ _ := by linarith
    have h2 := triA_solve w hw k l lam hl0.le hl x _ h1 m
    rw [hx] at h2
    have h3 : 35 * n * γ * |X m j| ≤ 4 * lam * |X m j| := mul_le_mul_of_nonneg_right hγ2 (abs_nonneg _)
    have h4 : lam * |X m j| ≤ 4 := by linarith
    exact (mul_le_mul_of_nonneg_left (hm i) hl0.le).trans h4
  -- the product of the inverse and the right-hand side
  let y : V3 K := ⟨∑ j, X 0 j * b j, ∑ j, X 1 j * b j, ∑ j, X 2 j * b j⟩
  have hy : ∀ i, y.at i = ∑ j, X i j * b j := fun i => by fin_cases i <;> rfl
  have hqy : ∀ i, lam * |q.at i - y.at i| ≤ γ * (36 * n * S) := by
    intro i
    obtain ⟨m, hm1, hm2⟩ := hm i
    have h1 := hm2.approx hu fun j => (hm1 j).approx
    have h2 := (h1.mono hu (p := n + 23) (by simp only [Finset.card_univ, Fintype.card_fin]; omega) le_rfl).1
    rw [hγ] at h2
    rw [hy]
    have h3 : lam * ∑ j, |X i j * b j| ≤ 36 * n * S := by
      rw [Finset.mul_sum]
      have : ∀ j ∈ (Finset.univ : Finset (Fin 3)), lam * |X i j * b j| ≤ 4 * (3 * n * S) := by
        intro j _
        rw [abs_mul, ← mul_assoc]
        exact mul_le_mul (hcol i j) (hB2 j) (abs_nonneg _) (by norm_num)
      refine (Finset.sum_le_sum this).trans ?_
      simp
      linarith
    calc lam * |q.at i - ∑ j, X i j * b j| ≤ lam * (γ * ∑ j, |X i j * b j|) := mul_le_mul_of_nonneg_left h2 hl0.le
      _ = γ * (lam * ∑ j, |X i j * b j|) := by ring
      _ ≤ _ := mul_le_mul_of_nonneg_left h3 hγ0
  -- the residual
  have hyp : ∀ i, lam * |y.at i - p.at i| ≤ n * (35 / 4 * γ * (P + S) + 63 / 2 * η * S) := by
    let d : V3 K := y.minus p
    have hd : ∀ j, d.at j = y.at j - p.at j := fun j => by fin_cases j <;> rfl
    obtain ⟨m, hm⟩ : ∃ m, ∀ l, |d.at l| ≤ |d.at m| := by
      obtain ⟨m, -, h⟩ := Finset.exists_max_image (Finset.univ : Finset (Fin 3)) (fun l => |d.at l|) ⟨0, Finset.mem_univ _⟩
      exact ⟨m, fun l => h l (Finset.mem_univ l)⟩
    have hyb : ∀ j, |y.at j| ≤ P + |d.at m| := fun j => by
      have e1 := hm j
      have e2 := abs_add_le (p.at j) (d.at j)
      have e3 := hP j
      rw [hd] at e2
      have : p.at j + (y.at j - p.at j) = y.at j := by ring
      rw [this, ← hd] at e2
      linarith
    have hAy : ∀ l, |∑ j, A l j * y.at j - b l| ≤ η * (9 * n * S) := by
      intro l
      have e1 : ∑ j, A l j * y.at j - b l = ∑ j, ((∑ i, A l i * X i j) - (if l = j then 1 else 0)) * b j := by
        simp only [hy, Fin.sum_univ_three]
        fin_cases l <;> simp <;> ring
      rw [e1]
      refine (Finset.abs_sum_le_sum_abs _ _).trans ?_
      have : ∀ j ∈ (Finset.univ : Finset (Fin 3)), |((∑ i, A l i * X i j) - (if l = j then 1 else 0)) * b j| ≤ η * (3 * n * S) := by
        intro j _
        rw [abs_mul]
        exact mul_le_mul (hX l j) (hB2 j) (abs_nonneg _) hη0
      refine (Finset.sum_le_sum this).trans ?_
      simp
      linarith
    have h1 : ∀ l, |∑ j, triA w l j * d.at j| ≤ γ * (n * (5 / 2 * (P + |d.at m|))) + η * (9 * n * S) + γ * (n * (5 / 2 * S)) := by
      intro l
      have e1 := hAz y _ hyb l
      have e2 := hAy l
      have e3 := hB1 l
      have e4 : ∑ j, triA w l j * d.at j = (∑ j, triA w l j * y.at j - ∑ j, A l j * y.at j) + (∑ j, A l j * y.at j - b l) + (b l - triB s w l) := by
        simp only [hd, mul_sub, Finset.sum_sub_distrib, hp]
        ring
      rw [e4]
      refine (abs_add_three _ _ _).trans ?_
      linarith
    have h2 := triA_solve w hw k l lam hl0.le hl d _ h1 m
    have h3 : 35 * n * γ * |d.at m| ≤ 4 * lam * |d.at m| := mul_le_mul_of_nonneg_right hγ2 (abs_nonneg _)
    intro i
    rw [← hd]
    refine (mul_le_mul_of_nonneg_left (hm i) hl0.le).trans ?_
    linarith
  calc lam * |q.at i - p.at i| = lam * |(q.at i - y.at i) + (y.at i - p.at i)| := by congr 2; ring
    _ ≤ lam * (|q.at i - y.at i| + |y.at i - p.at i|) := mul_le_mul_of_nonneg_left (abs_add_le _ _) hl0.le
    _ ≤ _ := by linarith [hqy i, hyp i]

/-- C107. The point computed from the ends of the lines of sight of a match, every operation rounded, is near the point that exact arithmetic
gives, which exists: `lam` bounds the angle of two of the views from below (`c` is its cosine), `S` the coordinates of the starting points, `P` those
of the exact point; `u` is the relative error of an operation and `η` the residual of `np.linalg.inv`. -/
theorem C107_rounding (sqrt : K → K) (hs : IsSqrt sqrt) {u η : K} (hu : 0 ≤ u) (hu1 : u ≤ 1 / 1000) (hη : η ≤ 1 / 7) {n : ℕ} (a b : Fin n → V3 K)
    (hab : ∀ k, a k ≠ b k) (k l : Fin n) (c lam : K)
    (hc : c ^ 2 * (sqDist (a k) (b k) * sqDist (a l) (b l)) = ((a k).minus (b k)).dot ((a l).minus (b l)) ^ 2) (hl0 : 0 < lam) (hl : |c| ≤ 1 - lam)
    (S : K) (hS : ∀ k, |(a k).x| ≤ S ∧ |(a k).y| ≤ S ∧ |(a k).z| ≤ S) (hγ1 : (1 + u) ^ (n + 23) - 1 ≤ 1 / 5)
    (hγ2 : 35 * n * ((1 + u) ^ (n + 23) - 1) ≤ 4 * lam) (q : V3 K) (hq : FloatTriangulation u η a b q) :
    ∃ p, nViewPoint (List.ofFn fun k => ((a k).toRow, viewingVector sqrt (a k).toRow (b k).toRow)) = .ok p ∧
      ∀ P, |p.x| ≤ P → |p.y| ≤ P → |p.z| ≤ P →
        let e := n * (((1 + u) ^ (n + 23) - 1) * (45 * S + 9 * P) + 32 * η * S) / lam
        |q.x - p.x| ≤ e ∧ |q.y - p.y| ≤ e ∧ |q.z - p.z| ≤ e := by
  obtain ⟨v, hv, hq⟩ := hq
  choose w m hw hunit hm hm2 hline hnear using fun k => line_of_sight sqrt hs (a k) (b k) (hab k)
  have hwat : ∀ k i, (w k).at i = ((a k).at i - (b k).at i) / m k := by
    intro k i
    have h1 := minus_scaled (hline k)
    have hmk := (hm k).ne'
    have h2 : ((a k).minus (b k)).at i = m k * (w k).at i := by rw [h1]; fin_cases i <;> rfl
    have h3 : ((a k).minus (b k)).at i = (a k).at i - (b k).at i := by fin_cases i <;> rfl
    rw [← h3, h2]
    field_simp
  have hva : ∀ k i, Approx u 9 |(w k).at i| ((w k).at i) ((v k).at i) := by
    intro k i
    rw [hwat]
    exact FloatView.approx hu hu1 (hm k) (by rw [← sq]; exact hm2 k) (hv k) i
  have hcw : |c| = |(w k).dot (w l)| := by
    rw [minus_scaled (hline k), minus_scaled (hline l), ← hm2, ← hm2] at hc
    have h3 : (V3.dot ⟨m k * (w k).x, m k * (w k).y, m k * (w k).z⟩ ⟨m l * (w l).x, m l * (w l).y, m l * (w l).z⟩ : K) =
        m k * m l * (w k).dot (w l) := by
      simp only [V3.dot]; ring
    rw [h3] at hc
    have h4 : c ^ 2 = (w k).dot (w l) ^ 2 := by
      have h5 : (m k ^ 2 * m l ^ 2) ≠ 0 := by
        have := hm k
        have := hm l
        positivity
      apply mul_right_cancel₀ h5
      rw [hc]; ring
    exact sq_eq_sq_iff_abs_eq_abs _ _ |>.1 h4
  have hl' : lam ≤ 1 - |(w k).dot (w l)| := by rw [← hcw]; linarith
  have hviews : (List.ofFn fun k => ((a k).toRow, viewingVector sqrt (a k).toRow (b k).toRow)) =
      (List.ofFn fun k => (a k, w k)).map toView := by
    rw [List.map_ofFn]
    congr 1
    funext k
    rw [hw]
    rfl
  rw [hviews]
  have hdet : M3.det (sumIdVivi ((List.ofFn fun k => (a k, w k)).map toView)) ≠ 0 := by
    intro h0
    obtain ⟨d, hd0, hd⟩ := M3.exists_null _ h0
    have h1 := triA_coercive w hunit k l lam hl0.le hl' d
    have h2 : ∀ i, ∑ j, triA w i j * d.at j = 0 := fun i => by
      rw [← triA_mulVec a w d i, hd]
      fin_cases i <;> rfl
    simp only [h2] at h1
    have h3 : lam ^ 2 * (d.x ^ 2 + d.y ^ 2 + d.z ^ 2) ≤ 0 := by simpa using h1
    have h4 : d.x ^ 2 + d.y ^ 2 + d.z ^ 2 ≤ 0 := by
      by_contra hc
      rw [not_le] at hc
      have : 0 < lam ^ 2 * (d.x ^ 2 + d.y ^ 2 + d.z ^ 2) := by positivity
      linarith
    apply hd0
    have hx : d.x = 0 := by nlinarith [sq_nonneg d.x, sq_nonneg d.y, sq_nonneg d.z]
    have hy : d.y = 0 := by nlinarith [sq_nonneg d.x, sq_nonneg d.y, sq_nonneg d.z]
    have hz : d.z = 0 := by nlinarith [sq_nonneg d.x, sq_nonneg d.y, sq_nonneg d.z]
    obtain ⟨x, y, z⟩ := d
    simp only at hx hy hz
    rw [hx, hy, hz]
  have hex : ∃ p, nViewPoint ((List.ofFn fun k => (a k, w k)).map toView) = .ok p := by
    unfold nViewPoint
    simp only
    rw [if_neg hdet]
    exact ⟨_, rfl⟩
  obtain ⟨p, hp⟩ := hex
  refine ⟨p, hp, fun P h1 h2 h3 => ?_⟩
  obtain ⟨-, hsol⟩ := nViewPoint_ok _ p hp
  have hp' : ∀ i, ∑ j, triA w i j * p.at j = triB a w i := fun i => by
    rw [← triA_mulVec a w p i, hsol, triB_eq]
  have hPat : ∀ i, |p.at i| ≤ P := fun i => by fin_cases i <;> assumption
  have hSat : ∀ k i, |(a k).at i| ≤ S := fun k i => by
    obtain ⟨s1, s2, s3⟩ := hS k
    fin_cases i <;> assumption
  have hmain := floatNView_bound hu a w v hunit hva k l lam hl0 hl' S hSat _ rfl hγ1 hγ2 hη q p hq hp' P hPat
  have hS0 : 0 ≤ S := (abs_nonneg _).trans (hS k).1
  have hP0 : 0 ≤ P := (abs_nonneg _).trans h1
  have hη0 : 0 ≤ η := by
    obtain ⟨g, A, X, t, b', -, -, -, -, hX, -⟩ := hq
    exact (abs_nonneg _).trans (hX 0 0)
  have hγ0 : 0 ≤ (1 + u) ^ (n + 23) - 1 := sub_nonneg.2 (one_le_pow_u hu _)
  set γ := (1 + u) ^ (n + 23) - 1
  have hn0 : (0 : K) ≤ n := Nat.cast_nonneg n
  have hbd : (n : K) * (36 * γ * S + 35 / 4 * γ * (P + S) + 63 / 2 * η * S) ≤ n * (γ * (45 * S + 9 * P) + 32 * η * S) := by
    refine mul_le_mul_of_nonneg_left ?_ hn0
    nlinarith [mul_nonneg hγ0 hS0, mul_nonneg hγ0 hP0, mul_nonneg hη0 hS0]
  have hfin : ∀ i, |q.at i - p.at i| ≤ n * (γ * (45 * S + 9 * P) + 32 * η * S) / lam := fun i => by
    rw [le_div_iff₀ hl0, mul_comm]
    exact (hmain i).trans hbd
  exact ⟨hfin 0, hfin 1, hfin 2⟩

/-- C107. In double precision, two lines of sight at more than 8 degrees (cosine at most 0.99), coordinates of at most 7000 km (points near the ground, in
the geocentric system), `np.linalg.inv` accurate to `10⁻¹³`: the point is exact to within 5 mm in each coordinate. -/
theorem C107_double (sqrt : ℝ → ℝ) (hs : IsSqrt sqrt) (η : ℝ) (hη : η ≤ 1 / 10 ^ 13) (a b : Fin 2 → V3 ℝ) (hab : ∀ k, a k ≠ b k) (c : ℝ)
    (hc : c ^ 2 * (sqDist (a 0) (b 0) * sqDist (a 1) (b 1)) = ((a 0).minus (b 0)).dot ((a 1).minus (b 1)) ^ 2) (hl : |c| ≤ 99 / 100)
    (hS : ∀ k, |(a k).x| ≤ 7000000 ∧ |(a k).y| ≤ 7000000 ∧ |(a k).z| ≤ 7000000) (q : V3 ℝ)
    (hq : FloatTriangulation (1 / 2 ^ 53) η a b q) :
    ∃ p, nViewPoint [((a 0).toRow, viewingVector sqrt (a 0).toRow (b 0).toRow), ((a 1).toRow, viewingVector sqrt (a 1).toRow (b 1).toRow)] = .ok p ∧
      (|p.x| ≤ 7000000 → |p.y| ≤ 7000000 → |p.z| ≤ 7000000 →
        |q.x - p.x| ≤ 5 / 1000 ∧ |q.y - p.y| ≤ 5 / 1000 ∧ |q.z - p.z| ≤ 5 / 1000) := by
  have hη0 : 0 ≤ η := by
    obtain ⟨v, -, g, A, X, t, b', -, -, -, -, hX, -⟩ := hq
    exact (abs_nonneg _).trans (hX 0 0)
  have hg : ((1 : ℝ) + 1 / 2 ^ 53) ^ (2 + 23) - 1 ≤ 3 / 10 ^ 15 := by norm_num
  obtain ⟨p, hp, h⟩ := C107_rounding sqrt hs (u := 1 / 2 ^ 53) (by norm_num) (by norm_num) (by linarith [show (1 : ℝ) / 10 ^ 13 ≤ 1 / 7 by norm_num]) a b hab 0 1 c (1 / 100) hc
    (by norm_num) (by linarith) 7000000 hS (by linarith [show (3 : ℝ) / 10 ^ 15 ≤ 1 / 5 by norm_num]) (by
      push_cast
      linarith [show (35 : ℝ) * 2 * (3 / 10 ^ 15) ≤ 4 * (1 / 100) by norm_num]) q hq
  refine ⟨p, ?_, fun h1 h2 h3 => ?_⟩
  · simpa [List.ofFn_succ] using hp
  · obtain ⟨e1, e2, e3⟩ := h 7000000 h1 h2 h3
    have hb : ((2 : ℕ) : ℝ) * ((((1 : ℝ) + 1 / 2 ^ 53) ^ (2 + 23) - 1) * (45 * 7000000 + 9 * 7000000) + 32 * η * 7000000) / (1 / 100) ≤ 5 / 1000 := by
      rw [div_le_iff₀ (by norm_num)]
      push_cast
      nlinarith
    exact ⟨e1.trans hb, e2.trans hb, e3.trans hb⟩

/-- C107. Without rounding the relation is the exact triangulation: it holds of the point that `n_view_triangulation` returns in exact arithmetic,
whatever the error allowed; hence the hypotheses of the theorems above are met by every pair of lines that are not parallel. -/
theorem C107_inhabited (sqrt : K → K) (hs : IsSqrt sqrt) {u η : K} (hu : 0 ≤ u) (hη : 0 ≤ η) {n : ℕ} (a b : Fin n → V3 K) (hab : ∀ k, a k ≠ b k) (p : V3 K)
    (hp : nViewPoint (List.ofFn fun k => ((a k).toRow, viewingVector sqrt (a k).toRow (b k).toRow)) = .ok p) : FloatTriangulation u η a b p := by
  choose w m hw hunit hm hm2 hline hnear using fun k => line_of_sight sqrt hs (a k) (b k) (hab k)
  have hwat : ∀ k i, (w k).at i = ((a k).at i - (b k).at i) / m k := by
    intro k i
    have h1 := minus_scaled (hline k)
    have hmk := (hm k).ne'
    have h2 : ((a k).minus (b k)).at i = m k * (w k).at i := by rw [h1]; fin_cases i <;> rfl
    have h3 : ((a k).minus (b k)).at i = (a k).at i - (b k).at i := by fin_cases i <;> rfl
    rw [← h3, h2]
    field_simp
  have hviews : (List.ofFn fun k => ((a k).toRow, viewingVector sqrt (a k).toRow (b k).toRow)) =
      (List.ofFn fun k => (a k, w k)).map toView := by
    rw [List.map_ofFn]
    congr 1
    funext k
    rw [hw]
    rfl
  rw [hviews] at hp
  refine ⟨w, fun k => ?_, ?_⟩
  · refine ⟨fun i => (a k).at i - (b k).at i, fun i => ((a k).at i - (b k).at i) * ((a k).at i - (b k).at i), sqDist (a k) (b k), m k,
      fun i => Rounds.refl hu _, fun i => Rounds.refl hu _, ?_, ⟨m k, (hm k).le, by rw [← sq]; exact hm2 k, Rounds.refl hu _⟩, (hm k).ne', fun i => ?_⟩
    · have := FloatSum.of_sum hu (fun i => ((a k).at i - (b k).at i) * ((a k).at i - (b k).at i)) (Finset.univ : Finset (Fin 3))
      have e : ∑ i, ((a k).at i - (b k).at i) * ((a k).at i - (b k).at i) = sqDist (a k) (b k) := by
        simp only [Fin.sum_univ_three, V3.at, sqDist]
        ring
      rwa [e] at this
    · rw [← hwat]
      exact Rounds.refl hu _
  · have hdet := (nViewPoint_ok _ p hp).1
    set M := sumIdVivi ((List.ofFn fun k => (a k, w k)).map toView) with hM
    set B := sumIdViviSi ((List.ofFn fun k => (a k, w k)).map toView) with hB
    have hpe : p = (M3.inv M).mulVec B := by
      have h1 := M3.inv_mul M p hdet
      rw [(nViewPoint_ok _ p hp).2] at h1
      exact h1.symm
    let R : M3 K → Fin 3 → V3 K := fun X i => match i with
      | 0 => X.x
      | 1 => X.y
      | 2 => X.z
    let X : Fin 3 → Fin 3 → K := fun i j => (R (M3.inv M) i).at j
    refine ⟨fun k i j => (if i = j then 1 else 0) - (w k).at i * (w k).at j, triA w, X,
      fun k i => ∑ j, ((if i = j then 1 else 0) - (w k).at i * (w k).at j) * (a k).at j, triB a w, fun k i j => ⟨_, Rounds.refl hu _, Rounds.refl hu _⟩,
      fun i j => FloatSum.of_sum hu _ _, fun k i => ⟨_, fun j => Rounds.refl hu _, FloatSum.of_sum hu _ _⟩, fun i => FloatSum.of_sum hu _ _, ?_,
      fun i => ⟨_, fun j => Rounds.refl hu _, ?_⟩⟩
    · intro i j
      have hcol : ∑ l, triA w i l * X l j = if i = j then 1 else 0 := by
        let e : V3 K := ⟨if j = 0 then 1 else 0, if j = 1 then 1 else 0, if j = 2 then 1 else 0⟩
        have h1 := M3.mul_inv M e hdet
        have h2 : ∀ l, ((M3.inv M).mulVec e).at l = X l j := by
          intro l
          fin_cases l <;> fin_cases j <;> simp [X, R, e, M3.mulVec, V3.dot, V3.at]
        have h3 := triA_mulVec a w ((M3.inv M).mulVec e) i
        rw [← hM, h1] at h3
        simp only [h2] at h3
        rw [← h3]
        fin_cases i <;> fin_cases j <;> simp [e, V3.at]
      rw [hcol]
      simpa using hη
    · have h1 := FloatSum.of_sum hu (fun j => X i j * triB a w j) (Finset.univ : Finset (Fin 3))
      have e : ∑ j, X i j * triB a w j = p.at i := by
        rw [hpe]
        simp only [← triB_eq a w, ← hB, Fin.sum_univ_three]
        fin_cases i <;> simp [X, R, M3.mulVec, V3.dot, V3.at]
      rwa [e] at h1

/-- Two lines of sight through the point (6371000, 0, 0) (start, end): starts. -/
noncomputable def exStarts : Fin 2 → V3 ℝ := ![⟨6371003, 4, 0⟩, ⟨6371003, 0, 4⟩]

/-- Ends. -/
noncomputable def exEnds : Fin 2 → V3 ℝ := ![⟨6370997, -4, 0⟩, ⟨6370997, 0, -4⟩]

/-- The hypotheses of `C107_double` are met: two lines at 69 degrees (cosine 9/25), in the geocentric system. -/
example : (∀ k, exStarts k ≠ exEnds k) ∧
    (9 / 25 : ℝ) ^ 2 * (sqDist (exStarts 0) (exEnds 0) * sqDist (exStarts 1) (exEnds 1)) =
      ((exStarts 0).minus (exEnds 0)).dot ((exStarts 1).minus (exEnds 1)) ^ 2 ∧ |(9 / 25 : ℝ)| ≤ 99 / 100 ∧
    (∀ k, |(exStarts k).x| ≤ 7000000 ∧ |(exStarts k).y| ≤ 7000000 ∧ |(exStarts k).z| ≤ 7000000) ∧
    FloatTriangulation (1 / 2 ^ 53) (1 / 10 ^ 13) exStarts exEnds ⟨6371000, 0, 0⟩ := by
  have hne : ∀ k, exStarts k ≠ exEnds k := by
    intro k
    fin_cases k <;> norm_num [exStarts, exEnds]
  refine ⟨hne, ?_, ?_, ?_, C107_inhabited Real.sqrt isSqrt_real (by norm_num) (by norm_num) _ _ hne _ ?_⟩
  · norm_num [exStarts, exEnds, sqDist, V3.minus, V3.dot]
  · rw [abs_of_pos] <;> norm_num
  · intro k
    fin_cases k <;> norm_num [exStarts, abs_of_pos]
  · have h1 : Real.sqrt 100 = 10 := by
      rw [show (100 : ℝ) = 10 ^ 2 by norm_num]
      exact Real.sqrt_sq (by norm_num)
    norm_num [List.ofFn_succ, exStarts, exEnds, viewingVector, rowSome, V3.toRow, V3.minus, h1, nViewPoint, sumIdVivi, sumIdViviSi, idVivi, idMinus, omul,
      idViviSi, nansum, M3.det, M3.inv, V3.dot]

end Shareloc
