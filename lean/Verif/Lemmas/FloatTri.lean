import Verif.Model.FloatTri
import Verif.Lemmas.Float
import Verif.Props.TriangulationError

/-! Lemmas on the rounding of the triangulation. -/

set_option linter.unusedSectionVars false

namespace Shareloc
variable {K : Type*} [Field K] [LinearOrder K] [IsStrictOrderedRing K]

theorem Approx.sub {u : K} (hu : 0 ≤ u) {n p : ℕ} {a b x x' y y' v : K} (hx : Approx u n a x x') (hy : Approx u p b y y')
    (hv : Rounds u (x' - y') v) : Approx u (max n p + 1) (a + b) (x - y) v := by
  have hy' : Approx u p b (-y) (-y') := by
    refine ⟨?_, by rw [abs_neg]; exact hy.2⟩
    have : -y' - -y = -(y' - y) := by ring
    rw [this, abs_neg]; exact hy.1
  rw [sub_eq_add_neg] at hv ⊢
  exact Approx.add hu hx hy' hv

theorem FloatSum.approx {ι : Type*} [DecidableEq ι] {u : K} (hu : 0 ≤ u) {f g m : ι → K} {k : ℕ} (h : ∀ i, Approx u k (m i) (g i) (f i))
    {s : Finset ι} {v : K} (hs : FloatSum u f s v) :
    Approx u (k + (s.card - 1)) (∑ i ∈ s, m i) (∑ i ∈ s, g i) v := by
  induction hs with
  | empty => simpa [Approx] using sub_nonneg.2 (one_le_pow_u hu k)
  | one i => simpa using h i
  | @add s t x y v hs ht hd _ _ hr ih1 ih2 =>
    rw [Finset.sum_union hd, Finset.sum_union hd, Finset.card_union_of_disjoint hd]
    have h1 := hs.card_pos
    have h2 := ht.card_pos
    exact (Approx.add hu ih1 ih2 hr).mono hu (by omega) le_rfl

theorem FloatSum.of_sum {ι : Type*} [DecidableEq ι] {u : K} (hu : 0 ≤ u) (f : ι → K) (s : Finset ι) : FloatSum u f s (∑ i ∈ s, f i) := by
  induction s using Finset.induction_on with
  | empty => simpa using FloatSum.empty
  | @insert a s ha ih =>
    rcases s.eq_empty_or_nonempty with rfl | hs
    · simpa using FloatSum.one (u := u) (f := f) a
    · rw [Finset.insert_eq, Finset.sum_union (by simpa using ha)]
      refine FloatSum.add (by simp) hs (by simpa using ha) (FloatSum.one a) ih ?_
      rw [Finset.sum_singleton]
      simpa [Rounds] using mul_nonneg hu (abs_nonneg _)

theorem Rounds.refl {u : K} (hu : 0 ≤ u) (x : K) : Rounds u x x := by
  simpa [Rounds] using mul_nonneg hu (abs_nonneg _)

/-! ### The viewing vectors -/

theorem V3.at_ext {v w : V3 K} (h : ∀ i, v.at i = w.at i) : v = w := by
  obtain ⟨a, b, c⟩ := v
  obtain ⟨d, e, f⟩ := w
  simp only [V3.mk.injEq]
  exact ⟨h 0, h 1, h 2⟩

theorem FloatSqrt.approx {u : K} (hu : 0 ≤ u) {k : ℕ} {S L s r : K} (hL : 0 ≤ L) (hS : L * L = S) (hs : Approx u k S S s)
    (h : FloatSqrt u s r) : Approx u (k + 1) L L r := by
  obtain ⟨t, ht, hts, hr⟩ := h
  have ht' : Approx u k L L t := by
    refine ⟨?_, (abs_of_nonneg hL).le⟩
    rcases hL.eq_or_lt with h0 | h0
    · subst h0
      have h1 := hs.1
      rw [← hS] at h1
      simp only [mul_zero, abs_nonpos_iff, sub_zero] at h1
      have : t = 0 := mul_self_eq_zero.1 (hts.trans h1)
      simp [this]
    · have h1 := hs.1
      rw [← hts, ← hS] at h1
      have h2 : t * t - L * L = (t - L) * (t + L) := by ring
      rw [h2, abs_mul, abs_of_nonneg (by linarith : 0 ≤ t + L)] at h1
      have h3 : |t - L| * L ≤ |t - L| * (t + L) := mul_le_mul_of_nonneg_left (by linarith) (abs_nonneg _)
      have h4 : |t - L| * L ≤ (((1 + u) ^ k - 1) * L) * L := by linarith
      exact le_of_mul_le_mul_right h4 h0
  have h5 := Approx.mul hu ht' (Approx.refl u 1) (by rw [mul_one]; exact hr)
  simpa using h5

theorem recip_pow {u : K} (hu : 0 ≤ u) (hu1 : u ≤ 1 / 1000) : 1 ≤ (2 - (1 + u) ^ 6) * (1 + u) ^ 7 := by
  have h2 : 0 ≤ u ^ 2 := by positivity
  have h3 : u ^ 3 ≤ u ^ 2 / 1000 := by nlinarith
  have h4 : u ^ 4 ≤ u ^ 3 := by nlinarith [pow_nonneg hu 3]
  have h5 : u ^ 5 ≤ u ^ 4 := by nlinarith [pow_nonneg hu 4]
  have h6 : u ^ 6 ≤ u ^ 5 := by nlinarith [pow_nonneg hu 5]
  have h7 : u ^ 7 ≤ u ^ 6 := by nlinarith [pow_nonneg hu 6]
  have e1 : (1 + u) ^ 6 ≤ 1 + 6 * u + 16 * u ^ 2 := by
    have : (1 + u) ^ 6 = 1 + 6 * u + 15 * u ^ 2 + 20 * u ^ 3 + 15 * u ^ 4 + 6 * u ^ 5 + u ^ 6 := by ring
    rw [this]; linarith
  have e2 : 1 + 7 * u ≤ (1 + u) ^ 7 := by
    have : (1 + u) ^ 7 = 1 + 7 * u + 21 * u ^ 2 + 35 * u ^ 3 + 35 * u ^ 4 + 21 * u ^ 5 + 7 * u ^ 6 + u ^ 7 := by ring
    rw [this]; linarith [pow_nonneg hu 3, pow_nonneg hu 4, pow_nonneg hu 5, pow_nonneg hu 6, pow_nonneg hu 7]
  have e3 : 1 - 6 * u - 16 * u ^ 2 ≤ 2 - (1 + u) ^ 6 := by linarith
  have e4 : 0 ≤ 1 - 6 * u - 16 * u ^ 2 := by nlinarith
  calc (1 : K) ≤ (1 - 6 * u - 16 * u ^ 2) * (1 + 7 * u) := by nlinarith
    _ ≤ _ := mul_le_mul e3 e2 (by linarith) (by linarith)

theorem Approx.inv {u : K} (hu : 0 ≤ u) (hu1 : u ≤ 1 / 1000) {L r : K} (hL : 0 < L) (h : Approx u 6 L L r) : Approx u 7 (1 / L) (1 / L) (1 / r) := by
  refine ⟨?_, (abs_of_pos (by positivity)).le⟩
  have h1 := h.1
  have hk := recip_pow hu hu1
  have ht := one_le_pow_u hu 6
  set t := (1 + u) ^ 6
  set w := (1 + u) ^ 7
  have hw : 1 ≤ w := one_le_pow_u hu 7
  have h2 : 0 < 2 - t := by
    by_contra hc
    rw [not_lt] at hc
    nlinarith
  have h3 := (_root_.abs_le.1 h1).1
  have hr : (2 - t) * L ≤ r := by linarith
  have hr0 : 0 < r := lt_of_lt_of_le (by positivity) hr
  have e : 1 / r - 1 / L = (L - r) / (r * L) := by field_simp
  rw [e, abs_div, abs_of_pos (by positivity : 0 < r * L), div_le_iff₀ (by positivity), abs_sub_comm]
  refine h1.trans ?_
  have e2 : (w - 1) * (1 / L) * (r * L) = (w - 1) * r := by field_simp
  rw [e2]
  have : (w - 1) * ((2 - t) * L) ≤ (w - 1) * r := mul_le_mul_of_nonneg_left hr (by linarith)
  nlinarith

/-- The viewing vector computed is a unit vector with a relative error in each component. -/
theorem FloatView.approx {u : K} (hu : 0 ≤ u) (hu1 : u ≤ 1 / 1000) {a b v : V3 K} {L : K} (hL : 0 < L) (hL2 : L * L = sqDist a b)
    (h : FloatView u a b v) (i : Fin 3) : Approx u 9 |(a.at i - b.at i) / L| ((a.at i - b.at i) / L) (v.at i) := by
  obtain ⟨d, q, s, r, hd, hq, hs, hr, -, hv⟩ := h
  have h1 : ∀ i, Approx u 1 |a.at i - b.at i| (a.at i - b.at i) (d i) := fun i => (hd i).approx
  have h2 : ∀ i, Approx u 3 ((a.at i - b.at i) ^ 2) ((a.at i - b.at i) ^ 2) (q i) := fun i => by
    have := Approx.mul hu (h1 i) (h1 i) (hq i)
    rwa [abs_mul_abs_self, ← sq] at this
  have h3 := hs.approx hu h2
  have hsum : ∑ i, (a.at i - b.at i) ^ 2 = sqDist a b := by
    simp [Fin.sum_univ_three, V3.at, sqDist]
  rw [hsum] at h3
  simp only [Finset.card_univ, Fintype.card_fin] at h3
  have h4 := hr.approx hu hL.le hL2 h3
  have h5 := Approx.inv hu hu1 hL h4
  have h6 := Approx.mul hu (h1 i) h5 (by rw [mul_one_div]; exact hv i)
  rw [mul_one_div, mul_one_div] at h6
  rwa [abs_div, abs_of_pos hL]

/-! ### The matrix and the right-hand side -/

/-- Exact matrix of the triangulation. -/
def triA {n : ℕ} (w : Fin n → V3 K) (i j : Fin 3) : K := ∑ k, ((if i = j then 1 else 0) - (w k).at i * (w k).at j)

/-- Its magnitude. -/
def triMagA {n : ℕ} (w : Fin n → V3 K) (i j : Fin 3) : K := ∑ k, ((if i = j then 1 else 0) + |(w k).at i * (w k).at j|)

/-- Exact right-hand side. -/
def triB {n : ℕ} (s w : Fin n → V3 K) (i : Fin 3) : K := ∑ k, ∑ j, ((if i = j then 1 else 0) - (w k).at i * (w k).at j) * (s k).at j

/-- Its magnitude. -/
def triMagB {n : ℕ} (s w : Fin n → V3 K) (i : Fin 3) : K :=
  ∑ k, ∑ j, ((if i = j then 1 else 0) + |(w k).at i * (w k).at j|) * |(s k).at j|

theorem FloatIdVivi.approx {u : K} (hu : 0 ≤ u) {w v : V3 K} (hw : ∀ i, Approx u 9 |w.at i| (w.at i) (v.at i)) {g : Fin 3 → Fin 3 → K}
    (h : FloatIdVivi u v g) (i j : Fin 3) :
    Approx u 20 ((if i = j then 1 else 0) + |w.at i * w.at j|) ((if i = j then 1 else 0) - w.at i * w.at j) (g i j) := by
  obtain ⟨p, hp, hg⟩ := h i j
  have h1 := Approx.mul hu (hw i) (hw j) hp
  rw [← abs_mul] at h1
  have h0 : Approx u 0 (if i = j then (1 : K) else 0) (if i = j then (1 : K) else 0) (if i = j then (1 : K) else 0) := by
    split_ifs <;> simp [Approx]
  simpa using Approx.sub hu h0 h1 hg

theorem triA_approx {u : K} (hu : 0 ≤ u) {n : ℕ} {w v : Fin n → V3 K} (hw : ∀ k i, Approx u 9 |(w k).at i| ((w k).at i) ((v k).at i))
    {g : Fin n → Fin 3 → Fin 3 → K} (hg : ∀ k, FloatIdVivi u (v k) (g k)) {A : Fin 3 → Fin 3 → K}
    (hA : ∀ i j, FloatSum u (fun k => g k i j) Finset.univ (A i j)) (i j : Fin 3) :
    Approx u (n + 23) (triMagA w i j) (triA w i j) (A i j) := by
  have := (hA i j).approx hu fun k => (hg k).approx hu (hw k) i j
  refine this.mono hu ?_ le_rfl
  simp only [Finset.card_univ, Fintype.card_fin]
  omega

theorem triB_approx {u : K} (hu : 0 ≤ u) {n : ℕ} {s w v : Fin n → V3 K} (hw : ∀ k i, Approx u 9 |(w k).at i| ((w k).at i) ((v k).at i))
    {g : Fin n → Fin 3 → Fin 3 → K} (hg : ∀ k, FloatIdVivi u (v k) (g k)) {t : Fin n → Fin 3 → K}
    (ht : ∀ k, FloatIdViviSi u (g k) (s k) (t k)) {b : Fin 3 → K}
    (hb : ∀ i, FloatSum u (fun k => t k i) Finset.univ (b i)) (i : Fin 3) :
    Approx u (n + 23) (triMagB s w i) (triB s w i) (b i) := by
  have h1 : ∀ k, Approx u 23 (∑ j, ((if i = j then 1 else 0) + |(w k).at i * (w k).at j|) * |(s k).at j|)
      (∑ j, ((if i = j then 1 else 0) - (w k).at i * (w k).at j) * (s k).at j) (t k i) := by
    intro k
    obtain ⟨h, hh, hs⟩ := ht k i
    have := hs.approx hu fun j => Approx.mul hu ((hg k).approx hu (hw k) i j) (Approx.refl u ((s k).at j)) (hh j)
    simpa using this
  have := (hb i).approx hu h1
  refine this.mono hu ?_ le_rfl
  simp only [Finset.card_univ, Fintype.card_fin]
  omega

/-! ### The exact system -/

theorem triA_mulVec {n : ℕ} (s w : Fin n → V3 K) (d : V3 K) (i : Fin 3) :
    ((sumIdVivi ((List.ofFn fun k => (s k, w k)).map toView)).mulVec d).at i = ∑ j, triA w i j * d.at j := by
  rw [sumIdVivi_mulVec]
  simp only [List.map_ofFn, Function.comp_def, List.sum_ofFn, Fin.sum_univ_three, triA, Finset.sum_mul, ← Finset.sum_add_distrib]
  fin_cases i <;>
  · simp only [V3.at, V3.dot]
    refine Finset.sum_congr rfl fun k _ => ?_
    simp
    ring

theorem triB_eq {n : ℕ} (s w : Fin n → V3 K) (i : Fin 3) :
    (sumIdViviSi ((List.ofFn fun k => (s k, w k)).map toView)).at i = triB s w i := by
  rw [sumIdViviSi_eq]
  simp only [List.map_ofFn, Function.comp_def, List.sum_ofFn, Fin.sum_univ_three, triB]
  fin_cases i <;>
  · simp only [V3.at, V3.dot]
    refine Finset.sum_congr rfl fun k _ => ?_
    simp
    ring

/-- The matrix is coercive as soon as two views are not parallel. -/
theorem triA_coercive {n : ℕ} (w : Fin n → V3 K) (hw : ∀ k, IsUnitVec (w k)) (k l : Fin n) (lam : K) (hl0 : 0 ≤ lam)
    (hl : lam ≤ 1 - |(w k).dot (w l)|) (d : V3 K) :
    lam ^ 2 * (d.x ^ 2 + d.y ^ 2 + d.z ^ 2) ≤ ∑ i, (∑ j, triA w i j * d.at j) ^ 2 := by
  by_cases hkl : w k = w l
  · have h1 : (w k).dot (w l) = 1 := by
      have := hw k
      unfold IsUnitVec at this
      rw [← hkl]
      simp only [V3.dot]
      linear_combination this
    rw [h1, abs_one, sub_self] at hl
    have : lam = 0 := le_antisymm hl hl0
    rw [this, sq, mul_zero, zero_mul]
    exact Finset.sum_nonneg fun i _ => sq_nonneg _
  have hkl' : k ≠ l := fun h => hkl (by rw [h])
  have hq : lam * (d.x ^ 2 + d.y ^ 2 + d.z ^ 2) ≤ ∑ i, d.at i * ∑ j, triA w i j * d.at j := by
    have h1 := quadForm (List.ofFn fun k => ((⟨0, 0, 0⟩ : V3 K), w k)) (by
      intro x hx
      obtain ⟨k, rfl⟩ := List.mem_ofFn.1 hx
      exact hw k) d
    have h2 : d.dot ((sumIdVivi ((List.ofFn fun k => ((⟨0, 0, 0⟩ : V3 K), w k)).map toView)).mulVec d) =
        ∑ i, d.at i * ∑ j, triA w i j * d.at j := by
      simp only [← triA_mulVec (fun _ => (⟨0, 0, 0⟩ : V3 K)) w d]
      rw [Fin.sum_univ_three]
      rfl
    rw [h2] at h1
    rw [h1]
    simp only [List.map_ofFn, Function.comp_def, List.sum_ofFn]
    have h3 := pair_bound (w k) (w l) d (hw k) (hw l)
    have h4 : crossSq (⟨0, 0, 0⟩, w k) d + crossSq (⟨0, 0, 0⟩, w l) d ≤ ∑ m, crossSq (⟨0, 0, 0⟩, w m) d := by
      rw [← Finset.sum_pair (f := fun m => crossSq ((⟨0, 0, 0⟩ : V3 K), w m) d) hkl']
      exact Finset.sum_le_sum_of_subset_of_nonneg (Finset.subset_univ _) fun m _ _ => crossSq_nonneg _ _
    have h5 : lam * (d.x ^ 2 + d.y ^ 2 + d.z ^ 2) ≤ (1 - |(w k).dot (w l)|) * (d.x ^ 2 + d.y ^ 2 + d.z ^ 2) :=
      mul_le_mul_of_nonneg_right hl (by positivity)
    linarith
  rw [Fin.sum_univ_three] at hq ⊢
  generalize ∑ j, triA w 0 j * d.at j = p0 at hq ⊢
  generalize ∑ j, triA w 1 j * d.at j = p1 at hq ⊢
  generalize ∑ j, triA w 2 j * d.at j = p2 at hq ⊢
  simp only [V3.at] at hq
  set N := d.x ^ 2 + d.y ^ 2 + d.z ^ 2 with hN
  have hN0 : 0 ≤ N := by positivity
  have hcs : (d.x * p0 + d.y * p1 + d.z * p2) ^ 2 ≤ N * (p0 ^ 2 + p1 ^ 2 + p2 ^ 2) := by
    have : N * (p0 ^ 2 + p1 ^ 2 + p2 ^ 2) - (d.x * p0 + d.y * p1 + d.z * p2) ^ 2 =
      (d.x * p1 - d.y * p0) ^ 2 + (d.x * p2 - d.z * p0) ^ 2 + (d.y * p2 - d.z * p1) ^ 2 := by rw [hN]; ring
    nlinarith [sq_nonneg (d.x * p1 - d.y * p0), sq_nonneg (d.x * p2 - d.z * p0), sq_nonneg (d.y * p2 - d.z * p1)]
  rcases hN0.eq_or_lt with h0 | h0
  · rw [← h0, mul_zero]; positivity
  · have h6 : (lam * N) ^ 2 ≤ (d.x * p0 + d.y * p1 + d.z * p2) ^ 2 := pow_le_pow_left₀ (by positivity) hq 2
    have h7 : N * (lam ^ 2 * N) ≤ N * (p0 ^ 2 + p1 ^ 2 + p2 ^ 2) := by nlinarith
    exact le_of_mul_le_mul_left h7 h0

theorem triA_solve {n : ℕ} (w : Fin n → V3 K) (hw : ∀ k, IsUnitVec (w k)) (k l : Fin n) (lam : K) (hl0 : 0 ≤ lam)
    (hl : lam ≤ 1 - |(w k).dot (w l)|) (d : V3 K) (r : K) (hr : ∀ i, |∑ j, triA w i j * d.at j| ≤ r) (i : Fin 3) :
    lam * |d.at i| ≤ 7 / 4 * r := by
  have h1 := triA_coercive w hw k l lam hl0 hl d
  have hr0 : 0 ≤ r := (abs_nonneg _).trans (hr 0)
  have h2 : ∑ i, (∑ j, triA w i j * d.at j) ^ 2 ≤ 3 * r ^ 2 := by
    have : ∀ i ∈ (Finset.univ : Finset (Fin 3)), (∑ j, triA w i j * d.at j) ^ 2 ≤ r ^ 2 := fun i _ => sq_le_sq' (by linarith [(abs_le.1 (hr i)).1]) (abs_le.1 (hr i)).2
    refine (Finset.sum_le_sum this).trans ?_
    simp
  have h3 : (d.at i) ^ 2 ≤ d.x ^ 2 + d.y ^ 2 + d.z ^ 2 := by
    fin_cases i <;> simp only [V3.at] <;> nlinarith [sq_nonneg d.x, sq_nonneg d.y, sq_nonneg d.z]
  refine le_of_sq_le_sq ?_ (by positivity)
  rw [mul_pow, sq_abs]
  nlinarith [mul_le_mul_of_nonneg_left h3 (sq_nonneg lam)]

/-! ### Magnitudes -/

theorem unit_row (x y z : K) (h : x ^ 2 + y ^ 2 + z ^ 2 = 1) : |x * x| + |x * y| + |x * z| ≤ 3 / 2 := by
  have h1 : |x * x| = x ^ 2 := by rw [abs_mul_self]; ring
  rw [h1, abs_mul, abs_mul]
  have h2 : |x| * |y| ≤ 1 / 6 * x ^ 2 + 3 / 2 * y ^ 2 := by
    rw [← sq_abs x, ← sq_abs y]
    nlinarith [sq_nonneg (|x| - 3 * |y|)]
  have h3 : |x| * |z| ≤ 1 / 6 * x ^ 2 + 3 / 2 * z ^ 2 := by
    rw [← sq_abs x, ← sq_abs z]
    nlinarith [sq_nonneg (|x| - 3 * |z|)]
  nlinarith [sq_nonneg x]

theorem unit_row_sum (w : V3 K) (h : IsUnitVec w) (z : Fin 3 → K) (Z : K) (hz : ∀ j, |z j| ≤ Z) (i : Fin 3) :
    ∑ j, ((if i = j then 1 else 0) + |w.at i * w.at j|) * |z j| ≤ 5 / 2 * Z := by
  have hu : w.x ^ 2 + w.y ^ 2 + w.z ^ 2 = 1 := by unfold IsUnitVec at h; linear_combination h
  have hZ : 0 ≤ Z := (abs_nonneg _).trans (hz 0)
  have h1 : ∑ j, ((if i = j then 1 else 0) + |w.at i * w.at j|) * |z j| ≤ ∑ j, ((if i = j then 1 else 0) + |w.at i * w.at j|) * Z := by
    refine Finset.sum_le_sum fun j _ => mul_le_mul_of_nonneg_left (hz j) ?_
    split_ifs <;> positivity
  refine h1.trans ?_
  rw [← Finset.sum_mul]
  refine mul_le_mul_of_nonneg_right ?_ hZ
  rw [Fin.sum_univ_three]
  fin_cases i <;> simp [V3.at, abs_mul] <;>
  [have := unit_row w.x w.y w.z hu; have := unit_row w.y w.x w.z (by linarith); have := unit_row w.z w.x w.y (by linarith)] <;>
  simp only [abs_mul, abs_mul_abs_self] at this <;> linarith

theorem triMagA_row {n : ℕ} (w : Fin n → V3 K) (hw : ∀ k, IsUnitVec (w k)) (z : Fin 3 → K) (Z : K) (hz : ∀ j, |z j| ≤ Z) (i : Fin 3) :
    ∑ j, triMagA w i j * |z j| ≤ n * (5 / 2 * Z) := by
  have : ∑ j, triMagA w i j * |z j| = ∑ k, ∑ j, ((if i = j then 1 else 0) + |(w k).at i * (w k).at j|) * |z j| := by
    simp only [triMagA, Finset.sum_mul]
    rw [Finset.sum_comm]
  rw [this]
  refine (Finset.sum_le_sum fun k _ => unit_row_sum (w k) (hw k) z Z hz i).trans ?_
  simp

theorem triMagB_le {n : ℕ} (s w : Fin n → V3 K) (hw : ∀ k, IsUnitVec (w k)) (S : K) (hs : ∀ k j, |(s k).at j| ≤ S) (i : Fin 3) :
    triMagB s w i ≤ n * (5 / 2 * S) := by
  unfold triMagB
  refine (Finset.sum_le_sum fun k _ => unit_row_sum (w k) (hw k) _ S (hs k) i).trans ?_
  simp

end Shareloc
