import Verif.Lemmas.March
import Mathlib.Algebra.Order.Archimedean.Basic

set_option linter.unusedSectionVars false
/-! Helper lemmas: regula falsi, Lipschitz bound of the height above a bilinear surface, march loop. -/

namespace Shareloc
open Spec
variable {K : Type*} [Field K] [LinearOrder K] [IsStrictOrderedRing K] [FloorRing K]

/-- Height of the point of parameter `t` of the line `P Q` above the surface `f`. -/
def height (f : K → K → K) (P Q : V3 K) (t : K) : K :=
  (lerp P Q t).z - f (lerp P Q t).x (lerp P Q t).y

theorem lerp_lerp (P Q : V3 K) (l u c : K) :
    lerp (lerp P Q l) (lerp P Q u) c = lerp P Q (l + c * (u - l)) := by
  simp only [lerp, V3.mk.injEq]
  refine ⟨?_, ?_, ?_⟩ <;> ring

theorem height_lerp (f : K → K → K) (P Q : V3 K) (l u c : K) :
    height f (lerp P Q l) (lerp P Q u) c = height f P Q (l + c * (u - l)) := by
  simp only [height, lerp_lerp]

theorem tolZ_pos : (0 : K) < tolZ := by unfold tolZ; positivity

theorem falsi_succ (f : K → K → K) (n : ℕ) (p1 p2 : V3 K) (a h : K) :
    falsi f (n + 1) p1 a p2 h = if (h - a) - (p2.z - p1.z) = 0 then .nonFinite
      else (fun q : V3 K => if |f q.x q.y - q.z| > tolZ then
          if f q.x q.y - q.z < 0 then falsi f n q (f q.x q.y) p2 h else falsi f n p1 a q (f q.x q.y)
        else .found q)
        ⟨p1.x + (p1.z - a) / ((h - a) - (p2.z - p1.z)) * (p2.x - p1.x),
          p1.y + (p1.z - a) / ((h - a) - (p2.z - p1.z)) * (p2.y - p1.y),
          p1.z + (p1.z - a) / ((h - a) - (p2.z - p1.z)) * (p2.z - p1.z)⟩ := rfl

/-- One iteration of the regula falsi, in terms of parameters on the line. -/
theorem falsi_step (f : K → K → K) (P Q : V3 K) (n : ℕ) (l u : K) :
    falsi f (n + 1) (lerp P Q l) (f (lerp P Q l).x (lerp P Q l).y) (lerp P Q u)
        (f (lerp P Q u).x (lerp P Q u).y) =
      if height f P Q l - height f P Q u = 0 then .nonFinite
      else
        let q := l + height f P Q l / (height f P Q l - height f P Q u) * (u - l)
        if |height f P Q q| > tolZ then
          if 0 < height f P Q q then
            falsi f n (lerp P Q q) (f (lerp P Q q).x (lerp P Q q).y) (lerp P Q u)
              (f (lerp P Q u).x (lerp P Q u).y)
          else
            falsi f n (lerp P Q l) (f (lerp P Q l).x (lerp P Q l).y) (lerp P Q q)
              (f (lerp P Q q).x (lerp P Q q).y)
        else .found (lerp P Q q) := by
  have e1 : (f (lerp P Q u).x (lerp P Q u).y - f (lerp P Q l).x (lerp P Q l).y) -
      ((lerp P Q u).z - (lerp P Q l).z) = height f P Q l - height f P Q u := by
    simp only [height]; ring
  have e2 : (lerp P Q l).z - f (lerp P Q l).x (lerp P Q l).y = height f P Q l := rfl
  have e3 : ∀ c : K, (⟨(lerp P Q l).x + c * ((lerp P Q u).x - (lerp P Q l).x),
      (lerp P Q l).y + c * ((lerp P Q u).y - (lerp P Q l).y),
      (lerp P Q l).z + c * ((lerp P Q u).z - (lerp P Q l).z)⟩ : V3 K) = lerp P Q (l + c * (u - l)) :=
    fun c => lerp_lerp P Q l u c
  rw [falsi_succ, e1, e2, e3]
  dsimp only
  generalize l + height f P Q l / (height f P Q l - height f P Q u) * (u - l) = q
  have e4 : f (lerp P Q q).x (lerp P Q q).y - (lerp P Q q).z = -height f P Q q := by
    simp only [height]; ring
  simp only [e4, abs_neg, neg_lt_zero]

/-- The regula falsi only reports points within the tolerance, whatever it starts from. -/
theorem falsi_found_tol (f : K → K → K) : ∀ (n : ℕ) (p1 p2 : V3 K) (a h : K) (q : V3 K),
    falsi f n p1 a p2 h = .found q → |f q.x q.y - q.z| ≤ tolZ := by
  intro n
  induction n with
  | zero => intro p1 p2 a h q hq; simp [falsi] at hq
  | succ n ih =>
    intro p1 p2 a h q hq
    simp only [falsi] at hq
    split_ifs at hq with h1 h2 h3
    · exact ih _ _ _ _ _ hq
    · exact ih _ _ _ _ _ hq
    · injection hq with hq
      rw [← hq]
      exact not_lt.mp h2

/-- The regula falsi only reports points of the line it works on. -/
theorem falsi_found_line (f : K → K → K) (P Q : V3 K) : ∀ (n : ℕ) (l u : K) (q : V3 K),
    falsi f n (lerp P Q l) (f (lerp P Q l).x (lerp P Q l).y) (lerp P Q u)
      (f (lerp P Q u).x (lerp P Q u).y) = .found q → ∃ t, q = lerp P Q t := by
  intro n
  induction n with
  | zero => intro l u q hq; simp [falsi] at hq
  | succ n ih =>
    intro l u q hq
    rw [falsi_step] at hq
    dsimp only at hq
    split_ifs at hq with h1 h2 h3
    · exact ih _ _ _ hq
    · exact ih _ _ _ hq
    · injection hq with hq
      exact ⟨_, hq.symm⟩

theorem falsi_not_marchFuel (f : K → K → K) : ∀ (n : ℕ) (p1 p2 : V3 K) (a h : K),
    falsi f n p1 a p2 h ≠ .marchFuel ∧ falsi f n p1 a p2 h ≠ .notFound := by
  intro n
  induction n with
  | zero => intro p1 p2 a h; simp [falsi]
  | succ n ih =>
    intro p1 p2 a h
    simp only [falsi]
    split_ifs with h1 h2 h3
    · simp
    · exact ih _ _ _ _
    · exact ih _ _ _ _
    · simp

theorem secant_between {x y l u : K} (hx : 0 ≤ x) (hy : y ≤ 0) (hne : x - y ≠ 0) (hlu : l ≤ u) :
    l ≤ l + x / (x - y) * (u - l) ∧ l + x / (x - y) * (u - l) ≤ u := by
  have hpos : 0 < x - y := lt_of_le_of_ne (by linarith) (Ne.symm hne)
  have h0 : 0 ≤ x / (x - y) := div_nonneg hx hpos.le
  have h1 : x / (x - y) ≤ 1 := by rw [div_le_one hpos]; linarith
  constructor
  · have := mul_nonneg h0 (sub_nonneg.mpr hlu); linarith
  · have := mul_le_of_le_one_left (sub_nonneg.mpr hlu) h1; linarith

/-- From a bracket (above at `l`, below at `u`), whatever the fuel, the outcome is a point of the
bracketed part of the line, or exhausted fuel, or a 0/0 when both ends are on the surface. -/
theorem falsi_bracket_cases (f : K → K → K) (P Q : V3 K) : ∀ (n : ℕ) (l u : K), l ≤ u →
    0 ≤ height f P Q l → height f P Q u ≤ 0 →
    (∃ t, l ≤ t ∧ t ≤ u ∧ falsi f n (lerp P Q l) (f (lerp P Q l).x (lerp P Q l).y) (lerp P Q u)
      (f (lerp P Q u).x (lerp P Q u).y) = .found (lerp P Q t)) ∨
    falsi f n (lerp P Q l) (f (lerp P Q l).x (lerp P Q l).y) (lerp P Q u)
      (f (lerp P Q u).x (lerp P Q u).y) = .falsiFuel ∨
    (height f P Q l = 0 ∧ height f P Q u = 0 ∧
      falsi f n (lerp P Q l) (f (lerp P Q l).x (lerp P Q l).y) (lerp P Q u)
      (f (lerp P Q u).x (lerp P Q u).y) = .nonFinite) := by
  intro n
  induction n with
  | zero => intro l u _ _ _; right; left; simp [falsi]
  | succ n ih =>
    intro l u hlu hl hu
    rw [falsi_step]
    dsimp only
    split_ifs with h1 h2 h3
    · right; right; exact ⟨by linarith, by linarith, rfl⟩
    · obtain ⟨s1, s2⟩ := secant_between hl hu h1 hlu
      rcases ih _ u s2 h3.le hu with ⟨t, t1, t2, ht⟩ | ht | ⟨z1, _, _⟩
      · exact .inl ⟨t, s1.trans t1, t2, ht⟩
      · exact .inr (.inl ht)
      · exact absurd z1 h3.ne'
    · obtain ⟨s1, s2⟩ := secant_between hl hu h1 hlu
      rcases ih l _ s1 hl (not_lt.mp h3) with ⟨t, t1, t2, ht⟩ | ht | ⟨_, z2, _⟩
      · exact .inl ⟨t, t1, t2.trans s2, ht⟩
      · exact .inr (.inl ht)
      · rw [z2, abs_zero] at h2; exact absurd h2 (not_lt.mpr tolZ_pos.le)
    · obtain ⟨s1, s2⟩ := secant_between hl hu h1 hlu
      exact .inl ⟨_, s1, s2, rfl⟩

/-- Termination measure of the regula falsi under a Lipschitz bound. -/
theorem falsi_bracket_terminates (f : K → K → K) (P Q : V3 K) (L : K) (hL : 0 < L)
    (hlip : ∀ s t, 0 ≤ s → s ≤ t → t ≤ 1 → height f P Q s - height f P Q t ≤ L * (t - s)) :
    ∀ (n : ℕ) (l u : K), 0 ≤ l → l ≤ u → u ≤ 1 → 0 ≤ height f P Q l → height f P Q u ≤ 0 →
    height f P Q l - height f P Q u ≠ 0 →
    (u - l) + ((if height f P Q l > tolZ then 0 else 1) + (if height f P Q u < -tolZ then 0 else 1) + 1) *
      (tolZ / L) ≤ n * (tolZ / L) →
    ∃ t, l ≤ t ∧ t ≤ u ∧ falsi f n (lerp P Q l) (f (lerp P Q l).x (lerp P Q l).y) (lerp P Q u)
      (f (lerp P Q u).x (lerp P Q u).y) = .found (lerp P Q t) := by
  have hδ : 0 < (tolZ : K) / L := div_pos tolZ_pos hL
  intro n
  induction n with
  | zero =>
    intro l u _ hlu _ _ _ _ hn
    exfalso
    have : (0 : K) < (u - l) + ((if height f P Q l > tolZ then 0 else 1) +
        (if height f P Q u < -tolZ then 0 else 1) + 1) * (tolZ / L) := by
      have h1 : (0 : K) ≤ (if height f P Q l > tolZ then 0 else 1) := by split_ifs <;> norm_num
      have h2 : (0 : K) ≤ (if height f P Q u < -tolZ then 0 else 1) := by split_ifs <;> norm_num
      have h3 := mul_pos (show (0 : K) < (if height f P Q l > tolZ then 0 else 1) +
        (if height f P Q u < -tolZ then 0 else 1) + 1 by linarith) hδ
      linarith
    simp only [Nat.cast_zero, zero_mul] at hn
    linarith
  | succ n ih =>
    intro l u l0 hlu u1 hl hu hne hn
    obtain ⟨s1, s2⟩ := secant_between hl hu hne hlu
    have hpos : 0 < height f P Q l - height f P Q u := lt_of_le_of_ne (by linarith) (Ne.symm hne)
    have hlu' := hlip l u l0 hlu u1
    -- quotient (u-l)/(x-y) is at least 1/L
    have hquot : 1 / L ≤ (u - l) / (height f P Q l - height f P Q u) := by
      rw [div_le_div_iff₀ hL hpos]; linarith
    rw [falsi_step, if_neg hne]
    dsimp only
    set x := height f P Q l with hx
    set y := height f P Q u with hy
    have shift1 : x / (x - y) * (u - l) = x * ((u - l) / (x - y)) := by ring
    have shift2 : (u - l) - x / (x - y) * (u - l) = -y * ((u - l) / (x - y)) := by field_simp; ring
    set q := l + x / (x - y) * (u - l) with hq
    push_cast at hn
    split_ifs with h2 h3
    · have hqt : height f P Q q > tolZ := by rwa [abs_of_pos h3] at h2
      have hstep : (u - q) + ((if height f P Q q > tolZ then 0 else 1) + (if y < -tolZ then 0 else 1) + 1) *
          (tolZ / L) ≤ n * (tolZ / L) := by
        rw [if_pos hqt]
        by_cases hxt : x > tolZ
        · rw [if_pos hxt] at hn
          have : tolZ / L ≤ x * ((u - l) / (x - y)) := by
            have := mul_le_mul hxt.le hquot (by positivity) (by linarith)
            rwa [mul_one_div] at this
          have : q = l + x * ((u - l) / (x - y)) := by rw [hq, shift1]
          linarith
        · rw [if_neg hxt] at hn
          linarith
      obtain ⟨t, t1, t2, ht⟩ := ih q u (l0.trans s1) s2 u1 h3.le hu (by have := tolZ_pos (K := K); intro h; linarith) hstep
      exact ⟨t, s1.trans t1, t2, ht⟩
    · have hqt : height f P Q q < -tolZ := by
        rw [abs_of_nonpos (not_lt.mp h3)] at h2; linarith
      have hstep : (q - l) + ((if x > tolZ then 0 else 1) + (if height f P Q q < -tolZ then 0 else 1) + 1) *
          (tolZ / L) ≤ n * (tolZ / L) := by
        rw [if_pos hqt]
        by_cases hyt : y < -tolZ
        · rw [if_pos hyt] at hn
          have : tolZ / L ≤ -y * ((u - l) / (x - y)) := by
            have := mul_le_mul (show tolZ ≤ -y by linarith) hquot (by positivity) (by linarith)
            rwa [mul_one_div] at this
          linarith
        · rw [if_neg hyt] at hn
          linarith
      obtain ⟨t, t1, t2, ht⟩ := ih l q l0 s1 (s2.trans u1) hl (not_lt.mp h3)
        (by have := tolZ_pos (K := K); intro h; linarith) hstep
      exact ⟨t, t1, t2.trans s2, ht⟩
    · exact ⟨q, s1, s2, rfl⟩

/-- The height above a bilinear function is Lipschitz along a segment. -/
theorem height_lipschitz (f : K → K → K) (P Q : V3 K) (g : K → K → K) (hg : IsBilinear g)
    (hfg : ∀ t, 0 ≤ t → t ≤ 1 → f (lerp P Q t).x (lerp P Q t).y = g (lerp P Q t).x (lerp P Q t).y) :
    ∃ L, 0 < L ∧ ∀ s t, 0 ≤ s → s ≤ t → t ≤ 1 → height f P Q s - height f P Q t ≤ L * (t - s) := by
  obtain ⟨A, B, C, D, hb⟩ := hg
  refine ⟨|(Q.z - P.z) - B * (Q.x - P.x) - C * (Q.y - P.y) - D * (P.x * (Q.y - P.y) + P.y * (Q.x - P.x))|
    + 2 * |D * (Q.x - P.x) * (Q.y - P.y)| + 1, by positivity, ?_⟩
  intro s t s0 hst t1
  simp only [height]
  rw [hfg s s0 (hst.trans t1), hfg t (s0.trans hst) t1, hb, hb]
  simp only [lerp]
  set U := (Q.z - P.z) - B * (Q.x - P.x) - C * (Q.y - P.y) - D * (P.x * (Q.y - P.y) + P.y * (Q.x - P.x)) with hU
  set W := D * (Q.x - P.x) * (Q.y - P.y) with hW
  have e : (P.z + s * (Q.z - P.z) - (A + B * (P.x + s * (Q.x - P.x)) + C * (P.y + s * (Q.y - P.y)) +
      D * (P.x + s * (Q.x - P.x)) * (P.y + s * (Q.y - P.y)))) -
      (P.z + t * (Q.z - P.z) - (A + B * (P.x + t * (Q.x - P.x)) + C * (P.y + t * (Q.y - P.y)) +
      D * (P.x + t * (Q.x - P.x)) * (P.y + t * (Q.y - P.y)))) = (-U + (s + t) * W) * (t - s) := by
    rw [hU, hW]; ring
  rw [e]
  apply mul_le_mul_of_nonneg_right _ (sub_nonneg.mpr hst)
  have h1 : -U ≤ |U| := neg_le_abs U
  have h2 : (s + t) * W ≤ 2 * |W| := by
    have : (s + t) * W ≤ (s + t) * |W| := mul_le_mul_of_nonneg_left (le_abs_self W) (by linarith)
    have : (s + t) * |W| ≤ 2 * |W| := mul_le_mul_of_nonneg_right (by linarith) (abs_nonneg W)
    linarith
  linarith

/-- Under a Lipschitz bound and a proper bracket, some amount of fuel is always enough. -/
theorem falsi_eventually (f : K → K → K) (P Q : V3 K) (L : K) (hL : 0 < L)
    (hlip : ∀ s t, 0 ≤ s → s ≤ t → t ≤ 1 → height f P Q s - height f P Q t ≤ L * (t - s))
    (h0 : 0 ≤ height f P Q 0) (h1 : height f P Q 1 ≤ 0) (hne : height f P Q 0 - height f P Q 1 ≠ 0) :
    ∃ N, ∀ n, N ≤ n → ∃ t, 0 ≤ t ∧ t ≤ 1 ∧ falsi f n P (f P.x P.y) Q (f Q.x Q.y) = .found (lerp P Q t) := by
  have hδ : 0 < (tolZ : K) / L := div_pos tolZ_pos hL
  obtain ⟨N, hN⟩ := exists_nat_gt (1 / (tolZ / L) + 3 : K)
  refine ⟨N, fun n hn => ?_⟩
  have key := falsi_bracket_terminates f P Q L hL hlip n 0 1 (le_refl _) zero_le_one (le_refl _) h0 h1 hne ?_
  · simpa only [lerp_zero, lerp_one] using key
  · have hnN : (N : K) ≤ n := by exact_mod_cast hn
    have h2 : (1 / (tolZ / L) + 3) * (tolZ / L) ≤ n * (tolZ / L) :=
      mul_le_mul_of_nonneg_right (by linarith) hδ.le
    have h3 : (1 / (tolZ / L) + 3) * ((tolZ : K) / L) = 1 + 3 * (tolZ / L) := by
      rw [add_mul, one_div, inv_mul_cancel₀ hδ.ne']
    have a1 : ((if height f P Q 0 > tolZ then 0 else 1) : K) ≤ 1 := by split_ifs <;> norm_num
    have a2 : ((if height f P Q 1 < -tolZ then 0 else 1) : K) ≤ 1 := by split_ifs <;> norm_num
    have h4 := mul_le_mul_of_nonneg_right (show ((if height f P Q 0 > tolZ then 0 else 1) : K) +
        (if height f P Q 1 < -tolZ then 0 else 1) + 1 ≤ 3 by linarith) hδ.le
    linarith

end Shareloc
