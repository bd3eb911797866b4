import Verif.Props.Strip
import Verif.Spec.Lines

/-!
# C45: adaptive epipolar step
-/

set_option linter.unusedSectionVars false

namespace Shareloc
variable {K : Type*} [Field K] [LinearOrder K] [IsStrictOrderedRing K]

/-- The largest ratio of the adaptive step. -/
def Adaptive.worst (a : Adaptive K) : K := a.maxRatio + (a.maxRatio - 1) * a.scale

/-- The parameters make sense: positive resolution, ratios at least 1, scale not negative. -/
def Adaptive.Ok (a : Adaptive K) : Prop := 0 < a.ref ∧ 1 ≤ a.maxRatio ∧ 0 ≤ a.scale

theorem Adaptive.Ok.one_le_worst {a : Adaptive K} (h : a.Ok) : 1 ≤ a.worst := by
  obtain ⟨-, h2, h3⟩ := h
  have : 0 ≤ (a.maxRatio - 1) * a.scale := mul_nonneg (by linarith) h3
  unfold Adaptive.worst
  linarith

/-- C45. The ratio of a step is at least 1 and at most the worst one, whatever the altitudes; it is exactly 1 on a flat
terrain. -/
theorem C45_ratio_bounds (t : Trig K) (hs : IsSqrt t.sqrt) (a : Adaptive K) (ha : a.Ok) (z1 z0 : K) :
    ∃ r, adaptRatio t a (some z1) (some z0) = some r ∧ 1 ≤ r ∧ r ≤ a.worst ∧ (z1 = z0 → r = 1) := by
  obtain ⟨h1, h2, h3⟩ := ha
  set d := |z1 - z0| with hd
  obtain ⟨q1, q2⟩ := hs (d * d + a.ref * a.ref) (by positivity)
  have hq : a.ref ≤ t.sqrt (d * d + a.ref * a.ref) := by
    by_contra hcon
    push Not at hcon
    nlinarith [mul_self_nonneg d]
  have hr : 1 ≤ t.sqrt (d * d + a.ref * a.ref) / a.ref := by rw [le_div_iff₀ h1]; linarith
  refine ⟨_, by simp only [adaptRatio, h1.ne', false_and, false_or, if_false]; rfl, ?_, ?_, ?_⟩
  · simp only [← hd]
    split
    · have : 0 ≤ (a.maxRatio - 1) * a.scale := mul_nonneg (by linarith) h3
      linarith
    · have : 0 ≤ (t.sqrt (d * d + a.ref * a.ref) / a.ref - 1) * a.scale := mul_nonneg (by linarith) h3
      linarith
  · simp only [← hd, Adaptive.worst]
    split
    · exact le_rfl
    · rename_i hle
      push Not at hle
      have : (t.sqrt (d * d + a.ref * a.ref) / a.ref - 1) * a.scale ≤ (a.maxRatio - 1) * a.scale :=
        mul_le_mul_of_nonneg_right (by linarith) h3
      linarith
  · rintro rfl
    have hd0 : d = 0 := by simp [hd]
    have hsq : t.sqrt (d * d + a.ref * a.ref) = a.ref := by
      rw [hd0] at q1 q2 ⊢
      simp only [mul_zero, zero_add] at q1 q2 ⊢
      nlinarith
    simp only [← hd, hsq, div_self h1.ne', show ¬ (1 : K) > a.maxRatio by push Not; exact h2, if_false]
    ring

/-- C45. The value of the ratio: the hypotenuse of the altitude difference and of the reference distance over the reference
distance, at most `max_ratio`, moved away from 1 by the scale. -/
theorem C45_ratio_value (t : Trig K) (a : Adaptive K) (ha : 0 < a.ref) (z1 z0 : K) :
    adaptRatio t a (some z1) (some z0) =
      some (min (t.sqrt ((z1 - z0) ^ 2 + a.ref ^ 2) / a.ref) a.maxRatio +
        (min (t.sqrt ((z1 - z0) ^ 2 + a.ref ^ 2) / a.ref) a.maxRatio - 1) * a.scale) := by
  have e : |z1 - z0| * |z1 - z0| + a.ref * a.ref = (z1 - z0) ^ 2 + a.ref ^ 2 := by rw [abs_mul_abs_self]; ring
  simp only [adaptRatio, ha.ne', false_and, false_or, if_false, e]
  split
  · rename_i h; rw [min_eq_right h.le]
  · rename_i h; rw [min_eq_left (not_lt.1 h)]

/-- C45. A reference distance of 0 (an epipolar resolution that could not be measured): the ratio is not a number where the
ground is flat, so the point is lost, and the largest one elsewhere. -/
theorem C45_null_reference (t : Trig K) (a : Adaptive K) (ha : a.ref = 0) (z1 z0 : K) :
    adaptRatio t a (some z1) (some z0) = if z1 = z0 then none else some a.worst := by
  by_cases h : z1 = z0
  · simp [adaptRatio, ha, h]
  · have : z1 - z0 ≠ 0 := sub_ne_zero.2 h
    simp [adaptRatio, ha, h, this, Adaptive.worst]

example : adaptRatio (⟨id, id, id, id, 1⟩ : Trig ℚ) ⟨0, 1, 3⟩ (some 2) (some 1) = some 5 := by decide +kernel

/-- Sums and ratios of a step. -/
theorem stripStep_adaptive {t : Trig K} {m : Stereo K} {spacing step off : K} {axis : ℤ} {a : Adaptive K}
    {st st' : StripState K} {l : Layer K} (h : stripStep t m spacing step off axis (some a) st = .ok (l, st')) :
    (∃ z1 z0, l.ratio = List.zipWith (adaptRatio t a) z1 z0) ∧
    st'.sums = List.zipWith (olift2 fun s r => s + 1 / r) st.sums l.ratio ∧
    l.left = zipWith3 rescale l.ratio (List.zipWith (movePoint t spacing step axis) st.left st.angles) st.left ∧
    st'.left = l.left := by
  unfold stripStep at h
  cases hm : movingAlongAxis t m st.left spacing step st.angles axis with
  | error e => rw [hm] at h; simp at h
  | ok r =>
    obtain ⟨nl, nr, ng⟩ := r
    rw [hm] at h
    simp only at h
    generalize hL : localEpipolarLine m _ off = x at h
    cases x with
    | error e => simp at h
    | ok r =>
      obtain ⟨starts, ends, ground⟩ := r
      simp only [Except.ok.injEq, Prod.mk.injEq] at h
      obtain ⟨rfl, rfl⟩ := h
      obtain ⟨-, e1, -⟩ := movingAlongAxis_ok hm
      exact ⟨⟨_, _, rfl⟩, rfl, by rw [e1], rfl⟩

theorem anyBelow_eq_true {size : ℕ} {sums : List (Option K)} :
    anyBelow size sums = true ↔ ∃ x, some x ∈ sums ∧ x < (size : K) := by
  simp only [anyBelow, List.any_eq_true]
  constructor
  · rintro ⟨o, ho, h⟩
    cases o with
    | none => simp at h
    | some x => exact ⟨x, ho, by simpa using h⟩
  · rintro ⟨x, hx, h⟩
    exact ⟨some x, hx, by simpa using h⟩

theorem mem_zipWith_olift2 {s r : List (Option K)} {f : K → K → K} {x : K}
    (h : some x ∈ List.zipWith (olift2 f) s r) : ∃ y q, some y ∈ s ∧ some q ∈ r ∧ x = f y q := by
  induction s generalizing r with
  | nil => simp at h
  | cons a as ih =>
    cases r with
    | nil => simp at h
    | cons b bs =>
      simp only [List.zipWith_cons_cons, List.mem_cons] at h
      rcases h with h | h
      · cases a with
        | none => simp [olift2] at h
        | some y =>
          cases b with
          | none => simp [olift2] at h
          | some q =>
            simp only [olift2, Option.some.injEq] at h
            exact ⟨y, q, by simp, by simp, h⟩
      · obtain ⟨y, q, h1, h2, h3⟩ := ih h
        exact ⟨y, q, by simp [h1], by simp [h2], h3⟩

theorem ratio_mem_bounds {t : Trig K} (hs : IsSqrt t.sqrt) {a : Adaptive K} (ha : a.Ok) {z1 z0 : List (Option K)} {q : K}
    (h : some q ∈ List.zipWith (adaptRatio t a) z1 z0) : 1 ≤ q ∧ q ≤ a.worst := by
  induction z1 generalizing z0 with
  | nil => simp at h
  | cons x xs ih =>
    cases z0 with
    | nil => simp at h
    | cons y ys =>
      simp only [List.zipWith_cons_cons, List.mem_cons] at h
      rcases h with h | h
      · cases x with
        | none => simp [adaptRatio, olift2] at h
        | some x =>
          cases y with
          | none => simp [adaptRatio, olift2] at h
          | some y =>
            obtain ⟨r, e, b1, b2, -⟩ := C45_ratio_bounds t hs a ha x y
            rw [e] at h
            simp only [Option.some.injEq] at h
            subst h
            exact ⟨b1, b2⟩
      · exact ih h

/-- C45. Whatever the terrain, `(size - 1) × worst ratio` steps are enough: with that much room in the arrays, the loop
stops without writing out of them. -/
theorem C45_steps_bounded (t : Trig K) (hs : IsSqrt t.sqrt) (m : Stereo K) (spacing step off : K) (axis : ℤ)
    (a : Adaptive K) (ha : a.Ok) (size room : ℕ) (st : StripState K)
    (hsum : ∀ x, some x ∈ st.sums → (size : K) ≤ x + room / a.worst) :
    stripLoop t m spacing step off axis (some a) size room st ≠ .error .indexError := by
  have hw : 0 < a.worst := lt_of_lt_of_le one_pos ha.one_le_worst
  induction room generalizing st with
  | zero =>
    unfold stripLoop
    have : anyBelow size st.sums = false := by
      rw [Bool.eq_false_iff]
      intro hcon
      obtain ⟨x, hx, hlt⟩ := anyBelow_eq_true.1 hcon
      have := hsum x hx
      simp at this
      linarith
    simp [this]
  | succ room ih =>
    unfold stripLoop
    split
    · simp only
      cases h1 : stripStep t m spacing step off axis (some a) st with
      | error e =>
        simp only [ne_eq, Except.error.injEq]
        rintro rfl
        exact stripStep_no_indexError h1
      | ok r =>
        obtain ⟨l, st'⟩ := r
        obtain ⟨⟨z1, z0, hr⟩, hsums, -, -⟩ := stripStep_adaptive h1
        have := ih st' (by
          intro x hx
          rw [hsums] at hx
          obtain ⟨y, q, hy, hq, rfl⟩ := mem_zipWith_olift2 hx
          rw [hr] at hq
          obtain ⟨b1, b2⟩ := ratio_mem_bounds hs ha hq
          have h := hsum y hy
          have h2 : 1 / a.worst ≤ 1 / q := one_div_le_one_div_of_le (by linarith) b2
          push_cast at h
          rw [add_div] at h
          linarith)
        simp only
        cases h2 : stripLoop t m spacing step off axis (some a) size room st' with
        | error e =>
          simp only [ne_eq, Except.error.injEq]
          rintro rfl
          exact this h2
        | ok ls => simp
    · simp

/-- C45. Each step moves a left point in the same direction as without adaptive step, by |step × spacing| / ratio: at most
the requested step, at least 1 / worst ratio of it. -/
theorem C45_step_length (spacing step r c z a ratio : ℝ) (hr : 1 ≤ ratio) (axis : ℤ) (hx : axis = 0 ∨ axis = 1) :
    ∃ r' c' r1 c1, movePoint realTrig spacing step axis (pos3 r c z) (some a) = pos3 r1 c1 z ∧
      rescale (some ratio) (movePoint realTrig spacing step axis (pos3 r c z) (some a)) (pos3 r c z) = pos3 r' c' z ∧
      r' - r = (r1 - r) / ratio ∧ c' - c = (c1 - c) / ratio ∧
      Real.sqrt ((r' - r) ^ 2 + (c' - c) ^ 2) = |step * spacing| / ratio := by
  have hpos : 0 < ratio := by linarith
  obtain ⟨r1, c1, e1, e2, -⟩ := C43_length_and_direction spacing step r c a (some z) axis hx
  refine ⟨(r1 - r) / ratio + r, (c1 - c) / ratio + c, r1, c1, e1, ?_, by ring, by ring, ?_⟩
  · rw [pos3, e1]
    simp [rescale, olift2, pos3]
  · rw [show ((r1 - r) / ratio + r - r) ^ 2 + ((c1 - c) / ratio + c - c) ^ 2 = (step * spacing / ratio) ^ 2 by
      rw [div_pow, ← e2]; ring, Real.sqrt_sq_eq_abs, abs_div, abs_of_pos hpos]

variable [FloorRing K]

/-- C45 (part that holds). The strip never writes out of its arrays if the worst ratio fits in them, i.e. if
`(size - 1) × worst ratio` is below `max_strip_size`; the full property asks for it for all the parameters: it is false,
see `C45_slope_overflows`. -/
theorem C45_no_overflow_partial (t : Trig K) (hs : IsSqrt t.sqrt) (m : Stereo K) (left right : List (ORow K)) (spacing : K)
    (axis : ℤ) (size : ℕ) (step off : K) (angles : Option (List (Option K))) (a : Adaptive K) (ha : a.Ok) (hsize : 1 ≤ size)
    (hfit : ((size : K) - 1) * a.worst ≤ (maxStripSize (some a) size : K) - 1) :
    stripOfEpipolarGrid t m left right spacing axis size step off angles (some a) ≠ .error .indexError := by
  have hw : 0 < a.worst := lt_of_lt_of_le one_pos ha.one_le_worst
  have hs1 : (1 : K) ≤ size := by exact_mod_cast hsize
  have hmax : 1 ≤ maxStripSize (some a) size := by
    by_contra hcon
    have h0 : maxStripSize (some a) size = 0 := by omega
    rw [h0] at hfit
    have : 0 ≤ ((size : K) - 1) * a.worst := mul_nonneg (by linarith) hw.le
    norm_num at hfit
    linarith
  have hloc : localEpipolarLine m left off ≠ .error .indexError := by
    intro hL
    unfold localEpipolarLine at hL
    split at hL
    · simp at hL
    · split at hL
      · simp at hL
      · split at hL <;> simp at hL
  have key : ∀ g an, stripLoop t m spacing step off axis (some a) size (maxStripSize (some a) size - 1)
      ⟨left, right, g, an, left.map fun _ => some 1⟩ ≠ .error .indexError := by
    intro g an
    apply C45_steps_bounded t hs m spacing step off axis a ha
    intro x hx
    simp only [List.mem_map] at hx
    obtain ⟨_, -, h⟩ := hx
    simp only [Option.some.injEq] at h
    subst h
    rw [Nat.cast_sub hmax, Nat.cast_one]
    have : (size : K) - 1 ≤ ((maxStripSize (some a) size : K) - 1) / a.worst := by rwa [le_div_iff₀ hw]
    linarith
  intro h
  unfold stripOfEpipolarGrid at h
  simp only [show maxStripSize (some a) size ≠ 0 by omega, if_false] at h
  cases angles with
  | none =>
    simp only at h
    cases h1 : localEpipolarLine m left off with
    | error e =>
      rw [h1] at h
      simp only [Except.error.injEq] at h
      subst h
      exact hloc h1
    | ok r =>
      rw [h1] at h
      simp only at h
      split at h
      · rename_i e he
        simp only [Except.error.injEq] at h
        subst h
        exact key _ _ he
      · split at h <;> simp at h
  | some an =>
    simp only at h
    cases h1 : m.directL (left.map rowCol) with
    | error e => rw [h1] at h; simp at h
    | ok r =>
      rw [h1] at h
      simp only at h
      split at h
      · rename_i e he
        simp only [Except.error.injEq] at h
        subst h
        exact key _ _ he
      · split at h <;> simp at h

/-- The condition of `C45_no_overflow_partial` in terms of the parameters: it holds when the scale is at least
`size - 1`, or when the maximal ratio is 1. -/
theorem C45_fit_condition (a : Adaptive K) (size : ℕ)
    (h : (a.maxRatio - 1) * ((size : K) - 1 - a.scale) ≤ 0) :
    ((size : K) - 1) * a.worst ≤ (maxStripSize (some a) size : K) - 1 := by
  have h1 : (size : K) * ((a.maxRatio - 1) * a.scale + 1) ≤ (maxStripSize (some a) size : K) := by
    simp only [maxStripSize]
    have h2 := Int.le_ceil ((size : K) * ((a.maxRatio - 1) * a.scale + 1))
    have h3 : (⌈(size : K) * ((a.maxRatio - 1) * a.scale + 1)⌉ : ℤ) ≤
        ((⌈(size : K) * ((a.maxRatio - 1) * a.scale + 1)⌉).toNat : ℤ) := Int.self_le_toNat _
    have h4 : ((⌈(size : K) * ((a.maxRatio - 1) * a.scale + 1)⌉ : ℤ) : K) ≤
        (((⌈(size : K) * ((a.maxRatio - 1) * a.scale + 1)⌉).toNat : ℤ) : K) := by exact_mod_cast h3
    rw [Int.cast_natCast] at h4
    exact h2.trans h4
  unfold Adaptive.worst
  nlinarith

/-! ### A steep slope overflows the arrays -/

/-- A terrain of altitude `slope × column` seen with horizontal epipolar lines. -/
def slopeStereo (slope : K) : Stereo K :=
  ⟨fun l => .ok (l.map fun p => (⟨p.1, p.2, p.2.map fun c => slope * c⟩, ⟨p.2, p.1, p.2.map fun c => slope * c⟩)),
   fun l => .ok (l.map fun p => ⟨p.x, olift2 (fun c z => c + z) p.y p.z, p.z⟩),
   fun l => .ok (l.map fun p => ⟨p.2, p.1, p.2.map fun c => slope * c⟩)⟩

/-- The horizontal direction is handled exactly. -/
def Trig.ZeroOk (t : Trig K) : Prop := t.cos 0 = 1 ∧ t.sin 0 = 0 ∧ t.arctan 0 = 0

theorem realTrig_zeroOk : realTrig.ZeroOk := ⟨Real.cos_zero, Real.sin_zero, Real.arctan_zero⟩

theorem slope_step (t : Trig K) (hz : t.ZeroOk) (slope spacing step off : K) (hoff : 0 < off) (a : Adaptive K) (href : a.ref ≠ 0)
    (hcap : a.maxRatio < t.sqrt (|slope * (step * spacing)| * |slope * (step * spacing)| + a.ref * a.ref) / a.ref)
    (r c zz x : K) (R G : ORow K) (hG : G.z = some (slope * c)) :
    ∃ l c' R' G', stripStep t (slopeStereo slope) spacing step off 1 (some a)
      ⟨[pos3 r c zz], [R], [G], [some 0], [some x]⟩ =
      .ok (l, ⟨[pos3 r c' zz], [R'], [G'], [some 0], [some (x + 1 / a.worst)]⟩) ∧ G'.z = some (slope * c') := by
  obtain ⟨z1, z2, z3⟩ := hz
  have e : slope * (c + step * spacing) - slope * c = slope * (step * spacing) := by ring
  have hratio : adaptRatio t a (some (slope * (c + step * spacing))) (some (slope * c)) = some a.worst := by
    simp only [adaptRatio, e, gt_iff_lt, hcap, href, false_and, or_true, if_false, if_true, Adaptive.worst]
  have hz0 : zz + (zz - zz) / a.worst = zz := by simp
  have hr0 : r + (r - r) / a.worst = r := by simp
  have hlt : ∀ y : K, y + (slope * y + -off) < y + (slope * y + off) := fun y => by linarith
  refine ⟨?l, (c + step * spacing - c) / a.worst + c,
    rescale (some a.worst) ⟨some r, some (c + step * spacing), some (slope * (c + step * spacing))⟩ R,
    ⟨some ((c + step * spacing - c) / a.worst + c), some r, some (slope * ((c + step * spacing - c) / a.worst + c))⟩, ?eq, rfl⟩
  case eq =>
    simp only [stripStep, movingAlongAxis, slopeStereo, movePoint, pos3, olift2, localEpipolarLine, shiftAlt, rowCol,
      List.zipWith_cons_cons, List.zipWith_nil_left, List.map_cons, List.map_nil, Option.map_some, Int.cast_one, sub_self,
      zero_mul, zero_div, add_zero, z1, z2, mul_one, mul_zero, hG, hratio, zipWith3, rescale, ne_eq, one_ne_zero,
      not_true_eq_false, and_false, if_false, epipolarAngle, (hlt _).ne', hlt, if_true, z3, gt_iff_lt, zero_add]
    rfl

/-- As long as the sum stays below the size, the loop goes on until the arrays are full. -/
theorem slope_loop (t : Trig K) (hz : t.ZeroOk) (slope spacing step off : K) (hoff : 0 < off) (a : Adaptive K) (ha : a.Ok)
    (hcap : a.maxRatio < t.sqrt (|slope * (step * spacing)| * |slope * (step * spacing)| + a.ref * a.ref) / a.ref)
    (size room : ℕ) (r c zz x : K) (R G : ORow K) (hG : G.z = some (slope * c)) (hx : x + room / a.worst < size) :
    stripLoop t (slopeStereo slope) spacing step off 1 (some a) size room ⟨[pos3 r c zz], [R], [G], [some 0], [some x]⟩ =
      .error .indexError := by
  have hw : 0 < a.worst := lt_of_lt_of_le one_pos ha.one_le_worst
  induction room generalizing c x R G with
  | zero =>
    unfold stripLoop
    have : anyBelow size [some x] = true := anyBelow_eq_true.2 ⟨x, by simp, by simpa using hx⟩
    simp [this]
  | succ room ih =>
    unfold stripLoop
    have hp : (0 : K) ≤ ((room + 1 : ℕ) : K) / a.worst := by positivity
    have : anyBelow size [some x] = true := anyBelow_eq_true.2 ⟨x, by simp, by linarith⟩
    simp only [this, if_true]
    obtain ⟨l, c', R', G', e, hG'⟩ := slope_step t hz slope spacing step off hoff a ha.1.ne' hcap r c zz x R G hG
    rw [e]
    simp only
    rw [ih c' (x + 1 / a.worst) R' G' hG']
    push_cast at hx
    rw [add_div] at hx
    linarith

/-- C45 is false in general. On a steep enough regular slope (all the ratios are capped), as soon as
`(size - 1) × worst ratio` exceeds the room of the arrays, the strip raises an IndexError. -/
theorem C45_slope_overflows (t : Trig K) (hz : t.ZeroOk) (slope spacing step off : K) (hoff : 0 < off) (a : Adaptive K)
    (ha : a.Ok)
    (hcap : a.maxRatio < t.sqrt (|slope * (step * spacing)| * |slope * (step * spacing)| + a.ref * a.ref) / a.ref)
    (size : ℕ) (r c zz : K) (R : ORow K) (hmax : 1 ≤ maxStripSize (some a) size)
    (hover : (maxStripSize (some a) size : K) - 1 < ((size : K) - 1) * a.worst) :
    stripOfEpipolarGrid t (slopeStereo slope) [pos3 r c zz] [R] spacing 1 size step off (some [some 0]) (some a) =
      .error .indexError := by
  have hw : 0 < a.worst := lt_of_lt_of_le one_pos ha.one_le_worst
  unfold stripOfEpipolarGrid
  simp only [show maxStripSize (some a) size ≠ 0 by omega, if_false, slopeStereo, List.map_cons, List.map_nil]
  have := slope_loop t hz slope spacing step off hoff a ha hcap size (maxStripSize (some a) size - 1) r c zz 1 R
    ⟨some c, some r, some (slope * c)⟩ rfl (by
      rw [Nat.cast_sub hmax, Nat.cast_one]
      have : ((maxStripSize (some a) size : K) - 1) / a.worst < (size : K) - 1 := by rwa [div_lt_iff₀ hw]
      linarith)
  simp only [slopeStereo] at this
  simp only [rowCol, pos3, Option.map_some] at this ⊢
  rw [this]

/-- With the default parameters (scale 1, maximal ratio 3) every size of at least 4 can overflow. -/
theorem C45_default_parameters_overflow (ref : K) (size : ℕ) (h : 4 ≤ size) :
    (maxStripSize (some (⟨ref, 1, 3⟩ : Adaptive K)) size : K) - 1 < ((size : K) - 1) * (⟨ref, 1, 3⟩ : Adaptive K).worst := by
  have e : maxStripSize (some (⟨ref, 1, 3⟩ : Adaptive K)) size = size * 3 := by
    simp only [maxStripSize]
    rw [show (size : K) * ((3 - 1) * 1 + 1) = ((size * 3 : ℕ) : K) by push_cast; ring, Int.ceil_natCast, Int.toNat_natCast]
  rw [e]
  have : (4 : K) ≤ size := by exact_mod_cast h
  unfold Adaptive.worst
  push_cast
  linarith

/-- A concrete overflow over the reals: scale 1, maximal ratio 3, a slope of 10 with a step of 30 and a resolution of 30,
50 nodes asked. -/
example : stripOfEpipolarGrid realTrig (slopeStereo (10 : ℝ)) [pos3 0 0 0] [pos3 0 0 0] 1 1 50 30 50 (some [some 0])
    (some ⟨30, 1, 3⟩) = .error .indexError := by
  apply C45_slope_overflows realTrig realTrig_zeroOk
  · norm_num
  · exact ⟨by norm_num, by norm_num, by norm_num⟩
  · simp only [realTrig]
    rw [lt_div_iff₀ (by norm_num)]
    apply Real.lt_sqrt_of_sq_lt
    norm_num
  · have : maxStripSize (some (⟨30, 1, 3⟩ : Adaptive ℝ)) 50 = 150 := by
      simp only [maxStripSize]; norm_num; rfl
    rw [this]; norm_num
  · exact C45_default_parameters_overflow 30 50 (by norm_num)

end Shareloc
