import Verif.Props.EpipolarTri

/-!
# C94: the error of the triangulation is bounded by the errors of the lines of sight
-/

set_option linter.unusedSectionVars false

namespace Shareloc
variable {K : Type*} [Field K] [LinearOrder K] [IsStrictOrderedRing K]

/-- Gram determinant of three vectors, two of them of length 1. -/
theorem gram_nonneg (v w d : V3 K) (hv : IsUnitVec v) (hw : IsUnitVec w) :
    0 ≤ (d.x ^ 2 + d.y ^ 2 + d.z ^ 2) * (1 - v.dot w ^ 2) - d.dot v ^ 2 - d.dot w ^ 2 + 2 * (d.dot v * d.dot w * v.dot w) := by
  have h : (d.x ^ 2 + d.y ^ 2 + d.z ^ 2) * (1 - v.dot w ^ 2) - d.dot v ^ 2 - d.dot w ^ 2 + 2 * (d.dot v * d.dot w * v.dot w) =
      (d.dot (v.cross w)) ^ 2 := by
    unfold IsUnitVec at hv hw
    simp only [V3.dot, V3.cross]
    set n := d.x ^ 2 + d.y ^ 2 + d.z ^ 2 with hn
    have e1 : v.z ^ 2 = 1 - v.x ^ 2 - v.y ^ 2 := by linear_combination hv
    have e2 : w.z ^ 2 = 1 - w.x ^ 2 - w.y ^ 2 := by linear_combination hw
    linear_combination (-(n) * (w.x ^ 2 + w.y ^ 2 + w.z ^ 2) + (d.x * w.x + d.y * w.y + d.z * w.z) ^ 2) * hv +
      (-n + (d.x * v.x + d.y * v.y + d.z * v.z) ^ 2) * hw
  rw [h]
  positivity

theorem pair_bound (v w d : V3 K) (hv : IsUnitVec v) (hw : IsUnitVec w) :
    (1 - |v.dot w|) * (d.x ^ 2 + d.y ^ 2 + d.z ^ 2) ≤ crossSq (⟨0, 0, 0⟩, v) d + crossSq (⟨0, 0, 0⟩, w) d := by
  have hc : ∀ v : V3 K, IsUnitVec v → crossSq (⟨0, 0, 0⟩, v) d = d.x ^ 2 + d.y ^ 2 + d.z ^ 2 - d.dot v ^ 2 := by
    intro v hv
    unfold IsUnitVec at hv
    simp only [crossSq, V3.minus, V3.cross, V3.dot]
    linear_combination (d.x ^ 2 + d.y ^ 2 + d.z ^ 2) * hv
  have h0 := crossSq_nonneg (⟨0, 0, 0⟩, v) d
  have h0' := crossSq_nonneg (⟨0, 0, 0⟩, w) d
  by_cases h1 : 1 ≤ |v.dot w|
  · have : (1 - |v.dot w|) * (d.x ^ 2 + d.y ^ 2 + d.z ^ 2) ≤ 0 :=
      mul_nonpos_of_nonpos_of_nonneg (by linarith) (by positivity)
    linarith
  · rw [not_le] at h1
    rw [hc v hv, hc w hw]
    have g := gram_nonneg v w d hv hw
    set n := d.x ^ 2 + d.y ^ 2 + d.z ^ 2
    set a := d.dot v
    set b := d.dot w
    set c := v.dot w
    have hab : 2 * (a * b * c) ≤ |c| * (a ^ 2 + b ^ 2) := by
      have : a * b * c ≤ |a * b * c| := le_abs_self _
      rw [abs_mul, abs_mul] at this
      have h2 : 2 * (|a| * |b|) ≤ a ^ 2 + b ^ 2 := by
        rw [← sq_abs a, ← sq_abs b]
        nlinarith [sq_nonneg (|a| - |b|)]
      nlinarith [abs_nonneg c]
    have hcc : c ^ 2 = |c| * |c| := by rw [← sq_abs, sq]
    have : (1 - |c|) * (a ^ 2 + b ^ 2) ≤ (1 - |c|) * ((1 + |c|) * n) := by
      rw [hcc] at g
      nlinarith
    have := le_of_mul_le_mul_left this (by linarith)
    linarith

/-- C94. A point at squared distances `D` of the lines of sight: the point triangulated is near it, all the more as two of the lines
are far from parallel, and near the lines. -/
theorem C94_n_views (views : List (V3 K × V3 K)) (hu : ∀ w ∈ views, IsUnitVec w.2) (p p0 : V3 K)
    (hp : nViewPoint (views.map toView) = .ok p) (D : V3 K × V3 K → K) (hD : ∀ w ∈ views, IsSqDistLine w.1 w.2 p0 (D w)) :
    (∀ v ∈ views, ∀ w ∈ views, (1 - |v.2.dot w.2|) * sqDist p p0 ≤ (views.map D).sum) ∧
    ∀ w ∈ views, ∀ d, IsSqDistLine w.1 w.2 p d → d ≤ (views.map D).sum := by
  have hDe : (views.map D) = views.map fun w => crossSq w p0 := by
    apply List.map_congr_left
    intro w hw
    exact isSqDistLine_unique _ _ _ _ _ (hD w hw) (crossSq_isSqDistLine w.1 w.2 p0 (hu w hw))
  rw [hDe]
  have hle := (C36_minimises views hu p hp crossSq (fun w hw q => crossSq_isSqDistLine w.1 w.2 q (hu w hw)) p0).1
  refine ⟨fun v hv w hw => ?_, fun w hw d hd => ?_⟩
  · have hsum0 : 0 ≤ (views.map fun w => crossSq w p0).sum := by
      apply List.sum_nonneg
      intro x hx
      obtain ⟨w, _, rfl⟩ := List.mem_map.1 hx
      exact crossSq_nonneg _ _
    by_cases hvw : v = w
    · subst hvw
      have : v.2.dot v.2 = 1 := by
        have := hu v hv
        unfold IsUnitVec at this
        simp only [V3.dot]
        linear_combination this
      rw [this, abs_one, sub_self, zero_mul]
      exact hsum0
    · obtain ⟨hdet, hsol⟩ := nViewPoint_ok _ p hp
      have hexp := sum_crossSq_expand views hu p p0
      obtain ⟨s1, s2, s3⟩ := sum_perp views p
      rw [hsol, sub_self] at s1 s2 s3
      rw [s1, s2, s3] at hexp
      have hpp : 0 ≤ (views.map fun w => crossSq w p).sum := by
        apply List.sum_nonneg
        intro x hx
        obtain ⟨w, _, rfl⟩ := List.mem_map.1 hx
        exact crossSq_nonneg _ _
      set g : V3 K × V3 K → K := fun w => crossSq (⟨0, 0, 0⟩, w.2) (p0.minus p) with hg
      have hg0 : ∀ w, 0 ≤ g w := fun w => crossSq_nonneg _ _
      have hpair : g v + g w ≤ (views.map g).sum := by
        obtain ⟨l1, l2, hl⟩ := List.append_of_mem hv
        have hw' : w ∈ l1 ++ l2 := by
          rw [hl] at hw
          simp only [List.mem_append, List.mem_cons] at hw ⊢
          rcases hw with h | h | h
          · exact Or.inl h
          · exact absurd h.symm hvw
          · exact Or.inr h
        have h1 : g w ≤ ((l1 ++ l2).map g).sum :=
          List.single_le_sum (fun x hx => by obtain ⟨y, _, rfl⟩ := List.mem_map.1 hx; exact hg0 y) _ (List.mem_map_of_mem hw')
        rw [hl]
        simp only [List.map_append, List.sum_append, List.map_cons, List.sum_cons] at h1 ⊢
        linarith
      have hb := pair_bound v.2 w.2 (p0.minus p) (hu v hv) (hu w hw)
      have hsq : (p0.minus p).x ^ 2 + (p0.minus p).y ^ 2 + (p0.minus p).z ^ 2 = sqDist p p0 := by
        simp only [V3.minus, sqDist]
        ring
      rw [hsq] at hb
      have : (views.map fun w => crossSq w p0).sum = (views.map fun w => crossSq w p).sum + (views.map g).sum := by
        rw [hexp]; ring
      rw [this]
      linarith
  · have hd' := isSqDistLine_unique _ _ _ _ _ hd (crossSq_isSqDistLine w.1 w.2 p (hu w hw))
    rw [hd']
    refine le_trans ?_ hle
    exact List.single_le_sum (fun x hx => by obtain ⟨y, _, rfl⟩ := List.mem_map.1 hx; exact crossSq_nonneg _ _) _
      (List.mem_map.2 ⟨w, hw, rfl⟩)

/-! ### From the models to the point -/

/-- Specification: `P` is at squared distance at most `e` of a point of the straight line through `a` and `b`. -/
def NearLine (a b P : V3 K) (e : K) : Prop := ∃ t, sqDist P (linePoint b (a.minus b) t) ≤ e

/-- Specification of a model whose location at one altitude, when it returns, locates each pixel as `f` does. -/
def LosModel.LocatesBy (m : LosModel K) (f : K → Bool → Option K → Option K → ORow K) : Prop :=
  ∀ row col alt fill out, row.length = col.length → m.directLocH row col alt fill = .ok out → out = List.zipWith (f alt fill) row col

/-- The model that locates each pixel by `f`, never raising. -/
def pointModel (f : K → Bool → Option K → Option K → ORow K) (alts : K × K) : LosModel K :=
  ⟨fun row col alt fill => .ok (List.zipWith (f alt fill) row col), alts⟩

theorem pointModel_pointwise (f : K → Bool → Option K → Option K → ORow K) (alts : K × K) : (pointModel f alts).Pointwise f :=
  fun _ _ _ _ _ => rfl

theorem losCreation_point {sqrt : K → K} {conv : ORow K → ORow K} {m : LosModel K} {f : K → Bool → Option K → Option K → ORow K}
    (hm : m.LocatesBy f) {pos : List (Option K × Option K)} {mm : Option (K × K)} {fill : Bool} {l : Los K}
    (h : losCreation sqrt conv m pos mm fill = .ok l) : losCreation sqrt conv (pointModel f m.altMinMax) pos mm fill = .ok l := by
  simp only [losCreation, pointModel] at h ⊢
  cases h1 : m.directLocH (pos.map fun p => p.2) (pos.map fun p => p.1) (mm.getD m.altMinMax).2 fill with
  | error e => rw [h1] at h; simp at h
  | ok a =>
    cases h2 : m.directLocH (pos.map fun p => p.2) (pos.map fun p => p.1) (mm.getD m.altMinMax).1 fill with
    | error e => rw [h1, h2] at h; simp at h
    | ok b =>
      rw [h1, h2] at h
      rw [← hm _ _ _ _ a (by simp) h1, ← hm _ _ _ _ b (by simp) h2]
      exact h

theorem sensorTriangulation_point {sqrt : K → K} {toEcef toWgs84 : ORow K → ORow K} {mL mR : LosModel K}
    {fL fR : K → Bool → Option K → Option K → ORow K} (hL : mL.LocatesBy fL) (hR : mR.LocatesBy fR)
    {pts : List ((Option K × Option K) × (Option K × Option K))} {minMaxL minMaxR : Option (K × K)} {residues fill : Bool}
    {res : TriResult K} (h : sensorTriangulation sqrt toEcef toWgs84 mL mR pts minMaxL minMaxR residues fill = .ok res) :
    sensorTriangulation sqrt toEcef toWgs84 (pointModel fL mL.altMinMax) (pointModel fR mR.altMinMax) pts minMaxL minMaxR residues fill =
      .ok res := by
  unfold sensorTriangulation at h ⊢
  cases h1 : losCreation sqrt toEcef mL (pts.map fun t => t.1) minMaxL fill with
  | error e => rw [h1] at h; simp at h
  | ok l =>
    cases h2 : losCreation sqrt toEcef mR (pts.map fun t => t.2) minMaxR fill with
    | error e => rw [h1, h2] at h; simp at h
    | ok r =>
      rw [h1, h2] at h
      rw [losCreation_point hL h1, losCreation_point hR h2]
      exact h

theorem minus_scaled {a b v : V3 K} {n : K} (h : a = linePoint b v n) : a.minus b = ⟨n * v.x, n * v.y, n * v.z⟩ := by
  rw [h]
  simp [linePoint, V3.minus]

/-- A line of sight: the unit vector, and the distance of a point near the straight line. -/
theorem line_of_sight (sqrt : K → K) (hs : IsSqrt sqrt) (a b : V3 K) (hab : a ≠ b) :
    ∃ v n, viewingVector sqrt a.toRow b.toRow = v.toRow ∧ IsUnitVec v ∧ 0 < n ∧ n ^ 2 = sqDist a b ∧ a = linePoint b v n ∧
      ∀ P e, NearLine a b P e → crossSq (a, v) P ≤ e := by
  have hrow : ∀ p : V3 K, rowSome p.toRow = some p := fun p => rfl
  rcases C35_unit_vector sqrt hs a.toRow b.toRow with ⟨-, h | h | h⟩ | ⟨a', b', v, n, ha, hb, -, hv, hu, hn, hn2, hl⟩
  · rw [hrow] at h; cases h
  · rw [hrow] at h; cases h
  · rw [hrow, hrow] at h; exact absurd (Option.some.inj h) hab
  · obtain rfl : a = a' := by have := congrArg rowSome ha; rwa [hrow, hrow, Option.some.injEq] at this
    obtain rfl : b = b' := by have := congrArg rowSome hb; rwa [hrow, hrow, Option.some.injEq] at this
    refine ⟨v, n, hv, hu, hn, hn2, hl, fun P e ⟨t, ht⟩ => ?_⟩
    refine le_trans ((crossSq_isSqDistLine a v P hu).2 ((t - 1) * n)) (le_trans (le_of_eq ?_) ht)
    have e1 := minus_scaled hl
    congr 1
    rw [e1]
    rw [hl]
    simp only [linePoint, V3.mk.injEq]
    exact ⟨by ring, by ring, by ring⟩

/-- C94. When `sensor_triangulation` returns, whatever the other matches: if a point `P` is near both lines of sight of a match, which go
through the locations of its pixels at the two extreme altitudes, the point returned is near `P`, and its residue is small. -/
theorem C94_sensor (sqrt : K → K) (hs : IsSqrt sqrt) (toEcef toWgs84 : ORow K → ORow K) (mL mR : LosModel K)
    (fL fR : K → Bool → Option K → Option K → ORow K) (hL : mL.LocatesBy fL) (hR : mR.LocatesBy fR)
    (pts : List ((Option K × Option K) × (Option K × Option K))) (minMaxL minMaxR : Option (K × K)) (residues fill : Bool)
    (res : TriResult K) (h : sensorTriangulation sqrt toEcef toWgs84 mL mR pts minMaxL minMaxR residues fill = .ok res)
    (n : ℕ) (cl rl cr rr : Option K) (ht : pts[n]? = some ((cl, rl), (cr, rr))) (a b a' b' : V3 K) (hab : a ≠ b) (hab' : a' ≠ b')
    (ha : toEcef (fL (minMaxL.getD mL.altMinMax).2 fill rl cl) = a.toRow) (hb : toEcef (fL (minMaxL.getD mL.altMinMax).1 fill rl cl) = b.toRow)
    (ha' : toEcef (fR (minMaxR.getD mR.altMinMax).2 fill rr cr) = a'.toRow) (hb' : toEcef (fR (minMaxR.getD mR.altMinMax).1 fill rr cr) = b'.toRow)
    (P : V3 K) (e e' : K) (he : NearLine a b P e) (he' : NearLine a' b' P e') :
    ∃ (p : V3 K) (r : K), res.ecef[n]? = some p.toRow ∧ res.wgs84[n]? = some (toWgs84 p.toRow) ∧
      (∀ l, res.residues = some l → l[n]? = some (some r)) ∧ (residues = true → res.residues.isSome) ∧ 0 ≤ r ∧ 2 * r ^ 2 ≤ e + e' ∧
      (∀ c, c ^ 2 * (sqDist a b * sqDist a' b') = (a.minus b).dot (a'.minus b') ^ 2 → (1 - |c|) * sqDist p P ≤ e + e') ∧
      (e + e' ≤ 0 → p = P ∧ r = 0) := by
  obtain ⟨v, m, hv, hu, hm, hm2, hl, hn⟩ := line_of_sight sqrt hs a b hab
  obtain ⟨v', m', hv', hu', hm', hm2', hl', hn'⟩ := line_of_sight sqrt hs a' b' hab'
  have h' := sensorTriangulation_point hL hR h
  rw [sensorTriangulation_eq sqrt toEcef toWgs84 _ _ fL fR (pointModel_pointwise _ _) (pointModel_pointwise _ _)] at h'
  cases hf : forEach (sensorOne sqrt toEcef toWgs84 (pointModel fL mL.altMinMax) (pointModel fR mR.altMinMax) fL fR minMaxL minMaxR fill) pts with
  | error er => rw [hf] at h'; simp at h'
  | ok out =>
    rw [hf] at h'
    simp only [Except.ok.injEq] at h'
    rw [forEach_ok_iff] at hf
    obtain ⟨q, hq, hm1⟩ := forall₂_getElem? hf n _ ht
    simp only [sensorOne, pointModel, ha, hb, ha', hb', hv, hv', matchPoint] at hm1
    have hok : matchOk ((a.toRow, v.toRow), (a'.toRow, v'.toRow)) = true := rfl
    rw [if_pos hok] at hm1
    cases hp : nViewPoint [(a.toRow, v.toRow), (a'.toRow, v'.toRow)] with
    | error er => rw [hp] at hm1; simp at hm1
    | ok p =>
      rw [hp] at hm1
      simp only [Except.ok.injEq] at hm1
      have hp' : nViewPoint ([(a, v), (a', v')].map toView) = .ok p := hp
      have huv : ∀ w ∈ [(a, v), (a', v')], IsUnitVec w.2 := by
        intro w hw
        simp only [List.mem_cons, List.not_mem_nil, or_false] at hw
        rcases hw with rfl | rfl
        · exact hu
        · exact hu'
      obtain ⟨b1, -⟩ := C94_n_views [(a, v), (a', v')] huv p P hp' (fun w => crossSq w P)
        (fun w hw => crossSq_isSqDistLine w.1 w.2 P (huv w hw))
      have hle := (C36_minimises [(a, v), (a', v')] huv p hp' crossSq (fun w hw q => crossSq_isSqDistLine w.1 w.2 q (huv w hw)) P).1
      have heq := (C36_minimises [(a, v), (a', v')] huv p hp' crossSq (fun w hw q => crossSq_isSqDistLine w.1 w.2 q (huv w hw)) P).2
      simp only [List.map_cons, List.map_nil, List.sum_cons, List.sum_nil, add_zero] at hle heq
      have hsum : crossSq (a, v) P + crossSq (a', v') P ≤ e + e' := add_le_add (hn P e he) (hn' P e' he')
      have hr := hs _ (crossSq_nonneg (a, v) p)
      have hres : nViewDistance sqrt a.toRow v.toRow p.toRow = some (sqrt (crossSq (a, v) p)) := rfl
      have htwo := fun s : K → K => C38_two_views_equal s (a, v) (a', v') hu hu' p hp
      have hcc : crossSq (a, v) p = crossSq (a', v') p := by
        have := htwo id
        exact Option.some.inj this
      rw [hres] at hm1
      subst h'
      refine ⟨p, sqrt (crossSq (a, v) p), by simp [hq, ← hm1], by simp [hq, ← hm1], ?_, ?_, hr.1, ?_, ?_, ?_⟩
      · intro l hl
        by_cases hrs : residues = true
        · simp only [hrs, if_true, Option.some.injEq] at hl
          subst hl
          simp [hq, ← hm1]
        · simp [hrs] at hl
      · intro hrs
        simp [hrs]
      · rw [sq, hr.2]
        linarith
      · intro c hc
        have hb2 := b1 (a, v) (by simp) (a', v') (by simp)
        simp only [List.map_cons, List.map_nil, List.sum_cons, List.sum_nil, add_zero] at hb2
        have hcv : |c| = |v.dot v'| := by
          rw [minus_scaled hl, minus_scaled hl', ← hm2, ← hm2'] at hc
          have h3 : (V3.dot ⟨m * v.x, m * v.y, m * v.z⟩ ⟨m' * v'.x, m' * v'.y, m' * v'.z⟩ : K) = m * m' * v.dot v' := by
            simp only [V3.dot]; ring
          rw [h3] at hc
          have h4 : c ^ 2 = v.dot v' ^ 2 := by
            have h5 : (m ^ 2 * m' ^ 2) ≠ 0 := by positivity
            apply mul_right_cancel₀ h5
            rw [hc]; ring
          exact sq_eq_sq_iff_abs_eq_abs _ _ |>.1 h4
        rw [hcv]
        linarith
      · intro hz
        have g1 := crossSq_nonneg (a, v) P
        have g2 := crossSq_nonneg (a', v') P
        have g3 := crossSq_nonneg (a, v) p
        have g4 := crossSq_nonneg (a', v') p
        refine ⟨(heq (by linarith)).symm, ?_⟩
        have : crossSq (a, v) p = 0 := by linarith
        rw [this] at hr ⊢
        exact mul_self_eq_zero.1 hr.2

theorem epipolarTriangulation_point {sqrt : K → K} {toEcef toWgs84 : ORow K → ORow K} {mL mR : LosModel K}
    {fL fR : K → Bool → Option K → Option K → ORow K} (hL : mL.LocatesBy fL) (hR : mR.LocatesBy fR)
    {gridL gridR : Option K × Option K → Option K × Option K} {ms : EpiMatches K} {mask : Option (ℕ → ℕ → K)}
    {minMaxL minMaxR : Option (K × K)} {residues fill : Bool} {out : List (ORow K) × List (ORow K) × List (Option K)}
    (h : epipolarTriangulation sqrt toEcef toWgs84 mL mR gridL gridR ms mask minMaxL minMaxR residues fill = .ok out) :
    epipolarTriangulation sqrt toEcef toWgs84 (pointModel fL mL.altMinMax) (pointModel fR mR.altMinMax) gridL gridR ms mask minMaxL minMaxR
      residues fill = .ok out := by
  unfold epipolarTriangulation at h ⊢
  cases ms with
  | other => cases h
  | sift m =>
    simp only at h ⊢
    split at h
    · cases h
    · rename_i t ht
      rw [sensorTriangulation_point hL hR ht]
      exact h
  | disp d =>
    simp only at h ⊢
    split at h
    · cases h
    · rename_i t ht
      rw [sensorTriangulation_point hL hR ht]
      exact h

/-- C94. The same for the pixels of a disparity map: the lines of sight are those of the sensor positions that the rectification grids give
at the pixel and at the pixel moved by its disparity. -/
theorem C94_disparity_map (sqrt : K → K) (hs : IsSqrt sqrt) (toEcef toWgs84 : ORow K → ORow K) (mL mR : LosModel K)
    (fL fR : K → Bool → Option K → Option K → ORow K) (hL : mL.LocatesBy fL) (hR : mR.LocatesBy fR)
    (gridL gridR : Option K × Option K → Option K × Option K) (d : DispMap K) (mask : Option (ℕ → ℕ → K))
    (minMaxL minMaxR : Option (K × K)) (fill : Bool) (ecef wgs : List (ORow K)) (res : List (Option K))
    (h : epipolarTriangulation sqrt toEcef toWgs84 mL mR gridL gridR (.disp d) mask minMaxL minMaxR true fill = .ok (ecef, wgs, res))
    (i j : ℕ) (r c x : K) (hi : d.rows[i]? = some r) (hj : d.cols[j]? = some c) (hx : d.disp i j = some x) (hmask : ∀ m, mask = some m → m i j > 0)
    (cl rl cr rr : Option K) (hgl : gridL (some c, some r) = (cl, rl)) (hgr : gridR (some (c + x), some r) = (cr, rr))
    (a b a' b' : V3 K) (hab : a ≠ b) (hab' : a' ≠ b')
    (ha : toEcef (fL (minMaxL.getD mL.altMinMax).2 fill rl cl) = a.toRow) (hb : toEcef (fL (minMaxL.getD mL.altMinMax).1 fill rl cl) = b.toRow)
    (ha' : toEcef (fR (minMaxR.getD mR.altMinMax).2 fill rr cr) = a'.toRow) (hb' : toEcef (fR (minMaxR.getD mR.altMinMax).1 fill rr cr) = b'.toRow)
    (P : V3 K) (e e' : K) (he : NearLine a b P e) (he' : NearLine a' b' P e') :
    ∃ (p : V3 K) (ρ : K), ecef[i * d.cols.length + j]? = some p.toRow ∧ wgs[i * d.cols.length + j]? = some (toWgs84 p.toRow) ∧
      res[i * d.cols.length + j]? = some (some ρ) ∧ 0 ≤ ρ ∧ 2 * ρ ^ 2 ≤ e + e' ∧
      (∀ cos, cos ^ 2 * (sqDist a b * sqDist a' b') = (a.minus b).dot (a'.minus b') ^ 2 → (1 - |cos|) * sqDist p P ≤ e + e') ∧
      (e + e' ≤ 0 → p = P ∧ ρ = 0) := by
  have h' := epipolarTriangulation_point hL hR h
  obtain ⟨-, -, -, hpix⟩ := C40_scatter sqrt toEcef toWgs84 _ _ fL fR (pointModel_pointwise _ _) (pointModel_pointwise _ _) gridL gridR d mask
    minMaxL minMaxR true fill ecef wgs res h'
  obtain ⟨e1, w1, q1, g1, g2, g3, hone⟩ := (hpix i j r c hi hj).2 hmask
  simp only [epipolarTriangulation, List.map_cons, List.map_nil, List.zip_cons_cons, List.zip_nil_left, hx, Option.map_some, hgl, hgr] at hone
  split at hone
  · cases hone
  · rename_i t ht
    have hLp : (pointModel fL mL.altMinMax).LocatesBy fL := fun _ _ _ _ out _ ho => (Except.ok.inj ho).symm
    have hRp : (pointModel fR mR.altMinMax).LocatesBy fR := fun _ _ _ _ out _ ho => (Except.ok.inj ho).symm
    obtain ⟨p, ρ, k1, k2, k3, k4, k5, k6, k7, k8⟩ := C94_sensor sqrt hs toEcef toWgs84 _ _ fL fR hLp hRp _ minMaxL minMaxR true fill t ht 0 cl rl cr rr
      rfl a b a' b' hab hab' ha hb ha' hb' P e e' he he'
    obtain ⟨l, hl⟩ := Option.isSome_iff_exists.1 (k4 rfl)
    have k3' := k3 l hl
    simp only [Except.ok.injEq, Prod.mk.injEq, hl, Option.getD_some] at hone
    obtain ⟨o1, o2, o3⟩ := hone
    have hd0 : ∀ {β : Type _} (f y z : β) (l : List β), scatterMask f [true] l = [y] → l[0]? = some z → y = z := by
      intro β f y z l h1 h2
      cases l with
      | nil => simp at h2
      | cons u us =>
        simp only [scatterMask] at h1
        simp at h2 h1
        rw [← h1, h2]
    rw [hd0 _ _ _ _ o1 k1] at g1
    rw [hd0 _ _ _ _ o2 k2] at g2
    rw [hd0 _ _ _ _ o3 k3'] at g3
    exact ⟨p, ρ, g1, g2, g3, k5, k6, k7, k8⟩

/-- The hypotheses of `C94_n_views` are met, and the bound is not trivial: two horizontal lines at altitudes 0 and 2, and the point of the first above
which the second passes, at the squared distance 4 of the second; the point returned is at the squared distance 1, and the bound is 10. -/
example : (∀ w ∈ [((⟨0, 0, 0⟩, ⟨1, 0, 0⟩) : V3 ℚ × V3 ℚ), (⟨5, 0, 2⟩, ⟨3 / 5, 4 / 5, 0⟩)], IsUnitVec w.2) ∧
    nViewPoint ([((⟨0, 0, 0⟩, ⟨1, 0, 0⟩) : V3 ℚ × V3 ℚ), (⟨5, 0, 2⟩, ⟨3 / 5, 4 / 5, 0⟩)].map toView) = .ok ⟨5, 0, 1⟩ ∧
    sqDist (⟨5, 0, 1⟩ : V3 ℚ) ⟨5, 0, 0⟩ = 1 ∧ IsSqDistLine (⟨5, 0, 2⟩ : V3 ℚ) ⟨3 / 5, 4 / 5, 0⟩ ⟨5, 0, 0⟩ 4 ∧
    (1 - |(⟨1, 0, 0⟩ : V3 ℚ).dot ⟨3 / 5, 4 / 5, 0⟩|)⁻¹ * 4 = 10 := by
  refine ⟨?_, by decide +kernel, by norm_num [sqDist], ⟨⟨0, by norm_num [sqDist, linePoint]⟩, fun t => ?_⟩, by norm_num [V3.dot, abs_of_pos]⟩
  · intro w hw
    simp only [List.mem_cons, List.not_mem_nil, or_false] at hw
    rcases hw with rfl | rfl <;> norm_num [IsUnitVec]
  · simp only [sqDist, linePoint]
    nlinarith [sq_nonneg t]

end Shareloc
