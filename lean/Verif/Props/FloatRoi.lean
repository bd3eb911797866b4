import Verif.Model.FloatRoi
import Verif.Props.FloatDtm
import Verif.Props.Affine
import Verif.Lemmas.FloatTri

/-!
# C108: a physical region of interest in floating point
-/

set_option linter.unusedSectionVars false

namespace Shareloc
variable {K : Type*} [Field K] [LinearOrder K] [IsStrictOrderedRing K] [FloorRing K]

/-- One axis: the corner index of a coordinate. -/
theorem corner_axis {u : K} (hu : 0 ≤ u) (hu1 : u < 1) {p s k o x y px t t' : K} (hp : p ≠ 0)
    (hk : Rel u 4 (1 / p) k) (ho : Rel u 6 (-s * (1 / p)) o) (h3 : FloatApply u k 0 o x y px)
    (h4 : Rounds u (px - 1 / 2) t) (h5 : Rounds u (t + 1 / 2) t') :
    Approx (unitInv u) 13 (|x / p| + |s / p| + 1) ((x - s) / p) t' := by
  have hw := unitInv_nonneg hu hu1
  have up : FloatApply (unitInv u) k 0 o x y px := by
    obtain ⟨a, b, c, ha, hb, hc, hv⟩ := h3
    exact ⟨a, b, c, ha.unitInv hu hu1, hb.unitInv hu hu1, hc.unitInv hu hu1, hv.unitInv hu hu1⟩
  have a3 := up.approx hw (vy := y) rfl rfl (hk.approx hu1) ((ho.approx hu1).mono hw (by norm_num) le_rfl)
    ((Approx.refl _ x).mono hw (by norm_num) le_rfl)
  have a4 := a3.add hw (Approx.refl _ (-(1 / 2))) (by rw [← sub_eq_add_neg]; exact h4.unitInv hu hu1)
  have a5 := a4.add hw (Approx.refl _ (1 / 2)) (h5.unitInv hu hu1)
  have e : x * (1 / p) + y * 0 + -s * (1 / p) + -(1 / 2) + 1 / 2 = (x - s) / p := by field_simp; ring
  have em : |x| * |1 / p| + |-s * (1 / p)| + |-(1 / 2 : K)| + |(1 / 2 : K)| = |x / p| + |s / p| + 1 := by
    have h2 : |(1 / 2 : K)| = 1 / 2 := abs_of_pos (by norm_num)
    rw [abs_neg, h2, abs_mul, abs_neg, abs_div, abs_div, abs_div, abs_one]
    ring
  rw [e, em] at a5
  exact a5.mono hw (by norm_num) le_rfl

theorem FloatInverse.axes {u : K} (hu : 0 ≤ u) (hu1 : u < 1) {t i : Affine K} (hb : t.b = 0) (hd : t.d = 0)
    (ha : t.a ≠ 0) (he : t.e ≠ 0) (hi : FloatInverse u t i) :
    i.b = 0 ∧ i.d = 0 ∧ Rel u 4 (1 / t.a) i.a ∧ Rel u 4 (1 / t.e) i.e ∧ Rel u 6 (-t.c * (1 / t.a)) i.c ∧ Rel u 6 (-t.f * (1 / t.e)) i.f := by
  obtain ⟨ae, bd, det, idet, k1, k2, k3, k4, hae, hbd, hdet, hidet, hia, hib, hid, hie, hk1, hk2, hic, hk3, hk4, hif⟩ := hi
  rw [hb, zero_mul] at hbd
  have := rounds_of_zero hbd
  subst this
  rw [sub_zero] at hdet
  rw [hb, neg_zero, zero_mul] at hib
  rw [hd, neg_zero, zero_mul] at hid
  have ib := rounds_of_zero hib
  have id' := rounds_of_zero hid
  rw [ib, mul_zero] at hk2
  rw [id', mul_zero] at hk3
  have := rounds_of_zero hk2
  subst this
  have := rounds_of_zero hk3
  subst this
  rw [sub_zero] at hic
  rw [zero_sub] at hif
  have r0 : Rel u 2 (t.a * t.e) det := ((Rel.refl u _).round hu hu1 hae).round hu hu1 hdet
  have r1 : Rel u 3 (1 / (t.a * t.e)) idet := (r0.inv hu1).round hu hu1 hidet
  have r2 : Rel u 4 (1 / t.a) i.a := by
    have := ((Rel.refl u t.e).mul hu1 r1).round hu hu1 hia
    have e : t.e * (1 / (t.a * t.e)) = 1 / t.a := by field_simp
    rwa [e] at this
  have r3 : Rel u 4 (1 / t.e) i.e := by
    have := ((Rel.refl u t.a).mul hu1 r1).round hu hu1 hie
    have e : t.a * (1 / (t.a * t.e)) = 1 / t.e := by field_simp
    rwa [e] at this
  have r4 : Rel u 6 (-t.c * (1 / t.a)) i.c := (((Rel.refl u (-t.c)).mul hu1 r2).round hu hu1 hk1).round hu hu1 hic
  have r5 : Rel u 6 (-t.f * (1 / t.e)) i.f := by
    have := (((Rel.refl u t.f).mul hu1 r3).round hu hu1 hk4).neg.round hu hu1 hif
    have e : -(t.f * (1 / t.e)) = -t.f * (1 / t.e) := by ring
    rwa [e] at this
  exact ⟨ib, id', r2, r3, r4, r5⟩

/-- Specification: the corner index of the coordinate `x`, for the origin `s` and the step `p`. -/
def cornerIndex (s p x : K) : K := (x - s) / p

/-- One-dimensional window from computed bounds `Lo`, `Hi` near the exact ones. -/
theorem window_float {u : K} (hu : 0 ≤ u) {lo hi Lo Hi D M : K} {n : ℤ} (off : K) (hoff : off = max ((⌊Lo⌋ : ℤ) : K) 0)
    (hlo : Approx u 13 M lo Lo) (hhi : Approx u 13 M hi Hi) (hD : Rounds u (Hi - off) D) (hn : 0 ≤ n) (len : ℤ)
    (hlen : len = pyInt (min ((⌈D⌉ : ℤ) : K) ((n : K) - off))) (ε : K) (hε : ((1 + u) ^ 14 - 1) * (M + n) ≤ ε) :
    (0 ≤ len → (∀ z, lo ≤ z → z ≤ hi → 0 ≤ z → z ≤ n → off ≤ z + ε ∧ z ≤ off + len + ε) ∧
      0 ≤ off ∧ off + len ≤ n ∧ off + len < hi + 1 + ε ∧ (off = 0 ∨ lo < off + 1 + ε)) ∧
    (ε < 1 / 2 → ∀ z, lo ≤ z → z ≤ hi → 0 ≤ z → z ≤ n → 0 ≤ len) := by
  have hn' : (0 : K) ≤ n := by exact_mod_cast hn
  have hM : 0 ≤ M := hlo.nonneg
  have hγ : 0 ≤ (1 + u) ^ 14 - 1 := sub_nonneg.2 (one_le_pow_u hu 14)
  have hLo : |Lo - lo| ≤ ε := by
    refine (hlo.mono hu (show 13 ≤ 14 by norm_num) le_rfl).1.trans (le_trans ?_ hε)
    exact mul_le_mul_of_nonneg_left (by linarith) hγ
  have hHi : |Hi - hi| ≤ ε := by
    refine (hhi.mono hu (show 13 ≤ 14 by norm_num) le_rfl).1.trans (le_trans ?_ hε)
    exact mul_le_mul_of_nonneg_left (by linarith) hγ
  have hε0 : 0 ≤ ε := (abs_nonneg _).trans hLo
  obtain ⟨k, hk, hk0⟩ : ∃ k : ℤ, off = (k : K) ∧ 0 ≤ k := by
    refine ⟨max ⌊Lo⌋ 0, ?_, le_max_right _ _⟩
    rw [hoff]; push_cast; rfl
  have hoff0 : 0 ≤ off := by rw [hk]; exact_mod_cast hk0
  have hDb : off ≤ n → |D - (hi - off)| ≤ ε := by
    intro hon
    have h1 := (Approx.sub hu hhi (Approx.refl u off) hD).1
    refine h1.trans (le_trans ?_ hε)
    rw [abs_of_nonneg hoff0]
    exact mul_le_mul_of_nonneg_left (by linarith) hγ
  have hmin : min ((⌈D⌉ : ℤ) : K) ((n : K) - off) = ((min ⌈D⌉ (n - k) : ℤ) : K) := by
    rw [hk]; push_cast; rfl
  rw [hmin, pyInt_intCast] at hlen
  have hoffz : ∀ z, lo ≤ z → 0 ≤ z → off ≤ z + ε := by
    intro z h1 h2
    rw [hoff]
    refine max_le ((Int.floor_le Lo).trans ?_) (by linarith)
    linarith [(abs_le.1 hLo).2]
  have hkl : k + len ≤ n := by have := min_le_right ⌈D⌉ (n - k); omega
  have hc := Int.ceil_lt_add_one D
  have hc2 := Int.le_ceil D
  refine ⟨fun hlen0 => ?_, fun hε2 z h1 h2 h3 h4 => ?_⟩
  · have hon : off ≤ n := by rw [hk]; exact_mod_cast (by omega : k ≤ n)
    have hDb' := abs_le.1 (hDb hon)
    refine ⟨fun z h1 h2 h3 h4 => ⟨hoffz z h1 h3, ?_⟩, hoff0, by rw [hk]; exact_mod_cast hkl, ?_, ?_⟩
    · rcases le_total ⌈D⌉ (n - k) with hle | hle
      · rw [min_eq_left hle] at hlen
        rw [hlen]; linarith
      · rw [min_eq_right hle] at hlen
        rw [hlen, hk]; push_cast; linarith
    · have h3 : (len : K) ≤ (⌈D⌉ : ℤ) := by
        have : len ≤ ⌈D⌉ := by rw [hlen]; exact min_le_left _ _
        exact_mod_cast this
      linarith
    · rcases max_choice ((⌊Lo⌋ : ℤ) : K) 0 with hm | hm
      · right
        have := Int.lt_floor_add_one Lo
        rw [hoff, hm]
        linarith [(abs_le.1 hLo).1]
      · left
        rw [hoff, hm]
  · have h5 := hoffz z h1 h3
    have hkn : k ≤ n := by
      have : (k : K) < n + 1 := by rw [← hk]; linarith
      have : (k : K) < ((n + 1 : ℤ) : K) := by push_cast; exact this
      have := Int.cast_lt.1 this
      omega
    have hon : off ≤ n := by rw [hk]; exact_mod_cast hkn
    have hDb' := abs_le.1 (hDb hon)
    have hD1 : -1 < D := by linarith
    have : 0 ≤ ⌈D⌉ := by
      have h6 : ((-1 : ℤ) : K) < D := by push_cast; exact hD1
      have := Int.lt_ceil.2 h6
      omega
    rw [hlen]
    exact le_min this (by omega)

theorem approx_ite_min {u : K} {n : ℕ} {M a b A B : K} (ha : Approx u n M a A) (hb : Approx u n M b B) :
    Approx u n M (min a b) (if A > B then B else A) ∧ Approx u n M (max a b) (if A > B then A else B) := by
  have key : (if A > B then B else A) = min A B ∧ (if A > B then A else B) = max A B := by
    split_ifs with h
    · exact ⟨(min_eq_right h.le).symm, (max_eq_left h.le).symm⟩
    · exact ⟨(min_eq_left (not_lt.1 h)).symm, (max_eq_right (not_lt.1 h)).symm⟩
  rw [key.1, key.2]
  refine ⟨⟨?_, ?_⟩, ⟨?_, ?_⟩⟩
  · exact (abs_min_sub_min_le_max A B a b).trans (max_le ha.1 hb.1)
  · rcases min_choice a b with h | h <;> rw [h]
    exacts [ha.2, hb.2]
  · exact (abs_max_sub_max_le_max A B a b).trans (max_le ha.1 hb.1)
  · rcases max_choice a b with h | h <;> rw [h]
    exacts [ha.2, hb.2]

/-- The two axes of a physical ROI. -/
theorem floatRoi_axes {u : K} (hu : 0 ≤ u) (hu1 : u < 1) (dsH dsW : ℤ) (hH : 0 ≤ dsH) (hW : 0 ≤ dsW) (t : Affine K) (hb : t.b = 0) (hd : t.d = 0) (ha : t.a ≠ 0)
    (he : t.e ≠ 0) (roi : Roi K) (M ε : K) (hMc0 : |roi.c0 / t.a| + |t.c / t.a| + 1 ≤ M) (hMc1 : |roi.c1 / t.a| + |t.c / t.a| + 1 ≤ M)
    (hMr0 : |roi.r0 / t.e| + |t.f / t.e| + 1 ≤ M) (hMr1 : |roi.r1 / t.e| + |t.f / t.e| + 1 ≤ M)
    (hεW : ((1 + unitInv u) ^ 14 - 1) * (M + dsW) ≤ ε) (hεH : ((1 + unitInv u) ^ 14 - 1) * (M + dsH) ≤ ε)
    (out : Except ImageError (Window K)) (h : FloatPhysicalRoi u dsH dsW t roi out) :
    ∃ (co ro : K) (wi hi : ℤ), (out = if wi < 0 ∨ hi < 0 then .error .negativeWindow else .ok ⟨co, ro, wi, hi⟩) ∧
    ((0 ≤ wi → (∀ z, cornerIndex t.c t.a roi.c0 ≤ z → z ≤ cornerIndex t.c t.a roi.c1 → 0 ≤ z → z ≤ dsW → co ≤ z + ε ∧ z ≤ co + wi + ε) ∧
      0 ≤ co ∧ co + wi ≤ dsW ∧ co + wi < cornerIndex t.c t.a roi.c1 + 1 + ε ∧ (co = 0 ∨ cornerIndex t.c t.a roi.c0 < co + 1 + ε)) ∧
    (ε < 1 / 2 → ∀ z, cornerIndex t.c t.a roi.c0 ≤ z → z ≤ cornerIndex t.c t.a roi.c1 → 0 ≤ z → z ≤ dsW → 0 ≤ wi)) ∧
    ((0 ≤ hi → (∀ z, min (cornerIndex t.f t.e roi.r0) (cornerIndex t.f t.e roi.r1) ≤ z → z ≤ max (cornerIndex t.f t.e roi.r0) (cornerIndex t.f t.e roi.r1) →
        0 ≤ z → z ≤ dsH → ro ≤ z + ε ∧ z ≤ ro + hi + ε) ∧
      0 ≤ ro ∧ ro + hi ≤ dsH ∧ ro + hi < max (cornerIndex t.f t.e roi.r0) (cornerIndex t.f t.e roi.r1) + 1 + ε ∧
        (ro = 0 ∨ min (cornerIndex t.f t.e roi.r0) (cornerIndex t.f t.e roi.r1) < ro + 1 + ε)) ∧
    (ε < 1 / 2 → ∀ z, min (cornerIndex t.f t.e roi.r0) (cornerIndex t.f t.e roi.r1) ≤ z → z ≤ max (cornerIndex t.f t.e roi.r0) (cornerIndex t.f t.e roi.r1) →
      0 ≤ z → z ≤ dsH → 0 ≤ hi)) := by
  obtain ⟨i, r0, c0, r1, c1, R0, C0, R1, C1, hi, ⟨px0, py0, hpx0, hpy0, hr0, hc0⟩, ⟨px1, py1, hpx1, hpy1, hr1, hc1⟩, hR0, hC0, hR1, hC1, dw, dh, hdw, hdh, hout⟩ := h
  obtain ⟨ib, id', r2, r3, r4, r5⟩ := hi.axes hu hu1 hb hd ha he
  rw [ib] at hpx0 hpx1
  rw [id'] at hpy0 hpy1
  have hw := unitInv_nonneg hu hu1
  have c0a := (corner_axis hu hu1 ha r2 r4 hpx0 hc0 hC0).mono hw le_rfl hMc0
  have c1a := (corner_axis hu hu1 ha r2 r4 hpx1 hc1 hC1).mono hw le_rfl hMc1
  have r0a := (corner_axis hu hu1 he r3 r5 hpy0.swap hr0 hR0).mono hw le_rfl hMr0
  have r1a := (corner_axis hu hu1 he r3 r5 hpy1.swap hr1 hR1).mono hw le_rfl hMr1
  obtain ⟨mna, mxa⟩ := approx_ite_min r0a r1a
  exact ⟨_, _, _, _, hout.symm, window_float hw _ rfl c0a c1a (hdw.unitInv hu hu1) hW _ rfl ε hεW,
    window_float hw _ rfl mna mxa (hdh.unitInv hu hu1) hH _ rfl ε hεH⟩

theorem cornerIndex_at {t : Affine K} (ha : t.a ≠ 0) (he : t.e ≠ 0) {x y v z : K} (h : AtCornerIndex t x y v z) :
    z = cornerIndex t.c t.a x ∧ v = cornerIndex t.f t.e y := by
  obtain ⟨h1, h2⟩ := h
  unfold cornerIndex
  rw [h1, h2]
  constructor <;> field_simp <;> ring

theorem cornerIndex_between {s p : K} (hp : p ≠ 0) {y0 y1 y : K} (h0 : y0 ≤ y) (h1 : y ≤ y1) :
    min (cornerIndex s p y0) (cornerIndex s p y1) ≤ cornerIndex s p y ∧ cornerIndex s p y ≤ max (cornerIndex s p y0) (cornerIndex s p y1) := by
  unfold cornerIndex
  rcases lt_or_gt_of_ne hp with hn | hpos
  · have e1 : (y1 - s) / p ≤ (y - s) / p := div_le_div_of_nonpos_of_le hn.le (by linarith)
    have e2 : (y - s) / p ≤ (y0 - s) / p := div_le_div_of_nonpos_of_le hn.le (by linarith)
    exact ⟨(min_le_right _ _).trans e1, e2.trans (le_max_left _ _)⟩
  · have e1 : (y0 - s) / p ≤ (y - s) / p := by gcongr
    have e2 : (y - s) / p ≤ (y1 - s) / p := by gcongr
    exact ⟨(min_le_left _ _).trans e1, e2.trans (le_max_right _ _)⟩

/-- C108. Every point of the raster in the region requested is in the window read, up to a distance `ε` in pixels: the conditions of C04, in floating point.  `M` bounds the
distance in pixels from the zero of the coordinates to the corners of the region and of the raster. -/
theorem C108_covers {u : K} (hu : 0 ≤ u) (hu1 : u < 1) (dsH dsW : ℤ) (hH : 0 ≤ dsH) (hW : 0 ≤ dsW) (t : Affine K) (hb : t.b = 0) (hd : t.d = 0) (ha : 0 < t.a)
    (he : t.e ≠ 0) (roi : Roi K) (M ε : K) (hMc0 : |roi.c0 / t.a| + |t.c / t.a| + 1 ≤ M) (hMc1 : |roi.c1 / t.a| + |t.c / t.a| + 1 ≤ M)
    (hMr0 : |roi.r0 / t.e| + |t.f / t.e| + 1 ≤ M) (hMr1 : |roi.r1 / t.e| + |t.f / t.e| + 1 ≤ M)
    (hεW : ((1 + unitInv u) ^ 14 - 1) * (M + dsW) ≤ ε) (hεH : ((1 + unitInv u) ^ 14 - 1) * (M + dsH) ≤ ε)
    (w : Window K) (h : FloatPhysicalRoi u dsH dsW t roi (.ok w)) :
    (∀ x y z v, AtCornerIndex t x y v z → roi.c0 ≤ x → x ≤ roi.c1 → roi.r0 ≤ y → y ≤ roi.r1 → 0 ≤ z → z ≤ dsW → 0 ≤ v → v ≤ dsH →
      w.colOff - ε ≤ z ∧ z ≤ w.colOff + w.width + ε ∧ w.rowOff - ε ≤ v ∧ v ≤ w.rowOff + w.height + ε) ∧
    (0 ≤ w.colOff ∧ w.colOff + w.width ≤ dsW ∧ 0 ≤ w.rowOff ∧ w.rowOff + w.height ≤ dsH ∧ 0 ≤ w.width ∧ 0 ≤ w.height) ∧
    ∃ k l : ℤ, w.colOff = k ∧ w.rowOff = l := by
  have hint : ∃ k l : ℤ, w.colOff = k ∧ w.rowOff = l := by
    obtain ⟨i, r0, c0, r1, c1, R0, C0, R1, C1, -, -, -, -, -, -, -, dw, dh, -, -, hout⟩ := h
    obtain ⟨h1, h2, -⟩ := mkWindow_ok hout
    refine ⟨max ⌊C0⌋ 0, max ⌊if R0 > R1 then R1 else R0⌋ 0, ?_, ?_⟩
    · rw [h1]; push_cast; rfl
    · rw [h2]; push_cast; rfl
  obtain ⟨co, ro, wi, hi, hout, ⟨hc, -⟩, hr, -⟩ := floatRoi_axes hu hu1 dsH dsW hH hW t hb hd ha.ne' he roi M ε hMc0 hMc1 hMr0 hMr1 hεW hεH _ h
  split_ifs at hout with hneg
  rw [not_or, not_lt, not_lt] at hneg
  injection hout with hout
  subst hout
  obtain ⟨a1, a2, a3, -⟩ := hc hneg.1
  obtain ⟨b1, b2, b3, -⟩ := hr hneg.2
  refine ⟨fun x y z v hxy x0 x1 y0 y1 z0 z1 v0 v1 => ?_, ⟨a2, a3, b2, b3, hneg.1, hneg.2⟩, hint⟩
  obtain ⟨ez, ev⟩ := cornerIndex_at ha.ne' he hxy
  have c0 : cornerIndex t.c t.a roi.c0 ≤ z := by rw [ez]; unfold cornerIndex; gcongr
  have c1 : z ≤ cornerIndex t.c t.a roi.c1 := by rw [ez]; unfold cornerIndex; gcongr
  obtain ⟨r0, r1⟩ := cornerIndex_between (s := t.f) he y0 y1
  rw [← ev] at r0 r1
  obtain ⟨p1, p2⟩ := a1 z c0 c1 z0 z1
  obtain ⟨q1, q2⟩ := b1 v r0 r1 v0 v1
  exact ⟨by linarith, p2, by linarith, q2⟩

/-- C108. The window goes beyond the region by less than one pixel and `ε` on each side. -/
theorem C108_tight {u : K} (hu : 0 ≤ u) (hu1 : u < 1) (dsH dsW : ℤ) (hH : 0 ≤ dsH) (hW : 0 ≤ dsW) (t : Affine K) (hb : t.b = 0) (hd : t.d = 0) (ha : 0 < t.a)
    (he : t.e ≠ 0) (roi : Roi K) (M ε : K) (hMc0 : |roi.c0 / t.a| + |t.c / t.a| + 1 ≤ M) (hMc1 : |roi.c1 / t.a| + |t.c / t.a| + 1 ≤ M)
    (hMr0 : |roi.r0 / t.e| + |t.f / t.e| + 1 ≤ M) (hMr1 : |roi.r1 / t.e| + |t.f / t.e| + 1 ≤ M)
    (hεW : ((1 + unitInv u) ^ 14 - 1) * (M + dsW) ≤ ε) (hεH : ((1 + unitInv u) ^ 14 - 1) * (M + dsH) ≤ ε)
    (w : Window K) (h : FloatPhysicalRoi u dsH dsW t roi (.ok w)) :
    w.colOff + w.width < cornerIndex t.c t.a roi.c1 + 1 + ε ∧ (w.colOff = 0 ∨ cornerIndex t.c t.a roi.c0 < w.colOff + 1 + ε) ∧
    w.rowOff + w.height < max (cornerIndex t.f t.e roi.r0) (cornerIndex t.f t.e roi.r1) + 1 + ε ∧
    (w.rowOff = 0 ∨ min (cornerIndex t.f t.e roi.r0) (cornerIndex t.f t.e roi.r1) < w.rowOff + 1 + ε) := by
  obtain ⟨co, ro, wi, hi, hout, ⟨hc, -⟩, hr, -⟩ := floatRoi_axes hu hu1 dsH dsW hH hW t hb hd ha.ne' he roi M ε hMc0 hMc1 hMr0 hMr1 hεW hεH _ h
  split_ifs at hout with hneg
  rw [not_or, not_lt, not_lt] at hneg
  injection hout with hout
  subst hout
  obtain ⟨-, -, -, a4, a5⟩ := hc hneg.1
  obtain ⟨-, -, -, b4, b5⟩ := hr hneg.2
  exact ⟨a4, a5, b4, b5⟩

/-- C108. A region that has a point in the raster is not refused. -/
theorem C108_no_error {u : K} (hu : 0 ≤ u) (hu1 : u < 1) (dsH dsW : ℤ) (hH : 0 ≤ dsH) (hW : 0 ≤ dsW) (t : Affine K) (hb : t.b = 0) (hd : t.d = 0) (ha : 0 < t.a)
    (he : t.e ≠ 0) (roi : Roi K) (M ε : K) (hMc0 : |roi.c0 / t.a| + |t.c / t.a| + 1 ≤ M) (hMc1 : |roi.c1 / t.a| + |t.c / t.a| + 1 ≤ M)
    (hMr0 : |roi.r0 / t.e| + |t.f / t.e| + 1 ≤ M) (hMr1 : |roi.r1 / t.e| + |t.f / t.e| + 1 ≤ M)
    (hεW : ((1 + unitInv u) ^ 14 - 1) * (M + dsW) ≤ ε) (hεH : ((1 + unitInv u) ^ 14 - 1) * (M + dsH) ≤ ε)
    (hε : ε < 1 / 2) (x y z v : K) (hp : AtCornerIndex t x y v z) (x0 : roi.c0 ≤ x) (x1 : x ≤ roi.c1) (y0 : roi.r0 ≤ y) (y1 : y ≤ roi.r1)
    (z0 : 0 ≤ z) (z1 : z ≤ dsW) (v0 : 0 ≤ v) (v1 : v ≤ dsH) (out : Except ImageError (Window K)) (h : FloatPhysicalRoi u dsH dsW t roi out) :
    ∃ w, out = .ok w := by
  obtain ⟨co, ro, wi, hi, hout, ⟨-, hc⟩, -, hr⟩ := floatRoi_axes hu hu1 dsH dsW hH hW t hb hd ha.ne' he roi M ε hMc0 hMc1 hMr0 hMr1 hεW hεH _ h
  obtain ⟨ez, ev⟩ := cornerIndex_at ha.ne' he hp
  have c0 : cornerIndex t.c t.a roi.c0 ≤ z := by rw [ez]; unfold cornerIndex; gcongr
  have c1 : z ≤ cornerIndex t.c t.a roi.c1 := by rw [ez]; unfold cornerIndex; gcongr
  obtain ⟨r0, r1⟩ := cornerIndex_between (s := t.f) he y0 y1
  rw [← ev] at r0 r1
  have w0 := hc hε z c0 c1 z0 z1
  have h0 := hr hε v r0 r1 v0 v1
  rw [if_neg (by omega)] at hout
  exact ⟨_, hout⟩

theorem roi_double_eps {M n : K} (hM : M ≤ 40000000) (hn : n ≤ 1000000) (hM0 : 0 ≤ M) (hn0 : 0 ≤ n) :
    ((1 + unitInv (doubleUnit : K)) ^ 14 - 1) * (M + n) ≤ 1 / 10 ^ 7 := by
  have e : (doubleUnit : K) = 1 / 9007199254740992 := by unfold doubleUnit; norm_num
  have w : unitInv (doubleUnit : K) = 1 / 9007199254740991 := by unfold unitInv; rw [e]; norm_num
  have hg : (1 + unitInv (doubleUnit : K)) ^ 14 - 1 ≤ 15 / 9007199254740991 := by
    have := pow_u_le (u := (1 / 9007199254740991 : K)) (by norm_num) (by norm_num) 14 (by norm_num)
    rw [w]
    norm_num at this ⊢
  calc ((1 + unitInv (doubleUnit : K)) ^ 14 - 1) * (M + n) ≤ 15 / 9007199254740991 * (M + n) := mul_le_mul_of_nonneg_right hg (by positivity)
    _ ≤ 15 / 9007199254740991 * 41000000 := mul_le_mul_of_nonneg_left (by linarith) (by norm_num)
    _ ≤ _ := by norm_num

/-- C108. In double precision, for a raster of at most a million rows and columns whose corner and region are at most ten million pixels away from the zero of the
coordinates: a region with a point in the raster is read, the window covers it up to a ten-millionth of a pixel, and exceeds it by less than a pixel and that. -/
theorem C108_double (dsH dsW : ℤ) (hH : 0 ≤ dsH) (hW : 0 ≤ dsW) (hH1 : dsH ≤ 1000000) (hW1 : dsW ≤ 1000000) (t : Affine K) (hb : t.b = 0) (hd : t.d = 0)
    (ha : 0 < t.a) (he : t.e ≠ 0) (roi : Roi K) (hc : |t.c / t.a| ≤ 10000000) (hf : |t.f / t.e| ≤ 10000000) (hc0 : |roi.c0 / t.a| ≤ 10000000)
    (hc1 : |roi.c1 / t.a| ≤ 10000000) (hr0 : |roi.r0 / t.e| ≤ 10000000) (hr1 : |roi.r1 / t.e| ≤ 10000000) (x y z v : K) (hp : AtCornerIndex t x y v z)
    (x0 : roi.c0 ≤ x) (x1 : x ≤ roi.c1) (y0 : roi.r0 ≤ y) (y1 : y ≤ roi.r1) (z0 : 0 ≤ z) (z1 : z ≤ dsW) (v0 : 0 ≤ v) (v1 : v ≤ dsH)
    (out : Except ImageError (Window K)) (h : FloatPhysicalRoi doubleUnit dsH dsW t roi out) :
    ∃ w, out = .ok w ∧ w.colOff - 1 / 10 ^ 7 ≤ z ∧ z ≤ w.colOff + w.width + 1 / 10 ^ 7 ∧ w.rowOff - 1 / 10 ^ 7 ≤ v ∧ v ≤ w.rowOff + w.height + 1 / 10 ^ 7 ∧
      w.colOff + w.width < cornerIndex t.c t.a roi.c1 + 1 + 1 / 10 ^ 7 ∧ (w.colOff = 0 ∨ cornerIndex t.c t.a roi.c0 < w.colOff + 1 + 1 / 10 ^ 7) := by
  have e : (doubleUnit : K) = 1 / 9007199254740992 := by unfold doubleUnit; norm_num
  have hu : (0 : K) ≤ doubleUnit := by rw [e]; norm_num
  have hu1 : (doubleUnit : K) < 1 := by rw [e]; norm_num
  have hH' : (dsH : K) ≤ 1000000 := by exact_mod_cast hH1
  have hW' : (dsW : K) ≤ 1000000 := by exact_mod_cast hW1
  have hH0 : (0 : K) ≤ dsH := by exact_mod_cast hH
  have hW0 : (0 : K) ≤ dsW := by exact_mod_cast hW
  obtain ⟨w, rfl⟩ := C108_no_error hu hu1 dsH dsW hH hW t hb hd ha he roi 40000000 (1 / 10 ^ 7) (by linarith) (by linarith) (by linarith) (by linarith)
    (roi_double_eps le_rfl hW' (by norm_num) hW0) (roi_double_eps le_rfl hH' (by norm_num) hH0) (by norm_num) x y z v hp x0 x1 y0 y1 z0 z1 v0 v1 out h
  obtain ⟨k, -⟩ := C108_covers hu hu1 dsH dsW hH hW t hb hd ha he roi 40000000 (1 / 10 ^ 7) (by linarith) (by linarith) (by linarith) (by linarith)
    (roi_double_eps le_rfl hW' (by norm_num) hW0) (roi_double_eps le_rfl hH' (by norm_num) hH0) w h
  obtain ⟨m1, m2, -⟩ := C108_tight hu hu1 dsH dsW hH hW t hb hd ha he roi 40000000 (1 / 10 ^ 7) (by linarith) (by linarith) (by linarith) (by linarith)
    (roi_double_eps le_rfl hW' (by norm_num) hW0) (roi_double_eps le_rfl hH' (by norm_num) hH0) w h
  obtain ⟨k1, k2, k3, k4⟩ := k x y z v hp x0 x1 y0 y1 z0 z1 v0 v1
  exact ⟨w, rfl, k1, k2, k3, k4, m1, m2⟩

/-- A raster with steps 0.3 and -1 and corner (0.8, 10), in doubles. -/
def roiRaster : Affine ℚ := ⟨5404319552844595 / 18014398509481984, 0, 3602879701896397 / 4503599627370496, 0, -1, 10⟩

/-- The region from x = 0.8 to x = 3.2 and from y = 5 to y = 8, in doubles. -/
def roiBox : Roi ℚ := ⟨5, 3602879701896397 / 4503599627370496, 8, 3602879701896397 / 1125899906842624⟩

theorem roiBox_window : FloatPhysicalRoi (1 / 2 ^ 53 : ℚ) 20 20 roiRaster roiBox (.ok ⟨0, 2, 8, 3⟩) := by
  refine ⟨⟨7505999378950827 / 2251799813685248, 0, -3002399751580331 / 1125899906842624, 0, -1, 10⟩, 9 / 2, -1 / 2, 3 / 2, 15 / 2, 5, 0, 2, 8, ?_, ?_, ?_, ?_, ?_, ?_, ?_,
    8, 3, ?_, ?_, by decide +kernel⟩
  · refine ⟨-5404319552844595 / 18014398509481984, 0, -5404319552844595 / 18014398509481984, -7505999378950827 / 2251799813685248,
      -3002399751580331 / 1125899906842624, 0, 0, -10, ?_, ?_, ?_, ?_, ?_, ?_, ?_, ?_, ?_, ?_, ?_, ?_, ?_, ?_⟩ <;>
    unfold Rounds <;> decide +kernel
  · refine ⟨0, 5, ⟨3002399751580331 / 1125899906842624, 0, 3002399751580331 / 1125899906842624, ?_, ?_, ?_, ?_⟩, ⟨0, -5, -5, ?_, ?_, ?_, ?_⟩, ?_, ?_⟩ <;>
    unfold Rounds <;> decide +kernel
  · refine ⟨8, 2, ⟨3002399751580331 / 281474976710656, 0, 3002399751580331 / 281474976710656, ?_, ?_, ?_, ?_⟩, ⟨0, -8, -8, ?_, ?_, ?_, ?_⟩, ?_, ?_⟩ <;>
    unfold Rounds <;> decide +kernel
  all_goals (unfold Rounds; decide +kernel)

/-- C108. The tolerance cannot be dropped: in doubles, the window of the region above ends at column 8, and the region goes beyond (by less than a
ten-millionth of a pixel); with exact numbers the window has a ninth column. -/
theorem C108_not_exact : FloatPhysicalRoi (1 / 2 ^ 53 : ℚ) 20 20 roiRaster roiBox (.ok ⟨0, 2, 8, 3⟩) ∧
    (0 : ℚ) + 8 < cornerIndex roiRaster.c roiRaster.a roiBox.c1 ∧ windowOfPhysicalRoi 20 20 roiRaster roiBox = .ok ⟨0, 2, 9, 3⟩ :=
  ⟨roiBox_window, by unfold cornerIndex; decide +kernel, by decide +kernel⟩

/-- The hypotheses of `C108_double` are met by that region. -/
example : ∃ w : Window ℚ, (.ok ⟨0, 2, 8, 3⟩ : Except ImageError (Window ℚ)) = .ok w ∧ w.colOff - 1 / 10 ^ 7 ≤ 2 ∧ 2 ≤ w.colOff + w.width + 1 / 10 ^ 7 := by
  obtain ⟨w, h1, h2, h3, -⟩ := C108_double (K := ℚ) 20 20 (by norm_num) (by norm_num) (by norm_num) (by norm_num) roiRaster rfl rfl (by decide +kernel) (by decide +kernel) roiBox
    (by decide +kernel) (by decide +kernel) (by decide +kernel) (by decide +kernel) (by decide +kernel) (by decide +kernel)
    (roiRaster.a * 2 + roiRaster.c) (roiRaster.e * 3 + roiRaster.f) 2 3 ⟨rfl, rfl⟩ (by decide +kernel) (by decide +kernel) (by decide +kernel) (by decide +kernel)
    (by norm_num) (by norm_num) (by norm_num) (by norm_num) _ (by
      have : (doubleUnit : ℚ) = 1 / 2 ^ 53 := by unfold doubleUnit; norm_num
      rw [this]; exact roiBox_window)
  exact ⟨w, h1, h2, h3⟩

end Shareloc
