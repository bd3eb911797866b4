import Verif.Props.NullDisparity
import Verif.Props.Epipolarity
import Verif.Props.Baseline

/-!
# C95, C96 for affine sensors: the whole chain never raises, null disparities give the elevation, and disparities are proportional to heights
-/

set_option linter.unusedSectionVars false

namespace Shareloc
open Spec

/-! ### Models that locate each point -/

section
variable {K δ : Type*} [Field K] [LinearOrder K] [IsStrictOrderedRing K] [FloorRing K]

theorem LocatesEachPoint.pointH_eq {m : Geo K δ} {g : Option K → Option K → Option K → ORow K} {gd : δ → Option K → Option K → ORow K}
    {se : ORow K → Option K × Option K} (h : LocatesEachPoint m g gd se) : pointH m = g := by
  funext r c a
  unfold pointH
  rw [h.oneAlt [r] [c] a rfl]
  rfl

theorem LocatesEachPoint.pointDtm_eq {m : Geo K δ} {g : Option K → Option K → Option K → ORow K} {gd : δ → Option K → Option K → ORow K}
    {se : ORow K → Option K × Option K} (h : LocatesEachPoint m g gd se) : pointDtm m = gd := by
  funext d r c
  unfold pointDtm
  rw [h.dtm [r] [c] d rfl]
  rfl

theorem LocatesEachPoint.pointInv_eq {m : Geo K δ} {g : Option K → Option K → Option K → ORow K} {gd : δ → Option K → Option K → ORow K}
    {se : ORow K → Option K × Option K} (h : LocatesEachPoint m g gd se) : pointInv m = se := by
  funext p
  unfold pointInv
  have := h.inv [p]
  simp only [List.map_cons, List.map_nil] at this
  rw [this]

theorem LocatesEachPoint.byPoint {m : Geo K δ} {g : Option K → Option K → Option K → ORow K} {gd : δ → Option K → Option K → ORow K}
    {se : ORow K → Option K × Option K} (h : LocatesEachPoint m g gd se) : ByPoint m := by
  refine ⟨fun row col a o hl ho => ?_, fun p o ho => ?_, fun row col d o hl ho => ?_, fun p o ho => ?_⟩
  · rw [h.oneAlt row col a hl] at ho
    rw [h.pointH_eq]
    exact (Except.ok.inj ho).symm
  · rw [h.eachAlt] at ho
    rw [h.pointH_eq]
    exact (Except.ok.inj ho).symm
  · rw [h.dtm row col d hl] at ho
    rw [h.pointDtm_eq]
    exact (Except.ok.inj ho).symm
  · rw [h.inv] at ho
    rw [h.pointInv_eq]
    exact (Except.ok.inj ho).symm

theorem LocatesEachPoint.los {m : Geo K δ} {g : Option K → Option K → Option K → ORow K} {gd : δ → Option K → Option K → ORow K}
    {se : ORow K → Option K × Option K} (h : LocatesEachPoint m g gd se) (alts : K × K) :
    (m.los alts).Pointwise fun alt _ r c => g r c (some alt) :=
  fun row col alt _ hl => h.oneAlt row col (some alt) hl

/-! ### The triangulation returns -/

theorem forEach_returns {α β : Type*} (f : α → Except TriError β) (l : List α) (h : ∀ a ∈ l, ∃ b, f a = .ok b) :
    ∃ out, forEach f l = .ok out := by
  induction l with
  | nil => exact ⟨[], rfl⟩
  | cons a as ih =>
    obtain ⟨b, hb⟩ := h a (by simp)
    obtain ⟨bs, hbs⟩ := ih fun a' ha' => h a' (by simp [ha'])
    exact ⟨b :: bs, by simp [forEach, hb, hbs]⟩

theorem sensorOne_returns (sqrt : K → K) (hs : IsSqrt sqrt) (toEcef toWgs84 : ORow K → ORow K) (mL mR : LosModel K)
    (fL fR : K → Bool → Option K → Option K → ORow K) (minMaxL minMaxR : Option (K × K)) (fill : Bool)
    (t : (Option K × Option K) × (Option K × Option K)) (a b a' b' : V3 K) (hab : a ≠ b) (hab' : a' ≠ b')
    (hpar : ¬ Parallel (a.minus b) (a'.minus b'))
    (ha : toEcef (fL (minMaxL.getD mL.altMinMax).2 fill t.1.2 t.1.1) = a.toRow)
    (hb : toEcef (fL (minMaxL.getD mL.altMinMax).1 fill t.1.2 t.1.1) = b.toRow)
    (ha' : toEcef (fR (minMaxR.getD mR.altMinMax).2 fill t.2.2 t.2.1) = a'.toRow)
    (hb' : toEcef (fR (minMaxR.getD mR.altMinMax).1 fill t.2.2 t.2.1) = b'.toRow) :
    ∃ q, sensorOne sqrt toEcef toWgs84 mL mR fL fR minMaxL minMaxR fill t = .ok q := by
  obtain ⟨v, n, hv, hu, hn, -, hl, -⟩ := line_of_sight sqrt hs a b hab
  obtain ⟨v', n', hv', hu', hn', -, hl', -⟩ := line_of_sight sqrt hs a' b' hab'
  have hnp : ¬ Parallel v v' := by
    rintro ⟨s, hs'⟩
    apply hpar
    refine ⟨s * n' / n, ?_⟩
    rw [minus_scaled hl, minus_scaled hl', hs']
    simp only [V3.mk.injEq]
    refine ⟨?_, ?_, ?_⟩ <;> field_simp
  obtain ⟨p, hp⟩ := (C36_defined_iff [(a, v), (a', v')] (by
    intro w hw
    simp only [List.mem_cons, List.not_mem_nil, or_false] at hw
    rcases hw with rfl | rfl
    · exact hu
    · exact hu')).2 ⟨(a, v), by simp, (a', v'), by simp, hnp⟩
  have hp' : nViewPoint [(a.toRow, v.toRow), (a'.toRow, v'.toRow)] = .ok p := hp
  have hok : matchOk ((a.toRow, v.toRow), (a'.toRow, v'.toRow)) = true := rfl
  simp only [sensorOne, ha, hb, ha', hb', hv, hv', matchPoint, if_pos hok, hp']
  exact ⟨_, rfl⟩

/-- The matches of a disparity map without NaN are numbers. -/
theorem disp_matches_finite (d : DispMap K) (hd : ∀ i j, (d.disp i j).isSome) (mask : Option (ℕ → ℕ → K))
    (gridL gridR : Option K × Option K → Option K × Option K)
    (hL : ∀ c r, ∃ c' r', gridL (some c, some r) = (some c', some r')) (hR : ∀ c r, ∃ c' r', gridR (some c, some r) = (some c', some r')) :
    ∀ t ∈ ((transformDispToMatches d mask).1.map gridL).zip ((transformDispToMatches d mask).2.1.map gridR),
      ∃ cl rl cr rr : K, t = ((some cl, some rl), (some cr, some rr)) := by
  intro t ht
  have key : ∀ l : List ((ℕ × ℕ) × K × K), t ∈ ((l.map fun t => ((some t.2.1, some t.2.2) : Option K × Option K)).map gridL).zip
      ((l.map fun t => (((d.disp t.1.1 t.1.2).map fun x => t.2.1 + x, some t.2.2) : Option K × Option K)).map gridR) →
      ∃ cl rl cr rr : K, t = ((some cl, some rl), (some cr, some rr)) := by
    intro l hl
    rw [List.map_map, List.map_map, List.zip_map', List.mem_map] at hl
    obtain ⟨u, -, rfl⟩ := hl
    obtain ⟨x, hx⟩ := Option.isSome_iff_exists.1 (hd u.1.1 u.1.2)
    obtain ⟨cl, rl, e1⟩ := hL u.2.1 u.2.2
    obtain ⟨cr, rr, e2⟩ := hR (u.2.1 + x) u.2.2
    exact ⟨cl, rl, cr, rr, by simp [hx, e1, e2]⟩
  cases mask with
  | none => exact key _ ht
  | some m => exact key _ ht

theorem epipolar_returns (sqrt : K → K) (toEcef toWgs84 : ORow K → ORow K) (mL mR : LosModel K)
    (fL fR : K → Bool → Option K → Option K → ORow K) (hL : mL.Pointwise fL) (hR : mR.Pointwise fR)
    (gridL gridR : Option K × Option K → Option K × Option K) (d : DispMap K) (mask : Option (ℕ → ℕ → K))
    (minMaxL minMaxR : Option (K × K)) (residues fill : Bool)
    (hone : ∀ t ∈ ((transformDispToMatches d mask).1.map gridL).zip ((transformDispToMatches d mask).2.1.map gridR),
      ∃ q, sensorOne sqrt toEcef toWgs84 mL mR fL fR minMaxL minMaxR fill t = .ok q) :
    ∃ ecef wgs res, epipolarTriangulation sqrt toEcef toWgs84 mL mR gridL gridR (.disp d) mask minMaxL minMaxR residues fill =
      .ok (ecef, wgs, res) := by
  obtain ⟨out, ho⟩ := forEach_returns _ _ hone
  simp only [epipolarTriangulation, sensorTriangulation_eq sqrt toEcef toWgs84 mL mR fL fR hL hR, ho]
  exact ⟨_, _, _, rfl⟩

/-! ### The grid read back depends on its nodes only -/

theorem rectInterpolate_congr (g g' : RectGrid K) (hg : g.Regular) (h1 : g'.nbCols = g.nbCols) (h2 : g'.nbRows = g.nbRows)
    (h3 : g'.colNode = g.colNode) (h4 : g'.rowNode = g.rowNode)
    (h5 : ∀ i j, i < g.nbCols → j < g.nbRows → g'.colPos i j = g.colPos i j ∧ g'.rowPos i j = g.rowPos i j) (col row : K) :
    rectInterpolate g' col row = rectInterpolate g col row := by
  have ci := (intervalIndex_spec g.nbCols hg.cols g.colNode hg.colMono col).1
  have cj := (intervalIndex_spec g.nbRows hg.rows g.rowNode hg.rowMono row).1
  unfold rectInterpolate
  rw [h1, h2, h3, h4]
  generalize intervalIndex g.nbCols g.colNode col = I at ci
  generalize intervalIndex g.nbRows g.rowNode row = J at cj
  simp only [(h5 I J (by omega) (by omega)).1, (h5 I J (by omega) (by omega)).2, (h5 I (J + 1) (by omega) cj).1, (h5 I (J + 1) (by omega) cj).2,
    (h5 (I + 1) J ci (by omega)).1, (h5 (I + 1) J ci (by omega)).2, (h5 (I + 1) (J + 1) ci cj).1, (h5 (I + 1) (J + 1) ci cj).2]

/-- A displacement grid whose positions are affine in the node is read back as an affine function of the epipolar position. -/
theorem gridOfFile_affine (step : K) (hstep : 0 < step) (rows cols : ℕ) (hr : 2 ≤ rows) (hc : 2 ≤ cols) (g : ℕ → ℕ → V3 K) (A B C A' B' C' : K)
    (h : ∀ i j : ℕ, i < rows → j < cols → (g i j).x + step * i = A + B * i + C * j ∧ (g i j).y + step * j = A' + B' * i + C' * j) (c r : K) :
    gridLookup (gridOfFile step rows cols g) (some c, some r) =
      (some (A' + B' * (r / step) + C' * (c / step)), some (A + B * (r / step) + C * (c / step))) := by
  have hreg : (gridOfFile step rows cols g).Regular := readRectGrid_regular _ true hr hc hstep hstep
  set g' : RectGrid K := ⟨cols, rows, (gridOfFile step rows cols g).colNode, (gridOfFile step rows cols g).rowNode,
    fun i j => A + B * j + C * i, fun i j => A' + B' * j + C' * i⟩ with hg'
  have hnode : ∀ i j : ℕ, (gridOfFile step rows cols g).colNode i = step * i ∧ (gridOfFile step rows cols g).rowNode j = step * j := by
    intro i j
    simp only [gridOfFile, readRectGrid, writeEpipolarGrid, displacementTransform, Affine.apply]
    constructor <;> ring
  have hcong := rectInterpolate_congr (gridOfFile step rows cols g) g' hreg rfl rfl rfl rfl (by
    intro i j hi hj
    obtain ⟨e1, e2⟩ := h j i hj hi
    obtain ⟨n1, n2⟩ := hnode i j
    have p1 : (gridOfFile step rows cols g).colPos i j = (g j i).y + (gridOfFile step rows cols g).colNode i := rfl
    have p2 : (gridOfFile step rows cols g).rowPos i j = (g j i).x + (gridOfFile step rows cols g).rowNode j := rfl
    rw [p1, p2, n1, n2, e1, e2]
    exact ⟨rfl, rfl⟩) c r
  have hreg' : g'.Regular := ⟨hreg.cols, hreg.rows, hreg.colMono, hreg.rowMono⟩
  have := C47_affine_reproduced g' hreg' A' (C' / step) (B' / step) A (C / step) (B / step)
    (by intro i j
        show A' + B' * j + C' * i = _
        rw [show g'.colNode i = step * i from (hnode i j).1, show g'.rowNode j = step * j from (hnode i j).2]
        field_simp; ring)
    (by intro i j
        show A + B * j + C * i = _
        rw [show g'.colNode i = step * i from (hnode i j).1, show g'.rowNode j = step * j from (hnode i j).2]
        field_simp; ring) c r
  simp only [gridLookup]
  rw [← hcong, this]
  simp only [Prod.mk.injEq, Option.some.injEq]
  constructor <;> ring

/-! ### The mean baseline ratio of the grids -/

/-- The local baseline ratio at a left position. -/
def ratioAt (t : Trig K) (fr : Option K × Option K → ORow K × ORow K) (fl : ORow K → ORow K) (off : K) (p : ORow K) : Option K :=
  baselineRatio t off (lineStart fr fl off p) (lineEnd fr fl off p)

/-- A position without NaN. -/
def Finite2 (p : ORow K) : Prop := p.x.isSome ∧ p.y.isSome

theorem movePoint_finite (t : Trig K) (spacing step : K) (axis : ℤ) (p : ORow K) (a : K) (hp : Finite2 p) :
    Finite2 (movePoint t spacing step axis p (some a)) := by
  obtain ⟨h1, h2⟩ := hp
  obtain ⟨x, hx⟩ := Option.isSome_iff_exists.1 h1
  obtain ⟨y, hy⟩ := Option.isSome_iff_exists.1 h2
  simp [Finite2, movePoint, olift2, hx, hy]

theorem chain_const {t : Trig K} {m : Stereo K} {fr : Option K × Option K → ORow K × ORow K} {fl : ORow K → ORow K}
    (hm : m.PointByPoint fr fl) {spacing step off : K} {axis : ℤ} {a c : K} (hang : ∀ p, Finite2 p → angleAt t fr fl off p = some a)
    (hrat : ∀ p, Finite2 p → ratioAt t fr fl off p = some c) {left : List (ORow K)} {angles : List (Option K)} {ls : List (Layer K)}
    (hl : ∀ p ∈ left, Finite2 p) (ha : ∀ x ∈ angles, x = some a) (h : LayerChain t m spacing step off axis left angles ls) :
    ∀ l ∈ ls, (∀ p ∈ l.left, Finite2 p) ∧ (∀ x ∈ l.angles, x = some a) ∧ ∀ o ∈ l.baseline, o = some c := by
  induction ls generalizing left angles with
  | nil => simp
  | cons y ys ih =>
    obtain ⟨hstep, hrest⟩ := h
    have hok := LayerStep.ok hm hstep
    obtain ⟨h1, -, starts, ends, ground, h4, -, h6⟩ := hstep
    rw [localEpipolarLine_points hm] at h4
    simp only [Except.ok.injEq, Prod.mk.injEq] at h4
    obtain ⟨rfl, rfl, -⟩ := h4
    rw [zipWith_map_same] at h6
    have f1 : ∀ p ∈ y.left, Finite2 p := by
      intro p hp
      rw [h1] at hp
      obtain ⟨n, hn, e⟩ := List.getElem_of_mem hp
      rw [List.getElem_zipWith] at e
      rw [← e, ha _ (List.getElem_mem _)]
      exact movePoint_finite _ _ _ _ _ _ (hl _ (List.getElem_mem _))
    have f2 : ∀ x ∈ y.angles, x = some a := by
      intro x hx
      rw [hok.2] at hx
      obtain ⟨p, hp, rfl⟩ := List.mem_map.1 hx
      exact hang p (f1 p hp)
    intro l hmem
    rcases List.mem_cons.1 hmem with rfl | hmem
    · refine ⟨f1, f2, fun o ho => ?_⟩
      rw [h6] at ho
      obtain ⟨p, hp, rfl⟩ := List.mem_map.1 ho
      exact hrat p (f1 p hp)
    · exact ih f1 f2 hrest l hmem

theorem strip_const {t : Trig K} {m : Stereo K} {fr : Option K × Option K → ORow K × ORow K} {fl : ORow K → ORow K}
    (hm : m.PointByPoint fr fl) {left right : List (ORow K)} {spacing : K} {axis : ℤ} {size : ℕ} (hsize : 1 ≤ size) {step off a c : K}
    {angles : Option (List (Option K))} {s : Strip K}
    (hang : ∀ p, Finite2 p → angleAt t fr fl off p = some a) (hrat : ∀ p, Finite2 p → ratioAt t fr fl off p = some c)
    (hl : ∀ p ∈ left, Finite2 p) (ha : ∀ l, angles = some l → ∀ x ∈ l, x = some a)
    (h : stripOfEpipolarGrid t m left right spacing axis size step off angles none = .ok s) :
    ∀ l ∈ s.layers, (∀ p ∈ l.left, Finite2 p) ∧ (∀ x ∈ l.angles, x = some a) ∧ ∀ o ∈ l.baseline, o = some c := by
  obtain ⟨l0, ls, e0, -, hleft, -, hch, h1, h2, -, -⟩ := strip_plain hsize h
  have h0 : (∀ x ∈ l0.angles, x = some a) ∧ ∀ o ∈ l0.baseline, o = some c := by
    cases angles with
    | some l =>
      rw [(h1 l rfl).1, (h1 l rfl).2]
      exact ⟨ha l rfl, by simp⟩
    | none =>
      obtain ⟨starts, ends, ground, h3, h4, h5⟩ := h2 rfl
      rw [localEpipolarLine_points hm] at h3
      simp only [Except.ok.injEq, Prod.mk.injEq] at h3
      obtain ⟨rfl, rfl, -⟩ := h3
      rw [zipWith_map_same] at h4 h5
      refine ⟨fun x hx => ?_, fun o ho => ?_⟩
      · rw [h4] at hx
        obtain ⟨p, hp, rfl⟩ := List.mem_map.1 hx
        exact hang p (hl p hp)
      · rw [h5] at ho
        obtain ⟨p, hp, rfl⟩ := List.mem_map.1 ho
        exact hrat p (hl p hp)
  rw [e0]
  intro l hmem
  rcases List.mem_cons.1 hmem with rfl | hmem
  · exact ⟨by rw [hleft]; exact hl, h0⟩
  · exact chain_const hm hang hrat hl h0.1 hch l hmem

theorem stereoGrids_const (t : Trig K) {m : Stereo K} {fr : Option K × Option K → ORow K × ORow K} {fl : ORow K → ORow K}
    (hm : m.PointByPoint fr fl) {startL startR : ORow K} {spacing step off a c : K} {rows cols : ℕ} (hr : 1 ≤ rows) (hc : 2 ≤ cols)
    (hang : ∀ p, Finite2 p → angleAt t fr fl off p = some a) (hrat : ∀ p, Finite2 p → ratioAt t fr fl off p = some c)
    (hstart : Finite2 startL) {g : EpiGrids K} (h : stereoGrids t m startL startR spacing step off rows cols = .ok g) :
    g.mean = some (c * (1 + ((rows : K) - cols) / (rows * cols))) := by
  have h' := h
  unfold stereoGrids at h
  cases h0 : stripOfEpipolarGrid t m [startL] [startR] spacing 0 rows step off none none with
  | error e => rw [h0] at h; simp at h
  | ok s0 =>
    rw [h0] at h
    simp only at h
    have c0 := strip_const hm hr hang hrat (by simpa using hstart) (by simp) h0
    have hlen : ∀ l ∈ s0.layers, l.left.length = 1 ∧ l.angles.length = 1 := by
      obtain ⟨l0, ls, e0, -, hleft, -, hch, -, hang0, -, -⟩ := strip_plain hr h0
      obtain ⟨starts, ends, ground, hloc, hang, -⟩ := hang0 rfl
      have hll := localEpipolarLine_length hm.keepsLength hloc
      have h1 : l0.angles.length = 1 := by rw [hang]; simp [hll.1, hll.2.1]
      intro l hl
      rw [e0] at hl
      rcases List.mem_cons.1 hl with rfl | hl
      · rw [hleft]; exact ⟨rfl, h1⟩
      · have := hch.lengths hm.keepsLength (by simp [h1]) l hl
        exact ⟨by simpa using this.1, by have := this.2; simp at this; omega⟩
    cases h1 : stripOfEpipolarGrid t m (heads nanRow (s0.layers.map fun l => l.left)) (heads nanRow (s0.layers.map fun l => l.right))
        spacing 1 cols step off (some (heads none (s0.layers.map fun l => l.angles))) none with
    | error e => rw [h1] at h; simp at h
    | ok s1 =>
      rw [h1] at h
      simp only [Except.ok.injEq] at h
      have c1 := strip_const hm (by omega) hang hrat (by
          intro p hp
          simp only [heads, List.map_map, List.mem_map, Function.comp] at hp
          obtain ⟨l, hl, rfl⟩ := hp
          have hl1 := (hlen l hl).1
          cases hx : l.left with
          | nil => rw [hx] at hl1; simp at hl1
          | cons q qs => exact (c0 l hl).1 q (by simp [hx])) (by
          intro l' e x hx
          simp only [Option.some.injEq] at e
          subst e
          simp only [heads, List.map_map, List.mem_map, Function.comp] at hx
          obtain ⟨l, hl, rfl⟩ := hx
          have hl1 := (hlen l hl).2
          cases hx : l.angles with
          | nil => rw [hx] at hl1; simp at hl1
          | cons q qs => exact (c0 l hl).2.1 q (by simp [hx])) h1
      refine C48_constant_ratio_bias t m hm.keepsLength startL startR spacing step off rows cols hr hc g s0 h' h0 c ?_ ?_
      · intro o ho
        simp only [stripBaselines, List.mem_flatMap] at ho
        obtain ⟨l, hl, ho⟩ := ho
        exact (c0 l hl).2.2 o ho
      · intro o ho
        rw [← h] at ho
        simp only [stripBaselines, List.mem_flatMap] at ho
        obtain ⟨l, hl, ho⟩ := ho
        exact (c1 l hl).2.2 o ho

/-- The mean baseline ratio returned with the grids when the angle and the ratio are the same everywhere. -/
theorem stereoRectification_const (t : Trig K) (conv : ℕ → ℕ → ORow K → ORow K) (left right : Geo K δ)
    (gl gr : Option K → Option K → Option K → ORow K) (dl dr : δ → Option K → Option K → ORow K)
    (sl sr : ORow K → Option K × Option K) (hl : LocatesEachPoint left gl dl sl) (hr : LocatesEachPoint right gr dr sr)
    (el : UserElevation K δ) (im : LeftImage K) (hsp : 0 < meanSpacing im) (epiStep off : K) (hst : 0 < epiStep) (disp : Bool)
    (margin : ℤ) (hmg : 0 ≤ margin) (fr : Option K × Option K → ORow K × ORow K) (fl : ORow K → ORow K)
    (hfr : fr = fun p => (seenAt sr (groundAt gl dl el p.1 p.2), groundAt gl dl el p.1 p.2))
    (hfl : fl = fun p => seenAt sl (gr p.x p.y p.z)) (a c : K)
    (hang : ∀ p, Finite2 p → angleAt t fr fl off p = some a) (hrat : ∀ p, Finite2 p → ratioAt t fr fl off p = some c)
    (res : RectResult K) (h : stereoRectification t conv left right el.arg im epiStep off disp margin none = .ok res)
    (rows cols : ℕ) (hrows : (rows : ℤ) = (prepareRectification (t.cos a) (t.sin a) 0 im epiStep margin).gridRows)
    (hcols : (cols : ℤ) = (prepareRectification (t.cos a) (t.sin a) 0 im epiStep margin).gridCols) :
    res.mean = some (c * (1 + ((rows : K) - cols) / (rows * cols))) := by
  have hm : (stereoOf conv left right el.arg).PointByPoint fr fl := by
    rw [hfr, hfl]; exact stereoOf_points hl hr conv el
  have hin := initInputs_points t hm im epiStep off margin a (hang _ ⟨rfl, rfl⟩) hsp.ne' hst.ne'
  obtain ⟨n1, n2⟩ := prepared_sizes (t.cos a) (t.sin a) 0 im hsp hst hmg
  unfold stereoRectification at h
  simp only at h
  rw [hin] at h
  simp only [← hrows, ← hcols] at h n1 n2
  rw [if_neg (by omega)] at h
  simp only [Int.toNat_natCast, twoStrips_plain] at h
  split at h
  · cases h
  · rename_i g hg
    simp only [Except.ok.injEq] at h
    rw [← h]
    exact stereoGrids_const t hm (by omega) (by omega) hang hrat ⟨rfl, rfl⟩ hg

/-- The displacement grids are the position grids minus the regular grid. -/
theorem stereoRectification_displacement (t : Trig K) (conv : ℕ → ℕ → ORow K → ORow K) (left right : Geo K δ) (el : Elevation K δ)
    (im : LeftImage K) (epiStep off : K) (margin : ℤ) (ad : Option (K × K)) (res : RectResult K)
    (h : stereoRectification t conv left right el im epiStep off false margin ad = .ok res) :
    stereoRectification t conv left right el im epiStep off true margin ad =
      .ok ⟨outputGrid true epiStep res.left, outputGrid true epiStep res.right, res.imageRows, res.imageCols, res.mean⟩ := by
  unfold stereoRectification at h ⊢
  simp only at h ⊢
  split at h
  · cases h
  · split at h
    · cases h
    · rename_i hneg
      rw [if_neg hneg]
      split at h
      · cases h
      · split at h
        · cases h
        · simp only [Except.ok.injEq] at h
          rw [← h]
          simp_all [outputGrid]

end

/-! ### Affine sensors -/

/-- Specification of an affine map of space. -/
def IsAffineMap (f : V3 ℝ → V3 ℝ) : Prop := ∀ p a b t, f (linePoint p (a.minus b) t) = linePoint (f p) ((f a).minus (f b)) t

variable {δ : Type*}

/-- The line of sight of a pixel of an affine sensor, in any affine frame. -/
theorem affine_sight {s : AffineSensor ℝ} {f : V3 ℝ → V3 ℝ} (hf : Function.Injective f) (haff : IsAffineMap f) (r c lo hi : ℝ) (h : lo ≠ hi) :
    f ⟨(s.ground r c hi).1, (s.ground r c hi).2, hi⟩ ≠ f ⟨(s.ground r c lo).1, (s.ground r c lo).2, lo⟩ ∧
    ∀ z, NearLine (f ⟨(s.ground r c hi).1, (s.ground r c hi).2, hi⟩) (f ⟨(s.ground r c lo).1, (s.ground r c lo).2, lo⟩)
      (f ⟨(s.ground r c z).1, (s.ground r c z).2, z⟩) 0 := by
  have hd : hi - lo ≠ 0 := sub_ne_zero.2 h.symm
  refine ⟨fun e => ?_, fun z => ⟨(z - lo) / (hi - lo), ?_⟩⟩
  · have := hf e
    simp only [V3.mk.injEq] at this
    exact h this.2.2.symm
  · rw [← haff]
    have : (⟨(s.ground r c z).1, (s.ground r c z).2, z⟩ : V3 ℝ) = linePoint ⟨(s.ground r c lo).1, (s.ground r c lo).2, lo⟩
        (V3.minus ⟨(s.ground r c hi).1, (s.ground r c hi).2, hi⟩ ⟨(s.ground r c lo).1, (s.ground r c lo).2, lo⟩) ((z - lo) / (hi - lo)) := by
      simp only [linePoint, V3.minus, AffineSensor.ground, V3.mk.injEq]
      refine ⟨?_, ?_, ?_⟩ <;> field_simp <;> ring
    rw [this]
    simp [sqDist]

/-- Two affine sensors with different viewing directions have no parallel lines of sight. -/
theorem affine_not_parallel {l r : AffineSensor ℝ} (hview : l.p ≠ r.p ∨ l.p' ≠ r.p') {f : V3 ℝ → V3 ℝ} (hf : Function.Injective f)
    (haff : IsAffineMap f) (r1 c1 r2 c2 lo hi lo' hi' : ℝ) (h' : lo' ≠ hi') :
    ¬ Parallel ((f ⟨(l.ground r1 c1 hi).1, (l.ground r1 c1 hi).2, hi⟩).minus (f ⟨(l.ground r1 c1 lo).1, (l.ground r1 c1 lo).2, lo⟩))
      ((f ⟨(r.ground r2 c2 hi').1, (r.ground r2 c2 hi').2, hi'⟩).minus (f ⟨(r.ground r2 c2 lo').1, (r.ground r2 c2 lo').2, lo'⟩)) := by
  rintro ⟨t, ht⟩
  have e : f (linePoint ⟨(r.ground r2 c2 lo').1, (r.ground r2 c2 lo').2, lo'⟩
      (V3.minus ⟨(l.ground r1 c1 hi).1, (l.ground r1 c1 hi).2, hi⟩ ⟨(l.ground r1 c1 lo).1, (l.ground r1 c1 lo).2, lo⟩) t) =
      f ⟨(r.ground r2 c2 hi').1, (r.ground r2 c2 hi').2, hi'⟩ := by
    rw [haff]
    generalize f ⟨(r.ground r2 c2 hi').1, (r.ground r2 c2 hi').2, hi'⟩ = a' at ht ⊢
    generalize f ⟨(r.ground r2 c2 lo').1, (r.ground r2 c2 lo').2, lo'⟩ = b' at ht ⊢
    generalize V3.minus (f _) (f _) = v at ht ⊢
    simp only [V3.minus, V3.mk.injEq] at ht
    obtain ⟨t1, t2, t3⟩ := ht
    obtain ⟨x, y, z⟩ := a'
    simp only [linePoint, V3.mk.injEq] at t1 t2 t3 ⊢
    exact ⟨by linarith, by linarith, by linarith⟩
  have := hf e
  simp only [linePoint, V3.minus, AffineSensor.ground, V3.mk.injEq] at this
  obtain ⟨e1, e2, e3⟩ := this
  have hd : hi' - lo' ≠ 0 := sub_ne_zero.2 h'.symm
  rcases hview with h | h
  · apply h
    apply mul_right_cancel₀ hd
    linear_combination e1 - l.p * e3
  · apply h
    apply mul_right_cancel₀ hd
    linear_combination e2 - l.p' * e3

/-- What is common to C95 and C96: with two affine sensors, the epipolar triangulation of any disparity map without NaN returns, and gives at
every pixel whose two sensor positions are homologous at the altitude `z` the ground point of altitude `z`, with a null residue. -/
theorem affine_triangulation (conv : ℕ → ℕ → ORow ℝ → ORow ℝ) (f : V3 ℝ → V3 ℝ) (hf : Function.Injective f) (haff : IsAffineMap f)
    (hconv : ∀ p : V3 ℝ, conv 4326 4978 p.toRow = (f p).toRow) (left right : Geo ℝ δ)
    (gl gr : Option ℝ → Option ℝ → Option ℝ → ORow ℝ) (dl dr : δ → Option ℝ → Option ℝ → ORow ℝ)
    (sl sr : ORow ℝ → Option ℝ × Option ℝ) (hl : LocatesEachPoint left gl dl sl) (hr : LocatesEachPoint right gr dr sr)
    (l r : AffineSensor ℝ) (altL altR : δ → ℝ → ℝ → ℝ) (hL : IsAffine l altL gl dl sl) (hR : IsAffine r altR gr dr sr)
    (hview : l.p ≠ r.p ∨ l.p' ≠ r.p') (altsL altsR : ℝ × ℝ) (minMaxL minMaxR : Option (ℝ × ℝ))
    (haL : (minMaxL.getD altsL).1 ≠ (minMaxL.getD altsL).2) (haR : (minMaxR.getD altsR).1 ≠ (minMaxR.getD altsR).2)
    (gridL gridR : Option ℝ × Option ℝ → Option ℝ × Option ℝ)
    (hgL : ∀ c r, ∃ c' r', gridL (some c, some r) = (some c', some r')) (hgR : ∀ c r, ∃ c' r', gridR (some c, some r) = (some c', some r'))
    (d : DispMap ℝ) (hd : ∀ i j, (d.disp i j).isSome) (mask : Option (ℕ → ℕ → ℝ)) (fill : Bool) :
    ∃ ecef wgs res, epipolarTriangulation Real.sqrt (conv 4326 4978) (conv 4978 4326) (left.los altsL) (right.los altsR) gridL gridR (.disp d) mask
        minMaxL minMaxR true fill = .ok (ecef, wgs, res) ∧
      ∀ (i j : ℕ) (rw cl x rl' cl' rr' cr' z : ℝ), d.rows[i]? = some rw → d.cols[j]? = some cl → d.disp i j = some x → (∀ m, mask = some m → m i j > 0) →
        gridL (some cl, some rw) = (some cl', some rl') → gridR (some (cl + x), some rw) = (some cr', some rr') →
        Homologous l r rl' cl' z rr' cr' →
        ecef[i * d.cols.length + j]? = some (f ⟨(l.ground rl' cl' z).1, (l.ground rl' cl' z).2, z⟩).toRow ∧
        wgs[i * d.cols.length + j]? = some (conv 4978 4326 (f ⟨(l.ground rl' cl' z).1, (l.ground rl' cl' z).2, z⟩).toRow) ∧
        res[i * d.cols.length + j]? = some (some 0) := by
  have hsq : IsSqrt Real.sqrt := fun x hx => ⟨Real.sqrt_nonneg x, Real.mul_self_sqrt hx⟩
  have cL : ∀ rw cl z : ℝ, conv 4326 4978 (gl (some rw) (some cl) (some z)) = (f ⟨(l.ground rw cl z).1, (l.ground rw cl z).2, z⟩).toRow := by
    intro rw cl z
    rw [hL.ground, ← hconv]
    rfl
  have cR : ∀ rw cl z : ℝ, conv 4326 4978 (gr (some rw) (some cl) (some z)) = (f ⟨(r.ground rw cl z).1, (r.ground rw cl z).2, z⟩).toRow := by
    intro rw cl z
    rw [hR.ground, ← hconv]
    rfl
  obtain ⟨ecef, wgs, res, hres⟩ := epipolar_returns Real.sqrt (conv 4326 4978) (conv 4978 4326) (left.los altsL) (right.los altsR) _ _
    (hl.los altsL) (hr.los altsR) gridL gridR d mask minMaxL minMaxR true fill (by
      intro t ht
      obtain ⟨cl, rl, cr, rr, rfl⟩ := disp_matches_finite d hd mask gridL gridR hgL hgR t ht
      exact sensorOne_returns Real.sqrt hsq _ _ _ _ _ _ _ _ _ _ _ _ _ _
        (affine_sight (s := l) hf haff rl cl _ _ haL).1 (affine_sight (s := r) hf haff rr cr _ _ haR).1
        (affine_not_parallel hview hf haff rl cl rr cr _ _ _ _ haR) (cL _ _ _) (cL _ _ _) (cR _ _ _) (cR _ _ _))
  refine ⟨ecef, wgs, res, hres, ?_⟩
  intro i j rw' cl x rl' cl' rr' cr' z hi hj hx hmask hgl hgr hhom
  have hloc : ∀ {m : Geo ℝ δ} {g gd se} (h : LocatesEachPoint m g gd se) (alts : ℝ × ℝ),
      (m.los alts).LocatesBy fun alt _ r c => g r c (some alt) := by
    intro m g gd se h alts row col alt fl out hlen ho
    rw [h.los alts row col alt fl hlen] at ho
    exact (Except.ok.inj ho).symm
  obtain ⟨p, ρ, k1, k2, k3, -, -, -, k7⟩ := C94_disparity_map Real.sqrt hsq (conv 4326 4978) (conv 4978 4326) (left.los altsL) (right.los altsR) _ _
    (hloc hl altsL) (hloc hr altsR) gridL gridR d mask minMaxL minMaxR fill ecef wgs res hres i j rw' cl x hi hj hx hmask
    (some cl') (some rl') (some cr') (some rr') hgl hgr _ _ _ _ (affine_sight (s := l) hf haff rl' cl' _ _ haL).1
    (affine_sight (s := r) hf haff rr' cr' _ _ haR).1 (cL _ _ _) (cL _ _ _) (cR _ _ _) (cR _ _ _)
    (f ⟨(l.ground rl' cl' z).1, (l.ground rl' cl' z).2, z⟩) 0 0 ((affine_sight (s := l) hf haff rl' cl' _ _ haL).2 z) (by
      have := (affine_sight (s := r) hf haff rr' cr' _ _ haR).2 z
      unfold Homologous at hhom
      rw [hhom]
      exact this)
  obtain ⟨e1, e2⟩ := k7 (by norm_num)
  rw [e1] at k1 k2
  rw [e2] at k3
  exact ⟨k1, k2, k3⟩

/-- The direction of the epipolar lines and the baseline ratio are the same everywhere: direction and length of the epipolar vector. -/
theorem affine_constant {l r : AffineSensor ℝ} {altL altR : δ → ℝ → ℝ → ℝ} {gl gr : Option ℝ → Option ℝ → Option ℝ → ORow ℝ}
    {dl dr : δ → Option ℝ → Option ℝ → ORow ℝ} {sl sr : ORow ℝ → Option ℝ × Option ℝ} (hL : IsAffine l altL gl dl sl)
    (hR : IsAffine r altR gr dr sr) (hdl : l.det ≠ 0) (hdr : r.det ≠ 0) (hview : l.p ≠ r.p ∨ l.p' ≠ r.p') (el : UserElevation ℝ δ)
    (off : ℝ) (hoff : 0 < off) (fr : Option ℝ × Option ℝ → ORow ℝ × ORow ℝ) (fl : ORow ℝ → ORow ℝ)
    (hfr : fr = fun p => (seenAt sr (groundAt gl dl el p.1 p.2), groundAt gl dl el p.1 p.2)) (hfl : fl = fun p => seenAt sl (gr p.x p.y p.z)) :
    ∃ a κ : ℝ, 0 < κ ∧ κ * Real.sin a = (epiVector l r).1 ∧ κ * Real.cos a = (epiVector l r).2 ∧
      (∀ p, Finite2 p → angleAt realTrig fr fl off p = some a) ∧ ∀ p, Finite2 p → ratioAt realTrig fr fl off p = some κ := by
  have hline := fun row col z => line_affine hL hR hdl hdr el off row col z fr fl hfr hfl
  have hv : (epiVector l r).1 ≠ 0 ∨ (epiVector l r).2 ≠ 0 := by
    by_contra hcon
    push Not at hcon
    obtain ⟨e1, e2⟩ := epiVector_spec l r hdl
    rw [hcon.1, hcon.2] at e1 e2
    rcases hview with h | h
    · apply h; linarith
    · apply h; linarith
  have h2 : 2 * off ≠ 0 := by positivity
  obtain ⟨er0, ec0, ez0, br0, bc0, bz0, q1, q2, q3, q4⟩ := hline 0 0 none
  have hne : er0 ≠ br0 ∨ ec0 ≠ bc0 := by
    rcases hv with h | h
    · left; intro e; rw [e, sub_self] at q3; exact h ((mul_eq_zero.1 q3.symm).resolve_left h2)
    · right; intro e; rw [e, sub_self] at q4; exact h ((mul_eq_zero.1 q4.symm).resolve_left h2)
  obtain ⟨a, ha, hang, -, -⟩ := C42_angle_of_direction er0 ec0 ez0 br0 bc0 bz0 hne
  rw [q3, q4] at hang
  unfold IsAngleOf at hang
  obtain ⟨b1, b2⟩ := hang
  generalize hv1 : (epiVector l r).1 = v1 at *
  generalize hv2 : (epiVector l r).2 = v2 at *
  set rho := Real.sqrt ((2 * off * v2) ^ 2 + (2 * off * v1) ^ 2) with hrho
  have hpos : 0 < rho := by
    apply Real.sqrt_pos.2
    rcases hv with h | h <;> positivity
  refine ⟨a, rho / (2 * off), by positivity, ?_, ?_, ?_, ?_⟩
  · rw [div_mul_eq_mul_div, b2]; field_simp
  · rw [div_mul_eq_mul_div, b1]; field_simp
  · rintro ⟨x, y, z⟩ ⟨h1, h3⟩
    obtain ⟨row, rfl⟩ := Option.isSome_iff_exists.1 h1
    obtain ⟨col, rfl⟩ := Option.isSome_iff_exists.1 h3
    obtain ⟨er, ec, ez, br, bc, bz, p1, p2, p3, p4⟩ := hline row col z
    unfold angleAt
    rw [p1, p2, ← ha]
    exact epipolarAngle_diff _ _ _ _ _ _ _ _ _ _ _ _ (by rw [p3, q3]) (by rw [p4, q4])
  · rintro ⟨x, y, z⟩ ⟨h1, h3⟩
    obtain ⟨row, rfl⟩ := Option.isSome_iff_exists.1 h1
    obtain ⟨col, rfl⟩ := Option.isSome_iff_exists.1 h3
    obtain ⟨er, ec, ez, br, bc, bz, p1, p2, p3, p4⟩ := hline row col z
    unfold ratioAt
    rw [p1, p2]
    simp only [baselineRatio, pos3, p3, p4, realTrig, Option.some.injEq, hrho]
    congr 2
    ring

theorem homologous_unique {l r : AffineSensor ℝ} (hdr : r.det ≠ 0) {row col z rr cc : ℝ} (h : Homologous l r row col z rr cc) :
    rr = (affineImage r (l.ground row col z).1 (l.ground row col z).2 z).1 ∧ cc = (affineImage r (l.ground row col z).1 (l.ground row col z).2 z).2 := by
  have h2 := affineImage_ground r hdr (l.ground row col z).1 (l.ground row col z).2 z
  unfold Homologous at h
  rw [h] at h2 ⊢
  simp only [AffineSensor.ground, Prod.mk.injEq] at h2 ⊢
  have := solve_hom (a := r.a) (b := r.b) (c := r.a') (d := r.b') (x := (affineImage r (r.a * rr + r.b * cc + r.p * z + r.u) (r.a' * rr + r.b' * cc + r.p' * z + r.u') z).1 - rr)
    (y := (affineImage r (r.a * rr + r.b * cc + r.p * z + r.u) (r.a' * rr + r.b' * cc + r.p' * z + r.u') z).2 - cc) hdr (by linarith [h2.1]) (by linarith [h2.2])
  exact ⟨by linarith [this.1], by linarith [this.2]⟩

/-- The whole chain for two affine sensors: the displacement grids and their nodes. -/
theorem affine_chain (conv : ℕ → ℕ → ORow ℝ → ORow ℝ) (left right : Geo ℝ δ)
    (gl gr : Option ℝ → Option ℝ → Option ℝ → ORow ℝ) (dl dr : δ → Option ℝ → Option ℝ → ORow ℝ)
    (sl sr : ORow ℝ → Option ℝ × Option ℝ) (hl : LocatesEachPoint left gl dl sl) (hr : LocatesEachPoint right gr dr sr)
    (l r : AffineSensor ℝ) (altL altR : δ → ℝ → ℝ → ℝ) (hL : IsAffine l altL gl dl sl) (hR : IsAffine r altR gr dr sr)
    (hdl : l.det ≠ 0) (hdr : r.det ≠ 0) (hview : l.p ≠ r.p ∨ l.p' ≠ r.p')
    (el : UserElevation ℝ δ) (im : LeftImage ℝ) (hsp : 0 < meanSpacing im) (epiStep off : ℝ) (hst : 0 < epiStep) (hoff : 0 < off)
    (margin : ℤ) (hmg : 0 ≤ margin) :
    ∃ (grids : RectResult ℝ) (rows cols : ℕ) (nl nr : ℕ → ℕ → V3 ℝ) (R0 C0 a κ : ℝ),
      stereoRectification realTrig conv left right el.arg im epiStep off true margin none = .ok grids ∧
      2 ≤ rows ∧ 2 ≤ cols ∧ grids.left.length = cols ∧ grids.right.length = cols ∧ (∀ c ∈ grids.left, c.length = rows) ∧
      (∀ c ∈ grids.right, c.length = rows) ∧
      (∀ i j : ℕ, i < rows → j < cols → ∃ z, gridNode grids.left i j = some ⟨some (nl i j).x, some (nl i j).y, z⟩ ∧
        gridNode grids.right i j = some (nr i j).toRow) ∧
      0 < κ ∧ κ * Real.sin a = (epiVector l r).1 ∧ κ * Real.cos a = (epiVector l r).2 ∧
      grids.mean = some (κ * (1 + ((rows : ℝ) - cols) / (rows * cols))) ∧
      ∀ i j : ℕ, i < rows → j < cols → ∃ row col z : ℝ, row = (nl i j).x + epiStep * i ∧ col = (nl i j).y + epiStep * j ∧
        row = R0 + i * (epiStep * meanSpacing im * Real.cos a) + j * (epiStep * meanSpacing im * Real.sin a) ∧
        col = C0 - i * (epiStep * meanSpacing im * Real.sin a) + j * (epiStep * meanSpacing im * Real.cos a) ∧
        z = elevAlt altL el row col ∧ Homologous l r row col z ((nr i j).x + epiStep * i) ((nr i j).y + epiStep * j) := by
  obtain ⟨res, rows, cols, R0, C0, a, er, ec, hres, hang, -, -, hrows, hcols, r2, c2, l1, l2, l3, l4, -, hnode, -⟩ :=
    affine_grids conv left right gl gr dl dr sl sr hl hr l r altL altR hL hR hdl hdr hview el im hsp epiStep off hst hoff.ne' margin hmg
  obtain ⟨a', κ, hκ, k1, k2, hang', hrat⟩ := affine_constant hL hR hdl hdr hview el off hoff _ _ rfl rfl
  obtain rfl : a' = a := by
    rw [hang' _ ⟨rfl, rfl⟩] at hang
    exact Option.some.inj hang
  have hmean := stereoRectification_const realTrig conv left right gl gr dl dr sl sr hl hr el im hsp epiStep off hst false margin hmg _ _ rfl rfl a' κ
    hang' hrat res hres rows cols hrows hcols
  have hdisp := stereoRectification_displacement realTrig conv left right el.arg im epiStep off margin none res hres
  choose! z rr cc zz hn using hnode
  refine ⟨_, rows, cols, fun i j => ⟨R0 + i * (epiStep * meanSpacing im * Real.cos a') + j * (epiStep * meanSpacing im * Real.sin a') - epiStep * i,
      C0 - i * (epiStep * meanSpacing im * Real.sin a') + j * (epiStep * meanSpacing im * Real.cos a') - epiStep * j, 0⟩,
    fun i j => ⟨rr i j - epiStep * i, cc i j - epiStep * j, zz i j⟩, R0, C0, a', κ, hdisp, r2, c2, ?_, ?_, ?_, ?_, ?_, hκ, k1, k2, hmean, ?_⟩
  · simp [outputGrid, l1]
  · simp [outputGrid, l2]
  · intro c hc
    simp only [outputGrid, if_true] at hc
    obtain ⟨k, hk, rfl⟩ := List.mem_mapIdx.1 hc
    simp only [List.length_mapIdx]
    exact l3 _ (List.getElem_mem _)
  · intro c hc
    simp only [outputGrid, if_true] at hc
    obtain ⟨k, hk, rfl⟩ := List.mem_mapIdx.1 hc
    simp only [List.length_mapIdx]
    exact l4 _ (List.getElem_mem _)
  · intro i j hi hj
    obtain ⟨m1, m2, -⟩ := hn i j hi hj
    refine ⟨z i j, ?_, ?_⟩
    · rw [outputGrid_node, m1, Option.map_some, written_eq]
      rfl
    · rw [outputGrid_node, m2, Option.map_some, written_eq]
      rfl
  · intro i j hi hj
    obtain ⟨-, -, m3, m4⟩ := hn i j hi hj
    refine ⟨_, _, zz i j, by simp only [sub_add_cancel], by simp only [sub_add_cancel], rfl, rfl, m3, ?_⟩
    simp only [sub_add_cancel]
    exact m4

theorem gridLookup_finite (g : RectGrid ℝ) (c r : ℝ) : ∃ c' r', gridLookup g (some c, some r) = (some c', some r') := ⟨_, _, rfl⟩

/-- C95. Two affine sensors with different viewing directions, seen in any affine geocentric frame, with any elevation (none, one altitude,
any DTM): the grids are returned; their files triangulate any disparity map without NaN, whatever its size and mask; and at every pixel at the
epipolar position of a node with a null disparity the point returned is exactly the ground point of the left node on the elevation, with
a null residue. -/
theorem C95_affine (conv : ℕ → ℕ → ORow ℝ → ORow ℝ) (f : V3 ℝ → V3 ℝ) (hf : Function.Injective f) (haff : IsAffineMap f)
    (hconv : ∀ p : V3 ℝ, conv 4326 4978 p.toRow = (f p).toRow) (left right : Geo ℝ δ)
    (gl gr : Option ℝ → Option ℝ → Option ℝ → ORow ℝ) (dl dr : δ → Option ℝ → Option ℝ → ORow ℝ)
    (sl sr : ORow ℝ → Option ℝ × Option ℝ) (hl : LocatesEachPoint left gl dl sl) (hr : LocatesEachPoint right gr dr sr)
    (l r : AffineSensor ℝ) (altL altR : δ → ℝ → ℝ → ℝ) (hL : IsAffine l altL gl dl sl) (hR : IsAffine r altR gr dr sr)
    (hdl : l.det ≠ 0) (hdr : r.det ≠ 0) (hview : l.p ≠ r.p ∨ l.p' ≠ r.p')
    (el : UserElevation ℝ δ) (im : LeftImage ℝ) (hsp : 0 < meanSpacing im) (epiStep off : ℝ) (hst : 0 < epiStep) (hoff : 0 < off)
    (margin : ℤ) (hmg : 0 ≤ margin) :
    ∃ (grids : RectResult ℝ) (rows cols : ℕ) (nl nr : ℕ → ℕ → V3 ℝ),
      stereoRectification realTrig conv left right el.arg im epiStep off true margin none = .ok grids ∧
      2 ≤ rows ∧ 2 ≤ cols ∧ grids.left.length = cols ∧ grids.right.length = cols ∧ (∀ c ∈ grids.left, c.length = rows) ∧
      (∀ c ∈ grids.right, c.length = rows) ∧
      (∀ i j : ℕ, i < rows → j < cols → ∃ z, gridNode grids.left i j = some ⟨some (nl i j).x, some (nl i j).y, z⟩ ∧
        gridNode grids.right i j = some (nr i j).toRow) ∧
      ∀ (altsL altsR : ℝ × ℝ) (minMaxL minMaxR : Option (ℝ × ℝ)), (minMaxL.getD altsL).1 ≠ (minMaxL.getD altsL).2 →
        (minMaxR.getD altsR).1 ≠ (minMaxR.getD altsR).2 →
        ∀ (d : DispMap ℝ) (mask : Option (ℕ → ℕ → ℝ)) (fill : Bool), (∀ i j, (d.disp i j).isSome) →
        ∃ ecef wgs res, epipolarTriangulation Real.sqrt (conv 4326 4978) (conv 4978 4326) (left.los altsL) (right.los altsR)
            (gridLookup (gridOfFile epiStep rows cols nl)) (gridLookup (gridOfFile epiStep rows cols nr)) (.disp d) mask minMaxL minMaxR true fill =
            .ok (ecef, wgs, res) ∧
          ∀ i j k m : ℕ, i < rows → j < cols → d.rows[k]? = some (epiStep * i) → d.cols[m]? = some (epiStep * j) → d.disp k m = some 0 →
            (∀ ma, mask = some ma → ma k m > 0) →
            ∃ row col z : ℝ, row = (nl i j).x + epiStep * i ∧ col = (nl i j).y + epiStep * j ∧ z = elevAlt altL el row col ∧
              ecef[k * d.cols.length + m]? = some (f ⟨(l.ground row col z).1, (l.ground row col z).2, z⟩).toRow ∧
              res[k * d.cols.length + m]? = some (some 0) := by
  obtain ⟨grids, rows, cols, nl, nr, R0, C0, a, κ, h1, h2, h3, h4, h5, h6, h7, h8, -, -, -, -, hn⟩ := affine_chain conv left right gl gr dl dr sl sr hl hr l r
    altL altR hL hR hdl hdr hview el im hsp epiStep off hst hoff margin hmg
  refine ⟨grids, rows, cols, nl, nr, h1, h2, h3, h4, h5, h6, h7, h8, ?_⟩
  intro altsL altsR minMaxL minMaxR haL haR d mask fill hd
  obtain ⟨ecef, wgs, res, hres, hpix⟩ := affine_triangulation conv f hf haff hconv left right gl gr dl dr sl sr hl hr l r altL altR hL hR hview
    altsL altsR minMaxL minMaxR haL haR (gridLookup (gridOfFile epiStep rows cols nl)) (gridLookup (gridOfFile epiStep rows cols nr))
    (gridLookup_finite _) (gridLookup_finite _) d hd mask fill
  refine ⟨ecef, wgs, res, hres, ?_⟩
  intro i j k m hi hj hk hm hx hmask
  obtain ⟨row, col, z, e1, e2, -, -, e3, hhom⟩ := hn i j hi hj
  obtain ⟨p1, -, p3⟩ := hpix k m (epiStep * i) (epiStep * j) 0 row col _ _ z hk hm hx hmask
    (by rw [gridOfFile_node epiStep hst rows cols h2 h3 nl i j hi hj, e1, e2])
    (by rw [add_zero, gridOfFile_node epiStep hst rows cols h2 h3 nr i j hi hj]) hhom
  exact ⟨row, col, z, e1, e2, e3, p1, p3⟩

/-- C96. Two affine sensors with different viewing directions and an elevation that is everywhere `z0` (none, one altitude or a flat DTM): at every
pixel of any disparity map, at the nodes of the grids, between them or outside, the altitude of the triangulated point is `z0` minus the disparity
times the spacing of the pixels divided by `κ`, the displacement in the left image, per unit of altitude, of the points seen by a right
pixel.  The mean baseline ratio returned with the grids is `κ` up to the bias of C48, so exactly `κ` when the grids are square. -/
theorem C96_altitude_of_disparity (conv : ℕ → ℕ → ORow ℝ → ORow ℝ) (f : V3 ℝ → V3 ℝ) (hf : Function.Injective f) (haff : IsAffineMap f)
    (hconv : ∀ p : V3 ℝ, conv 4326 4978 p.toRow = (f p).toRow) (left right : Geo ℝ δ)
    (gl gr : Option ℝ → Option ℝ → Option ℝ → ORow ℝ) (dl dr : δ → Option ℝ → Option ℝ → ORow ℝ)
    (sl sr : ORow ℝ → Option ℝ × Option ℝ) (hl : LocatesEachPoint left gl dl sl) (hr : LocatesEachPoint right gr dr sr)
    (l r : AffineSensor ℝ) (altL altR : δ → ℝ → ℝ → ℝ) (hL : IsAffine l altL gl dl sl) (hR : IsAffine r altR gr dr sr)
    (hdl : l.det ≠ 0) (hdr : r.det ≠ 0) (hview : l.p ≠ r.p ∨ l.p' ≠ r.p')
    (el : UserElevation ℝ δ) (z0 : ℝ) (hz0 : ∀ r c, elevAlt altL el r c = z0)
    (im : LeftImage ℝ) (hsp : 0 < meanSpacing im) (epiStep off : ℝ) (hst : 0 < epiStep) (hoff : 0 < off)
    (margin : ℤ) (hmg : 0 ≤ margin) :
    ∃ (grids : RectResult ℝ) (rows cols : ℕ) (nl nr : ℕ → ℕ → V3 ℝ) (κ : ℝ),
      stereoRectification realTrig conv left right el.arg im epiStep off true margin none = .ok grids ∧
      2 ≤ rows ∧ 2 ≤ cols ∧ grids.left.length = cols ∧ grids.right.length = cols ∧ (∀ c ∈ grids.left, c.length = rows) ∧
      (∀ c ∈ grids.right, c.length = rows) ∧
      (∀ i j : ℕ, i < rows → j < cols → ∃ z, gridNode grids.left i j = some ⟨some (nl i j).x, some (nl i j).y, z⟩ ∧
        gridNode grids.right i j = some (nr i j).toRow) ∧
      0 < κ ∧ (∀ r1 c1 z1 r2 c2 z2 rr cc : ℝ, Homologous l r r1 c1 z1 rr cc → Homologous l r r2 c2 z2 rr cc →
        (r1 - r2) ^ 2 + (c1 - c2) ^ 2 = (κ * (z1 - z2)) ^ 2) ∧
      grids.mean = some (κ * (1 + ((rows : ℝ) - cols) / (rows * cols))) ∧
      ∀ (altsL altsR : ℝ × ℝ) (minMaxL minMaxR : Option (ℝ × ℝ)), (minMaxL.getD altsL).1 ≠ (minMaxL.getD altsL).2 →
        (minMaxR.getD altsR).1 ≠ (minMaxR.getD altsR).2 →
        ∀ (d : DispMap ℝ) (mask : Option (ℕ → ℕ → ℝ)) (fill : Bool), (∀ i j, (d.disp i j).isSome) →
        ∃ ecef wgs res, epipolarTriangulation Real.sqrt (conv 4326 4978) (conv 4978 4326) (left.los altsL) (right.los altsR)
            (gridLookup (gridOfFile epiStep rows cols nl)) (gridLookup (gridOfFile epiStep rows cols nr)) (.disp d) mask minMaxL minMaxR true fill =
            .ok (ecef, wgs, res) ∧
          ∀ (k m : ℕ) (rw cl x : ℝ), d.rows[k]? = some rw → d.cols[m]? = some cl → d.disp k m = some x → (∀ ma, mask = some ma → ma k m > 0) →
            ∃ row col z : ℝ, gridLookup (gridOfFile epiStep rows cols nl) (some cl, some rw) = (some col, some row) ∧
              z = z0 - x * meanSpacing im / κ ∧
              ecef[k * d.cols.length + m]? = some (f ⟨(l.ground row col z).1, (l.ground row col z).2, z⟩).toRow ∧
              res[k * d.cols.length + m]? = some (some 0) := by
  obtain ⟨grids, rows, cols, nl, nr, R0, C0, a, κ, h1, h2, h3, h4, h5, h6, h7, h8, hκ, k1, k2, hmean, hn⟩ := affine_chain conv left right gl gr dl dr sl sr hl hr
    l r altL altR hL hR hdl hdr hview el im hsp epiStep off hst hoff margin hmg
  obtain ⟨v1, v2⟩ := epiVector_spec l r hdl
  rw [← k1, ← k2] at v1 v2
  refine ⟨grids, rows, cols, nl, nr, κ, h1, h2, h3, h4, h5, h6, h7, h8, hκ, ?_, hmean, ?_⟩
  · intro r1 c1 z1 r2 c2 z2 rr cc ha hb
    simp only [Homologous, AffineSensor.ground, Prod.mk.injEq] at ha hb
    have := solve_hom (a := l.a) (b := l.b) (c := l.a') (d := l.b') (x := (r1 - r2) - κ * Real.sin a * (z1 - z2)) (y := (c1 - c2) - κ * Real.cos a * (z1 - z2)) hdl
      (by linear_combination ha.1 - hb.1 - (z1 - z2) * v1) (by linear_combination ha.2 - hb.2 - (z1 - z2) * v2)
    have e1 : r1 - r2 = κ * Real.sin a * (z1 - z2) := by linarith [this.1]
    have e2 : c1 - c2 = κ * Real.cos a * (z1 - z2) := by linarith [this.2]
    rw [e1, e2]
    linear_combination (κ * (z1 - z2)) ^ 2 * Real.sin_sq_add_cos_sq a
  intro altsL altsR minMaxL minMaxR haL haR d mask fill hd
  obtain ⟨ecef, wgs, res, hres, hpix⟩ := affine_triangulation conv f hf haff hconv left right gl gr dl dr sl sr hl hr l r altL altR hL hR hview
    altsL altsR minMaxL minMaxR haL haR (gridLookup (gridOfFile epiStep rows cols nl)) (gridLookup (gridOfFile epiStep rows cols nr))
    (gridLookup_finite _) (gridLookup_finite _) d hd mask fill
  refine ⟨ecef, wgs, res, hres, ?_⟩
  intro k m rw' cl x hk hm hx hmask
  set s := meanSpacing im with hs
  -- the left grid
  have hleft := gridOfFile_affine epiStep hst rows cols h2 h3 nl R0 (epiStep * s * Real.cos a) (epiStep * s * Real.sin a) C0 (-(epiStep * s * Real.sin a))
    (epiStep * s * Real.cos a) (by
      intro i j hi hj
      obtain ⟨row, col, z, e1, e2, e3, e4, -, -⟩ := hn i j hi hj
      rw [← e1, ← e2, e3, e4]
      constructor <;> ring) cl rw'
  -- the right grid
  set q := affineImage r (l.ground R0 C0 z0).1 (l.ground R0 C0 z0).2 z0 with hq
  set mx : ℝ → ℝ → ℝ := fun x y => (r.b' * (l.a * x + l.b * y) - r.b * (l.a' * x + l.b' * y)) / r.det with hmx
  set my : ℝ → ℝ → ℝ := fun x y => (r.a * (l.a' * x + l.b' * y) - r.a' * (l.a * x + l.b * y)) / r.det with hmy
  have himg : ∀ x y, (affineImage r (l.ground (R0 + x) (C0 + y) z0).1 (l.ground (R0 + x) (C0 + y) z0).2 z0) = (q.1 + mx x y, q.2 + my x y) := by
    intro x y
    rw [hq, hmx, hmy]
    simp only [affineImage, AffineSensor.ground]
    generalize r.det = D at hdr
    ext
    · simp only; field_simp; ring
    · simp only; field_simp; ring
  have hright := gridOfFile_affine epiStep hst rows cols h2 h3 nr q.1 (mx (epiStep * s * Real.cos a) (-(epiStep * s * Real.sin a)))
    (mx (epiStep * s * Real.sin a) (epiStep * s * Real.cos a)) q.2 (my (epiStep * s * Real.cos a) (-(epiStep * s * Real.sin a)))
    (my (epiStep * s * Real.sin a) (epiStep * s * Real.cos a)) (by
      intro i j hi hj
      obtain ⟨row, col, z, -, -, e3, e4, e5, hh⟩ := hn i j hi hj
      rw [hz0] at e5
      rw [e5] at hh
      obtain ⟨u1, u2⟩ := homologous_unique hdr hh
      rw [u1, u2]
      have g1 : row = R0 + (i * (epiStep * s * Real.cos a) + j * (epiStep * s * Real.sin a)) := by rw [e3]; ring
      have g2 : col = C0 + (-(i * (epiStep * s * Real.sin a)) + j * (epiStep * s * Real.cos a)) := by rw [e4]; ring
      rw [g1, g2, himg]
      simp only [hmx, hmy]
      constructor <;> ring) (cl + x) rw'
  refine ⟨_, _, _, hleft, rfl, ?_⟩
  obtain ⟨p1, -, p3⟩ := hpix k m rw' cl x _ _ _ _ (z0 - x * s / κ) hk hm hx hmask hleft hright (by
    have hst' : epiStep ≠ 0 := hst.ne'
    have hκ' : κ ≠ 0 := hκ.ne'
    have g := affineImage_ground r hdr (l.ground (R0 + (s * Real.cos a * rw' + s * Real.sin a * (cl + x)))
      (C0 + (-(s * Real.sin a * rw') + s * Real.cos a * (cl + x))) z0).1 (l.ground (R0 + (s * Real.cos a * rw' + s * Real.sin a * (cl + x)))
      (C0 + (-(s * Real.sin a * rw') + s * Real.cos a * (cl + x))) z0).2 z0
    rw [himg] at g
    have w1 : q.1 + mx (epiStep * s * Real.cos a) (-(epiStep * s * Real.sin a)) * (rw' / epiStep) +
        mx (epiStep * s * Real.sin a) (epiStep * s * Real.cos a) * ((cl + x) / epiStep) =
        q.1 + mx (s * Real.cos a * rw' + s * Real.sin a * (cl + x)) (-(s * Real.sin a * rw') + s * Real.cos a * (cl + x)) := by
      simp only [hmx]; field_simp; ring
    have w2 : q.2 + my (epiStep * s * Real.cos a) (-(epiStep * s * Real.sin a)) * (rw' / epiStep) +
        my (epiStep * s * Real.sin a) (epiStep * s * Real.cos a) * ((cl + x) / epiStep) =
        q.2 + my (s * Real.cos a * rw' + s * Real.sin a * (cl + x)) (-(s * Real.sin a * rw') + s * Real.cos a * (cl + x)) := by
      simp only [hmy]; field_simp; ring
    rw [w1, w2]
    generalize q.1 + mx _ _ = X at g ⊢
    generalize q.2 + my _ _ = Y at g ⊢
    have y1 : R0 + epiStep * s * Real.cos a * (rw' / epiStep) + epiStep * s * Real.sin a * (cl / epiStep) =
        R0 + (s * Real.cos a * rw' + s * Real.sin a * cl) := by field_simp; ring
    have y2 : C0 + -(epiStep * s * Real.sin a) * (rw' / epiStep) + epiStep * s * Real.cos a * (cl / epiStep) =
        C0 + (-(s * Real.sin a * rw') + s * Real.cos a * cl) := by field_simp; ring
    rw [y1, y2]
    simp only [Homologous, AffineSensor.ground, Prod.mk.injEq] at g ⊢
    obtain ⟨g1, g2⟩ := g
    have t1 : x * s / κ * (l.a * (κ * Real.sin a) + l.b * (κ * Real.cos a)) = x * s * (l.a * Real.sin a + l.b * Real.cos a) := by field_simp
    have t2 : x * s / κ * (l.a' * (κ * Real.sin a) + l.b' * (κ * Real.cos a)) = x * s * (l.a' * Real.sin a + l.b' * Real.cos a) := by field_simp
    constructor
    · rw [v1] at t1
      linear_combination t1 - g1
    · rw [v2] at t2
      linear_combination t2 - g2)
  exact ⟨p1, p3⟩

/-! ### Concrete cases -/

/-- A geocentric frame: axes exchanged, rescaled and moved. -/
def exFrame (p : V3 ℝ) : V3 ℝ := ⟨2 * p.y + 10, 3 * p.z - p.x, p.x + 7⟩

theorem exFrame_injective : Function.Injective exFrame := by
  rintro ⟨x, y, z⟩ ⟨x', y', z'⟩ h
  simp only [exFrame, V3.mk.injEq] at h ⊢
  exact ⟨by linarith, by linarith, by linarith⟩

theorem exFrame_affine : IsAffineMap exFrame := by
  intro p a b t
  simp only [exFrame, linePoint, V3.minus, V3.mk.injEq]
  exact ⟨by ring, by ring, by ring⟩

/-- The conversions of this frame. -/
noncomputable def exConv (a b : ℕ) (p : ORow ℝ) : ORow ℝ :=
  if a = 4326 ∧ b = 4978 then match rowSome p with
    | some q => (exFrame q).toRow
    | none => nanRow
  else p

/-- The hypotheses of `C95_affine` are met: a vertical left view and a slanted right view of a rolling terrain. -/
example : ∃ (grids : RectResult ℝ) (rows cols : ℕ) (nl nr : ℕ → ℕ → V3 ℝ),
    stereoRectification realTrig exConv (affineGeo ⟨0, 1, 0, 0, 1, 0, 0, 0⟩) (affineGeo ⟨0, 1, 1 / 2, 0, 1, 0, 1 / 3, 0⟩)
      (UserElevation.dtm 4326 (fun r c => r * c)).arg ⟨5, 7, 1, 1, ⟨1, 0, 0, 0, 1, 0⟩⟩ 3 50 true 1 none = .ok grids ∧ 2 ≤ rows ∧ 2 ≤ cols ∧
    ∃ ecef wgs res, epipolarTriangulation Real.sqrt (exConv 4326 4978) (exConv 4978 4326) ((affineGeo ⟨0, 1, 0, 0, 1, 0, 0, 0⟩).los (0, 100))
        ((affineGeo ⟨0, 1, 1 / 2, 0, 1, 0, 1 / 3, 0⟩).los (0, 100)) (gridLookup (gridOfFile 3 rows cols nl)) (gridLookup (gridOfFile 3 rows cols nr))
        (.disp ⟨[1, 0], [2, 0], fun _ _ => some 0⟩) none none none true false = .ok (ecef, wgs, res) ∧
      ∃ row col : ℝ, ecef[3]? = some (exFrame ⟨col, row, row * col⟩).toRow ∧ res[3]? = some (some 0) := by
  obtain ⟨g, gd, se, h1, h2⟩ := affineGeo_points ⟨0, 1, 0, 0, 1, 0, 0, 0⟩ (by norm_num [AffineSensor.det])
  obtain ⟨g', gd', se', h1', h2'⟩ := affineGeo_points ⟨0, 1, 1 / 2, 0, 1, 0, 1 / 3, 0⟩ (by norm_num [AffineSensor.det])
  obtain ⟨grids, rows, cols, nl, nr, h, hr, hc, -, -, -, -, -, htri⟩ := C95_affine exConv exFrame exFrame_injective exFrame_affine (fun p => rfl) _ _ g g' gd gd' se se'
    h1 h1' _ _ _ _ h2 h2' (by norm_num [AffineSensor.det]) (by norm_num [AffineSensor.det]) (Or.inl (by norm_num))
    (.dtm 4326 (fun r c => r * c)) ⟨5, 7, 1, 1, ⟨1, 0, 0, 0, 1, 0⟩⟩ (by norm_num [meanSpacing]) 3 50 (by norm_num) (by norm_num) 1 (by norm_num)
  obtain ⟨ecef, wgs, res, ht, hpix⟩ := htri (0, 100) (0, 100) none none (by norm_num) (by norm_num) ⟨[1, 0], [2, 0], fun _ _ => some 0⟩ none false
    (fun _ _ => rfl)
  obtain ⟨row, col, z, -, -, hz, p1, p2⟩ := hpix 0 0 1 1 (by omega) (by omega) (by simp) (by simp) rfl (by simp)
  refine ⟨grids, rows, cols, nl, nr, h, hr, hc, ecef, wgs, res, ht, row, col, ?_, p2⟩
  have e : z = row * col := hz
  rw [e] at p1
  simpa [AffineSensor.ground] using p1

/-- The hypotheses of `C96_altitude_of_disparity` are met: the right view moves by 1/2 column per metre, so that a disparity of -3 is a height
of 6 metres above the altitude 20 of the rectification. -/
example : ∃ (rows cols : ℕ) (nl nr : ℕ → ℕ → V3 ℝ) (ecef wgs : List (ORow ℝ)) (res : List (Option ℝ)),
    epipolarTriangulation Real.sqrt (exConv 4326 4978) (exConv 4978 4326) ((affineGeo ⟨0, 1, 0, 0, 1, 0, 0, 0⟩).los (0, 100))
        ((affineGeo ⟨0, 1, 1 / 2, 0, 1, 0, 0, 0⟩).los (0, 100)) (gridLookup (gridOfFile 3 rows cols nl)) (gridLookup (gridOfFile 3 rows cols nr))
        (.disp ⟨[1 / 7, 2 / 7], [11, 12], fun i j => some (i - 4 * j)⟩) none none none true false = .ok (ecef, wgs, res) ∧
      ∃ row col : ℝ, ecef[3]? = some (exFrame ⟨col, row, 26⟩).toRow ∧ res[3]? = some (some 0) := by
  obtain ⟨g, gd, se, h1, h2⟩ := affineGeo_points ⟨0, 1, 0, 0, 1, 0, 0, 0⟩ (by norm_num [AffineSensor.det])
  obtain ⟨g', gd', se', h1', h2'⟩ := affineGeo_points ⟨0, 1, 1 / 2, 0, 1, 0, 0, 0⟩ (by norm_num [AffineSensor.det])
  obtain ⟨grids, rows, cols, nl, nr, κ, h, -, -, -, -, -, -, -, hκ, hpar, -, htri⟩ := C96_altitude_of_disparity exConv exFrame exFrame_injective exFrame_affine (fun p => rfl)
    _ _ g g' gd gd' se se'
    h1 h1' _ _ _ _ h2 h2' (by norm_num [AffineSensor.det]) (by norm_num [AffineSensor.det]) (Or.inl (by norm_num))
    (.altitude 20) 20 (fun _ _ => rfl) ⟨5, 7, 1, 1, ⟨1, 0, 0, 0, 1, 0⟩⟩ (by norm_num [meanSpacing]) 3 50 (by norm_num) (by norm_num) 1 (by norm_num)
  obtain ⟨ecef, wgs, res, ht, hpix⟩ := htri (0, 100) (0, 100) none none (by norm_num) (by norm_num)
    ⟨[1 / 7, 2 / 7], [11, 12], fun i j => some (i - 4 * j)⟩ none false (fun _ _ => rfl)
  obtain ⟨row, col, z, -, hz, p1, p2⟩ := hpix 1 1 12 (2 / 7) (-3) (by simp) (by simp) (by norm_num) (by simp)
  have hk : κ = 1 / 2 := by
    have := hpar 0 (1 / 2) 1 0 0 0 0 0 (by norm_num [Homologous, AffineSensor.ground]) (by norm_num [Homologous, AffineSensor.ground])
    have h4 : (κ - 1 / 2) * (κ + 1 / 2) = 0 := by linear_combination -this
    rcases mul_eq_zero.1 h4 with e | e
    · linarith
    · linarith
  refine ⟨rows, cols, nl, nr, ecef, wgs, res, ht, row, col, ?_, p2⟩
  have e : z = 26 := by rw [hz, hk]; norm_num [meanSpacing]
  rw [e] at p1
  simpa [AffineSensor.ground] using p1

/-- The hypotheses of `C94_sensor` are met by lines of sight that do not meet: a vertical one and a slanted one, 1 apart. -/
example : ∃ (res : TriResult ℝ) (p : V3 ℝ) (ρ : ℝ),
    sensorTriangulation Real.sqrt id id (pointModel (fun z _ r c => ⟨c, r, some z⟩) (0, 1))
      (pointModel (fun z _ r c => ⟨c.map fun c => c + z, r.map fun r => r + 1, some z⟩) (0, 1)) [((some 0, some 0), (some 0, some 0))] none none true false =
      .ok res ∧ res.ecef[0]? = some p.toRow ∧ res.residues = some [some ρ] ∧ 0 ≤ ρ ∧ 2 * ρ ^ 2 ≤ 1 ∧ (1 / 4) * sqDist p ⟨0, 0, 0⟩ ≤ 1 := by
  have hsq : IsSqrt Real.sqrt := fun x hx => ⟨Real.sqrt_nonneg x, Real.mul_self_sqrt hx⟩
  have hL : ∀ f : ℝ → Bool → Option ℝ → Option ℝ → ORow ℝ, (pointModel f (0, 1)).LocatesBy f := fun f _ _ _ _ out _ ho => (Except.ok.inj ho).symm
  have hab : (⟨0, 0, 1⟩ : V3 ℝ) ≠ ⟨0, 0, 0⟩ := by simp
  have hab' : (⟨1, 1, 1⟩ : V3 ℝ) ≠ ⟨0, 1, 0⟩ := by simp
  obtain ⟨out, ho⟩ := forEach_returns (sensorOne Real.sqrt id id (pointModel (fun z _ r c => ⟨c, r, some z⟩) (0, 1))
      (pointModel (fun z _ r c => ⟨c.map fun c => c + z, r.map fun r => r + 1, some z⟩) (0, 1)) (fun z _ r c => ⟨c, r, some z⟩)
      (fun z _ r c => ⟨c.map fun c => c + z, r.map fun r => r + 1, some z⟩) none none false) [((some 0, some 0), (some 0, some 0))] (by
    intro t ht
    simp only [List.mem_singleton] at ht
    subst ht
    refine sensorOne_returns Real.sqrt hsq _ _ _ _ _ _ _ _ _ _ _ _ _ _ hab hab' ?_ ?_ ?_ ?_ ?_
    · rintro ⟨t, ht⟩
      simp [V3.minus] at ht
    · simp [pointModel, V3.toRow]
    · simp [pointModel, V3.toRow]
    · simp [pointModel, V3.toRow]
    · simp [pointModel, V3.toRow])
  have hres := sensorTriangulation_eq Real.sqrt id id (pointModel (fun z _ r c => ⟨c, r, some z⟩) (0, 1))
      (pointModel (fun z _ r c => ⟨c.map fun c => c + z, r.map fun r => r + 1, some z⟩) (0, 1)) _ _ (pointModel_pointwise _ _) (pointModel_pointwise _ _)
      [((some 0, some 0), (some 0, some 0))] none none true false
  rw [ho] at hres
  simp only at hres
  have hlen := forEach_length _ _ _ ho
  obtain ⟨p, ρ, k1, -, k3, -, k5, k6, k7, -⟩ := C94_sensor Real.sqrt hsq id id _ _ _ _ (hL _) (hL _) _ none none true false _ hres 0 (some 0) (some 0) (some 0) (some 0) rfl
    ⟨0, 0, 1⟩ ⟨0, 0, 0⟩ ⟨1, 1, 1⟩ ⟨0, 1, 0⟩ hab hab' (by simp [pointModel, V3.toRow]) (by simp [pointModel, V3.toRow]) (by simp [pointModel, V3.toRow])
    (by simp [pointModel, V3.toRow]) ⟨0, 0, 0⟩ 0 1 ⟨0, by simp [sqDist, linePoint]⟩ ⟨0, by simp [sqDist, linePoint]⟩
  refine ⟨_, p, ρ, hres, k1, ?_, k5, by linarith, ?_⟩
  · have h3 := k3 _ rfl
    simp only [List.length_cons, List.length_nil] at hlen
    obtain ⟨q, rfl⟩ := List.length_eq_one_iff.1 hlen
    simp at h3
    simp [h3]
  · have hc := k7 (Real.sqrt (1 / 2)) (by
      rw [Real.sq_sqrt (by norm_num)]
      norm_num [sqDist, V3.minus, V3.dot])
    have hle : Real.sqrt (1 / 2) ≤ 3 / 4 := by
      rw [show (3 / 4 : ℝ) = Real.sqrt ((3 / 4) ^ 2) by rw [Real.sqrt_sq (by norm_num)]]
      exact Real.sqrt_le_sqrt (by norm_num)
    rw [abs_of_nonneg (Real.sqrt_nonneg _)] at hc
    have h0 : 0 ≤ sqDist p ⟨0, 0, 0⟩ := by unfold sqDist; positivity
    nlinarith

/-- The lines of sight convert the ground points as if they were longitudes and latitudes (los.py:84-85), whatever the coordinate system of the
model (a multi-layer grid has the one of its file).  Here both views are in the system 2154, whose geocentric coordinates are translated, and
the match of the ground point (0, 0, 0) is triangulated elsewhere than at this point. -/
theorem C95_other_epsg_counterexample : ∃ (conv : ℕ → ℕ → ORow ℝ → ORow ℝ) (left right : Geo ℝ (ℝ → ℝ → ℝ)) (ecef wgs : List (ORow ℝ)) (res : List (Option ℝ)),
    left.epsg = 2154 ∧ right.epsg = 2154 ∧ left.directH [some 0] [some 0] [some 0] = .ok [pos3 0 0 0] ∧
    right.directH [some 0] [some 0] [some 0] = .ok [pos3 0 0 0] ∧ conv left.epsg 4978 (pos3 0 0 0) = pos3 1 0 0 ∧
    epipolarTriangulation Real.sqrt (conv 4326 4978) (conv 4978 4326) (left.los (-1, 1)) (right.los (-1, 1)) id id (.disp ⟨[0], [0], fun _ _ => some 0⟩)
      none none none true false = .ok (ecef, wgs, res) ∧ ecef[0]? = some (pos3 0 0 0) ∧ res[0]? = some (some 0) := by
  have up : ∀ {m : Geo ℝ (ℝ → ℝ → ℝ)} {g gd se}, LocatesEachPoint m g gd se → LocatesEachPoint { m with epsg := 2154 } g gd se :=
    fun h => ⟨h.oneAlt, h.eachAlt, h.dtm, h.inv⟩
  obtain ⟨g, gd, se, h1, h2⟩ := affineGeo_points ⟨0, 1, 0, 0, 1, 0, 0, 0⟩ (by norm_num [AffineSensor.det])
  obtain ⟨g', gd', se', h1', h2'⟩ := affineGeo_points ⟨0, 1, 1 / 2, 0, 1, 0, 1 / 3, 0⟩ (by norm_num [AffineSensor.det])
  obtain ⟨ecef, wgs, res, ht, hpix⟩ := affine_triangulation (fun a _ p => if a = 2154 then ⟨p.x.map fun x => x + 1, p.y, p.z⟩ else p) (fun p => p) (fun _ _ h => h)
    (fun _ _ _ _ => rfl) (fun p => by simp) { affineGeo ⟨0, 1, 0, 0, 1, 0, 0, 0⟩ with epsg := 2154 }
    { affineGeo ⟨0, 1, 1 / 2, 0, 1, 0, 1 / 3, 0⟩ with epsg := 2154 } g g' gd gd' se se'
    (up h1) (up h1') _ _ _ _ h2 h2' (Or.inl (by norm_num)) (-1, 1) (-1, 1) none none (by norm_num) (by norm_num) id id
    (fun c r => ⟨c, r, rfl⟩) (fun c r => ⟨c, r, rfl⟩) ⟨[0], [0], fun _ _ => some 0⟩ (fun _ _ => rfl) none false
  obtain ⟨p1, -, p3⟩ := hpix 0 0 0 0 0 0 0 0 0 0 (by simp) (by simp) rfl (by simp) rfl (by simp) (by norm_num [Homologous, AffineSensor.ground])
  refine ⟨fun a _ p => if a = 2154 then ⟨p.x.map fun x => x + 1, p.y, p.z⟩ else p, { affineGeo ⟨0, 1, 0, 0, 1, 0, 0, 0⟩ with epsg := 2154 },
    { affineGeo ⟨0, 1, 1 / 2, 0, 1, 0, 1 / 3, 0⟩ with epsg := 2154 }, ecef, wgs, res, rfl, rfl, ?_, ?_, ?_, ht, ?_, p3⟩
  · simp [affineGeo, AffineSensor.ground, pos3]
  · simp [affineGeo, AffineSensor.ground, pos3]
  · simp [pos3]
  · simpa [AffineSensor.ground, pos3, V3.toRow] using p1

end Shareloc
