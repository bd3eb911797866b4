import Verif.Props.Triangulation
import Verif.Lemmas.Grid

/-!
# C40, C41: epipolar triangulation
-/

set_option linter.unusedSectionVars false

namespace Shareloc
variable {K : Type*} [Field K] [LinearOrder K] [IsStrictOrderedRing K]

/-! ### C41 -/

theorem dispPixels_getElem? (d : DispMap K) (i j : ℕ) (c r : K) (hi : d.rows[i]? = some r) (hj : d.cols[j]? = some c) :
    (dispPixels d)[i * d.cols.length + j]? = some ((i, j), c, r) := by
  have hi' : i < d.rows.length := (List.getElem?_eq_some_iff.1 hi).1
  have hj' : j < d.cols.length := (List.getElem?_eq_some_iff.1 hj).1
  have e : dispPixels d = (List.range d.rows.length).flatMap fun i => (List.range d.cols.length).map
      fun j => ((i, j), d.cols.getD j 0, d.rows.getD i 0) := by
    have hz : ∀ l : List K, l.zipIdx = (List.range l.length).map fun i => (l.getD i 0, i) := by
      intro l
      apply List.ext_getElem
      · simp
      · intro n h1 h2
        simp at h1
        simp [List.getD_eq_getElem?_getD, List.getElem?_eq_getElem h1]
    simp only [dispPixels, hz, List.flatMap_map, List.map_map]
    rfl
  rw [e, flatMap_range_getElem? (fun i j => ((i, j), d.cols.getD j 0, d.rows.getD i 0)) _ _ i j hi' hj']
  rw [List.getD_eq_getElem?_getD, List.getD_eq_getElem?_getD, hi, hj]
  rfl

theorem dispPixels_length (d : DispMap K) : (dispPixels d).length = d.rows.length * d.cols.length := by
  simp [dispPixels, List.length_flatMap, List.map_const']

/-- C41. Without mask there is one match per pixel, in row-major order: the left position is the pixel (its column and
row coordinates), the right one the same row with the column moved by the disparity (NaN for a NaN disparity). -/
theorem C41_all_pixels (d : DispMap K) (i j : ℕ) (c r : K) (hi : d.rows[i]? = some r) (hj : d.cols[j]? = some c) :
    let m := transformDispToMatches d none
    m.1.length = d.rows.length * d.cols.length ∧ m.2.1.length = d.rows.length * d.cols.length ∧
    m.1[i * d.cols.length + j]? = some (some c, some r) ∧
    m.2.1[i * d.cols.length + j]? = some ((d.disp i j).map fun x => c + x, some r) ∧
    m.2.2 = List.replicate (d.rows.length * d.cols.length) true := by
  have h := dispPixels_getElem? d i j c r hi hj
  have hl := dispPixels_length d
  simp only [transformDispToMatches, List.filter_true, List.length_map, hl]
  refine ⟨trivial, trivial, ?_, ?_, ?_⟩
  · simp [h]
  · simp [h]
  · rw [List.map_const', hl]

/-- C41. With a mask the matches are those of the pixels whose mask is positive, in the same order, and the returned
flags tell which. -/
theorem C41_masked (d : DispMap K) (mask : ℕ → ℕ → K) :
    let m := transformDispToMatches d (some mask)
    m.2.2 = (dispPixels d).map (fun t => decide (mask t.1.1 t.1.2 > 0)) ∧
    m.1.zip m.2.1 = ((dispPixels d).filter fun t => decide (mask t.1.1 t.1.2 > 0)).map fun t =>
      ((some t.2.1, some t.2.2), ((d.disp t.1.1 t.1.2).map fun x => t.2.1 + x, some t.2.2)) := by
  refine ⟨rfl, ?_⟩
  simp only [transformDispToMatches, List.zip_map']

example : transformDispToMatches (⟨[10, 11], [5, 6, 7], fun i j => if i = 1 ∧ j = 1 then none else some (i + j / 2)⟩ : DispMap ℚ)
    (some fun i j => if i = 0 ∧ j = 1 then 0 else 1) =
    ([(some 10, some 5), (some 10, some 6), (some 11, some 6), (some 10, some 7), (some 11, some 7)],
     [(some 10, some 5), (some 11, some 6), (none, some 6), (some 12, some 7), (some (27 / 2), some 7)],
     [true, false, true, true, true, true]) := by
  decide +kernel

/-! ### C40 -/

/-- A model that locates each point independently of the others. -/
def LosModel.Pointwise (m : LosModel K) (f : K → Bool → Option K → Option K → ORow K) : Prop :=
  ∀ row col alt fill, row.length = col.length → m.directLocH row col alt fill = .ok (List.zipWith (f alt fill) row col)

theorem zipWith_map_map {α β γ δ : Type*} (g : β → γ → δ) (a : α → β) (b : α → γ) (l : List α) :
    List.zipWith g (l.map a) (l.map b) = l.map fun p => g (a p) (b p) := by
  induction l with
  | nil => rfl
  | cons p ps ih => simp

theorem zip_map_same {α β γ : Type*} (l : List α) (f : α → β) (g : α → γ) :
    (l.map f).zip (l.map g) = l.map fun a => (f a, g a) := List.zip_map'

theorem forEach_then {α β γ : Type*} (F : α → Except TriError γ) (f : α → Except TriError β) (g : α → β → γ)
    (hF : ∀ a, F a = match f a with
      | .error e => .error e
      | .ok p => .ok (g a p)) (l : List α) :
    forEach F l =
    match forEach f l with
    | .error e => .error e
    | .ok ps => .ok (List.zipWith g l ps) := by
  induction l with
  | nil => rfl
  | cons a as ih =>
    simp only [forEach, ih, hF]
    cases f a with
    | error e => rfl
    | ok p =>
      cases forEach f as with
      | error e => rfl
      | ok ps => rfl

theorem forEach_length {α β : Type*} (f : α → Except TriError β) (l : List α) (out : List β) (h : forEach f l = .ok out) :
    out.length = l.length := by
  rw [forEach_ok_iff] at h
  exact h.length_eq.symm

theorem zip_map_left_map {α β γ δ : Type*} (l : List α) (ps : List β) (f : α → γ) (g : γ × β → δ) :
    ((l.map f).zip ps).map g = List.zipWith (fun a p => g (f a, p)) l ps := by
  induction l generalizing ps with
  | nil => rfl
  | cons a as ih =>
    cases ps with
    | nil => rfl
    | cons p ps => simp [ih]

theorem scatterMask_all {α γ : Type*} (fill : γ) (l : List α) (v : List γ) (h : v.length = l.length) :
    scatterMask fill (l.map fun _ => true) v = v := by
  induction l generalizing v with
  | nil =>
    cases v with
    | nil => rfl
    | cons x xs => simp at h
  | cons a as ih =>
    cases v with
    | nil => simp at h
    | cons x xs =>
      simp only [List.map_cons, scatterMask]
      rw [ih xs (by simpa using h)]

theorem losCreation_pointwise (sqrt : K → K) (conv : ORow K → ORow K) (m : LosModel K)
    (f : K → Bool → Option K → Option K → ORow K) (hm : m.Pointwise f) (pos : List (Option K × Option K))
    (minMax : Option (K × K)) (fill : Bool) :
    losCreation sqrt conv m pos minMax fill = .ok
      ⟨pos.map fun p => conv (f (minMax.getD m.altMinMax).2 fill p.2 p.1),
       pos.map fun p => conv (f (minMax.getD m.altMinMax).1 fill p.2 p.1),
       pos.map fun p => viewingVector sqrt (conv (f (minMax.getD m.altMinMax).2 fill p.2 p.1))
        (conv (f (minMax.getD m.altMinMax).1 fill p.2 p.1))⟩ := by
  have h := C35_extrema sqrt conv m pos minMax fill _ _ (hm _ _ _ _ (by simp)) (hm _ _ _ _ (by simp)) (by simp)
  rw [h, zipWith_map_map, zipWith_map_map]
  simp only [List.map_map, zipWith_map_map]
  rfl

/-- Triangulation of one sensor match: point, its conversion and its residue. -/
def sensorOne (sqrt : K → K) (toEcef toWgs84 : ORow K → ORow K) (mL mR : LosModel K)
    (fL fR : K → Bool → Option K → Option K → ORow K) (minMaxL minMaxR : Option (K × K)) (fill : Bool)
    (t : (Option K × Option K) × (Option K × Option K)) : Except TriError (ORow K × ORow K × Option K) :=
  let s1 := toEcef (fL (minMaxL.getD mL.altMinMax).2 fill t.1.2 t.1.1)
  let v1 := viewingVector sqrt s1 (toEcef (fL (minMaxL.getD mL.altMinMax).1 fill t.1.2 t.1.1))
  let s2 := toEcef (fR (minMaxR.getD mR.altMinMax).2 fill t.2.2 t.2.1)
  let v2 := viewingVector sqrt s2 (toEcef (fR (minMaxR.getD mR.altMinMax).1 fill t.2.2 t.2.1))
  match matchPoint ((s1, v1), (s2, v2)) with
  | .error e => .error e
  | .ok p => .ok (p, toWgs84 p, nViewDistance sqrt s1 v1 p)

theorem forEach_map {α β γ : Type*} (f : β → Except TriError γ) (g : α → β) (l : List α) :
    forEach f (l.map g) = forEach (fun a => f (g a)) l := by
  induction l with
  | nil => rfl
  | cons a as ih => simp only [List.map_cons, forEach, ih]

theorem sensorTriangulation_eq (sqrt : K → K) (toEcef toWgs84 : ORow K → ORow K) (mL mR : LosModel K)
    (fL fR : K → Bool → Option K → Option K → ORow K) (hL : mL.Pointwise fL) (hR : mR.Pointwise fR)
    (pts : List ((Option K × Option K) × (Option K × Option K))) (minMaxL minMaxR : Option (K × K))
    (residues fill : Bool) :
    sensorTriangulation sqrt toEcef toWgs84 mL mR pts minMaxL minMaxR residues fill =
      match forEach (sensorOne sqrt toEcef toWgs84 mL mR fL fR minMaxL minMaxR fill) pts with
      | .error e => .error e
      | .ok l => .ok ⟨l.map fun q => q.1, l.map fun q => q.2.1, if residues then some (l.map fun q => q.2.2) else none⟩ := by
  simp only [sensorTriangulation, losCreation_pointwise sqrt toEcef mL fL hL, losCreation_pointwise sqrt toEcef mR fR hR,
    losTriangulation_eq, List.map_map]
  rw [forEach_then (sensorOne sqrt toEcef toWgs84 mL mR fL fR minMaxL minMaxR fill)
      (fun t : (Option K × Option K) × (Option K × Option K) =>
        matchPoint ((toEcef (fL (minMaxL.getD mL.altMinMax).2 fill t.1.2 t.1.1),
        viewingVector sqrt (toEcef (fL (minMaxL.getD mL.altMinMax).2 fill t.1.2 t.1.1))
          (toEcef (fL (minMaxL.getD mL.altMinMax).1 fill t.1.2 t.1.1))),
        (toEcef (fR (minMaxR.getD mR.altMinMax).2 fill t.2.2 t.2.1),
        viewingVector sqrt (toEcef (fR (minMaxR.getD mR.altMinMax).2 fill t.2.2 t.2.1))
          (toEcef (fR (minMaxR.getD mR.altMinMax).1 fill t.2.2 t.2.1)))))
      (fun (t : (Option K × Option K) × (Option K × Option K)) (p : ORow K) => (p, toWgs84 p,
        nViewDistance sqrt (toEcef (fL (minMaxL.getD mL.altMinMax).2 fill t.1.2 t.1.1))
          (viewingVector sqrt (toEcef (fL (minMaxL.getD mL.altMinMax).2 fill t.1.2 t.1.1))
          (toEcef (fL (minMaxL.getD mL.altMinMax).1 fill t.1.2 t.1.1))) p)) (fun t => by simp only [sensorOne]; split <;> simp_all)]
  simp only [distancePointLos, zip_map_same, Function.comp_def, forEach_map]
  generalize hf : forEach _ pts = r
  cases r with
  | error e => rfl
  | ok ps =>
    have hlen := forEach_length _ _ _ hf
    simp only [Except.ok.injEq, TriResult.mk.injEq]
    have h1 : ∀ (g : (Option K × Option K) × (Option K × Option K) → ORow K → Option K),
        (List.zipWith (fun t p => (p, toWgs84 p, g t p)) pts ps).map (fun q => q.1) = ps ∧
        (List.zipWith (fun t p => (p, toWgs84 p, g t p)) pts ps).map (fun q => q.2.1) = ps.map toWgs84 ∧
        (List.zipWith (fun t p => (p, toWgs84 p, g t p)) pts ps).map (fun q => q.2.2) = List.zipWith g pts ps := by
      intro g
      clear hf
      induction pts generalizing ps with
      | nil =>
        cases ps with
        | nil => simp
        | cons p ps => simp at hlen
      | cons a as ih =>
        cases ps with
        | nil => simp at hlen
        | cons p ps =>
          obtain ⟨i1, i2, i3⟩ := ih ps (by simpa using hlen)
          simp [i1, i2, i3]
    refine ⟨((h1 _).1).symm, ((h1 _).2.1).symm, ?_⟩
    rw [(h1 _).2.2, zip_map_left_map]

theorem scatterMask_length {β : Type*} (fill : β) (m : List Bool) (v : List β) : (scatterMask fill m v).length = m.length := by
  induction m generalizing v with
  | nil => rfl
  | cons b bs ih =>
    cases b with
    | false => simp [scatterMask, ih]
    | true => cases v with
      | nil => simp [scatterMask, ih]
      | cons x xs => simp [scatterMask, ih]

/-- Results computed on the kept elements are written back at the places of these elements. -/
theorem scatterMask_forall₂ {α β γ : Type*} {R : α → β → Prop} (fill : γ) (ok : α → Bool) (g : β → γ) (l : List α)
    (out : List β) (h : List.Forall₂ R (l.filter ok) out) (n : ℕ) (a : α) (ha : l[n]? = some a) :
    (ok a = false → (scatterMask fill (l.map ok) (out.map g))[n]? = some fill) ∧
    (ok a = true → ∃ b, R a b ∧ (scatterMask fill (l.map ok) (out.map g))[n]? = some (g b)) := by
  induction l generalizing out n with
  | nil => simp at ha
  | cons x xs ih =>
    cases hx : ok x with
    | false =>
      rw [List.filter_cons, hx] at h
      simp only [Bool.false_eq_true, if_false] at h
      cases n with
      | zero =>
        simp at ha; subst ha
        exact ⟨fun _ => by simp [hx, scatterMask], fun h' => by rw [hx] at h'; simp at h'⟩
      | succ n => simpa [hx, scatterMask] using ih out h n (by simpa using ha)
    | true =>
      rw [List.filter_cons, hx] at h
      simp only [if_true] at h
      cases h with
      | cons h1 h2 =>
        cases n with
        | zero =>
          simp at ha; subst ha
          exact ⟨fun h' => by rw [hx] at h'; simp at h', fun _ => ⟨_, h1, by simp [hx, scatterMask]⟩⟩
        | succ n => simpa [hx, scatterMask] using ih _ h2 n (by simpa using ha)

/-- C40. For each pixel of the disparity map (row `i`, column `j`): a masked out pixel gets (0, 0, 0) and residue 0, the
others get what the single match of the pixel (left: the pixel; right: column moved by the disparity) gives alone. -/
theorem C40_scatter (sqrt : K → K) (toEcef toWgs84 : ORow K → ORow K) (mL mR : LosModel K)
    (fL fR : K → Bool → Option K → Option K → ORow K) (hL : mL.Pointwise fL) (hR : mR.Pointwise fR)
    (gridL gridR : Option K × Option K → Option K × Option K) (d : DispMap K) (mask : Option (ℕ → ℕ → K))
    (minMaxL minMaxR : Option (K × K)) (residues fill : Bool) (ecef wgs : List (ORow K)) (res : List (Option K))
    (h : epipolarTriangulation sqrt toEcef toWgs84 mL mR gridL gridR (.disp d) mask minMaxL minMaxR residues fill =
      .ok (ecef, wgs, res)) :
    ecef.length = d.rows.length * d.cols.length ∧ wgs.length = d.rows.length * d.cols.length ∧
    res.length = d.rows.length * d.cols.length ∧
    ∀ (i j : ℕ) (r c : K), d.rows[i]? = some r → d.cols[j]? = some c →
      let n := i * d.cols.length + j
      let zero : ORow K := ⟨some 0, some 0, some 0⟩
      ((∃ m, mask = some m ∧ m i j ≤ 0) → ecef[n]? = some zero ∧ wgs[n]? = some zero ∧ res[n]? = some (some 0)) ∧
      ((∀ m, mask = some m → m i j > 0) → ∃ e w q, ecef[n]? = some e ∧ wgs[n]? = some w ∧ res[n]? = some q ∧
        epipolarTriangulation sqrt toEcef toWgs84 mL mR gridL gridR
          (.sift [((some c, some r), ((d.disp i j).map fun x => c + x, some r))]) none minMaxL minMaxR residues fill =
          .ok ([e], [w], [q])) := by
  set okAt : (ℕ × ℕ) × K × K → Bool := fun t => match (generalizing := false) mask with
    | some m => decide (m t.1.1 t.1.2 > 0)
    | none => true with hok
  set mt : (ℕ × ℕ) × K × K → (Option K × Option K) × (Option K × Option K) := fun t =>
    ((some t.2.1, some t.2.2), ((d.disp t.1.1 t.1.2).map fun x => t.2.1 + x, some t.2.2)) with hmt
  set F := sensorOne sqrt toEcef toWgs84 mL mR fL fR minMaxL minMaxR fill with hF
  have hT : transformDispToMatches d mask =
      (((dispPixels d).filter okAt).map (fun t => (mt t).1), ((dispPixels d).filter okAt).map (fun t => (mt t).2),
       (dispPixels d).map okAt) := by rfl
  have hsingle : ∀ t, epipolarTriangulation sqrt toEcef toWgs84 mL mR gridL gridR (.sift [t]) none minMaxL minMaxR residues fill =
      match F (gridL t.1, gridR t.2) with
      | .error e => .error e
      | .ok q => .ok ([q.1], [q.2.1], [if residues then q.2.2 else none]) := by
    intro t
    simp only [epipolarTriangulation, List.map_cons, List.map_nil, List.zip_cons_cons, List.zip_nil_left,
      sensorTriangulation_eq sqrt toEcef toWgs84 mL mR fL fR hL hR, forEach, ← hF]
    cases F (gridL t.1, gridR t.2) with
    | error e => rfl
    | ok q => cases residues <;> rfl
  have hz : ((((dispPixels d).filter okAt).map (fun t => (mt t).1)).map gridL).zip
      ((((dispPixels d).filter okAt).map (fun t => (mt t).2)).map gridR) =
      ((dispPixels d).filter okAt).map fun t => (gridL (mt t).1, gridR (mt t).2) := by
    rw [List.map_map, List.map_map, List.zip_map']
    rfl
  simp only [epipolarTriangulation, hT, hz, sensorTriangulation_eq sqrt toEcef toWgs84 mL mR fL fR hL hR, forEach_map,
    ← hF] at h
  cases hf : forEach (fun t => F (gridL (mt t).1, gridR (mt t).2)) ((dispPixels d).filter okAt) with
  | error e => rw [hf] at h; simp at h
  | ok l =>
    rw [hf] at h
    rw [forEach_ok_iff] at hf
    have hres : (Option.getD (if residues = true then some (l.map fun q => q.2.2) else none)
        ((l.map fun q => q.1).map fun _ => (none : Option K))) = l.map fun q => if residues then q.2.2 else none := by
      cases residues with
      | true => rfl
      | false => simp only [Bool.false_eq_true, if_false, Option.getD_none, List.map_map]; rfl
    simp only [Except.ok.injEq, Prod.mk.injEq, hres] at h
    obtain ⟨rfl, rfl, rfl⟩ := h
    simp only [scatterMask_length, List.length_map, dispPixels_length]
    refine ⟨trivial, trivial, trivial, ?_⟩
    intro i j r c hi hj
    have hget := dispPixels_getElem? d i j c r hi hj
    refine ⟨?_, ?_⟩
    · rintro ⟨m, hme, hm⟩
      have hoka : okAt ((i, j), c, r) = false := by simpa [hok, hme] using hm
      exact ⟨(scatterMask_forall₂ _ okAt _ _ _ hf _ _ hget).1 hoka, (scatterMask_forall₂ _ okAt _ _ _ hf _ _ hget).1 hoka,
        (scatterMask_forall₂ _ okAt _ _ _ hf _ _ hget).1 hoka⟩
    · intro hm
      have hoka : okAt ((i, j), c, r) = true := by
        simp only [hok]
        cases hme : mask with
        | none => rfl
        | some m => simpa [hme] using hm m hme
      have h1 := scatterMask_forall₂ (⟨some 0, some 0, some 0⟩ : ORow K) okAt (fun q => q.1) _ _ hf _ _ hget
      have h2 := scatterMask_forall₂ (⟨some 0, some 0, some 0⟩ : ORow K) okAt (fun q => q.2.1) _ _ hf _ _ hget
      have h3 := scatterMask_forall₂ (some (0 : K)) okAt (fun q => if residues then q.2.2 else none) _ _ hf _ _ hget
      obtain ⟨b1, e1, g1⟩ := h1.2 hoka
      obtain ⟨b2, e2, g2⟩ := h2.2 hoka
      obtain ⟨b3, e3, g3⟩ := h3.2 hoka
      rw [e1] at e2 e3
      simp only [Except.ok.injEq] at e2 e3
      subst e2 e3
      refine ⟨_, _, _, g1, g2, g3, ?_⟩
      rw [hsingle]
      have e1' : F (gridL (some c, some r), gridR (Option.map (fun x => c + x) (d.disp i j), some r)) = .ok b1 := e1
      rw [e1']

/-- C40. Matches given as a list are all triangulated, in order, each as if it were alone. -/
theorem C40_sift (sqrt : K → K) (toEcef toWgs84 : ORow K → ORow K) (mL mR : LosModel K)
    (fL fR : K → Bool → Option K → Option K → ORow K) (hL : mL.Pointwise fL) (hR : mR.Pointwise fR)
    (gridL gridR : Option K × Option K → Option K × Option K)
    (ms : List ((Option K × Option K) × (Option K × Option K))) (mask : Option (ℕ → ℕ → K))
    (minMaxL minMaxR : Option (K × K)) (residues fill : Bool) (ecef wgs : List (ORow K)) (res : List (Option K))
    (h : epipolarTriangulation sqrt toEcef toWgs84 mL mR gridL gridR (.sift ms) mask minMaxL minMaxR residues fill =
      .ok (ecef, wgs, res)) (n : ℕ) (t : (Option K × Option K) × (Option K × Option K)) (ht : ms[n]? = some t) :
    ecef.length = ms.length ∧ ∃ e w q, ecef[n]? = some e ∧ wgs[n]? = some w ∧ res[n]? = some q ∧
      epipolarTriangulation sqrt toEcef toWgs84 mL mR gridL gridR (.sift [t]) mask minMaxL minMaxR residues fill =
        .ok ([e], [w], [q]) := by
  set F := sensorOne sqrt toEcef toWgs84 mL mR fL fR minMaxL minMaxR fill with hF
  have hsingle : epipolarTriangulation sqrt toEcef toWgs84 mL mR gridL gridR (.sift [t]) mask minMaxL minMaxR residues fill =
      match F (gridL t.1, gridR t.2) with
      | .error e => .error e
      | .ok q => .ok ([q.1], [q.2.1], [if residues then q.2.2 else none]) := by
    simp only [epipolarTriangulation, List.map_cons, List.map_nil, List.zip_cons_cons, List.zip_nil_left,
      sensorTriangulation_eq sqrt toEcef toWgs84 mL mR fL fR hL hR, forEach, ← hF]
    cases F (gridL t.1, gridR t.2) with
    | error e => rfl
    | ok q => cases residues <;> rfl
  have hz : ((ms.map fun t => t.1).map gridL).zip ((ms.map fun t => t.2).map gridR) =
      ms.map fun t => (gridL t.1, gridR t.2) := by
    rw [List.map_map, List.map_map, List.zip_map']; rfl
  simp only [epipolarTriangulation, hz, sensorTriangulation_eq sqrt toEcef toWgs84 mL mR fL fR hL hR, forEach_map,
    ← hF] at h
  cases hf : forEach (fun t => F (gridL t.1, gridR t.2)) ms with
  | error e => rw [hf] at h; simp at h
  | ok l =>
    rw [hf] at h
    rw [forEach_ok_iff] at hf
    have hres : (Option.getD (if residues = true then some (l.map fun q => q.2.2) else none)
        ((l.map fun q => q.1).map fun _ => (none : Option K))) = l.map fun q => if residues then q.2.2 else none := by
      cases residues with
      | true => rfl
      | false => simp only [Bool.false_eq_true, if_false, Option.getD_none, List.map_map]; rfl
    simp only [Except.ok.injEq, Prod.mk.injEq, hres] at h
    obtain ⟨rfl, rfl, rfl⟩ := h
    have hlen := hf.length_eq
    rw [scatterMask_all _ _ _ (by simp [hlen]), scatterMask_all _ _ _ (by simp [hlen]), scatterMask_all _ _ _ (by simp [hlen])]
    obtain ⟨b, hb, hR'⟩ := forall₂_getElem? hf n t ht
    refine ⟨by simp [hf.length_eq], b.1, b.2.1, if residues then b.2.2 else none, by simp [hb], by simp [hb], by simp [hb], ?_⟩
    rw [hsingle, hR']

/-- C40. An unknown type of matches raises an exception. -/
theorem C40_unknown_type (sqrt : K → K) (toEcef toWgs84 : ORow K → ORow K) (mL mR : LosModel K)
    (gridL gridR : Option K × Option K → Option K × Option K) (mask : Option (ℕ → ℕ → K))
    (minMaxL minMaxR : Option (K × K)) (residues fill : Bool) :
    epipolarTriangulation sqrt toEcef toWgs84 mL mR gridL gridR .other mask minMaxL minMaxR residues fill =
      .error .keyError := rfl

/-- Locations of a toy sensor whose lines of sight have slope `k`. -/
def toyLoc (k : ℚ) : ℚ → Bool → Option ℚ → Option ℚ → ORow ℚ := fun alt _ row col =>
  match row, col with
  | some r, some c => ⟨some (c + k * alt), some r, some alt⟩
  | _, _ => nanRow

/-- A toy sensor: its altitudes range from 0 to 1. -/
def toyModel (k : ℚ) : LosModel ℚ := ⟨fun row col alt fill => .ok (List.zipWith (toyLoc k alt fill) row col), (0, 1)⟩

theorem toyModel_pointwise (k : ℚ) : (toyModel k).Pointwise (toyLoc k) := fun _ _ _ _ _ => rfl

/-- The hypotheses of `C40_scatter` and `C40_sift` are met: two pixels out of three are triangulated, at the altitude
-4/3 of their disparity, the masked one is 0. -/
example : epipolarTriangulation (fun x : ℚ => if x = 25 / 16 then 5 / 4 else x) id id (toyModel 0) (toyModel (3 / 4))
    id id (.disp ⟨[10, 11, 12], [5], fun _ j => some (-(j : ℚ) * 3)⟩) (some fun _ j => if j = 1 then 0 else 1)
    none none true false =
    .ok ([⟨some 10, some 5, some 0⟩, ⟨some 0, some 0, some 0⟩, ⟨some 12, some 5, some 8⟩],
      [⟨some 10, some 5, some 0⟩, ⟨some 0, some 0, some 0⟩, ⟨some 12, some 5, some 8⟩], [some 0, some 0, some 0]) := by
  decide +kernel

end Shareloc
