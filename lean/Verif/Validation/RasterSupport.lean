import Verif.Validation.Support
import Verif.Model.GridFile
import Verif.Model.DtmIntersection

/-!
Rasters packed in one number, and comparisons of the results of the model with reference values.
-/

namespace Shareloc.Validation

/-- The value of rank `k` among values of `w` bits. -/
def digit (data w k : ℕ) : ℕ := (data >>> (w * k)) % 2 ^ w

/-- A node of a band: the longitudes are stored with 52 bits after the point. -/
def node (data r0 nr c0 nc : ℕ) (i j : ℕ) : ℚ :=
  if r0 ≤ i ∧ i < r0 + nr ∧ c0 ≤ j ∧ j < c0 + nc then
    mkRat (digit data 64 ((i - r0) * nc + (j - c0)) : ℕ) (2 ^ 52)
  else 0

/-- A cell of a raster of `w` columns, 16 bits by cell. -/
def cell16 (data w : ℕ) (i j : ℤ) : ℚ := (digit data 16 (i.toNat * w + j.toNat) : ℕ)

/-- `int` of Python for decimal digits. -/
def decInt (s : Line) : Option ℤ :=
  match digits 0 0 (sign s).2 with
  | (n, k, []) => if k = 0 then none else some (if (sign s).1 then -(n : ℤ) else n)
  | _ => none

/-- Insertion of a pair before the first greater value. -/
def insertArg (x : ℚ × ℕ) : List (ℚ × ℕ) → List (ℚ × ℕ)
  | [] => [x]
  | y :: ys => if x.1 < y.1 then x :: y :: ys else y :: insertArg x ys

/-- `np.argsort`. -/
def argsort (l : List ℚ) : List ℕ := ((l.zipIdx.foldl (fun acc x => insertArg x acc) []).map fun x => x.2)

/-- The libraries of `Grid.load`. -/
def gridEnv : GridEnv ℚ := ⟨decInt, decFloat, argsort⟩

/-- The grid and the EPSG code read in a file. -/
def loadedGrid (f : GridFile ℚ) : MultiGrid ℚ × Option ℤ :=
  match gridLoad gridEnv f with
  | .ok r => r
  | .error _ => ⟨⟨0, 0, 0, fun _ => 0, fun _ _ _ => 0, fun _ _ _ => 0, 0, 0, 0, 0, false⟩, none⟩

/-- One located point near the reference, the altitude being exact. -/
def rowNear (tol lon lat alt : ℚ) (x : Except RpcError (List (ORow ℚ))) : Bool :=
  match x with
  | .ok [r] => near tol lon r.x && near tol lat r.y && near 0 alt r.z
  | _ => false

/-- One image position near the reference. -/
def rowNear2 (tol row col : ℚ) (x : Except RpcError (List (ORow ℚ))) : Bool :=
  match x with
  | .ok [r] => near tol row r.x && near tol col r.y
  | _ => false

/-- Two numbers near the reference. -/
def nearPair (tol a b : ℚ) (x : ℚ × ℚ) : Bool := near tol a (some x.1) && near tol b (some x.2)

/-- The two first coordinates near the reference. -/
def nearXY (tol a b : ℚ) (x : V3 ℚ) : Bool := nearPair tol a b (x.x, x.y)

/-- The entry point of the cube near the reference. -/
def cubeNear (tol a b c : ℚ) (d : Dtm ℚ) (r : Except CubeError (Option (Crossing ℚ) × List (V3 ℚ))) : Bool :=
  match r with
  | .ok (some x, _) =>
    nearXY tol a b (indexToTerPy d.transform x.p) && near tol c (some (indexToTerPy d.transform x.p).z)
  | _ => false

/-- The intersection with the terrain near the reference. -/
def dtmNear (tol tolAlt a b c : ℚ) (r : DtmPoint ℚ) : Bool :=
  match r with
  | .point p => nearXY tol a b p && near tolAlt c (some p.z)
  | _ => false

/-! ### The cube with given bounds

The bounds of a whole raster are long to compute again at each use: the same functions with the six planes as a parameter. -/

/-- `eqPlan`. -/
def eqPlanP (pl : Fin 6 → ℚ) (k : Fin 6) (p : V3 ℚ) : ℚ :=
  match k with
  | 0 => p.x - pl 0
  | 1 => p.x - pl 1
  | 2 => p.y - pl 2
  | 3 => p.y - pl 3
  | 4 => p.z - pl 4
  | 5 => p.z - pl 5

/-- `crossingOf`. -/
def crossingOfP (pl : Fin 6 → ℚ) (k : Fin 6) (layer : ℕ) (a b : V3 ℚ) : Crossing ℚ :=
  let losA := eqPlanP pl k a
  let losB := eqPlanP pl k b
  if losA = 0 then ⟨a, (layer : ℚ) - 1⟩
  else if losB = 0 then ⟨b, layer⟩
  else
    let ca := losB / (losB - losA)
    let cb := -losA / (losB - losA)
    ⟨⟨if k.val < 2 then pl k else ca * a.x + cb * b.x,
      if 1 < k.val ∧ k.val < 4 then pl k else ca * a.y + cb * b.y,
      if k.val > 3 then pl k else ca * a.z + cb * b.z⟩, (layer : ℚ) - ca⟩

/-- `faceScan`. -/
def faceScanP (impl : Impl) (pl : Fin 6 → ℚ) (k : Fin 6) (a : V3 ℚ) (layer : ℕ) :
    List (V3 ℚ) → Except CubeError (Option (Crossing ℚ))
  | [] => .ok none
  | b :: rest =>
    if eqPlanP pl k a * eqPlanP pl k b ≤ 0 then
      if impl = .cpp ∧ eqPlanP pl k a = 0 ∧ eqPlanP pl k b = 0 then .error .tooManySolutions
      else .ok (some (crossingOfP pl k layer a b))
    else faceScanP impl pl k b (layer + 1) rest

/-- `faceHit`. -/
def faceHitP (impl : Impl) (pl : Fin 6 → ℚ) (k : Fin 6) (los : List (V3 ℚ)) : Except CubeError (Option (Crossing ℚ)) :=
  match los with
  | [] => .ok none
  | v :: _ => faceScanP impl pl k v 0 los

theorem faceHitP_nil (impl : Impl) (pl : Fin 6 → ℚ) (k : Fin 6) : faceHitP impl pl k [] = .ok none := rfl

/-- `faceHits`. -/
def faceHitsP (impl : Impl) (pl : Fin 6 → ℚ) (los : List (V3 ℚ)) : List (Fin 6) → Except CubeError (List (Crossing ℚ))
  | [] => .ok []
  | k :: ks =>
    match faceHitP impl pl k los with
    | .error e => .error e
    | .ok none => faceHitsP impl pl los ks
    | .ok (some c) =>
      match faceHitsP impl pl los ks with
      | .error e => .error e
      | .ok cs => .ok (c :: cs)

/-- `onCube`. -/
def onCubeP (pl : Fin 6 → ℚ) (p : V3 ℚ) : Bool :=
  decide (pl 0 ≤ p.x) && decide (p.x ≤ pl 1) && decide (pl 2 ≤ p.y) &&
  decide (p.y ≤ pl 3) && decide (pl 4 ≤ p.z) && decide (p.z ≤ pl 5)

/-- `intersectDtmCube`. -/
def intersectDtmCubeP (impl : Impl) (d : Dtm ℚ) (pl : Fin 6 → ℚ) (los : List (V3 ℚ)) :
    Except CubeError (Option (Crossing ℚ) × List (V3 ℚ)) :=
  match faceHitsP impl pl (tersToIndexsPy d.transform los) [0, 1, 2, 3, 4, 5] with
  | .error e => .error e
  | .ok cs =>
    match (exchangeSort cs).filter (fun c => onCubeP pl c.p) with
    | c :: _ :: _ => .ok (some c, tersToIndexsPy d.transform los)
    | _ => .ok (none, tersToIndexsPy d.transform los)

theorem eqPlanP_eq (d : Dtm ℚ) (k : Fin 6) (p : V3 ℚ) : eqPlanP (planeD d) k p = eqPlan d k p := rfl

theorem crossingOfP_eq (d : Dtm ℚ) (k : Fin 6) (n : ℕ) (a b : V3 ℚ) : crossingOfP (planeD d) k n a b = crossingOf d k n a b := rfl

theorem faceScanP_eq (impl : Impl) (d : Dtm ℚ) (k : Fin 6) (los : List (V3 ℚ)) : ∀ (a : V3 ℚ) (n : ℕ),
    faceScanP impl (planeD d) k a n los = faceScan impl d k a n los := by
  induction los with
  | nil => intro a n; rfl
  | cons b l ih =>
    intro a n
    simp only [faceScanP, faceScan, eqPlanP_eq, crossingOfP_eq, ih]
    rfl

theorem faceHitsP_eq (impl : Impl) (d : Dtm ℚ) (los : List (V3 ℚ)) (ks : List (Fin 6)) :
    faceHitsP impl (planeD d) los ks = faceHits impl d los ks := by
  induction ks with
  | nil => rfl
  | cons k ks ih =>
    have h : faceHitP impl (planeD d) k los = faceHit impl d k los := by
      cases los with
      | nil => rfl
      | cons v l => exact faceScanP_eq impl d k _ v 0
    simp only [faceHitsP, faceHits, h, ih]
    rcases faceHit impl d k los with e | _ | c
    · rfl
    · rfl
    · rcases faceHits impl d los ks with e | cs <;> rfl

theorem intersectDtmCubeP_eq (impl : Impl) (d : Dtm ℚ) (los : List (V3 ℚ)) :
    intersectDtmCube impl d los = intersectDtmCubeP impl d (planeD d) los := by
  simp only [intersectDtmCube, intersectDtmCubeP, cubeOfIndex, faceHitsP_eq]
  cases faceHits impl d (tersToIndexsPy d.transform los) [0, 1, 2, 3, 4, 5] with
  | error e => rfl
  | ok cs =>
    have h : (fun c : Crossing ℚ => onCubeP (planeD d) c.p) = fun c => onCube d c.p := rfl
    simp only [h]
    generalize (exchangeSort cs).filter (fun c => onCube d c.p) = l
    match l with
    | [] => rfl
    | [_] => rfl
    | _ :: _ :: _ => rfl

/-- `losDtm` with given planes. -/
def losDtmP (impl : Impl) (d : Dtm ℚ) (pl : Fin 6 → ℚ) (falsiN : ℕ) (los : List (V3 ℚ)) : DtmPoint ℚ :=
  match intersectDtmCubeP impl d pl los with
  | .error _ => .failure
  | .ok (none, _) => .nan
  | .ok (some c, li) =>
    match intersectionIdx impl d falsiN li c.p c.h with
    | .found p => .point (indexToTerPy d.transform p)
    | .notFound =>
      match impl with
      | .py => .point ⟨0, 0, 0⟩
      | .cpp => .uninitialised
    | _ => .failure

theorem losDtmP_eq (impl : Impl) (d : Dtm ℚ) (n : ℕ) (los : List (V3 ℚ)) :
    losDtm impl d n los = losDtmP impl d (planeD d) n los := by
  simp only [losDtm, losDtmP, intersectDtmCubeP_eq]
  rcases intersectDtmCubeP impl d (planeD d) los with e | ⟨_ | c, li⟩
  · rfl
  · rfl
  · dsimp only
    cases intersectionIdx impl d n li c.p c.h <;> cases impl <;> rfl

/-- The six planes from the bounds. -/
def planes (rows cols : ℕ) (lo hi : ℚ) : Fin 6 → ℚ := ![0, (rows : ℚ) - 1, 0, (cols : ℚ) - 1, lo, hi]

theorem planeD_eq (d : Dtm ℚ) {lo hi : ℚ} (h₁ : d.altMin = lo) (h₂ : d.altMax = hi) :
    planeD d = planes d.nbRows d.nbCols lo hi := by
  funext k
  fin_cases k <;> simp [planeD, planes, h₁, h₂]

theorem foldl_min_eq {m : ℚ} : ∀ {l : List ℚ} {a : ℚ}, (∀ x ∈ a :: l, m ≤ x) → m ∈ a :: l → l.foldl min a = m := by
  intro l
  induction l with
  | nil =>
    intro a _ h
    simp only [List.mem_singleton] at h
    exact h.symm
  | cons b l ih =>
    intro a hall hm
    rw [List.foldl_cons]
    apply ih
    · intro x hx
      rcases List.mem_cons.1 hx with rfl | hx
      · exact le_min (hall _ (by simp)) (hall _ (by simp))
      · exact hall x (by simp [hx])
    · rcases List.mem_cons.1 hm with rfl | hm
      · rw [min_eq_left (hall b (by simp))]; simp
      · rcases List.mem_cons.1 hm with rfl | hm
        · rw [min_eq_right (hall a (by simp))]; simp
        · simp [hm]

theorem foldl_max_eq {m : ℚ} : ∀ {l : List ℚ} {a : ℚ}, (∀ x ∈ a :: l, x ≤ m) → m ∈ a :: l → l.foldl max a = m := by
  intro l
  induction l with
  | nil =>
    intro a _ h
    simp only [List.mem_singleton] at h
    exact h.symm
  | cons b l ih =>
    intro a hall hm
    rw [List.foldl_cons]
    apply ih
    · intro x hx
      rcases List.mem_cons.1 hx with rfl | hx
      · exact max_le (hall _ (by simp)) (hall _ (by simp))
      · exact hall x (by simp [hx])
    · rcases List.mem_cons.1 hm with rfl | hm
      · rw [max_eq_left (hall b (by simp))]; simp
      · rcases List.mem_cons.1 hm with rfl | hm
        · rw [max_eq_right (hall a (by simp))]; simp
        · simp [hm]

/-- The raster packed in a number, as a DTM. -/
def packedDtm (data rows cols : ℕ) (t : Affine ℚ) : Dtm ℚ := ⟨fun i j => cell16 data cols i j, rows, cols, t⟩

/-- All the cells are between `lo` and `hi`, that are the cells at two given places. -/
def boundsOk (data rows cols lo hi i j i' j' : ℕ) : Bool :=
  ((List.range rows).all fun i => (List.range cols).all fun j =>
    Nat.ble lo (digit data 16 (i * cols + j)) && Nat.ble (digit data 16 (i * cols + j)) hi) &&
  Nat.blt i rows && Nat.blt j cols && Nat.blt i' rows && Nat.blt j' cols &&
  Nat.beq (digit data 16 (i * cols + j)) lo && Nat.beq (digit data 16 (i' * cols + j')) hi

theorem mem_packed {data rows cols : ℕ} {x : ℚ} :
    x ∈ altValues (fun i j => cell16 data cols i j) rows cols ↔
      ∃ i < rows, ∃ j < cols, (digit data 16 (i * cols + j) : ℚ) = x := by
  simp [altValues, cell16]

theorem packed_bounds {data rows cols lo hi i j i' j' : ℕ} (t : Affine ℚ)
    (h : boundsOk data rows cols lo hi i j i' j' = true) :
    (packedDtm data rows cols t).altMin = lo ∧ (packedDtm data rows cols t).altMax = hi := by
  simp only [boundsOk, Bool.and_eq_true, List.all_eq_true, List.mem_range, Nat.ble_eq, Nat.blt_eq] at h
  obtain ⟨⟨⟨⟨⟨⟨hall, hi1⟩, hj1⟩, hi2⟩, hj2⟩, hlo⟩, hhi⟩ := h
  have hm1 : (lo : ℚ) ∈ altValues (fun i j => cell16 data cols i j) rows cols :=
    mem_packed.2 ⟨i, hi1, j, hj1, by exact_mod_cast Nat.eq_of_beq_eq_true hlo⟩
  have hm2 : (hi : ℚ) ∈ altValues (fun i j => cell16 data cols i j) rows cols :=
    mem_packed.2 ⟨i', hi2, j', hj2, by exact_mod_cast Nat.eq_of_beq_eq_true hhi⟩
  have hb : ∀ x ∈ altValues (fun i j => cell16 data cols i j) rows cols, (lo : ℚ) ≤ x ∧ x ≤ (hi : ℚ) := by
    intro x hx
    obtain ⟨a, ha, b, hb, rfl⟩ := mem_packed.1 hx
    exact ⟨by exact_mod_cast (hall a ha b hb).1, by exact_mod_cast (hall a ha b hb).2⟩
  simp only [Dtm.altMin, Dtm.altMax, packedDtm]
  generalize altValues (fun i j => cell16 data cols i j) rows cols = l at hm1 hm2 hb
  cases l with
  | nil => simp at hm1
  | cons a l => exact ⟨foldl_min_eq (fun x hx => (hb x hx).1) hm1, foldl_max_eq (fun x hx => (hb x hx).2) hm2⟩

end Shareloc.Validation

