import Verif.Model.Geos
import Verif.Props.RpcLoc
import Verif.Props.RpcIter
import Verif.Props.Localization
import Verif.Props.DirectDtmExamples

/-!
C73: RPC models used through `Localization` and `coloc`, from pixels to ground and back, at an altitude and on a DTM.
-/

set_option linter.unusedSectionVars false

namespace Shareloc
open Spec
variable {K : Type*} [Field K] [LinearOrder K] [IsStrictOrderedRing K] [FloorRing K]

/-- Specification: a valid ground point of altitude `alt` whose image by the inverse rational functions is the pixel, to a
millionth of a pixel in rows and in columns. -/
def SeenAt (r : Rpc K) (q : RatCoefs K) (row col lon lat alt : K) : Prop :=
  ValidLonLat lon lat ∧ RatDefined r q lon lat alt ∧
  |row - imgRow r q lon lat alt| ≤ 1 / 1000000 ∧ |col - imgCol r q lon lat alt| ≤ 1 / 1000000

/-- The Python iteration for this pixel alone ends before its limit, meets no NaN, and ends where the model is defined. -/
def SettlesPy (r : Rpc K) (q : RatCoefs K) (row col alt : K) : Prop :=
  (iterPy r q 10 [⟨row, col, some alt⟩]).2 < 10 ∧
  (∀ m ≤ 10, ∀ t ∈ (iterPy r q m [⟨row, col, some alt⟩]).1, t.2.dcol.isSome = true ∧ t.2.drow.isSome = true) ∧
  ∀ t ∈ (iterPy r q 10 [⟨row, col, some alt⟩]).1, ∀ lon lat, t.2.lon = some lon → t.2.lat = some lat → RatDefined r q lon lat alt

/-- The C++ iteration for this pixel ends before its limit, at a point of the globe where the model is defined. -/
def SettlesCpp (r : Rpc K) (q : RatCoefs K) (row col alt : K) : Prop :=
  (iterCpp r q 10 ⟨row, col, some alt⟩).2 < 10 ∧
  ∃ lon lat, (iterCpp r q 10 ⟨row, col, some alt⟩).1.lon = some lon ∧ (iterCpp r q 10 ⟨row, col, some alt⟩).1.lat = some lat ∧
    ValidLonLat lon lat ∧ RatDefined r q lon lat alt

/-- Specification: the ground points of a list of pixels: NaN for a NaN pixel, else a point that is seen at the pixel, at the
altitude of the same place in `alts`. -/
def GroundOf (r : Rpc K) (q : RatCoefs K) (row col : List (Option K)) (alts : List K) (g : List (ORow K)) : Prop :=
  g.length = row.length ∧ ∀ (i : ℕ) (x y : Option K) (a : K), row[i]? = some x → col[i]? = some y → alts[i]? = some a →
    (x = none ∨ y = none → g[i]? = some nanRow) ∧
    ∀ u v, x = some u → y = some v → ∃ lon lat, g[i]? = some ⟨some lon, some lat, some a⟩ ∧ SeenAt r q u v lon lat a

theorem python_single (r : Rpc K) (q : RatCoefs K) (hq : r.inverse = some q) (u v a : K) (h : SettlesPy r q u v a) :
    ∃ lon lat, directLocH r [some u] [some v] [some a] false false = .ok [⟨some lon, some lat, some a⟩] ∧
      SeenAt r q u v lon lat a := by
  obtain ⟨hstop, hfin, hdef⟩ := h
  have hcert := C23_python_certified_partial r q 10 [⟨u, v, some a⟩] a (by simp) hstop (hfin 10 le_rfl)
  have hloop := loopPy_single r q ⟨u, v, some a⟩ ⟨some r.offX, some r.offY,
    osub v (invPointPy r q ⟨some r.offX, some r.offY, some a⟩).y,
    osub u (invPointPy r q ⟨some r.offX, some r.offY, some a⟩).x⟩ 10
  have hone : (iterPy r q 10 [⟨u, v, some a⟩]).1 = [(⟨u, v, some a⟩, (stepPy r q ⟨u, v, some a⟩)^[10] ⟨some r.offX, some r.offY,
    osub v (invPointPy r q ⟨some r.offX, some r.offY, some a⟩).y,
    osub u (invPointPy r q ⟨some r.offX, some r.offY, some a⟩).x⟩)] := hloop
  generalize (stepPy r q ⟨u, v, some a⟩)^[10] _ = s at hone
  rw [hone] at hcert hdef
  obtain ⟨lon, lat, h1, h2, hv, hp⟩ := hcert _ (List.mem_singleton.2 rfl)
  have hd := hdef _ (List.mem_singleton.2 rfl) lon lat h1 h2
  obtain ⟨p1, p2⟩ := hp hd
  refine ⟨lon, lat, ?_, hv, hd, p2, p1⟩
  have e1 : ([some (⟨u, v, some a⟩ : ImgPt K)].filterMap id) = [⟨u, v, some a⟩] := rfl
  simp only [directLocH, broadcastAlt, List.length_cons, List.length_nil, if_true, hq, List.zip_cons_cons,
    List.zip_nil_right, List.map_cons, List.map_nil, validPt, e1, hone, scatter, checkLonLat]
  simp only at h1 h2
  rw [h1, h2, checkRow_valid hv]

/-- The Python direct location of a batch at one altitude. -/
theorem python_ground (r : Rpc K) (q : RatCoefs K) (hq : r.inverse = some q) (row col : List (Option K)) (a : K)
    (hcol : col.length = row.length)
    (hset : ∀ (i : ℕ) (u v : K), row[i]? = some (some u) → col[i]? = some (some v) → SettlesPy r q u v a) :
    ∃ g, directLocH r row col [some a] false false = .ok g ∧ GroundOf r q row col (List.replicate row.length a) g := by
  obtain ⟨out, h1, h2, h3⟩ := C24_python_direct_loc_h_partial r q hq row col (some a) false hcol
    (fun i u v hu hv => (hset i u v hu hv).2.1)
  refine ⟨out, ?_, h2, ?_⟩
  · rw [(C28_single_altitude_partial r row col [] [] (some a) false false).1, hcol]
    exact h1
  · intro i x y a' hx hy ha'
    obtain ⟨o, ho, hoi⟩ := h3 i x y hx hy
    have ea : a' = a := by
      rw [List.getElem?_replicate] at ha'
      split at ha' <;> simp_all
    subst ea
    constructor
    · intro hn
      have hnan : o = nanRow := by
        have hm : validPt x y (some a') = none := by
          rcases hn with rfl | rfl
          · rfl
          · cases x <;> rfl
        simp only [directLocH, broadcastAlt, List.length_cons, List.length_nil, if_true, hq, List.zip_cons_cons,
          List.zip_nil_right, List.map_cons, List.map_nil, hm, scatter, checkLonLat, fillLonLat, Except.ok.injEq,
          List.cons.injEq, and_true] at ho
        rw [← ho]
        exact checkRow_nan (Or.inl rfl)
      rw [hoi, hnan]
    · rintro u v rfl rfl
      obtain ⟨lon, lat, hs, hseen⟩ := python_single r q hq u v a' (hset i u v hx hy)
      rw [hs] at ho
      simp only [Except.ok.injEq, List.cons.injEq, and_true] at ho
      exact ⟨lon, lat, by rw [hoi, ← ho], hseen⟩

theorem cpp_point (r : Rpc K) (q : RatCoefs K) (u v a : K) (h : SettlesCpp r q u v a) :
    ∃ lon lat, checkRow (iterPointCpp r q false (some u, some v, some a)) = ⟨some lon, some lat, some a⟩ ∧
      SeenAt r q u v lon lat a := by
  obtain ⟨hstop, lon, lat, h1, h2, hv, hd⟩ := h
  obtain ⟨p1, p2⟩ := C23_cpp_certified r q 10 ⟨u, v, some a⟩ lon lat a hstop h1 h2 rfl hd
  refine ⟨lon, lat, ?_, hv, hd, p2, p1⟩
  simp only [iterPointCpp, h1, h2]
  exact checkRow_valid hv

/-- The C++ direct location of a batch, each pixel at its altitude. -/
theorem cpp_ground (r : Rpc K) (q : RatCoefs K) (hq : r.inverse = some q) (row col : List (Option K)) (alts : List K)
    (hcol : col.length = row.length) (halt : alts.length = row.length)
    (hset : ∀ (i : ℕ) (u v a : K), row[i]? = some (some u) → col[i]? = some (some v) → alts[i]? = some a → SettlesCpp r q u v a) :
    ∃ g, directLocHOptim r row col (alts.map some) false false = .ok g ∧ GroundOf r q row col alts g := by
  obtain ⟨out, h1, h2, h3⟩ := C24_cpp_batch r q hq row col (alts.map some) false hcol (by simpa using halt)
  refine ⟨out, h1, h2, ?_⟩
  intro i x y a hx hy ha
  obtain ⟨o, ho, hoi⟩ := h3 i x y (some a) hx hy (by rw [List.getElem?_map, ha]; rfl)
  simp only [directLocHOptim, broadcastAlt, List.length_cons, List.length_nil, if_true, min_self, hq, List.zip_cons_cons,
    List.zip_nil_right, List.map_cons, List.map_nil, checkLonLat, Except.ok.injEq, List.cons.injEq, and_true] at ho
  constructor
  · intro hn
    rw [hoi, ← ho]
    have : checkRow (iterPointCpp r q false (x, y, some a)) = nanRow := by
      rcases hn with rfl | rfl
      · exact checkRow_nan (Or.inl rfl)
      · cases x <;> exact checkRow_nan (Or.inl rfl)
    rw [this]
  · rintro u v rfl rfl
    obtain ⟨lon, lat, hs, hseen⟩ := cpp_point r q u v a (hset i u v a hx hy ha)
    exact ⟨lon, lat, by rw [hoi, ← ho, hs], hseen⟩

/-- The rows of which the inverse location is known: NaN, or a valid point where the model is defined. -/
def Projectable (r : Rpc K) (q : RatCoefs K) (p : ORow K) : Prop :=
  p = nanRow ∨ ∃ lon lat alt, p = ⟨some lon, some lat, some alt⟩ ∧ ValidLonLat lon lat ∧ RatDefined r q lon lat alt

theorem stack3_rows (g : List (ORow K)) : stack3 (g.map fun p => p.x) (g.map fun p => p.y) (g.map fun p => p.z) = .ok g := by
  rw [stack3_ok (by simp) (by simp)]
  exact congrArg Except.ok (zip_xyz g)

theorem rpcGeo_inverse (conv : ℕ → ℕ → ORow K → ORow K) (N : ℕ) (r : Rpc K) (q : RatCoefs K) (hq : r.inverse = some q) (e : ℕ)
    (g : List (ORow K)) :
    (rpcGeo conv N r e).inverse (g.map fun p => p.x) (g.map fun p => p.y) (g.map fun p => p.z) =
      .ok (some (g.map fun p => ((invPointPy r q p).x, (invPointPy r q p).y))) := by
  have h : inverseLocPy r (g.map fun p => p.x) (g.map fun p => p.y) (g.map fun p => p.z) = .ok (.rows (g.map (invPointPy r q))) := by
    simp only [inverseLocPy, hq]
    rw [broadcastAlt_eq (by simp)]
    simp only [stack3_rows]
  simp only [rpcGeo, h, List.map_map]
  rfl

theorem rpcOptimGeo_inverse (conv : ℕ → ℕ → ORow K → ORow K) (N : ℕ) (r : Rpc K) (q : RatCoefs K) (hq : r.inverse = some q)
    (g : List (ORow K)) (hg : ∀ p ∈ g, Projectable r q p) :
    (rpcOptimGeo conv N r).inverse (g.map fun p => p.x) (g.map fun p => p.y) (g.map fun p => p.z) =
      .ok (some (g.map fun p => ((invPointPy r q p).x, (invPointPy r q p).y))) := by
  have h : inverseLocOptim r q (g.map fun p => p.x) (g.map fun p => p.y) (g.map fun p => p.z) = .ok (g.map (invPointPy r q)) := by
    simp only [inverseLocOptim, stack3_rows, checkLonLat]
    rw [mapExcept_ok (invPointCppThrow r q) (invPointCpp r q), List.map_map]
    · exact congrArg Except.ok (List.map_congr_left fun p _ => invPointCpp_check r q p)
    · intro p hp
      obtain ⟨p0, hp0, rfl⟩ := List.mem_map.1 hp
      rcases hg p0 hp0 with rfl | ⟨lon, lat, alt, rfl, hv, hd⟩
      · rfl
      · rw [checkRow_valid hv]
        simp only [invPointCppThrow, polyCpp_eq, polyPy_eq]
        exact if_pos hd
  simp only [rpcOptimGeo, hq, h, List.map_map]
  rfl

theorem invPointPy_nan (r : Rpc K) (q : RatCoefs K) : invPointPy r q nanRow = nanRow := invPointPy_masked r q rfl

theorem GroundOf.projectable {r : Rpc K} {q : RatCoefs K} {row col : List (Option K)} {alts : List K} {g : List (ORow K)}
    (h : GroundOf r q row col alts g) (hcol : col.length = row.length) (halt : alts.length = row.length) :
    ∀ p ∈ g, p = nanRow ∨ ∃ lon lat a, p = ⟨some lon, some lat, some a⟩ ∧ a ∈ alts ∧ ValidLonLat lon lat ∧ RatDefined r q lon lat a := by
  intro p hp
  obtain ⟨i, hi⟩ := List.mem_iff_getElem?.1 hp
  have hlt : i < row.length := by rw [← h.1]; exact (List.getElem?_eq_some_iff.1 hi).1
  obtain ⟨hn, hf⟩ := h.2 i row[i] col[i] alts[i] (by simp [hlt]) (by simp [hcol, hlt]) (by simp [halt, hlt])
  cases hx : row[i] with
  | none => rw [hn (Or.inl hx)] at hi; exact Or.inl (by simpa using hi.symm)
  | some u =>
    cases hy : col[i] with
    | none => rw [hn (Or.inr hy)] at hi; exact Or.inl (by simpa using hi.symm)
    | some v =>
      obtain ⟨lon, lat, hg, hv, hd, -⟩ := hf u v hx hy
      rw [hg] at hi
      exact Or.inr ⟨lon, lat, _, (by simpa using hi.symm), List.getElem_mem _, hv, hd⟩

/-- Specification: positions found back: NaN for a NaN pixel, else within a millionth of a pixel. -/
def FoundBack (row col : List (Option K)) (rc : List (Option K × Option K)) : Prop :=
  rc.length = row.length ∧ ∀ (i : ℕ) (x y : Option K), row[i]? = some x → col[i]? = some y →
    (x = none ∨ y = none → rc[i]? = some (none, none)) ∧
    ∀ u v, x = some u → y = some v → ∃ u' v', rc[i]? = some (some u', some v') ∧ |u - u'| ≤ 1 / 1000000 ∧ |v - v'| ≤ 1 / 1000000

theorem GroundOf.foundBack {r : Rpc K} {q : RatCoefs K} {row col : List (Option K)} {alts : List K} {g : List (ORow K)}
    (h : GroundOf r q row col alts g) (halt : alts.length = row.length) :
    FoundBack row col (g.map fun p => ((invPointPy r q p).x, (invPointPy r q p).y)) := by
  refine ⟨by simp [h.1], fun i x y hx hy => ?_⟩
  have hlt : i < row.length := (List.getElem?_eq_some_iff.1 hx).1
  obtain ⟨hn, hf⟩ := h.2 i x y alts[i] hx hy (by simp [halt, hlt])
  constructor
  · intro hnan
    rw [List.getElem?_map, hn hnan, Option.map_some, invPointPy_nan]
    rfl
  · intro u v hu hv
    obtain ⟨lon, lat, hg, hval, hd, h1, h2⟩ := hf u v hu hv
    refine ⟨_, _, ?_, h1, h2⟩
    rw [List.getElem?_map, hg, Option.map_some, invPointPy_valid r q hval hd]

/-- The conversions between two systems undo each other, on valid points and on NaN. -/
def UndoEachOther (conv : ℕ → ℕ → ORow K → ORow K) (a b : ℕ) : Prop :=
  conv b a (conv a b nanRow) = nanRow ∧
  ∀ lon lat alt, ValidLonLat lon lat → conv b a (conv a b ⟨some lon, some lat, some alt⟩) = ⟨some lon, some lat, some alt⟩

/-- C73. With a Python RPC and any elevation, image and output system: the pixels of a batch located at a given altitude and
located back are found within a millionth of a pixel, each at its place, if the iteration of each pixel alone settles; NaN
pixels give NaN. -/
theorem C73_python_round_trip (conv : ℕ → ℕ → ORow K → ORow K) (N : ℕ) (r : Rpc K) (q : RatCoefs K) (hq : r.inverse = some q) (e : ℕ)
    (L : Localization K (ℕ × Dtm K)) (hL : L.model = rpcGeo conv N r e) (row col : List (Option K)) (a : K)
    (hcol : col.length = row.length)
    (hset : ∀ (i : ℕ) (u v : K), row[i]? = some (some u) → col[i]? = some (some v) → SettlesPy r q u v a)
    (hconv : ∀ e', L.epsg = some e' → e' ≠ e → UndoEachOther conv e e') :
    ∃ out rc alt, L.direct conv row col (some [some a]) false = .ok out ∧
      L.inverse conv (out.map fun p => p.x) (out.map fun p => p.y) (some (out.map fun p => p.z)) false = .ok (some rc, alt) ∧
      FoundBack row col rc := by
  obtain ⟨g, hg, hG⟩ := python_ground r q hq row col a hcol hset
  obtain ⟨out, h1, h2⟩ := C53_round_trip conv L row col [some a] g _ (by rw [hL]; exact hg)
    (by rw [hL]; exact rpcGeo_inverse conv N r q hq e g) (by
      intro e' he' hne p hp
      rw [hL] at hne ⊢
      obtain ⟨c1, c2⟩ := hconv e' he' hne
      rcases hG.projectable hcol (by simp) p hp with rfl | ⟨lon, lat, a', rfl, -, hv, -⟩
      · exact c1
      · exact c2 _ _ _ hv)
  exact ⟨out, _, _, h1, h2, hG.foundBack (by simp)⟩

/-- C73. With a C++ RPC, the same for one altitude per pixel. -/
theorem C73_optim_round_trip (conv : ℕ → ℕ → ORow K → ORow K) (N : ℕ) (r : Rpc K) (q : RatCoefs K) (hq : r.inverse = some q)
    (L : Localization K (ℕ × Dtm K)) (hL : L.model = rpcOptimGeo conv N r) (row col : List (Option K)) (alts : List K)
    (hcol : col.length = row.length) (halt : alts.length = row.length)
    (hset : ∀ (i : ℕ) (u v a : K), row[i]? = some (some u) → col[i]? = some (some v) → alts[i]? = some a → SettlesCpp r q u v a)
    (hconv : ∀ e', L.epsg = some e' → e' ≠ 4326 → UndoEachOther conv 4326 e') :
    ∃ out rc alt, L.direct conv row col (some (alts.map some)) false = .ok out ∧
      L.inverse conv (out.map fun p => p.x) (out.map fun p => p.y) (some (out.map fun p => p.z)) false = .ok (some rc, alt) ∧
      FoundBack row col rc := by
  obtain ⟨g, hg, hG⟩ := cpp_ground r q hq row col alts hcol halt hset
  obtain ⟨out, h1, h2⟩ := C53_round_trip conv L row col (alts.map some) g _ (by rw [hL]; exact hg)
    (by
      rw [hL]
      refine rpcOptimGeo_inverse conv N r q hq g fun p hp => ?_
      rcases hG.projectable hcol halt p hp with h | ⟨lon, lat, a', h, -, hv, hd⟩
      · exact Or.inl h
      · exact Or.inr ⟨lon, lat, a', h, hv, hd⟩) (by
      intro e' he' hne p hp
      rw [hL] at hne ⊢
      obtain ⟨c1, c2⟩ := hconv e' he' hne
      rcases hG.projectable hcol halt p hp with rfl | ⟨lon, lat, a', rfl, -, hv, -⟩
      · exact c1
      · exact c2 _ _ _ hv)
  exact ⟨out, _, _, h1, h2, hG.foundBack halt⟩

/-! ### Colocalisation -/

/-- Specification: the positions in image 2 of the pixels of image 1: NaN for a NaN pixel, else the image by the second model of
a ground point at the altitude that the first model sees at the pixel. -/
def ColocOf (r1 : Rpc K) (q1 : RatCoefs K) (r2 : Rpc K) (q2 : RatCoefs K) (row col : List (Option K)) (a : K)
    (sensor ground : List (ORow K)) : Prop :=
  sensor.length = row.length ∧ ground.length = row.length ∧
  ∀ (i : ℕ) (x y : Option K), row[i]? = some x → col[i]? = some y →
    (x = none ∨ y = none → sensor[i]? = some nanRow ∧ ground[i]? = some nanRow) ∧
    ∀ u v, x = some u → y = some v → ∃ lon lat, ground[i]? = some ⟨some lon, some lat, some a⟩ ∧ SeenAt r1 q1 u v lon lat a ∧
      sensor[i]? = some ⟨some (imgRow r2 q2 lon lat a), some (imgCol r2 q2 lon lat a), some a⟩

/-- The second model is defined at the ground points. -/
def DefinedOn (r2 : Rpc K) (q2 : RatCoefs K) (a : K) : Prop := ∀ lon lat, ValidLonLat lon lat → RatDefined r2 q2 lon lat a

theorem coloc_of (conv : ℕ → ℕ → ORow K → ORow K) (m1 m2 : Geo K (ℕ × Dtm K)) (r1 : Rpc K) (q1 : RatCoefs K) (r2 : Rpc K)
    (q2 : RatCoefs K) (row col : List (Option K)) (a : K) (hcol : col.length = row.length) (g : List (ORow K))
    (hg : m1.directH row col [some a] = .ok g) (hG : GroundOf r1 q1 row col (List.replicate row.length a) g)
    (hdef : DefinedOn r2 q2 a)
    (hinv : m2.inverse (g.map fun p => p.x) (g.map fun p => p.y) (g.map fun p => p.z) =
      .ok (some (g.map fun p => ((invPointPy r2 q2 p).x, (invPointPy r2 q2 p).y)))) :
    ∃ sensor ground, coloc conv m1 m2 row col (.value [some a]) none none false = .ok (sensor, ground) ∧
      ColocOf r1 q1 r2 q2 row col a sensor ground := by
  have h1 : Localization.direct conv ⟨m1, .value [some a], none, none⟩ row col none false = .ok g := by
    simp only [Localization.direct, Localization.toPhysical, Localization.modelDirect, Localization.defaultElevation, hg]
  have h2 : Localization.inverse conv ⟨m2, .value [some a], none, none⟩ (g.map fun p => p.x) (g.map fun p => p.y)
      (some (g.map fun p => p.z)) false =
      .ok (some (g.map fun p => ((invPointPy r2 q2 p).x, (invPointPy r2 q2 p).y)), g.map fun p => p.z) := by
    simp only [Localization.inverse, Localization.toModel, Option.getD_some, hinv]
  obtain ⟨sensor, hc, hl, hi⟩ := C54_inverse_of_direct conv m1 m2 row col (.value [some a]) none none false hcol.symm g _ _ h1 h2
    (by simp)
  refine ⟨sensor, g, hc, hl.trans hG.1, hG.1, ?_⟩
  intro i x y hx hy
  have hlt : i < row.length := (List.getElem?_eq_some_iff.1 hx).1
  obtain ⟨hn, hf⟩ := hG.2 i x y a hx hy (by simp [hlt])
  constructor
  · intro h
    refine ⟨?_, hn h⟩
    rw [hi i nanRow (none, none) (hn h) (by rw [List.getElem?_map, hn h, Option.map_some, invPointPy_nan]; rfl)]
    rfl
  · intro u v hu hv
    obtain ⟨lon, lat, hgi, hs⟩ := hf u v hu hv
    refine ⟨lon, lat, hgi, hs, ?_⟩
    rw [hi i _ (some (imgRow r2 q2 lon lat a), some (imgCol r2 q2 lon lat a)) hgi
      (by rw [List.getElem?_map, hgi, Option.map_some, invPointPy_valid r2 q2 hs.1 (hdef lon lat hs.1)])]

/-- C73. Colocalisation between two Python RPCs at a constant elevation: each pixel goes to the image, in the second model, of a
ground point at this altitude that the first model sees at the pixel to a millionth. -/
theorem C73_python_coloc (conv : ℕ → ℕ → ORow K → ORow K) (N : ℕ) (r1 r2 : Rpc K) (q1 q2 : RatCoefs K) (hq1 : r1.inverse = some q1)
    (hq2 : r2.inverse = some q2) (e1 e2 : ℕ) (row col : List (Option K)) (a : K) (hcol : col.length = row.length)
    (hset : ∀ (i : ℕ) (u v : K), row[i]? = some (some u) → col[i]? = some (some v) → SettlesPy r1 q1 u v a)
    (hdef : DefinedOn r2 q2 a) :
    ∃ sensor ground, coloc conv (rpcGeo conv N r1 e1) (rpcGeo conv N r2 e2) row col (.value [some a]) none none false =
      .ok (sensor, ground) ∧ ColocOf r1 q1 r2 q2 row col a sensor ground := by
  obtain ⟨g, hg, hG⟩ := python_ground r1 q1 hq1 row col a hcol hset
  exact coloc_of conv _ _ r1 q1 r2 q2 row col a hcol g hg hG hdef (rpcGeo_inverse conv N r2 q2 hq2 e2 g)

/-- C73. The same with C++ models. -/
theorem C73_optim_coloc (conv : ℕ → ℕ → ORow K → ORow K) (N : ℕ) (r1 r2 : Rpc K) (q1 q2 : RatCoefs K) (hq1 : r1.inverse = some q1)
    (hq2 : r2.inverse = some q2) (row col : List (Option K)) (a : K) (hcol : col.length = row.length)
    (hset : ∀ (i : ℕ) (u v : K), row[i]? = some (some u) → col[i]? = some (some v) → SettlesCpp r1 q1 u v a)
    (hdef : DefinedOn r2 q2 a) :
    ∃ sensor ground, coloc conv (rpcOptimGeo conv N r1) (rpcOptimGeo conv N r2) row col (.value [some a]) none none false =
      .ok (sensor, ground) ∧ ColocOf r1 q1 r2 q2 row col a sensor ground := by
  obtain ⟨g, hg, hG⟩ := cpp_ground r1 q1 hq1 row col (List.replicate row.length a) hcol (by simp) (by
    intro i u v a' hu hv ha'
    rw [List.getElem?_replicate] at ha'
    split at ha'
    · cases ha'; exact hset i u v hu hv
    · cases ha')
  refine coloc_of conv _ _ r1 q1 r2 q2 row col a hcol g ?_ hG hdef (rpcOptimGeo_inverse conv N r2 q2 hq2 g fun p hp => ?_)
  · show directLocHOptim r1 row col [some a] false false = .ok g
    rw [(C28_single_altitude_partial r1 row col [] [] (some a) false false).2.2, hcol, ← hg, List.map_replicate]
  · rcases hG.projectable hcol (by simp) p hp with h | ⟨lon, lat, a', h, ha, hv, -⟩
    · exact Or.inl h
    · rw [List.eq_of_mem_replicate ha] at h
      exact Or.inr ⟨lon, lat, a, h, hv, hdef lon lat hv⟩

/-! ### Extent -/

/-- C73. Without image the extent of an RPC is the box of the ground points, at altitude 0, of the pixels
(row offset − row scale, column offset − column scale) and (row offset + row scale, column offset + column scale). -/
theorem C73_python_extent (conv : ℕ → ℕ → ORow K → ORow K) (N : ℕ) (r : Rpc K) (q : RatCoefs K) (hq : r.inverse = some q) (e : ℕ)
    (el : Elevation K (ℕ × Dtm K)) (margin : K)
    (h0 : SettlesPy r q (r.offRow - r.scRow) (r.offCol - r.scCol) 0)
    (h1 : SettlesPy r q (r.offRow + r.scRow) (r.offCol + r.scCol) 0) :
    ∃ lon0 lat0 lon1 lat1, SeenAt r q (r.offRow - r.scRow) (r.offCol - r.scCol) lon0 lat0 0 ∧
      SeenAt r q (r.offRow + r.scRow) (r.offCol + r.scCol) lon1 lat1 0 ∧
      Localization.extent conv ⟨rpcGeo conv N r e, el, none, none⟩ margin = .ok
        ⟨some (min lat0 lat1 - margin), some (min lon0 lon1 - margin), some (max lat0 lat1 + margin), some (max lon0 lon1 + margin)⟩ := by
  obtain ⟨g, hg, hlen, hG⟩ := python_ground r q hq [some (r.offRow - r.scRow), some (r.offRow + r.scRow)]
    [some (r.offCol - r.scCol), some (r.offCol + r.scCol)] 0 rfl (by
      intro i u v hu hv
      match i, hu, hv with
      | 0, hu, hv => simp at hu hv; subst hu; subst hv; exact h0
      | 1, hu, hv => simp at hu hv; subst hu; subst hv; exact h1
      | i + 2, hu, hv => simp at hu)
  obtain ⟨lon0, lat0, e0, s0⟩ := (hG 0 _ _ 0 rfl rfl rfl).2 _ _ rfl rfl
  obtain ⟨lon1, lat1, e1, s1⟩ := (hG 1 _ _ 0 rfl rfl rfl).2 _ _ rfl rfl
  refine ⟨lon0, lat0, lon1, lat1, s0, s1, ?_⟩
  have hgg : g = [⟨some lon0, some lat0, some 0⟩, ⟨some lon1, some lat1, some 0⟩] := by
    match g, hlen, e0, e1 with
    | [a, b], _, e0, e1 => simp at e0 e1; rw [e0, e1]
  subst hgg
  have hd : Localization.direct conv ⟨rpcGeo conv N r e, el, none, none⟩ [some (r.offRow - r.scRow), some (r.offRow + r.scRow)]
      [some (r.offCol - r.scCol), some (r.offCol + r.scCol)] (some [some 0]) false =
      .ok [⟨some lon0, some lat0, some 0⟩, ⟨some lon1, some lat1, some 0⟩] := by
    have : (rpcGeo conv N r e).directH [some (r.offRow - r.scRow), some (r.offRow + r.scRow)]
      [some (r.offCol - r.scCol), some (r.offCol + r.scCol)] [some 0] =
      .ok [⟨some lon0, some lat0, some 0⟩, ⟨some lon1, some lat1, some 0⟩] := hg
    simp only [Localization.direct, Localization.toPhysical, Localization.modelDirect, this]
  have hf : (⟨rpcGeo conv N r e, el, none, none⟩ : Localization K (ℕ × Dtm K)).footprint =
      (((r.offRow - r.scRow, r.offCol - r.scCol), (r.offRow + r.scRow, r.offCol + r.scCol)), false) := rfl
  unfold Localization.extent
  rw [hf]
  simp only [hd, boxOf, omin, omax, olift2, Option.map_some]

/-- C73. The same for a C++ RPC. -/
theorem C73_optim_extent (conv : ℕ → ℕ → ORow K → ORow K) (N : ℕ) (r : Rpc K) (q : RatCoefs K) (hq : r.inverse = some q)
    (el : Elevation K (ℕ × Dtm K)) (margin : K)
    (h0 : SettlesCpp r q (r.offRow - r.scRow) (r.offCol - r.scCol) 0)
    (h1 : SettlesCpp r q (r.offRow + r.scRow) (r.offCol + r.scCol) 0) :
    ∃ lon0 lat0 lon1 lat1, SeenAt r q (r.offRow - r.scRow) (r.offCol - r.scCol) lon0 lat0 0 ∧
      SeenAt r q (r.offRow + r.scRow) (r.offCol + r.scCol) lon1 lat1 0 ∧
      Localization.extent conv ⟨rpcOptimGeo conv N r, el, none, none⟩ margin = .ok
        ⟨some (min lat0 lat1 - margin), some (min lon0 lon1 - margin), some (max lat0 lat1 + margin), some (max lon0 lon1 + margin)⟩ := by
  obtain ⟨g, hg, hlen, hG⟩ := cpp_ground r q hq [some (r.offRow - r.scRow), some (r.offRow + r.scRow)]
    [some (r.offCol - r.scCol), some (r.offCol + r.scCol)] [0, 0] rfl rfl (by
      intro i u v a hu hv ha
      match i, hu, hv, ha with
      | 0, hu, hv, ha => simp at hu hv ha; subst hu; subst hv; subst ha; exact h0
      | 1, hu, hv, ha => simp at hu hv ha; subst hu; subst hv; subst ha; exact h1
      | i + 2, hu, hv, ha => simp at hu)
  obtain ⟨lon0, lat0, e0, s0⟩ := (hG 0 _ _ 0 rfl rfl rfl).2 _ _ rfl rfl
  obtain ⟨lon1, lat1, e1, s1⟩ := (hG 1 _ _ 0 rfl rfl rfl).2 _ _ rfl rfl
  refine ⟨lon0, lat0, lon1, lat1, s0, s1, ?_⟩
  have hgg : g = [⟨some lon0, some lat0, some 0⟩, ⟨some lon1, some lat1, some 0⟩] := by
    match g, hlen, e0, e1 with
    | [a, b], _, e0, e1 => simp at e0 e1; rw [e0, e1]
  subst hgg
  have hd : Localization.direct conv ⟨rpcOptimGeo conv N r, el, none, none⟩ [some (r.offRow - r.scRow), some (r.offRow + r.scRow)]
      [some (r.offCol - r.scCol), some (r.offCol + r.scCol)] (some [some 0]) false =
      .ok [⟨some lon0, some lat0, some 0⟩, ⟨some lon1, some lat1, some 0⟩] := by
    have : (rpcOptimGeo conv N r).directH [some (r.offRow - r.scRow), some (r.offRow + r.scRow)]
      [some (r.offCol - r.scCol), some (r.offCol + r.scCol)] [some 0] =
      .ok [⟨some lon0, some lat0, some 0⟩, ⟨some lon1, some lat1, some 0⟩] := by
      rw [← hg]
      rfl
    simp only [Localization.direct, Localization.toPhysical, Localization.modelDirect, this]
  have hf : (⟨rpcOptimGeo conv N r, el, none, none⟩ : Localization K (ℕ × Dtm K)).footprint =
      (((r.offRow - r.scRow, r.offCol - r.scCol), (r.offRow + r.scRow, r.offCol + r.scCol)), false) := rfl
  unfold Localization.extent
  rw [hf]
  simp only [hd, boxOf, omin, omax, olift2, Option.map_some]

/-! ### On a DTM -/

/-- The line of sight from `A`, one metre above the highest altitude of the DTM, to `B`, one metre below the lowest, is in the footprint
at both extreme altitudes, above the terrain at the highest, and is not confined to the last row or column. -/
def MeetsTerrain (d : Dtm K) (A B : V3 K) : Prop :=
  ∃ τ, τ * (d.altMax - d.altMin + 2) = 1 ∧
    InFootprint d.nbRows d.nbCols (terToIndexPy d.transform (Spec.lerp A B τ)) ∧
    InFootprint d.nbRows d.nbCols (terToIndexPy d.transform (Spec.lerp A B (1 - τ))) ∧
    d.interpolate (terToIndexPy d.transform (Spec.lerp A B τ)).x (terToIndexPy d.transform (Spec.lerp A B τ)).y < d.altMax ∧
    ((terToIndexPy d.transform A).x = (terToIndexPy d.transform B).x → (terToIndexPy d.transform A).x < (d.nbRows : K) - 1) ∧
    ((terToIndexPy d.transform A).y = (terToIndexPy d.transform B).y → (terToIndexPy d.transform A).y < (d.nbCols : K) - 1)

/-- C73. With a Python RPC and a DTM in its system given as elevation, `direct` without altitude locates every pixel on the
terrain: for every large enough iteration budget of the root search there is one row per pixel, in order: NaN for a NaN pixel
and, for a pixel whose line of sight meets the terrain, longitude, latitude and altitude of a point of its line, in the footprint and on
the terrain to a tenth of a millimetre. -/
theorem C73_python_on_dtm (conv : ℕ → ℕ → ORow K → ORow K) (e : ℕ) (hconv : ∀ p, conv e e p = p) (r : Rpc K)
    (d : Dtm K) (hr : 2 ≤ d.nbRows) (hc : 2 ≤ d.nbCols)
    (hdet : d.transform.a * d.transform.e - d.transform.b * d.transform.d ≠ 0) (row col : List (Option K))
    (hcol : col.length = row.length) (edges : List (ORow K))
    (hl : losExtrema r row col (some (d.altMin - 1)) (some (d.altMax + 1)) false = .ok edges)
    (hmeet : ∀ (i : ℕ) (u v : K), row[i]? = some (some u) → col[i]? = some (some v) →
      ∃ A B : V3 K, edges[2 * i]? = some ⟨some A.x, some A.y, some A.z⟩ ∧ edges[2 * i + 1]? = some ⟨some B.x, some B.y, some B.z⟩ ∧
        (e = 4326 → BothValid A B) ∧ MeetsTerrain d A B) :
    ∃ N0, ∀ N, N0 ≤ N → ∃ out,
      Localization.direct conv ⟨rpcGeo conv N r e, .dtm e (e, d), none, none⟩ row col none false = .ok out ∧
      out.length = row.length ∧
      ∀ (i : ℕ) (x y : Option K), row[i]? = some x → col[i]? = some y →
        (x = none ∨ y = none → out[i]? = some nanRow) ∧
        ∀ u v, x = some u → y = some v → ∃ (A B : V3 K) (t lon lat alt : K),
          edges[2 * i]? = some ⟨some A.x, some A.y, some A.z⟩ ∧ edges[2 * i + 1]? = some ⟨some B.x, some B.y, some B.z⟩ ∧
          0 ≤ t ∧ t ≤ 1 ∧ lon = A.x + t * (B.x - A.x) ∧ lat = A.y + t * (B.y - A.y) ∧ alt = A.z + t * (B.z - A.z) ∧
          out[i]? = some ⟨some lon, some lat, some alt⟩ ∧
          InFootprint d.nbRows d.nbCols (terToIndexPy d.transform ⟨lon, lat, alt⟩) ∧
          |d.interpolate (terToIndexPy d.transform ⟨lon, lat, alt⟩).x (terToIndexPy d.transform ⟨lon, lat, alt⟩).y - alt| ≤ 1 / 10000 := by
  have hmm := altMin_le_altMax d hr hc
  -- the budget of each pixel
  have each : ∀ i : ℕ, ∃ N0, ∀ N, N0 ≤ N → ∀ u v, row[i]? = some (some u) → col[i]? = some (some v) →
      ∃ (A B : V3 K) (out : List (DtmPoint K)) (t : K), edges[2 * i]? = some ⟨some A.x, some A.y, some A.z⟩ ∧
        edges[2 * i + 1]? = some ⟨some B.x, some B.y, some B.z⟩ ∧ rpcDirectDtm conv .py N r e e d row col = .ok out ∧ 0 ≤ t ∧ t ≤ 1 ∧
        out[i]? = some (.point (Spec.lerp A B t)) ∧
        InFootprint d.nbRows d.nbCols (terToIndexPy d.transform (Spec.lerp A B t)) ∧
        |d.interpolate (terToIndexPy d.transform (Spec.lerp A B t)).x (terToIndexPy d.transform (Spec.lerp A B t)).y
          - (Spec.lerp A B t).z| ≤ 1 / 10000 := by
    intro i
    by_cases h : ∃ u v, row[i]? = some (some u) ∧ col[i]? = some (some v)
    · obtain ⟨u, v, hu, hv⟩ := h
      obtain ⟨A, B, hA, hB, hval, τ, hτ, ft, fb, hup, hx, hy⟩ := hmeet i u v hu hv
      obtain ⟨N0, hN0⟩ := C63_located conv e hconv r d hr hc hdet row col hcol edges hl i A B hA hB hval τ hτ ft fb hup hx hy
      have τ0 : 0 ≤ τ := by
        by_contra hcon
        have := mul_nonpos_of_nonpos_of_nonneg (not_le.mp hcon).le (show 0 ≤ d.altMax - d.altMin + 2 by linarith)
        linarith
      refine ⟨N0, fun N hN _ _ _ _ => ?_⟩
      obtain ⟨out, t, ho, ht, ht1, hp, hf, htol⟩ := hN0 N hN
      exact ⟨A, B, out, t, hA, hB, ho, τ0.trans ht, ht1, hp, hf, htol⟩
    · exact ⟨0, fun N _ u v hu hv => absurd ⟨u, v, hu, hv⟩ h⟩
  choose N0 hN0 using each
  refine ⟨(Finset.range row.length).sup N0, fun N hN => ?_⟩
  obtain ⟨l, hl1, hl2, -⟩ := rpcDirectDtm_get conv e hconv .py N r d row col hcol edges hl
  have hpix : ∀ (i : ℕ) (x y : Option K), row[i]? = some x → col[i]? = some y →
      (x = none ∨ y = none → l[i]? = some .nan) ∧
      ∀ u v, x = some u → y = some v → ∃ (A B : V3 K) (t : K), edges[2 * i]? = some ⟨some A.x, some A.y, some A.z⟩ ∧
        edges[2 * i + 1]? = some ⟨some B.x, some B.y, some B.z⟩ ∧ 0 ≤ t ∧ t ≤ 1 ∧ l[i]? = some (.point (Spec.lerp A B t)) ∧
        InFootprint d.nbRows d.nbCols (terToIndexPy d.transform (Spec.lerp A B t)) ∧
        |d.interpolate (terToIndexPy d.transform (Spec.lerp A B t)).x (terToIndexPy d.transform (Spec.lerp A B t)).y
          - (Spec.lerp A B t).z| ≤ 1 / 10000 := by
    intro i x y hx hy
    refine ⟨fun hn => C64_nan_pixel conv e hconv N r d row col hcol hl1 i x y hx hy hn, ?_⟩
    rintro u v rfl rfl
    have hlt : i < row.length := (List.getElem?_eq_some_iff.1 hx).1
    have hle : N0 i ≤ N := (Finset.le_sup (f := N0) (Finset.mem_range.2 hlt)).trans hN
    obtain ⟨A, B, out, t, hA, hB, ho, t0, t1, hp, hf, htol⟩ := hN0 i N hle u v hx hy
    rw [hl1] at ho
    injection ho with ho
    subst ho
    exact ⟨A, B, t, hA, hB, t0, t1, hp, hf, htol⟩
  have hnofail : l.any (fun p => match p with | .failure => true | .uninitialised => true | _ => false) = false := by
    rw [List.any_eq_false]
    intro p hp
    obtain ⟨i, hi⟩ := List.mem_iff_getElem?.1 hp
    have hlt : i < row.length := by rw [← hl2]; exact (List.getElem?_eq_some_iff.1 hi).1
    obtain ⟨hn, hf⟩ := hpix i row[i] col[i] (by simp [hlt]) (by simp [hcol, hlt])
    cases hx : row[i] with
    | none => rw [hn (Or.inl hx)] at hi; simp only [Option.some.injEq] at hi; subst hi; simp
    | some u =>
      cases hy : col[i] with
      | none => rw [hn (Or.inr hy)] at hi; simp only [Option.some.injEq] at hi; subst hi; simp
      | some v =>
        obtain ⟨A, B, t, -, -, -, -, hpt, -⟩ := hf u v hx hy
        rw [hpt] at hi; simp only [Option.some.injEq] at hi; subst hi; simp
  refine ⟨l.map DtmPoint.toRow, ?_, by simp [hl2], ?_⟩
  · have hdt : (rpcGeo conv N r e).directDtm row col (e, d) = .ok (l.map DtmPoint.toRow) := by
      simp only [rpcGeo, hl1, dtmRows]
      exact if_neg fun h => by cases hnofail.symm.trans h
    simp only [Localization.direct, Localization.toPhysical, Localization.modelDirect, hdt]
  · intro i x y hx hy
    obtain ⟨hn, hf⟩ := hpix i x y hx hy
    refine ⟨fun h => by rw [List.getElem?_map, hn h]; rfl, fun u v hu hv => ?_⟩
    obtain ⟨A, B, t, hA, hB, t0, t1, hp, hft, htol⟩ := hf u v hu hv
    refine ⟨A, B, t, _, _, _, hA, hB, t0, t1, rfl, rfl, rfl, ?_, hft, htol⟩
    rw [List.getElem?_map, hp]
    rfl

/-- A point of the terrain: longitude and latitude valid, in reach of the DTM to a tenth of a millimetre. -/
def OnTerrainRow (d : Dtm K) (p : ORow K) : Prop :=
  ∃ lon lat alt, p = ⟨some lon, some lat, some alt⟩ ∧ ValidLonLat lon lat ∧
    |d.interpolate (terToIndexPy d.transform ⟨lon, lat, alt⟩).x (terToIndexPy d.transform ⟨lon, lat, alt⟩).y - alt| ≤ 1 / 10000

theorem dtmRows_ok {l : List (DtmPoint K)} {rows : List (ORow K)} (h : dtmRows l = .ok rows) :
    rows = l.map DtmPoint.toRow ∧ ∀ p ∈ l, p = .nan ∨ ∃ v, p = .point v := by
  unfold dtmRows at h
  split_ifs at h with hany
  · simp only [Except.ok.injEq] at h
    refine ⟨h.symm, fun p hp => ?_⟩
    simp only [List.any_eq_true, not_exists, not_and, Bool.not_eq_true] at hany
    have := hany p hp
    cases p <;> simp_all

theorem optim_direct_rows {conv : ℕ → ℕ → ORow K → ORow K} {N : ℕ} {r : Rpc K} {d : Dtm K} {row col : List (Option K)}
    {out : List (ORow K)}
    (h : Localization.direct conv ⟨rpcOptimGeo conv N r, .dtm 4326 (4326, d), none, none⟩ row col none false = .ok out) :
    ∃ l, rpcOptimDirectDtm N r d row col = .ok l ∧ dtmRows l = .ok out := by
  simp only [Localization.direct, Localization.toPhysical, Localization.modelDirect, rpcOptimGeo, rpcOptimDirectDtmAny, if_true] at h
  cases hl : rpcOptimDirectDtm N r d row col with
  | error er => rw [hl] at h; simp at h
  | ok l =>
    rw [hl] at h
    refine ⟨l, rfl, ?_⟩
    simp only at h
    cases hd : dtmRows l with
    | error er => rw [hd] at h; simp at h
    | ok rows => rw [hd] at h; simpa using h

/-- C73. With a C++ RPC and a DTM in EPSG 4326 given as elevation, whenever `direct` returns there is one row per pixel, in order, each
being NaN or a point of the terrain, and a NaN pixel gives NaN. -/
theorem C73_optim_on_dtm (conv : ℕ → ℕ → ORow K → ORow K) (N : ℕ) (r : Rpc K) (q : RatCoefs K) (hq : r.inverse = some q)
    (d : Dtm K) (hr : 2 ≤ d.nbRows) (hc : 2 ≤ d.nbCols)
    (hdet : d.transform.a * d.transform.e - d.transform.b * d.transform.d ≠ 0) (row col : List (Option K))
    (hcol : col.length = row.length) (out : List (ORow K))
    (h : Localization.direct conv ⟨rpcOptimGeo conv N r, .dtm 4326 (4326, d), none, none⟩ row col none false = .ok out) :
    out.length = row.length ∧ ∀ (i : ℕ) (x y : Option K), row[i]? = some x → col[i]? = some y →
      (x = none ∨ y = none → out[i]? = some nanRow) ∧ ∃ p, out[i]? = some p ∧ (p = nanRow ∨ OnTerrainRow d p) := by
  obtain ⟨l, hl, hrows⟩ := optim_direct_rows h
  obtain ⟨rfl, hok⟩ := dtmRows_ok hrows
  obtain ⟨out', ho, hlen, hget⟩ := C62_optim_direct_loc_dtm_partial N r q hq d hr hc hdet row col hcol
  rw [hl] at ho
  injection ho with ho
  subst ho
  refine ⟨by simp [hlen], fun i x y hx hy => ?_⟩
  obtain ⟨p, hp, -, hn, hpt, -⟩ := hget i x y hx hy
  refine ⟨fun h => by rw [List.getElem?_map, hp, hn h]; rfl, p.toRow, by rw [List.getElem?_map, hp]; rfl, ?_⟩
  rcases hok p (List.mem_of_getElem? hp) with rfl | ⟨v, rfl⟩
  · exact Or.inl rfl
  · obtain ⟨h1, h2, h3⟩ := hpt v rfl
    exact Or.inr ⟨v.x, v.y, v.z, rfl, ⟨h1, h2⟩, h3⟩

/-- A pixel whose line of sight is regular, is computed by iterations that settle within the altitude range of the model, and is seen as a
straight uniform motion up to `δ` pixels. -/
def StraightLine (r : Rpc K) (q : RatCoefs K) (d : Dtm K) (δ row col : K) : Prop :=
  (iterCpp r q 10 ⟨row, col, some (d.altMax + 1)⟩).2 < 10 ∧ (iterCpp r q 10 ⟨row, col, some (d.altMin - 1)⟩).2 < 10 ∧
  ∃ A B : V3 K, losExtremaCpp r (some row) (some col) (some (d.altMin - 1)) (some (d.altMax + 1)) false =
      .ok [⟨some A.x, some A.y, some A.z⟩, ⟨some B.x, some B.y, some B.z⟩] ∧
    RatDefined r q A.x A.y A.z ∧ RatDefined r q B.x B.y B.z ∧ LineRegular d A B ∧
    ∀ t, 0 ≤ t → t ≤ 1 →
      |imgCol r q (Spec.lerp A B t).x (Spec.lerp A B t).y (Spec.lerp A B t).z
        - ((1 - t) * imgCol r q A.x A.y A.z + t * imgCol r q B.x B.y B.z)| ≤ δ ∧
      |imgRow r q (Spec.lerp A B t).x (Spec.lerp A B t).y (Spec.lerp A B t).z
        - ((1 - t) * imgRow r q A.x A.y A.z + t * imgRow r q B.x B.y B.z)| ≤ δ

/-- C73. With a C++ RPC and a DTM in EPSG 4326, the points returned by `direct` and located back by `inverse` give the pixels
within `δ` plus a millionth of a pixel, each at its place; NaN rows give NaN.  (0, 0, 0), which the code returns for a line that leaves the
box without having met the terrain, is excluded. -/
theorem C73_optim_dtm_round_trip (conv : ℕ → ℕ → ORow K → ORow K) (N : ℕ) (r : Rpc K) (q : RatCoefs K) (hq : r.inverse = some q)
    (d : Dtm K) (hr : 2 ≤ d.nbRows) (hc : 2 ≤ d.nbCols)
    (hdet : d.transform.a * d.transform.e - d.transform.b * d.transform.d ≠ 0) (row col : List (Option K))
    (hcol : col.length = row.length) (hlo : r.offAlt - r.scAlt ≤ d.altMin - 1) (hhi : d.altMax + 1 ≤ r.offAlt + r.scAlt)
    (hdef : ∀ lon lat alt, ValidLonLat lon lat → RatDefined r q lon lat alt) (δ : K)
    (hline : ∀ (i : ℕ) (u v : K), row[i]? = some (some u) → col[i]? = some (some v) → StraightLine r q d δ u v)
    (out : List (ORow K))
    (h : Localization.direct conv ⟨rpcOptimGeo conv N r, .dtm 4326 (4326, d), none, none⟩ row col none false = .ok out) :
    ∃ rc alt, Localization.inverse conv ⟨rpcOptimGeo conv N r, .dtm 4326 (4326, d), none, none⟩ (out.map fun p => p.x)
        (out.map fun p => p.y) (some (out.map fun p => p.z)) false = .ok (some rc, alt) ∧ rc.length = row.length ∧
      ∀ (i : ℕ) (u v : K), row[i]? = some (some u) → col[i]? = some (some v) →
        (out[i]? = some nanRow ∧ rc[i]? = some (none, none)) ∨ out[i]? = some ⟨some 0, some 0, some 0⟩ ∨
        ∃ u' v', rc[i]? = some (some u', some v') ∧ |u' - u| ≤ 1 / 1000000 + δ ∧ |v' - v| ≤ 1 / 1000000 + δ := by
  obtain ⟨l, hl, hrows⟩ := optim_direct_rows h
  obtain ⟨hlen, hall⟩ := C73_optim_on_dtm conv N r q hq d hr hc hdet row col hcol out h
  have hproj : ∀ p ∈ out, Projectable r q p := by
    intro p hp
    obtain ⟨i, hi⟩ := List.mem_iff_getElem?.1 hp
    have hlt : i < row.length := by rw [← hlen]; exact (List.getElem?_eq_some_iff.1 hi).1
    obtain ⟨-, p', hp', hc'⟩ := hall i row[i] col[i] (by simp [hlt]) (by simp [hcol, hlt])
    rw [hi] at hp'
    injection hp' with hp'
    subst hp'
    rcases hc' with hn | ⟨lon, lat, alt, he, hv, -⟩
    · exact Or.inl hn
    · exact Or.inr ⟨lon, lat, alt, he, hv, hdef lon lat alt hv⟩
  have hinv := rpcOptimGeo_inverse conv N r q hq out hproj
  refine ⟨_, _, by simp only [Localization.inverse, Localization.toModel, Option.getD_some, hinv]; rfl, by simp [hlen], ?_⟩
  intro i u v hu hv
  obtain ⟨-, p, hp, hc'⟩ := hall i (some u) (some v) hu hv
  rcases hc' with rfl | ⟨lon, lat, alt, rfl, hval, -⟩
  · left
    refine ⟨hp, ?_⟩
    rw [List.getElem?_map, hp, Option.map_some, invPointPy_nan]
    rfl
  · right
    by_cases h0 : (⟨lon, lat, alt⟩ : V3 K) = ⟨0, 0, 0⟩
    · left
      simp only [V3.mk.injEq] at h0
      obtain ⟨rfl, rfl, rfl⟩ := h0
      exact hp
    · right
      obtain ⟨out', ho, -, hget⟩ := C62_optim_direct_loc_dtm_partial N r q hq d hr hc hdet row col hcol
      rw [hl] at ho
      injection ho with ho
      subst ho
      obtain ⟨pt, hpt, halone, -⟩ := hget i (some u) (some v) hu hv
      obtain ⟨rfl, hok⟩ := dtmRows_ok hrows
      rw [List.getElem?_map, hpt, Option.map_some, Option.some.injEq] at hp
      have hptv : pt = .point ⟨lon, lat, alt⟩ := by
        rcases hok pt (List.mem_of_getElem? hpt) with rfl | ⟨w, rfl⟩
        · simp [DtmPoint.toRow, nanRow] at hp
        · simp only [DtmPoint.toRow, V3.mk.injEq, Option.some.injEq] at hp
          obtain ⟨a1, a2, a3⟩ := hp
          rw [← a1, ← a2, ← a3]
      subst hptv
      obtain ⟨sA, sB, A, B, hAB, dA, dB, hreg, hδ⟩ := hline i u v hu hv
      obtain ⟨b1, b2⟩ := C63_optim_reprojection N r q hq d hr hc hdet u v hlo hhi sA sB A B hAB dA dB δ hδ hreg ⟨lon, lat, alt⟩ halone h0
      refine ⟨imgRow r q lon lat alt, imgCol r q lon lat alt, ?_, b2, b1⟩
      rw [List.getElem?_map, List.getElem?_map, hpt]
      simp only [Option.map_some, DtmPoint.toRow, invPointPy_valid r q hval (hdef lon lat alt hval)]

/-! ### Concrete cases -/

theorem demo_defined (lon lat alt : ℚ) : RatDefined demoRpc demoCoefs lon lat alt :=
  demo_affine.defined demoRpc lon lat alt

/-- The hypothesis of `C73_optim_dtm_round_trip` for a pixel on the slope. -/
example : StraightLine demoRpc demoCoefs slopeDtm 0 300 500 := by
  refine ⟨by decide +kernel, by decide +kernel, ⟨959 / 100, 3959 / 200, 141⟩, ⟨1001 / 100, 4001 / 200, 99⟩, by decide +kernel,
    demo_defined _ _ _, demo_defined _ _ _, slope_line_regular, fun t _ _ => ?_⟩
  obtain ⟨h1, h2⟩ := demo_affine.segment demoRpc (⟨959 / 100, 3959 / 200, 141⟩ : V3 ℚ) ⟨1001 / 100, 4001 / 200, 99⟩ t
  rw [h1, h2]
  simp

/-- The iterations settle for two pixels of the demonstration model at different altitudes. -/
example : SettlesPy demoRpc demoCoefs 300 500 100 ∧ SettlesPy demoRpc demoCoefs 450 1000 100 ∧ SettlesPy demoRpc demoCoefs 0 0 0 ∧
    SettlesPy demoRpc demoCoefs 600 1000 0 ∧ SettlesCpp demoRpc demoCoefs 300 500 120 ∧ SettlesCpp demoRpc demoCoefs 450 1000 90 := by
  refine ⟨⟨by decide +kernel, by decide +kernel, fun _ _ _ _ _ _ => demo_defined _ _ _⟩,
    ⟨by decide +kernel, by decide +kernel, fun _ _ _ _ _ _ => demo_defined _ _ _⟩,
    ⟨by decide +kernel, by decide +kernel, fun _ _ _ _ _ _ => demo_defined _ _ _⟩,
    ⟨by decide +kernel, by decide +kernel, fun _ _ _ _ _ _ => demo_defined _ _ _⟩,
    ⟨by decide +kernel, 49 / 5, 199 / 10, by decide +kernel, by decide +kernel, by decide +kernel, demo_defined _ _ _⟩,
    ⟨by decide +kernel, 111 / 10, 411 / 20, by decide +kernel, by decide +kernel, by decide +kernel, demo_defined _ _ _⟩⟩

/-- The round trip of a batch with a NaN, with the output asked in another system, where the coordinates are shifted. -/
def locShiftConv (a b : ℕ) (p : ORow ℚ) : ORow ℚ :=
  if a = b then p else if a < b then ⟨p.x.map fun v => v + 1000, p.y.map fun v => v - 500, p.z.map fun v => v + 40⟩
  else ⟨p.x.map fun v => v - 1000, p.y.map fun v => v + 500, p.z.map fun v => v - 40⟩

example : UndoEachOther locShiftConv 4326 5000 := by
  refine ⟨by decide +kernel, fun lon lat alt _ => ?_⟩
  simp [locShiftConv]

/-- The whole computation, through `Localization` and `coloc`, for both classes. -/
example :
    Localization.direct locShiftConv ⟨rpcGeo locShiftConv 50 demoRpc 4326, .missing, none, some 5000⟩ [some 300, none, some 450]
      [some 500, some 1, some 1000] (some [some 100]) false =
      .ok [⟨some 1010, some (-480), some 140⟩, nanRow, ⟨some 1011, some (-959 / 2), some 140⟩] ∧
    Localization.inverse locShiftConv ⟨rpcGeo locShiftConv 50 demoRpc 4326, .missing, none, some 5000⟩ [some 1010, none, some 1011]
      [some (-480), none, some (-959 / 2)] (some [some 140, none, some 140]) false =
      .ok (some [(some 300, some 500), (none, none), (some 450, some 1000)], [some 100, none, some 100]) ∧
    Localization.direct locShiftConv ⟨rpcOptimGeo locShiftConv 50 demoRpc, .missing, none, none⟩ [some 300, some 450]
      [some 500, some 1000] (some [some 120, some 90]) false =
      .ok [⟨some (49 / 5), some (199 / 10), some 120⟩, ⟨some (111 / 10), some (411 / 20), some 90⟩] ∧
    Localization.extent locShiftConv ⟨rpcGeo locShiftConv 50 demoRpc 4326, .missing, none, none⟩ (1 / 10) =
      .ok ⟨some (194 / 10), some (99 / 10), some (216 / 10), some (121 / 10)⟩ := by
  decide +kernel

/-- `direct` on the slope, with and without NaN, for both classes. -/
example :
    Localization.direct noConv ⟨rpcGeo noConv 50 demoRpc 4326, .dtm 4326 (4326, slopeDtm), none, none⟩
      [some 300, some 450, none] [some 500, some 1000, some 1] none false =
      .ok [⟨some (185 / 19), some (755 / 38), some (2400 / 19)⟩, ⟨some (205 / 19), some (775 / 38), some (2300 / 19)⟩, nanRow] ∧
    Localization.direct noConv ⟨rpcOptimGeo noConv 50 demoRpc, .dtm 4326 (4326, slopeDtm), none, none⟩
      [some 300, some 450, none] [some 500, some 1000, some 1] none false =
      .ok [⟨some (185 / 19), some (755 / 38), some (2400 / 19)⟩, ⟨some (205 / 19), some (775 / 38), some (2300 / 19)⟩, nanRow] := by
  decide +kernel

end Shareloc
