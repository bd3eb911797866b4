import Verif.Model.ColocCpp
import Verif.Props.RpcLocalization
import Verif.Props.StripCpp
import Verif.Props.GridLocalization

/-!
# C80: the C++ colocalisation; C68 for two RPCs
-/

set_option linter.unusedSectionVars false

namespace Shareloc
variable {K : Type*} [Field K] [LinearOrder K] [IsStrictOrderedRing K] [FloorRing K]

/-! ### Points -/

theorem checkRow_some {p : ORow K} (h : (checkRow p).x.isSome) :
    checkRow p = p ∧ ∃ x y z, p = ⟨some x, some y, some z⟩ ∧ ValidLonLat x y := by
  rcases p with ⟨_ | x, _ | y, _ | z⟩ <;> try (simp [checkRow, nanRow] at h; done)
  by_cases hv : ValidLonLat x y
  · exact ⟨checkRow_valid hv, x, y, z, rfl, hv⟩
  · rw [checkRow_invalid hv] at h; simp [nanRow] at h

theorem invPointCpp_located {r : Rpc K} {q : RatCoefs K} {p : ORow K} (h : Located (invPointCpp r q p)) :
    p.x.isSome ∧ p.y.isSome ∧ p.z.isSome ∧ (invPointCpp r q p).z = p.z := by
  rcases p with ⟨_ | x, _ | y, _ | z⟩ <;> simp_all [Located, invPointCpp, nanRow]

theorem iterPointCpp_some {r : Rpc K} {q : RatCoefs K} {t : Option K × Option K × Option K}
    (h : (iterPointCpp r q false t).x.isSome) : t.1.isSome ∧ t.2.1.isSome ∧ (iterPointCpp r q false t).z = t.2.2 := by
  rcases t with ⟨_ | x, _ | y, z⟩ <;> simp_all [iterPointCpp, fillLonLat]

theorem mapExcept_eq_map {α β : Type*} {f : α → Except RpcError β} {g : α → β} (hg : ∀ a b, f a = .ok b → b = g a) {l : List α}
    {out : List β} (h : mapExcept f l = .ok out) : out = l.map g := by
  induction l generalizing out with
  | nil => simp only [mapExcept, Except.ok.injEq] at h; subst h; rfl
  | cons a as ih =>
    simp only [mapExcept] at h
    cases hf : f a with
    | error e => simp [hf] at h
    | ok b =>
      cases hr : mapExcept f as with
      | error e => simp [hf, hr] at h
      | ok bs =>
        simp only [hf, hr, Except.ok.injEq] at h
        rw [← h, hg a b hf, ih hr, List.map_cons]

/-- The inverse location of a ground point by the optimised class: the check of the coordinates, then the C++ function.  The altitude is
the one of the ground point. -/
def seenBy (r : Rpc K) (q : RatCoefs K) (g : ORow K) : ORow K :=
  ⟨(invPointCpp r q (checkRow g)).x, (invPointCpp r q (checkRow g)).y, g.z⟩

/-- The ground point of a pixel for the optimised class: NaN when the C++ code leaves it undefined. -/
def groundBy (N : ℕ) (r : Rpc K) (q : RatCoefs K) (el : CppElevation K) (p : Option K × Option K) : ORow K :=
  match el with
  | .value h => checkRow (iterPointCpp r q false (p.1, p.2, h))
  | .dtm _ d =>
    match rpcOptimDtmPoint N r d p with
    | .ok v => v.toRow
    | .error _ => nanRow

/-- The elevation of `coloc` in Python. -/
def CppElevation.py : CppElevation K → Elevation K (ℕ × Dtm K)
  | .value h => .value [h]
  | .dtm e d => .dtm e (e, d)

theorem cppThrow_value {r : Rpc K} {q : RatCoefs K} {p o : ORow K} (h : invPointCppThrow r q p = .ok o) : o = invPointCpp r q p := by
  unfold invPointCppThrow at h
  split at h
  · simp only at h
    split_ifs at h with hc
    exact (Except.ok.inj h).symm
  · exact (Except.ok.inj h).symm

/-- The second half of `coloc`. -/
theorem coloc_tail {conv : ℕ → ℕ → ORow K → ORow K} {N : ℕ} {r : Rpc K} {q : RatCoefs K} (hq : r.inverse = some q)
    {el : Elevation K (ℕ × Dtm K)} {g : List (ORow K)} {rc : Option (List (Option K × Option K))} {h : List (Option K)}
    (hi : Localization.inverse conv ⟨rpcOptimGeo conv N r, el, none, none⟩ (g.map fun p => p.x) (g.map fun p => p.y)
          (some (g.map fun p => p.z)) false = .ok (rc, h)) :
    (((rc.getD (g.map fun _ => (none, none))).zip h).map fun t => (⟨t.1.1, t.1.2, t.2⟩ : ORow K)) = g.map (seenBy r q) := by
  simp only [Localization.inverse, Localization.toModel, Option.getD_some, rpcOptimGeo, hq, inverseLocOptim, stack3_rows] at hi
  cases hm : mapExcept (invPointCppThrow r q) (checkLonLat g) with
  | error e => simp [hm] at hi
  | ok l =>
    simp only [hm, Except.ok.injEq, Prod.mk.injEq] at hi
    obtain ⟨rfl, rfl⟩ := hi
    have hl := mapExcept_eq_map (g := invPointCpp r q) (fun a b hab => cppThrow_value hab) hm
    subst hl
    simp only [checkLonLat, List.map_map, Option.getD_some]
    rw [List.zip_map', List.map_map]
    rfl

theorem coloc_parts {conv : ℕ → ℕ → ORow K → ORow K} {m1 m2 : Geo K (ℕ × Dtm K)} {row col : List (Option K)}
    {el : Elevation K (ℕ × Dtm K)} {s g : List (ORow K)} (h : coloc conv m1 m2 row col el none none false = .ok (s, g)) :
    row.length = col.length ∧ Localization.direct conv ⟨m1, el, none, none⟩ row col none false = .ok g ∧
    ∃ rc alt, Localization.inverse conv ⟨m2, el, none, none⟩ (g.map fun p => p.x) (g.map fun p => p.y)
          (some (g.map fun p => p.z)) false = .ok (rc, alt) ∧
      s = ((rc.getD (g.map fun _ => (none, none))).zip alt).map fun t => (⟨t.1.1, t.1.2, t.2⟩ : ORow K) := by
  unfold coloc at h
  split_ifs at h with hlen
  cases hd : Localization.direct conv ⟨m1, el, none, none⟩ row col none false with
  | error e => simp only [hd] at h; cases h
  | ok ground =>
    simp only [hd] at h
    cases hi : Localization.inverse conv ⟨m2, el, none, none⟩ (ground.map fun p => p.x) (ground.map fun p => p.y)
          (some (ground.map fun p => p.z)) false with
    | error e => simp only [hi] at h; cases h
    | ok ra =>
      obtain ⟨rc, alt⟩ := ra
      simp only [hi, Except.ok.injEq, Prod.mk.injEq] at h
      obtain ⟨h1, h2⟩ := h
      subst h2
      exact ⟨not_not.1 hlen, rfl, rc, alt, hi, h1.symm⟩

theorem zip_pairs (l : List (Option K × Option K)) : (l.map fun p => p.1).zip (l.map fun p => p.2) = l := by
  rw [List.zip_map']; simp

/-- The ground points of a list of pixels. -/
theorem direct_groundBy {conv : ℕ → ℕ → ORow K → ORow K} {N : ℕ} {r : Rpc K} {q : RatCoefs K} (hq : r.inverse = some q)
    {el : CppElevation K} (hel : ∀ e d, el = .dtm e d → e = 4326) {l : List (Option K × Option K)} {g : List (ORow K)}
    (h : Localization.direct conv ⟨rpcOptimGeo conv N r, el.py, none, none⟩ (l.map fun p => p.1) (l.map fun p => p.2) none false
      = .ok g) : g = l.map (groundBy N r q el) := by
  cases el with
  | dtm e d =>
    have he := hel e d rfl
    subst he
    obtain ⟨pts, hp, hd⟩ := optim_direct_rows h
    obtain ⟨rfl, -⟩ := dtmRows_ok hd
    unfold rpcOptimDirectDtm at hp
    rw [if_pos (by simp), zip_pairs] at hp
    have key : ∀ (l : List (Option K × Option K)) pts, mapExcept (rpcOptimDtmPoint N r d) l = .ok pts →
        pts.map DtmPoint.toRow = l.map (groundBy N r q (.dtm 4326 d)) := by
      intro l
      induction l with
      | nil => intro pts h; simp only [mapExcept, Except.ok.injEq] at h; subst h; rfl
      | cons a as ih =>
        intro pts h
        simp only [mapExcept] at h
        cases hf : rpcOptimDtmPoint N r d a with
        | error e => simp [hf] at h
        | ok b =>
          cases hr : mapExcept (rpcOptimDtmPoint N r d) as with
          | error e => simp [hf, hr] at h
          | ok bs =>
            simp only [hf, hr, Except.ok.injEq] at h
            subst h
            rw [List.map_cons, List.map_cons, ih _ hr]
            simp only [groundBy, hf]
    exact key l pts hp
  | value h0 =>
    simp only [Localization.direct, Localization.toPhysical, Localization.modelDirect, CppElevation.py, Localization.defaultElevation,
      rpcOptimGeo, directLocHOptim, hq, List.length_map, broadcastAlt_single, min_self] at h
    rw [broadcastAlt_eq (by simp)] at h
    simp only [Except.ok.injEq, checkLonLat, List.map_map] at h
    rw [← h]
    have key : ∀ l : List (Option K × Option K), ((l.map fun p => p.1).zip ((l.map fun p => p.2).zip (List.replicate l.length h0))) =
        l.map fun p => (p.1, p.2, h0) := by
      intro l
      induction l with
      | nil => rfl
      | cons a as ih => simp only [List.map_cons, List.length_cons, List.replicate_succ, List.zip_cons_cons, ih]
    rw [key, List.map_map]
    rfl

/-- The ground points of pixels, each at its altitude. -/
theorem direct_altitudesBy {conv : ℕ → ℕ → ORow K → ORow K} {N : ℕ} {r : Rpc K} {q : RatCoefs K} (hq : r.inverse = some q)
    {l : List (ORow K)} {g : List (ORow K)}
    (h : Localization.direct conv ⟨rpcOptimGeo conv N r, .value (l.map fun p => p.z), none, none⟩ (l.map fun p => p.x)
      (l.map fun p => p.y) none false = .ok g) :
    g = l.map fun p => groundBy N r q (.value p.z) (p.x, p.y) := by
  simp only [Localization.direct, Localization.toPhysical, Localization.modelDirect, Localization.defaultElevation,
    rpcOptimGeo, directLocHOptim, hq, List.length_map, min_self] at h
  rw [broadcastAlt_eq (by simp)] at h
  simp only at h
  rw [broadcastAlt_eq (by simp)] at h
  simp only [Except.ok.injEq, checkLonLat, List.map_map] at h
  rw [← h]
  have key : ∀ l : List (ORow K), ((l.map fun p => p.x).zip ((l.map fun p => p.y).zip (l.map fun p => p.z))) =
      l.map fun p => (p.x, p.y, p.z) := by
    intro l
    induction l with
    | nil => rfl
    | cons a as ih => simp only [List.map_cons, List.zip_cons_cons, ih]
  rw [key, List.map_map]
  rfl

/-- A ground point that the second model sees comes unchanged from the C++ code. -/
theorem directScalar_of_seen {N : ℕ} {r1 r2 : Rpc K} {q1 q2 : RatCoefs K} (h1 : r1.inverse = some q1) (h2 : r2.inverse = some q2)
    {el : CppElevation K} (hel : ∀ e d, el = .dtm e d → e = 4326) {p : Option K × Option K}
    (h : Located (seenBy r2 q2 (groundBy N r1 q1 el p))) :
    colocScalar N r1 r2 el p.1 p.2 = .ok (seenBy r2 q2 (groundBy N r1 q1 el p)) ∧
    directScalar N r1 el p.1 p.2 = .ok (groundBy N r1 q1 el p) ∧ (groundBy N r1 q1 el p).z.isSome ∧
    ∀ h', el = .value h' → p.1.isSome ∧ p.2.isSome ∧ h'.isSome := by
  have hloc : Located (invPointCpp r2 q2 (checkRow (groundBy N r1 q1 el p))) := h
  obtain ⟨c1, -, c3, c4⟩ := invPointCpp_located hloc
  obtain ⟨hid, x, y, z, hg, hv⟩ := checkRow_some c1
  have hdir : directScalar N r1 el p.1 p.2 = .ok (groundBy N r1 q1 el p) ∧
      ∀ h', el = .value h' → p.1.isSome ∧ p.2.isSome ∧ h'.isSome := by
    cases el with
    | value h' =>
      simp only [groundBy] at hg ⊢
      obtain ⟨e1, -⟩ := checkRow_some (p := iterPointCpp r1 q1 false (p.1, p.2, h')) (by rw [hg]; rfl)
      rw [e1] at hg ⊢
      obtain ⟨s1, s2, s3⟩ := iterPointCpp_some (r := r1) (q := q1) (t := (p.1, p.2, h')) (by rw [hg]; rfl)
      refine ⟨by simp only [directScalar, directHScalar, h1], ?_⟩
      intro h'' e
      cases e
      refine ⟨s1, s2, ?_⟩
      simp only at s3
      rw [← s3, hg]; rfl
    | dtm e d =>
      have he := hel e d rfl
      subst he
      refine ⟨?_, fun h' e => by cases e⟩
      simp only [groundBy] at hg ⊢
      simp only [directScalar, directDtmScalar, ne_eq, not_true_eq_false, if_false]
      cases hp : rpcOptimDtmPoint N r1 d p with
      | error e => rw [hp] at hg; simp [nanRow] at hg
      | ok v =>
        rw [hp] at hg
        simp only at hg
        unfold rpcOptimDtmPoint at hp
        cases hlos : losExtremaCpp r1 p.1 p.2 (some (d.altMin - 1)) (some (d.altMax + 1)) false with
        | error e => simp [hlos] at hp
        | ok edges =>
          simp only [hlos, Except.ok.injEq] at hp
          subst hp
          simp only
          cases hc : losDtmO .cpp d N edges with
          | point w =>
            rw [hc] at hg
            simp only [checkDtmPoint] at hg ⊢
            split_ifs at hg ⊢ with hb
            · simp [DtmPoint.toRow, nanRow] at hg
            · rfl
          | nan => rw [hc] at hg; simp [checkDtmPoint, DtmPoint.toRow, nanRow] at hg
          | uninitialised => rw [hc] at hg; simp [checkDtmPoint, DtmPoint.toRow, nanRow] at hg
          | failure => rw [hc] at hg; simp [checkDtmPoint, DtmPoint.toRow, nanRow] at hg
  refine ⟨?_, hdir.1, by rw [hg]; rfl, hdir.2⟩
  simp only [colocScalar, hdir.1, inverseScalar, h2]
  rw [hid] at c4
  simp only [seenBy, hid]
  congr 1
  rw [← c4]

theorem stereoOf_lines (conv : ℕ → ℕ → ORow K → ORow K) (N : ℕ) (rl rr : Rpc K) (ql qr : RatCoefs K) (hl : rl.inverse = some ql)
    (hr : rr.inverse = some qr) (el : CppElevation K) (hel : ∀ e d, el = .dtm e d → e = 4326) (off : K) :
    SameLines (stereoOf conv (rpcOptimGeo conv N rl) (rpcOptimGeo conv N rr) el.py) (stereoCppOf N rl rr el)
      (fun p => (seenBy rr qr (groundBy N rl ql el p), groundBy N rl ql el p))
      (fun p => seenBy rl ql (groundBy N rr qr (.value p.z) (p.x, p.y))) off where
  l2r := fun l out h => by
    simp only [stereoOf] at h
    cases hc : coloc conv (rpcOptimGeo conv N rl) (rpcOptimGeo conv N rr) (l.map fun p => p.1) (l.map fun p => p.2) el.py none none
        false with
    | error e => simp [hc] at h
    | ok sg =>
      obtain ⟨s, g⟩ := sg
      simp only [hc, Except.ok.injEq] at h
      obtain ⟨-, hd, rc, alt, hi, hs⟩ := coloc_parts hc
      have hg := direct_groundBy hl hel hd
      rw [coloc_tail hr hi] at hs
      rw [← h, hs, hg, List.map_map, List.zip_map']
      rfl
  r2l := fun l out h => by
    simp only [stereoOf] at h
    cases hc : coloc conv (rpcOptimGeo conv N rr) (rpcOptimGeo conv N rl) (l.map fun p => p.x) (l.map fun p => p.y)
        (.value (l.map fun p => p.z)) none none false with
    | error e => simp [hc] at h
    | ok sg =>
      obtain ⟨s, g⟩ := sg
      simp only [hc, Except.ok.injEq] at h
      obtain ⟨-, hd, rc, alt, hi, hs⟩ := coloc_parts hc
      have hg := direct_altitudesBy hr hd
      rw [coloc_tail hl hi] at hs
      rw [← h, hs, hg, List.map_map]
      rfl
  cpp := fun p h1 h2 => by
    obtain ⟨a1, -, -, a4⟩ := directScalar_of_seen hr hl (fun e d h => by cases h) h1
    obtain ⟨b1, -, -, -⟩ := directScalar_of_seen hr hl (fun e d h => by cases h) h2
    obtain ⟨x1, x2, x3⟩ := a4 _ rfl
    simp only [localLineEnd] at x1 x2 x3
    refine ⟨?_, a1, b1⟩
    exact (directScalar_of_seen hl hr hel ⟨x1, x2⟩).1

/-- C68. For two RPCs of the optimised class and a DTM in EPSG 4326 or a constant elevation, whenever the Python strip meets no NaN the C++
strip with the same models is the Python strip: same shape, same positions and angles at every node, same mean baseline ratio, same count
of NaN.
Missing: strips that meet a NaN, on which the codes differ (`C68_nan_difference`). -/
theorem C68_rpc_strips_agree_partial (conv : ℕ → ℕ → ORow K → ORow K) (N : ℕ) (rl rr : Rpc K) (ql qr : RatCoefs K)
    (hl : rl.inverse = some ql) (hr : rr.inverse = some qr) (el : CppElevation K) (hel : ∀ e d, el = .dtm e d → e = 4326)
    (t : Trig K) (left right : List (ORow K)) (hlr : right.length = left.length) (hw : left ≠ [])
    (angles : Option (List (Option K))) (ha : ∀ a, angles = some a → a.length = left.length ∧ a ≠ [none]) (spacing : K) (axis : ℤ)
    (hx : axis = 0 ∨ axis = 1) (size : ℕ) (hsize : 1 ≤ size) (step off : K) (s : Strip K)
    (hpy : stripOfEpipolarGrid t (stereoOf conv (rpcOptimGeo conv N rl) (rpcOptimGeo conv N rr) el.py) left right spacing axis size step
      off angles none = .ok s) (hnan : s.nanCount = 0) :
    ∃ o, stripCpp t (stereoCppOf N rl rr el) (stripRows axis left.length) (stripCols axis left.length) (Buf.ofRows left)
        (Buf.ofRows right) (anglesArg angles) spacing axis size step off = .ok o ∧
      o.rows = (if axis = 0 then size else left.length) ∧ o.cols = (if axis = 0 then left.length else size) ∧
      (∀ (n j : ℕ) (l : Layer K), s.layers[n]? = some l → j < left.length → l.left[j]? = some (o.leftAt axis n j) ∧
        l.right[j]? = some (o.rightAt axis n j) ∧ l.angles[j]? = some (o.angleAt axis n j)) ∧
      o.mean = s.mean ∧ o.nan = 0 :=
  C68_strips_agree_located_partial _ _ _ _ (stereoOf_lines conv N rl rr ql qr hl hr el hel off) t left right hlr hw angles ha spacing axis hx
    size hsize step s hpy hnan

/-! ### C80 -/

theorem groundBy_of_direct {N : ℕ} {r : Rpc K} {q : RatCoefs K} (hq : r.inverse = some q) {el : CppElevation K}
    {p : Option K × Option K} {lon lat alt : K}
    (h : directScalar N r el p.1 p.2 = .ok ⟨some lon, some lat, some alt⟩) (hv : ValidLonLat lon lat) :
    groundBy N r q el p = ⟨some lon, some lat, some alt⟩ := by
  cases el with
  | value h' =>
    simp only [directScalar, directHScalar, hq, Except.ok.injEq] at h
    simp only [groundBy, h, checkRow_valid hv]
  | dtm e d =>
    simp only [directScalar, directDtmScalar] at h
    split_ifs at h with he
    simp only [groundBy, rpcOptimDtmPoint]
    cases hlos : losExtremaCpp r p.1 p.2 (some (d.altMin - 1)) (some (d.altMax + 1)) false with
    | error e => simp only [hlos] at h; cases h
    | ok edges =>
      simp only [hlos] at h ⊢
      cases hc : losDtmO .cpp d N edges with
      | point w =>
        simp only [hc, Except.ok.injEq, V3.mk.injEq, Option.some.injEq] at h
        obtain ⟨rfl, rfl, rfl⟩ := h
        have : ¬ (|w.x| > 180 ∨ |w.y| > 90) := by
          rintro (h' | h')
          · exact absurd hv.1 (not_le.2 h')
          · exact absurd hv.2 (not_le.2 h')
        simp only [checkDtmPoint, if_neg this, DtmPoint.toRow]
      | nan => simp [hc, nanRow] at h
      | uninitialised => simp [hc] at h
      | failure => simp [hc] at h

/-- C80. When `coloc` with two RPCs of the optimised class returns, there is one sensor position per pixel; a position that is located is
the one of the C++ scalar `coloc`; and for a pixel whose C++ ground position has a valid longitude and latitude, ground and sensor
positions are those of the C++ functions. -/
theorem C80_scalar_same (conv : ℕ → ℕ → ORow K → ORow K) (N : ℕ) (r1 r2 : Rpc K) (q1 q2 : RatCoefs K) (h1 : r1.inverse = some q1)
    (h2 : r2.inverse = some q2) (el : CppElevation K) (hel : ∀ e d, el = .dtm e d → e = 4326) (row col : List (Option K))
    (s g : List (ORow K)) (h : coloc conv (rpcOptimGeo conv N r1) (rpcOptimGeo conv N r2) row col el.py none none false = .ok (s, g)) :
    s.length = row.length ∧ ∀ (i : ℕ) (x y : Option K), row[i]? = some x → col[i]? = some y →
      ∃ o go, s[i]? = some o ∧ g[i]? = some go ∧ (Located o → colocScalar N r1 r2 el x y = .ok o ∧ directScalar N r1 el x y = .ok go) ∧
        ∀ lon lat alt, directScalar N r1 el x y = .ok ⟨some lon, some lat, some alt⟩ → ValidLonLat lon lat →
          go = ⟨some lon, some lat, some alt⟩ ∧ colocScalar N r1 r2 el x y = .ok o := by
  obtain ⟨hlen, hd, rc, alt, hi, hs⟩ := coloc_parts h
  rw [coloc_tail h2 hi] at hs
  have hz : (row.zip col).map (fun p => p.1) = row ∧ (row.zip col).map (fun p => p.2) = col :=
    ⟨List.map_fst_zip (by omega), List.map_snd_zip (by omega)⟩
  have hg : g = (row.zip col).map (groundBy N r1 q1 el) := by
    apply direct_groundBy h1 hel (conv := conv)
    rw [hz.1, hz.2]
    exact hd
  subst hg
  rw [List.map_map] at hs
  subst hs
  refine ⟨by simp [hlen], fun i x y hx hy => ?_⟩
  have hzi : (row.zip col)[i]? = some (x, y) := by
    rw [List.getElem?_zip_eq_some]
    exact ⟨hx, hy⟩
  refine ⟨seenBy r2 q2 (groundBy N r1 q1 el (x, y)), groundBy N r1 q1 el (x, y), by simp [hzi], by simp [hzi], fun hloc => ?_, ?_⟩
  · exact ⟨(directScalar_of_seen h1 h2 hel hloc).1, (directScalar_of_seen h1 h2 hel hloc).2.1⟩
  · intro lon lat alt hdir hv
    have hgr := groundBy_of_direct (p := (x, y)) h1 hdir hv
    refine ⟨hgr, ?_⟩
    simp only [colocScalar, hdir, inverseScalar, h2]
    rw [hgr, seenBy, checkRow_valid hv]
    rfl

theorem cppThrow_located {r : Rpc K} {q : RatCoefs K} {p : ORow K} (h : Located (invPointCpp r q p)) :
    invPointCppThrow r q p = .ok (invPointCpp r q p) := by
  rcases p with ⟨_ | x, _ | y, _ | z⟩ <;> try rfl
  simp only [invPointCppThrow]
  rw [if_pos]
  obtain ⟨h1, h2⟩ := h
  simp only [invPointCpp, ratPointCpp, ratOut, fdiv] at h1 h2
  constructor
  · intro h0; simp [h0] at h2
  · intro h0; simp [h0] at h1

theorem inverseVector_get {r : Rpc K} {l out : List (ORow K)} (h : inverseVector r l = .ok out) :
    out.length = l.length ∧ ∀ (i : ℕ) (p : ORow K), l[i]? = some p → ∃ o, out[i]? = some o ∧ inverseScalar r p = .ok o := by
  unfold inverseVector at h
  cases hq : r.inverse with
  | none => simp [hq] at h
  | some q =>
    simp only [hq] at h
    have := mapExcept_eq_map (g := invPointCpp r q) (fun a b hab => cppThrow_value hab) h
    subst this
    refine ⟨by simp, fun i p hp => ⟨invPointCpp r q p, by simp [hp], ?_⟩⟩
    simp [inverseScalar, hq]

theorem inverseVector_ok {r : Rpc K} {l : List (ORow K)} (h0 : l ≠ []) (h : ∀ p ∈ l, ∃ o, inverseScalar r p = .ok o ∧ Located o) :
    ∃ out, inverseVector r l = .ok out := by
  unfold inverseVector
  cases hq : r.inverse with
  | none =>
    obtain ⟨p, hp⟩ := List.exists_mem_of_ne_nil l h0
    obtain ⟨o, ho, -⟩ := h p hp
    simp [inverseScalar, hq] at ho
  | some q =>
    refine ⟨l.map (invPointCpp r q), mapExcept_ok _ _ _ fun p hp => ?_⟩
    obtain ⟨o, ho, hl⟩ := h p hp
    simp only [inverseScalar, hq, Except.ok.injEq] at ho
    subst ho
    exact cppThrow_located hl

theorem zip_getElem? {α β : Type*} {a : List α} {b : List β} {i : ℕ} {x : α} {y : β} (hx : a[i]? = some x) (hy : b[i]? = some y) :
    (a.zip b)[i]? = some (x, y) := by
  rw [List.getElem?_zip_eq_some]
  exact ⟨hx, hy⟩

/-- C80. The vector `coloc` of C++ on a DTM is the scalar one pixel by pixel: the same positions when it returns, and it returns when the
scalar one locates every pixel. -/
theorem C80_vector_dtm (N : ℕ) (r1 r2 : Rpc K) (e : ℕ) (d : Dtm K) (row col : List (Option K)) (hlen : row.length = col.length) :
    (∀ out, colocVector N r1 r2 (.dtm e d) row col = .ok out → out.length = row.length ∧ ∀ (i : ℕ) (x y : Option K), row[i]? = some x →
      col[i]? = some y → ∃ o, out[i]? = some o ∧ colocScalar N r1 r2 (.dtm e d) x y = .ok o) ∧
    (row ≠ [] → (∀ (i : ℕ) (x y : Option K), row[i]? = some x → col[i]? = some y →
        ∃ o, colocScalar N r1 r2 (.dtm e d) x y = .ok o ∧ Located o) →
      ∃ out, colocVector N r1 r2 (.dtm e d) row col = .ok out) := by
  constructor
  · intro out h
    unfold colocVector directVector at h
    simp only at h
    rw [if_pos hlen] at h
    by_cases he : e = 4326
    · rw [if_neg (not_not.2 he)] at h
      cases hm : mapExcept (fun t : Option K × Option K => directDtmScalar N r1 e d t.1 t.2) (row.zip col) with
      | error er => simp only [hm] at h; cases h
      | ok l =>
        simp only [hm] at h
        obtain ⟨k1, k2⟩ := mapExcept_get _ _ _ hm
        obtain ⟨k3, k4⟩ := inverseVector_get h
        refine ⟨by rw [k3, k1]; simp [hlen], fun i x y hx hy => ?_⟩
        obtain ⟨b, hb, hb'⟩ := k2 i (x, y) (zip_getElem? hx hy)
        obtain ⟨o, ho, ho'⟩ := k4 i b hb
        exact ⟨o, ho, by simp only [colocScalar, directScalar, hb', ho']⟩
    · rw [if_pos he] at h; cases h
  · intro h0 h
    have hsc : ∀ t ∈ row.zip col, ∃ p o, directDtmScalar N r1 e d t.1 t.2 = .ok p ∧ inverseScalar r2 p = .ok o ∧ Located o := by
      intro t ht
      obtain ⟨i, hi⟩ := List.getElem?_of_mem ht
      rw [List.getElem?_zip_eq_some] at hi
      obtain ⟨o, ho, hl⟩ := h i t.1 t.2 hi.1 hi.2
      simp only [colocScalar, directScalar] at ho
      cases hd : directDtmScalar N r1 e d t.1 t.2 with
      | error er => simp [hd] at ho
      | ok p => exact ⟨p, o, rfl, by simpa [hd] using ho, hl⟩
    have he : e = 4326 := by
      obtain ⟨t, ht⟩ := List.exists_mem_of_ne_nil (row.zip col) (by
        intro hz
        apply h0
        have := congrArg List.length hz
        rw [List.length_zip, ← hlen, min_self, List.length_nil] at this
        exact List.length_eq_zero_iff.1 this)
      obtain ⟨p, o, hp, -⟩ := hsc t ht
      by_contra he
      simp [directDtmScalar, he] at hp
    have hsc' : ∀ t : Option K × Option K, ∃ po : ORow K × ORow K, t ∈ row.zip col →
        directDtmScalar N r1 e d t.1 t.2 = .ok po.1 ∧ inverseScalar r2 po.1 = .ok po.2 ∧ Located po.2 := by
      intro t
      by_cases ht : t ∈ row.zip col
      · obtain ⟨p, o, k⟩ := hsc t ht
        exact ⟨(p, o), fun _ => k⟩
      · exact ⟨(nanRow, nanRow), fun h => absurd h ht⟩
    choose f hf using hsc'
    have hm := mapExcept_ok (fun t : Option K × Option K => directDtmScalar N r1 e d t.1 t.2) (fun t => (f t).1) (row.zip col) (fun t ht => (hf t ht).1)
    obtain ⟨out, ho⟩ := inverseVector_ok (r := r2) (l := (row.zip col).map fun t => (f t).1)
      (by
        intro hz
        apply h0
        have := congrArg List.length hz
        rw [List.length_map, List.length_zip, ← hlen, min_self, List.length_nil] at this
        exact List.length_eq_zero_iff.1 this)
      (by
        intro p hp
        obtain ⟨t, ht, rfl⟩ := List.mem_map.1 hp
        exact ⟨(f t).2, (hf t ht).2⟩)
    refine ⟨out, ?_⟩
    unfold colocVector directVector
    simp only
    rw [if_pos hlen, if_neg (not_not.2 he), hm]
    exact ho

/-- C80. The vector `coloc` of C++ with one altitude per pixel is the scalar one pixel by pixel. -/
theorem C80_vector_altitudes (N : ℕ) (r1 r2 : Rpc K) (row col h : List (Option K)) (hlen : col.length = row.length)
    (hh : h.length = row.length) :
    (∀ out, colocVector N r1 r2 (.values h) row col = .ok out → out.length = row.length ∧ ∀ (i : ℕ) (x y a : Option K),
      row[i]? = some x → col[i]? = some y → h[i]? = some a →
      ∃ o, out[i]? = some o ∧ colocScalar N r1 r2 (.value a) x y = .ok o) ∧
    (row ≠ [] → (∀ (i : ℕ) (x y a : Option K), row[i]? = some x → col[i]? = some y → h[i]? = some a →
        ∃ o, colocScalar N r1 r2 (.value a) x y = .ok o ∧ Located o) →
      ∃ out, colocVector N r1 r2 (.values h) row col = .ok out) := by
  have hb : broadcastAlt (min row.length col.length) h = .ok h := broadcastAlt_eq (by rw [hlen, min_self, hh])
  constructor
  · intro out hc
    unfold colocVector directVector at hc
    cases hq : r1.inverse with
    | none => simp only [hq] at hc; cases hc
    | some q =>
      simp only [hq, hb] at hc
      obtain ⟨k3, k4⟩ := inverseVector_get hc
      refine ⟨by rw [k3]; simp [hlen, hh], fun i x y a hx hy ha => ?_⟩
      obtain ⟨o, ho, ho'⟩ := k4 i (iterPointCpp r1 q false (x, y, a)) (by
        rw [List.getElem?_map, zip_getElem? hx (zip_getElem? hy ha)]; rfl)
      exact ⟨o, ho, by simp only [colocScalar, directScalar, directHScalar, hq, ho']⟩
  · intro h0 hc
    cases hq : r1.inverse with
    | none =>
      exfalso
      obtain ⟨x, l, rfl⟩ := List.exists_cons_of_ne_nil h0
      have e1 : 0 < col.length := by rw [hlen]; simp
      have e2 : 0 < h.length := by rw [hh]; simp
      obtain ⟨o, ho, -⟩ := hc 0 x col[0] h[0] (by simp) (List.getElem?_eq_getElem e1) (List.getElem?_eq_getElem e2)
      simp [colocScalar, directScalar, directHScalar, hq] at ho
    | some q =>
      obtain ⟨out, ho⟩ := inverseVector_ok (r := r2) (l := (row.zip (col.zip h)).map (iterPointCpp r1 q false))
        (by
          intro hz
          apply h0
          have := congrArg List.length hz
          rw [List.length_map, List.length_zip, List.length_zip, hlen, hh, min_self, min_self, List.length_nil] at this
          exact List.length_eq_zero_iff.1 this)
        (by
          intro p hp
          obtain ⟨t, ht, rfl⟩ := List.mem_map.1 hp
          obtain ⟨i, hi⟩ := List.getElem?_of_mem ht
          rw [List.getElem?_zip_eq_some, List.getElem?_zip_eq_some] at hi
          obtain ⟨o, ho, hl⟩ := hc i t.1 t.2.1 t.2.2 hi.1 hi.2.1 hi.2.2
          simp only [colocScalar, directScalar, directHScalar, hq] at ho
          exact ⟨o, ho, hl⟩)
      refine ⟨out, ?_⟩
      unfold colocVector directVector
      simp only [hq, hb]
      exact ho

/-! ### Cases -/

/-- The demonstration RPC moved to the antimeridian. -/
def antimeridianRpc : Rpc ℚ := { demoRpc with offX := 180 }

/-- A second view: the column moves with the altitude in the other direction. -/
def demoRight : Rpc ℚ := { demoRpc with inverse := some { demoCoefs with numA := fun i => if i = 3 then -demoCoefs.numA 3 else demoCoefs.numA i } }

/-- The hypotheses of `C80_scalar_same` are met by located pixels, on a DTM and at an altitude. -/
example : ∃ s g, coloc noConv (rpcOptimGeo noConv 50 demoRpc) (rpcOptimGeo noConv 50 demoRight) [some 300, some 450] [some 500, some 1000]
    (CppElevation.dtm 4326 slopeDtm).py none none false = .ok (s, g) ∧ s.length = 2 ∧ ∀ o ∈ s, Located o := by
  refine ⟨(match coloc noConv (rpcOptimGeo noConv 50 demoRpc) (rpcOptimGeo noConv 50 demoRight) [some 300, some 450]
    [some 500, some 1000] (CppElevation.dtm 4326 slopeDtm).py none none false with | .ok a => a.1 | .error _ => []),
    (match coloc noConv (rpcOptimGeo noConv 50 demoRpc) (rpcOptimGeo noConv 50 demoRight) [some 300, some 450]
    [some 500, some 1000] (CppElevation.dtm 4326 slopeDtm).py none none false with | .ok a => a.2 | .error _ => []), ?_, ?_, ?_⟩
  · decide +kernel
  · decide +kernel
  · unfold Located; decide +kernel

/-- C80. Across the antimeridian the C++ function locates a pixel for which `coloc` returns NaN: the ground position has a longitude
greater than 180 degrees. -/
theorem C80_antimeridian_counterexample :
    coloc noConv (rpcOptimGeo noConv 50 antimeridianRpc) (rpcOptimGeo noConv 50 antimeridianRpc) [some 450] [some 1000]
      (CppElevation.value (some 100)).py none none false = .ok ([nanRow], [nanRow]) ∧
    colocScalar 50 antimeridianRpc antimeridianRpc (.value (some 100)) (some 450) (some 1000) = .ok ⟨some 450, some 1000, some 100⟩ := by
  decide +kernel

/-- The hypotheses of `C68_rpc_strips_agree_partial` are met, by a strip of three layers of two points. -/
example : ∃ s, stripOfEpipolarGrid toyTrig (stereoOf noConv (rpcOptimGeo noConv 50 demoRpc) (rpcOptimGeo noConv 50 demoRight)
      (CppElevation.value (some 100)).py) [pos3 300 500 0, pos3 330 500 0] [pos3 300 500 0, pos3 330 500 0] 1 1 3 30 50
      (some [some 0, some 0]) none = .ok s ∧ s.nanCount = 0 ∧ s.layers.length = 3 := by
  refine ⟨(match stripOfEpipolarGrid toyTrig (stereoOf noConv (rpcOptimGeo noConv 50 demoRpc) (rpcOptimGeo noConv 50 demoRight)
      (CppElevation.value (some 100)).py) [pos3 300 500 0, pos3 330 500 0] [pos3 300 500 0, pos3 330 500 0] 1 1 3 30 50
      (some [some 0, some 0]) none with
    | .ok g => g
    | .error _ => ⟨[], none, 0⟩), ?_, ?_, ?_⟩ <;> decide +kernel

end Shareloc
