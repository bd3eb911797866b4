import Verif.Props.DirectDtmExamples

/-!
# C67: altitudes of the lines of sight when the DTM is in another system
-/

namespace Shareloc
open Spec
set_option linter.unusedSectionVars false

variable {K : Type*} [Field K] [LinearOrder K] [IsStrictOrderedRing K] [FloorRing K]

theorem foldl_omin_none (l : List (Option K)) : l.foldl omin none = none := by
  induction l with
  | nil => rfl
  | cons a l ih => simpa [omin, olift2] using ih

theorem foldl_omax_none (l : List (Option K)) : l.foldl omax none = none := by
  induction l with
  | nil => rfl
  | cons a l ih => simpa [omax, olift2] using ih

theorem foldl_omin (l : List (Option K)) (a m : K) (h : l.foldl omin (some a) = some m) :
    m ≤ a ∧ (∀ o ∈ l, ∃ v, o = some v ∧ m ≤ v) ∧ (m = a ∨ some m ∈ l) := by
  induction l generalizing a with
  | nil =>
    simp only [List.foldl_nil, Option.some.injEq] at h
    subst h
    exact ⟨le_rfl, by simp, .inl rfl⟩
  | cons o l ih =>
    cases o with
    | none =>
      rw [List.foldl_cons, show omin (some a) none = none from rfl, foldl_omin_none] at h
      cases h
    | some v =>
      rw [List.foldl_cons, show omin (some a) (some v) = some (min a v) from rfl] at h
      obtain ⟨h1, h2, h3⟩ := ih (min a v) h
      refine ⟨h1.trans (min_le_left _ _), ?_, ?_⟩
      · intro o ho
        rcases List.mem_cons.1 ho with rfl | ho
        · exact ⟨v, rfl, h1.trans (min_le_right _ _)⟩
        · exact h2 o ho
      · rcases h3 with h3 | h3
        · rcases min_choice a v with e | e
          · left; rw [h3, e]
          · right; rw [h3, e]; simp
        · right; simp [h3]

theorem foldl_omax (l : List (Option K)) (a m : K) (h : l.foldl omax (some a) = some m) :
    a ≤ m ∧ (∀ o ∈ l, ∃ v, o = some v ∧ v ≤ m) ∧ (m = a ∨ some m ∈ l) := by
  induction l generalizing a with
  | nil =>
    simp only [List.foldl_nil, Option.some.injEq] at h
    subst h
    exact ⟨le_rfl, by simp, .inl rfl⟩
  | cons o l ih =>
    cases o with
    | none =>
      rw [List.foldl_cons, show omax (some a) none = none from rfl, foldl_omax_none] at h
      cases h
    | some v =>
      rw [List.foldl_cons, show omax (some a) (some v) = some (max a v) from rfl] at h
      obtain ⟨h1, h2, h3⟩ := ih (max a v) h
      refine ⟨(le_max_left _ _).trans h1, ?_, ?_⟩
      · intro o ho
        rcases List.mem_cons.1 ho with rfl | ho
        · exact ⟨v, rfl, (le_max_right _ _).trans h1⟩
        · exact h2 o ho
      · rcases h3 with h3 | h3
        · rcases max_choice a v with e | e
          · left; rw [h3, e]
          · right; rw [h3, e]; simp
        · right; simp [h3]

theorem olistMin_spec (l : List (Option K)) (m : K) (h : olistMin l = some m) :
    (∀ o ∈ l, ∃ v, o = some v ∧ m ≤ v) ∧ some m ∈ l := by
  cases l with
  | nil => cases h
  | cons o l =>
    cases o with
    | none => rw [olistMin, foldl_omin_none] at h; cases h
    | some a =>
      obtain ⟨h1, h2, h3⟩ := foldl_omin l a m h
      refine ⟨?_, ?_⟩
      · intro o ho
        rcases List.mem_cons.1 ho with rfl | ho
        · exact ⟨a, rfl, h1⟩
        · exact h2 o ho
      · rcases h3 with rfl | h3
        · simp
        · simp [h3]

theorem olistMax_spec (l : List (Option K)) (m : K) (h : olistMax l = some m) :
    (∀ o ∈ l, ∃ v, o = some v ∧ v ≤ m) ∧ some m ∈ l := by
  cases l with
  | nil => cases h
  | cons o l =>
    cases o with
    | none => rw [olistMax, foldl_omax_none] at h; cases h
    | some a =>
      obtain ⟨h1, h2, h3⟩ := foldl_omax l a m h
      refine ⟨?_, ?_⟩
      · intro o ho
        rcases List.mem_cons.1 ho with rfl | ho
        · exact ⟨a, rfl, h1⟩
        · exact h2 o ho
      · rcases h3 with rfl | h3
        · simp
        · simp [h3]

theorem foldl_omin_some (l : List (Option K)) (a : K) (h : ∀ o ∈ l, o ≠ none) : ∃ m, l.foldl omin (some a) = some m := by
  induction l generalizing a with
  | nil => exact ⟨a, rfl⟩
  | cons o l ih =>
    cases o with
    | none => exact absurd rfl (h none (by simp))
    | some v => exact ih (min a v) fun o ho => h o (by simp [ho])

theorem foldl_omax_some (l : List (Option K)) (a : K) (h : ∀ o ∈ l, o ≠ none) : ∃ m, l.foldl omax (some a) = some m := by
  induction l generalizing a with
  | nil => exact ⟨a, rfl⟩
  | cons o l ih =>
    cases o with
    | none => exact absurd rfl (h none (by simp))
    | some v => exact ih (max a v) fun o ho => h o (by simp [ho])

/-- Specification: `p` is one of the four outer corners of the footprint of the DTM, in its system, at the middle of its range of
altitudes. -/
def OuterCorner (d : Dtm K) (p : ORow K) : Prop :=
  ∃ r c : K, (r = -(1 / 2) ∨ r = d.nbRows - 1 / 2) ∧ (c = -(1 / 2) ∨ c = d.nbCols - 1 / 2) ∧
    p = ⟨some (d.transform.a * (c + 1 / 2) + d.transform.b * (r + 1 / 2) + d.transform.c),
      some (d.transform.d * (c + 1 / 2) + d.transform.e * (r + 1 / 2) + d.transform.f), some ((d.altMin + d.altMax) / 2)⟩

theorem mem_groundCorners (d : Dtm K) (p : ORow K) : p ∈ groundCorners d ↔ OuterCorner d p := by
  have e : ∀ r c : K, (⟨some (indexToPhysical d.transform r c).2, some (indexToPhysical d.transform r c).1,
      some ((d.altMin + d.altMax) / 2)⟩ : ORow K) =
      ⟨some (d.transform.a * (c + 1 / 2) + d.transform.b * (r + 1 / 2) + d.transform.c),
      some (d.transform.d * (c + 1 / 2) + d.transform.e * (r + 1 / 2) + d.transform.f), some ((d.altMin + d.altMax) / 2)⟩ := by
    intro r c
    simp only [indexToPhysical, Affine.apply, mul_comm]
  simp only [groundCorners, footprintCorners, List.map_cons, List.map_nil, List.mem_cons, List.not_mem_nil, or_false, e]
  constructor
  · rintro (h | h | h | h) <;> rw [h]
    · exact ⟨-(1 / 2), -(1 / 2), .inl rfl, .inl rfl, by norm_num⟩
    · exact ⟨-(1 / 2), _, .inl rfl, .inr rfl, by norm_num⟩
    · exact ⟨_, _, .inr rfl, .inr rfl, by norm_num⟩
    · exact ⟨_, -(1 / 2), .inr rfl, .inl rfl, by norm_num⟩
  · rintro ⟨r, c, (rfl | rfl), (rfl | rfl), h⟩ <;> rw [h]
    · left; norm_num
    · right; left; norm_num
    · right; right; right; norm_num
    · right; right; left; norm_num

/-- C67. The bounds of the lines of sight are the extreme altitudes of the DTM, moved by one metre and by the smallest and largest
changes of altitude that the conversion to the system of the model makes at the four outer corners; they exist if and only
if the four corners can be converted. -/
theorem C67_range (conv : ℕ → ℕ → ORow K → ORow K) (eDtm eModel : ℕ) (d : Dtm K) :
    ((∃ b, dtmRange conv eDtm eModel d = some b) ↔ ∀ p, OuterCorner d p → (conv eDtm eModel p).z ≠ none) ∧
    ∀ lo hi, dtmRange conv eDtm eModel d = some (lo, hi) →
      (∀ p, OuterCorner d p → ∃ z, (conv eDtm eModel p).z = some z ∧
        lo ≤ d.altMin - 1 + (z - (d.altMin + d.altMax) / 2) ∧ d.altMax + 1 + (z - (d.altMin + d.altMax) / 2) ≤ hi) ∧
      (∃ p z, OuterCorner d p ∧ (conv eDtm eModel p).z = some z ∧ lo = d.altMin - 1 + (z - (d.altMin + d.altMax) / 2)) ∧
      (∃ p z, OuterCorner d p ∧ (conv eDtm eModel p).z = some z ∧ hi = d.altMax + 1 + (z - (d.altMin + d.altMax) / 2)) := by
  set zs := (groundCorners d).map fun p => (conv eDtm eModel p).z with hzs
  have hmem : ∀ o, o ∈ zs ↔ ∃ p, OuterCorner d p ∧ (conv eDtm eModel p).z = o := by
    intro o
    simp only [hzs, List.mem_map, mem_groundCorners]
  have hdr : dtmRange conv eDtm eModel d = match (olistMin zs).map (fun v => v - (d.altMin + d.altMax) / 2),
      (olistMax zs).map (fun v => v - (d.altMin + d.altMax) / 2) with
      | some a, some b => some (d.altMin - 1 + a, d.altMax + 1 + b)
      | _, _ => none := by
    unfold dtmRange dtmAltOffset
    simp only [← hzs]
    cases olistMin zs <;> cases olistMax zs <;> rfl
  rw [hdr]
  constructor
  · constructor
    · rintro ⟨b, hb⟩ p hp
      cases hm : olistMin zs with
      | none => rw [hm] at hb; simp at hb
      | some m =>
        obtain ⟨v, hv, -⟩ := (olistMin_spec zs m hm).1 _ ((hmem _).2 ⟨p, hp, rfl⟩)
        rw [hv]; simp
    · intro h
      have hne : ∀ o ∈ zs, o ≠ none := by
        intro o ho
        obtain ⟨p, hp, rfl⟩ := (hmem o).1 ho
        exact h p hp
      have hcons : ∃ a l, zs = some a :: l := by
        cases hz : zs with
        | nil => rw [hzs] at hz; simp [groundCorners, footprintCorners] at hz
        | cons o l =>
          cases o with
          | none => exact absurd rfl (hne none (by rw [hz]; simp))
          | some a => exact ⟨a, l, rfl⟩
      obtain ⟨a, l, hal⟩ := hcons
      obtain ⟨m, hm⟩ := foldl_omin_some l a fun o ho => hne o (by rw [hal]; simp [ho])
      obtain ⟨M, hM⟩ := foldl_omax_some l a fun o ho => hne o (by rw [hal]; simp [ho])
      rw [hal]
      simp only [olistMin, olistMax, hm, hM, Option.map_some]
      exact ⟨_, rfl⟩
  · intro lo hi h
    cases hm : olistMin zs with
    | none => rw [hm] at h; simp at h
    | some m =>
      cases hM : olistMax zs with
      | none => rw [hm, hM] at h; simp at h
      | some M =>
        rw [hm, hM] at h
        simp only [Option.map_some, Option.some.injEq, Prod.mk.injEq] at h
        obtain ⟨rfl, rfl⟩ := h
        obtain ⟨a1, a2⟩ := olistMin_spec zs m hm
        obtain ⟨b1, b2⟩ := olistMax_spec zs M hM
        refine ⟨?_, ?_, ?_⟩
        · intro p hp
          obtain ⟨v, hv, hle⟩ := a1 _ ((hmem _).2 ⟨p, hp, rfl⟩)
          obtain ⟨v', hv', hle'⟩ := b1 _ ((hmem _).2 ⟨p, hp, rfl⟩)
          rw [hv] at hv'
          injection hv' with hv'
          subst hv'
          exact ⟨v, hv, by linarith, by linarith⟩
        · obtain ⟨p, hp, hz⟩ := (hmem _).1 a2
          exact ⟨p, m, hp, hz, rfl⟩
        · obtain ⟨p, hp, hz⟩ := (hmem _).1 b2
          exact ⟨p, M, hp, hz, rfl⟩

/-- C67. So the lines of sight, in the system of the model, contain the altitude `z` of every point of the terrain (at the altitude `a` in
the system of the DTM) at which the change of altitude is not more than one metre outside the range of the changes at the
corners.
Missing: terrain where the change of altitude goes further outside (`C67_extremum_inside_counterexample`). -/
theorem C67_range_covers_partial (conv : ℕ → ℕ → ORow K → ORow K) (eDtm eModel : ℕ) (d : Dtm K) (lo hi : K)
    (h : dtmRange conv eDtm eModel d = some (lo, hi)) (a z : K) (ha : d.altMin ≤ a) (ha' : a ≤ d.altMax)
    (hlow : ∃ p z', OuterCorner d p ∧ (conv eDtm eModel p).z = some z' ∧ z' - (d.altMin + d.altMax) / 2 - 1 ≤ z - a)
    (hhigh : ∃ p z', OuterCorner d p ∧ (conv eDtm eModel p).z = some z' ∧ z - a ≤ z' - (d.altMin + d.altMax) / 2 + 1) :
    lo ≤ z ∧ z ≤ hi := by
  obtain ⟨-, h2⟩ := C67_range conv eDtm eModel d
  obtain ⟨h3, -, -⟩ := h2 lo hi h
  obtain ⟨p, z1, hp, e1, l1⟩ := hlow
  obtain ⟨q, z2, hq, e2, l2⟩ := hhigh
  obtain ⟨w1, f1, g1, -⟩ := h3 p hp
  obtain ⟨w2, f2, -, g2⟩ := h3 q hq
  rw [e1] at f1
  rw [e2] at f2
  injection f1 with f1
  injection f2 with f2
  subst f1 f2
  constructor <;> linarith

/-- C67. `RPC.direct_loc_dtm` for a DTM in another system: one result per pixel, in order.  The two points of the line of sight of a
pixel are computed by the model, in its system, at the bounds of `C67_range`, converted from the system of the model to that of the
DTM, and the result is that of the line through the converted points: when these are above and below the DTM it is as in
`DtmAnswer`, in the system of the DTM.  The result is NaN when the first point cannot be computed or converted, and for all pixels when the bounds cannot. -/
theorem C67_line_in_dtm_system (conv : ℕ → ℕ → ORow K → ORow K) (eModel eDtm : ℕ) (hne : eDtm ≠ eModel) (N : ℕ) (r : Rpc K)
    (d : Dtm K) (hr : 2 ≤ d.nbRows) (hc : 2 ≤ d.nbCols)
    (hdet : d.transform.a * d.transform.e - d.transform.b * d.transform.d ≠ 0) (row col : List (Option K))
    (hcol : col.length = row.length) {out : List (DtmPoint K)} (h : rpcDirectDtm conv .py N r eModel eDtm d row col = .ok out) :
    out.length = row.length ∧
    (dtmRange conv eDtm eModel d = none → ∀ p ∈ out, p = .nan) ∧
    ∀ lo hi, dtmRange conv eDtm eModel d = some (lo, hi) →
      ∃ edges, losExtrema r row col (some lo) (some hi) false = .ok edges ∧
      ∀ i < row.length, ∃ top bot p, edges[2 * i]? = some top ∧ edges[2 * i + 1]? = some bot ∧ out[i]? = some p ∧
        (vertex (conv eModel eDtm top) = none → p = .nan) ∧
        ∀ A B, vertex (conv eModel eDtm top) = some A → vertex (conv eModel eDtm bot) = some B →
          d.altMax < A.z → B.z ≤ d.altMin - 1 / 10000 → DtmAnswer d (eDtm = 4326) A B p := by
  unfold rpcDirectDtm at h
  cases hrange : dtmRange conv eDtm eModel d with
  | none =>
    rw [hrange] at h
    simp only at h
    cases hl : losExtrema r row col none none false with
    | error er => rw [hl] at h; cases h
    | ok edges =>
      rw [hl] at h
      simp only [Except.ok.injEq] at h
      obtain ⟨hlen, -⟩ := C26_los_extrema_altitudes r row col _ _ false hcol hl
      obtain ⟨hpl, hpg⟩ := pairs_get row.length (edges.map fun _ => (nanRow : ORow K)) (by simpa using hlen)
      rw [intersectEdges_eq] at h
      refine ⟨by rw [← h, List.length_map, hpl], fun _ p hp => ?_, fun lo hi hcon => by simp at hcon⟩
      rw [← h] at hp
      obtain ⟨l, hl1, rfl⟩ := List.mem_map.1 hp
      obtain ⟨i, hi, rfl⟩ := List.getElem_of_mem hl1
      have hi' : i < row.length := by rw [hpl] at hi; exact hi
      have e := hpg i nanRow nanRow (by rw [List.getElem?_map, List.getElem?_eq_getElem (by omega)]; rfl)
        (by rw [List.getElem?_map, List.getElem?_eq_getElem (by omega)]; rfl)
      rw [List.getElem?_eq_getElem hi] at e
      simp only [Option.some.injEq] at e
      rw [e]
      unfold edgePoint
      rw [losDtmO_nan d N nanRow nanRow (Or.inl rfl) (fun a ha => by simp [vertex_nanRow] at ha)]
      split_ifs <;> rfl
  | some b =>
    obtain ⟨lo, hi⟩ := b
    rw [hrange] at h
    simp only at h
    cases hl : losExtrema r row col (some lo) (some hi) false with
    | error er => rw [hl] at h; cases h
    | ok edges =>
      rw [hl] at h
      simp only [convertEdges, hne, ne_eq, not_false_eq_true, if_true, Except.ok.injEq] at h
      obtain ⟨hlen, hget⟩ := C26_los_extrema_altitudes r row col _ _ false hcol hl
      obtain ⟨hpl, hpg⟩ := pairs_get row.length (edges.map (conv eModel eDtm)) (by simpa using hlen)
      rw [intersectEdges_eq] at h
      refine ⟨by rw [← h, List.length_map, hpl], fun hcon => by simp at hcon, ?_⟩
      intro lo' hi' he
      simp only [Option.some.injEq, Prod.mk.injEq] at he
      obtain ⟨rfl, rfl⟩ := he
      refine ⟨edges, hl, fun i hi => ?_⟩
      obtain ⟨top, bot, h1, h2, -, -⟩ := hget i hi
      refine ⟨top, bot, edgePoint .py N eDtm d [conv eModel eDtm top, conv eModel eDtm bot], h1, h2, ?_, ?_, ?_⟩
      · rw [← h, List.getElem?_map, hpg i (conv eModel eDtm top) (conv eModel eDtm bot) (by rw [List.getElem?_map, h1]; rfl)
          (by rw [List.getElem?_map, h2]; rfl)]
        rfl
      · intro hn
        unfold edgePoint
        rw [losDtmO_nan d N _ _ (Or.inl hn) (fun a ha => by rw [hn] at ha; simp at ha)]
        split_ifs <;> rfl
      · intro A B hA hB hAz hBz
        exact edgePoint_answer N eDtm d hr hc hdet _ _ A B hA hB hAz hBz

/-- A system in which the altitudes are five metres less than those of EPSG 4326 in the middle of the footprint of the DTM, and the
same at its corners, as may be with altitudes above a geoid. -/
def bumpConv : ℕ → ℕ → ORow ℚ → ORow ℚ := fun e e' p =>
  match p with
  | ⟨some x, some y, some z⟩ =>
    let f : ℚ := if 9 < x ∧ x < 13 ∧ 19 < y ∧ y < 22 then 5 else 0
    ⟨some x, some y, some (if e = 5773 ∧ e' = 4326 then z + f else if e = 4326 ∧ e' = 5773 then z - f else z)⟩
  | o => o

/-- C67, limit: when the change of altitude is greater between the corners, the lines of sight may be computed beside the altitudes
of the terrain and no pixel of the middle of the DTM is located.  Here a flat terrain at the altitude 100, that is 105 in the
system of the model, is searched between 99 and 101; the line of the pixel (300, 500) meets it in the footprint, at (9.95, 19.975). -/
theorem C67_extremum_inside_counterexample :
    dtmRange bumpConv 5773 4326 (flatDtm 100) = some (99, 101) ∧
    (bumpConv 5773 4326 ⟨some (995 / 100), some (3995 / 200), some 100⟩).z = some 105 ∧
    rpcDirectDtm bumpConv .py 50 demoRpc 4326 5773 (flatDtm 100) [some 300] [some 500] = .ok [.nan] ∧
    directLocH demoRpc [some 300] [some 500] [some 105] false false =
      .ok [⟨some (995 / 100), some (3995 / 200), some 105⟩] := by
  decide +kernel

/-- A system whose altitudes are lower by 50 metres. -/
def shiftConv : ℕ → ℕ → ORow ℚ → ORow ℚ := fun e e' p =>
  ⟨p.x, p.y, p.z.map fun z => if e = 5773 ∧ e' = 4326 then z + 50 else if e = 4326 ∧ e' = 5773 then z - 50 else z⟩

/-- The hypotheses of `C67_line_in_dtm_system` are met by a pixel located on a terrain at the altitude 100 (150 in the
system of the model): it is seen where the model locates it at 150. -/
example : dtmRange shiftConv 5773 4326 (flatDtm 100) = some (149, 151) ∧
    (∃ x y, rpcDirectDtm shiftConv .py 50 demoRpc 4326 5773 (flatDtm 100) [some 300] [some 500] = .ok [.point ⟨x, y, 100⟩] ∧
      directLocH demoRpc [some 300] [some 500] [some 150] false false = .ok [⟨some x, some y, some 150⟩]) := by
  refine ⟨by decide +kernel, ?_⟩
  refine ⟨(match directLocH demoRpc [some 300] [some 500] [some 150] false false with
    | .ok [⟨some x, _, _⟩] => x | _ => 0), (match directLocH demoRpc [some 300] [some 500] [some 150] false false with
    | .ok [⟨_, some y, _⟩] => y | _ => 0), ?_, ?_⟩ <;> decide +kernel

end Shareloc
