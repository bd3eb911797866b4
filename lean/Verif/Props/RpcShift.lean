import Verif.Model.RpcIo

/-!
# C50, first part: what a change of the row and column offsets does to a model
-/

set_option linter.unusedSectionVars false

namespace Shareloc
variable {K : Type*} [Field K] [LinearOrder K] [IsStrictOrderedRing K]

/-- The same model with other row and column offsets. -/
def Rpc.shift (r : Rpc K) (d : K) : Rpc K := { r with offCol := r.offCol + d, offRow := r.offRow + d }

/-- An image position moved by `d` in row and column. -/
def moveRow (d : K) (p : ORow K) : ORow K := ⟨p.x.map fun v => v + d, p.y.map fun v => v + d, p.z⟩

theorem ratOut_shift (num den sc off d : K) : ratOut num den sc (off + d) = (ratOut num den sc off).map fun v => v + d := by
  simp only [ratOut, fdiv]
  by_cases h : den = 0 <;> simp [h, add_assoc]

theorem invPointPy_shift (r : Rpc K) (q : RatCoefs K) (d : K) (p : ORow K) :
    invPointPy (r.shift d) q p = moveRow d (invPointPy r q p) := by
  unfold invPointPy
  split
  · simp only [ratPointPy, Rpc.shift, moveRow, ratOut_shift]
  · simp [moveRow, nanRow]

/-- C50. Adding `d` to the offsets adds `d` to the rows and columns of every inverse location. -/
theorem C50_shift_inverse (r : Rpc K) (d : K) (lon lat alt : List (Option K)) (out : List (ORow K))
    (h : inverseLocPy r lon lat alt = .ok (.rows out)) :
    inverseLocPy (r.shift d) lon lat alt = .ok (.rows (out.map (moveRow d))) := by
  unfold inverseLocPy at h ⊢
  change (match r.inverse with | none => _ | some q => _) = _
  cases hq : r.inverse with
  | none => rw [hq] at h; simp at h
  | some q =>
    rw [hq] at h
    simp only at h ⊢
    cases ha : broadcastAlt lon.length alt with
    | error e => rw [ha] at h; simp at h
    | ok alt' =>
      rw [ha] at h
      simp only at h ⊢
      cases hs : stack3 lon lat alt' with
      | error e => rw [hs] at h; simp at h
      | ok rows =>
        rw [hs] at h
        simp only [Except.ok.injEq, InvResult.rows.injEq] at h ⊢
        rw [← h, List.map_map]
        apply List.map_congr_left
        intro p _
        exact invPointPy_shift r q d p

/-- An image point moved. -/
def movePt (d : K) (p : ImgPt K) : ImgPt K := ⟨p.row + d, p.col + d, p.alt⟩

theorem osub_shift (a d : K) (o : Option K) : osub (a + d) (o.map fun v => v + d) = osub a o := by
  cases o <;> simp [osub]

theorem newtonStep_shift (r : Rpc K) (q : RatCoefs K) (d : K) (p : ImgPt K) (s : Newton K) :
    newtonStep (invPointPy (r.shift d) q) (derivOptPy (r.shift d) q) (movePt d p) s =
      newtonStep (invPointPy r q) (derivOptPy r q) p s := by
  have hd : derivOptPy (r.shift d) q = derivOptPy r q := rfl
  simp only [newtonStep, hd, movePt, invPointPy_shift, moveRow, osub_shift]

theorem loopPy_shift (r : Rpc K) (q : RatCoefs K) (d : K) (n : ℕ) (l : List (ImgPt K × Newton K)) :
    (loopPy (r.shift d) q n (l.map fun t => (movePt d t.1, t.2))).1 = (loopPy r q n l).1.map fun t => (movePt d t.1, t.2) := by
  induction n generalizing l with
  | zero => simp [loopPy]
  | succ n ih =>
    have hb : batchContinues (l.map fun t => (movePt d t.1, t.2)) = batchContinues l := by
      simp only [batchContinues, List.map_map]; rfl
    simp only [loopPy, hb]
    by_cases h : batchContinues l = true
    · simp only [h, if_true]
      rw [← ih]
      congr 2
      simp only [List.map_map]
      apply List.map_congr_left
      intro t _
      simp only [Function.comp_apply, stepPy, newtonStep_shift]
    · simp only [h]; simp

theorem iterPy_shift (r : Rpc K) (q : RatCoefs K) (d : K) (n : ℕ) (pts : List (ImgPt K)) :
    (iterPy (r.shift d) q n (pts.map (movePt d))).1 = (iterPy r q n pts).1.map fun t => (movePt d t.1, t.2) := by
  unfold iterPy
  rw [← loopPy_shift]
  congr 2
  cases pts with
  | nil => rfl
  | cons p ps =>
    simp only [startPy, List.map_cons, List.map_map]
    have e : ∀ p' : ImgPt K, (⟨some (r.shift d).offX, some (r.shift d).offY,
        osub (movePt d p').col (invPointPy (r.shift d) q ⟨some (r.shift d).offX, some (r.shift d).offY, (movePt d p).alt⟩).y,
        osub (movePt d p').row (invPointPy (r.shift d) q ⟨some (r.shift d).offX, some (r.shift d).offY, (movePt d p).alt⟩).x⟩ : Newton K) =
        ⟨some r.offX, some r.offY, osub p'.col (invPointPy r q ⟨some r.offX, some r.offY, p.alt⟩).y,
          osub p'.row (invPointPy r q ⟨some r.offX, some r.offY, p.alt⟩).x⟩ := by
      intro p'
      rw [invPointPy_shift]
      simp only [moveRow, movePt, osub_shift]
      rfl
    rw [e p]
    congr 1
    apply List.map_congr_left
    intro p' _
    simp only [Function.comp_apply]
    rw [e p']

theorem validPt_shift (d : K) (row col alt : Option K) :
    validPt (row.map fun v => v + d) (col.map fun v => v + d) alt = (validPt row col alt).map (movePt d) := by
  cases row <;> cases col <;> rfl

theorem scatter_map {α β γ : Type*} (f : α → γ) (fill : β) (ms : List (Option α)) (rs : List β) :
    scatter fill (ms.map fun o => o.map f) rs = scatter fill ms rs := by
  induction ms generalizing rs with
  | nil => rfl
  | cons m ms ih => cases m <;> cases rs <;> simp [scatter, ih]

/-- C50. Adding `d` to the offsets and to the rows and columns changes no direct location, with or without direct
coefficients. -/
theorem C50_shift_direct (r : Rpc K) (d : K) (row col alt : List (Option K)) (fillNan useDirect : Bool) :
    directLocH (r.shift d) (row.map fun o => o.map fun v => v + d) (col.map fun o => o.map fun v => v + d) alt fillNan useDirect =
      directLocH r row col alt fillNan useDirect := by
  unfold directLocH
  simp only [List.length_map]
  cases broadcastAlt col.length alt with
  | error e => rfl
  | ok alt' =>
    simp only
    have hmask : ((row.map fun o => o.map fun v => v + d).zip ((col.map fun o => o.map fun v => v + d).zip alt')).map
        (fun t => validPt t.1 t.2.1 t.2.2) =
        ((row.zip (col.zip alt')).map fun t => validPt t.1 t.2.1 t.2.2).map fun o => o.map (movePt d) := by
      rw [List.map_map]
      have : (row.map fun o => o.map fun v => v + d).zip ((col.map fun o => o.map fun v => v + d).zip alt') =
          (row.zip (col.zip alt')).map fun t => (t.1.map fun v => v + d, t.2.1.map fun v => v + d, t.2.2) := by
        induction row generalizing col alt' with
        | nil => rfl
        | cons a as ih =>
          cases col with
          | nil => rfl
          | cons b bs =>
            cases alt' with
            | nil => rfl
            | cons c cs => simp only [List.map_cons, List.zip_cons_cons, ih]
      rw [this, List.map_map]
      apply List.map_congr_left
      intro t _
      simp only [Function.comp_apply, validPt_shift]
    rw [hmask]
    set mask := (row.zip (col.zip alt')).map fun t => validPt t.1 t.2.1 t.2.2 with hm
    have hpts : (mask.map fun o => o.map (movePt d)).filterMap id = (mask.filterMap id).map (movePt d) := by
      clear hmask hm
      clear_value mask
      induction mask with
      | nil => rfl
      | cons o os ih =>
        cases o with
        | none => simpa only [List.map_cons, Option.map_none, List.filterMap_cons, id_eq] using ih
        | some x => simpa only [List.map_cons, Option.map_some, List.filterMap_cons, id_eq, List.cons.injEq, true_and] using ih
    rw [hpts]
    simp only [scatter_map]
    have e1 : fillLonLat (r.shift d) fillNan = fillLonLat r fillNan := rfl
    have e2 : (r.shift d).inverse = r.inverse := rfl
    have e3 : (r.shift d).direct = r.direct := rfl
    rw [e1, e2, e3]
    by_cases hl : row.length = col.length
    · simp only [hl, if_true]
      cases useDirect with
      | false =>
        cases hq : r.inverse with
        | none => simp
        | some q => simp only [iterPy_shift, List.map_map]; rfl
      | true =>
        cases hq : r.direct with
        | none => cases r.inverse <;> simp
        | some q =>
          simp only [List.map_map]
          congr 6
          funext p
          cases hp : p.alt with
          | none => simp only [Function.comp_apply, movePt, hp]
          | some a => simp only [Function.comp_apply, movePt, hp, Rpc.shift, add_sub_add_right_eq_sub]
    · simp only [hl, if_false]

end Shareloc
