import Verif.Props.March

set_option linter.unusedSectionVars false
/-! C14 for bent lines of sight: how far from the line the reported point can be. -/

namespace Shareloc
open Spec
variable {K : Type*} [Field K] [LinearOrder K] [IsStrictOrderedRing K] [FloorRing K]

/-- Points found on one segment entered at or above the terrain: in the last cell visited, which the segment has not left before
its end. -/
theorem marchCells_found_cell (d : Dtm K) (N : ℕ) (v0 v1 : V3 K)
    (hdir : v1.x - v0.x ≠ 0 ∨ v1.y - v0.y ≠ 0) :
    ∀ (n : ℕ) (s : March K) (α : K), CellInv v0 (segDir v0 v1) s α → s.p2 = lerp v0 v1 α → s.a2 = α →
      (α < 1 → 0 ≤ height d.interpolate v0 v1 α) →
      ∀ p, marchCells d N v0 v1 n s = .inl (.found p) →
        ∃ t i j, α ≤ t ∧ p = lerp v0 v1 t ∧ IsCell d.nbRows d.nbCols i j ∧ InCell i j p.x p.y ∧ (t ≤ 1 ∨ InCell i j v1.x v1.y) := by
  intro n
  induction n with
  | zero => intro s α _ _ _ _ p h; simp [marchCells] at h
  | succ n ih =>
    intro s α hinv hp ha hd p h
    rw [marchCells_succ] at h
    have st := cellExit_spec v0 (segDir v0 v1) s α hinv hdir
    set s' := cellExit v0 (segDir v0 v1) s with hs'
    split_ifs at h with h1 h2
    · obtain ⟨hlt, hcell⟩ := (marchInside_iff d s).mp h1
      rw [ha] at hlt
      have hd := hd hlt
      injection h with h
      have hprod := h2.2
      rw [hp, st.p2_eq] at hprod h
      rcases falsi_call_cases d.interpolate v0 v1 N α s'.a2 st.lt.le hd hprod with ⟨t, t0, t1, ht⟩ | ht | ⟨_, _, ht⟩
      · rw [ht] at h
        injection h with h
        subst h
        have i0 : InCell s.colC s.rowC (lerp v0 v1 α).x (lerp v0 v1 α).y := by rw [← hp]; exact hinv.inCell
        have i1 : InCell s.colC s.rowC (lerp v0 v1 s'.a2).x (lerp v0 v1 s'.a2).y := by rw [← st.p2_eq]; exact st.inCell
        refine ⟨t, _, _, t0, rfl, hcell, inCell_between v0 v1 _ _ t0 t1 i0 i1, ?_⟩
        rcases le_or_gt t 1 with h' | h'
        · exact .inl h'
        · refine .inr ?_
          have := inCell_between v0 v1 _ _ hlt.le (h'.le.trans t1) i0 i1
          rwa [lerp_one] at this
      · rw [ht] at h; exact absurd h (by simp)
      · rw [ht] at h; exact absurd h (by simp)
    · obtain ⟨hlt, hcell⟩ := (marchInside_iff d s).mp h1
      rw [ha] at hlt
      have hd := hd hlt
      obtain ⟨t, i, j, t0, ht⟩ := ih s' s'.a2 st.inv st.p2_eq rfl (by
        intro hlt'
        by_cases hb : bIntersect v0.z v1.z (altMinCellPy d.alt s.colC s.rowC)
            (altMaxCellPy d.alt s.colC s.rowC) s.p2.z s'.p2.z = true
        · have hprod : ¬ height d.interpolate v0 v1 α * height d.interpolate v0 v1 s'.a2 ≤ 0 := by
            intro hc
            apply h2
            refine ⟨hb, ?_⟩
            rw [hp, st.p2_eq]
            exact hc
          by_contra hc
          exact hprod (mul_nonpos_of_nonneg_of_nonpos hd (not_le.mp hc).le)
        · exact (height_pos_of_skip d v0 v1 s s' α hcell hinv st hp hd (by simpa using hb) s'.a2 st.lt.le
            (le_refl _) hlt'.le).le) p h
      exact ⟨t, i, j, st.lt.le.trans t0, ht⟩

/-- What is proved of a point found along the segment from `a` to `b`: on the segment, or on its extension in the cell of the DTM
that contains `b`. -/
def OnSegmentOrCell (d : Dtm K) (a b p : V3 K) : Prop :=
  ∃ t i j, 0 ≤ t ∧ p = lerp a b t ∧ IsCell d.nbRows d.nbCols i j ∧ InCell i j p.x p.y ∧ (t ≤ 1 ∨ InCell i j b.x b.y)

theorem marchPlanes_found_cell (d : Dtm K) (N : ℕ) (los : List (V3 K))
    (hnv : ∀ (i : ℕ) a b, los[i]? = some a → los[i + 1]? = some b → a.x ≠ b.x ∨ a.y ≠ b.y) (e : ℕ) :
    ∀ (n : ℕ) (i0 : ℕ) (p2 : V3 K) (hp2 : K),
      (∀ a b, los[i0]? = some a → los[i0 + 1]? = some b →
        ∃ α, 0 ≤ α ∧ α < 1 ∧ p2 = lerp a b α ∧ (i0 = e → d.interpolate p2.x p2.y ≤ p2.z) ∧ (i0 ≠ e → α = 0)) → e ≤ i0 →
      ∀ p, marchPlanes .py d N los n i0 p2 hp2 = .found p →
      ∃ (i : ℕ) (a b : V3 K), e ≤ i ∧ los[i]? = some a ∧ los[i + 1]? = some b ∧
        (i = e ∨ d.interpolate a.x a.y ≤ a.z → OnSegmentOrCell d a b p) := by
  intro n
  induction n with
  | zero => intro i0 p2 hp2 _ _ p h; simp [marchPlanes] at h
  | succ n ih =>
    intro i0 p2 hp2 hon he p h
    rw [marchPlanes_succ] at h
    by_cases hi : (i0 : ℤ) < (los.length : ℤ) - 1
    swap
    · rw [if_neg hi] at h; exact absurd h (by simp)
    rw [if_pos hi] at h
    have ga := getElem_pyGet los i0 (by omega)
    have gb := getElem_pyGet los (i0 + 1) (by omega)
    push_cast at gb
    have hnv' := hnv i0 _ _ ga gb
    have hdir : (pyGet los ((i0 : ℤ) + 1)).x - (pyGet los (i0 : ℤ)).x ≠ 0 ∨
        (pyGet los ((i0 : ℤ) + 1)).y - (pyGet los (i0 : ℤ)).y ≠ 0 := by
      rcases hnv' with h' | h'
      · exact .inl fun e => h' (by linarith)
      · exact .inr fun e => h' (by linarith)
    rw [if_neg (by rintro ⟨e1, e2⟩; rcases hdir with h' | h'; exact h' e1; exact h' e2)] at h
    obtain ⟨α, α0, α1, hα, hent, ha2⟩ := hon _ _ ga gb
    have hlt := a2_start_lt (hp2 - (i0 : K))
    push_cast at h
    generalize (if hp2 - (i0 : K) ≥ 1 then 0 else hp2 - (i0 : K)) = a2 at h hlt
    split_ifs at h with h4
    have h4' : marchInside d ⟨p2, startCell .py p2.x ((pyGet los ((i0 : ℤ) + 1)).x - (pyGet los (i0 : ℤ)).x),
        startCell .py p2.y ((pyGet los ((i0 : ℤ) + 1)).y - (pyGet los (i0 : ℤ)).y), a2⟩ = true := by
      simpa using h4
    split at h
    · rename_i o ho
      rw [h] at ho
      refine ⟨i0, _, _, he, ga, gb, fun hab => ?_⟩
      rw [show cellFuel d = d.nbRows * d.nbCols + d.nbRows + d.nbCols + 1 from rfl,
        marchCells_a2 d N _ _ p2 _ _ a2 α hlt α1 _ h4'] at ho
      obtain ⟨t, i, j, t0, ht⟩ := marchCells_found_cell d N _ _ hdir _ _ α
        (start_inv _ _ p2 α α (by rw [hα]) (by rw [hα])) hα rfl (by
          intro _
          have : d.interpolate p2.x p2.y ≤ p2.z := by
            by_cases hie : i0 = e
            · exact hent hie
            · rw [hα, ha2 hie, lerp_zero]; exact hab.resolve_left hie
          rw [hα] at this
          exact sub_nonneg.mpr this) p ho
      exact ⟨t, i, j, α0.trans t0, ht⟩
    · split_ifs at h with h5
      refine ih (i0 + 1) (pyGet los ((i0 : ℤ) + 1)) _ ?_ (by omega) p (by exact_mod_cast h)
      intro a' b' ha' hb'
      rw [gb] at ha'
      injection ha' with ha'
      exact ⟨0, le_rfl, one_pos, by rw [lerp_zero]; exact ha', fun e' => by omega, fun _ => rfl⟩

/-- C14 for bent lines of sight (Python, no vertical segment, first vertex on no face plane of the box): a reported point is within
the tolerance of the terrain and was found along a segment of the line of sight; if the first vertex of this segment is not under
the terrain, or the line enters the box along it, then the point is over the DTM and on the line of sight, or it is on the extension
of the segment, less than one row and one column away from the vertex that ends it.  Missing: the point may be off the line
(`C14_bent_line_off_line`). -/
theorem C14_bent_line_partial (d : Dtm K) (N : ℕ) (los : List (V3 K)) (c : Crossing K)
    (hcube : cubeOfIndex .py d los = .ok (some c)) (hoff : FirstOffPlanes d los)
    (hnv : ∀ (i : ℕ) a b, los[i]? = some a → los[i + 1]? = some b → a.x ≠ b.x ∨ a.y ≠ b.y)
    (p : V3 K) (hf : intersectionIdx .py d N los c.p c.h = .found p) :
    |d.interpolate p.x p.y - p.z| ≤ 1 / 10000 ∧
    ∃ (i : ℕ) (a b : V3 K), los[i]? = some a ∧ los[i + 1]? = some b ∧ c.h < i + 1 ∧
      (d.interpolate a.x a.y ≤ a.z ∨ (i : K) ≤ c.h →
        InFootprint d.nbRows d.nbCols p ∧
        ((∃ h, OnPolyline los h p) ∨ ∃ t, 1 < t ∧ p = lerp a b t ∧ |p.x - b.x| ≤ 1 ∧ |p.y - b.y| ≤ 1)) := by
  refine ⟨C14_altitude_within_tolerance .py d N _ _ _ p hf, ?_⟩
  rcases (cubeOfIndex_entry .py d los c hcube).2 with hon | ⟨_, _, h2, k, hk⟩
  swap
  · exact absurd hk (hoff _ h2 k)
  obtain ⟨i, a, b, t, ha, hb, t0, t1, hh, hp⟩ := hon
  unfold intersectionIdx at hf
  split_ifs at hf with hneg
  -- the segment of the entry
  have hentry : ∃ e : ℕ, ⌊c.h⌋ = (e : ℤ) ∧ ∀ a b, los[e]? = some a → los[e + 1]? = some b →
      ∃ α, 0 ≤ α ∧ α < 1 ∧ c.p = lerp a b α ∧ (e = e → d.interpolate c.p.x c.p.y ≤ c.p.z) ∧ (e ≠ e → α = 0) := by
    rcases eq_or_lt_of_le t1 with rfl | t1
    · refine ⟨i + 1, ?_, ?_⟩
      · rw [Int.floor_eq_iff, hh]; push_cast; constructor <;> linarith
      · intro a' b' ha' _
        rw [hb] at ha'
        injection ha' with ha'
        exact ⟨0, le_rfl, one_pos, by rw [hp, lerp_zero, lerp_one, ha'], fun _ => by linarith, fun h => absurd rfl h⟩
    · refine ⟨i, ?_, ?_⟩
      · rw [Int.floor_eq_iff, hh]; push_cast; constructor <;> linarith
      · intro a' b' ha' hb'
        rw [ha] at ha'
        rw [hb] at hb'
        injection ha' with ha'
        injection hb' with hb'
        exact ⟨t, t0, t1, by rw [hp, ha', hb'], fun _ => by linarith, fun h => absurd rfl h⟩
  obtain ⟨e, hfl, hstart⟩ := hentry
  rw [hfl] at hf
  obtain ⟨j, a', b', hej, ga, gb, hres⟩ := marchPlanes_found_cell d N los hnv e _ e c.p c.h hstart le_rfl p hf
  have hfl' := Int.floor_eq_iff.mp hfl
  push_cast at hfl'
  have hej' : (e : K) ≤ j := by exact_mod_cast hej
  refine ⟨j, a', b', ga, gb, by linarith [hfl'.2], fun hab => ?_⟩
  have hab' : j = e ∨ d.interpolate a'.x a'.y ≤ a'.z := by
    rcases hab with h | h
    · exact .inr h
    · left
      have : (j : K) < e + 1 := lt_of_le_of_lt h hfl'.2
      have : j < e + 1 := by exact_mod_cast this
      omega
  obtain ⟨u, k, l, u0, hpu, hcell, hin, hend⟩ := hres hab'
  refine ⟨inCell_footprint hcell hin, ?_⟩
  rcases le_or_gt u 1 with hu | hu
  · exact .inl ⟨j + u, j, a', b', u, ga, gb, u0, hu, rfl, hpu⟩
  · right
    have hb' := hend.resolve_left (not_le.mpr hu)
    obtain ⟨x0, x1, y0, y1⟩ := hin
    obtain ⟨v0, v1, w0, w1⟩ := hb'
    refine ⟨u, hu, hpu, abs_le.mpr ⟨?_, ?_⟩, abs_le.mpr ⟨?_, ?_⟩⟩ <;> linarith

/-- The bent line of `C14_bent_line_off_line` meets the hypotheses of `C14_bent_line_partial`: the second alternative occurs. -/
example : FirstOffPlanes rampDtm [⟨1/2, 1/2, 40⟩, ⟨5/4, 1/2, 14⟩, ⟨5/4, 3/2, -4⟩] ∧
    (∀ (i : ℕ) (a b : V3 ℚ), ([⟨1/2, 1/2, 40⟩, ⟨5/4, 1/2, 14⟩, ⟨5/4, 3/2, -4⟩] : List (V3 ℚ))[i]? = some a →
      ([⟨1/2, 1/2, 40⟩, ⟨5/4, 1/2, 14⟩, ⟨5/4, 3/2, -4⟩] : List (V3 ℚ))[i + 1]? = some b → a.x ≠ b.x ∨ a.y ≠ b.y) ∧
    rampDtm.interpolate (1/2) (1/2) ≤ 40 ∧ |(86/67 : ℚ) - 5/4| ≤ 1 := by
  have hmin : rampDtm.altMin = 0 := by decide +kernel
  have hmax : rampDtm.altMax = 20 := by decide +kernel
  have hr : (rampDtm.nbRows : ℚ) = 3 := by decide +kernel
  have hc : (rampDtm.nbCols : ℚ) = 3 := by decide +kernel
  refine ⟨?_, ?_, by decide +kernel, by decide +kernel⟩
  · intro v hv k
    simp only [List.head?_cons, Option.some.injEq] at hv
    subst hv
    fin_cases k <;> simp only [OnFacePlane, hmin, hmax, hr, hc] <;> norm_num
  · intro i a b ha hb
    match i with
    | 0 => simp at ha hb; left; rw [← ha, ← hb]; norm_num
    | 1 => simp at ha hb; right; rw [← ha, ← hb]; norm_num
    | n + 2 => simp at hb

end Shareloc
