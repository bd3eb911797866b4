import Verif.Props.PipelineDefined

/-!
# C77 on a flat ground: the adaptive grids are the plain ones
-/

set_option linter.unusedSectionVars false

namespace Shareloc
variable {K δ : Type*} [Field K] [LinearOrder K] [IsStrictOrderedRing K] [FloorRing K]

theorem adaptRatio_flat (t : Trig K) (hs : ∀ x, 0 ≤ x → t.sqrt (x * x) = x) (a : Adaptive K) (href : 0 < a.ref) (hmax : 1 ≤ a.maxRatio) (z : K) :
    adaptRatio t a (some z) (some z) = some 1 := by
  have e : ¬ ((1 : K) > a.maxRatio) := not_lt.2 hmax
  simp only [adaptRatio, sub_self, abs_zero, mul_zero, zero_add, hs a.ref href.le, href.ne', false_and, false_or, div_self href.ne', e, if_false,
    sub_self, zero_mul, add_zero]

theorem rescale_one (new cur : ORow K) (hx : cur.x.isSome) (hy : cur.y.isSome) (hz : cur.z.isSome ∨ new.z = cur.z) : rescale (some 1) new cur = new := by
  have f : ∀ n c : Option K, c.isSome ∨ n = c →
      olift2 (fun d r => d + r) (olift2 (fun d r => d / r) (olift2 (fun a b => a - b) n c) (some 1)) c = n := by
    rintro n c h
    cases n with
    | none => simp [olift2]
    | some n =>
      cases c with
      | none => simp at h
      | some c => simp [olift2]
  simp only [rescale, f _ _ (.inl hx), f _ _ (.inl hy), f _ _ hz]

/-- On a flat ground the next node is a full step away, and its right node is the correspondent of its left node. -/
theorem Walk.next_flat (w : Walk K) (hs : ∀ x, 0 ≤ x → w.t.sqrt (x * x) = x) (href : 0 < w.ad.ref) (hmax : 1 ≤ w.ad.maxRatio) (z : K) (p q : ORow K)
    (h1 : (w.fr (p.x, p.y)).2.z = some z) (h2 : (w.fr ((w.full p).x, (w.full p).y)).2.z = some z) (hp1 : p.x.isSome) (hp2 : p.y.isSome)
    (hq1 : q.x.isSome) (hq2 : q.y.isSome) (hq3 : q.z.isSome) :
    w.ratio p = some 1 ∧ w.next (p, q) = (w.full p, (w.fr ((w.full p).x, (w.full p).y)).1) := by
  have hr : w.ratio p = some 1 := by
    unfold Walk.ratio
    rw [h1, h2, adaptRatio_flat w.t hs w.ad href hmax]
  refine ⟨hr, ?_⟩
  unfold Walk.next
  simp only [hr]
  rw [rescale_one (w.full p) p hp1 hp2 (.inr rfl), rescale_one _ q hq1 hq2 (.inl hq3)]

/-- A whole line of full steps. -/
theorem Walk.line_flat (w : Walk K) (hs : ∀ x, 0 ≤ x → w.t.sqrt (x * x) = x) (href : 0 < w.ad.ref) (hmax : 1 ≤ w.ad.maxRatio) (z : K)
    (pos : ℕ → ORow K) (n : ℕ) (hstep : ∀ k, k + 1 < n → pos (k + 1) = w.full (pos k))
    (hflat : ∀ k < n, (w.fr ((pos k).x, (pos k).y)).2.z = some z ∧ (pos k).x.isSome ∧ (pos k).y.isSome ∧
      (w.fr ((pos k).x, (pos k).y)).1.x.isSome ∧ (w.fr ((pos k).x, (pos k).y)).1.y.isSome ∧ (w.fr ((pos k).x, (pos k).y)).1.z.isSome)
    (k : ℕ) (hk : k < n) :
    w.next^[k] (pos 0, (w.fr ((pos 0).x, (pos 0).y)).1) = (pos k, (w.fr ((pos k).x, (pos k).y)).1) ∧
    w.covered (pos 0, (w.fr ((pos 0).x, (pos 0).y)).1) k = some ((k : K) + 1) := by
  induction k with
  | zero => simp [Walk.covered]
  | succ k ih =>
    obtain ⟨i1, i2⟩ := ih (by omega)
    obtain ⟨a1, a2, a3, a4, a5, a6⟩ := hflat k (by omega)
    have b1 := (hflat (k + 1) hk).1
    rw [hstep k hk] at b1
    obtain ⟨r, nx⟩ := w.next_flat hs href hmax z (pos k) _ a1 b1 a2 a3 a4 a5 a6
    refine ⟨?_, ?_⟩
    · rw [Function.iterate_succ_apply', i1, nx, hstep k hk]
    · simp only [Walk.covered, i2, i1, r, olift2, Option.some.injEq]
      push_cast
      ring

theorem gridNode_none {g : List (List (ORow K))} {rows cols i j : ℕ} (h1 : g.length = cols) (h2 : ∀ l ∈ g, l.length = rows)
    (h : ¬ (i < rows ∧ j < cols)) : gridNode g i j = none := by
  unfold gridNode
  cases hj : g[j]? with
  | none => rfl
  | some l =>
    have hl := h2 l (List.mem_of_getElem? hj)
    have hjl : j < cols := by
      by_contra hc
      rw [List.getElem?_eq_none (by omega)] at hj
      cases hj
    simp only [Option.bind_some]
    exact List.getElem?_eq_none (by omega)

/-- C77. On a flat ground (the ground points of all the nodes of the plain grids have the same altitude and all the nodes are defined)
the adaptive step changes nothing: whenever both computations return, the adaptive grids have the sizes of the plain ones and the same
nodes (minus the position in the regular grid, with displacement grids).  `hs`: exact square roots of squares; `hd`: the reference distances
on the ground are not 0. -/
theorem C77_flat_ground (t : Trig K) (hs : ∀ x, 0 ≤ x → t.sqrt (x * x) = x) (conv : ℕ → ℕ → ORow K → ORow K) (left right : Geo K δ)
    (hl : ByPoint left) (hr : ByPoint right) (el : UserElevation K δ) (im : LeftImage K) (epiStep off : K) (hst : 0 ≤ epiStep) (disp : Bool)
    (margin : ℤ) (hmg : 0 ≤ margin) (scale maxRatio : K) (hmax : 1 ≤ maxRatio) (plain res : RectResult K)
    (hplain : stereoRectification t conv left right el.arg im epiStep off false margin none = .ok plain)
    (h : stereoRectification t conv left right el.arg im epiStep off disp margin (some (scale, maxRatio)) = .ok res) (z : K)
    (hflat : ∀ (i j : ℕ) (p q : ORow K), gridNode plain.left i j = some p → gridNode plain.right i j = some q →
      (groundAt (pointH left) (pointDtm left) el p.x p.y).z = some z ∧ p.x.isSome ∧ p.y.isSome ∧ q.x.isSome ∧ q.y.isSome)
    (hd : ∀ (s : ORow K) (axis : ℤ) (d : K), gridNode plain.left 0 0 = some s → axis = 0 ∨ axis = 1 →
      oDist t (conv left.epsg 4978 (pointH left s.x s.y s.z))
        (conv left.epsg 4978 ((fun p : ORow K => pointH left p.x p.y p.z) (movePoint t (meanSpacing im) epiStep axis s
          (angleAt t (colocPoint left right el) (backPoint left right) off s)))) = some d → 0 < d) :
    res.left.length = plain.left.length ∧ res.right.length = plain.right.length ∧
    (∀ i j : ℕ, gridNode res.left i j = (gridNode plain.left i j).map (written disp epiStep i j)) ∧
    (∀ i j : ℕ, gridNode res.right i j = (gridNode plain.right i j).map (written disp epiStep i j)) := by
  obtain ⟨a, P, pos, ha, hP, l1, l2, l3, l4, -, -, hnode, s1, s2, s3, hcol, hrow⟩ :=
    C69_whenever_returned t conv left right hl hr el im epiStep off hst false margin hmg plain hplain
  obtain ⟨a', P', start, d0, d1, rows, cols, down, along, ha', hP', hstart, hd0, hd1, hdown, halong, r1, c1, m1, m2, m3, m4, anode, q1, q2, q3, q4, -, -⟩ :=
    C77_whenever_returned t conv left right hl hr el im epiStep off disp margin scale maxRatio _ rfl res h _ rfl _ rfl
  obtain rfl : a' = a := by rw [ha] at ha'; exact (Option.some.inj ha').symm
  obtain rfl : P' = P := by rw [hP, hP']
  have hplain' := stereoRectification_refined left.refined_completed right.refined_completed t conv el.arg im epiStep off false margin none plain hplain
  obtain ⟨-, hs1, hs2⟩ := angle_of_rectification (stereoOf_points hl.completed hr.completed conv el) hplain'
  obtain ⟨n1, n2⟩ := prepared_sizes (t.cos a') (t.sin a') 0 im (lt_of_le_of_ne (by unfold meanSpacing; positivity) (Ne.symm hs1))
    (lt_of_le_of_ne hst (Ne.symm hs2)) hmg
  rw [← hP] at n1 n2
  obtain ⟨R, hR⟩ := Int.eq_ofNat_of_zero_le (show 0 ≤ P'.gridRows by omega)
  obtain ⟨C, hC⟩ := Int.eq_ofNat_of_zero_le (show 0 ≤ P'.gridCols by omega)
  rw [hR] at n1 l3 l4 hnode hcol hrow q1 q3
  rw [hC] at n2 l1 l2 hnode hrow q2 q4
  have hpos : pos 0 0 = start := by
    rw [hstart]
    cases hp : pos 0 0
    rw [hp] at s1 s2 s3
    simp only at s1 s2 s3
    rw [s1, s2, s3]
  have hgood : ∀ i j : ℕ, i < R → j < C → (colocPoint left right el ((pos i j).x, (pos i j).y)).2.z = some z ∧ (pos i j).x.isSome ∧
      (pos i j).y.isSome ∧ (colocPoint left right el ((pos i j).x, (pos i j).y)).1.x.isSome ∧
      (colocPoint left right el ((pos i j).x, (pos i j).y)).1.y.isSome ∧ (colocPoint left right el ((pos i j).x, (pos i j).y)).1.z.isSome := by
    intro i j hi hj
    obtain ⟨e1, e2⟩ := hnode i j (by omega) (by omega)
    obtain ⟨f1, f2, f3, f4, f5⟩ := hflat i j _ _ e1 e2
    simp only [written, Bool.false_eq_true, if_false] at f1 f2 f3 f4 f5
    refine ⟨f1, f2, f3, f4, f5, ?_⟩
    simp only [colocPoint, seenAt, f1, Option.isSome_some]
  have e00 : gridNode plain.left 0 0 = some start := by
    have := (hnode 0 0 (by omega) (by omega)).1
    rw [hpos] at this
    simpa [written] using this
  have hd0' := hd start 0 d0 e00 (.inl rfl) hd0
  have hd1' := hd start 1 d1 e00 (.inr rfl) hd1
  -- the first column
  have hdownL : ∀ k, k < R → down.next^[k] (start, (colocPoint left right el (start.x, start.y)).1) =
        (pos k 0, (colocPoint left right el ((pos k 0).x, (pos k 0).y)).1) ∧
      down.covered (start, (colocPoint left right el (start.x, start.y)).1) k = some ((k : K) + 1) := by
    intro k hk
    rw [← hpos]
    subst hdown
    exact Walk.line_flat ⟨t, colocPoint left right el, backPoint left right, meanSpacing im, epiStep, off, 0, ⟨d0, scale, maxRatio⟩⟩ hs hd0' hmax z
      (fun i => pos i 0) R (fun i hi => hcol i (by omega)) (fun i hi => hgood i 0 hi (by omega)) k hk
  have halongL : ∀ i k, i < R → k < C → along.next^[k] (pos i 0, (colocPoint left right el ((pos i 0).x, (pos i 0).y)).1) =
        (pos i k, (colocPoint left right el ((pos i k).x, (pos i k).y)).1) ∧
      along.covered (pos i 0, (colocPoint left right el ((pos i 0).x, (pos i 0).y)).1) k = some ((k : K) + 1) := by
    intro i k hi hk
    subst halong
    exact Walk.line_flat ⟨t, colocPoint left right el, backPoint left right, meanSpacing im, epiStep, off, 1, ⟨d1, scale, maxRatio⟩⟩ hs hd1' hmax z
      (fun j => pos i j) C (fun j hj => hrow i j (by omega) (by omega)) (fun j hj => hgood i j hi hj) k hk
  -- the sizes
  have hrows : rows = R := by
    have hle : rows ≤ R := by
      by_contra hc
      obtain ⟨x, x1, x2⟩ := q3 (R - 1) (by omega)
      rw [(hdownL (R - 1) (by omega)).2] at x1
      simp only [Option.some.injEq] at x1
      subst x1
      rw [Nat.cast_sub (by omega)] at x2
      simp at x2
    have := q1 _ (hdownL (rows - 1) (by omega)).2
    rw [Nat.cast_sub r1] at this
    have : (R : K) ≤ rows := by simpa using this
    have : R ≤ rows := by exact_mod_cast this
    omega
  subst hrows
  have hcols : cols = C := by
    have hle : cols ≤ C := by
      by_contra hc
      obtain ⟨i, hi, x, x1, x2⟩ := q4 (C - 1) (by omega)
      rw [(hdownL i hi).1, (halongL i (C - 1) hi (by omega)).2] at x1
      simp only [Option.some.injEq] at x1
      subst x1
      rw [Nat.cast_sub (by omega)] at x2
      simp at x2
    have := q2 0 (by omega) _ (by rw [(hdownL 0 (by omega)).1]; exact (halongL 0 (cols - 1) (by omega) (by omega)).2)
    rw [Nat.cast_sub c1] at this
    have : (C : K) ≤ cols := by simpa using this
    have : C ≤ cols := by exact_mod_cast this
    omega
  subst hcols
  have l3' : ∀ l ∈ plain.left, l.length = rows := fun l hl => by exact_mod_cast l3 l hl
  have l4' : ∀ l ∈ plain.right, l.length = rows := fun l hl => by exact_mod_cast l4 l hl
  have l1' : plain.left.length = cols := by exact_mod_cast l1
  have l2' : plain.right.length = cols := by exact_mod_cast l2
  have nodes : ∀ i j, i < rows → j < cols → gridNode res.left i j = (gridNode plain.left i j).map (written disp epiStep i j) ∧
      gridNode res.right i j = (gridNode plain.right i j).map (written disp epiStep i j) := by
    intro i j hi hj
    obtain ⟨e1, e2⟩ := hnode i j (by omega) (by omega)
    obtain ⟨f1, f2⟩ := anode i j hi hj
    rw [e1, e2, f1, f2]
    simp only [adaptiveNode, (hdownL i hi).1, (halongL i j hi hj).1, Option.map_some]
    simp [written]
  refine ⟨by rw [m1, l1'], by rw [m2, l2'], ?_, ?_⟩
  · intro i j
    by_cases hij : i < rows ∧ j < cols
    · exact (nodes i j hij.1 hij.2).1
    · rw [gridNode_none m1 m3 hij, gridNode_none l1' l3' hij]; rfl
  · intro i j
    by_cases hij : i < rows ∧ j < cols
    · exact (nodes i j hij.1 hij.2).2
    · rw [gridNode_none m2 m4 hij, gridNode_none l2' l4' hij]; rfl

/-- The square roots of `squareTrig` are those of the squares. -/
theorem squareTrig_sqrt (x : ℚ) (hx : 0 ≤ x) : squareTrig.sqrt (x * x) = x := by
  show ((Nat.sqrt (x * x).num.toNat : ℚ) / Nat.sqrt (x * x).den) = x
  obtain ⟨n, hn⟩ := Int.eq_ofNat_of_zero_le (Rat.num_nonneg.2 hx)
  have h1 : (x * x).num.toNat = n * n := by
    rw [Rat.mul_self_num, hn]
    norm_cast
  rw [h1, Rat.mul_self_den, Nat.sqrt_eq, Nat.sqrt_eq]
  conv_rhs => rw [← Rat.num_div_den x, hn]
  rw [Int.cast_natCast]

/-- The plain grids of two RPCs over a flat ground. -/
def flatPlain : RectResult ℚ :=
  ⟨[[pos3 300 500 150, pos3 303 500 150], [pos3 300 503 150, pos3 303 503 150]],
   [[pos3 300 0 150, pos3 303 0 150], [pos3 300 3 150, pos3 303 3 150]], 1, 1, some 10⟩

/-- The hypotheses of `C77_flat_ground` are met by two RPCs, and its conclusion places the nodes of the adaptive displacement grids. -/
example : ∃ res, stereoRectification squareTrig noConv (rpcOptimGeo noConv 50 demoRpc) (rpcOptimGeo noConv 50 demoRight)
      (UserElevation.altitude 150 : UserElevation ℚ (ℕ × Dtm ℚ)).arg centrePixel 3 50 true 0 (some (1, 2)) = .ok res ∧
    gridNode res.right 1 1 = some (written true 3 1 1 (pos3 303 3 150)) := by
  refine ⟨(match stereoRectification squareTrig noConv (rpcOptimGeo noConv 50 demoRpc) (rpcOptimGeo noConv 50 demoRight)
    (UserElevation.altitude 150 : UserElevation ℚ (ℕ × Dtm ℚ)).arg centrePixel 3 50 true 0 (some (1, 2)) with
    | .ok g => g
    | .error _ => ⟨[], [], 0, 0, none⟩), by decide +kernel, ?_⟩
  refine (C77_flat_ground squareTrig squareTrig_sqrt noConv _ _ (C69_optim_rpc_by_point noConv 50 demoRpc) (C69_optim_rpc_by_point noConv 50 demoRight)
    (.altitude 150) centrePixel 3 50 (by norm_num) true 0 le_rfl 1 2 (by norm_num) flatPlain _ (by decide +kernel) (by decide +kernel) 150 ?_ ?_).2.2.2 1 1
  · have key : ∀ i < 2, ∀ j < 2, ∀ p ∈ gridNode flatPlain.left i j, ∀ q ∈ gridNode flatPlain.right i j,
        (groundAt (pointH (rpcOptimGeo noConv 50 demoRpc)) (pointDtm (rpcOptimGeo noConv 50 demoRpc))
          (.altitude 150 : UserElevation ℚ (ℕ × Dtm ℚ)) p.x p.y).z = some 150 ∧
        p.x.isSome ∧ p.y.isSome ∧ q.x.isSome ∧ q.y.isSome := by decide +kernel
    intro i j p q hp hq
    by_cases hi : i < 2
    · by_cases hj : j < 2
      · exact key i hi j hj p hp q hq
      · rcases j with _ | _ | j
        · omega
        · omega
        · simp [gridNode, flatPlain] at hp
    · rcases i with _ | _ | i
      · omega
      · omega
      · rcases j with _ | _ | j <;> simp [gridNode, flatPlain] at hp
  · intro s axis d hs hax hd
    obtain rfl : pos3 300 500 150 = s := by simpa [gridNode, flatPlain] using hs
    rcases hax with rfl | rfl
    · have e : oDist squareTrig (noConv (rpcOptimGeo noConv 50 demoRpc).epsg 4978 (pointH (rpcOptimGeo noConv 50 demoRpc) (pos3 300 500 150).x (pos3 300 500 150).y (pos3 300 500 150).z))
        (noConv (rpcOptimGeo noConv 50 demoRpc).epsg 4978 ((fun p : ORow ℚ => pointH (rpcOptimGeo noConv 50 demoRpc) p.x p.y p.z)
          (movePoint squareTrig (meanSpacing centrePixel) 3 0 (pos3 300 500 150)
            (angleAt squareTrig (colocPoint (rpcOptimGeo noConv 50 demoRpc) (rpcOptimGeo noConv 50 demoRight)
                (UserElevation.altitude 150 : UserElevation ℚ (ℕ × Dtm ℚ)))
              (backPoint (rpcOptimGeo noConv 50 demoRpc) (rpcOptimGeo noConv 50 demoRight)) 50 (pos3 300 500 150))))) = some (1 / 100) := by
        decide +kernel
      rw [e] at hd
      obtain rfl := Option.some.inj hd
      norm_num
    · have e : oDist squareTrig (noConv (rpcOptimGeo noConv 50 demoRpc).epsg 4978 (pointH (rpcOptimGeo noConv 50 demoRpc) (pos3 300 500 150).x (pos3 300 500 150).y (pos3 300 500 150).z))
        (noConv (rpcOptimGeo noConv 50 demoRpc).epsg 4978 ((fun p : ORow ℚ => pointH (rpcOptimGeo noConv 50 demoRpc) p.x p.y p.z)
          (movePoint squareTrig (meanSpacing centrePixel) 3 1 (pos3 300 500 150)
            (angleAt squareTrig (colocPoint (rpcOptimGeo noConv 50 demoRpc) (rpcOptimGeo noConv 50 demoRight)
                (UserElevation.altitude 150 : UserElevation ℚ (ℕ × Dtm ℚ)))
              (backPoint (rpcOptimGeo noConv 50 demoRpc) (rpcOptimGeo noConv 50 demoRight)) 50 (pos3 300 500 150))))) = some (3 / 500) := by
        decide +kernel
      rw [e] at hd
      obtain rfl := Option.some.inj hd
      norm_num

end Shareloc
