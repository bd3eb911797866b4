import Verif.Model.Session
import Verif.Props.GridPredictor

/-!
C88. A grid and the `Localization` objects that share it answer according to the last explicit estimate of the predictor that did not
raise, or to the default one, and not according to the rest of the history.
-/

namespace Shareloc
set_option linter.unusedSectionVars false
variable {K : Type*} [Field K] [LinearOrder K] [IsStrictOrderedRing K] [FloorRing K]

/-- An explicit estimate that raises an exception, as its caller sees it. -/
def EstimateRaises (w : GridWorld K) (nbrow nbcol : ℕ) : Prop :=
  ∃ e, w.answer [] (.estimate nbrow nbcol) = .estimated (.error e)

/-- Every explicit estimate of the history raised. -/
def NeverEstimated (w : GridWorld K) (h : List (GridCall K)) : Prop :=
  ∀ n c, GridCall.estimate n c ∈ h → EstimateRaises w n c

/-- The call is `Localization.inverse`, of whatever object. -/
def IsLocInverse : GridCall K → Prop
  | .inverse .. => True
  | _ => False

/-- The call is `Grid.inverse_loc`. -/
def IsGridInverse : GridCall K → Prop
  | .inverseLoc .. => True
  | _ => False

/-- The call is an inverse location or an estimate. -/
def UsesPredictor : GridCall K → Prop
  | .inverse .. => True
  | .inverseLoc .. => True
  | _ => False

theorem estimateRaises_iff (w : GridWorld K) (n c : ℕ) : EstimateRaises w n c ↔ ∃ e, estimatePred w.grid n c = .error e := by
  unfold EstimateRaises
  constructor
  · rintro ⟨e, he⟩
    cases h : estimatePred w.grid n c with
    | error e' => exact ⟨e', rfl⟩
    | ok s => simp [GridWorld.answer, GridWorld.call, h] at he
  · rintro ⟨e, he⟩
    exact ⟨e, by simp [GridWorld.answer, GridWorld.call, he]⟩

theorem after_append (w : GridWorld K) (a b : List (GridCall K)) :
    w.after (a ++ b) = b.foldl (fun s c => (w.call s c).1) (w.after a) := by
  simp [GridWorld.after, List.foldl_append]

theorem estimatePred_ne_unset (g : MultiGrid K) (n c : ℕ) (s : PredState K) (h : estimatePred g n c = .ok s) : s ≠ .unset := by
  rintro rfl
  unfold estimatePred at h
  split at h
  · simp at h
  · split at h
    · simp at h
    · split at h
      · split at h
        · simp at h
        · split at h <;> simp at h
      · simp at h

/-- Calls that keep a predictor that is not `None`: all but an explicit estimate that succeeds. -/
theorem call_keeps (w : GridWorld K) (s : PredState K) (hs : s ≠ .unset) (c : GridCall K)
    (hc : ∀ n m, c = .estimate n m → ∃ e, estimatePred w.grid n m = .error e) : (w.call s c).1 = s := by
  cases c with
  | estimate n m =>
    obtain ⟨e, he⟩ := hc n m rfl
    simp [GridWorld.call, he]
  | inverse v lon lat h geo =>
    have : w.lazyEstimate s = .ok s := by cases s <;> simp_all [GridWorld.lazyEstimate]
    simp [GridWorld.call, this]
  | _ => rfl

theorem foldl_keeps (w : GridWorld K) (s : PredState K) (hs : s ≠ .unset) (h : List (GridCall K)) (hne : NeverEstimated w h) :
    h.foldl (fun s c => (w.call s c).1) s = s := by
  induction h with
  | nil => rfl
  | cons c t ih =>
    rw [List.foldl_cons, call_keeps w s hs c (fun n m e => (estimateRaises_iff w n m).1 (hne n m (e ▸ List.mem_cons_self)))]
    exact ih fun n m hm => hne n m (List.mem_cons_of_mem _ hm)

/-- C88. After the last explicit estimate of the predictor that did not raise, every call on the grid or on any `Localization` of it gets
the answer of a grid just loaded on which this estimate is the only call made: nothing else in the history matters. -/
theorem C88_last_estimate (w : GridWorld K) (before later : List (GridCall K)) (n c : ℕ) (hok : ¬EstimateRaises w n c)
    (hlater : NeverEstimated w later) (call : GridCall K) :
    w.answer (before ++ .estimate n c :: later) call = w.answer [.estimate n c] call := by
  rw [estimateRaises_iff] at hok
  have : ∃ s, estimatePred w.grid n c = .ok s := by
    cases h : estimatePred w.grid n c with
    | ok s => exact ⟨s, rfl⟩
    | error e => exact absurd ⟨e, h⟩ hok
  obtain ⟨s, hs⟩ := this
  unfold GridWorld.answer
  congr 1
  rw [after_append, List.foldl_cons]
  have h1 : ∀ t, (w.call t (.estimate n c)).1 = s := fun t => by simp [GridWorld.call, hs]
  rw [h1, foldl_keeps w s (estimatePred_ne_unset _ _ _ _ hs) later hlater]
  simp [GridWorld.after, h1]

/-- The state while no explicit estimate succeeded. -/
theorem never_state (w : GridWorld K) (h : List (GridCall K)) (hne : NeverEstimated w h) :
    (w.after h = .unset ∧ ((∃ c ∈ h, IsLocInverse c) → ∃ e, estimatePred w.grid 3 3 = .error e)) ∨
      ((∃ c ∈ h, IsLocInverse c) ∧ estimatePred w.grid 3 3 = .ok (w.after h)) := by
  induction h using List.reverseRecOn with
  | nil => exact .inl ⟨rfl, fun ⟨c, hc, _⟩ => by simp at hc⟩
  | append_singleton t c ih =>
    have ih := ih fun n m hm => hne n m (List.mem_append_left _ hm)
    have hstep : w.after (t ++ [c]) = (w.call (w.after t) c).1 := by rw [after_append]; rfl
    rcases ih with ⟨hu, himp⟩ | ⟨⟨d, hd, hd'⟩, hok⟩
    · rw [hstep, hu]
      cases c with
      | estimate n m =>
        obtain ⟨e, he⟩ := (estimateRaises_iff w n m).1 (hne n m (by simp))
        refine .inl ⟨by simp [GridWorld.call, he], ?_⟩
        rintro ⟨d, hd, hd'⟩
        rcases List.mem_append.1 hd with h | h
        · exact himp ⟨d, h, hd'⟩
        · obtain rfl := List.mem_singleton.1 h; exact hd'.elim
      | inverse v lon lat h geo =>
        cases he : estimatePred w.grid 3 3 with
        | error e => exact .inl ⟨by simp [GridWorld.call, GridWorld.lazyEstimate, he], fun _ => ⟨e, rfl⟩⟩
        | ok s => exact .inr ⟨⟨_, List.mem_append_right _ (List.mem_singleton.2 rfl), trivial⟩, by simp [GridWorld.call, GridWorld.lazyEstimate, he]⟩
      | _ =>
        refine .inl ⟨rfl, ?_⟩
        rintro ⟨d, hd, hd'⟩
        rcases List.mem_append.1 hd with h | h
        · exact himp ⟨d, h, hd'⟩
        · obtain rfl := List.mem_singleton.1 h; exact hd'.elim
    · refine .inr ⟨⟨d, List.mem_append_left _ hd, hd'⟩, ?_⟩
      rw [hstep, call_keeps w _ (estimatePred_ne_unset _ _ _ _ hok) c
        (fun n m e => (estimateRaises_iff w n m).1 (hne n m (by simp [e])))]
      exact hok

/-- C88. As long as every explicit estimate raised, a call other than `Grid.inverse_loc` gets the answer of a grid just loaded. -/
theorem C88_never_estimated (w : GridWorld K) (h : List (GridCall K)) (hne : NeverEstimated w h) (call : GridCall K)
    (hcall : ¬IsGridInverse call) : w.answer h call = w.answer [] call := by
  have h0 : w.after [] = .unset := rfl
  unfold GridWorld.answer
  rcases never_state w h hne with ⟨hu, _⟩ | ⟨_, hok⟩
  · rw [hu, h0]
  · rw [h0]
    have hns := estimatePred_ne_unset _ _ _ _ hok
    generalize w.after h = s at hok hns
    cases call with
    | inverseLoc => exact (hcall trivial).elim
    | inverse v lon lat hh geo =>
      have e1 : w.lazyEstimate s = .ok s := by cases s <;> simp_all [GridWorld.lazyEstimate]
      have e2 : w.lazyEstimate .unset = .ok s := hok
      simp [GridWorld.call, e1, e2]
    | estimate n m =>
      simp only [GridWorld.call]
      cases estimatePred w.grid n m <;> rfl
    | _ => rfl

/-- C88. Then `Localization.inverse` uses the default estimate: same answer as after an explicit call without arguments, unless that call
raises; and if it raises, so does every `Localization.inverse`, with the same exception. -/
theorem C88_default (w : GridWorld K) (h : List (GridCall K)) (hne : NeverEstimated w h) (v : View K) (lon lat : List (Option K))
    (alt : Option (List (Option K))) (geo : Bool) :
    (¬EstimateRaises w 3 3 → w.answer h (.inverse v lon lat alt geo) = w.answer [.estimate 3 3] (.inverse v lon lat alt geo)) ∧
    (∀ e, w.answer [] (.estimate 3 3) = .estimated (.error e) →
      w.answer h (.inverse v lon lat alt geo) = .pixels (.error (.model e))) := by
  rw [C88_never_estimated w h hne _ (by simp [IsGridInverse])]
  constructor
  · intro hok
    rw [estimateRaises_iff] at hok
    cases he : estimatePred w.grid 3 3 with
    | error e => exact absurd ⟨e, he⟩ hok
    | ok s =>
      have hns := estimatePred_ne_unset _ _ _ _ he
      have e1 : w.after [.estimate 3 3] = s := by simp [GridWorld.after, GridWorld.call, he]
      have e2 : w.after [] = .unset := rfl
      have e3 : w.lazyEstimate s = .ok s := by cases s <;> simp_all [GridWorld.lazyEstimate]
      have e4 : w.lazyEstimate .unset = .ok s := he
      simp [GridWorld.answer, GridWorld.call, e1, e2, e3, e4]
  · intro e he
    have h2 : estimatePred w.grid 3 3 = .error e := by
      cases h : estimatePred w.grid 3 3 with
      | error e' => simp [GridWorld.answer, GridWorld.call, h] at he; rw [he]
      | ok s => simp [GridWorld.answer, GridWorld.call, h] at he
    have e2 : w.after [] = .unset := rfl
    have e4 : w.lazyEstimate .unset = .error e := h2
    simp [GridWorld.answer, GridWorld.call, e2, e4]

/-- C88. Direct locations, extents and estimates never depend on the history. -/
theorem C88_direct (w : GridWorld K) (h h' : List (GridCall K)) (call : GridCall K) (hcall : ¬UsesPredictor call) :
    w.answer h call = w.answer h' call := by
  unfold GridWorld.answer
  generalize w.after h = s
  generalize w.after h' = s'
  cases call with
  | inverseLoc => exact (hcall trivial).elim
  | inverse => exact (hcall trivial).elim
  | estimate n m =>
    simp only [GridWorld.call]
    cases estimatePred w.grid n m <;> rfl
  | _ => rfl

/-- A point that the grid looks for: a longitude of at most 180 degrees, a latitude of at most 90 and an altitude, none of them NaN. -/
def HasLookedFor (lon lat alt : List (Option K)) : Prop :=
  ∃ (i : ℕ) (x y z : K), lon[i]? = some (some x) ∧ lat[i]? = some (some y) ∧ alt[i]? = some (some z) ∧ |x| ≤ 180 ∧ |y| ≤ 90

theorem someValidPoint_iff (lon lat alt : List (Option K)) : someValidPoint lon lat alt = true ↔ HasLookedFor lon lat alt := by
  unfold someValidPoint HasLookedFor
  rw [List.any_eq_true]
  constructor
  · rintro ⟨⟨a, b, c⟩, ht, hv⟩
    obtain ⟨i, hi⟩ := List.getElem?_of_mem ht
    have hi' := List.getElem?_zip_eq_some.1 hi
    have hi'' := List.getElem?_zip_eq_some.1 hi'.2
    have h1 : lon[i]? = some a := hi'.1
    have h2 : lat[i]? = some b := hi''.1
    have h3 : alt[i]? = some c := hi''.2
    clear hi'' hi' hi
    simp only at hv
    cases a with
    | none => simp [checkRow, nanRow] at hv
    | some x =>
      cases b with
      | none => simp [checkRow, nanRow] at hv
      | some y =>
        cases c with
        | none => simp [checkRow, nanRow] at hv
        | some z =>
          refine ⟨i, x, y, z, h1, h2, h3, ?_⟩
          simp only [checkRow] at hv
          by_contra hcon
          rw [if_pos (by rw [not_and_or, not_le, not_le] at hcon; exact hcon)] at hv
          simp [nanRow] at hv
  · rintro ⟨i, x, y, z, h1, h2, h3, hx, hy⟩
    have hm : (lon.zip (lat.zip alt))[i]? = some (some x, some y, some z) :=
      List.getElem?_zip_eq_some.2 ⟨h1, List.getElem?_zip_eq_some.2 ⟨h2, h3⟩⟩
    refine ⟨_, List.mem_of_getElem? hm, ?_⟩
    simp only [checkRow]
    rw [if_neg (by rw [not_or, not_lt, not_lt]; exact ⟨hx, hy⟩)]

/-- C88. `Grid.inverse_loc` is the exception: while no estimate was made, neither explicitly nor by a `Localization.inverse`, it raises
`TypeError` on every array with a point to look for.  After a `Localization.inverse`, of whatever object and points, it answers as
after an explicit default estimate. -/
theorem C88_grid_inverse (w : GridWorld K) (h : List (GridCall K)) (hne : NeverEstimated w h) (lon lat alt : List (Option K)) (n : ℕ)
    (hlat : lat.length = lon.length) (halt : alt.length = lon.length) :
    ((∀ c ∈ h, ¬IsLocInverse c) → HasLookedFor lon lat alt →
      w.answer h (.inverseLoc lon lat alt n) = .rows (.error .predictorMissing)) ∧
    ((∃ c ∈ h, IsLocInverse c) → ¬EstimateRaises w 3 3 →
      w.answer h (.inverseLoc lon lat alt n) = w.answer [.estimate 3 3] (.inverseLoc lon lat alt n)) := by
  constructor
  · intro hno hpt
    have hu : w.after h = .unset := by
      rcases never_state w h hne with ⟨hu, _⟩ | ⟨⟨c, hc, hc'⟩, _⟩
      · exact hu
      · exact absurd hc' (hno c hc)
    have hv := (someValidPoint_iff lon lat alt).2 hpt
    simp [GridWorld.answer, GridWorld.call, hu, gridInverseIn, broadcastAlt, halt, hlat, hv]
  · intro hyes hok
    rw [estimateRaises_iff] at hok
    cases he : estimatePred w.grid 3 3 with
    | error e => exact absurd ⟨e, he⟩ hok
    | ok s =>
      have e1 : w.after [.estimate 3 3] = s := by simp [GridWorld.after, GridWorld.call, he]
      have e2 : w.after h = s := by
        rcases never_state w h hne with ⟨_, himp⟩ | ⟨_, hok'⟩
        · exact absurd (himp hyes) hok
        · rw [he] at hok'; exact (Except.ok.inj hok').symm
      unfold GridWorld.answer
      rw [e1, e2]

/-- C88. An estimate with fewer than two rows or two columns raises whatever the grid (`ZeroDivisionError` when one of them is 1,
`ValueError` otherwise), and leaves no trace: every later answer is what it would have been without it. -/
theorem C88_estimate_sizes (w : GridWorld K) (before later : List (GridCall K)) (n c : ℕ) (hsmall : n < 2 ∨ c < 2) (call : GridCall K) :
    w.answer before (.estimate n c) = .estimated (.error (if n = 1 ∨ c = 1 then .zeroDivision else .badSizes)) ∧
    w.answer (before ++ .estimate n c :: later) call = w.answer (before ++ later) call := by
  have he : estimatePred w.grid n c = .error (if n = 1 ∨ c = 1 then .zeroDivision else .badSizes) := by
    unfold estimatePred
    by_cases h1 : n = 1 ∨ c = 1
    · rw [if_pos h1, if_pos h1]
    · rw [if_neg h1, if_pos (by omega), if_neg h1]
  refine ⟨by simp [GridWorld.answer, GridWorld.call, he], ?_⟩
  simp only [GridWorld.answer, after_append, List.foldl_cons]
  simp [GridWorld.call, he]

/-- The grid with a usable predictor is the model of the other properties. -/
theorem geo_fitted (w : GridWorld K) (p : Predictor K) :
    w.geo (.fitted p) = gridGeo w.conv w.N w.grid p w.rad w.rtx w.cosdeg w.epsg := rfl

theorem estimatePred_some (g : MultiGrid K) (n c : ℕ) (hn : 2 ≤ n) (hc : 2 ≤ c) (p : Predictor K) (hp : ownPredictor g n c = some p) :
    estimatePred g n c = .ok (.fitted p) := by
  have hp' := hp
  unfold ownPredictor at hp
  unfold estimatePred
  rw [if_neg (by omega), if_neg (by omega)]
  simp only at hp
  split at hp
  · rename_i a b a' b' h1 h2 h3 h4
    rw [h1, h2, h3, h4]
    split at hp
    · simp at hp
    · rename_i hcond
      rw [not_or, not_or] at hcond
      simp only
      rw [if_neg (by rw [not_or]; exact ⟨hcond.1, hcond.2.1⟩), hp']
  · simp at hp

/-- C88. The predictor in force is the one of the other properties (C34, C74, C75, C78): after a history whose last successful estimate has
the sizes `n`, `c` — the sizes 3, 3 if there is none — `Localization.inverse` is that of the grid with the predictor estimated on
`n` by `c` nodes. -/
theorem C88_predictor_in_force (w : GridWorld K) (h : List (GridCall K)) (n c : ℕ) (p : Predictor K) (hn : 2 ≤ n) (hc : 2 ≤ c)
    (hp : ownPredictor w.grid n c = some p)
    (hh : (NeverEstimated w h ∧ n = 3 ∧ c = 3) ∨ ∃ before later, h = before ++ .estimate n c :: later ∧ NeverEstimated w later)
    (v : View K) (lon lat : List (Option K)) (alt : Option (List (Option K))) (geo : Bool) :
    w.answer h (.inverse v lon lat alt geo) =
      .pixels (Localization.inverse w.conv
        ⟨gridGeo w.conv w.N w.grid p w.rad w.rtx w.cosdeg w.epsg, v.elevation, v.image, v.epsg⟩ lon lat alt geo) := by
  have he := estimatePred_some w.grid n c hn hc p hp
  have hok : ¬EstimateRaises w n c := by
    rw [estimateRaises_iff]
    rintro ⟨e, h⟩
    rw [he] at h
    cases h
  have key : w.answer [.estimate n c] (.inverse v lon lat alt geo) =
      .pixels (Localization.inverse w.conv
        ⟨gridGeo w.conv w.N w.grid p w.rad w.rtx w.cosdeg w.epsg, v.elevation, v.image, v.epsg⟩ lon lat alt geo) := by
    have e1 : w.after [.estimate n c] = .fitted p := by simp [GridWorld.after, GridWorld.call, he]
    unfold GridWorld.answer
    rw [e1]
    rfl
  rcases hh with ⟨hne, rfl, rfl⟩ | ⟨before, later, rfl, hl⟩
  · rw [(C88_default w h hne v lon lat alt geo).1 hok, key]
  · rw [C88_last_estimate w before later n c hok hl, key]

/-- C88. An estimate with a sampled position that the grid locates as NaN (a longitude of more than 180 degrees, for a grid across the
antimeridian) does not raise but stores NaN numbers: from then on, and until an estimate with other sizes succeeds,
`Grid.inverse_loc` raises `ValueError` on every array with a point to look for. -/
theorem C88_nan_predictor (w : GridWorld K) (before later : List (GridCall K)) (n c : ℕ) (hn : 2 ≤ n) (hc : 2 ≤ c) (low : Bool) (i j : ℕ)
    (hi : i < n) (hj : j < c) (q : ORow K) (hq : gridDirectLocH w.grid [some (evenRow w.grid n i)] [some (evenCol w.grid c j)]
      [some (extremeAlt w.grid low)] = .ok [q]) (hnan : q.x = none ∨ q.y = none) (hlater : NeverEstimated w later) :
    w.answer before (.estimate n c) = .estimated (.ok ()) ∧
    ∀ (lon lat alt : List (Option K)) (nb : ℕ), lat.length = lon.length → alt.length = lon.length → nb ≠ 0 → HasLookedFor lon lat alt →
      w.answer (before ++ .estimate n c :: later) (.inverseLoc lon lat alt nb) = .rows (.error .predictorNan) := by
  have hs : estimatePred w.grid n c = .ok .nan := by
    unfold estimatePred
    rw [if_neg (by omega), if_neg (by omega)]
    have hq' := C34_samples w.grid n c low i j hi hj
    rw [hq] at hq'
    simp only [Except.ok.injEq, List.cons.injEq, and_true] at hq'
    have hx := sampledNodes_mem w.grid n c (fun p => p.x) low i j hi hj
    have hy := sampledNodes_mem w.grid n c (fun p => p.y) low i j hi hj
    rw [← hq'] at hx hy
    split
    · rename_i a b a' b' h1 h2 h3 h4
      exfalso
      rcases hnan with h | h
      · obtain ⟨v, hv, -⟩ := (olistMin_spec _ _ h1).1 _ hx
        simp only [h] at hv
        cases hv
      · obtain ⟨v, hv, -⟩ := (olistMin_spec _ _ h3).1 _ hy
        simp only [h] at hv
        cases hv
    · rfl
  constructor
  · simp [GridWorld.answer, GridWorld.call, hs]
  · intro lon lat alt nb hlat halt hnb hpt
    have hok : ¬EstimateRaises w n c := by
      rw [estimateRaises_iff]
      rintro ⟨e, h⟩
      rw [hs] at h
      cases h
    rw [C88_last_estimate w before later n c hok hlater]
    have e1 : w.after [.estimate n c] = .nan := by simp [GridWorld.after, GridWorld.call, hs]
    have hv := (someValidPoint_iff lon lat alt).2 hpt
    simp [GridWorld.answer, GridWorld.call, e1, gridInverseIn, broadcastAlt, halt, hlat, hv, hnb]

/-! ### A case -/

/-- The session of the examples: the oblique grid of C78. -/
def obliqueWorld : GridWorld ℚ := ⟨fun _ _ q => q, 50, obliqueGrid, 17453, 40, fun _ => 766 / 1000, 4326⟩

/-- An object without image or elevation. -/
def plainView : View ℚ := ⟨.missing, none, none⟩

theorem answer_fitted (w : GridWorld K) (n c : ℕ) (p : Predictor K) (he : estimatePred w.grid n c = .ok (.fitted p)) (lon lat alt : K) (N : ℕ)
    (hdet : ∀ a r c, inversePartial w.grid w.rad r c a ≠ none) :
    ∃ l, w.answer [.estimate n c] (.inverseLoc [some lon] [some lat] [some alt] N) = .rows (.ok l) := by
  have e1 : w.after [.estimate n c] = .fitted p := by simp [GridWorld.after, GridWorld.call, he]
  have hr : gridPointRaises w.grid p w.rad w.rtx w.cosdeg N (some lon) (some lat) (some alt) = false := by
    unfold gridPointRaises
    dsimp only
    split
    · exact not_raises_of_det (hdet _) _ _ _ _ _ _
    · rfl
  simp only [GridWorld.answer, GridWorld.call, e1, gridInverseIn, gridInverseLoc_one]
  rw [if_neg (by rw [hr]; decide)]
  exact ⟨_, rfl⟩

/-- C88. The same `Grid.inverse_loc` call on the same grid raises or answers according to an earlier call on another object. -/
theorem C88_grid_inverse_counterexample :
    obliqueWorld.answer [] (.inverseLoc [some 2] [some 40] [some 100] 15) = .rows (.error .predictorMissing) ∧
    ∃ l, obliqueWorld.answer [.inverse plainView [some 3] [some 41] none false] (.inverseLoc [some 2] [some 40] [some 100] 15) =
      .rows (.ok l) := by
  obtain ⟨p, hp, -⟩ := C78_own_prediction obliqueGrid_parallel 3 3 le_rfl le_rfl (fun _ => obliqueGrid_valid)
  have he := estimatePred_some obliqueGrid 3 3 (by norm_num) (by norm_num) p hp
  constructor
  · exact (C88_grid_inverse obliqueWorld [] (fun _ _ h => by simp at h) [some 2] [some 40] [some 100] 15 rfl rfl).1 (fun c hc => by simp at hc)
      ⟨0, 2, 40, 100, rfl, rfl, rfl, by norm_num, by norm_num⟩
  · have hok : ¬EstimateRaises obliqueWorld 3 3 := by
      rw [estimateRaises_iff]
      rintro ⟨e, h⟩
      rw [show obliqueWorld.grid = obliqueGrid from rfl, he] at h
      cases h
    rw [(C88_grid_inverse obliqueWorld [.inverse plainView [some 3] [some 41] none false] (fun _ _ h => by simp at h)
      [some 2] [some 40] [some 100] 15 rfl rfl).2
      ⟨_, List.mem_singleton.2 rfl, trivial⟩ hok]
    exact answer_fitted obliqueWorld 3 3 p he 2 40 100 15 (fun a r c => obliqueGrid_parallel.det (by norm_num [obliqueWorld]) a r c)

/-- The hypotheses of `C88_nan_predictor`: a grid whose last column is beyond the longitude 180. -/
example : ∃ q : ORow ℚ, gridDirectLocH { obliqueGrid with lon := fun k i j => 178 + i / 100 + j * (3 / 2) + demoGrid.alts k / 100000 }
      [some (evenRow obliqueGrid 3 0)] [some (evenCol obliqueGrid 3 2)] [some (extremeAlt obliqueGrid false)] = .ok [q] ∧ q.x = none :=
  ⟨_, rfl, by decide +kernel⟩

/-- The hypotheses of `C88_last_estimate` and `C88_predictor_in_force`: an estimate on 4 by 5 nodes between other calls. -/
example : ¬EstimateRaises obliqueWorld 4 5 ∧ NeverEstimated obliqueWorld [.estimate 1 7, .inverse plainView [some 2] [some 40] none false] := by
  obtain ⟨p, hp, -⟩ := C78_own_prediction obliqueGrid_parallel 4 5 (by norm_num) (by norm_num) (fun _ => obliqueGrid_valid)
  have he := estimatePred_some obliqueGrid 4 5 (by norm_num) (by norm_num) p hp
  constructor
  · rw [estimateRaises_iff]
    rintro ⟨e, h⟩
    rw [show obliqueWorld.grid = obliqueGrid from rfl, he] at h
    cases h
  · intro n c h
    simp at h
    obtain ⟨rfl, rfl⟩ := h
    rw [estimateRaises_iff]
    exact ⟨_, rfl⟩

end Shareloc
