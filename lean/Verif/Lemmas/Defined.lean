import Verif.Model.Pipeline

/-!
What the rectification returns with two models it also returns with two models that answer more often: every function of the module
hands on the exceptions of the models and reads nothing else of them.
-/

set_option linter.unusedSectionVars false

namespace Shareloc
variable {K δ : Type*} [Field K] [LinearOrder K]

/-- The second model gives the answers of the first, and possibly others where the first raises. -/
structure Geo.Refined (m m' : Geo K δ) : Prop where
  epsg : m'.epsg = m.epsg
  directH : ∀ row col h g, m.directH row col h = .ok g → m'.directH row col h = .ok g
  directDtm : ∀ row col d g, m.directDtm row col d = .ok g → m'.directDtm row col d = .ok g
  inverse : ∀ lon lat h g, m.inverse lon lat h = .ok g → m'.inverse lon lat h = .ok g

/-- The same for the colocalisations. -/
structure Stereo.Refined (m m' : Stereo K) : Prop where
  l2r : ∀ l g, m.l2r l = .ok g → m'.l2r l = .ok g
  r2l : ∀ l g, m.r2l l = .ok g → m'.r2l l = .ok g
  directL : ∀ l g, m.directL l = .ok g → m'.directL l = .ok g

theorem direct_refined {m m' : Geo K δ} (h : m.Refined m') (conv : ℕ → ℕ → ORow K → ORow K) (el : Elevation K δ)
    (im : Option (LocImage K)) (e : Option ℕ) (row col : List (Option K)) (alt : Option (List (Option K))) (geo : Bool)
    (g : List (ORow K)) (hg : Localization.direct conv ⟨m, el, im, e⟩ row col alt geo = .ok g) :
    Localization.direct conv ⟨m', el, im, e⟩ row col alt geo = .ok g := by
  unfold Localization.direct at hg ⊢
  have hp : (⟨m', el, im, e⟩ : Localization K δ).toPhysical geo row col = (⟨m, el, im, e⟩ : Localization K δ).toPhysical geo row col := rfl
  rw [hp]
  cases hc : (⟨m, el, im, e⟩ : Localization K δ).toPhysical geo row col with
  | error er => simp only [hc] at hg; cases hg
  | ok rc =>
    simp only [hc] at hg ⊢
    have key : ∀ c, ((⟨m, el, im, e⟩ : Localization K δ).modelDirect rc.1 rc.2 alt).1 = .ok c →
        ((⟨m', el, im, e⟩ : Localization K δ).modelDirect rc.1 rc.2 alt).1 = .ok c := by
      intro c hc
      unfold Localization.modelDirect at hc ⊢
      cases alt with
      | some a => exact h.directH _ _ _ _ hc
      | none =>
        cases el with
        | missing => exact h.directH _ _ _ _ hc
        | value l => exact h.directH _ _ _ _ hc
        | dtm ed d => exact h.directDtm _ _ _ _ hc
    have he : ((⟨m', el, im, e⟩ : Localization K δ).modelDirect rc.1 rc.2 alt).2 =
        ((⟨m, el, im, e⟩ : Localization K δ).modelDirect rc.1 rc.2 alt).2 := by
      unfold Localization.modelDirect
      cases alt with
      | some a => exact h.epsg
      | none =>
        cases el with
        | missing => exact h.epsg
        | value l => exact h.epsg
        | dtm ed d => rfl
    rw [he]
    cases hm : ((⟨m, el, im, e⟩ : Localization K δ).modelDirect rc.1 rc.2 alt).1 with
    | error er => simp only [hm] at hg; cases hg
    | ok c => rw [hm] at hg; rw [key c hm]; exact hg

theorem inverse_refined {m m' : Geo K δ} (h : m.Refined m') (conv : ℕ → ℕ → ORow K → ORow K) (el : Elevation K δ)
    (im : Option (LocImage K)) (e : Option ℕ) (lon lat : List (Option K)) (alt : Option (List (Option K))) (geo : Bool)
    (g : Option (List (Option K × Option K)) × List (Option K))
    (hg : Localization.inverse conv ⟨m, el, im, e⟩ lon lat alt geo = .ok g) :
    Localization.inverse conv ⟨m', el, im, e⟩ lon lat alt geo = .ok g := by
  unfold Localization.inverse at hg ⊢
  have hp : (⟨m', el, im, e⟩ : Localization K δ).toModel conv lon lat
      (alt.getD (⟨m', el, im, e⟩ : Localization K δ).defaultElevation) =
      (⟨m, el, im, e⟩ : Localization K δ).toModel conv lon lat (alt.getD (⟨m, el, im, e⟩ : Localization K δ).defaultElevation) := by
    unfold Localization.toModel Localization.defaultElevation
    simp only [h.epsg]
  rw [hp]
  cases hc : (⟨m, el, im, e⟩ : Localization K δ).toModel conv lon lat
      (alt.getD (⟨m, el, im, e⟩ : Localization K δ).defaultElevation) with
  | error er => simp only [hc] at hg; cases hg
  | ok c =>
    simp only [hc] at hg ⊢
    cases hm : m.inverse c.1 c.2.1 c.2.2 with
    | error er => simp only [hm] at hg; cases hg
    | ok rc =>
      rw [h.inverse _ _ _ _ hm]
      simp only [hm] at hg ⊢
      exact hg

theorem coloc_refined {m1 m1' m2 m2' : Geo K δ} (h1 : m1.Refined m1') (h2 : m2.Refined m2') (conv : ℕ → ℕ → ORow K → ORow K)
    (row col : List (Option K)) (el : Elevation K δ) (i1 i2 : Option (LocImage K)) (geo : Bool) (g : List (ORow K) × List (ORow K))
    (hg : coloc conv m1 m2 row col el i1 i2 geo = .ok g) : coloc conv m1' m2' row col el i1 i2 geo = .ok g := by
  unfold coloc at hg ⊢
  split_ifs at hg ⊢ with hlen
  cases hd : Localization.direct conv ⟨m1, el, i1, none⟩ row col none geo with
  | error e => simp only [hd] at hg; cases hg
  | ok ground =>
    rw [direct_refined h1 conv el i1 none row col none geo ground hd]
    simp only [hd] at hg ⊢
    cases hi : Localization.inverse conv ⟨m2, el, i2, none⟩ (ground.map fun p => p.x) (ground.map fun p => p.y)
          (some (ground.map fun p => p.z)) geo with
    | error e => simp only [hi] at hg; cases hg
    | ok ra =>
      rw [inverse_refined h2 conv el i2 none _ _ _ geo ra hi]
      simp only [hi] at hg ⊢
      exact hg

theorem stereoOf_refined {l l' r r' : Geo K δ} (hl : l.Refined l') (hr : r.Refined r') (conv : ℕ → ℕ → ORow K → ORow K)
    (el : Elevation K δ) : (stereoOf conv l r el).Refined (stereoOf conv l' r' el) := by
  refine ⟨fun p g h => ?_, fun p g h => ?_, fun p g h => ?_⟩
  · simp only [stereoOf] at h ⊢
    cases hc : coloc conv l r (p.map fun p => p.1) (p.map fun p => p.2) el none none false with
    | error e => simp only [hc] at h; cases h
    | ok v =>
      rw [coloc_refined hl hr _ _ _ _ _ _ _ _ hc]
      simp only [hc] at h ⊢
      exact h
  · simp only [stereoOf] at h ⊢
    cases hc : coloc conv r l (p.map fun p => p.x) (p.map fun p => p.y) (.value (p.map fun p => p.z)) none none false with
    | error e => simp only [hc] at h; cases h
    | ok v =>
      rw [coloc_refined hr hl _ _ _ _ _ _ _ _ hc]
      simp only [hc] at h ⊢
      exact h
  · simp only [stereoOf] at h ⊢
    cases hc : Localization.direct conv ⟨l, el, none, none⟩ (p.map fun p => p.1) (p.map fun p => p.2) none false with
    | error e => simp only [hc] at h; cases h
    | ok v =>
      rw [direct_refined hl _ _ _ _ _ _ _ _ _ hc]
      simp only [hc] at h ⊢
      exact h

theorem line_refined {m m' : Stereo K} (h : m.Refined m') (left : List (ORow K)) (off : K)
    (v : List (ORow K) × List (ORow K) × List (ORow K)) (hv : localEpipolarLine m left off = .ok v) :
    localEpipolarLine m' left off = .ok v := by
  unfold localEpipolarLine at hv ⊢
  cases h1 : m.l2r (left.map rowCol) with
  | error e => simp only [h1] at hv; cases hv
  | ok corr =>
    rw [h.l2r _ _ h1]
    simp only [h1] at hv ⊢
    cases h2 : m.r2l (corr.map fun c => shiftAlt (-off) c.1) with
    | error e => simp only [h2] at hv; cases hv
    | ok s =>
      rw [h.r2l _ _ h2]
      simp only [h2] at hv ⊢
      cases h3 : m.r2l (corr.map fun c => shiftAlt off c.1) with
      | error e => simp only [h3] at hv; cases hv
      | ok e =>
        rw [h.r2l _ _ h3]
        simp only [h3] at hv ⊢
        exact hv

theorem moving_refined {m m' : Stereo K} (h : m.Refined m') (t : Trig K) (cur : List (ORow K)) (spacing step : K)
    (angles : List (Option K)) (axis : ℤ) (v : List (ORow K) × List (ORow K) × List (ORow K))
    (hv : movingAlongAxis t m cur spacing step angles axis = .ok v) : movingAlongAxis t m' cur spacing step angles axis = .ok v := by
  unfold movingAlongAxis at hv ⊢
  split_ifs at hv ⊢ with hx
  simp only at hv ⊢
  cases h1 : m.l2r ((List.zipWith (movePoint t spacing step axis) cur angles).map rowCol) with
  | error e => simp only [h1] at hv; cases hv
  | ok corr =>
    rw [h.l2r _ _ h1]
    simp only [h1] at hv ⊢
    exact hv

theorem step_refined {m m' : Stereo K} (h : m.Refined m') (t : Trig K) (spacing step off : K) (axis : ℤ) (ad : Option (Adaptive K))
    (st : StripState K) (v : Layer K × StripState K) (hv : stripStep t m spacing step off axis ad st = .ok v) :
    stripStep t m' spacing step off axis ad st = .ok v := by
  unfold stripStep at hv ⊢
  cases h1 : movingAlongAxis t m st.left spacing step st.angles axis with
  | error e => simp only [h1] at hv; cases hv
  | ok w =>
    obtain ⟨nl, nr, ng⟩ := w
    rw [moving_refined h t _ _ _ _ _ _ h1]
    simp only [h1] at hv ⊢
    cases ad with
    | none =>
      simp only at hv ⊢
      cases h2 : localEpipolarLine m nl off with
      | error e => simp only [h2] at hv; cases hv
      | ok w =>
        rw [line_refined h _ _ _ h2]
        simp only [h2] at hv ⊢
        exact hv
    | some a =>
      simp only at hv ⊢
      generalize zipWith3 rescale (List.zipWith (adaptRatio t a) (ng.map fun p => p.z) (st.ground.map fun p => p.z)) nl st.left = left
        at hv ⊢
      cases h2 : localEpipolarLine m left off with
      | error e => simp only [h2] at hv; cases hv
      | ok w =>
        rw [line_refined h _ _ _ h2]
        simp only [h2] at hv ⊢
        exact hv

theorem loop_refined {m m' : Stereo K} (h : m.Refined m') (t : Trig K) (spacing step off : K) (axis : ℤ) (ad : Option (Adaptive K))
    (size room : ℕ) (st : StripState K) (v : List (Layer K)) (hv : stripLoop t m spacing step off axis ad size room st = .ok v) :
    stripLoop t m' spacing step off axis ad size room st = .ok v := by
  induction room generalizing st v with
  | zero =>
    rw [stripLoop] at hv ⊢
    split_ifs at hv ⊢ with hb
    exact hv
  | succ n ih =>
    rw [stripLoop] at hv ⊢
    split_ifs at hv ⊢ with hb
    · cases h1 : stripStep t m spacing step off axis ad st with
      | error e => simp only [h1] at hv; cases hv
      | ok w =>
        obtain ⟨l, st'⟩ := w
        rw [step_refined h t _ _ _ _ _ _ _ h1]
        simp only [h1] at hv ⊢
        cases h2 : stripLoop t m spacing step off axis ad size n st' with
        | error e => simp only [h2] at hv; cases hv
        | ok ls =>
          rw [ih st' ls h2]
          simp only [h2] at hv ⊢
          exact hv
    · exact hv

variable [FloorRing K]

theorem strip_refined {m m' : Stereo K} (h : m.Refined m') (t : Trig K) (left right : List (ORow K)) (spacing : K) (axis : ℤ) (size : ℕ)
    (step off : K) (angles : Option (List (Option K))) (ad : Option (Adaptive K)) (v : Strip K)
    (hv : stripOfEpipolarGrid t m left right spacing axis size step off angles ad = .ok v) :
    stripOfEpipolarGrid t m' left right spacing axis size step off angles ad = .ok v := by
  unfold stripOfEpipolarGrid at hv ⊢
  simp only at hv ⊢
  split_ifs at hv ⊢ with hz
  cases angles with
  | none =>
    simp only at hv ⊢
    cases h1 : localEpipolarLine m left off with
    | error e => simp only [h1] at hv; cases hv
    | ok w =>
      obtain ⟨s, e, g⟩ := w
      rw [line_refined h _ _ _ h1]
      simp only [h1] at hv ⊢
      generalize hst : (⟨left, right, g, _, _⟩ : StripState K) = st at hv ⊢
      cases h2 : stripLoop t m spacing step off axis ad size (maxStripSize ad size - 1) st with
      | error e => simp only [h2] at hv; cases hv
      | ok ls =>
        rw [loop_refined h t _ _ _ _ _ _ _ _ _ h2]
        simp only [h2] at hv ⊢
        exact hv
  | some a =>
    simp only at hv ⊢
    cases h1 : m.directL (left.map rowCol) with
    | error e => simp only [h1] at hv; cases hv
    | ok g =>
      rw [h.directL _ _ h1]
      simp only [h1] at hv ⊢
      generalize hst : (⟨left, right, g, _, _⟩ : StripState K) = st at hv ⊢
      cases h2 : stripLoop t m spacing step off axis ad size (maxStripSize ad size - 1) st with
      | error e => simp only [h2] at hv; cases hv
      | ok ls =>
        rw [loop_refined h t _ _ _ _ _ _ _ _ _ h2]
        simp only [h2] at hv ⊢
        exact hv

theorem twoStrips_refined {m m' : Stereo K} (h : m.Refined m') (t : Trig K) (startL startR : ORow K) (spacing step off : K)
    (rows cols : ℕ) (ad0 ad1 : Option (Adaptive K)) (v : EpiGrids K)
    (hv : twoStrips t m startL startR spacing step off rows cols ad0 ad1 = .ok v) :
    twoStrips t m' startL startR spacing step off rows cols ad0 ad1 = .ok v := by
  unfold twoStrips at hv ⊢
  cases h1 : stripOfEpipolarGrid t m [startL] [startR] spacing 0 rows step off none ad0 with
  | error e => simp only [h1] at hv; cases hv
  | ok s0 =>
    rw [strip_refined h t _ _ _ _ _ _ _ _ _ _ h1]
    simp only [h1] at hv ⊢
    cases h2 : stripOfEpipolarGrid t m (heads nanRow (s0.layers.map fun l => l.left)) (heads nanRow (s0.layers.map fun l => l.right))
        spacing 1 cols step off (some (heads none (s0.layers.map fun l => l.angles))) ad1 with
    | error e => simp only [h2] at hv; cases hv
    | ok s1 =>
      rw [strip_refined h t _ _ _ _ _ _ _ _ _ _ h2]
      simp only [h2] at hv ⊢
      exact hv

theorem prepare_refined {m m' : Stereo K} (h : m.Refined m') (t : Trig K) (im : LeftImage K) (epiStep off : K) (margin : ℤ)
    (v : Prepared K × Option K) (hv : prepareOf t m im epiStep off margin = .ok v) : prepareOf t m' im epiStep off margin = .ok v := by
  unfold prepareOf at hv ⊢
  simp only at hv ⊢
  cases h1 : localEpipolarLine m [⟨some (indexToPhysical im.transform 0 0).1, some (indexToPhysical im.transform 0 0).2, none⟩] off with
  | error e => simp only [h1] at hv; cases hv
  | ok w =>
    rw [line_refined h _ _ _ h1]
    simp only [h1] at hv ⊢
    exact hv

theorem init_refined {m m' : Stereo K} (h : m.Refined m') (t : Trig K) (im : LeftImage K) (epiStep off : K) (margin : ℤ)
    (v : RectInputs K) (hv : initInputs t m im epiStep off margin = .ok v) : initInputs t m' im epiStep off margin = .ok v := by
  unfold initInputs at hv ⊢
  cases h1 : prepareOf t m im epiStep off margin with
  | error e => simp only [h1] at hv; cases hv
  | ok w =>
    obtain ⟨p, alt⟩ := w
    rw [prepare_refined h _ _ _ _ _ _ h1]
    simp only [h1] at hv ⊢
    cases h2 : m.l2r [(some p.start.x, some p.start.y)] with
    | error e => simp only [h2] at hv; cases hv
    | ok c =>
      rw [h.l2r _ _ h2]
      simp only [h2] at hv ⊢
      exact hv

theorem gsd_refined {m m' : Stereo K} (h : m.Refined m') (t : Trig K)
    {directH directH' : List (Option K) → List (Option K) → List (Option K) → Except RpcError (List (ORow K))}
    (hd : ∀ row col a g, directH row col a = .ok g → directH' row col a = .ok g) (toEcef : ORow K → ORow K)
    (left : ORow K) (spacing epiStep off : K) (v : Option K × Option K)
    (hv : epipolarGsd t m directH toEcef left spacing epiStep off = .ok v) :
    epipolarGsd t m' directH' toEcef left spacing epiStep off = .ok v := by
  unfold epipolarGsd at hv ⊢
  cases h1 : localEpipolarLine m [left] off with
  | error e => simp only [h1] at hv; cases hv
  | ok w =>
    rw [line_refined h _ _ _ h1]
    simp only [h1] at hv ⊢
    split at hv
    · rename_i e heq
      cases heq
    · rename_i s e g heq
      cases heq
      generalize hx : movePoint t spacing epiStep 1 left (epipolarAngle t e s) = along at hv ⊢
      generalize hy : movePoint t spacing epiStep 0 left (epipolarAngle t e s) = across at hv ⊢
      cases h2 : directH [left.x, across.x, along.x] [left.y, across.y, along.y] [left.z, across.z, along.z] with
      | error e => simp only [h2] at hv; cases hv
      | ok g =>
        rw [hd _ _ _ _ h2]
        simp only [h2] at hv ⊢
        exact hv
    · cases hv

/-- The rectification with models that answer more often. -/
theorem stereoRectification_refined {l l' r r' : Geo K δ} (hl : l.Refined l') (hr : r.Refined r') (t : Trig K)
    (conv : ℕ → ℕ → ORow K → ORow K) (el : Elevation K δ) (im : LeftImage K) (epiStep off : K) (disp : Bool) (margin : ℤ)
    (ad : Option (K × K)) (v : RectResult K) (hv : stereoRectification t conv l r el im epiStep off disp margin ad = .ok v) :
    stereoRectification t conv l' r' el im epiStep off disp margin ad = .ok v := by
  have hm := stereoOf_refined hl hr conv el
  unfold stereoRectification at hv ⊢
  simp only at hv ⊢
  cases h1 : initInputs t (stereoOf conv l r el) im epiStep off margin with
  | error e => simp only [h1] at hv; cases hv
  | ok inp =>
    rw [init_refined hm _ _ _ _ _ _ h1]
    simp only [h1] at hv ⊢
    split_ifs at hv ⊢ with hsz
    all_goals
    cases ad with
    | none =>
      simp only at hv ⊢
      cases h2 : twoStrips t (stereoOf conv l r el) inp.left inp.right inp.spacing epiStep off inp.gridRows.toNat inp.gridCols.toNat
          none none with
      | error e => simp only [h2] at hv; cases hv
      | ok g =>
        rw [twoStrips_refined hm t _ _ _ _ _ _ _ _ _ _ h2]
        simp only [h2] at hv ⊢
        exact hv
    | some s =>
      obtain ⟨scale, maxRatio⟩ := s
      simp only at hv ⊢
      rw [hl.epsg]
      cases h3 : epipolarGsd t (stereoOf conv l r el) l.directH (conv l.epsg 4978) inp.left inp.spacing epiStep off with
      | error e => simp only [h3] at hv; cases hv
      | ok w =>
        rw [gsd_refined hm t hl.directH _ _ _ _ _ _ h3]
        simp only [h3] at hv ⊢
        rcases w with ⟨_ | a, _ | b⟩
        · cases hv
        · cases hv
        · cases hv
        simp only at hv ⊢
        cases h2 : twoStrips t (stereoOf conv l r el) inp.left inp.right inp.spacing epiStep off inp.gridRows.toNat inp.gridCols.toNat
          (some ⟨a, scale, maxRatio⟩) (some ⟨b, scale, maxRatio⟩) with
        | error e => simp only [h2] at hv; cases hv
        | ok g =>
          rw [twoStrips_refined hm t _ _ _ _ _ _ _ _ _ _ h2]
          simp only [h2] at hv ⊢
          exact hv

/-- The extent with models that answer more often. -/
theorem extentOf_refined {l l' r r' : Geo K δ} (hl : l.Refined l') (hr : r.Refined r') (t : Trig K)
    (conv : ℕ → ℕ → ORow K → ORow K) (el : Elevation K δ) (im : LeftImage K) (epiStep off : K) (margin : ℤ) (additional : K)
    (v : K × K × K × K) (hv : extentOf t conv l r el im epiStep off margin additional = .ok v) :
    extentOf t conv l' r' el im epiStep off margin additional = .ok v := by
  unfold extentOf at hv ⊢
  cases h1 : prepareOf t (stereoOf conv l r el) im epiStep off margin with
  | error e => simp only [h1] at hv; cases hv
  | ok w =>
    obtain ⟨p, alt⟩ := w
    rw [prepare_refined (stereoOf_refined hl hr conv el) _ _ _ _ _ _ h1]
    simp only [h1] at hv ⊢
    cases h2 : Localization.direct conv ⟨l, .missing, some ⟨im.transform, im.nbRows, im.nbCols⟩, none⟩
        (p.footprint.map fun v => some v.x) (p.footprint.map fun v => some v.y) (some [some 0]) false with
    | error e => simp only [h2] at hv; cases hv
    | ok g =>
      rw [direct_refined hl _ _ _ _ _ _ _ _ _ h2]
      simp only [h2] at hv ⊢
      exact hv

end Shareloc
