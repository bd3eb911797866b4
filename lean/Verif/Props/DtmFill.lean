import Verif.Model.DtmReader
import Mathlib.Algebra.Order.BigOperators.Group.List
import Mathlib.Algebra.BigOperators.Group.List.Basic

/-!
# C58: filling of the no-data cells of a DTM
-/

set_option linter.unusedSectionVars false

namespace Shareloc
variable {K : Type*} [Field K] [LinearOrder K] [IsStrictOrderedRing K] [FloorRing K]

/-! ### Specification -/

namespace Spec

/-- Cell `i` has no data: it is NaN, or the file declares a no-data value and its mask is 0 there. -/
def NoData (nodata : Option (Option K)) (read : List ℕ) (data : List (Option K)) (i : ℕ) : Prop :=
  data[i]? = some none ∨ (nodata ≠ none ∧ read[i]? = some 0)

/-- The valid values: all numbers, of mask 255 if the file declares a no-data value. -/
def validValues (nodata : Option (Option K)) (read : List ℕ) (data : List (Option K)) : List K :=
  match nodata with
  | none => data.filterMap id
  | some _ => (read.zip data).filterMap fun p => if p.1 = 255 then p.2 else none

/-- `m` is a median of `l`: at least half of the values on each side. -/
def IsMedian (l : List K) (m : K) : Prop :=
  l.length ≤ 2 * l.countP (fun x => decide (x ≤ m)) ∧ l.length ≤ 2 * l.countP (fun x => decide (m ≤ x))

/-- The value that a strategy asks for; the median is the middle of the interval of the medians. -/
def IsStatistic (l : List K) : FillStrategy → K → Prop
  | .min, v => v ∈ l ∧ ∀ x ∈ l, v ≤ x
  | .max, v => v ∈ l ∧ ∀ x ∈ l, x ≤ v
  | .mean, v => v * (l.length : K) = l.sum
  | .median, v => ∃ a b, (∀ x, IsMedian l x ↔ a ≤ x ∧ x ≤ b) ∧ v = (a + b) / 2
  | _, _ => False

/-- What the file type keeps of a number: itself, or its integer part. -/
def Kept (t : DType) (v w : K) : Prop :=
  match t with
  | .float => w = v
  | .int => (∃ n : ℤ, w = n) ∧ |v - w| < 1 ∧ |w| ≤ |v|

end Spec
open Spec

/-! ### Statistics -/

theorem foldl_min_spec (l : List K) (a : K) : (l.foldl min a = a ∨ l.foldl min a ∈ l) ∧ l.foldl min a ≤ a ∧ ∀ x ∈ l, l.foldl min a ≤ x := by
  induction l generalizing a with
  | nil => simp
  | cons b l ih =>
    obtain ⟨h1, h2, h3⟩ := ih (min a b)
    simp only [List.foldl_cons, List.mem_cons]
    refine ⟨?_, h2.trans (min_le_left _ _), ?_⟩
    · rcases h1 with h | h
      · rcases le_total a b with hab | hab
        · rw [min_eq_left hab] at h ⊢; exact .inl h
        · rw [min_eq_right hab] at h ⊢; exact .inr (.inl h)
      · exact .inr (.inr h)
    · rintro x (rfl | hx)
      · exact h2.trans (min_le_right _ _)
      · exact h3 x hx

theorem foldl_max_spec (l : List K) (a : K) : (l.foldl max a = a ∨ l.foldl max a ∈ l) ∧ a ≤ l.foldl max a ∧ ∀ x ∈ l, x ≤ l.foldl max a := by
  induction l generalizing a with
  | nil => simp
  | cons b l ih =>
    obtain ⟨h1, h2, h3⟩ := ih (max a b)
    simp only [List.foldl_cons, List.mem_cons]
    refine ⟨?_, (le_max_left _ _).trans h2, ?_⟩
    · rcases h1 with h | h
      · rcases le_total a b with hab | hab
        · rw [max_eq_right hab] at h ⊢; exact .inr (.inl h)
        · rw [max_eq_left hab] at h ⊢; exact .inl h
      · exact .inr (.inr h)
    · rintro x (rfl | hx)
      · exact (le_max_right _ _).trans h2
      · exact h3 x hx

theorem getD_getElem (s : List K) (j : ℕ) (hj : j < s.length) : s.getD j 0 = s[j] := by
  simp [List.getD, List.getElem?_eq_getElem hj]

theorem sorted_getD_le (s : List K) (hs : s.Pairwise (· ≤ ·)) (i j : ℕ) (hij : i ≤ j) (hj : j < s.length) : s.getD i 0 ≤ s.getD j 0 := by
  rw [getD_getElem _ _ (hij.trans_lt hj), getD_getElem _ _ hj]
  rcases hij.eq_or_lt with rfl | h
  · exact le_rfl
  · exact List.pairwise_iff_getElem.1 hs i j _ hj h

theorem countP_le_of_prefix (s : List K) (hs : s.Pairwise (· ≤ ·)) (j : ℕ) (hj : j < s.length) (m : K) (hm : s.getD j 0 ≤ m) :
    j + 1 ≤ s.countP (fun x => decide (x ≤ m)) := by
  have h1 : (s.take (j + 1)).countP (fun x => decide (x ≤ m)) = (s.take (j + 1)).length := by
    rw [List.countP_eq_length]
    intro x hx
    obtain ⟨i, hi, rfl⟩ := List.mem_take_iff_getElem.1 hx
    have := sorted_getD_le s hs i j (by omega) hj
    rw [getD_getElem _ _ (by omega)] at this
    simpa using this.trans hm
  have h2 := (List.take_sublist (j + 1) s).countP_le (p := fun x => decide (x ≤ m))
  rw [h1, List.length_take] at h2
  omega

theorem countP_ge_of_suffix (s : List K) (hs : s.Pairwise (· ≤ ·)) (j : ℕ) (m : K) (hm : m ≤ s.getD j 0) :
    s.length - j ≤ s.countP (fun x => decide (m ≤ x)) := by
  have h1 : (s.drop j).countP (fun x => decide (m ≤ x)) = (s.drop j).length := by
    rw [List.countP_eq_length]
    intro x hx
    obtain ⟨i, hi, rfl⟩ := List.mem_drop_iff_getElem.1 hx
    have := sorted_getD_le s hs j (i + j) (by omega) hi
    rw [getD_getElem _ _ hi] at this
    simpa [Nat.add_comm] using hm.trans this
  have h2 := (List.drop_sublist j s).countP_le (p := fun x => decide (m ≤ x))
  rw [h1, List.length_drop] at h2
  exact h2

theorem countP_le_lt (s : List K) (hs : s.Pairwise (· ≤ ·)) (j : ℕ) (hj : j < s.length) (m : K) (hm : m < s.getD j 0) :
    s.countP (fun x => decide (x ≤ m)) ≤ j := by
  have h0 : (s.drop j).countP (fun x => decide (x ≤ m)) = 0 := by
    rw [List.countP_eq_zero]
    intro x hx
    obtain ⟨i, hi, rfl⟩ := List.mem_drop_iff_getElem.1 hx
    have := sorted_getD_le s hs j (i + j) (by omega) hi
    rw [getD_getElem _ _ hi] at this
    simpa [Nat.add_comm] using hm.trans_le this
  have h1 : s.countP (fun x => decide (x ≤ m)) =
      (s.take j).countP (fun x => decide (x ≤ m)) + (s.drop j).countP (fun x => decide (x ≤ m)) := by
    rw [← List.countP_append, List.take_append_drop]
  have h2 := List.countP_le_length (p := fun x => decide (x ≤ m)) (l := s.take j)
  rw [List.length_take] at h2
  omega

theorem countP_ge_lt (s : List K) (hs : s.Pairwise (· ≤ ·)) (j : ℕ) (hj : j < s.length) (m : K) (hm : s.getD j 0 < m) :
    s.countP (fun x => decide (m ≤ x)) + (j + 1) ≤ s.length := by
  have h0 : (s.take (j + 1)).countP (fun x => decide (m ≤ x)) = 0 := by
    rw [List.countP_eq_zero]
    intro x hx
    obtain ⟨i, hi, rfl⟩ := List.mem_take_iff_getElem.1 hx
    have := sorted_getD_le s hs i j (by omega) hj
    rw [getD_getElem s i (by omega)] at this
    simpa using this.trans_lt hm
  have h1 : s.countP (fun x => decide (m ≤ x)) =
      (s.take (j + 1)).countP (fun x => decide (m ≤ x)) + (s.drop (j + 1)).countP (fun x => decide (m ≤ x)) := by
    rw [← List.countP_append, List.take_append_drop]
  have h2 := List.countP_le_length (p := fun x => decide (m ≤ x)) (l := s.drop (j + 1))
  rw [List.length_drop] at h2
  omega

theorem isMedian_sorted (s : List K) (hs : s.Pairwise (· ≤ ·)) (hn : 0 < s.length) (x : K) :
    IsMedian s x ↔ s.getD ((s.length - 1) / 2) 0 ≤ x ∧ x ≤ s.getD (s.length / 2) 0 := by
  unfold IsMedian
  constructor
  · rintro ⟨h1, h2⟩
    constructor
    · by_contra hc
      push Not at hc
      have := countP_le_lt s hs _ (by omega) x hc
      omega
    · by_contra hc
      push Not at hc
      have := countP_ge_lt s hs _ (by omega) x hc
      omega
  · rintro ⟨h1, h2⟩
    have a1 := countP_le_of_prefix s hs _ (by omega) x h1
    have a2 := countP_ge_of_suffix s hs _ x h2
    constructor <;> omega

theorem npMedian_spec (l : List K) (hl : l ≠ []) : IsStatistic l .median (npMedian l) ∧ (∃ x ∈ l, x ≤ npMedian l) ∧ ∃ x ∈ l, npMedian l ≤ x := by
  have hs : (l.insertionSort (· ≤ ·)).Pairwise (· ≤ ·) := List.pairwise_insertionSort _ l
  have hp : (l.insertionSort (· ≤ ·)).Perm l := List.perm_insertionSort _ l
  have hlen := hp.length_eq
  have hiff : ∀ x, IsMedian l x ↔ IsMedian (l.insertionSort (· ≤ ·)) x := by
    intro x
    unfold IsMedian
    rw [hp.countP_eq, hp.countP_eq, hlen]
  unfold IsStatistic npMedian
  simp only [hiff]
  generalize l.insertionSort (· ≤ ·) = s at hs hp hlen
  have hn : 0 < s.length := by rw [hlen]; exact List.length_pos_iff.2 hl
  simp only [← hlen]
  have hmem : ∀ j, j < s.length → s.getD j 0 ∈ l := fun j hj => hp.subset (by rw [getD_getElem _ _ hj]; exact List.getElem_mem hj)
  have hval : (if s.length % 2 = 1 then s.getD (s.length / 2) 0 else (s.getD (s.length / 2 - 1) 0 + s.getD (s.length / 2) 0) / 2) =
      (s.getD ((s.length - 1) / 2) 0 + s.getD (s.length / 2) 0) / 2 := by
    split_ifs with hodd
    · have : (s.length - 1) / 2 = s.length / 2 := by omega
      rw [this]; ring
    · have : (s.length - 1) / 2 = s.length / 2 - 1 := by omega
      rw [this]
  rw [hval]
  have hle := sorted_getD_le s hs ((s.length - 1) / 2) (s.length / 2) (by omega) (by omega)
  exact ⟨⟨_, _, isMedian_sorted s hs hn, rfl⟩, ⟨_, hmem ((s.length - 1) / 2) (by omega), by linarith⟩,
    ⟨_, hmem (s.length / 2) (by omega), by linarith⟩⟩

theorem list_sum_bounds (l : List K) (a b : K) (h : ∀ x ∈ l, a ≤ x ∧ x ≤ b) : a * l.length ≤ l.sum ∧ l.sum ≤ b * l.length := by
  induction l with
  | nil => simp
  | cons c l ih =>
    obtain ⟨h1, h2⟩ := ih fun x hx => h x (List.mem_cons_of_mem _ hx)
    obtain ⟨h3, h4⟩ := h c List.mem_cons_self
    simp only [List.length_cons, List.sum_cons, Nat.cast_add, Nat.cast_one]
    constructor <;> nlinarith

theorem dtmStats_ok (l : List K) (s : DtmStats K) (h : dtmStats l = .ok s) :
    l ≠ [] ∧ ∀ st v, s.get st = some v → IsStatistic l st v ∧ (∃ x ∈ l, x ≤ v) ∧ ∃ x ∈ l, v ≤ x := by
  cases l with
  | nil => simp [dtmStats] at h
  | cons a l =>
    refine ⟨by simp, ?_⟩
    simp only [dtmStats, Except.ok.injEq] at h
    subst h
    intro st v hv
    cases st with
    | min =>
      simp only [DtmStats.get, Option.some.injEq] at hv
      subst hv
      obtain ⟨h1, h2, h3⟩ := foldl_min_spec l a
      have hm : l.foldl min a ∈ a :: l := by rcases h1 with h | h <;> simp [h]
      refine ⟨⟨hm, ?_⟩, ⟨_, hm, le_rfl⟩, ⟨_, hm, le_rfl⟩⟩
      intro x hx
      rcases List.mem_cons.1 hx with rfl | hx
      · exact h2
      · exact h3 x hx
    | max =>
      simp only [DtmStats.get, Option.some.injEq] at hv
      subst hv
      obtain ⟨h1, h2, h3⟩ := foldl_max_spec l a
      have hm : l.foldl max a ∈ a :: l := by rcases h1 with h | h <;> simp [h]
      refine ⟨⟨hm, ?_⟩, ⟨_, hm, le_rfl⟩, ⟨_, hm, le_rfl⟩⟩
      intro x hx
      rcases List.mem_cons.1 hx with rfl | hx
      · exact h2
      · exact h3 x hx
    | mean =>
      simp only [DtmStats.get, Option.some.injEq] at hv
      subst hv
      have hn : (0 : K) < ((a :: l).length : K) := by simp only [List.length_cons, Nat.cast_add, Nat.cast_one]; positivity
      refine ⟨div_mul_cancel₀ _ hn.ne', ?_, ?_⟩
      · by_contra hc
        push Not at hc
        obtain ⟨h1, h2, h3⟩ := foldl_min_spec l a
        have hm : l.foldl min a ∈ a :: l := by rcases h1 with h | h <;> simp [h]
        have := (list_sum_bounds (a :: l) (l.foldl min a) _ fun x hx => ⟨(by
          rcases List.mem_cons.1 hx with rfl | hx
          · exact h2
          · exact h3 x hx), (foldl_max_spec (a :: l) a).2.2 x hx⟩).1
        have h5 := hc _ hm
        rw [div_lt_iff₀ hn] at h5
        linarith
      · by_contra hc
        push Not at hc
        obtain ⟨h1, h2, h3⟩ := foldl_max_spec l a
        have hm : l.foldl max a ∈ a :: l := by rcases h1 with h | h <;> simp [h]
        have := (list_sum_bounds (a :: l) _ (l.foldl max a) fun x hx => ⟨(foldl_min_spec (a :: l) a).2.2 x hx, (by
          rcases List.mem_cons.1 hx with rfl | hx
          · exact h2
          · exact h3 x hx)⟩).2
        have h5 := hc _ hm
        rw [lt_div_iff₀ hn] at h5
        linarith
    | median =>
      simp only [DtmStats.get, Option.some.injEq] at hv
      subst hv
      exact npMedian_spec _ (by simp)
    | rioFillnodata => simp [DtmStats.get] at hv
    | constant => simp [DtmStats.get] at hv
    | other => simp [DtmStats.get] at hv

/-! ### Masks -/

theorem dtmMask_length (nodata : Option (Option K)) (read : List ℕ) (data : List (Option K))
    (hl : nodata ≠ none → read.length = data.length) : (dtmMask nodata read data).length = data.length := by
  cases nodata with
  | none => simp [dtmMask]
  | some n => simp [dtmMask, hl (by simp)]

theorem dtmMask_zero (nodata : Option (Option K)) (read : List ℕ) (data : List (Option K))
    (hl : nodata ≠ none → read.length = data.length) (i : ℕ) (hi : i < data.length) :
    (dtmMask nodata read data)[i]? = some 0 ↔ NoData nodata read data i := by
  unfold NoData
  rw [List.getElem?_eq_getElem hi]
  cases nodata with
  | none =>
    simp only [dtmMask, List.getElem?_map, List.getElem?_eq_getElem hi, Option.map_some, Option.some.injEq]
    cases data[i] <;> simp
  | some n =>
    have hr : i < read.length := by rw [hl (by simp)]; exact hi
    simp only [dtmMask, List.getElem?_zipWith, List.getElem?_eq_getElem hi, List.getElem?_eq_getElem hr, Option.some.injEq]
    cases data[i] <;> simp

theorem validData_eq (nodata : Option (Option K)) (read : List ℕ) (data : List (Option K))
    (hl : nodata ≠ none → read.length = data.length) :
    validData (dtmMask nodata read data) data = validValues nodata read data := by
  unfold validData validValues
  cases nodata with
  | none =>
    simp only [dtmMask]
    clear hl
    induction data with
    | nil => rfl
    | cons v data ih => cases v <;> simp [ih]
  | some n =>
    simp only [dtmMask]
    replace hl := hl (by simp)
    induction data generalizing read with
    | nil => cases read <;> rfl
    | cons v data ih =>
      cases read with
      | nil => simp at hl
      | cons m read =>
        have := ih read (by simpa using hl)
        cases v <;> simp [List.filterMap_cons, this]

theorem fillMasked_length (mask : List ℕ) (data : List (Option K)) (v : Option K) (h : mask.length = data.length) :
    (fillMasked mask data v).length = data.length := by simp [fillMasked, h]

theorem fillMasked_get (mask : List ℕ) (data : List (Option K)) (v : Option K) (h : mask.length = data.length) (i : ℕ)
    (hi : i < data.length) : (mask[i]? = some 0 → (fillMasked mask data v)[i]? = some v) ∧
      (mask[i]? ≠ some 0 → (fillMasked mask data v)[i]? = data[i]?) := by
  have hm : i < mask.length := by omega
  simp only [fillMasked, List.getElem?_zipWith, List.getElem?_eq_getElem hi, List.getElem?_eq_getElem hm, Option.some.injEq]
  constructor
  · intro h0; simp [h0]
  · intro h0
    have : ¬ mask[i] = 0 := by simpa using h0
    simp [this]

theorem store_kept (t : DType) (v : K) : ∃ w, t.store (some v) = .ok (some w) ∧ Kept t v w := by
  cases t with
  | float => exact ⟨v, rfl, rfl⟩
  | int =>
    refine ⟨_, rfl, ⟨_, rfl⟩, ?_⟩
    unfold pyInt
    split_ifs with h
    · have h1 := Int.floor_le v
      have h2 := Int.lt_floor_add_one v
      have h3 : (0 : K) ≤ ((⌊v⌋ : ℤ) : K) := by exact_mod_cast Int.floor_nonneg.2 h
      rw [abs_of_nonneg h, abs_of_nonneg h3, abs_of_nonneg (by linarith)]
      exact ⟨by linarith, h1⟩
    · push Not at h
      have h1 := Int.le_ceil v
      have h2 := Int.ceil_lt_add_one v
      have h3 : ((⌈v⌉ : ℤ) : K) ≤ 0 := by exact_mod_cast Int.ceil_le.2 (by simpa using h.le)
      rw [abs_of_neg h, abs_of_nonpos h3, abs_of_nonpos (by linarith)]
      exact ⟨by linarith, by linarith⟩

/-! ### C58 -/

variable (ext : List (Option K) → List ℕ → List (Option K)) (t : DType) (nodata : Option (Option K)) (read : List ℕ)
  (data : List (Option K)) (fill : Option (Option K))

/-- C58. Without any valid cell the reader raises `ValueError`, whatever the strategy. -/
theorem C58_no_valid_cell (strategy : Option FillStrategy) (hl : nodata ≠ none → read.length = data.length)
    (h : validValues nodata read data = []) : readAltitudes ext t nodata read data strategy fill = .error .valueError := by
  unfold readAltitudes
  rw [validData_eq nodata read data hl, h]
  rfl

/-- C58. Strategies min, max, mean and median: there is an altitude for each cell; a cell with data keeps its value; a cell
without data receives the statistic of the valid values (what the type of the file keeps of it). -/
theorem C58_statistic (st : FillStrategy) (hst : st = .min ∨ st = .max ∨ st = .mean ∨ st = .median)
    (hl : nodata ≠ none → read.length = data.length) (hv : validValues nodata read data ≠ []) :
    ∃ out v w, readAltitudes ext t nodata read data (some st) fill = .ok out ∧ out.length = data.length ∧
      IsStatistic (validValues nodata read data) st v ∧ Kept t v w ∧
      ∀ i, i < data.length → (NoData nodata read data i → out[i]? = some (some w)) ∧
        (¬ NoData nodata read data i → out[i]? = data[i]?) := by
  obtain ⟨s, hs⟩ : ∃ s, dtmStats (validValues nodata read data) = .ok s := by
    cases h : validValues nodata read data with
    | nil => exact absurd h hv
    | cons a l => exact ⟨_, rfl⟩
  obtain ⟨v, hget⟩ : ∃ v, s.get st = some v := by rcases hst with rfl | rfl | rfl | rfl <;> exact ⟨_, rfl⟩
  obtain ⟨w, hw, hk⟩ := store_kept t v
  have hlen := dtmMask_length nodata read data hl
  refine ⟨fillMasked (dtmMask nodata read data) data (some w), v, w, ?_, fillMasked_length _ _ _ hlen,
    ((dtmStats_ok _ s hs).2 st v hget).1, hk, ?_⟩
  · unfold readAltitudes
    rw [validData_eq nodata read data hl, hs]
    simp only [bind, Except.bind, fillNodata, hget, hw, pure, Except.pure]
  · intro i hi
    obtain ⟨h1, h2⟩ := fillMasked_get (dtmMask nodata read data) data (some w) hlen i hi
    rw [← dtmMask_zero nodata read data hl i hi]
    exact ⟨h1, h2⟩

/-- C58. Strategy constant: a cell without data receives the constant. -/
theorem C58_constant (c : K) (hl : nodata ≠ none → read.length = data.length) (hv : validValues nodata read data ≠ []) :
    ∃ out w, readAltitudes ext t nodata read data (some .constant) (some (some c)) = .ok out ∧ out.length = data.length ∧
      Kept t c w ∧
      ∀ i, i < data.length → (NoData nodata read data i → out[i]? = some (some w)) ∧
        (¬ NoData nodata read data i → out[i]? = data[i]?) := by
  obtain ⟨s, hs⟩ : ∃ s, dtmStats (validValues nodata read data) = .ok s := by
    cases h : validValues nodata read data with
    | nil => exact absurd h hv
    | cons a l => exact ⟨_, rfl⟩
  obtain ⟨w, hw, hk⟩ := store_kept t c
  have hlen := dtmMask_length nodata read data hl
  refine ⟨fillMasked (dtmMask nodata read data) data (some w), w, ?_, fillMasked_length _ _ _ hlen, hk, ?_⟩
  · unfold readAltitudes
    rw [validData_eq nodata read data hl, hs]
    simp only [bind, Except.bind, fillNodata, DtmStats.get, hw, pure, Except.pure]
  · intro i hi
    obtain ⟨h1, h2⟩ := fillMasked_get (dtmMask nodata read data) data (some w) hlen i hi
    rw [← dtmMask_zero nodata read data hl i hi]
    exact ⟨h1, h2⟩

/-- C58. Strategy constant without constant (the default of the constructor): cells without data become NaN in a
floating-point file, and the reader raises `TypeError` for an integer file. -/
theorem C58_constant_missing (hl : nodata ≠ none → read.length = data.length) (hv : validValues nodata read data ≠ []) :
    readAltitudes ext .int nodata read data (some .constant) none = .error .typeError ∧
    ∃ out, readAltitudes ext .float nodata read data (some .constant) none = .ok out ∧
      ∀ i, i < data.length → (NoData nodata read data i → out[i]? = some none) ∧
        (¬ NoData nodata read data i → out[i]? = data[i]?) := by
  obtain ⟨s, hs⟩ : ∃ s, dtmStats (validValues nodata read data) = .ok s := by
    cases h : validValues nodata read data with
    | nil => exact absurd h hv
    | cons a l => exact ⟨_, rfl⟩
  have hlen := dtmMask_length nodata read data hl
  constructor
  · unfold readAltitudes
    rw [validData_eq nodata read data hl, hs]
    simp only [bind, Except.bind, fillNodata, DtmStats.get]
  · refine ⟨fillMasked (dtmMask nodata read data) data none, ?_, ?_⟩
    · unfold readAltitudes
      rw [validData_eq nodata read data hl, hs]
      simp only [bind, Except.bind, fillNodata, DtmStats.get, pure, Except.pure]
    · intro i hi
      obtain ⟨h1, h2⟩ := fillMasked_get (dtmMask nodata read data) data none hlen i hi
      rw [← dtmMask_zero nodata read data hl i hi]
      exact ⟨h1, h2⟩

/-- C58. No strategy, or an unknown one: the cells are those of the file. -/
theorem C58_untouched (strategy : Option FillStrategy) (hst : strategy = none ∨ strategy = some .other)
    (hl : nodata ≠ none → read.length = data.length) (hv : validValues nodata read data ≠ []) :
    readAltitudes ext t nodata read data strategy fill = .ok data := by
  obtain ⟨s, hs⟩ : ∃ s, dtmStats (validValues nodata read data) = .ok s := by
    cases h : validValues nodata read data with
    | nil => exact absurd h hv
    | cons a l => exact ⟨_, rfl⟩
  unfold readAltitudes
  rw [validData_eq nodata read data hl, hs]
  rcases hst with rfl | rfl
  · simp only [bind, Except.bind, pure, Except.pure]
  · simp only [bind, Except.bind, fillNodata, DtmStats.get, pure, Except.pure]

/-- C58. With a statistic, every altitude of a floating-point DTM is a number between two valid values (so the altitude
range of the DTM is that of its valid cells), provided that the mask of the file has only the values 0 and 255. -/
theorem C58_range (st : FillStrategy) (hst : st = .min ∨ st = .max ∨ st = .mean ∨ st = .median)
    (hl : nodata ≠ none → read.length = data.length) (hm : ∀ m ∈ read, m = 0 ∨ m = 255) (out : List (Option K))
    (h : readAltitudes ext .float nodata read data (some st) fill = .ok out) (i : ℕ) (hi : i < data.length) :
    ∃ z, out[i]? = some (some z) ∧ (∃ x ∈ validValues nodata read data, x ≤ z) ∧ ∃ x ∈ validValues nodata read data, z ≤ x := by
  unfold readAltitudes at h
  rw [validData_eq nodata read data hl] at h
  cases hs : dtmStats (validValues nodata read data) with
  | error e => rw [hs] at h; simp [bind, Except.bind] at h
  | ok s =>
    rw [hs] at h
    obtain ⟨v, hget⟩ : ∃ v, s.get st = some v := by rcases hst with rfl | rfl | rfl | rfl <;> exact ⟨_, rfl⟩
    simp only [bind, Except.bind, fillNodata, hget, DType.store, pure, Except.pure, Except.ok.injEq] at h
    subst h
    have hlen := dtmMask_length nodata read data hl
    obtain ⟨h1, h2⟩ := fillMasked_get (dtmMask nodata read data) data (some v) hlen i hi
    by_cases hn : NoData nodata read data i
    · exact ⟨v, h1 ((dtmMask_zero nodata read data hl i hi).2 hn), ((dtmStats_ok _ s hs).2 st v hget).2⟩
    · have h3 := h2 (fun e => hn ((dtmMask_zero nodata read data hl i hi).1 e))
      unfold NoData at hn
      rw [List.getElem?_eq_getElem hi] at hn h3
      push Not at hn
      cases hd : data[i] with
      | none => simp [hd] at hn
      | some z =>
        refine ⟨z, by rw [h3, hd], ?_⟩
        have hz : z ∈ validValues nodata read data := by
          unfold validValues
          cases nodata with
          | none =>
            simp only [List.mem_filterMap]
            exact ⟨some z, hd ▸ List.getElem_mem hi, rfl⟩
          | some n =>
            have hr : i < read.length := by rw [hl (by simp)]; exact hi
            have h4 := hn.2 (by simp)
            rw [List.getElem?_eq_getElem hr] at h4
            have h5 : read[i] = 255 := (hm _ (List.getElem_mem hr)).resolve_left (by simpa using h4)
            simp only [List.mem_filterMap]
            refine ⟨(read[i], data[i]), ?_, by simp [h5, hd]⟩
            rw [List.mem_iff_getElem]
            exact ⟨i, by simp [hr, hi], by simp⟩
        exact ⟨⟨z, hz, le_rfl⟩, z, hz, le_rfl⟩

/-! #### rio_fillnodata -/

/-- What is expected from `rasterio.fill.fillnodata`: it keeps the size and the cells of mask other than 0. -/
def KeepsValid (ext : List (Option K) → List ℕ → List (Option K)) (data : List (Option K)) (mask : List ℕ) : Prop :=
  (ext data mask).length = data.length ∧ ∀ i : ℕ, mask[i]? ≠ some 0 → (ext data mask)[i]? = data[i]?

/-- The mask of the file marks the cells that have the no-data value. -/
def MaskMarks (nodata : Option (Option K)) (read : List ℕ) (data : List (Option K)) : Prop :=
  ∀ i n : ℕ, ∀ v : K, nodata = some (some v) → data[i]? = some (some v) → read[i]? = some n → n = 0

theorem rio_unfold (s : DtmStats K) (hs : dtmStats (validData (dtmMask nodata read data) data) = .ok s) :
    readAltitudes ext t nodata read data (some .rioFillnodata) fill =
      if residual nodata (dtmMask nodata read data) (ext data (dtmMask nodata read data)) then
        (t.store (fill.getD (some s.min))).map fun v' => (ext data (dtmMask nodata read data)).map fun x => if isNodata nodata x then v' else x
      else .ok (ext data (dtmMask nodata read data)) := by
  unfold readAltitudes
  rw [hs]
  simp only [bind, Except.bind, fillNodata, DtmStats.get, pure, Except.pure]
  split_ifs
  · cases t.store (fill.getD (some s.min)) <;> rfl
  · rfl

/-- C58. Strategy rio_fillnodata: a cell with data keeps its value, provided that the filling of rasterio does so and that the
mask of the file marks the cells that have the no-data value.
Missing: other masks (`C58_rio_mask_band_counterexample`). -/
theorem C58_rio_keeps_valid_partial (hl : nodata ≠ none → read.length = data.length) (hmk : MaskMarks nodata read data)
    (hk : KeepsValid ext data (dtmMask nodata read data)) (out : List (Option K))
    (h : readAltitudes ext t nodata read data (some .rioFillnodata) fill = .ok out) :
    out.length = data.length ∧ ∀ i, i < data.length → ¬ NoData nodata read data i → out[i]? = data[i]? := by
  cases hs : dtmStats (validData (dtmMask nodata read data) data) with
  | error e => unfold readAltitudes at h; rw [hs] at h; simp [bind, Except.bind] at h
  | ok s =>
    rw [rio_unfold ext t nodata read data fill s hs] at h
    have hkeep : ∀ i, i < data.length → ¬ NoData nodata read data i → (ext data (dtmMask nodata read data))[i]? = data[i]? :=
      fun i hi hn => hk.2 i fun e => hn ((dtmMask_zero nodata read data hl i hi).1 e)
    split_ifs at h with hr
    · cases hst : t.store (fill.getD (some s.min)) with
      | error e => rw [hst] at h; simp [Except.map] at h
      | ok v' =>
        rw [hst] at h
        simp only [Except.map, Except.ok.injEq] at h
        subst h
        refine ⟨by simp [hk.1], ?_⟩
        intro i hi hn
        rw [List.getElem?_map, hkeep i hi hn, List.getElem?_eq_getElem hi, Option.map_some]
        congr 1
        have hnot : isNodata nodata data[i] = false := by
          unfold isNodata
          split
          · rename_i n v h2
            rw [decide_eq_false_iff_not]
            rintro rfl
            have hr : i < read.length := by rw [hl (by simp)]; exact hi
            have h3 := hmk i read[i] v rfl (by rw [List.getElem?_eq_getElem hi, h2]) (List.getElem?_eq_getElem hr)
            exact hn (.inr ⟨by simp, by rw [List.getElem?_eq_getElem hr, h3]⟩)
          · rfl
        simp [hnot]
    · simp only [Except.ok.injEq] at h
      subst h
      exact ⟨hk.1, hkeep⟩

/-- C58. Strategy rio_fillnodata: no cell without data has the no-data value afterwards, unless the fill value is this value
itself; the cells that rasterio left at the no-data value receive the fill value, or the minimum of the valid values when no
fill value is given. -/
theorem C58_rio_residual (hl : nodata ≠ none → read.length = data.length) (n : K) (hn : nodata = some (some n))
    (hlen : (ext data (dtmMask nodata read data)).length = data.length) (out : List (Option K))
    (h : readAltitudes ext .float nodata read data (some .rioFillnodata) fill = .ok out) :
    ∃ m, IsStatistic (validValues nodata read data) .min m ∧
      ∀ i, i < data.length → NoData nodata read data i →
        ((ext data (dtmMask nodata read data))[i]? = some (some n) → out[i]? = some (fill.getD (some m))) ∧
        ((ext data (dtmMask nodata read data))[i]? ≠ some (some n) → out[i]? = (ext data (dtmMask nodata read data))[i]?) := by
  cases hs : dtmStats (validData (dtmMask nodata read data) data) with
  | error e => unfold readAltitudes at h; rw [hs] at h; simp [bind, Except.bind] at h
  | ok s =>
    rw [rio_unfold ext .float nodata read data fill s hs] at h
    rw [validData_eq nodata read data hl] at hs
    refine ⟨s.min, ((dtmStats_ok _ s hs).2 .min s.min rfl).1, ?_⟩
    intro i hi hnd
    have hmask := (dtmMask_zero nodata read data hl i hi).2 hnd
    have hme := dtmMask_length nodata read data hl
    generalize dtmMask nodata read data = mask at *
    generalize ext data mask = e at *
    have hie : i < e.length := by omega
    have him : i < mask.length := by omega
    rw [List.getElem?_eq_getElem hie]
    subst hn
    split_ifs at h with hr
    · simp only [DType.store, Except.map, Except.ok.injEq] at h
      subst h
      rw [List.getElem?_map, List.getElem?_eq_getElem hie, Option.map_some]
      constructor
      · intro he
        have : e[i] = some n := by simpa using he
        simp [this, isNodata]
      · intro he
        have he' : e[i] ≠ some n := by simpa using he
        have : isNodata (some (some n)) e[i] = false := by
          cases hc : e[i] with
          | none => rfl
          | some v => rw [hc] at he'; simpa [isNodata] using he'
        simp [this]
    · simp only [Except.ok.injEq] at h
      subst h
      refine ⟨?_, fun _ => List.getElem?_eq_getElem hie⟩
      intro he
      exfalso
      apply hr
      unfold residual
      rw [List.any_eq_true]
      refine ⟨(mask[i], e[i]), ?_, ?_⟩
      · rw [List.mem_iff_getElem]
        exact ⟨i, by simp [hie, him], by simp⟩
      · have h1 : mask[i] = 0 := by rw [List.getElem?_eq_getElem him] at hmask; simpa using hmask
        have h2 : e[i] = some n := by simpa using he
        simp [h1, h2, isNodata]

/-- C58. A file without no-data value, or whose no-data value is NaN: nothing is done after the filling of rasterio, the
cells it did not fill stay as they are (NaN), whatever the fill value. -/
theorem C58_rio_nan_nodata (hn : nodata = none ∨ nodata = some none) (hl : nodata ≠ none → read.length = data.length)
    (hv : validValues nodata read data ≠ []) :
    readAltitudes ext t nodata read data (some .rioFillnodata) fill = .ok (ext data (dtmMask nodata read data)) := by
  obtain ⟨s, hs⟩ : ∃ s, dtmStats (validValues nodata read data) = .ok s := by
    cases h : validValues nodata read data with
    | nil => exact absurd h hv
    | cons a l => exact ⟨_, rfl⟩
  rw [rio_unfold ext t nodata read data fill s (by rw [validData_eq nodata read data hl, hs])]
  have hres : ∀ m e, residual nodata m e = false := by
    intro m e
    unfold residual
    rw [List.any_eq_false]
    rintro ⟨a, b⟩ -
    rcases hn with rfl | rfl <;> simp [isNodata]
  simp [hres]

/-- C58, full claim false for rio_fillnodata: the fill value is documented for the residual no-data cells and NaN cells are
documented as filled, but a NaN cell that rasterio could not reach stays NaN (here rasterio fills nothing), whether the
no-data value is NaN or a number. -/
theorem C58_rio_nan_counterexample :
    ∃ (ext : List (Option ℚ) → List ℕ → List (Option ℚ)), (∀ data mask, KeepsValid ext data mask) ∧
      readAltitudes ext .float (some none) [255, 0] [some 5, none] (some .rioFillnodata) (some (some 7)) = .ok [some 5, none] ∧
      readAltitudes ext .float (some (some (-32768))) [255, 255] [some 5, none] (some .rioFillnodata) (some (some 7)) = .ok [some 5, none] ∧
      readAltitudes ext .float (some (some (-32768))) [255, 0] [some 5, some (-32768)] (some .rioFillnodata) (some (some 7)) =
        .ok [some 5, some 7] := by
  refine ⟨fun d _ => d, fun data mask => ⟨rfl, fun _ _ => rfl⟩, ?_, ?_, ?_⟩ <;> decide +kernel

/-- C58, full claim false without `MaskMarks`: when the mask of the file comes from a mask band, a valid cell that happens to
have the no-data value is replaced, if another cell was left unfilled. -/
theorem C58_rio_mask_band_counterexample :
    ∃ (ext : List (Option ℚ) → List ℕ → List (Option ℚ)), (∀ data mask, KeepsValid ext data mask) ∧
      ¬ NoData (some (some (0 : ℚ))) [255, 255, 0] [some 5, some 0, some 0] 1 ∧
      readAltitudes ext .float (some (some 0)) [255, 255, 0] [some 5, some 0, some 0] (some .rioFillnodata) (some (some 7)) =
        .ok [some 5, some 7, some 7] := by
  refine ⟨fun d _ => d, fun data mask => ⟨rfl, fun _ _ => rfl⟩, ?_, ?_⟩
  · unfold NoData; simp
  · decide +kernel

/-- The statistics on an example: cell 1 masked, cell 3 NaN; the median of 1, 4, 9 and the mean 14/3. -/
example :
    readAltitudes (K := ℚ) (fun d _ => d) .float (some (some 0)) [255, 0, 255, 255, 255] [some 9, some 0, some 1, none, some 4] (some .median) none =
      .ok [some 9, some 4, some 1, some 4, some 4] ∧
    readAltitudes (K := ℚ) (fun d _ => d) .int (some (some 0)) [255, 0, 255, 0, 255] [some 9, some 0, some 1, some 0, some 4] (some .mean) none =
      .ok [some 9, some 4, some 1, some 4, some 4] ∧
    validValues (K := ℚ) (some (some 0)) [255, 0, 255, 255, 255] [some 9, some 0, some 1, none, some 4] = [9, 1, 4] := by
  refine ⟨?_, ?_, ?_⟩ <;> decide +kernel

end Shareloc
