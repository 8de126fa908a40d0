import Verif.Float.SortingProps
import Verif.Float.NanPaths

/-!
# C103: interpolation, neighbours and splines on data with NaN
-/

namespace Verif.Float.Sorting

open X64
open Verif.Math (Interp InterpErr)
open Verif.Float.Nan (isNan known nan_div foldl_add_mem nan_lt lt_nan)

theorem sortBy_fin {S : ∀ n, Sorter n} (hS : ∀ n, (S n).Correct) (xs : List F64) : sortBy S id (xs.map fin) = some ((sorted xs).map fin) := by
  obtain ⟨ys, h1, h2, h3⟩ := C103_sorts hS id (xs.map fin) (by intro x hx; obtain ⟨a, _, rfl⟩ := List.mem_map.1 hx; simp)
  rw [h1]
  refine congrArg some ?_
  have h4 : ((sorted xs).map fin).Pairwise fun x y => value x ≤ value y := by
    rw [List.pairwise_map]
    refine (List.pairwise_insertionSort (fun a b : F64 => a.val ≤ b.val) xs).imp fun h => ?_
    exact EReal.coe_le_coe_iff.2 (Rat.cast_le.2 h)
  refine List.Perm.eq_of_pairwise (le := fun x y => value x ≤ value y) (fun x y hx hy hxy hyx => ?_) h3 h4 (h2.trans ((List.perm_insertionSort _ xs).symm.map fin))
  obtain ⟨b, _, rfl⟩ := List.mem_map.1 hy
  obtain ⟨a, _, rfl⟩ := List.mem_map.1 (h2.mem_iff.1 hx)
  exact value_inj (by simp) (by simp) (le_antisymm hxy hyx)

/-- **C103**: on finite data the median and the quantiles are the ones of C87, where those are finite: the sorting procedure makes no difference. -/
theorem C103_same {S : ∀ n, Sorter n} (hS : ∀ n, (S n).Correct) (xs : List F64) (v : F64) :
    (Float.median xs = .ok v → median S (xs.map fin) = some (fin v)) ∧
    ∀ q, Float.quantile xs q = .ok v → quantile S (xs.map fin) (fin q) = some (fin v) := by
  have hs := sortBy_fin hS xs
  have hlen : ((sorted xs).map fin).length = (sorted xs).length := List.length_map _
  refine ⟨fun h => ?_, fun q h => ?_⟩
  · unfold Float.median at h
    split_ifs at h with h0
    dsimp only at h
    by_cases h1 : (sorted xs).length % 2 = 0
    · rw [if_pos h1] at h
      unfold median
      rw [if_neg (by simpa using h0), hs]
      simp only [Option.bind_eq_bind, Option.bind_some, hlen, if_pos h1, List.getElem?_map]
      cases ha : (sorted xs)[(sorted xs).length / 2 - 1]? with
      | none => simp only [ha] at h; cases h
      | some a => cases hb : (sorted xs)[(sorted xs).length / 2]? with
        | none => simp only [ha, hb] at h; cases h
        | some b =>
          cases h2 : ofNat 2 with
          | none => simp only [ha, hb, h2] at h; cases h
          | some two =>
            simp only [ha, hb, h2] at h
            simp only [Option.map_some, Option.bind_some, Option.pure_def]
            cases h3 : a.add b with
            | none => simp only [h3] at h; cases h
            | some t =>
              cases h4 : t.div two with
              | none => simp only [h3, Option.bind_eq_bind, Option.bind_some, h4] at h; cases h
              | some w =>
                simp only [h3, Option.bind_eq_bind, Option.bind_some, h4] at h
                have h5 : w = v := by injection h
                rw [show (fin a).add (fin b) = fin t from Nan.fin_of h3, show ofQ 2 = fin two from Nan.fin_of (by exact_mod_cast h2), Nan.div_of h4, h5]
    · rw [if_neg h1] at h
      unfold median
      rw [if_neg (by simpa using h0), hs]
      simp only [Option.bind_eq_bind, Option.bind_some, hlen, if_neg h1, List.getElem?_map]
      cases ha : (sorted xs)[(sorted xs).length / 2]? with
      | none => simp only [ha] at h; cases h
      | some a =>
        simp only [ha] at h
        have h5 : a = v := by injection h
        rw [h5]; rfl
  · unfold Float.quantile at h
    split_ifs at h with h0 h1
    rw [not_or, not_lt, not_lt] at h1
    obtain ⟨one, h2, h3⟩ := Bsm.one_val
    have hc : (Nan.le Nan.zero (fin q) && Nan.le (fin q) (ofQ 1)) = true := by
      rw [h2]
      show (decide (0 ≤ q.val) && decide (q.val ≤ one.val)) = true
      rw [h3]; simp [h1.1, h1.2]
    unfold quantile
    rw [if_neg (by simpa using h0), hc, hs]
    simp only [Bool.not_true, Bool.false_eq_true, if_false, Option.bind_eq_bind, Option.bind_some, hlen, List.getElem?_map]
    cases hn : ofNat ((sorted xs).length - 1) with
    | none => simp only [hn] at h; cases h
    | some m =>
      cases hi : q.mul m with
      | none => simp only [hn, Option.bind_eq_bind, Option.bind_some, hi] at h; cases h
      | some index =>
        simp only [hn, Option.bind_eq_bind, Option.bind_some, hi] at h
        rw [show X64.ofNat ((sorted xs).length - 1) = fin m from Nan.fin_of hn, show (fin q).mul (fin m) = fin index from Nan.fin_of hi]
        cases ha : (sorted xs)[⌊index.val⌋₊]? with
        | none => simp only [ha] at h; cases h
        | some a => cases hb : (sorted xs)[⌈index.val⌉₊]? with
          | none => simp only [ha, hb] at h; cases h
          | some b =>
            simp only [ha, hb] at h
            simp only [ha, hb, Option.map_some, Option.bind_some, Option.pure_def]
            cases h4 : toF64 (⌊index.val⌋ : ℚ) with
            | none => simp only [h4] at h; cases h
            | some f => cases h5 : index.sub f with
              | none => simp only [h4, Option.bind_some, h5] at h; cases h
              | some t =>
                simp only [h4, Option.bind_some, h5, lerp, Option.bind_eq_bind] at h
                cases h6 : b.sub a with
                | none => simp only [h6] at h; cases h
                | some e => cases h7 : e.mul t with
                  | none => simp only [h6, Option.bind_some, h7] at h; cases h
                  | some g => cases h8 : a.add g with
                    | none => simp only [h6, Option.bind_some, h7, h8] at h; cases h
                    | some w =>
                      simp only [h6, Option.bind_some, h7, h8] at h
                      have h9 : w = v := by injection h
                      rw [show ofQ (⌊index.val⌋ : ℚ) = fin f from Nan.fin_of h4, Nan.sub_of h5, Nan.sub_of h6,
                        show (fin e).mul (fin t) = fin g from Nan.fin_of h7, show (fin a).add (fin g) = fin w from Nan.fin_of h8, h9]

/-- **C103**: building an interpolator from at least two points panics if an abscissa is NaN; ordinates that are NaN are accepted. -/
theorem C103_interp_new {S : ∀ n, Sorter n} (hS : ∀ n, (S n).Correct) (xs ys : List X64) (hl : xs.length = ys.length) :
    (2 ≤ xs.length → nan ∈ xs → newInterp S xs ys = none) ∧
    (nan ∉ xs → ∃ I, newInterp S xs ys = some (.ok I) ∧ (I.xs.zip I.ys).Perm (xs.zip ys) ∧ I.xs.length = I.ys.length ∧
      I.xs.Pairwise fun x y => value x ≤ value y) := by
  refine ⟨fun h2 hn => ?_, fun hn => ?_⟩
  · obtain ⟨i, hi, hx⟩ := List.getElem_of_mem hn
    unfold newInterp
    rw [if_neg (by simpa using hl), C103_sort_nan hS Prod.fst (xs.zip ys) (by rw [List.length_zip]; omega) (xs[i], ys[i])
      (by rw [← List.getElem_zip (h := by rw [List.length_zip]; omega)]; exact List.getElem_mem _) hx]
    rfl
  · obtain ⟨tmp, h1, h2, h3⟩ := C103_sorts hS Prod.fst (xs.zip ys) (fun x hx h => hn (h ▸ (List.of_mem_zip hx).1))
    refine ⟨⟨tmp.map Prod.fst, tmp.map Prod.snd, false⟩, ?_, ?_, by simp, by rw [List.pairwise_map]; exact h3⟩
    · unfold newInterp
      rw [if_neg (by simpa using hl), h1]
      rfl
    · show ((tmp.map Prod.fst).zip (tmp.map Prod.snd)).Perm _
      rw [← List.unzip_fst, ← List.unzip_snd, List.zip_unzip]
      exact h2

/-- C103 (defect): the documentation says that a NaN abscissa panics; a single one is accepted, and then every interpolation panics. -/
theorem C103_interp_single {S : ∀ n, Sorter n} (hS : ∀ n, (S n).Correct) (hd : ∀ n, (S n).Distinct) (y : X64) :
    ∃ I, newInterp S [nan] [y] = some (.ok I) ∧ ∀ lazy search seg p, interpolate lazy search seg I p = none := by
  refine ⟨⟨[nan], [y], false⟩, ?_, fun lazy search seg p => ?_⟩
  · unfold newInterp
    rw [if_neg (by simp), show ([nan] : List X64).zip [y] = [(nan, y)] from rfl, C103_sort_single hS hd]
    rfl
  · unfold interpolate outside
    simp only [List.head?_cons, List.getLast?_singleton, Option.bind_eq_bind, Option.bind_some, cmp_nan_right, Option.bind_none]

/-- C103 (defect): adding a point whose abscissa is NaN puts it in front, without any error; from then on every interpolation panics. -/
theorem C103_interp_add (I : Interp X64 X64) (y : X64) :
    (addPoint I (nan, y)).xs = nan :: I.xs ∧ (addPoint I (nan, y)).ys = y :: I.ys ∧
    ∀ lazy search seg p, interpolate lazy search seg (addPoint I (nan, y)) p = none := by
  have h : partitionPoint I.xs nan = 0 := by
    unfold partitionPoint
    cases hx : I.xs with
    | nil => rfl
    | cons x xs => rw [List.takeWhile_cons, lt_nan]; rfl
  have h1 : (addPoint I (nan, y)).xs = nan :: I.xs := by unfold addPoint; simp only [h]; rfl
  have h2 : (addPoint I (nan, y)).ys = y :: I.ys := by unfold addPoint; simp only [h]; rfl
  refine ⟨h1, h2, fun lazy search seg p => ?_⟩
  unfold interpolate outside
  rw [h1]
  simp only [List.head?_cons, List.getLast?_cons, Option.bind_eq_bind, Option.bind_some, cmp_nan_right, Option.bind_none]

/-- **C103**: interpolating at NaN panics, although points outside of the range are reported by an error. -/
theorem C103_interp_at_nan (I : Interp X64 X64) (lazy : Bool) (search : List X64 → X64 → Option (Option ℕ))
    (seg : X64 → X64 → X64 → X64 → X64 → X64) : interpolate lazy search seg I nan = none := by
  unfold interpolate outside
  cases I.xs.head? with
  | none => rfl
  | some a => cases I.xs.getLast? with
    | none => rfl
    | some b => simp only [Option.bind_eq_bind, Option.bind_some, cmp_nan_left, Option.bind_none]

/-- **C103**: a NaN ordinate is returned at its point, and makes the linear interpolant NaN all the way to both neighbours. -/
theorem C103_interp_nan_value (I : Interp X64 X64) (lazy : Bool) (search : List X64 → X64 → Option (Option ℕ)) (p : X64)
    (hin : outside lazy I p = some false) :
    (∀ i, search I.xs p = some (some i) → I.ys[i]? = some nan → interpolate lazy search segment I p = some (.ok nan)) ∧
    (search I.xs p = some none → ∀ xl xr yl yr, 0 < partitionPoint I.xs p → I.xs[partitionPoint I.xs p - 1]? = some xl →
      I.xs[partitionPoint I.xs p]? = some xr → I.ys[partitionPoint I.xs p - 1]? = some yl → I.ys[partitionPoint I.xs p]? = some yr →
      yl = nan ∨ yr = nan → interpolate lazy search segment I p = some (.ok nan)) := by
  refine ⟨fun i h1 h2 => ?_, fun h1 xl xr yl yr h0 h2 h3 h4 h5 h6 => ?_⟩
  · unfold interpolate
    rw [hin]
    simp only [Option.bind_eq_bind, Option.bind_some, Bool.false_eq_true, if_false, h1, h2, Option.pure_def]
  · unfold interpolate
    rw [hin]
    simp only [Option.bind_eq_bind, Option.bind_some, Bool.false_eq_true, if_false, h1, if_neg h0.ne', h2, h3, h4, h5, Option.pure_def]
    have : segment p xl xr yl yr = nan := by
      unfold segment
      rcases h6 with rfl | rfl
      · rw [nan_add]
      · rw [nan_sub, nan_mul, X64.add_nan]
    rw [this]

/-- **C103**: nearest neighbours cannot be found among two or more samples if one distance is NaN, and a spline cannot be built on two or more knots if one is NaN; otherwise
the `k` nearest samples come out, nearest first. -/
theorem C103_neighbours {S : ∀ n, Sorter n} (hS : ∀ n, (S n).Correct) (ds : List X64) (k : ℕ) :
    (2 ≤ ds.length → nan ∈ ds → findNeighbors S ds k = none ∧
      ∀ controlPoints degree, ds.length = controlPoints + degree + 1 → splineKnots S ds controlPoints degree = none) ∧
    (nan ∉ ds → ∃ r, findNeighbors S ds k = some r ∧ r.length = Nat.min k ds.length ∧ (∀ p ∈ r, ds[p.1]? = some p.2) ∧
      (r.Pairwise fun p q => value p.2 ≤ value q.2) ∧ (r.map Prod.fst).Nodup ∧
      ∀ p ∈ r, ∀ j d, ds[j]? = some d → j ∉ r.map Prod.fst → value p.2 ≤ value d) := by
  refine ⟨fun h2 hn => ⟨?_, fun cp degree hl => ?_⟩, fun hn => ?_⟩
  · obtain ⟨i, hi, hx⟩ := List.getElem_of_mem hn
    have hlen : i < ((List.range ds.length).zip ds).length := by rw [List.length_zip, List.length_range]; omega
    unfold findNeighbors
    rw [C103_sort_nan hS Prod.snd ((List.range ds.length).zip ds) (by rw [List.length_zip, List.length_range]; omega)
      (((List.range ds.length).zip ds)[i]) (List.getElem_mem _) (by rw [List.getElem_zip]; exact hx)]
    rfl
  · unfold splineKnots
    rw [if_neg (by simpa using hl), C103_sort_nan hS id ds h2 nan hn rfl]
    rfl
  · have hz : ∀ p : ℕ × X64, p ∈ (List.range ds.length).zip ds ↔ ds[p.1]? = some p.2 := by
      intro p
      constructor
      · intro hp
        obtain ⟨i, hi, rfl⟩ := List.getElem_of_mem hp
        rw [List.getElem_zip, List.getElem_range]
        rw [List.length_zip, List.length_range] at hi
        exact List.getElem?_eq_getElem (by omega)
      · intro hp
        obtain ⟨hlt, he⟩ := List.getElem?_eq_some_iff.1 hp
        refine List.mem_iff_getElem.2 ⟨p.1, by rw [List.length_zip, List.length_range]; omega, ?_⟩
        rw [List.getElem_zip, List.getElem_range, he]
    obtain ⟨tmp, h1, h2, h3⟩ := C103_sorts hS Prod.snd ((List.range ds.length).zip ds) (fun x hx h => hn (h ▸ (List.of_mem_zip hx).2))
    have hlen : tmp.length = ds.length := by rw [h2.length_eq, List.length_zip, List.length_range, Nat.min_self]
    have hnd : (tmp.map Prod.fst).Nodup := by
      rw [(h2.map Prod.fst).nodup_iff, List.map_fst_zip (by simp)]
      exact List.nodup_range
    refine ⟨tmp.take k, by unfold findNeighbors; rw [h1]; rfl, by rw [List.length_take, hlen], fun p hp => ?_, h3.sublist (List.take_sublist k tmp), ?_,
      fun p hp j d hj hjn => ?_⟩
    · exact (hz p).1 (h2.mem_iff.1 (List.mem_of_mem_take hp))
    · exact hnd.sublist ((List.take_sublist k tmp).map _)
    · have hmem : (j, d) ∈ tmp := h2.mem_iff.2 ((hz (j, d)).2 hj)
      rw [← List.take_append_drop k tmp] at hmem h3
      rcases List.mem_append.1 hmem with h | h
      · exact absurd (List.mem_map.2 ⟨_, h, rfl⟩) hjn
      · exact (List.pairwise_append.1 h3).2.2 p hp (j, d) h

/-! ## The hypotheses hold in concrete cases -/

/-- Three values, one of them lost. -/
def someData : List X64 := [fin (lit 7), nan, fin (lit 3)]

example := C103_sorts insertionSorter_correct id [fin (lit 7), inf true, fin (lit 3)] (by simp)

example : sortBy insertionSorter id someData = none := C103_sort_nan insertionSorter_correct id someData (by simp [someData]) nan (by simp [someData]) rfl

example : (sortBy insertionSorter id [fin (lit 7), inf true, fin (lit 3)]).map (List.map Nan.show') =
    some [some (.inr true), some (.inl 3), some (.inl 7)] := by decide +kernel

example := C103_statistics insertionSorter_correct someData (by simp [someData]) (by simp [someData]) (fin (lit (1 / 2)))

example := C103_statistics_single insertionSorter_correct insertionSorter_distinct (lit (1 / 2)) (by decide +kernel) (by decide +kernel)

example := C103_mean someData (by simp [someData])

/-- The mean is NaN and the median panics, but the range is 4. -/
example : (range someData).map Nan.show' = some (some (.inl 4)) := by decide +kernel

example := (C103_extremes someData (by simp [someData])).1 (by simp [someData, known, isNan])

example := (C103_extremes [nan, nan] (by simp)).2.1 rfl

example := C103_extreme_values someData (by simp [someData, known, isNan])

example : ∃ v : F64, v.val = 5 ∧ median insertionSorter ([lit 7, lit 3].map fin) = some (fin v) := by
  have h : (match Float.median [lit 7, lit 3] with | .ok v => some v.val | _ => none) = some 5 := by decide +kernel
  cases hm : Float.median [lit 7, lit 3] with
  | ok v =>
    rw [hm] at h
    exact ⟨v, Option.some.inj h, (C103_same insertionSorter_correct [lit 7, lit 3] v).1 hm⟩
  | panic => rw [hm] at h; cases h
  | nonfinite => rw [hm] at h; cases h

example := (C103_interp_new insertionSorter_correct someData [fin (lit 1), fin (lit 2), fin (lit 3)] rfl).1 (by simp [someData]) (by simp [someData])

example := (C103_interp_new insertionSorter_correct [fin (lit 2), fin (lit 1)] [nan, fin (lit 2)] rfl).2 (by simp)

example := C103_interp_single insertionSorter_correct insertionSorter_distinct (fin (lit 1))

/-- An interpolator with a lost ordinate. -/
def someInterp : Interp X64 X64 := ⟨[fin (lit 1), fin (lit 2), fin (lit 3)], [fin (lit 10), nan, fin (lit 30)], true⟩

example := (C103_interp_add someInterp (fin (lit 5))).2.2 true (fun _ _ => some none) segment (fin (lit 2))

example := C103_interp_at_nan someInterp true (fun _ _ => some none) segment

example : interpolate true (fun _ _ => some (some 1)) segment someInterp (fin (lit 2)) = some (.ok nan) :=
  (C103_interp_nan_value someInterp true (fun _ _ => some (some 1)) (fin (lit 2)) (by decide +kernel)).1 1 rfl rfl

example : interpolate true (fun _ _ => some none) segment someInterp (fin (lit (3 / 2))) = some (.ok nan) := by
  have h1 : partitionPoint someInterp.xs (fin (lit (3 / 2))) = 1 := by decide +kernel
  refine (C103_interp_nan_value someInterp true (fun _ _ => some none) (fin (lit (3 / 2))) (by decide +kernel)).2 rfl (fin (lit 1)) (fin (lit 2)) (fin (lit 10)) nan
    ?_ ?_ ?_ ?_ ?_ (Or.inr rfl)
  · rw [h1]; norm_num
  all_goals rw [h1]; rfl

example := (C103_neighbours insertionSorter_correct someData 2).1 (by simp [someData]) (by simp [someData])

example := (C103_neighbours insertionSorter_correct [fin (lit 7), fin (lit 3)] 1).2 (by simp)

end Verif.Float.Sorting
