import Verif.ML.Knn
import Mathlib.Tactic

/-!
# C73: classification by nearest neighbours
-/

namespace Verif.ML

variable {m n : ℕ}

theorem not_both_sublists {α : Type*} {a b : α} {l : List α} (hn : l.Nodup) (h1 : [a, b].Sublist l)
    (h2 : [b, a].Sublist l) : False := by
  induction l with
  | nil => simp at h1
  | cons c t ih =>
    obtain ⟨hc, ht⟩ := List.nodup_cons.1 hn
    cases h1 with
    | cons _ h1 =>
      cases h2 with
      | cons _ h2 => exact ih ht h1 h2
      | cons_cons _ h2 => exact hc (h1.subset (by simp))
    | cons_cons _ h1 =>
      cases h2 with
      | cons _ h2 => exact hc (h2.subset (by simp))
      | cons_cons _ h2 => exact hc (h1.subset (by simp))

theorem forall₂_of_mapM {α β : Type*} (f : α → Option β) (l : List α) :
    ∀ out, l.mapM f = some out → List.Forall₂ (fun a b => f a = some b) l out := by
  induction l with
  | nil =>
    intro out h
    simp only [List.mapM_nil, Option.pure_def, Option.some.injEq] at h
    rw [← h]
    exact List.Forall₂.nil
  | cons a t ih =>
    intro out h
    rw [List.mapM_cons] at h
    simp only [Option.bind_eq_bind, Option.bind_eq_some_iff, Option.pure_def, Option.some.injEq] at h
    obtain ⟨b, hb, bs, hbs, rfl⟩ := h
    exact List.Forall₂.cons hb (ih bs hbs)

open Classical in
theorem sorted_all (x : Matrix (Fin m) (Fin n) ℝ) (metric : Metric) (q : Fin n → ℝ) :
    let S := ((List.finRange m).map fun i => (i, metric.dist (x i) q)).mergeSort
      fun a b => decide (a.2 ≤ b.2)
    S.Perm ((List.finRange m).map fun i => (i, metric.dist (x i) q)) ∧
      S.Pairwise fun a b => a.2 < b.2 ∨ a.2 = b.2 ∧ a.1 < b.1 := by
  intro S
  set l := (List.finRange m).map fun i => (i, metric.dist (x i) q) with hl
  have hperm : S.Perm l := List.mergeSort_perm _ _
  have htr : ∀ a b c : Fin m × ℝ, decide (a.2 ≤ b.2) = true → decide (b.2 ≤ c.2) = true →
      decide (a.2 ≤ c.2) = true := by
    intro a b c h1 h2
    simp only [decide_eq_true_eq] at *
    exact h1.trans h2
  have htot : ∀ a b : Fin m × ℝ, (decide (a.2 ≤ b.2) || decide (b.2 ≤ a.2)) = true := by
    intro a b
    simp only [Bool.or_eq_true, decide_eq_true_eq]
    exact le_total _ _
  have hpw := List.pairwise_mergeSort htr htot l
  have hnd : l.Nodup := (List.nodup_finRange m).map fun a b h => (Prod.ext_iff.1 h).1
  have hndS : S.Nodup := hperm.nodup_iff.2 hnd
  refine ⟨hperm, ?_⟩
  rw [List.pairwise_iff_forall_sublist] at hpw ⊢
  intro a b hab
  have hle : a.2 ≤ b.2 := by simpa using hpw hab
  rcases hle.lt_or_eq with h | h
  · exact Or.inl h
  refine Or.inr ⟨h, ?_⟩
  have ha : a ∈ l := hperm.mem_iff.1 (hab.subset (by simp))
  have hb : b ∈ l := hperm.mem_iff.1 (hab.subset (by simp))
  obtain ⟨i, -, rfl⟩ := List.mem_map.1 ha
  obtain ⟨j, -, rfl⟩ := List.mem_map.1 hb
  have hne : i ≠ j := by
    rintro rfl
    have := hab.nodup hndS
    simp at this
  rcases lt_or_gt_of_ne hne with hij | hij
  · exact hij
  · exfalso
    have hsub : [j, i].Sublist (List.finRange m) := by
      have hp : (List.finRange m).Pairwise (· < ·) := List.pairwise_lt_finRange m
      have := List.sublist_of_subperm_of_pairwise (r := (· < ·)) (l₁ := [j, i])
        (l₂ := List.finRange m) ?_ (by simpa using hij) hp
      · exact this
      · exact (List.subperm_of_subset (by simp; exact fun h => hne h.symm) (by simp))
    have := List.pair_sublist_mergeSort htr htot (a := (j, metric.dist (x j) q))
      (b := (i, metric.dist (x i) q)) (l := l) (by simpa using h.ge)
      (hsub.map fun i => (i, metric.dist (x i) q))
    exact not_both_sublists hndS hab this

/-- The neighbours found are as many as asked for, or all samples if there are fewer; each comes with
its distance; they are in order of distance, with equal distances in order of position; and each comes
before every sample that is not among them. -/
theorem C73_neighbours (x : Matrix (Fin m) (Fin n) ℝ) (metric : Metric) (q : Fin n → ℝ) (k : ℕ) :
    let L := findNeighbors x metric q k
    L.length = min k m ∧ (∀ e ∈ L, e.2 = metric.dist (x e.1) q) ∧
      (L.Pairwise fun a b => a.2 < b.2 ∨ a.2 = b.2 ∧ a.1 < b.1) ∧
      ∀ e ∈ L, ∀ i, i ∉ L.map Prod.fst →
        e.2 < metric.dist (x i) q ∨ e.2 = metric.dist (x i) q ∧ e.1 < i := by
  classical
  intro L
  obtain ⟨hperm, hpw⟩ := sorted_all x metric q
  set S := ((List.finRange m).map fun i => (i, metric.dist (x i) q)).mergeSort
      fun a b => decide (a.2 ≤ b.2) with hS
  have hL : L = S.take k := rfl
  refine ⟨?_, ?_, ?_, ?_⟩
  · rw [hL, List.length_take, hperm.length_eq]; simp
  · intro e he
    have : e ∈ S := List.mem_of_mem_take he
    obtain ⟨i, -, rfl⟩ := List.mem_map.1 (hperm.mem_iff.1 this)
    rfl
  · exact hpw.sublist (List.take_sublist k S)
  · intro e he i hi
    have hmem : (i, metric.dist (x i) q) ∈ S := hperm.mem_iff.2 (List.mem_map.2 ⟨i, by simp, rfl⟩)
    rw [← List.take_append_drop k S] at hmem hpw
    rcases List.mem_append.1 hmem with h | h
    · exact absurd (List.mem_map.2 ⟨_, h, rfl⟩) hi
    · exact (List.pairwise_append.1 hpw).2.2 e he _ h

/-- What the vote over a list of labels returns. -/
theorem vote_spec (ls : List ℝ) :
    (∀ z, (ls.foldl vote (fun _ => 0, none)).1 z = (ls.map asI64).count z) ∧
      (ls = [] → (ls.foldl vote (fun _ => 0, none)).2 = none) ∧
      (ls ≠ [] → ∃ pre v post, ls = pre ++ v :: post ∧
        (ls.foldl vote (fun _ => 0, none)).2 = some ((ls.map asI64).count (asI64 v), v) ∧
        (∀ w ∈ ls, (ls.map asI64).count (asI64 w) ≤ (ls.map asI64).count (asI64 v)) ∧
        ∀ w ∈ post, (ls.map asI64).count (asI64 w) < (ls.map asI64).count (asI64 v)) := by
  induction ls using List.reverseRecOn with
  | nil => simp
  | append_singleton ls w ih =>
    obtain ⟨ih1, ih2, ih3⟩ := ih
    rw [List.foldl_append, List.foldl_cons, List.foldl_nil]
    set s := ls.foldl vote (fun _ => 0, none) with hs
    have hcnt : ∀ z, ((ls ++ [w]).map asI64).count z =
        (ls.map asI64).count z + if asI64 w = z then 1 else 0 := by
      intro z
      rw [List.map_append, List.count_append]
      simp [List.count_singleton]
    refine ⟨fun z => ?_, by simp, fun _ => ?_⟩
    · rw [hcnt]
      unfold vote
      simp only
      by_cases h : asI64 w = z
      · subst h; simp [ih1]
      · rw [Function.update_of_ne (Ne.symm h), ih1]; simp [h]
    · by_cases hls : ls = []
      · refine ⟨[], w, [], by simp [hls], ?_, ?_, by simp⟩
        · unfold vote
          rw [ih2 hls, hcnt, ih1]
          simp
        · intro u hu
          rw [hls] at hu
          simp only [List.nil_append, List.mem_singleton] at hu
          rw [hu]
      · obtain ⟨pre, v, post, he, hb, hmax, hpost⟩ := ih3 hls
        have hvote : (vote s w).2 = if (ls.map asI64).count (asI64 v) >
            (ls.map asI64).count (asI64 w) + 1 then
              some ((ls.map asI64).count (asI64 v), v) else
              some ((ls.map asI64).count (asI64 w) + 1, w) := by
          unfold vote
          rw [hb, ih1]
        rw [hvote]
        split_ifs with hgt
        · have hne : asI64 w ≠ asI64 v := by
            intro h; rw [h] at hgt; omega
          refine ⟨pre, v, post ++ [w], by rw [he]; simp, ?_, ?_, ?_⟩
          · rw [hcnt, if_neg hne, add_zero]
          · intro u hu
            rw [hcnt, hcnt, if_neg hne]
            rcases List.mem_append.1 hu with hu | hu
            · by_cases h : asI64 w = asI64 u
              · rw [if_pos h, ← h]; omega
              · rw [if_neg h]; have := hmax u hu; omega
            · rw [List.mem_singleton.1 hu]; simp; omega
          · intro u hu
            rw [hcnt, hcnt, if_neg hne]
            rcases List.mem_append.1 hu with hu | hu
            · by_cases h : asI64 w = asI64 u
              · rw [if_pos h, ← h]; omega
              · rw [if_neg h]; have := hpost u hu; omega
            · rw [List.mem_singleton.1 hu]; simp; omega
        · refine ⟨ls, w, [], rfl, by rw [hcnt]; simp, ?_, by simp⟩
          intro u hu
          rw [hcnt, hcnt]
          rcases List.mem_append.1 hu with hu | hu
          · by_cases h : asI64 w = asI64 u
            · rw [if_pos h, ← h]; simp
            · rw [if_neg h]; have := hmax u hu; simp; omega
          · rw [List.mem_singleton.1 hu]

/-- A prediction is the label of a neighbour; no label, compared after truncation to an integer, is
more frequent among the neighbours; and of the neighbours whose labels are as frequent it is that of
the farthest. -/
theorem C73_majority (x : Matrix (Fin m) (Fin n) ℝ) (y : Fin m → ℝ) (metric : Metric)
    (q : Fin n → ℝ) (k : ℕ) (v : ℝ) (h : predictOne x y metric q k = some v) :
    let ls := (findNeighbors x metric q k).map fun e => y e.1
    ∃ nearer farther, ls = nearer ++ v :: farther ∧
      (∀ w ∈ ls, ls.countP (fun u => asI64 u = asI64 w) ≤ ls.countP fun u => asI64 u = asI64 v) ∧
      ∀ w ∈ farther, ls.countP (fun u => asI64 u = asI64 w) < ls.countP fun u => asI64 u = asI64 v := by
  intro ls
  have hc : ∀ z, (ls.map asI64).count z = ls.countP fun u => asI64 u = z := by
    intro z
    rw [List.count, List.countP_map]
    congr 1
  obtain ⟨-, h2, h3⟩ := vote_spec ls
  have hne : ls ≠ [] := by
    intro h0
    have hp : (ls.foldl vote (fun _ => 0, none)).2.map Prod.snd = some v := h
    rw [h2 h0] at hp
    exact absurd hp (by simp)
  obtain ⟨pre, u, post, he, hb, hmax, hpost⟩ := h3 hne
  have hp : (ls.foldl vote (fun _ => 0, none)).2.map Prod.snd = some v := h
  rw [hb] at hp
  have huv : u = v := by simpa using hp
  rw [huv] at he hmax hpost
  simp only [hc] at hmax hpost
  refine ⟨pre, post, he, hmax, hpost⟩

/-- A prediction panics exactly when no neighbours are asked for or there are no samples. -/
theorem C73_panics (x : Matrix (Fin m) (Fin n) ℝ) (y : Fin m → ℝ) (metric : Metric) (q : Fin n → ℝ)
    (k : ℕ) : predictOne x y metric q k = none ↔ k = 0 ∨ m = 0 := by
  have hlen := (C73_neighbours x metric q k).1
  obtain ⟨-, h2, h3⟩ := vote_spec ((findNeighbors x metric q k).map fun e => y e.1)
  unfold predictOne
  constructor
  · intro h
    by_contra hc
    have hne : ((findNeighbors x metric q k).map fun e => y e.1) ≠ [] := by
      intro h0
      have := congrArg List.length h0
      rw [List.length_map, hlen] at this
      simp only [List.length_nil] at this
      omega
    obtain ⟨pre, v, post, -, hb, -⟩ := h3 hne
    rw [hb] at h
    simp at h
  · intro h
    rw [h2]
    · rfl
    · apply List.eq_nil_of_length_eq_zero
      rw [List.length_map, hlen]
      omega

/-- With one neighbour the prediction is the label of the nearest sample, the first of those equally
near. -/
theorem C73_nearest (x : Matrix (Fin m) (Fin n) ℝ) (y : Fin m → ℝ) (metric : Metric) (q : Fin n → ℝ)
    (i : Fin m) (hi : ∀ j, j ≠ i → metric.dist (x i) q < metric.dist (x j) q ∨
      metric.dist (x i) q = metric.dist (x j) q ∧ i < j) :
    predictOne x y metric q 1 = some (y i) := by
  obtain ⟨h1, h2, -, h4⟩ := C73_neighbours x metric q 1
  have hm : 0 < m := lt_of_le_of_lt (Nat.zero_le _) i.2
  rw [min_eq_left (by omega)] at h1
  obtain ⟨e, he⟩ := List.length_eq_one_iff.1 h1
  have hei : e.1 = i := by
    by_contra hne
    have h5 := h4 e (by rw [he]; simp) i (by rw [he]; simpa using Ne.symm hne)
    have h6 := hi e.1 hne
    rw [h2 e (by rw [he]; simp)] at h5
    rcases h5 with h5 | h5 <;> rcases h6 with h6 | h6
    · linarith
    · linarith [h6.1]
    · linarith [h5.1]
    · exact absurd h5.2 (not_lt.2 h6.2.le)
  unfold predictOne
  rw [he]
  simp [vote, hei]

/-- With two neighbours in different classes the prediction is the label of the farther one. -/
theorem C73_two_neighbours_farther (x : Matrix (Fin m) (Fin n) ℝ) (y : Fin m → ℝ) (metric : Metric)
    (q : Fin n → ℝ) (a b : Fin m × ℝ) (h : findNeighbors x metric q 2 = [a, b])
    (hne : asI64 (y a.1) ≠ asI64 (y b.1)) :
    a.2 ≤ b.2 ∧ predictOne x y metric q 2 = some (y b.1) := by
  obtain ⟨-, -, h3, -⟩ := C73_neighbours x metric q 2
  rw [h] at h3
  refine ⟨?_, ?_⟩
  · simp only [List.pairwise_cons, List.mem_singleton, forall_eq] at h3
    rcases h3.1 with h | h
    · exact h.le
    · exact h.1.le
  · unfold predictOne
    rw [h]
    simp [vote, Function.update_of_ne (Ne.symm hne)]

/-- Labels are compared after truncation: those strictly between minus one and one are one class. -/
theorem C73_labels_truncated (v : ℝ) (h : |v| < 1) : asI64 v = 0 := by
  obtain ⟨h1, h2⟩ := abs_lt.1 h
  have : (if 0 ≤ v then ⌊v⌋ else ⌈v⌉) = 0 := by
    split_ifs with h0
    · rw [Int.floor_eq_zero_iff]; exact ⟨h0, h2⟩
    · rw [Int.ceil_eq_zero_iff]; exact ⟨h1, (not_le.1 h0).le⟩
  unfold asI64
  rw [this]
  norm_num

/-- Integer labels in the range of the type are compared exactly. -/
theorem C73_integer_labels (a b : ℤ) (ha : |a| < 2 ^ 63) (hb : |b| < 2 ^ 63) :
    asI64 a = asI64 b ↔ (a : ℝ) = b := by
  have key : ∀ c : ℤ, |c| < 2 ^ 63 → asI64 c = c := by
    intro c hc
    obtain ⟨h1, h2⟩ := abs_lt.1 hc
    unfold asI64
    simp only [Int.floor_intCast, Int.ceil_intCast, ite_self]
    omega
  rw [key a ha, key b hb]
  exact Int.cast_inj.symm

example := C73_integer_labels (-3) 7 (by norm_num) (by norm_num)

/-- `predict` is one prediction for each row, in order, when the shapes agree; it panics when the
numbers of samples and labels or of columns differ. -/
theorem C73_predict {m' r n' : ℕ} (x : Matrix (Fin m) (Fin n) ℝ) (y : Fin m' → ℝ) (metric : Metric)
    (input : Matrix (Fin r) (Fin n') ℝ) (k : ℕ) :
    ((m ≠ m' ∨ n ≠ n') → knnPredict x y metric input k = none) ∧
      ∀ (hm : m = m') (hn : n = n') (out : List ℝ), knnPredict x y metric input k = some out →
        out.length = r ∧ ∀ i : Fin r, (out[i.1]? : Option ℝ) =
          predictOne x (y ∘ Fin.cast hm) metric (fun j => input i (Fin.cast hn j)) k := by
  constructor
  · intro h
    unfold knnPredict
    rw [dif_neg]
    tauto
  · intro hm hn out hout
    unfold knnPredict at hout
    rw [dif_pos ⟨hm, hn⟩] at hout
    have hout := forall₂_of_mapM _ _ _ hout
    refine ⟨by simpa using hout.length_eq.symm, fun i => ?_⟩
    rw [List.forall₂_iff_get] at hout
    obtain ⟨hlen, hget⟩ := hout
    have hi : i.1 < (List.finRange r).length := by simp
    have hi' : i.1 < out.length := by rw [← hlen]; exact hi
    have := hget i.1 hi hi'
    rw [List.getElem?_eq_getElem hi']
    simp only [List.get_eq_getElem, List.getElem_finRange] at this
    exact this.symm

/-- Manhattan is the sum of absolute differences and Minkowski of order one and two are Manhattan and
Euclidean; each metric, of positive order, is symmetric, not negative, and zero only between equal
points. -/
theorem C73_metrics (u v : Fin n → ℝ) :
    Metric.manhattan.dist u v = ∑ j, |u j - v j| ∧
      (Metric.minkowski 1).dist u v = Metric.manhattan.dist u v ∧
      (Metric.minkowski 2).dist u v = Metric.euclidean.dist u v ∧
      ∀ d : Metric, d ≠ .minkowski 0 →
        d.dist u v = d.dist v u ∧ 0 ≤ d.dist u v ∧ (d.dist u v = 0 ↔ u = v) := by
  have h1 : lpDist 1 u v = ∑ j, |u j - v j| := by
    unfold lpDist
    simp
  have h2 : lpDist 2 u v = √(∑ j, (u j - v j) ^ 2) := by
    unfold lpDist
    rw [Real.sqrt_eq_rpow]
    simp
  have hlp : ∀ p : ℕ, p ≠ 0 →
      lpDist p u v = lpDist p v u ∧ 0 ≤ lpDist p u v ∧ (lpDist p u v = 0 ↔ u = v) := by
    intro p hp
    have hnn : 0 ≤ ∑ j, |u j - v j| ^ p := Finset.sum_nonneg fun j _ => pow_nonneg (abs_nonneg _) _
    refine ⟨?_, Real.rpow_nonneg hnn _, ?_⟩
    · unfold lpDist
      simp only [abs_sub_comm]
    · unfold lpDist
      rw [Real.rpow_eq_zero hnn (by positivity),
        Finset.sum_eq_zero_iff_of_nonneg (fun j _ => pow_nonneg (abs_nonneg _) _)]
      constructor
      · intro h
        funext j
        have := h j (Finset.mem_univ j)
        have := pow_eq_zero_iff hp |>.1 this
        rw [abs_eq_zero] at this
        linarith
      · rintro rfl j -
        simp [hp]
  refine ⟨h1, rfl, h2, fun d hd => ?_⟩
  cases d with
  | euclidean =>
    have e : ∀ a b : Fin n → ℝ, Metric.euclidean.dist a b = √(∑ j, (a j - b j) ^ 2) := fun _ _ => rfl
    obtain ⟨a1, a2, a3⟩ := hlp 2 (by norm_num)
    have h2' : lpDist 2 v u = √(∑ j, (v j - u j) ^ 2) := by
      unfold lpDist
      rw [Real.sqrt_eq_rpow]
      simp
    rw [e, e, ← h2, ← h2']
    exact ⟨a1, a2, a3⟩
  | manhattan => exact hlp 1 one_ne_zero
  | minkowski p => exact hlp p fun h => hd (by rw [h])

/-- An instance of `C73_nearest`: of the samples 1 and 2 the first is nearer to 0. -/
example : predictOne (Matrix.of ![![(1 : ℝ)], ![2]]) ![0, 1] .manhattan ![0] 1 = some 0 := by
  have hd : ∀ i : Fin 2, Metric.manhattan.dist ((Matrix.of ![![(1 : ℝ)], ![2]]) i) ![0] = i + 1 := by
    intro i
    rw [(C73_metrics _ _).1]
    fin_cases i <;> simp; norm_num
  refine C73_nearest _ _ _ _ 0 fun j hj => ?_
  rw [hd, hd]
  fin_cases j
  · exact absurd rfl hj
  · left; simp

/-- Two neighbours at distances one and two with labels zero and one: the prediction is one. -/
example : predictOne (Matrix.of ![![(1 : ℝ)], ![2]]) ![0, 1] .manhattan ![0] 2 = some 1 := by
  have hd : ∀ i : Fin 2, Metric.manhattan.dist ((Matrix.of ![![(1 : ℝ)], ![2]]) i) ![0] = i + 1 := by
    intro i
    rw [(C73_metrics _ _).1]
    fin_cases i <;> simp; norm_num
  have h := C73_neighbours (Matrix.of ![![(1 : ℝ)], ![2]]) .manhattan ![0] 2
  obtain ⟨h1, h2, h3, -⟩ := h
  obtain ⟨a, b, hab⟩ : ∃ a b, findNeighbors (Matrix.of ![![(1 : ℝ)], ![2]]) .manhattan ![0] 2 = [a, b] := by
    obtain ⟨a, b, h⟩ := List.length_eq_two.1 h1
    exact ⟨a, b, h⟩
  rw [hab] at h2 h3
  have ha := h2 a (by simp)
  have hb := h2 b (by simp)
  rw [hd] at ha hb
  simp only [List.pairwise_cons, List.mem_singleton, forall_eq] at h3
  have hlt : a.1 < b.1 := by
    rcases h3.1 with h | h
    · rw [ha, hb] at h
      have : ((a.1 : ℕ) : ℝ) < ((b.1 : ℕ) : ℝ) := by linarith
      exact_mod_cast this
    · exact h.2
  have ha0 : a.1 = 0 := Fin.ext (by show (a.1 : ℕ) = 0; omega)
  have hb1 : b.1 = 1 := Fin.ext (by show (b.1 : ℕ) = 1; omega)
  have := (C73_two_neighbours_farther (Matrix.of ![![(1 : ℝ)], ![2]]) ![0, 1] .manhattan ![0] a b hab
    (by
      rw [ha0, hb1]
      have e0 : asI64 ((![0, 1] : Fin 2 → ℝ) 0) = 0 := C73_labels_truncated _ (by simp)
      have e1 : asI64 ((![0, 1] : Fin 2 → ℝ) 1) = 1 := by
        show asI64 1 = 1
        unfold asI64
        norm_num
      rw [e0, e1]
      norm_num)).2
  rw [this, hb1]
  rfl

end Verif.ML
