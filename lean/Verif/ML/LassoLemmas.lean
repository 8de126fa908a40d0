import Verif.ML.Lasso
import Verif.ML.Spec
import Mathlib.Tactic

/-! Coordinate descent. -/

namespace Verif.ML

variable {m n : ℕ}

/-- The objective on the features and targets that the loop sees. -/
noncomputable def obj (A : Matrix (Fin m) (Fin n) ℝ) (w : Fin m → ℝ) (l : ℝ) (b : Fin n → ℝ) : ℝ :=
  (∑ i, (w i - ∑ j, A i j * b j) ^ 2) / (2 * m) + l * ∑ j, |b j|

noncomputable def gram (A : Matrix (Fin m) (Fin n) ℝ) (j k : Fin n) : ℝ := (∑ i, A i j * A i k) / m

/-- The residuals are those of the coefficients, and a column of zeros has coefficient zero. -/
def Inv (A : Matrix (Fin m) (Fin n) ℝ) (w : Fin m → ℝ) (s : LassoState m n) : Prop :=
  (∀ i, s.residuals i = w i - ∑ j, A i j * s.coefs j) ∧ ∀ j, gram A j j = 0 → s.coefs j = 0

/-- `s` is a slope of the absolute value at `t`. -/
def Sub (s t : ℝ) : Prop := |s| ≤ 1 ∧ s * t = |t|

theorem sum_update (A : Matrix (Fin m) (Fin n) ℝ) (b : Fin n → ℝ) (j : Fin n) (t : ℝ) (i : Fin m) :
    ∑ k, A i k * Function.update b j t k = ∑ k, A i k * b k + A i j * (t - b j) := by
  have h : ∀ k, A i k * Function.update b j t k =
      A i k * b k + if k = j then A i j * (t - b j) else 0 := by
    intro k
    by_cases hk : k = j
    · subst hk; simp; ring
    · simp [hk]
  simp only [h, Finset.sum_add_distrib, Finset.sum_ite_eq', Finset.mem_univ, if_true]

theorem abs_update (b : Fin n → ℝ) (j : Fin n) (t : ℝ) :
    ∑ k, |Function.update b j t k| = ∑ k, |b k| + (|t| - |b j|) := by
  have h : ∀ k, |Function.update b j t k| = |b k| + if k = j then |t| - |b j| else 0 := by
    intro k
    by_cases hk : k = j
    · subst hk; simp
    · simp [hk]
  simp only [h, Finset.sum_add_distrib, Finset.sum_ite_eq', Finset.mem_univ, if_true]

/-- The coefficient a step computes. -/
noncomputable def newCoef (q rho l : ℝ) : ℝ :=
  if rho < -l then (rho + l) / q else if rho > l then (rho - l) / q else 0

theorem newCoef_kkt {q rho l : ℝ} (hl : 0 ≤ l) (hq : 0 ≤ q) (h0 : q = 0 → rho = 0) :
    ∃ s, Sub s (newCoef q rho l) ∧ rho - q * newCoef q rho l = l * s := by
  unfold newCoef
  split_ifs with h1 h2
  · have hq' : 0 < q := lt_of_le_of_ne hq fun h => by have := h0 h.symm; linarith
    refine ⟨-1, ⟨by norm_num, ?_⟩, ?_⟩
    · rw [abs_of_nonpos (div_nonpos_of_nonpos_of_nonneg (by linarith) hq)]; ring
    · field_simp; ring
  · have hq' : 0 < q := lt_of_le_of_ne hq fun h => by have := h0 h.symm; linarith
    refine ⟨1, ⟨by norm_num, ?_⟩, ?_⟩
    · rw [abs_of_nonneg (div_nonneg (by linarith) hq)]; ring
    · field_simp; ring
  · push Not at h1
    push Not at h2
    rcases hl.lt_or_eq with hl' | hl'
    · refine ⟨rho / l, ⟨?_, by simp⟩, by field_simp; ring⟩
      rw [abs_div, abs_of_pos hl', div_le_one hl', abs_le]
      exact ⟨h1, h2⟩
    · refine ⟨0, ⟨by simp, by simp⟩, ?_⟩
      rw [← hl'] at h1 h2 ⊢
      linarith

theorem sub_le {s t u : ℝ} (h : Sub s t) : |t| + s * (u - t) ≤ |u| := by
  obtain ⟨h1, h2⟩ := h
  have : s * u ≤ |u| := by
    calc s * u ≤ |s * u| := le_abs_self _
      _ = |s| * |u| := abs_mul _ _
      _ ≤ 1 * |u| := by gcongr
      _ = |u| := one_mul _
  linarith [mul_sub s u t]

variable (A : Matrix (Fin m) (Fin n) ℝ) (w : Fin m → ℝ) (l : ℝ)

theorem gram_self_nonneg (j : Fin n) : 0 ≤ gram A j j := by
  unfold gram
  exact div_nonneg (Finset.sum_nonneg fun i _ => mul_self_nonneg _) (Nat.cast_nonneg _)

theorem gram_zero_col (hm : 0 < m) {j : Fin n} (h : gram A j j = 0) (i : Fin m) : A i j = 0 := by
  unfold gram at h
  have hm' : (m : ℝ) ≠ 0 := by positivity
  have h1 : ∑ i, A i j * A i j = 0 := by
    rcases div_eq_zero_iff.1 h with h | h
    · exact h
    · exact absurd h hm'
  have := (Finset.sum_eq_zero_iff_of_nonneg (fun i _ => mul_self_nonneg (A i j))).1 h1 i
    (Finset.mem_univ i)
  exact mul_self_eq_zero.1 this

/-- What one step does, in terms of the correlation of the column with the residuals. -/
theorem coord_facts (hm : 0 < m) (hl : 0 ≤ l) (s : LassoState m n) (hs : Inv A w s) (j : Fin n) :
    ∃ t sg, let s' := lassoCoord A l s j
      s'.coefs = Function.update s.coefs j t ∧
      s'.maxDelta = max s.maxDelta |t - s.coefs j| ∧
      (∀ i, s'.residuals i = s.residuals i - A i j * (t - s.coefs j)) ∧
      Inv A w s' ∧ Sub sg t ∧ (∑ i, s'.residuals i * A i j) / m = l * sg ∧
      obj A w l s'.coefs + gram A j j / 2 * (t - s.coefs j) ^ 2 ≤ obj A w l s.coefs := by
  have hm' : (0 : ℝ) < m := by exact_mod_cast hm
  set q := gram A j j with hq
  set rho := (∑ i, s.residuals i * A i j + s.coefs j * ∑ i, A i j * A i j) / (m : ℝ) with hrho
  set t := newCoef q rho l with ht
  have hq0 := gram_self_nonneg A j
  have hrho' : rho = (∑ i, s.residuals i * A i j) / m + s.coefs j * q := by
    rw [hrho, hq, gram]; ring
  have h0 : q = 0 → rho = 0 := by
    intro h
    rw [hrho', h, mul_zero, add_zero]
    simp [gram_zero_col A hm h]
  obtain ⟨sg, hsub, hk⟩ := newCoef_kkt hl hq0 h0
  have hres : ∀ i, (lassoCoord A l s j).residuals i =
      s.residuals i - A i j * (t - s.coefs j) := by
    intro i
    show (if |t - s.coefs j| > 0 then fun i => s.residuals i - A i j * (t - s.coefs j)
      else s.residuals) i = _
    split_ifs with h
    · rfl
    · have : t - s.coefs j = 0 := by
        rw [← abs_eq_zero]; exact le_antisymm (not_lt.1 h) (abs_nonneg _)
      rw [this]; ring
  have hco : (lassoCoord A l s j).coefs = Function.update s.coefs j t := rfl
  refine ⟨t, sg, hco, rfl, hres, ⟨?_, ?_⟩, hsub, ?_, ?_⟩
  · intro i
    rw [hres, hco, sum_update, hs.1]; ring
  · intro k hk0
    rw [hco]
    by_cases hkj : k = j
    · subst hkj
      rw [Function.update_self, ht]
      unfold newCoef
      rw [h0 hk0, if_neg (by linarith), if_neg (by linarith)]
    · rw [Function.update_of_ne hkj]; exact hs.2 k hk0
  · have ht' : newCoef (gram A j j) rho l = t := rfl
    rw [← hk, ht', hrho']
    simp only [hres]
    have : ∑ i, (s.residuals i - A i j * (t - s.coefs j)) * A i j =
        ∑ i, s.residuals i * A i j - (t - s.coefs j) * ∑ i, A i j * A i j := by
      rw [Finset.mul_sum, ← Finset.sum_sub_distrib]
      exact Finset.sum_congr rfl fun i _ => by ring
    have hA : (∑ i, A i j * A i j) = m * q := by rw [hq, gram]; field_simp
    rw [this, hA, ← hq]
    field_simp
    ring
  · rw [hco]
    unfold obj
    rw [abs_update]
    have hsq : ∑ i, (w i - ∑ k, A i k * Function.update s.coefs j t k) ^ 2 =
        ∑ i, (w i - ∑ k, A i k * s.coefs k) ^ 2 -
          2 * (t - s.coefs j) * ∑ i, s.residuals i * A i j +
          (t - s.coefs j) ^ 2 * ∑ i, A i j * A i j := by
      simp only [sum_update, Finset.mul_sum, ← Finset.sum_sub_distrib, ← Finset.sum_add_distrib]
      refine Finset.sum_congr rfl fun i _ => ?_
      rw [hs.1]; ring
    rw [hsq]
    have hr : ∑ i, s.residuals i * A i j = m * (rho - s.coefs j * q) := by
      rw [hrho']; field_simp; ring
    have hA : ∑ i, A i j * A i j = m * q := by rw [hq, gram]; field_simp
    rw [hr, hA]
    have hab := sub_le (u := s.coefs j) hsub
    have hexp : (∑ i, (w i - ∑ k, A i k * s.coefs k) ^ 2 -
        2 * (t - s.coefs j) * (m * (rho - s.coefs j * q)) + (t - s.coefs j) ^ 2 * (m * q)) / (2 * m) =
        (∑ i, (w i - ∑ k, A i k * s.coefs k) ^ 2) / (2 * m) -
          (t - s.coefs j) * (rho - s.coefs j * q) + (t - s.coefs j) ^ 2 * q / 2 := by
      field_simp
    rw [hexp]
    have hrq : rho = q * t + l * sg := by linarith
    rw [hrq]
    nlinarith [mul_le_mul_of_nonneg_left hab hl]

/-- What a run over a list of distinct columns does. -/
theorem fold_facts (hm : 0 < m) (hl : 0 ≤ l) {c : ℝ} (hc : 0 ≤ c)
    (hcq : ∀ j, gram A j j = 0 ∨ c ≤ gram A j j) (L : List (Fin n)) :
    ∀ (P : Finset (Fin n)) (s : LassoState m n), Inv A w s → 0 ≤ s.maxDelta →
      (∀ j ∈ L, j ∉ P) → L.Nodup →
      (∀ j ∈ P, ∃ sg, Sub sg (s.coefs j) ∧
        |(∑ i, s.residuals i * A i j) / m - l * sg| ≤ s.maxDelta * ∑ k ∈ P, |gram A j k|) →
      let s' := L.foldl (lassoCoord A l) s
      Inv A w s' ∧ s.maxDelta ≤ s'.maxDelta ∧
      obj A w l s'.coefs + c / 2 * s'.maxDelta ^ 2 ≤ obj A w l s.coefs + c / 2 * s.maxDelta ^ 2 ∧
      ∀ j ∈ P ∪ L.toFinset, ∃ sg, Sub sg (s'.coefs j) ∧
        |(∑ i, s'.residuals i * A i j) / m - l * sg| ≤
          s'.maxDelta * ∑ k ∈ P ∪ L.toFinset, |gram A j k| := by
  have hm' : (0 : ℝ) < m := by exact_mod_cast hm
  induction L with
  | nil =>
    intro P s hI h0 _ _ hP
    exact ⟨hI, le_refl _, le_refl _, by simpa using hP⟩
  | cons j L ih =>
    intro P s hI h0 hdis hnd hP
    obtain ⟨t, sg, h1, h2, h3, h4, h5, h6, h7⟩ := coord_facts A w l hm hl s hI j
    set s1 := lassoCoord A l s j with hs1
    have hjP : j ∉ P := hdis j (by simp)
    have hmd : s.maxDelta ≤ s1.maxDelta := by rw [h2]; exact le_max_left _ _
    have hdel : |t - s.coefs j| ≤ s1.maxDelta := by rw [h2]; exact le_max_right _ _
    have h01 : 0 ≤ s1.maxDelta := h0.trans hmd
    have key := ih (insert j P) s1 h4 h01
      (by
        intro k hk
        rw [Finset.mem_insert, not_or]
        exact ⟨fun h => (List.nodup_cons.1 hnd).1 (h ▸ hk), hdis k (by simp [hk])⟩)
      (List.nodup_cons.1 hnd).2
      (by
        intro k hk
        rcases Finset.mem_insert.1 hk with rfl | hk
        · refine ⟨sg, by rw [h1, Function.update_self]; exact h5, ?_⟩
          rw [h6, sub_self, abs_zero]
          exact mul_nonneg h01 (Finset.sum_nonneg fun _ _ => abs_nonneg _)
        · obtain ⟨sk, hk1, hk2⟩ := hP k hk
          have hkj : k ≠ j := fun h => hjP (h ▸ hk)
          refine ⟨sk, by rw [h1, Function.update_of_ne hkj]; exact hk1, ?_⟩
          have hr : (∑ i, s1.residuals i * A i k) / m =
              (∑ i, s.residuals i * A i k) / m - gram A k j * (t - s.coefs j) := by
            simp only [h3, gram]
            rw [div_mul_eq_mul_div, ← sub_div, Finset.sum_mul, ← Finset.sum_sub_distrib]
            congr 1
            exact Finset.sum_congr rfl fun i _ => by ring
          rw [hr, Finset.sum_insert hjP]
          calc |(∑ i, s.residuals i * A i k) / m - gram A k j * (t - s.coefs j) - l * sk|
              = |((∑ i, s.residuals i * A i k) / m - l * sk) - gram A k j * (t - s.coefs j)| := by
                congr 1; ring
            _ ≤ |(∑ i, s.residuals i * A i k) / m - l * sk| + |gram A k j * (t - s.coefs j)| :=
                abs_sub _ _
            _ ≤ s1.maxDelta * ∑ k' ∈ P, |gram A k k'| + |gram A k j| * s1.maxDelta := by
                rw [abs_mul]
                gcongr
                exact hk2.trans (mul_le_mul_of_nonneg_right hmd
                  (Finset.sum_nonneg fun _ _ => abs_nonneg _))
            _ = s1.maxDelta * (|gram A k j| + ∑ k' ∈ P, |gram A k k'|) := by ring)
    obtain ⟨k1, k2, k3, k4⟩ := key
    have hset : insert j P ∪ L.toFinset = P ∪ (j :: L).toFinset := by
      rw [List.toFinset_cons, Finset.insert_union, Finset.union_insert]
    rw [hset] at k4
    refine ⟨k1, hmd.trans k2, ?_, k4⟩
    have hdec : obj A w l s1.coefs + c / 2 * s1.maxDelta ^ 2 ≤
        obj A w l s.coefs + c / 2 * s.maxDelta ^ 2 := by
      have hd : c / 2 * (t - s.coefs j) ^ 2 ≤ gram A j j / 2 * (t - s.coefs j) ^ 2 := by
        rcases hcq j with h | h
        · have ht0 : t = 0 := by
            have := h4.2 j h
            rwa [h1, Function.update_self] at this
          rw [ht0, hI.2 j h]; simp
        · gcongr
      have hmx : s1.maxDelta ^ 2 ≤ s.maxDelta ^ 2 + (t - s.coefs j) ^ 2 := by
        rw [h2]
        rcases max_choice s.maxDelta |t - s.coefs j| with h | h <;> rw [h]
        · linarith [sq_nonneg (t - s.coefs j)]
        · rw [sq_abs]; linarith [sq_nonneg s.maxDelta]
      nlinarith
    exact k3.trans hdec

theorem sweep_facts (hm : 0 < m) (hl : 0 ≤ l) {c : ℝ} (hc : 0 ≤ c)
    (hcq : ∀ j, gram A j j = 0 ∨ c ≤ gram A j j) (s : LassoState m n) (hs : Inv A w s) :
    let s' := lassoSweep A l s
    Inv A w s' ∧ 0 ≤ s'.maxDelta ∧
      obj A w l s'.coefs + c / 2 * s'.maxDelta ^ 2 ≤ obj A w l s.coefs ∧
      ∀ j, ∃ sg, Sub sg (s'.coefs j) ∧
        |(∑ i, s'.residuals i * A i j) / m - l * sg| ≤ s'.maxDelta * ∑ k, |gram A j k| := by
  have key := fold_facts A w l hm hl hc hcq (List.finRange n) ∅ { s with maxDelta := 0 } hs (le_refl _)
    (by simp) (List.nodup_finRange n) (by simp)
  obtain ⟨k1, k2, k3, k4⟩ := key
  refine ⟨k1, k2, ?_, fun j => ?_⟩
  · have k3' : obj A w l (lassoSweep A l s).coefs + c / 2 * (lassoSweep A l s).maxDelta ^ 2 ≤
        obj A w l s.coefs + c / 2 * 0 ^ 2 := k3
    simpa using k3'
  · have hu : (∅ : Finset (Fin n)) ∪ (List.finRange n).toFinset = Finset.univ := by
      rw [Finset.empty_union]; ext; simp
    rw [hu] at k4
    exact k4 j (Finset.mem_univ j)

/-- Nearly stationary coefficients are nearly best. -/
theorem near_optimal (hm : 0 < m) (hl : 0 ≤ l) (s : LassoState m n) (hs : Inv A w s) {D : ℝ}
    (hk : ∀ j, ∃ sg, Sub sg (s.coefs j) ∧
      |(∑ i, s.residuals i * A i j) / m - l * sg| ≤ D * ∑ k, |gram A j k|) (b : Fin n → ℝ) :
    obj A w l s.coefs ≤ obj A w l b + D * ∑ j, (∑ k, |gram A j k|) * |b j - s.coefs j| := by
  have hm' : (0 : ℝ) < m := by exact_mod_cast hm
  choose sg hsg1 hsg2 using hk
  have hquad : ∑ i, (w i - ∑ j, A i j * s.coefs j) ^ 2 -
      2 * ∑ j, (b j - s.coefs j) * ∑ i, s.residuals i * A i j ≤
      ∑ i, (w i - ∑ j, A i j * b j) ^ 2 := by
    have : ∑ j, (b j - s.coefs j) * ∑ i, s.residuals i * A i j =
        ∑ i, s.residuals i * ∑ j, A i j * (b j - s.coefs j) := by
      simp only [Finset.mul_sum]
      rw [Finset.sum_comm]
      exact Finset.sum_congr rfl fun i _ => Finset.sum_congr rfl fun j _ => by ring
    rw [this, Finset.mul_sum, ← Finset.sum_sub_distrib]
    refine Finset.sum_le_sum fun i _ => ?_
    rw [hs.1]
    have e : ∑ j, A i j * (b j - s.coefs j) = ∑ j, A i j * b j - ∑ j, A i j * s.coefs j := by
      rw [← Finset.sum_sub_distrib]
      exact Finset.sum_congr rfl fun j _ => by ring
    rw [e]
    nlinarith [sq_nonneg (∑ j, A i j * b j - ∑ j, A i j * s.coefs j)]
  have hlin : ∑ j, (b j - s.coefs j) * ((∑ i, s.residuals i * A i j) / m) ≤
      l * ∑ j, |b j| - l * ∑ j, |s.coefs j| +
        D * ∑ j, (∑ k, |gram A j k|) * |b j - s.coefs j| := by
    simp only [Finset.mul_sum, ← Finset.sum_sub_distrib, ← Finset.sum_add_distrib]
    refine Finset.sum_le_sum fun j _ => ?_
    have h1 := mul_le_mul_of_nonneg_left (sub_le (u := b j) (hsg1 j)) hl
    set g := (∑ i, s.residuals i * A i j) / m with hg
    have h2 : (b j - s.coefs j) * (g - l * sg j) ≤
        D * (∑ k, |gram A j k|) * |b j - s.coefs j| := by
      calc (b j - s.coefs j) * (g - l * sg j) ≤ |(b j - s.coefs j) * (g - l * sg j)| := le_abs_self _
        _ = |g - l * sg j| * |b j - s.coefs j| := by rw [abs_mul, mul_comm]
        _ ≤ _ := by gcongr; exact hsg2 j
    nlinarith
  unfold obj
  have hdiv := div_le_div_of_nonneg_right hquad (by positivity : (0 : ℝ) ≤ 2 * m)
  rw [sub_div] at hdiv
  have e : 2 * (∑ j, (b j - s.coefs j) * ∑ i, s.residuals i * A i j) / (2 * (m : ℝ)) =
      ∑ j, (b j - s.coefs j) * ((∑ i, s.residuals i * A i j) / m) := by
    rw [mul_div_mul_left _ _ two_ne_zero, Finset.sum_div]
    exact Finset.sum_congr rfl fun j _ => by ring
  rw [e] at hdiv
  linarith

theorem loop_stop (tol : ℝ) (p : ℕ) : ∀ s : LassoState m n,
    (∀ i < p, ¬ ((lassoSweep A l)^[i + 1] s).maxDelta < tol) →
    ((lassoSweep A l)^[p + 1] s).maxDelta < tol →
    ∀ k, p + 1 ≤ k → lassoLoop A l tol k s = (lassoSweep A l)^[p + 1] s := by
  induction p with
  | zero =>
    intro s _ h k hk
    obtain ⟨k, rfl⟩ : ∃ k', k = k' + 1 := ⟨k - 1, by omega⟩
    unfold lassoLoop
    exact if_pos h
  | succ p ih =>
    intro s hlt h k hk
    obtain ⟨k, rfl⟩ : ∃ k', k = k' + 1 := ⟨k - 1, by omega⟩
    unfold lassoLoop
    have h0 : ¬ (lassoSweep A l s).maxDelta < tol := hlt 0 (by omega)
    rw [if_neg h0, Function.iterate_succ_apply]
    exact ih _ (fun i hi => by
      have := hlt (i + 1) (by omega)
      rwa [Function.iterate_succ_apply] at this)
      (by rwa [Function.iterate_succ_apply] at h) k (by omega)

theorem loop_run (tol : ℝ) (k : ℕ) : ∀ s : LassoState m n,
    (∀ i < k, ¬ ((lassoSweep A l)^[i + 1] s).maxDelta < tol) →
    lassoLoop A l tol k s = (lassoSweep A l)^[k] s := by
  induction k with
  | zero => intro s _; rfl
  | succ k ih =>
    intro s hlt
    unfold lassoLoop
    have h0 : ¬ (lassoSweep A l s).maxDelta < tol := hlt 0 (by omega)
    rw [if_neg h0, Function.iterate_succ_apply]
    exact ih _ (fun i hi => by
      have := hlt (i + 1) (by omega)
      rwa [Function.iterate_succ_apply] at this)

theorem iterate_inv (hm : 0 < m) (hl : 0 ≤ l) (k : ℕ) (s : LassoState m n) (hs : Inv A w s) :
    Inv A w ((lassoSweep A l)^[k] s) := by
  induction k with
  | zero => exact hs
  | succ k ih =>
    rw [Function.iterate_succ_apply']
    exact (sweep_facts A w l hm hl le_rfl (fun j => Or.inr (gram_self_nonneg A j)) _ ih).1

theorem iterate_decreases (hm : 0 < m) (hl : 0 ≤ l) (s : LassoState m n) (hs : Inv A w s) :
    Antitone fun k => obj A w l ((lassoSweep A l)^[k] s).coefs := by
  refine antitone_nat_of_succ_le fun k => ?_
  rw [Function.iterate_succ_apply']
  have := (sweep_facts A w l hm hl le_rfl (fun j => Or.inr (gram_self_nonneg A j)) _
    (iterate_inv A w l hm hl k s hs)).2.2.1
  simpa using this

/-- The loop is a number of rounds, whichever way it ends. -/
theorem loop_iterate (tol : ℝ) (k : ℕ) (s : LassoState m n) :
    ∃ p ≤ k, lassoLoop A l tol k s = (lassoSweep A l)^[p] s ∧
      lassoLoop A l tol (k + 1) s = (lassoSweep A l)^[p] s ∨
    lassoLoop A l tol k s = (lassoSweep A l)^[k] s ∧
      lassoLoop A l tol (k + 1) s = (lassoSweep A l)^[k + 1] s := by
  by_cases h : ∃ i < k, ((lassoSweep A l)^[i + 1] s).maxDelta < tol
  · classical
    let p := Nat.find h
    have hp : p < k ∧ _ := Nat.find_spec h
    have hmin : ∀ i < p, ¬ ((lassoSweep A l)^[i + 1] s).maxDelta < tol := fun i hi hc =>
      Nat.find_min h hi ⟨hi.trans hp.1, hc⟩
    refine ⟨p + 1, hp.1, Or.inl ⟨?_, ?_⟩⟩
    · exact loop_stop A l tol p s hmin hp.2 k hp.1
    · exact loop_stop A l tol p s hmin hp.2 (k + 1) (by omega)
  · push Not at h
    refine ⟨k, le_rfl, Or.inr ⟨?_, ?_⟩⟩
    · exact loop_run A l tol k s fun i hi => not_lt.2 (h i hi)
    · by_cases hk : ((lassoSweep A l)^[k + 1] s).maxDelta < tol
      · exact loop_stop A l tol k s (fun i hi => not_lt.2 (h i hi)) hk (k + 1) le_rfl
      · refine loop_run A l tol (k + 1) s fun i hi => ?_
        rcases Nat.lt_succ_iff_lt_or_eq.1 hi with hi | rfl
        · exact not_lt.2 (h i hi)
        · exact hk

/-- Some round changes every coefficient by less than a positive tolerance. -/
theorem small_round (hm : 0 < m) (hl : 0 ≤ l) {tol : ℝ} (ht : 0 < tol) (s : LassoState m n)
    (hs : Inv A w s) : ∃ p, ((lassoSweep A l)^[p + 1] s).maxDelta < tol := by
  classical
  obtain ⟨c, hc, hcq⟩ : ∃ c : ℝ, 0 < c ∧ ∀ j, gram A j j = 0 ∨ c ≤ gram A j j := by
    by_cases hne : (Finset.univ.filter fun j : Fin n => gram A j j ≠ 0).Nonempty
    · obtain ⟨j₀, hj₀, hmin⟩ := Finset.exists_min_image _ (fun j => gram A j j) hne
      refine ⟨gram A j₀ j₀, lt_of_le_of_ne (gram_self_nonneg A j₀)
        (Ne.symm (Finset.mem_filter.1 hj₀).2), fun j => ?_⟩
      by_cases h : gram A j j = 0
      · exact Or.inl h
      · exact Or.inr (hmin j (by simp [h]))
    · refine ⟨1, one_pos, fun j => Or.inl ?_⟩
      by_contra h
      exact hne ⟨j, by simp [h]⟩
  by_contra hcon
  push Not at hcon
  have hm' : (0 : ℝ) < m := by exact_mod_cast hm
  have hobj : ∀ b : Fin n → ℝ, 0 ≤ obj A w l b := fun b => by
    unfold obj
    have : 0 ≤ ∑ j, |b j| := Finset.sum_nonneg fun _ _ => abs_nonneg _
    positivity
  have hk : ∀ k : ℕ, obj A w l ((lassoSweep A l)^[k] s).coefs + k * (c / 2 * tol ^ 2) ≤
      obj A w l s.coefs := by
    intro k
    induction k with
    | zero => simp
    | succ k ih =>
      have hf := (sweep_facts A w l hm hl hc.le hcq _ (iterate_inv A w l hm hl k s hs)).2.2.1
      rw [← Function.iterate_succ_apply' (f := lassoSweep A l)] at hf
      have h1 : tol ^ 2 ≤ ((lassoSweep A l)^[k + 1] s).maxDelta ^ 2 :=
        pow_le_pow_left₀ ht.le (hcon k) 2
      have h2 : c / 2 * tol ^ 2 ≤ c / 2 * ((lassoSweep A l)^[k + 1] s).maxDelta ^ 2 := by gcongr
      push_cast
      linarith
  have hpos : 0 < c / 2 * tol ^ 2 := by positivity
  obtain ⟨k, hk'⟩ := exists_nat_gt (obj A w l s.coefs / (c / 2 * tol ^ 2))
  rw [div_lt_iff₀ hpos] at hk'
  linarith [hk k, hobj ((lassoSweep A l)^[k] s).coefs]

end Verif.ML
