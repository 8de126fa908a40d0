import Verif.Options.FiniteDifference
import Mathlib.LinearAlgebra.Matrix.Determinant.Basic
import Mathlib.LinearAlgebra.Matrix.NonsingularInverse
import Mathlib.Data.List.OfFn
import Mathlib.Data.List.GetD
import Mathlib.Tactic.Linarith
import Mathlib.Tactic.LinearCombination
import Mathlib.Tactic.FieldSimp

/-!
# Lemmas about the finite-difference pricer: tridiagonal matrices and their inverses
-/

namespace Verif.Options.FdPricer

open Matrix

/-- The `n × n` tridiagonal matrix with constant diagonals. -/
def tridiag (n : ℕ) (sub diag sup : ℝ) : Matrix (Fin n) (Fin n) ℝ := fun i j =>
  if i = j then diag else if i.val + 1 = j.val then sup else if j.val + 1 = i.val then sub else 0

/-- `psi (k+1)` is the `k`-th leading principal minor. -/
def psi (p d : ℝ) : ℕ → ℝ
  | 0 => 0
  | 1 => 1
  | k + 2 => d * psi p d (k + 1) - p * psi p d k

variable {p d a c : ℝ}

theorem psi_add (m i : ℕ) :
    psi p d (i + 2) * psi p d (m + 1) - p * psi p d (i + 1) * psi p d m = psi p d (i + m + 2) := by
  induction m generalizing i with
  | zero => simp [psi]
  | succ m ih =>
    have h := ih (i + 1)
    rw [show i + (m + 1) + 2 = i + 1 + m + 2 by omega, ← h]
    simp only [psi]; ring

theorem psi_pos (hd : 0 < d) (hp : 4 * p ≤ d ^ 2) (k : ℕ) : 0 < psi p d (k + 1) := by
  have : 0 < psi p d (k + 1) ∧ d / 2 * psi p d (k + 1) ≤ psi p d (k + 2) := by
    induction k with
    | zero => simp [psi]; linarith
    | succ k ih =>
      obtain ⟨h1, h2⟩ := ih
      have h3 : 0 < psi p d (k + 2) := lt_of_lt_of_le (by positivity) h2
      refine ⟨h3, ?_⟩
      have e : psi p d (k + 3) = d * psi p d (k + 2) - p * psi p d (k + 1) := rfl
      rw [show k + 1 + 1 = k + 2 by omega, show k + 1 + 2 = k + 3 by omega, e]
      rcases le_total p 0 with hp0 | hp0
      · nlinarith [mul_nonneg (neg_nonneg.mpr hp0) h1.le, mul_pos hd h3]
      · have : p * psi p d (k + 1) ≤ d / 2 * psi p d (k + 2) := by
          have h4 : p * psi p d (k + 1) ≤ d ^ 2 / 4 * psi p d (k + 1) := by
            apply mul_le_mul_of_nonneg_right _ h1.le; linarith
          nlinarith
        linarith
  exact this.1

theorem sum_tridiag (n : ℕ) (i : ℕ) (hi : i < n) (g : ℕ → ℝ) :
    ∑ j : Fin n, tridiag n a d c ⟨i, hi⟩ j * g j.val =
      (if i = 0 then 0 else a * g (i - 1)) + d * g i + (if i + 1 < n then c * g (i + 1) else 0) := by
  have h : ∀ j : Fin n, tridiag n a d c ⟨i, hi⟩ j * g j.val =
      (fun k : ℕ => (if i = k + 1 then a * g k else 0) + (if i = k then d * g k else 0)
        + (if k = i + 1 then c * g k else 0)) j.val := by
    intro j
    simp only [tridiag, Fin.ext_iff]
    split_ifs <;> first | omega | ring
  refine (Finset.sum_congr rfl fun j _ => h j).trans ((Fin.sum_univ_eq_sum_range
    (fun k : ℕ => (if i = k + 1 then a * g k else 0) + (if i = k then d * g k else 0)
        + (if k = i + 1 then c * g k else 0)) n).trans ?_)
  rw [Finset.sum_add_distrib, Finset.sum_add_distrib]
  congr 1
  · congr 1
    · rcases Nat.eq_zero_or_pos i with h0 | h0
      · rw [if_pos h0]
        exact Finset.sum_eq_zero fun k _ => if_neg (by omega)
      · rw [if_neg (by omega), Finset.sum_eq_single (i - 1)]
        · rw [if_pos (by omega)]
        · intro k _ hk; exact if_neg (by omega)
        · intro hk; exact absurd (Finset.mem_range.mpr (by omega)) hk
    · rw [Finset.sum_ite_eq, if_pos (Finset.mem_range.mpr hi)]
  · rw [Finset.sum_ite_eq']
    simp only [Finset.mem_range]

/-- The closed form of the inverse computed by the code. -/
noncomputable def invEnt (n : ℕ) (a d c : ℝ) (i j : ℕ) : ℝ :=
  if i ≤ j then (-c) ^ (j - i) * (psi (c * a) d (i + 1) * psi (c * a) d (n - j) / psi (c * a) d (n + 1))
  else (-a) ^ (i - j) * (psi (c * a) d (j + 1) * psi (c * a) d (n - i) / psi (c * a) d (n + 1))

/-- The inverse as a matrix. -/
noncomputable def invMat (n : ℕ) (a d c : ℝ) : Matrix (Fin n) (Fin n) ℝ := fun i j => invEnt n a d c i j

theorem tridiag_mul_invMat (n : ℕ) (h : psi (c * a) d (n + 1) ≠ 0) :
    tridiag n a d c * invMat n a d c = 1 := by
  ext ⟨i, hi⟩ ⟨j, hj⟩
  rw [Matrix.mul_apply, Matrix.one_apply]
  simp only [invMat, Fin.mk.injEq]
  rw [sum_tridiag n i hi (fun k => invEnt n a d c k j)]
  have rec2 : ∀ k, psi (c * a) d (k + 2) = d * psi (c * a) d (k + 1) - c * a * psi (c * a) d k := fun k => rfl
  rcases lt_trichotomy i j with hij | hij | hij
  · rw [if_neg (by omega : ¬ i = j), if_pos (by omega : i + 1 < n)]
    obtain ⟨e, rfl⟩ : ∃ e, j = i + 1 + e := ⟨j - i - 1, by omega⟩
    have e1 : (if i = 0 then (0:ℝ) else a * invEnt n a d c (i - 1) (i + 1 + e)) =
        a * ((-c) ^ (e + 2) * (psi (c * a) d i * psi (c * a) d (n - (i + 1 + e)) / psi (c * a) d (n + 1))) := by
      rcases Nat.eq_zero_or_pos i with h0 | h0
      · subst h0; simp [psi]
      · rw [if_neg (by omega), invEnt, if_pos (by omega), show i + 1 + e - (i - 1) = e + 2 by omega,
          show i - 1 + 1 = i by omega]
    rw [e1, invEnt, if_pos (by omega), invEnt, if_pos (by omega), show i + 1 + e - i = e + 1 by omega,
      show i + 1 + e - (i + 1) = e by omega, show i + 1 + 1 = i + 2 by omega, rec2 i]
    field_simp
    ring
  · subst hij
    rw [if_pos rfl]
    have e1 : (if i = 0 then (0:ℝ) else a * invEnt n a d c (i - 1) i) =
        a * ((-c) ^ 1 * (psi (c * a) d i * psi (c * a) d (n - i) / psi (c * a) d (n + 1))) := by
      rcases Nat.eq_zero_or_pos i with h0 | h0
      · subst h0; simp [psi]
      · rw [if_neg (by omega), invEnt, if_pos (by omega), show i - (i - 1) = 1 by omega,
          show i - 1 + 1 = i by omega]
    have e2 : (if i + 1 < n then c * invEnt n a d c (i + 1) i else 0) =
        c * ((-a) ^ 1 * (psi (c * a) d (i + 1) * psi (c * a) d (n - i - 1) / psi (c * a) d (n + 1))) := by
      by_cases h1 : i + 1 < n
      · rw [if_pos h1, invEnt, if_neg (by omega), show i + 1 - i = 1 by omega, Nat.sub_add_eq]
      · rw [if_neg h1, show n - i - 1 = 0 by omega]; simp [psi]
    obtain ⟨m, rfl⟩ : ∃ m, n = i + 1 + m := ⟨n - i - 1, by omega⟩
    have key := psi_add (p := c * a) (d := d) m i
    rw [e1, e2, invEnt, if_pos le_rfl, show i + 1 + m - i = m + 1 by omega, show m + 1 - 1 = m by omega,
      Nat.sub_self, show i + 1 + m + 1 = i + m + 2 by omega] at *
    rw [rec2 i] at key
    generalize psi (c * a) d = P at *
    field_simp
    rw [← key]
    ring
  · rw [if_neg (by omega : ¬ i = j), if_neg (by omega : ¬ i = 0)]
    obtain ⟨e, rfl⟩ : ∃ e, i = j + 1 + e := ⟨i - j - 1, by omega⟩
    have e1 : a * invEnt n a d c (j + 1 + e - 1) j =
        a * ((-a) ^ e * (psi (c * a) d (j + 1) * psi (c * a) d (n - (j + e)) / psi (c * a) d (n + 1))) := by
      rcases Nat.eq_zero_or_pos e with h0 | h0
      · subst h0; rw [invEnt, if_pos (by omega)]
        simp
      · rw [invEnt, if_neg (by omega), show j + 1 + e - 1 = j + e by omega, show j + e - j = e by omega]
    have e2 : (if j + 1 + e + 1 < n then c * invEnt n a d c (j + 1 + e + 1) j else 0) =
        c * ((-a) ^ (e + 2) * (psi (c * a) d (j + 1) * psi (c * a) d (n - (j + e) - 2) / psi (c * a) d (n + 1))) := by
      by_cases h1 : j + 1 + e + 1 < n
      · rw [if_pos h1, invEnt, if_neg (by omega), show j + 1 + e + 1 - j = e + 2 by omega,
          show n - (j + 1 + e + 1) = n - (j + e) - 2 by omega]
      · rw [if_neg h1, show n - (j + e) - 2 = 0 by omega]; simp [psi]
    obtain ⟨m, rfl⟩ : ∃ m, n = j + e + (m + 2) := ⟨n - (j + e) - 2, by omega⟩
    rw [e1, e2, invEnt, if_neg (by omega), show j + 1 + e - j = e + 1 by omega,
      show j + e + (m + 2) - (j + 1 + e) = m + 1 by omega, show j + e + (m + 2) - (j + e) = m + 2 by omega,
      show m + 2 - 2 = m by omega, rec2 m]
    field_simp
    ring

theorem tridiag_det (n : ℕ) : (tridiag n a d c).det = psi (c * a) d (n + 1) := by
  induction n using Nat.strong_induction_on with
  | _ n ih =>
    match n with
    | 0 => simp [psi]
    | 1 => simp [tridiag, psi]
    | n + 2 =>
      have e0 : (tridiag (n + 2) a d c).submatrix Fin.succ (Fin.succAbove 0) = tridiag (n + 1) a d c := by
        ext i j
        simp [tridiag, Fin.ext_iff]
      have e1 : ((tridiag (n + 2) a d c).submatrix Fin.succ (Fin.succAbove 1)).det = a * (tridiag n a d c).det := by
        rw [Matrix.det_succ_column_zero, Fin.sum_univ_succ]
        have hz : ∀ i : Fin n, (tridiag (n + 2) a d c).submatrix Fin.succ (Fin.succAbove 1) i.succ 0 = 0 := by
          intro i; simp [tridiag, Fin.ext_iff]
        have e2 : ((tridiag (n + 2) a d c).submatrix Fin.succ (Fin.succAbove 1)).submatrix
            (Fin.succAbove 0) Fin.succ = tridiag n a d c := by
          ext i j
          have : (Fin.succAbove (1 : Fin (n + 2)) j.succ) = j.succ.succ := by
            rw [Fin.succAbove_of_le_castSucc]
            simp [Fin.le_def]
          simp [tridiag, this, Fin.ext_iff]
        simp only [hz, mul_zero, zero_mul, Finset.sum_const_zero, add_zero, e2]
        simp [tridiag]
      rw [Matrix.det_succ_row_zero, Fin.sum_univ_succ, Fin.sum_univ_succ]
      have hz : ∀ j : Fin n, tridiag (n + 2) a d c 0 j.succ.succ = 0 := by
        intro j; simp [tridiag, Fin.ext_iff]
      simp only [hz, mul_zero, zero_mul, Finset.sum_const_zero, add_zero, e0]
      have e1' : (tridiag (n + 2) a d c).submatrix Fin.succ (Fin.succAbove (Fin.succ 0)) =
        (tridiag (n + 2) a d c).submatrix Fin.succ (Fin.succAbove 1) := rfl
      rw [e1', e1, ih (n + 1) (by omega), ih n (by omega)]
      simp [tridiag, psi]
      ring

/-! ### Lists and vectors -/

theorem thetaVec_eq (n m : ℕ) (hn : n = m + 2) :
    thetaVec a d c n = (List.range (n + 1)).map fun k => psi (c * a) d (k + 1) := by
  subst hn
  induction m with
  | zero => simp [thetaVec, List.range_succ, psi]
  | succ m ih =>
    rw [thetaVec, show m + 1 + 2 - 2 = m + 1 by omega, List.range'_concat, List.foldl_append]
    rw [thetaVec, show m + 2 - 2 = m by omega] at ih
    rw [ih, List.range_succ (n := m + 1 + 2), List.map_append]
    simp only [List.foldl_cons, List.foldl_nil, List.map_cons, List.map_nil]
    congr 2
    rw [List.getD_eq_getElem _ _ (by simp; omega), List.getD_eq_getElem _ _ (by simp; omega)]
    simp only [List.getElem_map, List.getElem_range, one_mul]
    rw [show 2 + m - 1 + 1 = m + 2 by omega, show 2 + m + 1 = m + 3 by omega, show m + 1 + 2 + 1 = m + 2 + 2 by omega]
    rfl

theorem phiVec_eq (n m : ℕ) (hn : n = m + 1) :
    phiVec a d c n = (List.range (n + 1)).map fun k => psi (c * a) d (k + 1) := by
  subst hn
  induction m with
  | zero => simp [phiVec, List.range_succ, psi]
  | succ m ih =>
    rw [phiVec, show m + 1 + 1 - 1 = m + 1 by omega, List.range'_concat, List.foldl_append]
    rw [phiVec, show m + 1 - 1 = m by omega] at ih
    rw [ih, List.range_succ (n := m + 1 + 1), List.map_append]
    simp only [List.foldl_cons, List.foldl_nil, List.map_cons, List.map_nil]
    congr 2
    rw [List.getD_eq_getElem _ _ (by simp; omega), List.getD_eq_getElem _ _ (by simp)]
    simp only [List.getElem_map, List.getElem_range, one_mul]
    rw [show 1 + m - 1 + 1 = m + 1 by omega, show 1 + m + 1 = m + 2 by omega, show m + 1 + 1 + 1 = m + 1 + 2 by omega]
    rfl

theorem foldl_mul_const (l : List ℕ) (x s : ℝ) :
    l.foldl (fun value _ => value * x) s = s * x ^ l.length := by
  induction l generalizing s with
  | nil => simp
  | cons y l ih => rw [List.foldl_cons, ih, List.length_cons, pow_succ]; ring

theorem neg_one_pow_mul (x : ℝ) (i k : ℕ) : (-1) ^ (i + (i + k)) * x ^ k = (-x) ^ k := by
  rw [neg_pow x, show i + (i + k) = 2 * i + k by ring, pow_add, pow_mul]; simp

theorem foldl_congr' {α β : Type} (l : List β) (f g : α → β → α) (h : ∀ b ∈ l, ∀ x, f x b = g x b) (s : α) :
    l.foldl f s = l.foldl g s := by
  induction l generalizing s with
  | nil => rfl
  | cons b l ih =>
    rw [List.foldl_cons, List.foldl_cons, h b (by simp), ih fun b hb => h b (by simp [hb])]

theorem map_range_ofFn {α : Type} (n : ℕ) (f : ℕ → α) : (List.range n).map f = List.ofFn fun i : Fin n => f i := by
  refine List.ext_getElem (by simp) ?_
  intro i h1 h2
  simp

theorem invTridiag_eq (n : ℕ) (hn : 2 ≤ n) :
    invTridiag a d c n = List.ofFn fun i : Fin n => List.ofFn fun j : Fin n => invMat n a d c i j := by
  obtain ⟨m, rfl⟩ : ∃ m, n = m + 2 := ⟨n - 2, by omega⟩
  rw [invTridiag, thetaVec_eq _ m rfl, phiVec_eq _ (m + 1) rfl]
  refine (map_range_ofFn (m + 2) _).trans (congrArg List.ofFn (funext fun i => ?_))
  refine (map_range_ofFn (m + 2) _).trans (congrArg List.ofFn (funext fun j => ?_))
  obtain ⟨i, hi⟩ := i
  obtain ⟨j, hj⟩ := j
  have hl : ((List.range (m + 2 + 1)).map fun k => psi (c * a) d (k + 1)).getLastD 0 =
      psi (c * a) d (m + 2 + 1) := by
    rw [List.range_succ, List.map_append, List.map_singleton, List.getLastD_concat]
  have hdl : ((List.range (m + 2 + 1)).map fun k => psi (c * a) d (k + 1)).dropLast =
      (List.range (m + 2)).map fun k => psi (c * a) d (k + 1) := by
    rw [List.range_succ, List.map_append, List.map_singleton, List.dropLast_concat]
  have ht : ∀ k, k < m + 2 → ((List.range (m + 2)).map fun k => psi (c * a) d (k + 1)).getD k 0 =
      psi (c * a) d (k + 1) := by
    intro k hk
    rw [List.getD_eq_getElem _ _ (by simpa using hk)]; simp
  have hp : ∀ k, k < m + 2 → ((List.range (m + 2)).map fun k => psi (c * a) d (k + 1)).reverse.getD k 0 =
      psi (c * a) d (m + 2 - k) := by
    intro k hk
    rw [List.getD_eq_getElem _ _ (by simpa using hk), List.getElem_reverse]
    simp only [List.getElem_map, List.getElem_range, List.length_map, List.length_range]
    congr 1; omega
  simp only [hl, hdl, invEntry, invMat, invEnt]
  rcases lt_trichotomy i j with hij | hij | hij
  · rw [if_pos hij, if_pos hij.le, ht i hi, hp j hj]
    rw [foldl_congr' _ _ (fun value _ => value * c), foldl_mul_const, List.length_range']
    · obtain ⟨k, rfl⟩ : ∃ k, j = i + k := ⟨j - i, by omega⟩
      rw [show i + k - i = k by omega, neg_one_pow_mul]
    · intro k hk x
      rw [List.mem_range'] at hk
      obtain ⟨q, hq, rfl⟩ := hk
      rw [if_neg (by omega)]
  · subst hij
    rw [if_neg (lt_irrefl _), if_pos rfl, if_pos le_rfl, ht i hi, hp i hi, Nat.sub_self, pow_zero]
    have := neg_one_pow_mul 1 i 0
    simp only [add_zero, pow_zero, mul_one] at this
    rw [this]
  · rw [if_neg (by omega), if_neg (by omega), if_neg (by omega), ht j hj, hp i hi, foldl_mul_const,
      List.length_range']
    obtain ⟨k, rfl⟩ : ∃ k, i = j + k := ⟨i - j, by omega⟩
    rw [show j + k - j = k by omega, add_comm (j + k) j, neg_one_pow_mul]

theorem foldl_dot (n : ℕ) (r u : Fin n → ℝ) (s : ℝ) :
    ((List.ofFn r).zip (List.ofFn u)).foldl (fun value ab => value + ab.1 * ab.2) s = s + ∑ i, r i * u i := by
  induction n generalizing s with
  | zero => simp
  | succ n ih =>
    rw [List.ofFn_succ, List.ofFn_succ, List.zip_cons_cons, List.foldl_cons, ih, Fin.sum_univ_succ]
    ring

theorem matMul_ofFn (n m : ℕ) (M : Matrix (Fin m) (Fin n) ℝ) (u : Fin n → ℝ) :
    matMul (List.ofFn fun i => List.ofFn fun j => M i j) (List.ofFn u) = List.ofFn (M.mulVec u) := by
  rw [matMul, List.map_ofFn]
  congr 1
  funext i
  simp only [Function.comp]
  rw [foldl_dot, zero_add]; rfl

theorem getD_ofFn (n : ℕ) (u : Fin n → ℝ) (k : ℕ) (hk : k < n) : (List.ofFn u).getD k 0 = u ⟨k, hk⟩ := by
  rw [List.getD_eq_getElem _ _ (by simpa using hk)]; simp

theorem tridiag_mulVec (n : ℕ) (u : Fin n → ℝ) (i : ℕ) (hi : i < n) :
    (tridiag n a d c).mulVec u ⟨i, hi⟩ =
      (if i = 0 then 0 else a * (List.ofFn u).getD (i - 1) 0) + d * (List.ofFn u).getD i 0
        + (if i + 1 < n then c * (List.ofFn u).getD (i + 1) 0 else 0) := by
  rw [← sum_tridiag n i hi (fun k => (List.ofFn u).getD k 0)]
  simp only [Matrix.mulVec, dotProduct]
  exact Finset.sum_congr rfl fun j _ => by rw [getD_ofFn n u j.val j.isLt]

theorem tridiagMul_ofFn (n : ℕ) (u : Fin n → ℝ) :
    tridiagMul a d c (List.ofFn u) =
      if n < 2 then none else some (List.ofFn ((tridiag n a d c).mulVec u)) := by
  unfold tridiagMul
  rw [List.length_ofFn]
  split_ifs with h
  · rfl
  · congr 1
    obtain ⟨m, rfl⟩ : ∃ m, n = m + 2 := ⟨n - 2, by omega⟩
    refine List.ext_getElem (by simp) ?_
    intro i h1 h2
    rw [List.length_ofFn] at h2
    rw [List.getElem_ofFn, tridiag_mulVec]
    rcases Nat.eq_zero_or_pos i with h0 | h0
    · subst h0
      simp
    · by_cases hl : i < m + 1
      · rw [List.getElem_append_left (by simp; omega), List.getElem_append_right (by simp; omega)]
        rw [if_neg (by omega), if_pos (by omega)]
        simp only [List.length_singleton, List.getElem_map, List.getElem_range']
        rw [show 1 + 1 * (i - 1) = i by omega]
      · have : i = m + 1 := by omega
        subst this
        rw [List.getElem_append_right (by simp)]
        simp

end Verif.Options.FdPricer
