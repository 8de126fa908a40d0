import Verif.Float.VarianceProps
import Verif.Float.CorrelationSpec

/-!
# Sums of rounded deviations: no underflow for data of ordinary size, and their rounding errors
-/

namespace Verif.Float.Corr
open Verif.Float

theorem rnd_multiple {x : ℚ} {e : ℤ} (he : -1074 ≤ e) (h : ∃ n : ℤ, x = n * 2 ^ e) : ∃ n : ℤ, rnd x = n * 2 ^ e := by
  obtain ⟨n, hn⟩ := h
  rcases eq_or_ne x 0 with h0 | h0
  · exact ⟨0, by rw [h0, rnd_zero]; simp⟩
  rcases le_total e (ulpExp x) with hle | hle
  · unfold rnd; rw [if_neg h0]
    obtain ⟨k, hk⟩ := Int.eq_ofNat_of_zero_le (sub_nonneg.2 hle)
    refine ⟨roundEven (x / 2 ^ ulpExp x) * 2 ^ k, ?_⟩
    have : ulpExp x = k + e := by omega
    rw [this, zpow_add₀ (by norm_num)]
    push_cast
    rw [zpow_natCast]; ring
  · refine ⟨n, ?_⟩
    rw [← hn]
    apply rnd_rep
    have h1 := abs_lt_ulp x h0
    rw [hn]
    refine ⟨n, e, rfl, ?_, he⟩
    apply int_abs_lt (zpos e)
    rw [← abs_of_pos (zpos e), ← abs_mul, ← hn, abs_of_pos (zpos e), ← zpow_add₀ (by norm_num)]
    refine h1.trans_le ?_
    rw [zpow_le_iff]; omega

/-- A number of at least this size is a multiple of a known power of two. -/
theorem rep_big {x : ℚ} (h : Rep x) (e : ℤ) (h1 : x = 0 ∨ 2 ^ e ≤ |x|) : ∃ n : ℤ, x = n * 2 ^ (e - 52) := by
  rcases eq_or_ne x 0 with h0 | h0
  · exact ⟨0, by simp [h0]⟩
  have h1 := h1.resolve_left h0
  obtain ⟨n, hn⟩ := rep_multiple h h0
  have h2 := abs_lt_ulp x h0
  have h3 : e < ulpExp x + 53 := (zpow_lt_iff _ _).1 (h1.trans_lt h2)
  obtain ⟨k, hk⟩ := Int.eq_ofNat_of_zero_le (show 0 ≤ ulpExp x - (e - 52) by omega)
  refine ⟨n * 2 ^ k, ?_⟩
  rw [hn]
  have : ulpExp x = k + (e - 52) := by omega
  rw [show (2:ℚ) ^ ulpExp x = 2 ^ ((k:ℤ) + (e - 52)) by rw [← this], zpow_add₀ (by norm_num)]
  push_cast
  rw [zpow_natCast]; ring

theorem multiple_big {x : ℚ} {e : ℤ} (h : ∃ n : ℤ, x = n * 2 ^ e) : x = 0 ∨ 2 ^ e ≤ |x| := by
  obtain ⟨n, hn⟩ := h
  rcases eq_or_ne n 0 with h0 | h0
  · left; rw [hn, h0]; simp
  · right
    rw [hn, abs_mul, abs_of_pos (zpos e)]
    have : (1 : ℚ) ≤ |(n : ℚ)| := by
      rw [← Int.cast_abs]; exact_mod_cast Int.one_le_abs h0
    nlinarith [zpos e]

theorem foldlM_multiple (e : ℤ) (he : -1074 ≤ e) (xs : List F64) (acc s : F64) (ha : ∃ n : ℤ, acc.val = n * 2 ^ e)
    (hx : ∀ x ∈ xs, ∃ n : ℤ, x.val = n * 2 ^ e) (h : xs.foldlM F64.add acc = some s) : ∃ n : ℤ, s.val = n * 2 ^ e := by
  induction xs generalizing acc with
  | nil => cases h; exact ha
  | cons x xs ih =>
    rw [List.foldlM_cons] at h
    obtain ⟨a, h1, h2⟩ := Option.bind_eq_some_iff.1 h
    refine ih a ?_ (fun y hy => hx y (List.mem_cons_of_mem _ hy)) h2
    rw [show a.val = rnd (acc.val + x.val) from toF64_some h1]
    apply rnd_multiple he
    obtain ⟨n, hn⟩ := ha
    obtain ⟨m, hm⟩ := hx x List.mem_cons_self
    exact ⟨n + m, by rw [hn, hm]; push_cast; ring⟩

/-- A sum of few numbers of at most this size. -/
theorem absSum_le (xs : List F64) (b : ℚ) (h : ∀ x ∈ xs, |x.val| ≤ b) : absSum xs ≤ xs.length * b := by
  induction xs with
  | nil => simp [absSum]
  | cons x xs ih =>
    rw [absSum_cons, List.length_cons]
    have h1 := h x List.mem_cons_self
    have h2 := ih fun y hy => h y (List.mem_cons_of_mem _ hy)
    push_cast; linarith

theorem sum_total (xs : List F64) (hn : xs.length ≤ 2 ^ 52) (h : absSum xs < 2 ^ 1022) : ∃ s, sum xs = some s := by
  apply sum_from_total
  have h1 := pow_bound _ hn
  have h2 : (xs.length : ℚ) * 2 ^ (-52 : ℤ) ≤ 1 := by
    have : (xs.length : ℚ) ≤ 2 ^ 52 := by exact_mod_cast hn
    calc (xs.length : ℚ) * 2 ^ (-52 : ℤ) ≤ 2 ^ 52 * 2 ^ (-52 : ℤ) := by gcongr
      _ = 1 := by norm_num
  have h3 := absSum_nonneg xs
  have h4 : (1 + u) ^ xs.length ≤ 2 := by linarith
  have h5 : (2 : ℚ) ^ 1024 = 4 * 2 ^ 1022 := by rw [show 1024 = 1022 + 2 from rfl, pow_add]; ring
  rw [h5]
  have h6 : (1 + u) ^ xs.length * (|F64.zero.val| + absSum xs) ≤ 2 * absSum xs := by
    rw [show F64.zero.val = 0 from rfl, abs_zero, _root_.zero_add]
    exact mul_le_mul_of_nonneg_right h4 h3
  have h7 : (0 : ℚ) < 2 ^ 1022 := by positivity
  clear h1 h2 h5
  generalize (2 : ℚ) ^ 1022 = t at *
  generalize (1 + u) ^ xs.length * (|F64.zero.val| + absSum xs) = w at *
  linarith

theorem rep_two (e : ℤ) (he : -1074 ≤ e) : Rep ((2 : ℚ) ^ e) := ⟨1, e, by simp, by norm_num, he⟩

theorem fin_two {q : ℚ} {e : ℤ} (he : -1074 ≤ e) (he' : e < 1024) (h : |q| ≤ 2 ^ e) : |rnd q| < 2 ^ 1024 := by
  refine (rnd_abs_le (rep_two e he) h).trans_lt ?_
  rw [← zpow_natCast, zpow_lt_iff]
  exact_mod_cast he'

theorem le_absSum (xs : List F64) (x : F64) (h : x ∈ xs) : |x.val| ≤ absSum xs := by
  induction xs with
  | nil => cases h
  | cons y ys ih =>
    rw [absSum_cons]
    rcases List.mem_cons.1 h with rfl | h
    · linarith [absSum_nonneg ys]
    · linarith [ih h, abs_nonneg y.val]

theorem abs_exactSum (xs : List F64) : |exactSum xs| ≤ absSum xs := by
  induction xs with
  | nil => simp [exactSum, absSum]
  | cons y ys ih =>
    rw [absSum_cons, exactSum_cons]
    exact (abs_add_le _ _).trans (by linarith)

/-- The size of a computed deviation. -/
def Good (d : F64) : Prop := d.val = 0 ∨ (2 ^ (-444 : ℤ) ≤ |d.val| ∧ |d.val| ≤ 2 ^ (402 : ℤ))

theorem mean_ok (xs : List F64) (ht : Tame xs) (h1 : 1 ≤ xs.length) (h2 : xs.length ≤ 2 ^ 40) :
    ∃ s n m, sum xs = some s ∧ ofNat xs.length = some n ∧ n.val = xs.length ∧ s.div n = some m ∧
      |m.val - exactSum xs / xs.length| ≤ 2 ^ (-51 : ℤ) * absSum xs ∧
      ∀ x ∈ xs, ∃ d, x.sub m = some d ∧ Good d := by
  have hN : (1 : ℚ) ≤ xs.length := by exact_mod_cast h1
  have hN' : (xs.length : ℚ) ≤ 2 ^ (40 : ℤ) := by exact_mod_cast h2
  have hx400 : ∀ x ∈ xs, |x.val| ≤ 2 ^ (400 : ℤ) := by
    intro x hx
    rcases ht x hx with h | h
    · rw [h, abs_zero]; exact (zpos _).le
    · exact h.2
  have hA := absSum_le xs _ hx400
  have hA0 := absSum_nonneg xs
  have hA440 : absSum xs ≤ 2 ^ (440 : ℤ) := by
    refine hA.trans ?_
    rw [show (2 : ℚ) ^ (440 : ℤ) = 2 ^ (40 : ℤ) * 2 ^ (400 : ℤ) by rw [← zpow_add₀ (by norm_num)]; norm_num]
    exact mul_le_mul_of_nonneg_right hN' (zpos _).le
  obtain ⟨s, hs⟩ := sum_total xs (h2.trans (by norm_num)) (hA440.trans_lt (by
    rw [← zpow_natCast, zpow_lt_iff]; norm_num))
  obtain ⟨n, hn, hnv⟩ := ofNat_small xs.length (h2.trans (by norm_num))
  have hse := sum_error xs (h2.trans (by norm_num)) s hs
  have habs := abs_exactSum xs
  have hs2 : |s.val| ≤ 2 * absSum xs := by
    have h3 : ((xs.length - 1 : ℕ) : ℚ) * 2 ^ (-52 : ℤ) ≤ 1 := by
      have : ((xs.length - 1 : ℕ) : ℚ) ≤ 2 ^ 52 := by exact_mod_cast (by omega : xs.length - 1 ≤ 2 ^ 52)
      calc ((xs.length - 1 : ℕ) : ℚ) * 2 ^ (-52 : ℤ) ≤ 2 ^ 52 * 2 ^ (-52 : ℤ) := by gcongr
        _ = 1 := by norm_num
    have h4 := mul_le_mul_of_nonneg_right h3 hA0
    have h5 : s.val = (s.val - exactSum xs) + exactSum xs := by ring
    rw [h5]
    exact (abs_add_le _ _).trans (by linarith)
  have hq : |s.val / n.val| ≤ 2 ^ (441 : ℤ) := by
    rw [hnv, abs_div, abs_of_pos (by linarith : (0 : ℚ) < xs.length), div_le_iff₀ (by linarith)]
    have e : (2 : ℚ) ^ (441 : ℤ) = 2 * 2 ^ (440 : ℤ) := by rw [show (441 : ℤ) = 1 + 440 by norm_num, zpow_add₀ (by norm_num)]; norm_num
    rw [e]
    have key : ∀ t a s l : ℚ, s ≤ 2 * a → a ≤ t → 0 < t → 1 ≤ l → s ≤ 2 * t * l := by intros; nlinarith
    exact key _ _ _ _ hs2 hA440 (zpos 440) hN
  have hn0 : n.val ≠ 0 := by rw [hnv]; linarith
  obtain ⟨m, hm, hmv⟩ := toF64_isSome (fin_two (by norm_num) (by norm_num) hq)
  have hdiv : s.div n = some m := by unfold F64.div; rw [if_neg hn0]; exact hm
  have hmult : ∀ x ∈ xs, ∃ k : ℤ, x.val = k * 2 ^ (-352 : ℤ) := fun x hx =>
    rep_big x.rep (-300) ((ht x hx).imp_right And.left)
  have hsm := foldlM_multiple (-352) (by norm_num) xs F64.zero s ⟨0, by simp [F64.zero]⟩ hmult hs
  have hmbig : m.val = 0 ∨ 2 ^ (-392 : ℤ) ≤ |m.val| := by
    rcases multiple_big hsm with h | h
    · left; rw [hmv, h, zero_div, rnd_zero]
    · right
      have h3 : 2 ^ (-392 : ℤ) ≤ |s.val / n.val| := by
        rw [hnv, abs_div, abs_of_pos (by linarith : (0 : ℚ) < xs.length), le_div_iff₀ (by linarith)]
        refine le_trans ?_ h
        rw [show (2 : ℚ) ^ (-352 : ℤ) = 2 ^ (-392 : ℤ) * 2 ^ (40 : ℤ) by rw [← zpow_add₀ (by norm_num)]; norm_num]
        exact mul_le_mul_of_nonneg_left hN' (zpos _).le
      rw [hmv]
      have hr := rep_two (-392) (by norm_num)
      rcases le_total 0 (s.val / n.val) with h4 | h4
      · rw [abs_of_nonneg h4] at h3
        exact (le_rnd hr h3).trans (le_abs_self _)
      · rw [abs_of_nonpos h4] at h3
        have := le_rnd hr h3
        rw [rnd_neg] at this
        exact this.trans (neg_le_abs _)
  have hme : |m.val - exactSum xs / xs.length| ≤ 2 ^ (-51 : ℤ) * absSum xs := by
    have hne : xs ≠ [] := by rintro rfl; simp at h1
    have hmean : mean xs = .ok m := by
      unfold mean meanVal
      rw [if_neg hne, hs, hn]
      simp only [Option.bind_eq_bind, Option.bind_some, hdiv, Res.of]
    have h3 := (C86_mean xs (h2.trans (by norm_num))).2 m hmean
    change |m.val - exactSum xs / xs.length| ≤ 2 ^ (-52 : ℤ) * absSum xs + _ at h3
    by_cases hz : ∀ x ∈ xs, x.val = 0
    · have hz0 : absSum xs ≤ 0 := by
        have := absSum_le xs 0 (fun x hx => by rw [hz x hx, abs_zero])
        simpa using this
      have hA00 : absSum xs = 0 := le_antisymm hz0 hA0
      rw [hA00] at hs2 habs ⊢
      have hs0 : s.val = 0 := abs_nonpos_iff.1 (by linarith)
      have he0 : exactSum xs = 0 := abs_nonpos_iff.1 habs
      rw [hmv, hs0, he0]; simp [rnd_zero]
    · push Not at hz
      obtain ⟨x, hx, hx0⟩ := hz
      have h4 := (((ht x hx).resolve_left hx0).1).trans (le_absSum xs x hx)
      have h5 : (2 : ℚ) ^ (-1075 : ℤ) ≤ 2 ^ (-52 : ℤ) * 2 ^ (-300 : ℤ) := by
        rw [← zpow_add₀ (by norm_num), zpow_le_iff]; norm_num
      have h6 := mul_le_mul_of_nonneg_left h4 (zpos (-52)).le
      have h7 : (2 : ℚ) ^ (-51 : ℤ) = 2 * 2 ^ (-52 : ℤ) := by norm_num
      rw [h7, mul_assoc, two_mul]
      exact h3.trans (_root_.add_le_add le_rfl (h5.trans h6))
  refine ⟨s, n, m, hs, hn, hnv, hdiv, hme, fun x hx => ?_⟩
  have hm401 : |m.val| ≤ 2 ^ (401 : ℤ) := by
    have h3 : |exactSum xs / xs.length| ≤ 2 ^ (400 : ℤ) := by
      rw [abs_div, abs_of_pos (by linarith : (0 : ℚ) < xs.length), div_le_iff₀ (by linarith)]
      linarith
    have h4 : (2 : ℚ) ^ (-51 : ℤ) * absSum xs ≤ 2 ^ (400 : ℤ) := by
      calc (2 : ℚ) ^ (-51 : ℤ) * absSum xs ≤ 2 ^ (-51 : ℤ) * 2 ^ (440 : ℤ) := by gcongr
        _ ≤ 2 ^ (400 : ℤ) := by rw [← zpow_add₀ (by norm_num), zpow_le_iff]; norm_num
    have e : (2 : ℚ) ^ (401 : ℤ) = 2 * 2 ^ (400 : ℤ) := by rw [show (401 : ℤ) = 1 + 400 by norm_num, zpow_add₀ (by norm_num)]; norm_num
    have h5 : m.val = (m.val - exactSum xs / xs.length) + exactSum xs / xs.length := by ring
    rw [h5, e, two_mul]
    exact (abs_add_le _ _).trans (_root_.add_le_add (hme.trans h4) h3)
  have hd : |x.val - m.val| ≤ 2 ^ (402 : ℤ) := by
    have e : (2 : ℚ) ^ (402 : ℤ) = 2 * 2 ^ (401 : ℤ) := by rw [show (402 : ℤ) = 1 + 401 by norm_num, zpow_add₀ (by norm_num)]; norm_num
    have e1 : (2 : ℚ) ^ (400 : ℤ) ≤ 2 ^ (401 : ℤ) := by rw [zpow_le_iff]; norm_num
    rw [e, two_mul]
    exact (abs_sub _ _).trans (_root_.add_le_add ((hx400 x hx).trans e1) hm401)
  obtain ⟨d, h3, h4⟩ := toF64_isSome (fin_two (by norm_num) (by norm_num) hd)
  refine ⟨d, h3, ?_⟩
  have hmult' : ∃ k : ℤ, d.val = k * 2 ^ (-444 : ℤ) := by
    rw [h4]
    apply rnd_multiple (by norm_num)
    obtain ⟨k, hk⟩ := hmult x hx
    obtain ⟨j, hj⟩ := rep_big m.rep (-392) hmbig
    refine ⟨k * 2 ^ 92 - j, ?_⟩
    rw [hk, hj, show (2 : ℚ) ^ (-352 : ℤ) = 2 ^ (92 : ℤ) * 2 ^ (-444 : ℤ) by rw [← zpow_add₀ (by norm_num)]; norm_num]
    rw [show (-392 - 52 : ℤ) = -444 by norm_num, Int.cast_sub, Int.cast_mul, Int.cast_pow, Int.cast_two, show (2 : ℚ) ^ (92 : ℤ) = 2 ^ 92 by norm_cast,
      sub_mul, mul_assoc]
  rcases multiple_big hmult' with h | h
  · exact .inl h
  · exact .inr ⟨h, by rw [h4]; exact rnd_abs_le (rep_two _ (by norm_num)) hd⟩

/-- A rounded deviation. -/
def dv (m x : F64) : ℚ := rnd (x.val - m.val)

theorem good_product {d e : F64} (hd : Good d) (he : Good e) :
    ∃ w, d.mul e = some w ∧ |w.val - d.val * e.val| ≤ u * |d.val * e.val| ∧ |d.val * e.val| ≤ 2 ^ (804 : ℤ) := by
  have hb : |d.val * e.val| ≤ 2 ^ (804 : ℤ) := by
    rw [abs_mul, show (2 : ℚ) ^ (804 : ℤ) = 2 ^ (402 : ℤ) * 2 ^ (402 : ℤ) by rw [← zpow_add₀ (by norm_num)]; norm_num]
    have h1 : |d.val| ≤ 2 ^ (402 : ℤ) := by
      rcases hd with h | h
      · rw [h, abs_zero]; exact (zpos _).le
      · exact h.2
    have h2 : |e.val| ≤ 2 ^ (402 : ℤ) := by
      rcases he with h | h
      · rw [h, abs_zero]; exact (zpos _).le
      · exact h.2
    exact mul_le_mul h1 h2 (abs_nonneg _) (zpos _).le
  obtain ⟨w, h1, h2⟩ := toF64_isSome (fin_two (by norm_num) (by norm_num) hb)
  refine ⟨w, h1, ?_, hb⟩
  rw [h2, abs_sub_comm]
  rcases hd with h | h
  · rw [h, zero_mul, rnd_zero]; simp
  rcases he with h' | h'
  · rw [h', mul_zero, rnd_zero]; simp
  rcases rnd_error (d.val * e.val) with h3 | ⟨h3, _⟩
  · exact h3
  · exfalso
    have h4 : (2 : ℚ) ^ (-444 : ℤ) * 2 ^ (-444 : ℤ) ≤ |d.val * e.val| := by
      rw [abs_mul]; exact mul_le_mul h.1 h'.1 (zpos _).le (abs_nonneg _)
    have h5 := h4.trans_lt h3
    rw [← zpow_add₀ (by norm_num), zpow_lt_iff] at h5
    norm_num at h5

theorem mapM_total {α : Type} (f : α → Option F64) (P : α → F64 → Prop) (xs : List α) (h : ∀ x ∈ xs, ∃ y, f x = some y ∧ P x y) :
    ∃ ys, xs.mapM f = some ys ∧ List.Forall₂ P xs ys := by
  induction xs with
  | nil => exact ⟨[], by simp [List.mapM_nil], .nil⟩
  | cons x xs ih =>
    obtain ⟨y, h1, h2⟩ := h x List.mem_cons_self
    obtain ⟨ys, h3, h4⟩ := ih fun z hz => h z (List.mem_cons_of_mem _ hz)
    exact ⟨y :: ys, by rw [List.mapM_cons, h1, h3]; rfl, .cons h2 h4⟩

theorem forall₂_sums {α : Type} (f : α → ℚ) (c : ℚ) (xs : List α) (ys : List F64) (h : List.Forall₂ (fun x y => |y.val - f x| ≤ c * |f x|) xs ys) :
    |exactSum ys - (xs.map f).sum| ≤ c * (xs.map fun x => |f x|).sum ∧ absSum ys ≤ (1 + c) * (xs.map fun x => |f x|).sum := by
  induction h with
  | nil => simp [exactSum, absSum]
  | @cons x y xs ys hxy _ ih =>
    rw [exactSum_cons, absSum_cons, List.map_cons, List.map_cons, List.sum_cons, List.sum_cons]
    constructor
    · rw [show y.val + exactSum ys - (f x + (xs.map f).sum) = (y.val - f x) + (exactSum ys - (xs.map f).sum) by ring]
      refine (abs_add_le _ _).trans ?_
      rw [mul_add]
      exact _root_.add_le_add hxy ih.1
    · have : |y.val| ≤ |y.val - f x| + |f x| := by
        calc |y.val| = |(y.val - f x) + f x| := by rw [sub_add_cancel]
          _ ≤ _ := abs_add_le _ _
      have := ih.2
      linarith

theorem coSum_ok (ps : List (F64 × F64)) (mx my : F64) (h2 : ps.length ≤ 2 ^ 40)
    (hx : ∀ p ∈ ps, ∃ d, p.1.sub mx = some d ∧ Good d) (hy : ∀ p ∈ ps, ∃ d, p.2.sub my = some d ∧ Good d) :
    ∃ S, coSum ps mx my = some S ∧
      |S.val - (ps.map fun p => dv mx p.1 * dv my p.2).sum| ≤
        ps.length * 2 ^ (-52 : ℤ) * (ps.map fun p => |dv mx p.1 * dv my p.2|).sum := by
  obtain ⟨ws, h3, h4⟩ := mapM_total (fun p : F64 × F64 => do (← p.1.sub mx).mul (← p.2.sub my))
    (fun p w => |w.val - dv mx p.1 * dv my p.2| ≤ u * |dv mx p.1 * dv my p.2| ∧ |dv mx p.1 * dv my p.2| ≤ 2 ^ (804 : ℤ)) ps (by
      intro p hp
      obtain ⟨d, h5, h6⟩ := hx p hp
      obtain ⟨e, h7, h8⟩ := hy p hp
      obtain ⟨w, h9, h10⟩ := good_product h6 h8
      refine ⟨w, by rw [h5, h7]; exact h9, ?_⟩
      unfold dv
      rw [← toF64_some h5, ← toF64_some h7]
      exact h10)
  have hlen : ws.length = ps.length := h4.length_eq.symm
  have h5 := forall₂_sums (fun p : F64 × F64 => dv mx p.1 * dv my p.2) u ps ws (h4.imp fun _ _ h => h.1)
  set T := (ps.map fun p => dv mx p.1 * dv my p.2).sum with hT
  set B := (ps.map fun p => |dv mx p.1 * dv my p.2|).sum with hB
  have hB0 : 0 ≤ B := by
    apply List.sum_nonneg
    intro y hy
    obtain ⟨x, _, rfl⟩ := List.mem_map.1 hy
    exact abs_nonneg _
  have hu := u_pos
  have hfin : absSum ws < 2 ^ 1022 := by
    have h6 : ∀ w ∈ ws, |w.val| ≤ 2 ^ (805 : ℤ) := by
      intro w hw
      obtain ⟨i, hi, rfl⟩ := List.getElem_of_mem hw
      have h7 := List.Forall₂.get h4 (i := i) (by rw [h4.length_eq]; exact hi) hi
      simp only [List.get_eq_getElem] at h7
      obtain ⟨h7, h8⟩ := h7
      have key : ∀ w f t v : ℚ, |w - f| ≤ u * |f| → |f| ≤ t → v = 2 * t → |w| ≤ v := by
        intro w f t v h1 h2 h3
        have h4 : |w| ≤ |w - f| + |f| := by
          calc |w| = |(w - f) + f| := by rw [sub_add_cancel]
            _ ≤ _ := abs_add_le _ _
        have := u_lt
        have := abs_nonneg f
        rw [h3]; nlinarith
      refine key _ _ _ _ h7 h8 ?_
      rw [show (805 : ℤ) = 1 + 804 by norm_num, zpow_add₀ (by norm_num)]; norm_num
    have h7 := absSum_le ws _ h6
    refine h7.trans_lt ?_
    have h8 : (ws.length : ℚ) ≤ 2 ^ (40 : ℤ) := by rw [hlen]; exact_mod_cast h2
    refine (mul_le_mul_of_nonneg_right h8 (zpos _).le).trans_lt ?_
    rw [← zpow_add₀ (by norm_num), ← zpow_natCast, zpow_lt_iff]; norm_num
  obtain ⟨S, hS⟩ := sum_total ws (by rw [hlen]; exact h2.trans (by norm_num)) hfin
  refine ⟨S, by unfold coSum; rw [h3]; exact hS, ?_⟩
  have h6 := sum_error ws (by rw [hlen]; exact h2.trans (by norm_num)) S hS
  rw [hlen] at h6
  rcases Nat.eq_zero_or_pos ps.length with h0 | h0
  · have hp : ps = [] := List.length_eq_zero_iff.1 h0
    subst hp
    cases ws with
    | nil =>
      have : S.val = 0 := by
        have : sum [] = some S := hS
        unfold sum at this
        simp only [List.foldlM_nil] at this
        cases this; rfl
      simp [hT, this]
    | cons w ws => simp at hlen
  · have e1 : ((ps.length - 1 : ℕ) : ℚ) = ps.length - 1 := by rw [Nat.cast_sub h0]; simp
    have e2 : (2 : ℚ) ^ (-52 : ℤ) = 2 * u := by unfold u; norm_num
    have hl : (1 : ℚ) ≤ ps.length := by exact_mod_cast h0
    have hl' : (ps.length : ℚ) ≤ 2 ^ 40 := by exact_mod_cast h2
    have hlu : (ps.length : ℚ) * u ≤ 1 / 1000 := by
      calc (ps.length : ℚ) * u ≤ 2 ^ 40 * u := by gcongr
        _ ≤ 1 / 1000 := by unfold u; norm_num
    rw [e1, e2] at h6
    rw [e2]
    clear hfin e2 hl' h2 e1
    generalize (ps.length : ℚ) = l at *
    rw [show S.val - T = (S.val - exactSum ws) + (exactSum ws - T) by ring]
    refine (abs_add_le _ _).trans ?_
    have h7 : (l - 1) * (2 * u) * absSum ws ≤ (l - 1) * (2 * u) * ((1 + u) * B) :=
      mul_le_mul_of_nonneg_left h5.2 (mul_nonneg (by linarith) (by linarith))
    have h8 : (l - 1) * (2 * u) * (1 + u) + u ≤ l * (2 * u) := by nlinarith
    have h9 := mul_le_mul_of_nonneg_right h8 hB0
    have h10 := h5.1
    nlinarith

end Verif.Float.Corr
