import Verif.Float.Portfolio
import Verif.Float.SumProps

/-!
# C91: portfolios in double precision
-/

namespace Verif.Float

open Single (F32 toF32)

/-- The exact value of a portfolio. -/
def Spec.value (ps : List Position) : ℚ := (ps.map fun p => (p.quantity : ℚ) * p.currentPrice.val).sum

/-- The exact cost of a portfolio. -/
def Spec.cost (ps : List Position) : ℚ := (ps.map fun p => (p.quantity : ℚ) * p.purchasePrice.val).sum

/-- The sizes of the values of the positions. -/
def Spec.size (ps : List Position) : ℚ := (ps.map fun p => (p.quantity : ℚ) * |p.currentPrice.val|).sum

/-- The sizes of the costs of the positions. -/
def Spec.costSize (ps : List Position) : ℚ := (ps.map fun p => (p.quantity : ℚ) * |p.purchasePrice.val|).sum

/-- Not so small that products with it lose precision. -/
def Normal (x : F64) : Prop := x.val = 0 ∨ 2 ^ (-1022 : ℤ) ≤ |x.val|

/-- A quantity times a price: two roundings. -/
theorem quantity_mul (q : ℕ) (x y : F64) (hx : Normal x) (h : (do (← ofNat q).mul x) = some y) :
    |y.val - q * x.val| ≤ ((1 + u) ^ 2 - 1) * (q * |x.val|) := by
  obtain ⟨r, h1, h2⟩ := Option.bind_eq_some_iff.1 h
  have hr := toF64_some h1
  have hy := mul_some h2
  have hu := u_pos
  rcases Nat.eq_zero_or_pos q with rfl | hq
  · rw [hy, hr]; simp [rnd_zero]
  have hq1 : (1 : ℚ) ≤ q := by exact_mod_cast hq
  have hr1 : 1 ≤ r.val := by rw [hr]; exact le_rnd rep_one hq1
  have e1 : |(q : ℚ) - r.val| ≤ u * q := by
    rw [hr]
    rcases rnd_error (q : ℚ) with h | ⟨h, _⟩
    · rwa [abs_of_nonneg (by positivity : (0:ℚ) ≤ q)] at h
    · rw [abs_of_nonneg (by positivity)] at h
      exact absurd (h.trans (by rw [show (1:ℚ) = 2 ^ (0:ℤ) by norm_num, zpow_lt_iff]; norm_num)) (not_lt.2 hq1)
  have e2 : |r.val * x.val - y.val| ≤ u * |r.val * x.val| := by
    rw [hy]
    rcases hx with h0 | h0
    · rw [h0]; simp [rnd_zero]
    · rcases rnd_error (r.val * x.val) with h | ⟨h, _⟩
      · exact h
      · rw [abs_mul, abs_of_pos (by linarith : 0 < r.val)] at h
        have := abs_nonneg x.val
        nlinarith
  rw [abs_mul, abs_of_pos (by linarith : 0 < r.val)] at e2
  have hrq : r.val ≤ (1 + u) * q := by have := (abs_le.1 e1).1; linarith
  have h3 : |r.val * x.val - q * x.val| ≤ u * q * |x.val| := by
    rw [← sub_mul, abs_mul, abs_sub_comm]
    exact mul_le_mul_of_nonneg_right e1 (abs_nonneg _)
  have h4 := abs_sub_le y.val (r.val * x.val) (q * x.val)
  rw [abs_sub_comm y.val (r.val * x.val)] at h4
  have h5 : r.val * |x.val| ≤ (1 + u) * q * |x.val| := mul_le_mul_of_nonneg_right hrq (abs_nonneg _)
  nlinarith [mul_le_mul_of_nonneg_left h5 hu.le]

/-- Adding numbers that are themselves rounded: `k` roundings each before the sum. -/
theorem rounded_sum {α : Type} (k : ℕ) (exact size : α → ℚ) (xs : List α) (ys : List F64) (f : α → Option F64)
    (hs : ∀ x, |exact x| ≤ size x) (h : List.Forall₂ (fun x y => f x = some y) xs ys)
    (he : ∀ x ∈ xs, ∀ y, f x = some y → |y.val - exact x| ≤ ((1 + u) ^ k - 1) * size x)
    (s : F64) (hsum : sum ys = some s) (hn : xs.length - 1 + k ≤ 2 ^ 52) :
    |s.val - (xs.map exact).sum| ≤ (xs.length - 1 + k : ℕ) * 2 ^ (-52 : ℤ) * (xs.map size).sum := by
  have hp : ∀ j : ℕ, (1 : ℚ) ≤ (1 + u) ^ j := fun j => one_le_pow₀ (by linarith [u_pos])
  have hsize : ∀ x, 0 ≤ size x := fun x => (abs_nonneg _).trans (hs x)
  have key : |exactSum ys - (xs.map exact).sum| ≤ ((1 + u) ^ k - 1) * (xs.map size).sum ∧
      absSum ys ≤ (1 + u) ^ k * (xs.map size).sum := by
    clear hsum hn
    induction h with
    | nil => simp [exactSum, absSum]
    | @cons x y xs ys h1 _ ih =>
      obtain ⟨i1, i2⟩ := ih fun b hb => he b (List.mem_cons_of_mem _ hb)
      have h2 := he x List.mem_cons_self y h1
      rw [exactSum_cons, absSum_cons, List.map_cons, List.map_cons, List.sum_cons, List.sum_cons]
      constructor
      · rw [show y.val + exactSum ys - (exact x + (xs.map exact).sum) = (y.val - exact x) + (exactSum ys - (xs.map exact).sum) by ring]
        refine (abs_add_le _ _).trans ?_
        linarith
      · have h3 : |y.val| ≤ |exact x| + |y.val - exact x| := by
          have := abs_sub_abs_le_abs_sub y.val (exact x)
          linarith
        have := hs x
        linarith
  cases ys with
  | nil =>
    cases h
    unfold sum at hsum
    simp only [List.foldlM_nil] at hsum
    cases hsum
    simp [F64.zero]
  | cons y ys =>
    have hlen := h.length_eq
    rw [sum_cons] at hsum
    have h1 := sum_from ys y s hsum
    rw [← exactSum_cons, ← absSum_cons] at h1
    rw [show xs.length - 1 = ys.length by rw [hlen]; simp] at hn ⊢
    have h2 := pow_bound (ys.length + k) hn
    have hS : 0 ≤ (xs.map size).sum := List.sum_nonneg fun a ha => by
      obtain ⟨x, _, rfl⟩ := List.mem_map.1 ha
      exact hsize x
    have h3 := abs_sub_le s.val (exactSum (y :: ys)) ((xs.map exact).sum)
    have h4 : ((1 + u) ^ ys.length - 1) * absSum (y :: ys) ≤ ((1 + u) ^ ys.length - 1) * ((1 + u) ^ k * (xs.map size).sum) :=
      mul_le_mul_of_nonneg_left key.2 (by linarith [hp ys.length])
    have h5 : ((1 + u) ^ (ys.length + k) - 1) * (xs.map size).sum ≤ ((ys.length + k : ℕ) * 2 ^ (-52 : ℤ)) * (xs.map size).sum :=
      mul_le_mul_of_nonneg_right (by linarith) hS
    rw [pow_add] at h5
    linarith [key.1]

theorem size_value (p : Position) : |(p.quantity : ℚ) * p.currentPrice.val| ≤ p.quantity * |p.currentPrice.val| := by
  rw [abs_mul, abs_of_nonneg (by positivity : (0:ℚ) ≤ p.quantity)]

theorem size_cost (p : Position) : |(p.quantity : ℚ) * p.purchasePrice.val| ≤ p.quantity * |p.purchasePrice.val| := by
  rw [abs_mul, abs_of_nonneg (by positivity : (0:ℚ) ≤ p.quantity)]

theorem profit_error (p : Position) (h1 : Normal p.currentPrice) (h2 : Normal p.purchasePrice) (y : F64) (hy : p.profit = some y) :
    |y.val - ((p.quantity : ℚ) * p.currentPrice.val - p.quantity * p.purchasePrice.val)| ≤
      ((1 + u) ^ 3 - 1) * ((p.quantity : ℚ) * |p.currentPrice.val| + p.quantity * |p.purchasePrice.val|) := by
  obtain ⟨a, ha, h3⟩ := Option.bind_eq_some_iff.1 hy
  obtain ⟨b, hb, h4⟩ := Option.bind_eq_some_iff.1 h3
  have ea := quantity_mul _ _ _ h1 ha
  have eb := quantity_mul _ _ _ h2 hb
  have ey : y.val = rnd (a.val - b.val) := toF64_some h4
  have e := rnd_sub a.rep b.rep
  rw [← ey] at e
  have sa := size_value p
  have sb := size_cost p
  have hu := u_pos
  generalize (p.quantity : ℚ) * p.currentPrice.val = A at *
  generalize (p.quantity : ℚ) * p.purchasePrice.val = B at *
  generalize (p.quantity : ℚ) * |p.currentPrice.val| = SA at *
  generalize (p.quantity : ℚ) * |p.purchasePrice.val| = SB at *
  have h5 : |a.val - b.val - (A - B)| ≤ ((1 + u) ^ 2 - 1) * (SA + SB) := by
    rw [show a.val - b.val - (A - B) = (a.val - A) - (b.val - B) by ring]
    refine (abs_sub _ _).trans ?_
    linarith
  have h6 : |a.val - b.val| ≤ (1 + u) ^ 2 * (SA + SB) := by
    have := abs_sub_abs_le_abs_sub (a.val - b.val) (A - B)
    have := abs_sub A B
    linarith
  have h7 := abs_sub_le y.val (a.val - b.val) (A - B)
  rw [abs_sub_comm y.val (a.val - b.val)] at h7
  have := mul_le_mul_of_nonneg_left h6 hu.le
  rw [show (1 + u) ^ 3 = (1 + u) * (1 + u) ^ 2 by ring]
  linarith

theorem size_both (p : Position) : |(p.quantity : ℚ) * p.currentPrice.val - p.quantity * p.purchasePrice.val| ≤
    (p.quantity : ℚ) * |p.currentPrice.val| + p.quantity * |p.purchasePrice.val| := by
  have h1 := size_value p
  have h2 := size_cost p
  have h3 := abs_sub ((p.quantity : ℚ) * p.currentPrice.val) (p.quantity * p.purchasePrice.val)
  linarith

theorem sum_map_both (ps : List Position) (f g : Position → ℚ) : (ps.map fun p => f p - g p).sum = (ps.map f).sum - (ps.map g).sum := by
  induction ps with
  | nil => simp
  | cons p ps ih => simp only [List.map_cons, List.sum_cons, ih]; ring

/-! ## The claims -/

/-- C91: in whatever order the positions are visited, the value of a portfolio of `n` positions is within `(n + 1) 2^-52` of the
exact value, relative to the sizes of the positions; so is its cost, relative to the sizes of the costs. -/
theorem C91_value (ps : List Position) (hn : ps.length < 2 ^ 52) (v : F64) :
    ((∀ p ∈ ps, Normal p.currentPrice) → portfolioValue ps = some v →
      |v.val - Spec.value ps| ≤ (ps.length + 1) * 2 ^ (-52 : ℤ) * Spec.size ps) ∧
    ((∀ p ∈ ps, Normal p.purchasePrice) → portfolioCost ps = some v →
      |v.val - Spec.cost ps| ≤ (ps.length + 1) * 2 ^ (-52 : ℤ) * Spec.costSize ps) := by
  constructor
  · intro hN h
    obtain ⟨ys, h1, h2⟩ := Option.bind_eq_some_iff.1 h
    have := rounded_sum 2 _ _ ps ys Position.value size_value (mapM_some _ _ _ h1)
      (fun p hp y hy => quantity_mul _ _ _ (hN p hp) hy) v h2 (by omega)
    refine this.trans ?_
    have hS : 0 ≤ Spec.size ps := List.sum_nonneg fun a ha => by
      obtain ⟨x, _, rfl⟩ := List.mem_map.1 ha
      positivity
    rcases Nat.eq_zero_or_pos ps.length with h0 | h0
    · obtain rfl := List.length_eq_zero_iff.1 h0
      simp [Spec.size]
    · rw [show ps.length - 1 + 2 = ps.length + 1 by omega]
      push_cast
      exact le_rfl
  · intro hN h
    obtain ⟨ys, h1, h2⟩ := Option.bind_eq_some_iff.1 h
    have := rounded_sum 2 _ _ ps ys Position.cost size_cost (mapM_some _ _ _ h1)
      (fun p hp y hy => quantity_mul _ _ _ (hN p hp) hy) v h2 (by omega)
    refine this.trans ?_
    rcases Nat.eq_zero_or_pos ps.length with h0 | h0
    · obtain rfl := List.length_eq_zero_iff.1 h0
      simp [Spec.costSize]
    · rw [show ps.length - 1 + 2 = ps.length + 1 by omega]
      push_cast
      exact le_rfl

/-- C91: the profit is within `(n + 2) 2^-52` of the exact value less the exact cost, relative to the sizes of both. -/
theorem C91_profit (ps : List Position) (hn : ps.length + 2 ≤ 2 ^ 52) (hN : ∀ p ∈ ps, Normal p.currentPrice ∧ Normal p.purchasePrice)
    (v : F64) (h : portfolioProfit ps = some v) :
    |v.val - (Spec.value ps - Spec.cost ps)| ≤ (ps.length + 2) * 2 ^ (-52 : ℤ) * (Spec.size ps + Spec.costSize ps) := by
  obtain ⟨ys, h1, h2⟩ := Option.bind_eq_some_iff.1 h
  have := rounded_sum 3 (fun p : Position => (p.quantity : ℚ) * p.currentPrice.val - p.quantity * p.purchasePrice.val)
    (fun p : Position => (p.quantity : ℚ) * |p.currentPrice.val| + p.quantity * |p.purchasePrice.val|) ps ys Position.profit
    size_both (mapM_some _ _ _ h1)
    (fun p hp y hy => profit_error p (hN p hp).1 (hN p hp).2 y hy) v h2 (by omega)
  have e1 : (ps.map fun p => (p.quantity : ℚ) * p.currentPrice.val - p.quantity * p.purchasePrice.val).sum =
      Spec.value ps - Spec.cost ps := sum_map_both ps _ _
  have e2 : (ps.map fun p => (p.quantity : ℚ) * |p.currentPrice.val| + p.quantity * |p.purchasePrice.val|).sum =
      Spec.size ps + Spec.costSize ps := List.sum_map_add
  rw [e1, e2] at this
  refine this.trans ?_
  rcases Nat.eq_zero_or_pos ps.length with h0 | h0
  · obtain rfl := List.length_eq_zero_iff.1 h0
    simp [Spec.size, Spec.costSize]
  · rw [show ps.length - 1 + 3 = ps.length + 2 by omega]
    push_cast
    exact le_rfl

example := (C91_value [⟨100, lit (21 / 10), lit (7 / 2)⟩, ⟨7, lit (1 / 3), lit (1 / 10)⟩] (by norm_num) (lit 350.7)).1

example : ∃ v, portfolioProfit [⟨100, lit (21 / 10), lit (7 / 2)⟩, ⟨7, lit (1 / 3), lit (1 / 10)⟩] = some v :=
  ⟨((portfolioProfit [⟨100, lit (21 / 10), lit (7 / 2)⟩, ⟨7, lit (1 / 3), lit (1 / 10)⟩]).getD F64.zero), by decide +kernel⟩

/-- C91: two visits of the same positions in different orders (two runs of the same program: a hash map is iterated in random order)
give values that differ by at most `(n + 1) 2^-51` relative to the sizes. -/
theorem C91_order (ps qs : List Position) (hp : ps.Perm qs) (hn : ps.length < 2 ^ 52) (hN : ∀ p ∈ ps, Normal p.currentPrice) (v w : F64)
    (hv : portfolioValue ps = some v) (hw : portfolioValue qs = some w) :
    |v.val - w.val| ≤ (ps.length + 1) * 2 ^ (-51 : ℤ) * Spec.size ps := by
  have h1 := (C91_value ps hn v).1 hN hv
  have h2 := (C91_value qs (by rw [← hp.length_eq]; exact hn) w).1 (fun p h => hN p (hp.mem_iff.2 h)) hw
  have e1 : Spec.value qs = Spec.value ps := ((hp.map _).sum_eq).symm
  have e2 : Spec.size qs = Spec.size ps := ((hp.map _).sum_eq).symm
  rw [e1, e2, ← hp.length_eq] at h2
  have h3 := abs_sub_le v.val (Spec.value ps) w.val
  rw [abs_sub_comm (Spec.value ps)] at h3
  have e51 : (2 : ℚ) ^ (-51 : ℤ) = 2 * 2 ^ (-52 : ℤ) := by norm_num
  rw [e51]
  linarith

/-- C91 (defect): they need not be equal: the value of a portfolio depends on the order in which its hash map is iterated, also for
positive prices, and so does its profit. -/
theorem C91_order_matters : ∃ ps qs : List Position, ps.Perm qs ∧ (∀ p ∈ ps, 0 < p.currentPrice.val) ∧
    portfolioValue ps ≠ portfolioValue qs ∧ (portfolioValue ps).isSome ∧ portfolioProfit ps ≠ portfolioProfit qs := by
  refine ⟨[⟨1, lit 1, lit (1 / 10)⟩, ⟨1, lit 1, lit (2 / 10)⟩, ⟨1, lit 1, lit (3 / 10)⟩],
    [⟨1, lit 1, lit (3 / 10)⟩, ⟨1, lit 1, lit (2 / 10)⟩, ⟨1, lit 1, lit (1 / 10)⟩], ?_, ?_, ?_, ?_, ?_⟩
  · exact (List.reverse_perm ([⟨1, lit 1, lit (1 / 10)⟩, ⟨1, lit 1, lit (2 / 10)⟩, ⟨1, lit 1, lit (3 / 10)⟩] : List Position)).symm
  · intro p hp
    simp only [List.mem_cons, List.not_mem_nil, or_false] at hp
    rcases hp with rfl | rfl | rfl <;> decide +kernel
  all_goals decide +kernel

/-- C91 (defect): profit is not value less cost, already for two positions. -/
theorem C91_profit_ne : ∃ ps : List Position, ∃ v c d q : F64, portfolioValue ps = some v ∧ portfolioCost ps = some c ∧
    v.sub c = some d ∧ portfolioProfit ps = some q ∧ d.val < q.val := by
  refine ⟨[⟨1, lit (1 / 10), lit (1 / 10)⟩, ⟨1, lit (2 / 10), lit (1 / 10)⟩], lit (2 / 10), lit (3 / 10 + 1 / 2 ^ 54),
    lit (-1 / 10 - 1 / 2 ^ 55), lit (-1 / 10), ?_, ?_, ?_, ?_, ?_⟩ <;> decide +kernel

theorem le_sum (xs : List F64) (acc s : F64) (ha : 0 ≤ acc.val) (h0 : ∀ x ∈ xs, 0 ≤ x.val) (h : xs.foldlM F64.add acc = some s) :
    acc.val ≤ s.val ∧ ∀ x ∈ xs, x.val ≤ s.val := by
  induction xs generalizing acc with
  | nil => simp only [List.foldlM_nil] at h; cases h; simp
  | cons x xs ih =>
    rw [List.foldlM_cons] at h
    obtain ⟨a, h1, h2⟩ := Option.bind_eq_some_iff.1 h
    have hx := h0 x List.mem_cons_self
    have e := add_some h1
    have h3 : acc.val ≤ a.val := by rw [e]; exact le_rnd acc.rep (by linarith)
    have h4 : x.val ≤ a.val := by rw [e]; exact le_rnd x.rep (by linarith)
    obtain ⟨h5, h6⟩ := ih a (ha.trans h3) (fun y hy => h0 y (List.mem_cons_of_mem _ hy)) h2
    refine ⟨h3.trans h5, fun y hy => ?_⟩
    rcases List.mem_cons.1 hy with rfl | hy
    · exact h4.trans h5
    · exact h6 y hy

theorem value_nonneg (p : Position) (hp : 0 ≤ p.currentPrice.val) (v : F64) (h : p.value = some v) : 0 ≤ v.val := by
  obtain ⟨r, h1, h2⟩ := Option.bind_eq_some_iff.1 h
  rw [mul_some h2]
  refine rnd_nonneg (mul_nonneg ?_ hp)
  rw [toF64_some h1]
  exact rnd_nonneg (by positivity)

theorem portfolioValue_spec {ps : List Position} {t : F64} (h : portfolioValue ps = some t) :
    ∃ vs, List.Forall₂ (fun (p : Position) v => p.value = some v) ps vs ∧ sum vs = some t := by
  obtain ⟨vs, h1, h2⟩ := Option.bind_eq_some_iff.1 h
  exact ⟨vs, mapM_some _ _ _ h1, h2⟩

theorem mapM_of_forall₂ {α β γ : Type} {f : α → Option β} {g : β → γ} {xs : List α} {ys : List β}
    (h : List.Forall₂ (fun x y => f x = some y) xs ys) : xs.mapM (fun x => do return g (← f x)) = some (ys.map g) := by
  induction h with
  | nil => simp
  | cons h1 _ ih => simp only [List.mapM_cons, ih]; simp [h1]

/-- The weights are those of the values of the positions. -/
theorem positionWeights_eq {ps : List Position} {t : F64} {vs : List F64} (h : portfolioValue ps = some t)
    (hv : List.Forall₂ (fun (p : Position) v => p.value = some v) ps vs) :
    positionWeights ps = some (vs.map fun v => positionWeight v t) := by
  unfold positionWeights
  rw [h]
  exact mapM_of_forall₂ hv

theorem weight_range (v t : F64) (h0 : 0 ≤ v.val) (ht : v.val ≤ t.val) (w : F32) (h : positionWeight v t = some w) :
    0 ≤ w.val ∧ w.val ≤ 1 := by
  unfold positionWeight at h
  split at h
  · rename_i a b ha hb
    obtain ⟨h1, h2⟩ := F32.div_some h
    have ea := Single.toF32_some ha
    have eb := Single.toF32_some hb
    have h3 : 0 ≤ a.val := by rw [ea, ← Single.rnd_zero]; exact Single.rnd_mono h0
    have h4 : a.val ≤ b.val := by rw [ea, eb]; exact Single.rnd_mono ht
    have h5 : 0 < b.val := lt_of_le_of_ne (h3.trans h4) (Ne.symm h1)
    rw [h2]
    constructor
    · rw [← Single.rnd_zero]; exact Single.rnd_mono (div_nonneg h3 h5.le)
    · rw [← Single.rnd_rep Single.rep_one]; exact Single.rnd_mono ((div_le_one h5).2 h4)
  · cases h
    simp [F32.zero]
  · cases h

/-- C91: when no price is negative, however the roundings fall, in double precision for the values and in single precision for the
weights, every weight that is a number lies between zero and one. -/
theorem C91_weights_range (ps : List Position) (h0 : ∀ p ∈ ps, 0 ≤ p.currentPrice.val) (ws : List (Option F32))
    (h : positionWeights ps = some ws) : ws.length = ps.length ∧ ∀ w, some w ∈ ws → 0 ≤ w.val ∧ w.val ≤ 1 := by
  have h' := h
  unfold positionWeights at h'
  obtain ⟨t, ht, -⟩ := Option.bind_eq_some_iff.1 h'
  obtain ⟨vs, hv, hs⟩ := portfolioValue_spec ht
  rw [positionWeights_eq ht hv] at h
  cases h
  have hv0 : ∀ v ∈ vs, 0 ≤ v.val := by
    intro v hm
    obtain ⟨i, hi, rfl⟩ := List.getElem_of_mem hm
    have := List.Forall₂.get hv (i := i) (by rw [hv.length_eq]; exact hi) hi
    exact value_nonneg _ (h0 _ (List.getElem_mem _)) _ this
  refine ⟨by rw [List.length_map, hv.length_eq], fun w hw => ?_⟩
  obtain ⟨v, hm, he⟩ := List.mem_map.1 hw
  exact weight_range v t (hv0 v hm) ((le_sum vs _ t le_rfl hv0 hs).2 v hm) w he

example : ∃ ws, positionWeights [⟨100, lit 1, lit (7 / 2)⟩, ⟨100, lit 1, lit 2⟩] = some ws ∧ ∀ w ∈ ws, w.isSome :=
  ⟨((positionWeights [⟨100, lit 1, lit (7 / 2)⟩, ⟨100, lit 1, lit 2⟩]).getD []), by decide +kernel, by decide +kernel⟩

theorem rnd32_error (x : ℚ) : |x - Single.rnd x| ≤ 2 ^ (-24 : ℤ) * |x| + 2 ^ (-150 : ℤ) := by
  have := zpos (-150)
  have h2 : 0 ≤ (2 : ℚ) ^ (-24 : ℤ) * |x| := mul_nonneg (zpos _).le (abs_nonneg _)
  rcases Single.rnd_error x with h | ⟨_, h⟩
  · exact h.trans (le_add_of_nonneg_right this.le)
  · exact h.trans (le_add_of_nonneg_left h2)

/-- One weight: its error against the quotient of the `f64` values. -/
theorem weight_error (v t : F64) (h0 : 0 ≤ v.val) (hvt : v.val ≤ t.val) (h1 : 2 ^ (-60 : ℤ) ≤ t.val) (h2 : t.val ≤ 2 ^ (127 : ℤ)) :
    ∃ w, positionWeight v t = some w ∧ |w.val - v.val / t.val| ≤ 2 ^ (-22 : ℤ) * (v.val / t.val) + 2 ^ (-87 : ℤ) := by
  have r127 : Single.Rep (2 ^ (127 : ℤ)) := ⟨1, 127, by norm_num, by norm_num, by norm_num⟩
  have fin : ∀ x : ℚ, 0 ≤ x → x ≤ 2 ^ (127 : ℤ) → |Single.rnd x| < 2 ^ 128 := by
    intro x hx hx'
    have a : 0 ≤ Single.rnd x := by rw [← Single.rnd_zero]; exact Single.rnd_mono hx
    have b : Single.rnd x ≤ 2 ^ (127 : ℤ) := by rw [← Single.rnd_rep r127]; exact Single.rnd_mono hx'
    rw [abs_of_nonneg a]
    exact lt_of_le_of_lt b (by norm_num)
  have some32 : ∀ x : ℚ, 0 ≤ x → x ≤ 2 ^ (127 : ℤ) → ∃ r, toF32 x = some r ∧ r.val = Single.rnd x := by
    intro x hx hx'
    exact ⟨⟨_, Single.rep_rnd x, fin x hx hx'⟩, by unfold toF32; rw [dif_pos (fin x hx hx')], rfl⟩
  have t0 : 0 < t.val := lt_of_lt_of_le (zpos _) h1
  obtain ⟨a, ha, ea⟩ := some32 v.val h0 (hvt.trans h2)
  obtain ⟨b, hb, eb⟩ := some32 t.val t0.le h2
  have E1 := rnd32_error v.val
  rw [← ea, abs_of_nonneg h0] at E1
  have E2 : |t.val - b.val| ≤ 2 ^ (-24 : ℤ) * t.val := by
    rw [eb]
    rcases Single.rnd_error t.val with h | ⟨h, _⟩
    · rwa [abs_of_pos t0] at h
    · rw [abs_of_pos t0] at h
      exact absurd (h.trans ((zpow_lt_iff _ _).2 (by norm_num : (-126 : ℤ) < -60))) (not_lt.2 h1)
  have a0 : 0 ≤ a.val := by rw [ea, ← Single.rnd_zero]; exact Single.rnd_mono h0
  have ab : a.val ≤ b.val := by rw [ea, eb]; exact Single.rnd_mono hvt
  have bt : (1 - 2 ^ (-24 : ℤ)) * t.val ≤ b.val := by have := (abs_le.1 E2).2; linarith
  have b0 : 0 < b.val := lt_of_lt_of_le (mul_pos (by norm_num) t0) bt
  have q0 : 0 ≤ a.val / b.val := div_nonneg a0 b0.le
  have q1 : a.val / b.val ≤ 1 := (div_le_one b0).2 ab
  obtain ⟨w, hw, ew⟩ := some32 (a.val / b.val) q0 (q1.trans (by norm_num))
  refine ⟨w, ?_, ?_⟩
  · unfold positionWeight
    rw [ha, hb]
    simp only [F32.div, if_neg b0.ne', hw]
  · have E3 := rnd32_error (a.val / b.val)
    rw [← ew, abs_of_nonneg q0] at E3
    set x := v.val / t.val with hx
    have x0 : 0 ≤ x := div_nonneg h0 t0.le
    have hv : v.val = x * t.val := by rw [hx]; field_simp
    set y := a.val / b.val with hy
    have hya : a.val = y * b.val := by rw [hy]; field_simp
    have hη : (2 : ℚ) ^ (-150 : ℤ) ≤ 2 ^ (-90 : ℤ) * t.val := by
      calc (2 : ℚ) ^ (-150 : ℤ) = 2 ^ (-90 : ℤ) * 2 ^ (-60 : ℤ) := by rw [← zpow_add₀ (by norm_num)]; norm_num
        _ ≤ _ := mul_le_mul_of_nonneg_left h1 (zpos _).le
    have hxy : |y - x| ≤ 2 * (2 ^ (-24 : ℤ) * x + 2 ^ (-90 : ℤ)) * (1 + 2 ^ (-23 : ℤ)) := by
      have e : (y - x) * b.val = (a.val - v.val) + x * (t.val - b.val) := by rw [hya, hv]; ring
      have h3 : |y - x| * b.val ≤ (2 * (2 ^ (-24 : ℤ) * x) + 2 ^ (-90 : ℤ)) * t.val := by
        rw [show |y - x| * b.val = |(y - x) * b.val| by rw [abs_mul, abs_of_pos b0], e]
        refine (abs_add_le _ _).trans ?_
        rw [abs_mul, abs_of_nonneg x0, abs_sub_comm a.val]
        have := mul_le_mul_of_nonneg_left E2 x0
        rw [hv] at E1 ⊢
        nlinarith
      have h4 : |y - x| * ((1 - 2 ^ (-24 : ℤ)) * t.val) ≤ (2 * (2 ^ (-24 : ℤ) * x) + 2 ^ (-90 : ℤ)) * t.val :=
        (mul_le_mul_of_nonneg_left bt (abs_nonneg _)).trans h3
      have h5 : |y - x| * (1 - 2 ^ (-24 : ℤ)) ≤ 2 * (2 ^ (-24 : ℤ) * x) + 2 ^ (-90 : ℤ) := by
        rw [← mul_assoc] at h4
        exact le_of_mul_le_mul_right h4 t0
      have hp := zpos (-90)
      norm_num at h5 hp ⊢
      nlinarith
    have h6 := abs_sub_le w.val y x
    rw [abs_sub_comm w.val y] at h6
    have hyx : y ≤ x + |y - x| := by have := le_abs_self (y - x); linarith
    norm_num at E3 hxy ⊢
    linarith

/-- C91: up to `2^28` positions with prices that are not negative, worth between `2^-60` and `2^127` in total: every weight is a
number, within `2^-22` (single precision) of its share of the total, and the weights add up to one within `2^-21`. -/
theorem C91_weights_sum (ps : List Position) (h0 : ∀ p ∈ ps, 0 ≤ p.currentPrice.val) (hn : ps.length ≤ 2 ^ 28) (t : F64)
    (h : portfolioValue ps = some t) (h1 : 2 ^ (-60 : ℤ) ≤ t.val) (h2 : t.val ≤ 2 ^ (127 : ℤ)) :
    ∃ (vs : List F64) (ws : List F32), List.Forall₂ (fun (p : Position) v => p.value = some v) ps vs ∧
      positionWeights ps = some (ws.map some) ∧
      List.Forall₂ (fun v w => |w.val - v.val / t.val| ≤ 2 ^ (-22 : ℤ) * (v.val / t.val) + 2 ^ (-87 : ℤ)) vs ws ∧
      |(ws.map F32.val).sum - 1| ≤ 2 ^ (-21 : ℤ) := by
  obtain ⟨vs, hv, hs⟩ := portfolioValue_spec h
  have t0 : 0 < t.val := lt_of_lt_of_le (zpos _) h1
  have hv0 : ∀ v ∈ vs, 0 ≤ v.val := by
    intro v hm
    obtain ⟨i, hi, rfl⟩ := List.getElem_of_mem hm
    have := List.Forall₂.get hv (i := i) (by rw [hv.length_eq]; exact hi) hi
    exact value_nonneg _ (h0 _ (List.getElem_mem _)) _ this
  have hle := (le_sum vs _ t le_rfl hv0 hs).2
  have key : ∀ us : List F64, (∀ v ∈ us, 0 ≤ v.val ∧ v.val ≤ t.val) → ∃ ws : List F32, us.map (fun v => positionWeight v t) = ws.map some ∧
      List.Forall₂ (fun v w => |w.val - v.val / t.val| ≤ 2 ^ (-22 : ℤ) * (v.val / t.val) + 2 ^ (-87 : ℤ)) us ws ∧
      |(ws.map F32.val).sum - exactSum us / t.val| ≤ 2 ^ (-22 : ℤ) * (exactSum us / t.val) + us.length * 2 ^ (-87 : ℤ) := by
    intro us hus
    induction us with
    | nil => exact ⟨[], rfl, .nil, by simp [exactSum]⟩
    | cons v us ih =>
      obtain ⟨ws, i1, i2, i3⟩ := ih fun x hx => hus x (List.mem_cons_of_mem _ hx)
      obtain ⟨hva, hvb⟩ := hus v List.mem_cons_self
      obtain ⟨w, hw, he⟩ := weight_error v t hva hvb h1 h2
      refine ⟨w :: ws, by simp [hw, i1], .cons he i2, ?_⟩
      rw [exactSum_cons, List.map_cons, List.sum_cons, add_div, List.length_cons]
      push_cast
      rw [show w.val + (ws.map F32.val).sum - (v.val / t.val + exactSum us / t.val) =
        (w.val - v.val / t.val) + ((ws.map F32.val).sum - exactSum us / t.val) by ring]
      refine (abs_add_le _ _).trans ?_
      linarith
  obtain ⟨ws, k1, k2, k3⟩ := key vs fun v hm => ⟨hv0 v hm, hle v hm⟩
  refine ⟨vs, ws, hv, by rw [positionWeights_eq h hv, k1], k2, ?_⟩
  have hlen : vs.length ≤ 2 ^ 28 := by rw [← hv.length_eq]; exact hn
  have h3 := sum_error vs (hlen.trans (by norm_num)) t hs
  have hA : absSum vs = exactSum vs := by
    unfold absSum exactSum
    congr 1
    exact List.map_congr_left fun v hm => abs_of_nonneg (hv0 v hm)
  rw [hA] at h3
  have hE : 0 ≤ exactSum vs := by rw [← hA]; exact absSum_nonneg vs
  have hL : ((vs.length - 1 : ℕ) : ℚ) ≤ 2 ^ 28 := by exact_mod_cast (Nat.sub_le _ _).trans hlen
  have hL' : (vs.length : ℚ) ≤ 2 ^ 28 := by exact_mod_cast hlen
  have h4 : |t.val - exactSum vs| ≤ 2 ^ (-24 : ℤ) * exactSum vs := by
    refine h3.trans (mul_le_mul_of_nonneg_right ?_ hE)
    calc ((vs.length - 1 : ℕ) : ℚ) * 2 ^ (-52 : ℤ) ≤ 2 ^ 28 * 2 ^ (-52 : ℤ) := mul_le_mul_of_nonneg_right hL (zpos _).le
      _ = 2 ^ (-24 : ℤ) := by norm_num
  set X := exactSum vs / t.val with hX
  have hXt : exactSum vs = X * t.val := by rw [hX]; field_simp
  have X0 : 0 ≤ X := div_nonneg hE t0.le
  have h5 : |1 - X| ≤ 2 ^ (-24 : ℤ) * X := by
    rw [hXt, show t.val - X * t.val = (1 - X) * t.val by ring, abs_mul, abs_of_pos t0, ← mul_assoc] at h4
    exact le_of_mul_le_mul_right h4 t0
  have h6 := abs_sub_le (ws.map F32.val).sum X 1
  rw [abs_sub_comm X 1] at h6
  have h7 : X ≤ 1 + 2 ^ (-24 : ℤ) * X := by have := (abs_le.1 h5).1; linarith
  have h8 : (vs.length : ℚ) * 2 ^ (-87 : ℤ) ≤ 2 ^ 28 * 2 ^ (-87 : ℤ) := mul_le_mul_of_nonneg_right hL' (zpos _).le
  norm_num at h5 h7 h8 k3 ⊢
  linarith

example : ∃ t, portfolioValue [⟨100, lit 1, lit (7 / 2)⟩, ⟨100, lit 1, lit 2⟩] = some t ∧ 2 ^ (-60 : ℤ) ≤ t.val ∧ t.val ≤ 2 ^ (127 : ℤ) :=
  ⟨lit 550, by decide +kernel, by decide +kernel, by decide +kernel⟩

/-- C91 (defect): weights are computed in single precision, whose range is smaller: the weight of a position worth `2^128` or more is
not a number, and so is every weight of a portfolio worth more than nothing but at most `2^-150`. -/
theorem C91_weights_range_of_single (v t : F64) :
    (2 ^ (128 : ℤ) ≤ v.val → positionWeight v t = none) ∧
    (0 ≤ v.val → v.val ≤ t.val → t.val ≤ 2 ^ (-150 : ℤ) → positionWeight v t = none) := by
  have r0 : ∀ x : ℚ, 0 ≤ x → x ≤ 2 ^ (-150 : ℤ) → Single.rnd x = 0 := by
    intro x hx hx'
    refine le_antisymm ?_ (by rw [← Single.rnd_zero]; exact Single.rnd_mono hx)
    exact (Single.rnd_mono hx').trans (by decide +kernel)
  constructor
  · intro h
    have r128 : Single.Rep (2 ^ (128 : ℤ)) := ⟨1, 128, by norm_num, by norm_num, by norm_num⟩
    have a : (2 : ℚ) ^ (128 : ℤ) ≤ Single.rnd v.val := by rw [← Single.rnd_rep r128]; exact Single.rnd_mono h
    have : toF32 v.val = none := by
      unfold toF32
      rw [dif_neg]
      rw [not_lt]
      exact (le_of_eq (by norm_num)).trans (a.trans (le_abs_self _))
    unfold positionWeight
    rw [this]
  · intro h0 hvt ht
    have a := r0 v.val h0 (hvt.trans ht)
    have b := r0 t.val (h0.trans hvt) ht
    have key : ∀ x : ℚ, Single.rnd x = 0 → ∃ r, toF32 x = some r ∧ r.val = 0 := by
      intro x hx
      have : |Single.rnd x| < 2 ^ 128 := by rw [hx]; norm_num
      exact ⟨⟨_, Single.rep_rnd x, this⟩, by unfold toF32; rw [dif_pos this], hx⟩
    obtain ⟨r, e1, _⟩ := key _ a
    obtain ⟨r', e2, e3⟩ := key _ b
    unfold positionWeight
    rw [e1, e2]
    exact if_pos e3

/-- It happens: a position worth `10^39` in a portfolio worth `2 10^39`. -/
example : positionWeight (lit (10 ^ 39)) (lit (2 * 10 ^ 39)) = none :=
  (C91_weights_range_of_single _ _).1 (by decide +kernel)

/-- Numbers on a grid of spacing `2^e`, at most `2^53` of them from zero, are not rounded. -/
theorem grid_exact (x : ℚ) (e : ℤ) (h0 : -1074 ≤ e) (h1 : e ≤ 900) (hx : ∃ n : ℤ, x = n * 2 ^ e) (hS : |x| ≤ 2 ^ (53 + e)) :
    ∃ r, toF64 x = some r ∧ r.val = x := by
  obtain ⟨n, hn⟩ := hx
  have hr : Rep x := by
    rw [hn]
    apply rep_of_le _ _ _ h0
    have h5 : |(n : ℚ)| * 2 ^ e ≤ 2 ^ (53 : ℤ) * 2 ^ e := by
      rw [show |(n : ℚ)| * 2 ^ e = |x| by rw [hn, abs_mul, abs_of_pos (zpos e)], ← zpow_add₀ (by norm_num)]
      exact hS
    have h6 := le_of_mul_le_mul_right h5 (zpos e)
    have h7 : ((|n| : ℤ) : ℚ) ≤ ((2 ^ 53 : ℤ) : ℚ) := by
      rw [Int.cast_abs]; refine h6.trans (le_of_eq ?_); norm_num
    exact Int.cast_le.1 h7
  obtain ⟨r, h, hv⟩ := toF64_isSome (x := x) (by
    rw [rnd_rep hr]
    refine lt_of_le_of_lt hS ?_
    rw [show (2 : ℚ) ^ 1024 = 2 ^ (1024 : ℤ) by norm_num, zpow_lt_iff]
    omega)
  exact ⟨r, h, by rw [hv, rnd_rep hr]⟩

theorem quantity_exact (q : ℕ) (x : F64) (e : ℤ) (h0 : -1074 ≤ e) (h1 : e ≤ 900) (hq : q ≤ 2 ^ 53) (hx : ∃ n : ℤ, x.val = n * 2 ^ e)
    (hS : (q : ℚ) * |x.val| ≤ 2 ^ (53 + e)) :
    ∃ y, (do (← ofNat q).mul x) = some y ∧ y.val = q * x.val ∧ ∃ n : ℤ, (q : ℚ) * x.val = n * 2 ^ e := by
  obtain ⟨r, hr, ev⟩ := ofNat_small q hq
  obtain ⟨n, hn⟩ := hx
  have hg : ∃ n : ℤ, (q : ℚ) * x.val = n * 2 ^ e := ⟨q * n, by rw [hn]; push_cast; ring⟩
  obtain ⟨y, hy, ey⟩ := grid_exact (q * x.val) e h0 h1 hg (by rw [abs_mul, Nat.abs_cast]; exact hS)
  refine ⟨y, ?_, ey, hg⟩
  rw [hr]
  show r.mul x = some y
  unfold F64.mul
  rw [ev]
  exact hy

theorem exact_sum (ps : List Position) (f : Position → Option F64) (exact size : Position → ℚ) (e : ℤ) (h0 : -1074 ≤ e) (h1 : e ≤ 900)
    (hf : ∀ p ∈ ps, ∃ y, f p = some y ∧ y.val = exact p ∧ ∃ n : ℤ, exact p = n * 2 ^ e) (hs : ∀ p, |exact p| ≤ size p)
    (hS : (ps.map size).sum ≤ 2 ^ (53 + e)) :
    ∃ s, (do sum (← ps.mapM f)) = some s ∧ s.val = (ps.map exact).sum := by
  have key : ∃ ys : List F64, ps.mapM f = some ys ∧ ys.map F64.val = ps.map exact := by
    clear hS
    induction ps with
    | nil => exact ⟨[], rfl, rfl⟩
    | cons p ps ih =>
      obtain ⟨ys, a, b⟩ := ih fun x hx => hf x (List.mem_cons_of_mem _ hx)
      obtain ⟨y, hy, ey, _⟩ := hf p List.mem_cons_self
      exact ⟨y :: ys, by rw [List.mapM_cons, hy, a]; rfl, by simp [ey, b]⟩
  obtain ⟨ys, a, b⟩ := key
  obtain ⟨s, c, d⟩ := C86_sum_exact ys e h0 (by omega) (by
    intro y hy
    have : y.val ∈ ps.map exact := by rw [← b]; exact List.mem_map_of_mem hy
    obtain ⟨p, hp, ep⟩ := List.mem_map.1 this
    obtain ⟨_, _, _, hn⟩ := hf p hp
    rw [← ep]
    exact hn) (by
    refine le_trans ?_ hS
    have : (ys.map fun y => |y.val|) = ps.map fun p => |exact p| := by
      rw [show (ys.map fun y => |y.val|) = (ys.map F64.val).map (|·|) by rw [List.map_map]; rfl, b, List.map_map]; rfl
    rw [this]
    exact List.sum_le_sum fun p _ => hs p)
  exact ⟨s, by rw [a]; exact c, by rw [d, b]⟩

/-- C91: with prices that are whole multiples of one power of two (whole amounts, halves, quarters, ...) and sizes that add up to at
most `2^53` of that unit, value and cost are exact, and profit is exactly value less cost: the order of the positions does not matter. -/
theorem C91_exact (ps : List Position) (e : ℤ) (h0 : -1074 ≤ e) (h1 : e ≤ 900) (hq : ∀ p ∈ ps, p.quantity ≤ 2 ^ 53)
    (hm : ∀ p ∈ ps, (∃ n : ℤ, p.currentPrice.val = n * 2 ^ e) ∧ ∃ n : ℤ, p.purchasePrice.val = n * 2 ^ e)
    (hS : Spec.size ps + Spec.costSize ps ≤ 2 ^ (53 + e)) :
    ∃ v c d, portfolioValue ps = some v ∧ portfolioCost ps = some c ∧ portfolioProfit ps = some d ∧
      v.val = Spec.value ps ∧ c.val = Spec.cost ps ∧ d.val = v.val - c.val := by
  have ns : ∀ p : Position, 0 ≤ (p.quantity : ℚ) * |p.currentPrice.val| := fun p => by positivity
  have nc : ∀ p : Position, 0 ≤ (p.quantity : ℚ) * |p.purchasePrice.val| := fun p => by positivity
  have S0 : 0 ≤ Spec.size ps := List.sum_nonneg fun x hx => by obtain ⟨p, _, rfl⟩ := List.mem_map.1 hx; exact ns p
  have C0 : 0 ≤ Spec.costSize ps := List.sum_nonneg fun x hx => by obtain ⟨p, _, rfl⟩ := List.mem_map.1 hx; exact nc p
  have e2 : (ps.map fun p => (p.quantity : ℚ) * |p.currentPrice.val| + p.quantity * |p.purchasePrice.val|).sum =
      Spec.size ps + Spec.costSize ps := List.sum_map_add
  have one : ∀ p ∈ ps, (p.quantity : ℚ) * |p.currentPrice.val| + p.quantity * |p.purchasePrice.val| ≤ 2 ^ (53 + e) := by
    intro p hp
    refine le_trans ?_ hS
    rw [← e2]
    exact List.single_le_sum (fun x hx => by obtain ⟨p, _, rfl⟩ := List.mem_map.1 hx; exact add_nonneg (ns p) (nc p)) _
      (List.mem_map_of_mem hp)
  have V : ∀ p ∈ ps, ∃ y, p.value = some y ∧ y.val = p.quantity * p.currentPrice.val ∧
      ∃ n : ℤ, (p.quantity : ℚ) * p.currentPrice.val = n * 2 ^ e := fun p hp =>
    quantity_exact _ _ e h0 h1 (hq p hp) (hm p hp).1 (by linarith [one p hp, nc p])
  have C : ∀ p ∈ ps, ∃ y, p.cost = some y ∧ y.val = p.quantity * p.purchasePrice.val ∧
      ∃ n : ℤ, (p.quantity : ℚ) * p.purchasePrice.val = n * 2 ^ e := fun p hp =>
    quantity_exact _ _ e h0 h1 (hq p hp) (hm p hp).2 (by linarith [one p hp, ns p])
  have P : ∀ p ∈ ps, ∃ y, p.profit = some y ∧ y.val = (p.quantity : ℚ) * p.currentPrice.val - p.quantity * p.purchasePrice.val ∧
      ∃ n : ℤ, (p.quantity : ℚ) * p.currentPrice.val - p.quantity * p.purchasePrice.val = n * 2 ^ e := by
    intro p hp
    obtain ⟨y, a1, a2, n, a3⟩ := V p hp
    obtain ⟨z, b1, b2, m, b3⟩ := C p hp
    have hg : ∃ k : ℤ, (p.quantity : ℚ) * p.currentPrice.val - p.quantity * p.purchasePrice.val = k * 2 ^ e :=
      ⟨n - m, by rw [a3, b3]; push_cast; ring⟩
    obtain ⟨d, d1, d2⟩ := grid_exact _ e h0 h1 hg ((size_both p).trans (one p hp))
    refine ⟨d, ?_, d2, hg⟩
    unfold Position.profit
    rw [a1, b1]
    show y.sub z = some d
    unfold F64.sub
    rw [a2, b2]
    exact d1
  obtain ⟨v, v1, v2⟩ := exact_sum ps Position.value _ _ e h0 h1 V size_value (by
    change Spec.size ps ≤ _
    linarith)
  obtain ⟨c, c1, c2⟩ := exact_sum ps Position.cost _ _ e h0 h1 C size_cost (by
    change Spec.costSize ps ≤ _
    linarith)
  obtain ⟨d, d1, d2⟩ := exact_sum ps Position.profit _ _ e h0 h1 P size_both (by rw [e2]; exact hS)
  refine ⟨v, c, d, v1, c1, d1, v2, c2, ?_⟩
  rw [d2, v2, c2]
  exact sum_map_both ps _ _

/-- Prices in whole quarters. -/
example : ∃ v c d, portfolioValue [⟨100, lit (9 / 4), lit (7 / 2)⟩, ⟨3, lit 2, lit 1⟩] = some v ∧
    portfolioCost [⟨100, lit (9 / 4), lit (7 / 2)⟩, ⟨3, lit 2, lit 1⟩] = some c ∧
    portfolioProfit [⟨100, lit (9 / 4), lit (7 / 2)⟩, ⟨3, lit 2, lit 1⟩] = some d ∧ v.val = 353 ∧ c.val = 231 ∧ d.val = v.val - c.val := by
  have l1 : (lit (9 / 4)).val = 9 / 4 := by decide +kernel
  have l2 : (lit (7 / 2)).val = 7 / 2 := by decide +kernel
  have l3 : (lit 2).val = 2 := by decide +kernel
  have l4 : (lit 1).val = 1 := by decide +kernel
  obtain ⟨v, c, d, a1, a2, a3, a4, a5, a6⟩ := C91_exact [⟨100, lit (9 / 4), lit (7 / 2)⟩, ⟨3, lit 2, lit 1⟩] (-2) (by norm_num)
    (by norm_num) (by intro p hp; simp only [List.mem_cons, List.not_mem_nil, or_false] at hp; rcases hp with rfl | rfl <;> norm_num)
    (by
      intro p hp
      simp only [List.mem_cons, List.not_mem_nil, or_false] at hp
      rcases hp with rfl | rfl
      · exact ⟨⟨14, by rw [l2]; norm_num⟩, 9, by rw [l1]; norm_num⟩
      · exact ⟨⟨4, by rw [l4]; norm_num⟩, 8, by rw [l3]; norm_num⟩)
    (by simp [Spec.size, Spec.costSize, l1, l2, l3, l4]; norm_num [abs_of_pos])
  refine ⟨v, c, d, a1, a2, a3, ?_, ?_, a6⟩
  · rw [a4]; simp [Spec.value, l2, l4]; norm_num
  · rw [a5]; simp [Spec.cost, l1, l3]; norm_num

end Verif.Float
