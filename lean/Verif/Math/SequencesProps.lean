import Verif.Math.Sequences
import Mathlib.Data.List.GetD
import Mathlib.Algebra.Order.Archimedean.Real.Basic
import Mathlib.Tactic.Linarith
import Mathlib.Tactic.Ring
import Mathlib.Tactic.FieldSimp
import Mathlib.Tactic.NormNum
import Mathlib.Tactic.Positivity

/-!
# C44: sequences
-/

namespace Verif.Math.Sequences

/-! ## `seq` -/

theorem loop_unique {stop step x : ℝ} {l l' : List ℝ} (h : Loop stop step x l) (h' : Loop stop step x l') : l = l' := by
  induction h generalizing l' with
  | done x hx => cases h' with
    | done => rfl
    | push _ _ h1 => exact absurd h1 hx
  | push x l hx _ ih => cases h' with
    | done _ h1 => exact absurd hx h1
    | push _ l' _ h2 => rw [ih h2]

/-- The loop from `x` pushes exactly the points `x, x+h, ..., x+(n-1)h` once `x + n h` is the first above the end. -/
theorem loop_of_count {stop step : ℝ} (n : ℕ) : ∀ x : ℝ, (∀ k : ℕ, k < n → x + k * step ≤ stop) → stop < x + n * step →
    Loop stop step x ((List.range n).map fun (k : ℕ) => x + k * step) := by
  induction n with
  | zero => intro x _ h; exact Loop.done x (by simpa using h)
  | succ n ih =>
    intro x h h'
    rw [List.range_succ_eq_map, List.map_cons, List.map_map]
    have := ih (x + step) (fun k hk => by have := h (k + 1) (by omega); push_cast at this; linarith)
      (by push_cast at h'; linarith)
    convert Loop.push x _ (by simpa using h 0 (by omega)) this using 2
    · simp
    · apply List.map_congr_left; intro k _; simp only [Function.comp_apply]; push_cast; ring

/-- A finished loop is such a list. -/
theorem loop_form {stop step x : ℝ} {l : List ℝ} (h : Loop stop step x l) :
    l = (List.range l.length).map (fun (k : ℕ) => x + k * step) ∧ stop < x + l.length * step ∧
      ∀ k : ℕ, k < l.length → x + k * step ≤ stop := by
  induction h with
  | done x hx => exact ⟨rfl, by simpa using hx, by simp⟩
  | push x l hx _ ih =>
    obtain ⟨h1, h2, h3⟩ := ih
    refine ⟨?_, by simp only [List.length_cons]; push_cast; linarith, fun k hk => ?_⟩
    · rw [List.length_cons, List.range_succ_eq_map, List.map_cons, List.map_map]
      congr 1
      · simp
      · conv_lhs => rw [h1]
        apply List.map_congr_left; intro k _; simp only [Function.comp_apply]; push_cast; ring
    · cases k with
      | zero => simpa using hx
      | succ k => have := h3 k (by simpa using hk); push_cast; linarith

/-- C44: with a positive step, a start not above the end and an addressable length, `seq(a, b, h)` finishes, and its
`k`-th entry is `a + k h`, for exactly the natural `k` with `a + k h ≤ b`. -/
theorem C44_seq (a b h : ℝ) (hh : 0 < h) (hab : a ≤ b) (hcap : (b - a) / h < 2 ^ 60) :
    ∃ l, (∀ r, Seq a b h r ↔ r = some l) ∧
      (∀ k : ℕ, k < l.length ↔ a + k * h ≤ b) ∧ ∀ (k : ℕ) (x : ℝ), l[k]? = some x → x = a + k * h := by
  have hq : 0 ≤ (b - a) / h := by have : 0 ≤ b - a := by linarith
                                  positivity
  have hc : capacityOk a b h := ⟨hh.ne', by linarith, hcap⟩
  have hl : Loop b h a ((List.range (⌊(b - a) / h⌋₊ + 1)).map fun (k : ℕ) => a + k * h) := by
    apply loop_of_count
    · intro k hk
      have : (k : ℝ) ≤ (b - a) / h := le_trans (by exact_mod_cast Nat.lt_succ_iff.1 hk) (Nat.floor_le hq)
      rw [le_div_iff₀ hh] at this
      linarith
    · have := Nat.lt_floor_add_one ((b - a) / h)
      rw [div_lt_iff₀ hh] at this
      push_cast; linarith
  refine ⟨_, fun r => ⟨fun hr => ?_, fun hr => Or.inr ⟨hc, _, hr, hl⟩⟩, fun k => ?_, fun k x hx => ?_⟩
  · rcases hr with ⟨h1, _⟩ | ⟨_, l, h1, h2⟩
    · exact absurd hc h1
    · rw [h1, loop_unique h2 hl]
  · rw [List.length_map, List.length_range, Nat.lt_succ_iff, Nat.le_floor_iff hq, le_div_iff₀ hh]
    constructor <;> intro h <;> linarith
  · simp only [List.getElem?_map, Option.map_eq_some_iff] at hx
    obtain ⟨j, hj, rfl⟩ := hx
    rw [List.getElem?_eq_some_iff] at hj
    obtain ⟨_, hj⟩ := hj
    rw [List.getElem_range] at hj
    rw [hj]

/-- Hypotheses met: `seq(0, 1, 0.3)` is `[0, 0.3, 0.6, 0.9]`. -/
example : Seq 0 1 (3 / 10) (some [0, 3 / 10, 6 / 10, 9 / 10]) := by
  refine Or.inr ⟨⟨by norm_num, by norm_num, by norm_num⟩, _, rfl, ?_⟩
  refine .push _ _ (by norm_num) ?_
  convert Loop.push (stop := 1) (step := 3 / 10) (3 / 10) _ (by norm_num) ?_ using 1
  · norm_num
  convert Loop.push (stop := 1) (step := 3 / 10) (6 / 10) _ (by norm_num) ?_ using 1
  · norm_num
  convert Loop.push (stop := 1) (step := 3 / 10) (9 / 10) _ (by norm_num) ?_ using 1
  · norm_num
  exact .done _ (by norm_num)

/-- C44: what `seq` does with every other kind of argument. A zero step panics; a step pointing away from the end
panics as soon as the end is a whole step or more behind; nearer than that, an increasing sequence whose start is
already above its end is empty. -/
theorem C44_seq_degenerate (a b h : ℝ) (r : Option (List ℝ)) :
    (h = 0 → (Seq a b h r ↔ r = none)) ∧
    (h ≠ 0 → (b - a) / h ≤ -1 → (Seq a b h r ↔ r = none)) ∧
    (0 < h → b < a → -1 < (b - a) / h → (Seq a b h r ↔ r = some [])) ∧
    (h < 0 → b < a → (b - a) / h < 2 ^ 60 → (Seq a b h r ↔ r = some [])) := by
  have empty : ∀ (hc : capacityOk a b h) (hab : b < a), Seq a b h r ↔ r = some [] := by
    intro hc hab
    constructor
    · rintro (⟨h1, _⟩ | ⟨_, l, h1, h2⟩)
      · exact absurd hc h1
      · rw [h1, loop_unique h2 (.done a (not_le.2 hab))]
    · intro hr; exact Or.inr ⟨hc, _, hr, .done a (not_le.2 hab)⟩
  have pan : ∀ (hc : ¬ capacityOk a b h), Seq a b h r ↔ r = none := by
    intro hc
    constructor
    · rintro (⟨_, h1⟩ | ⟨h1, _⟩)
      · exact h1
      · exact absurd h1 hc
    · intro hr; exact Or.inl ⟨hc, hr⟩
  refine ⟨fun h0 => pan (fun hc => hc.1 h0), fun h0 h1 => pan (fun hc => absurd hc.2.1 (not_lt.2 h1)),
    fun h0 hab h1 => empty ⟨h0.ne', h1, lt_trans (div_neg_of_neg_of_pos (by linarith) h0) (by positivity)⟩ hab,
    fun h0 hab h1 => empty ⟨h0.ne, ?_, h1⟩ hab⟩
  have : 0 < (b - a) / h := div_pos_of_neg_of_neg (by linarith) h0
  linarith

example : ∀ r, Seq 5 1 1 r ↔ r = none := fun r => (C44_seq_degenerate 5 1 1 r).2.1 (by norm_num) (by norm_num)

/-- C44 (negation): `seq` does not finish on every input. With a negative step and the start at most one step below
the end, the loop runs (and pushes) for ever. -/
theorem C44_seq_diverges (a b h : ℝ) (hh : h < 0) (hab : a ≤ b) (hc : b - a < -h) : ∀ r, ¬ Seq a b h r := by
  have hq : -1 < (b - a) / h := by rw [lt_div_iff_of_neg hh]; linarith
  have hq' : (b - a) / h ≤ 0 := div_nonpos_of_nonneg_of_nonpos (by linarith) hh.le
  rintro r (⟨h1, _⟩ | ⟨_, l, _, h2⟩)
  · exact h1 ⟨hh.ne, hq, lt_of_le_of_lt hq' (by positivity)⟩
  · obtain ⟨_, h3, _⟩ := loop_form h2
    have : (l.length : ℝ) * h ≤ 0 := mul_nonpos_of_nonneg_of_nonpos (by positivity) hh.le
    linarith

example : ∀ r, ¬ Seq 1 1 (-1) r := C44_seq_diverges 1 1 (-1) (by norm_num) (by norm_num) (by norm_num)

/-! ## `rep`, `linspace`, `cumsum` -/

/-- C44: `rep(x, n)` is `n` copies of `x`. -/
theorem C44_rep (x : ℝ) (n : ℕ) : (rep x n).length = n ∧ ∀ y ∈ rep x n, y = x :=
  ⟨List.length_replicate, fun _ h => List.eq_of_mem_replicate h⟩

example : rep 3 2 = [3, 3] := rfl

/-- C44: `linspace` panics exactly when the interval is empty or no point is asked for. -/
theorem C44_linspace_panics (a b : ℝ) (n : ℕ) : linspace a b n = none ↔ b ≤ a ∨ n = 0 := by
  unfold linspace
  split_ifs with h
  · simp only [false_iff]
    rintro (h1 | h1)
    · exact absurd h.1 (not_lt.2 h1)
    · omega
  · simp only [true_iff]
    by_contra hc
    push Not at hc
    exact h ⟨hc.1, by omega⟩

/-- C44: for at least two points over a nonempty interval, `linspace(a, b, n)` has `n` entries, the first is `a`, the
last is `b`, and consecutive entries differ by the same amount `(b - a)/(n - 1)`. -/
theorem C44_linspace (a b : ℝ) (n : ℕ) (hab : a < b) (hn : 2 ≤ n) :
    ∃ l : List ℝ, linspace a b n = some (l.map some) ∧ l.length = n ∧ l.head? = some a ∧ l.getLast? = some b ∧
      l.Pairwise (· < ·) ∧
      ∀ (i : ℕ) (x y : ℝ), l[i]? = some x → l[i + 1]? = some y → y - x = (b - a) / (n - 1) := by
  have hn1 : ((n - 1 : ℕ) : ℝ) = (n : ℝ) - 1 := by rw [Nat.cast_sub (by omega)]; simp
  have hn0 : (0 : ℝ) < (n : ℝ) - 1 := by rw [← hn1]; exact_mod_cast (by omega : 0 < n - 1)
  have hs : 0 < (b - a) / ((n : ℝ) - 1) := div_pos (by linarith) hn0
  refine ⟨(List.range n).map fun (i : ℕ) => a + (i : ℝ) * ((b - a) / ((n - 1 : ℕ) : ℝ)), ?_, by simp, ?_, ?_, ?_, ?_⟩
  · unfold linspace
    rw [if_pos ⟨hab, by omega⟩, List.map_map]
    congr 1
    apply List.map_congr_left
    intro i _
    rw [if_neg (by omega)]; rfl
  · rw [List.head?_map, List.head?_range, if_neg (by omega)]; simp
  · rw [List.getLast?_map, List.getLast?_range, if_neg (by omega)]
    simp only [Option.map_some, Option.some.injEq, hn1]
    field_simp; ring
  · rw [List.pairwise_map]
    refine List.pairwise_lt_range.imp ?_
    intro i j hij
    rw [hn1]
    have : (i : ℝ) < j := by exact_mod_cast hij
    have := mul_lt_mul_of_pos_right this hs
    linarith
  · intro i x y hx hy
    simp only [List.getElem?_map, Option.map_eq_some_iff] at hx hy
    obtain ⟨p, hp, rfl⟩ := hx
    obtain ⟨q, hq, rfl⟩ := hy
    rw [List.getElem?_eq_some_iff] at hp hq
    obtain ⟨_, hp⟩ := hp
    obtain ⟨_, hq⟩ := hq
    rw [List.getElem_range] at hp hq
    subst hp hq
    rw [hn1]; push_cast; ring

/-- C44: a single point is accepted and yields a NaN, not `a`. -/
theorem C44_linspace_single_nan (a b : ℝ) (hab : a < b) : linspace a b 1 = some [none] := by
  unfold linspace
  rw [if_pos ⟨hab, by norm_num⟩]
  simp

example : linspace 0 1 1 = some [none] := C44_linspace_single_nan 0 1 one_pos

theorem cumsumFrom_spec (v : List ℝ) : ∀ acc, (cumsumFrom acc v).length = v.length ∧
    ∀ k, k < v.length → (cumsumFrom acc v)[k]? = some (acc + (v.take (k + 1)).sum) := by
  induction v with
  | nil => intro acc; simp [cumsumFrom]
  | cons x l ih =>
    intro acc
    obtain ⟨h1, h2⟩ := ih (acc + x)
    refine ⟨by simp [cumsumFrom, h1], fun k hk => ?_⟩
    cases k with
    | zero => simp [cumsumFrom]
    | succ k =>
      rw [cumsumFrom, List.getElem?_cons_succ, h2 k (by simpa using hk)]
      simp [add_assoc]

/-- C44: `cumsum(v)` has the length of `v`, its `k`-th entry is the sum of the first `k + 1` entries of `v`, its last
entry is the total, and differencing it gives `v` back. -/
theorem C44_cumsum (v : List ℝ) :
    (cumsum v).length = v.length ∧
    (∀ k, k < v.length → (cumsum v)[k]? = some (v.take (k + 1)).sum) ∧
    (v ≠ [] → (cumsum v).getLast? = some v.sum) ∧
    ∀ (k : ℕ) (s t : ℝ), (cumsum v)[k]? = some s → (cumsum v)[k + 1]? = some t → v[k + 1]? = some (t - s) := by
  obtain ⟨h1, h2⟩ := cumsumFrom_spec v 0
  refine ⟨h1, fun k hk => by simpa [cumsum] using h2 k hk, fun hv => ?_, fun k s t hs ht => ?_⟩
  · have hl : 0 < v.length := List.length_pos_iff.2 hv
    rw [List.getLast?_eq_getElem?, cumsum, h1, h2 _ (by omega), Nat.sub_add_cancel hl, List.take_length, zero_add]
  · have hk : k + 1 < v.length := by
      rw [← h1]; exact (List.getElem?_eq_some_iff.1 ht).1
    rw [cumsum, h2 _ (by omega)] at hs
    rw [cumsum, h2 _ hk] at ht
    simp only [Option.some.injEq] at hs ht
    rw [List.getElem?_eq_getElem hk, ← hs, ← ht, ← List.take_concat_get' v (k + 1) hk, List.sum_append]
    simp

example : cumsum [1, 2, 3] = [0 + 1, 0 + 1 + 2, 0 + 1 + 2 + 3] := rfl

end Verif.Math.Sequences
