import Verif.Float.SumProps

/-!
# C87: medians and quantiles in `f64`

The claims about order statistics that survive rounding: no index runs out of bounds, results stay between the data and grow
with the level.
-/

namespace Verif.Float

/-! ## Interpolation between two values -/

/-- There is no value between `1 - 2^-53` and 1. -/
theorem rep_lt_one {t : ℚ} (h : Rep t) (h1 : t < 1) : t ≤ 1 - u := by
  by_cases h2 : t ≤ 1 / 2
  · have := u_lt; linarith
  rw [not_le] at h2
  have hne : t ≠ 0 := by intro h0; rw [h0] at h2; norm_num at h2
  obtain ⟨n, hn⟩ := rep_multiple h hne
  obtain ⟨a, b⟩ := ilog2_abs t hne
  rw [abs_of_pos (by linarith)] at a b
  have i1 : ilog2 t < 0 := by
    rw [← zpow_lt_iff]; refine lt_of_le_of_lt a ?_; simpa using h1
  have i2 : -1 < ilog2 t + 1 := by
    rw [← zpow_lt_iff]; refine lt_trans ?_ b; norm_num at h2 ⊢; exact h2
  have hE : ulpExp t = -53 := by
    unfold ulpExp; rw [abs_of_pos (by linarith)]; omega
  rw [hE] at hn
  have hu : (2 : ℚ) ^ (-53 : ℤ) = u := rfl
  rw [hu] at hn
  have hn2 : n < 2 ^ 53 := by
    have h3 : (n : ℚ) * u < ((2 ^ 53 : ℤ) : ℚ) * u := by
      rw [← hn]; refine lt_of_lt_of_eq h1 ?_; unfold u; norm_num
    exact Int.cast_lt.1 (lt_of_mul_lt_mul_right h3 u_pos.le)
  have h4 : (n : ℚ) ≤ ((2 ^ 53 - 1 : ℤ) : ℚ) := Int.cast_le.2 (by omega)
  have h5 := mul_le_mul_of_nonneg_right h4 u_pos.le
  rw [← hn] at h5
  refine h5.trans (le_of_eq ?_)
  unfold u
  norm_num

/-- The rounded difference times a factor below one does not exceed the exact difference. -/
theorem scaled_le {a b t : ℚ} (ha : Rep a) (hb : Rep b) (ht : Rep t) (hab : a ≤ b) (h0 : 0 ≤ t) (h1 : t < 1) :
    rnd (rnd (b - a) * t) ≤ b - a := by
  set D := rnd (b - a) with hD
  have hD0 : 0 ≤ D := rnd_nonneg (by linarith)
  have hle : rnd (D * t) ≤ D := rnd_le (rep_rnd _) (by nlinarith)
  by_cases h2 : D ≤ b - a
  · linarith
  rw [not_le] at h2
  by_contra hc
  rw [not_le] at hc
  have h3 := rnd_nearest (b - a) (rep_rnd (D * t))
  rw [← hD, abs_of_neg (by linarith), abs_of_neg (by linarith)] at h3
  have h4 : rnd (D * t) = D := le_antisymm hle (by linarith)
  have h5 := rep_lt_one ht h1
  have hDpos : 0 < D := lt_of_le_of_lt (by linarith) h2
  rcases rnd_error (D * t) with h6 | ⟨h6, h7⟩
  · rw [h4, abs_of_nonpos (by nlinarith), abs_of_nonneg (by positivity)] at h6
    change -(D * t - D) ≤ u * (D * t) at h6
    have h8 : D * 1 ≤ D * (t * (1 + u)) := by linarith
    have h9 := le_of_mul_le_mul_left h8 hDpos
    have := u_pos
    nlinarith
  · rw [h4, abs_of_nonpos (by nlinarith)] at h7
    rw [abs_of_nonneg (by positivity)] at h6
    have h8 : b - a < 2 ^ (-1021 : ℤ) := by
      have e1 : (2 : ℚ) ^ (-1075 : ℤ) ≤ 2 ^ (-1022 : ℤ) := (zpow_le_iff _ _).2 (by norm_num)
      have e2 : (2 : ℚ) ^ (-1021 : ℤ) = 2 * 2 ^ (-1022 : ℤ) := by
        rw [show (-1021 : ℤ) = 1 + -1022 by norm_num, zpow_add₀ (by norm_num)]; norm_num
      rw [e2]
      linarith
    obtain ⟨n, hn⟩ := rep_grid ha
    obtain ⟨m, hm⟩ := rep_grid hb
    have e : b - a = ((m - n : ℤ) : ℚ) * 2 ^ (-1074 : ℤ) := by rw [hn, hm]; push_cast; ring
    have hr : Rep (b - a) := by
      rw [e]
      apply rep_of_le _ _ _ le_rfl
      have h3 : (2 : ℚ) ^ (-1021 : ℤ) ≤ 2 ^ (53 : ℤ) * 2 ^ (-1074 : ℤ) := by
        rw [← zpow_add₀ (by norm_num), zpow_le_iff]; norm_num
      rw [← abs_of_nonneg (show 0 ≤ b - a by linarith), e, abs_mul, abs_of_pos (zpos (-1074))] at h8
      exact (int_abs_lt (zpos (-1074)) (lt_of_lt_of_le h8 h3)).le
    rw [hD, rnd_rep hr] at h2
    exact lt_irrefl _ h2

/-- `lower + (upper - lower) * t` stays between its ends for `0 ≤ t < 1`. -/
theorem lerp_bounds {a b t : ℚ} (ha : Rep a) (hb : Rep b) (ht : Rep t) (hab : a ≤ b) (h0 : 0 ≤ t) (h1 : t < 1) :
    a ≤ rnd (a + rnd (rnd (b - a) * t)) ∧ rnd (a + rnd (rnd (b - a) * t)) ≤ b := by
  have h2 := scaled_le ha hb ht hab h0 h1
  have h3 : 0 ≤ rnd (rnd (b - a) * t) := rnd_nonneg (mul_nonneg (rnd_nonneg (by linarith)) h0)
  exact ⟨le_rnd ha (by linarith), rnd_le hb (by linarith)⟩

/-- The integer part of a non-negative value below `2^53` and the rest are values. -/
theorem rep_frac {x : ℚ} (h : Rep x) (h0 : 0 ≤ x) (h53 : x ≤ 2 ^ 53) : Rep (⌊x⌋ : ℚ) ∧ Rep (x - ⌊x⌋) := by
  have hf0 : 0 ≤ ⌊x⌋ := Int.floor_nonneg.2 h0
  have hfx : (⌊x⌋ : ℚ) ≤ x := Int.floor_le x
  have hr : Rep (⌊x⌋ : ℚ) := by
    apply rep_int
    rw [abs_of_nonneg hf0]
    have : (⌊x⌋ : ℚ) ≤ ((2 ^ 53 : ℤ) : ℚ) := by push_cast; linarith
    exact Int.cast_le.1 this
  refine ⟨hr, ?_⟩
  by_cases hx : x = 0
  · subst hx; simpa using rep_zero
  obtain ⟨n, hn⟩ := rep_multiple h hx
  set E := ulpExp x
  rcases le_or_gt 0 E with hE | hE
  · obtain ⟨k, hk⟩ : ∃ k : ℕ, E = k := ⟨E.toNat, by omega⟩
    have e : x = ((n * 2 ^ k : ℤ) : ℚ) := by rw [hn, hk, zpow_natCast]; push_cast; ring
    have : x - ⌊x⌋ = 0 := by rw [e, Int.floor_intCast, sub_self]
    rw [this]; exact rep_zero
  · obtain ⟨k, hk⟩ : ∃ k : ℕ, -E = k := ⟨(-E).toNat, by omega⟩
    have e : x - ⌊x⌋ = ((n - ⌊x⌋ * 2 ^ k : ℤ) : ℚ) * 2 ^ E := by
      have : (2 : ℚ) ^ k * 2 ^ E = 1 := by rw [← zpow_natCast, ← zpow_add₀ (by norm_num), ← hk]; norm_num
      push_cast
      rw [sub_mul, ← hn, mul_assoc, this, mul_one]
    have hd0 : 0 ≤ x - ⌊x⌋ := by linarith
    have hlt := abs_lt_ulp x hx
    rw [abs_of_nonneg h0, zpow_add₀ (by norm_num), mul_comm] at hlt
    have hfn : (0 : ℚ) ≤ ⌊x⌋ := by exact_mod_cast hf0
    have h3 : |((n - ⌊x⌋ * 2 ^ k : ℤ) : ℚ)| * 2 ^ E < 2 ^ (53 : ℤ) * 2 ^ E := by
      rw [← abs_of_pos (zpos E), ← abs_mul, ← e, abs_of_pos (zpos E), abs_of_nonneg hd0]
      linarith
    rw [e]
    exact rep_of_le _ _ (int_abs_lt (zpos E) h3).le (ulpExp_ge x)

/-! ## The sorted data -/

instance : Std.Total (fun a b : F64 => a.val ≤ b.val) := ⟨fun a b => le_total a.val b.val⟩

instance : IsTrans F64 (fun a b : F64 => a.val ≤ b.val) := ⟨fun _ _ _ h1 h2 => le_trans h1 h2⟩

theorem sorted_pairwise (xs : List F64) : (sorted xs).Pairwise (fun a b => a.val ≤ b.val) := List.pairwise_insertionSort _ xs

theorem sorted_length (xs : List F64) : (sorted xs).length = xs.length := List.length_insertionSort _ xs

theorem mem_sorted (xs : List F64) (x : F64) : x ∈ sorted xs ↔ x ∈ xs := List.mem_insertionSort _

theorem sorted_mono (xs : List F64) {i j : ℕ} {a b : F64} (hij : i ≤ j) (ha : (sorted xs)[i]? = some a)
    (hb : (sorted xs)[j]? = some b) : a.val ≤ b.val := by
  rcases eq_or_lt_of_le hij with rfl | h
  · rw [ha] at hb; cases hb; exact le_rfl
  · obtain ⟨h1, rfl⟩ := List.getElem?_eq_some_iff.1 ha
    obtain ⟨h2, rfl⟩ := List.getElem?_eq_some_iff.1 hb
    exact List.pairwise_iff_getElem.1 (sorted_pairwise xs) i j h1 h2 h

/-- What `quantile` computes for valid arguments. -/
theorem quantile_spec (xs : List F64) (hne : xs ≠ []) (hn : xs.length ≤ 2 ^ 53) (q : F64) (h0 : 0 ≤ q.val) (h1 : q.val ≤ 1) :
    ∃ (x : ℚ) (lo up t : F64), x = rnd (q.val * (xs.length - 1 : ℕ)) ∧ 0 ≤ x ∧ x ≤ (xs.length - 1 : ℕ) ∧
      (sorted xs)[⌊x⌋₊]? = some lo ∧ (sorted xs)[⌈x⌉₊]? = some up ∧ lo.val ≤ up.val ∧ t.val = x - ⌊x⌋ ∧
      0 ≤ t.val ∧ t.val < 1 ∧ quantile xs q = .of (lerp lo up t) := by
  have hl : 0 < xs.length := List.length_pos_iff.2 hne
  set N : ℚ := ((xs.length - 1 : ℕ) : ℚ) with hN
  have hN0 : 0 ≤ N := by rw [hN]; positivity
  have hNrep : Rep N := rep_nat _ (by omega)
  have hN53 : N ≤ 2 ^ 53 := by
    rw [hN]; exact_mod_cast (by omega : xs.length - 1 ≤ 2 ^ 53)
  set x := rnd (q.val * N) with hx
  have hx0 : 0 ≤ x := rnd_nonneg (mul_nonneg h0 hN0)
  have hxN : x ≤ N := rnd_le hNrep (by nlinarith)
  obtain ⟨r, hr, hrv⟩ := ofNat_small (xs.length - 1) (by omega)
  have big : (2 : ℚ) ^ 53 < 2 ^ 1024 := pow_lt_pow_right₀ (by norm_num) (by norm_num)
  obtain ⟨index, hi, hiv⟩ := toF64_isSome (x := q.val * N) (by
    rw [← hx, abs_of_nonneg hx0]; exact lt_of_le_of_lt (hxN.trans hN53) big)
  have hfl : ⌊x⌋₊ ≤ xs.length - 1 := by
    rw [← Nat.cast_le (α := ℚ)]; exact (Nat.floor_le hx0).trans hxN
  have hce : ⌈x⌉₊ ≤ xs.length - 1 := Nat.ceil_le.2 hxN
  have hls := sorted_length xs
  obtain ⟨lo, hlo⟩ : ∃ lo, (sorted xs)[⌊x⌋₊]? = some lo := ⟨_, List.getElem?_eq_getElem (by omega)⟩
  obtain ⟨up, hup⟩ : ∃ up, (sorted xs)[⌈x⌉₊]? = some up := ⟨_, List.getElem?_eq_getElem (by omega)⟩
  obtain ⟨rf, rd⟩ := rep_frac (rep_rnd (q.val * N)) hx0 (hxN.trans hN53)
  rw [← hx] at rf rd
  have hfx : (⌊x⌋ : ℚ) ≤ x := Int.floor_le x
  have hfx1 : x < ⌊x⌋ + 1 := Int.lt_floor_add_one x
  have hf0 : (0 : ℚ) ≤ ⌊x⌋ := by exact_mod_cast Int.floor_nonneg.2 hx0
  obtain ⟨fl, hf1, hf2⟩ := toF64_isSome (x := (⌊x⌋ : ℚ)) (by
    rw [rnd_rep rf, abs_of_nonneg hf0]; exact lt_of_le_of_lt (hfx.trans (hxN.trans hN53)) big)
  rw [rnd_rep rf] at hf2
  obtain ⟨t, ht1, ht2⟩ := toF64_isSome (x := x - ⌊x⌋) (by
    rw [rnd_rep rd, abs_of_nonneg (by linarith)]
    exact lt_of_le_of_lt ((show x - ⌊x⌋ ≤ x by linarith).trans (hxN.trans hN53)) big)
  rw [rnd_rep rd] at ht2
  refine ⟨x, lo, up, t, rfl, hx0, hxN, hlo, hup, sorted_mono xs (Nat.floor_le_ceil x) hlo hup, ht2, by rw [ht2]; linarith,
    by rw [ht2]; linarith, ?_⟩
  unfold quantile
  have hq : q.mul r = some index := by
    unfold F64.mul
    rw [hrv]
    exact hi
  have hidx : (do q.mul (← ofNat ((sorted xs).length - 1))) = some index := by
    rw [hls, hr]
    exact hq
  rw [if_neg hne, if_neg (by rw [not_or]; exact ⟨not_lt.2 h0, not_lt.2 h1⟩)]
  simp only [hidx, hiv, ← hx, hlo, hup]
  have hsub : index.sub fl = some t := by
    unfold F64.sub
    rw [hiv, ← hx, hf2, ht1]
  refine congrArg Res.of ?_
  simp only [hf1, Option.bind_eq_bind, Option.bind_some, hsub]

theorem lerp_some {lo up t r : F64} (h : lerp lo up t = some r) :
    r.val = rnd (lo.val + rnd (rnd (up.val - lo.val) * t.val)) := by
  unfold lerp at h
  obtain ⟨d, h1, h2⟩ := Option.bind_eq_some_iff.1 h
  obtain ⟨p, h3, h4⟩ := Option.bind_eq_some_iff.1 h2
  rw [add_some h4, mul_some h3, show d.val = rnd (up.val - lo.val) from toF64_some h1]

/-! ## The claims -/

/-- C87: `quantile` and `percentile` panic exactly for no data or a level outside `[0, 1]`: whatever the rounding of the index,
it never runs out of bounds. -/
theorem C87_quantile_panics (xs : List F64) (hn : xs.length ≤ 2 ^ 53) (q : F64) :
    quantile xs q = .panic ↔ xs = [] ∨ q.val < 0 ∨ 1 < q.val := by
  constructor
  · intro h
    by_contra hc
    rw [not_or, not_or, not_lt, not_lt] at hc
    obtain ⟨x, lo, up, t, _, _, _, _, _, _, _, _, _, h2⟩ := quantile_spec xs hc.1 hn q hc.2.1 hc.2.2
    rw [h2] at h
    cases hl : lerp lo up t <;> rw [hl] at h <;> simp [Res.of] at h
  · intro h
    unfold quantile
    split_ifs with h1 h2
    · rfl
    · rfl
    · rcases h with h | h
      · exact absurd h h1
      · exact absurd h h2

example : quantile [lit 1, lit 2] (lit (1 / 2)) ≠ .panic := fun h =>
  by
    have := (C87_quantile_panics [lit 1, lit 2] (by norm_num) (lit (1 / 2))).1 h
    revert this
    decide +kernel

/-- C87: a quantile lies between the two neighbouring order statistics (so between the least and the greatest of the data),
exactly, although four roundings are involved; at the levels 0 and 1 it is the least and the greatest of the data, exactly. -/
theorem C87_quantile_between (xs : List F64) (hn : xs.length ≤ 2 ^ 53) (q r : F64) (h : quantile xs q = .ok r) :
    (∃ (i : ℕ) (lo up : F64), (sorted xs)[i]? = some lo ∧ ((sorted xs)[i]? = some up ∨ (sorted xs)[i + 1]? = some up) ∧
      lo.val ≤ r.val ∧ r.val ≤ up.val) ∧
    (∃ a ∈ xs, ∃ b ∈ xs, a.val ≤ r.val ∧ r.val ≤ b.val) ∧
    (q.val = 0 → r ∈ xs ∧ ∀ x ∈ xs, r.val ≤ x.val) ∧ (q.val = 1 → r ∈ xs ∧ ∀ x ∈ xs, x.val ≤ r.val) := by
  have hp := C87_quantile_panics xs hn q
  rw [h] at hp
  have hv : ¬ (xs = [] ∨ q.val < 0 ∨ 1 < q.val) := fun hc => by simpa using hp.2 hc
  rw [not_or, not_or, not_lt, not_lt] at hv
  obtain ⟨hne, h0, h1⟩ := hv
  obtain ⟨x, lo, up, t, hx, hx0, hxN, hlo, hup, hle, ht, ht0, ht1, h2⟩ := quantile_spec xs hne hn q h0 h1
  rw [h2] at h
  have hr := lerp_some (of_ok h)
  obtain ⟨b1, b2⟩ := lerp_bounds lo.rep up.rep t.rep hle ht0 ht1
  rw [← hr] at b1 b2
  have hl : 0 < xs.length := List.length_pos_iff.2 hne
  have hin : ∀ {i : ℕ} {y : F64}, (sorted xs)[i]? = some y → y ∈ xs := fun h => (mem_sorted xs _).1 (List.mem_of_getElem? h)
  have hall : ∀ y ∈ xs, ∃ i < xs.length, (sorted xs)[i]? = some y := fun y hy => by
    obtain ⟨i, hi, e⟩ := List.getElem_of_mem ((mem_sorted xs y).2 hy)
    exact ⟨i, by rw [← sorted_length xs]; exact hi, by rw [List.getElem?_eq_getElem hi, e]⟩
  have same : ∀ k : ℕ, x = k → (sorted xs)[k]? = some r := by
    intro k hk
    have e1 : ⌊x⌋₊ = k := by rw [hk, Nat.floor_natCast]
    have e2 : ⌈x⌉₊ = k := by rw [hk, Nat.ceil_natCast]
    rw [e1] at hlo
    rw [e2, hlo] at hup
    cases hup
    rw [hlo, F64.ext (le_antisymm b1 b2)]
  refine ⟨⟨⌊x⌋₊, lo, up, hlo, ?_, b1, b2⟩, ⟨lo, hin hlo, up, hin hup, b1, b2⟩, fun hq => ?_, fun hq => ?_⟩
  · have h3 := Nat.floor_le_ceil x
    have h4 := Nat.ceil_le_floor_add_one x
    rcases Nat.lt_or_ge ⌊x⌋₊ ⌈x⌉₊ with h5 | h5
    · right; rw [show ⌊x⌋₊ + 1 = ⌈x⌉₊ by omega]; exact hup
    · left; rw [show ⌊x⌋₊ = ⌈x⌉₊ by omega]; exact hup
  · have e := same 0 (by rw [hx, hq, zero_mul, rnd_zero]; simp)
    refine ⟨hin e, fun y hy => ?_⟩
    obtain ⟨i, _, hi⟩ := hall y hy
    exact sorted_mono xs (Nat.zero_le i) e hi
  · have e := same (xs.length - 1) (by rw [hx, hq, one_mul, rnd_rep (rep_nat _ (by omega))])
    refine ⟨hin e, fun y hy => ?_⟩
    obtain ⟨i, hi', hi⟩ := hall y hy
    exact sorted_mono xs (by omega) hi e

/-- The quartile of three values. -/
example : ∃ a ∈ [lit 3, lit 1, lit 2], ∃ b ∈ [lit 3, lit 1, lit 2], a.val ≤ (lit (3 / 2)).val ∧ (lit (3 / 2)).val ≤ b.val :=
  (C87_quantile_between [lit 3, lit 1, lit 2] (by norm_num) (lit (1 / 4)) (lit (3 / 2)) (by decide +kernel)).2.1

/-- C87: quantiles do not decrease with the level, exactly. -/
theorem C87_quantile_monotone (xs : List F64) (hn : xs.length ≤ 2 ^ 53) (q q' r r' : F64) (hq : q.val ≤ q'.val)
    (h : quantile xs q = .ok r) (h' : quantile xs q' = .ok r') : r.val ≤ r'.val := by
  have valid : ∀ q r, quantile xs q = .ok r → xs ≠ [] ∧ 0 ≤ q.val ∧ q.val ≤ 1 := by
    intro q r h
    have hp := C87_quantile_panics xs hn q
    rw [h] at hp
    have hv : ¬ (xs = [] ∨ q.val < 0 ∨ 1 < q.val) := fun hc => by simpa using hp.2 hc
    rw [not_or, not_or, not_lt, not_lt] at hv
    exact hv
  obtain ⟨hne, h0, h1⟩ := valid q r h
  obtain ⟨_, h0', h1'⟩ := valid q' r' h'
  obtain ⟨x, lo, up, t, hx, hx0, hxN, hlo, hup, hle, ht, ht0, ht1, h2⟩ := quantile_spec xs hne hn q h0 h1
  obtain ⟨x', lo', up', t', hx', hx0', hxN', hlo', hup', hle', ht', ht0', ht1', h2'⟩ := quantile_spec xs hne hn q' h0' h1'
  rw [h2] at h
  rw [h2'] at h'
  have hr := lerp_some (of_ok h)
  have hr' := lerp_some (of_ok h')
  obtain ⟨b1, b2⟩ := lerp_bounds lo.rep up.rep t.rep hle ht0 ht1
  obtain ⟨b1', b2'⟩ := lerp_bounds lo'.rep up'.rep t'.rep hle' ht0' ht1'
  rw [← hr] at b1 b2
  rw [← hr'] at b1' b2'
  have hxx : x ≤ x' := by
    rw [hx, hx']; exact rnd_mono (mul_le_mul_of_nonneg_right hq (by positivity))
  rcases Nat.lt_or_ge ⌊x⌋₊ ⌊x'⌋₊ with hlt | hge
  · have h4 := Nat.ceil_le_floor_add_one x
    have := sorted_mono xs (show ⌈x⌉₊ ≤ ⌊x'⌋₊ by omega) hup hlo'
    linarith
  · have hf : ⌊x⌋₊ = ⌊x'⌋₊ := le_antisymm (Nat.floor_le_floor hxx) hge
    have hfi : ⌊x⌋ = ⌊x'⌋ := by rw [← Int.natCast_floor_eq_floor hx0, ← Int.natCast_floor_eq_floor hx0', hf]
    rw [hf, hlo'] at hlo
    cases hlo
    have hc := Nat.ceil_mono hxx
    rcases Nat.lt_or_ge ⌈x⌉₊ ⌈x'⌉₊ with hlt | hge
    · have h4 := Nat.ceil_le_floor_add_one x'
      have := sorted_mono xs (show ⌈x⌉₊ ≤ ⌊x'⌋₊ by omega) hup hlo'
      linarith
    · rw [le_antisymm hc hge, hup'] at hup
      cases hup
      rw [hr, hr']
      have hD : 0 ≤ rnd (up.val - lo.val) := rnd_nonneg (by linarith)
      have htt : t.val ≤ t'.val := by rw [ht, ht', hfi]; linarith
      have := rnd_mono (mul_le_mul_of_nonneg_left htt hD)
      exact rnd_mono (by linarith)

example : ∃ r r', quantile [lit 3, lit 1, lit 2] (lit (1 / 10)) = .ok r ∧
    quantile [lit 3, lit 1, lit 2] (lit (9 / 10)) = .ok r' ∧ r.val < r'.val :=
  ⟨lit (12 / 10), lit (28 / 10), by decide +kernel, by decide +kernel, by decide +kernel⟩

theorem abs_fin {x : ℚ} {k : ℕ} (hk : k < 1024) (h : |x| ≤ 2 ^ k) : |rnd x| < 2 ^ 1024 := by
  have hr : Rep (2 ^ k) := by
    have := rep_of_le 1 k (by norm_num) (by omega)
    simpa using this
  exact lt_of_le_of_lt (rnd_abs_le hr h) (pow_lt_pow_right₀ (by norm_num) hk)

/-- C87: a quantile of data up to `2^1022` in size is finite. -/
theorem C87_quantile_finite (xs : List F64) (hne : xs ≠ []) (hn : xs.length ≤ 2 ^ 53) (q : F64) (h0 : 0 ≤ q.val)
    (h1 : q.val ≤ 1) (hb : ∀ x ∈ xs, |x.val| ≤ 2 ^ 1022) : ∃ r, quantile xs q = .ok r := by
  obtain ⟨x, lo, up, t, hx, hx0, hxN, hlo, hup, hle, ht, ht0, ht1, h2⟩ := quantile_spec xs hne hn q h0 h1
  have hin : ∀ {i : ℕ} {y : F64}, (sorted xs)[i]? = some y → y ∈ xs := fun h => (mem_sorted xs _).1 (List.mem_of_getElem? h)
  have bl := hb lo (hin hlo)
  have bu := hb up (hin hup)
  have e1023 : (2 : ℚ) ^ 1023 = 2 ^ 1022 + 2 ^ 1022 := by rw [pow_succ]; ring
  have hD : |up.val - lo.val| ≤ 2 ^ 1023 := by
    rw [e1023]; exact (abs_sub _ _).trans (by linarith)
  obtain ⟨d, hd, hdv⟩ := toF64_isSome (abs_fin (by norm_num) hD)
  have hd0 : 0 ≤ d.val := by rw [hdv]; exact rnd_nonneg (by linarith)
  obtain ⟨p, hp, hpv⟩ := toF64_isSome (x := d.val * t.val) (fin_of_le d (by
    rw [abs_mul, abs_of_nonneg ht0]
    have := abs_nonneg d.val
    nlinarith))
  obtain ⟨b1, b2⟩ := lerp_bounds lo.rep up.rep t.rep hle ht0 ht1
  obtain ⟨r, hr, _⟩ := toF64_isSome (x := lo.val + p.val) (by
    rw [hpv, hdv]
    refine lt_of_le_of_lt (abs_le_max_abs_abs b1 b2) (max_lt lo.fin up.fin))
  refine ⟨r, ?_⟩
  rw [h2]
  unfold lerp
  rw [show up.sub lo = some d from hd]
  change Res.of ((d.mul t).bind fun p => lo.add p) = _
  rw [show d.mul t = some p from hp]
  change Res.of (lo.add p) = _
  rw [show lo.add p = some r from hr]
  rfl

example : ∃ r, quantile [lit 3, lit 1, lit 2] (lit (1 / 3)) = .ok r :=
  C87_quantile_finite _ (by simp) (by norm_num) _ (by decide +kernel) (by decide +kernel) (by decide +kernel)

/-- C87: the median lies between the two middle order statistics, exactly; for an odd number of data it is the middle one, exactly.
It panics exactly for no data. -/
theorem C87_median (xs : List F64) (r : F64) :
    (median xs = .panic ↔ xs = []) ∧
    (median xs = .ok r →
      ∃ a b, (sorted xs)[(xs.length - 1) / 2]? = some a ∧ (sorted xs)[xs.length / 2]? = some b ∧
        a.val ≤ r.val ∧ r.val ≤ b.val) := by
  obtain ⟨two, h2, h2v⟩ := ofNat_small 2 (by norm_num)
  by_cases hne : xs = []
  · subst hne
    unfold median
    rw [if_pos rfl]
    simp
  have hl : 0 < xs.length := List.length_pos_iff.2 hne
  have hls := sorted_length xs
  obtain ⟨b, hb⟩ : ∃ b, (sorted xs)[xs.length / 2]? = some b := ⟨_, List.getElem?_eq_getElem (by omega)⟩
  unfold median
  rw [if_neg hne]
  simp only [hls, hb]
  by_cases hev : xs.length % 2 = 0
  · obtain ⟨a, ha⟩ : ∃ a, (sorted xs)[xs.length / 2 - 1]? = some a := ⟨_, List.getElem?_eq_getElem (by omega)⟩
    rw [if_pos hev, ha, h2]
    have hab := sorted_mono xs (show xs.length / 2 - 1 ≤ xs.length / 2 by omega) ha hb
    constructor
    · simp only [hne, iff_false]
      generalize (do (← a.add b).div two) = o
      cases o <;> simp [Res.of]
    · intro h
      have h3 := of_ok h
      obtain ⟨s, h4, h5⟩ := Option.bind_eq_some_iff.1 h3
      have h6 := (div_some h5).2
      rw [h2v, add_some h4] at h6
      refine ⟨a, b, by rw [show (xs.length - 1) / 2 = xs.length / 2 - 1 by omega]; exact ha, rfl, ?_, ?_⟩
      · rw [h6]
        refine le_rnd a.rep ?_
        have := le_rnd (rep_double a.rep) (show 2 * a.val ≤ a.val + b.val by linarith)
        push_cast
        linarith
      · rw [h6]
        refine rnd_le b.rep ?_
        have := rnd_le (rep_double b.rep) (show a.val + b.val ≤ 2 * b.val by linarith)
        push_cast
        linarith
  · rw [if_neg hev]
    refine ⟨by simp [hne], fun h => ?_⟩
    cases h
    exact ⟨r, r, by rw [show (xs.length - 1) / 2 = xs.length / 2 by omega]; exact hb, rfl, le_rfl, le_rfl⟩

example : median [lit 3, lit 1, lit 2, lit 7] = .ok (lit (5 / 2)) := by decide +kernel

/-- C87 (defect): the median of two finite numbers can be infinite, because they are added before they are halved. -/
theorem C87_median_overflow (x : F64) (h : 2 ^ 1023 ≤ x.val) : median [x, x] = .nonfinite := by
  obtain ⟨two, h2, _⟩ := ofNat_small 2 (by norm_num)
  have hs : sorted [x, x] = [x, x] := by
    unfold sorted
    simp
  have hadd : x.add x = none := by
    unfold F64.add toF64
    rw [dif_neg]
    rw [not_lt, ← two_mul, rnd_rep (rep_double x.rep), abs_of_nonneg (mul_nonneg (by norm_num)
      (le_trans (by positivity) h))]
    rw [show (2 : ℚ) ^ 1024 = 2 * 2 ^ 1023 from pow_succ' 2 1023]
    exact mul_le_mul_of_nonneg_left h (by norm_num)
  unfold median
  rw [if_neg (by simp)]
  simp only [hs, List.length_cons, List.length_nil, h2]
  norm_num [hadd]
  rfl

example : (2 : ℚ) ^ 1023 ≤ (lit (2 ^ 1023)).val := by decide +kernel

end Verif.Float
