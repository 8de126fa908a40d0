import Verif.Float.Solvers
import Verif.Float.NanLemmas
import Verif.Float.BisectionLemmas

/-! Helper lemmas about the solvers on all values of `f64`. -/

namespace Verif.Float.Solve

open X64
open Nan (zero le nan_lt lt_nan nan_le le_nan nan_div)

theorem ofQ_zero : ofQ 0 = zero := ofQ_val F64.zero

theorem abs_fin (a : F64) : ∃ b, abs (fin a) = fin b ∧ b.val = |a.val| := by
  have h1 : Rep |a.val| := by
    rcases abs_choice a.val with h | h
    · rw [h]; exact a.rep
    · rw [h]; exact rep_neg a.rep
  obtain ⟨b, hb, hv⟩ := ofQ_fin (q := |a.val|) (by rw [rnd_rep h1, abs_abs]; exact a.fin)
  exact ⟨b, hb, hv.trans (rnd_rep h1)⟩

theorem rep_eps : Rep (2 ^ (-52 : ℤ)) := ⟨1, -52, by norm_num, by norm_num, by norm_num⟩

theorem epsilon_fin : epsilon = fin Bisect.epsilon := ofQ_of_eq Bisect.epsilon rfl

theorem small_fin {q : ℚ} (h : Rep q) (hq : |q| ≤ 2 ^ 20) : ∃ a, ofQ q = fin a ∧ a.val = q := by
  have h2 : |q| < 2 ^ 1024 := lt_of_le_of_lt hq (pow_lt_pow_right₀ (by norm_num) (by norm_num))
  obtain ⟨b, hb, hv⟩ := ofQ_fin (q := q) (by rw [rnd_rep h]; exact h2)
  exact ⟨b, hb, hv.trans (rnd_rep h)⟩

theorem tolerance_fin : ∃ a, tolerance = fin a ∧ a.val = 42 * 2 ^ (-52 : ℤ) := by
  obtain ⟨a, ha, hv⟩ := small_fin (q := 42) ⟨42, 0, by norm_num, by norm_num, by norm_num⟩ (by rw [abs_of_pos (by norm_num)]; norm_num)
  obtain ⟨b, hb, hw⟩ := small_fin (q := 42 * 2 ^ (-52 : ℤ)) ⟨42, -52, by norm_num, by norm_num, by norm_num⟩ (by
    rw [abs_of_pos (by positivity)]; norm_num)
  refine ⟨b, ?_, hw⟩
  unfold tolerance X64.ofNat
  rw [epsilon_fin, show ((42 : ℕ) : ℚ) = 42 by norm_num, ha]
  show ofQ (a.val * Bisect.epsilon.val) = _
  rw [hv, Bisect.epsilon_val, hb]

theorem tolerance_sq : ∃ a, tolerance.mul tolerance = fin a ∧ a.val = Bisect.tol := by
  obtain ⟨a, ha, hv⟩ := tolerance_fin
  obtain ⟨b, hb, hw⟩ := small_fin (q := Bisect.tol) ⟨1764, -104, by rw [Bisect.tol_val]; norm_num, by norm_num, by norm_num⟩ (by
    rw [Bisect.tol_val, abs_of_pos (by positivity)]; norm_num)
  refine ⟨b, ?_, hw⟩
  rw [ha]
  show ofQ (a.val * a.val) = _
  rw [hv, ← pow_two, ← Bisect.tol_val, hb]

theorem tol_pos : 0 < Bisect.tol := by rw [Bisect.tol_val]; positivity

theorem close_fin (a : F64) : close (fin a) zero = decide (Bisect.closeZero a) := by
  obtain ⟨t, ht, hv⟩ := tolerance_sq
  unfold close Bisect.closeZero
  have h1 : eq (fin a) zero = decide (a.val = 0) := rfl
  rw [h1]
  by_cases h : a.val = 0
  · simp [h]
  · have h2 : (fin a).mul zero = zero := by
      show ofQ (a.val * 0) = _
      rw [mul_zero, ofQ_zero]
    have h3 : (fin a).sub zero = fin a := by
      show (fin a).sub (fin F64.zero) = _
      rw [sub_fin]
      exact ofQ_of_eq a (sub_zero _)
    obtain ⟨b, hb, hbv⟩ := abs_fin a
    rw [h2, h3, ht, hb]
    have h4 : eq zero zero = true := by show decide ((0 : ℚ) = 0) = true; simp
    simp only [h, h4, decide_false, Bool.false_eq_true, if_false, if_true, false_or]
    show decide (b.val < t.val) = _
    rw [hbv, hv]

theorem close_inf (s : Bool) : close (inf s) zero = false := by
  obtain ⟨t, ht, hv⟩ := tolerance_fin
  have hz : abs zero = zero := by
    obtain ⟨b, hb, hbv⟩ := abs_fin F64.zero
    exact hb.trans (congrArg fin (F64.ext (hbv.trans abs_zero)))
  unfold close
  have h1 : eq (inf s) zero = false := by cases s <;> rfl
  have h2 : (inf s).mul zero = nan := by
    show (if F64.zero.val = 0 then nan else inf (s != decide (F64.zero.val < 0))) = nan
    exact if_pos rfl
  have h3 : (inf s).sub zero = inf s := by
    obtain ⟨b, hb, _⟩ := neg_fin F64.zero
    show (inf s).add (fin F64.zero).neg = _
    rw [hb]; rfl
  have h5 : t.val ≠ 0 := by rw [hv]; positivity
  have h4 : tolerance.mul (abs zero) = zero := by
    rw [hz, ht]
    show ofQ (t.val * 0) = zero
    rw [mul_zero, ofQ_zero]
  rw [h1, h2, h3, h4]
  have h6 : eq nan zero = false := rfl
  rw [h6]
  have h7 : le (abs (inf s)) zero = false := rfl
  simp only [h7, Bool.and_false, Bool.false_eq_true, if_false]

theorem close_nan : close nan zero = false := by
  unfold close
  have h3 : (nan).sub zero = nan := nan_sub _
  rw [nan_mul, h3]
  have h6 : eq nan zero = false := rfl
  rw [h6]
  simp [abs, nan_le]

/-- Close to zero: finite and below the tolerance. -/
theorem close_iff (x : X64) : close x zero = true ↔ ∃ a, x = fin a ∧ Bisect.closeZero a := by
  cases x with
  | fin a => rw [close_fin, decide_eq_true_iff]; exact ⟨fun h => ⟨a, rfl, h⟩, fun ⟨b, hb, h⟩ => by cases hb; exact h⟩
  | inf s => rw [close_inf]; exact ⟨fun h => by simp at h, fun ⟨b, hb, _⟩ => by simp at hb⟩
  | nan => rw [close_nan]; exact ⟨fun h => by simp at h, fun ⟨b, hb, _⟩ => by simp at hb⟩

theorem le_mul_fin (a b : F64) : le ((fin a).mul (fin b)) zero = decide (rnd (a.val * b.val) ≤ 0) := by
  show le (ofQ (a.val * b.val)) zero = _
  by_cases h : |rnd (a.val * b.val)| < 2 ^ 1024
  · obtain ⟨c, hc, hv⟩ := ofQ_fin h
    rw [hc, ← hv]; rfl
  · rw [ofQ_inf h]
    show (decide (a.val * b.val < 0) : Bool) = _
    generalize a.val * b.val = q at *
    apply decide_eq_decide.2
    constructor
    · intro hq
      exact rnd_le rep_zero hq.le
    · intro hq
      by_contra hc
      have h2 := le_antisymm hq (rnd_nonneg (not_lt.1 hc))
      rw [h2, abs_zero] at h
      exact h (by positivity)

/-- A nonpositive product tells the signs apart, unless one of the values is nearly zero. -/
theorem opposite {x y : X64} (h : le (x.mul y) zero = true) (hx : close x zero = false) (hy : close y zero = false) :
    (x.lt zero = true ∧ zero.lt y = true) ∨ (zero.lt x = true ∧ y.lt zero = true) := by
  have key : ∀ (a : F64), close (fin a) zero = false → a.val < 0 ∨ 0 < a.val := by
    intro a ha
    rcases lt_trichotomy a.val 0 with h | h | h
    · exact Or.inl h
    · rw [(close_iff _).2 ⟨a, rfl, Or.inl h⟩] at ha; simp at ha
    · exact Or.inr h
  cases x with
  | nan => rw [nan_mul, nan_le] at h; simp at h
  | fin a =>
    cases y with
    | nan => rw [mul_nan, nan_le] at h; simp at h
    | fin b =>
      rw [le_mul_fin, decide_eq_true_iff] at h
      rw [close_fin, decide_eq_false_iff_not] at hx hy
      rcases Bisect.signs h hx hy with ⟨h1, h2⟩ | ⟨h1, h2⟩
      · exact Or.inl ⟨decide_eq_true h1, decide_eq_true h2⟩
      · exact Or.inr ⟨decide_eq_true h1, decide_eq_true h2⟩
    | inf t =>
      have ha := key a hx
      rcases ha with ha | ha
      · have h1 : (fin a).mul (inf t) = inf (t != true) := by
          show (if a.val = 0 then nan else inf (t != decide (a.val < 0))) = _
          rw [if_neg ha.ne, decide_eq_true ha]
        rw [h1] at h
        cases t with
        | true => simp [le, zero] at h
        | false => exact Or.inl ⟨decide_eq_true ha, rfl⟩
      · have h1 : (fin a).mul (inf t) = inf (t != false) := by
          show (if a.val = 0 then nan else inf (t != decide (a.val < 0))) = _
          rw [if_neg ha.ne', decide_eq_false (not_lt.2 ha.le)]
        rw [h1] at h
        cases t with
        | false => simp [le, zero] at h
        | true => exact Or.inr ⟨decide_eq_true ha, rfl⟩
  | inf s =>
    cases y with
    | nan => rw [mul_nan, nan_le] at h; simp at h
    | fin b =>
      rcases key b hy with hb | hb
      · have h1 : (inf s).mul (fin b) = inf (s != true) := by
          show (if b.val = 0 then nan else inf (s != decide (b.val < 0))) = _
          rw [if_neg hb.ne, decide_eq_true hb]
        rw [h1] at h
        cases s with
        | true => simp [le, zero] at h
        | false => exact Or.inr ⟨rfl, decide_eq_true hb⟩
      · have h1 : (inf s).mul (fin b) = inf (s != false) := by
          show (if b.val = 0 then nan else inf (s != decide (b.val < 0))) = _
          rw [if_neg hb.ne', decide_eq_false (not_lt.2 hb.le)]
        rw [h1] at h
        cases s with
        | false => simp [le, zero] at h
        | true => exact Or.inl ⟨rfl, decide_eq_true hb⟩
    | inf t =>
      cases s <;> cases t
      · simp [X64.mul, le, zero] at h
      · exact Or.inr ⟨rfl, rfl⟩
      · exact Or.inl ⟨rfl, rfl⟩
      · simp [X64.mul, le, zero] at h

theorem product_of_opposite {x y : X64} (hx : x.lt zero = true) (hy : zero.lt y = true) : le (x.mul y) zero = true := by
  cases x with
  | nan => simp [nan_lt] at hx
  | fin a =>
    have ha : a.val < 0 := of_decide_eq_true hx
    cases y with
    | nan => simp [lt_nan] at hy
    | fin b =>
      have hb : 0 < b.val := of_decide_eq_true hy
      rw [le_mul_fin, decide_eq_true_iff]
      exact rnd_le rep_zero (mul_nonpos_of_nonpos_of_nonneg ha.le hb.le)
    | inf t =>
      have h1 : (fin a).mul (inf t) = inf (t != true) := by
        show (if a.val = 0 then nan else inf (t != decide (a.val < 0))) = _
        rw [if_neg ha.ne, decide_eq_true ha]
      rw [h1]
      cases t with
      | true => simp [X64.lt, zero] at hy
      | false => rfl
  | inf s =>
    cases s with
    | false => simp [X64.lt, zero] at hx
    | true =>
      cases y with
      | nan => simp [lt_nan] at hy
      | fin b =>
        have hb : 0 < b.val := of_decide_eq_true hy
        have h1 : (inf true).mul (fin b) = inf (true != false) := by
          show (if b.val = 0 then nan else inf (true != decide (b.val < 0))) = _
          rw [if_neg hb.ne', decide_eq_false (not_lt.2 hb.le)]
        rw [h1]; rfl
      | inf t =>
        cases t with
        | true => simp [X64.lt, zero] at hy
        | false => rfl

/-! ## The search for a bracket -/

/-- The bracket holds the values of the objective at its ends. -/
structure Good (f : X64 → X64) (b : Bracket) : Prop where
  lo : b.yMin = f b.xMin
  hi : b.yMax = f b.xMax

theorem start_good (f : X64 → X64) (c : Config) (guess : X64) : Good f (start f c guess) := by
  unfold start
  split_ifs
  · exact ⟨rfl, rfl⟩
  · exact ⟨rfl, rfl⟩

theorem pass_good {f : X64 → X64} {c : Config} {flip flip' : Bool} {b b' : Bracket} (hb : Good f b)
    (h : pass f c flip b = .again flip' b' ∨ pass f c flip b = .skip b') : Good f b' := by
  have h1 : Good f (b.down f c) := ⟨rfl, hb.hi⟩
  have h2 : Good f (b.up f c) := ⟨hb.lo, rfl⟩
  unfold pass at h
  split_ifs at h <;> simp only [Next.again.injEq, Next.skip.injEq, or_false, false_or] at h
  · exact h.2 ▸ h1
  · exact h.2 ▸ h2
  · exact h ▸ h1
  · exact h.2 ▸ h2

theorem pass_stop {f : X64 → X64} {c : Config} {flip : Bool} {b : Bracket} {r : Ret} (hb : Good f b)
    (h : pass f c flip b = .stop r) : ∃ x, r = .found x ∧ close (f x) zero = true := by
  unfold pass at h
  split_ifs at h with h1 h2 h3
  · exact ⟨_, (Next.stop.inj h).symm, hb.lo ▸ h2⟩
  · exact ⟨_, (Next.stop.inj h).symm, hb.hi ▸ h3⟩

theorem pass_refine {f : X64 → X64} {c : Config} {flip : Bool} {b : Bracket}
    (h : pass f c flip b = .refine) : le (b.yMin.mul b.yMax) zero = true ∧ close b.yMin zero = false ∧ close b.yMax zero = false := by
  unfold pass at h
  split_ifs at h with h1 h2 h3
  exact ⟨h1, by simpa using h2, by simpa using h3⟩

/-- What `solve` returns was found near zero, or comes from the method working on a bracket with a sign change. -/
theorem search_cases (f : X64 → X64) (c : Config) (impl : Bracket → ℕ → Ret) :
    ∀ n flip b, Good f b → (search (pass f c) impl n flip b = .gaveUp ∨
      (∃ x, search (pass f c) impl n flip b = .found x ∧ close (f x) zero = true) ∨
      ∃ b' k, Good f b' ∧ search (pass f c) impl n flip b = impl b' k ∧ le (b'.yMin.mul b'.yMax) zero = true ∧
        close b'.yMin zero = false ∧ close b'.yMax zero = false) := by
  intro n
  induction n using Nat.strong_induction_on with
  | _ n ih =>
    intro flip b hb
    cases n with
    | zero => exact Or.inl rfl
    | succ n =>
      unfold search
      cases hp : pass f c flip b with
      | stop r =>
        obtain ⟨x, h1, h2⟩ := pass_stop hb hp
        exact Or.inr (Or.inl ⟨x, h1, h2⟩)
      | refine =>
        obtain ⟨h1, h2, h3⟩ := pass_refine hp
        exact Or.inr (Or.inr ⟨b, n + 1, hb, rfl, h1, h2, h3⟩)
      | again flip' b' => exact ih n (by omega) flip' b' (pass_good hb (Or.inl hp))
      | skip b' =>
        cases n with
        | zero => exact Or.inl rfl
        | succ n => exact ih n (by omega) true b' (pass_good (flip' := true) hb (Or.inr hp))

theorem solve_cases {f : X64 → X64} {c : Config} {guess r : X64} {impl : X64 → Bracket → ℕ → Ret}
    (h : solve f c guess impl = .found r) : close (f r) zero = true ∨
      ∃ b k, Good f b ∧ impl (c.accuracy.max epsilon) b k = .found r ∧ zero.lt c.accuracy = true ∧
        ((b.yMin.lt zero = true ∧ zero.lt b.yMax = true) ∨ (zero.lt b.yMin = true ∧ b.yMax.lt zero = true)) := by
  unfold solve at h
  split_ifs at h with h1 h2
  · cases h; exact Or.inl h2
  · rcases search_cases f c (impl (c.accuracy.max epsilon)) (maxIterations - 1) false _ (start_good f c guess) with
      h3 | ⟨x, h3, h4⟩ | ⟨b, k, h3, h4, h5, h6, h7⟩
    · rw [h3] at h; cases h
    · rw [h3] at h; cases h; exact Or.inl h4
    · exact Or.inr ⟨b, k, h3, h4 ▸ h, h1, opposite h5 h6 h7⟩

end Verif.Float.Solve
