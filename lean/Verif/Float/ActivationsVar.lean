import Verif.Float.ActivationsProps
import Verif.Float.TapeProps

/-!
# C109: activation functions of `Variable` in double precision
-/

namespace Verif.Float.Activation

open X64 Nan Verif.Float.Sim Verif.Float.Laws
open Verif.ML (Act)

theorem minus_one : ∃ i : F64, ofQ (-1) = fin i ∧ i.val = -1 := by
  have e : (toF64 (-1)).map F64.val = some (-1) := by decide +kernel
  obtain ⟨a, a1, a2⟩ := Option.map_eq_some_iff.1 e
  exact ⟨a, fin_of a1, a2⟩

theorem mul_minus_one (x : X64) : x.mul (ofQ (-1)) = x.neg := by
  obtain ⟨i, i1, i2⟩ := minus_one
  rw [i1]
  cases x with
  | fin a =>
    change ofQ (a.val * i.val) = ofQ (-a.val)
    rw [i2, mul_neg_one]
  | inf s => cases s <;> simp [X64.mul, X64.neg, i2]
  | nan => rfl

theorem add_swap (x y : X64) : x.add y = y.add x := by
  cases x <;> cases y <;> simp [X64.add, _root_.add_comm]
  case inf.inf s t => cases s <;> cases t <;> simp

/-- The graph after `sigmoid`. -/
theorem sigmoidV_run (l : Lib) (g : Tape.Graph) (x : Tape.Var) :
    sigmoidV l g x = some (g ++ [⟨ofQ (-1), zero, x.index, x.index⟩] ++ [⟨l.exp x.value.neg, zero, g.length, g.length + 1⟩] ++
      [⟨ofQ 1, zero, g.length + 1, g.length + 1⟩] ++
      [⟨(Tape.recip (((ofQ 1).add (l.exp x.value.neg)).mul ((ofQ 1).add (l.exp x.value.neg)))).neg, zero, g.length + 2, g.length + 3⟩],
      ⟨g.length + 3, sigmoid l x.value⟩) := by
  simp [sigmoidV, Tape.negV, Tape.mulVF, Tape.expV, Tape.addVF, Tape.recipV, Tape.push, mul_minus_one, Lib.tape, Tape.recip, sigmoid,
    add_swap _ (ofQ 1)]

/-- The graph after `softplus`. -/
theorem softplusV_run (l : Lib) (g : Tape.Graph) (x : Tape.Var) :
    softplusV l g x = some (g ++ [⟨l.exp x.value, zero, x.index, g.length⟩] ++ [⟨ofQ 1, zero, g.length, g.length⟩] ++
      [⟨Tape.recip ((ofQ 1).add (l.exp x.value)), zero, g.length + 1, g.length + 2⟩],
      ⟨g.length + 2, softplus l x.value⟩) := by
  simp [softplusV, Tape.expV, Tape.addVF, Tape.lnV, Tape.push, Lib.tape, softplus, add_swap _ (ofQ 1)]

/-- C109: on `Variable`, `sigmoid` and `softplus` have the same value as on `f64`, whatever the value, and in any graph. -/
theorem C109_variable_values (l : Lib) (g : Tape.Graph) (x : Tape.Var) :
    (∃ g' z, sigmoidV l g x = some (g', z) ∧ z.value = sigmoid l x.value) ∧
    (∃ g' z, softplusV l g x = some (g', z) ∧ z.value = softplus l x.value) :=
  ⟨⟨_, _, sigmoidV_run l g x, rfl⟩, ⟨_, _, softplusV_run l g x, rfl⟩⟩

/-- C109 (defect): from -710 down, the derivative of the sigmoid of an input is NaN. The mathematical derivative is positive and below
`exp (-710)`. -/
theorem C109_sigmoid_gradient (l : Lib) (ε : ℝ) (hl : l.Good ε) (g : Tape.Graph) (hg : Tape.Built g) (x : Tape.Var)
    (hx : Tape.IsInput g x.index) (a : F64) (hv : x.value = fin a) (ha : a.val ≤ -710) :
    (∃ g' z adj, sigmoidV l g x = some (g', z) ∧ z.value = zero ∧ Tape.accumulate g' z = some adj ∧ Tape.wrt adj x = some nan) ∧
    ∃ d, HasDerivAt Act.sigmoid.math d (F64.real a) ∧ 0 < d ∧ d ≤ Real.exp (-710) := by
  constructor
  · obtain ⟨m, m1, m2⟩ := X64.neg_fin a
    have hinf : l.exp x.value.neg = inf false := by
      rw [hv, m1]
      exact hl.exp_over m (by rw [m2]; linarith)
    have hxl := hx.1
    have b1 := Tape.built_binary hg hx.1 hx.1 (ofQ (-1)) zero
    have b2 := Tape.built_unary b1 (i := g.length) (by simp) (l.exp x.value.neg)
    have b3 := Tape.built_binary b2 (i := g.length + 1) (j := g.length + 1) (by simp) (by simp) (ofQ 1) zero
    have b4 := Tape.built_unary b3 (i := g.length + 2) (by simp)
      (Tape.recip (((ofQ 1).add (l.exp x.value.neg)).mul ((ofQ 1).add (l.exp x.value.neg)))).neg
    simp only [List.length_append, List.length_cons, List.length_nil, _root_.zero_add] at b2 b3 b4
    have hrun := sigmoidV_run l g x
    have hin : Tape.IsInput (g ++ [⟨ofQ (-1), zero, x.index, x.index⟩] ++ [⟨l.exp x.value.neg, zero, g.length, g.length + 1⟩] ++
      [⟨ofQ 1, zero, g.length + 1, g.length + 1⟩] ++
      [⟨(Tape.recip (((ofQ 1).add (l.exp x.value.neg)).mul ((ofQ 1).add (l.exp x.value.neg)))).neg, zero, g.length + 2, g.length + 3⟩])
        x.index := Tape.input_append (Tape.input_append (Tape.input_append (Tape.input_append hx)))
    obtain ⟨adj, h1, h2⟩ := Tape.C108_contaminates _ b4 ⟨g.length + 3, sigmoid l x.value⟩ (by simp) (g.length + 1) g.length
      (l.exp x.value.neg) ⟨_, by simp; rfl, by omega, .inl ⟨rfl, rfl⟩⟩ (by rw [hinf]; nofun) x hin
      (.step (p := ofQ (-1)) .refl ⟨_, by simp; rfl, hxl, .inl ⟨rfl, rfl⟩⟩)
    refine ⟨_, _, adj, hrun, ?_, h1, h2⟩
    change (ofQ 1).div ((ofQ 1).add (l.exp x.value.neg)) = zero
    rw [hinf]
    obtain ⟨i, i1, -⟩ := one_fin
    rw [i1]; rfl
  · obtain ⟨h0, h1, -, -, -, hd, -⟩ := Verif.ML.C74_sigmoid (F64.real a)
    refine ⟨_, hd, mul_pos h0 (by linarith), ?_⟩
    have h2 : Act.sigmoid.f64 (F64.real a) * (1 - Act.sigmoid.f64 (F64.real a)) ≤ Act.sigmoid.f64 (F64.real a) := by nlinarith
    refine h2.trans ?_
    have h3 : F64.real a ≤ -710 := by unfold F64.real; exact_mod_cast ha
    change 1 / (1 + Real.exp (-F64.real a)) ≤ _
    rw [Real.exp_neg 710, ← one_div]
    refine one_div_le_one_div_of_le (Real.exp_pos _) ?_
    have := Real.exp_le_exp.2 (show (710 : ℝ) ≤ -F64.real a by linarith)
    linarith

/-- C109 (defect): from 710 on, the value of the softplus of an input is infinite and its derivative NaN. The mathematical derivative is
between 1/2 and 1. -/
theorem C109_softplus_gradient (l : Lib) (ε : ℝ) (hl : l.Good ε) (g : Tape.Graph) (hg : Tape.Built g) (x : Tape.Var)
    (hx : Tape.IsInput g x.index) (a : F64) (hv : x.value = fin a) (ha : 710 ≤ a.val) :
    (∃ g' z adj, softplusV l g x = some (g', z) ∧ z.value = inf false ∧ Tape.accumulate g' z = some adj ∧ Tape.wrt adj x = some nan) ∧
    ∃ d, HasDerivAt Act.softplus.math d (F64.real a) ∧ 1 / 2 ≤ d ∧ d < 1 := by
  constructor
  · have hinf : l.exp x.value = inf false := by rw [hv]; exact hl.exp_over a ha
    have hxl := hx.1
    have b1 := Tape.built_unary hg hx.1 (l.exp x.value)
    have b2 := Tape.built_binary b1 (i := g.length) (j := g.length) (by simp) (by simp) (ofQ 1) zero
    have b3 := Tape.built_unary b2 (i := g.length + 1) (by simp) (Tape.recip ((ofQ 1).add (l.exp x.value)))
    simp only [List.length_append, List.length_cons, List.length_nil, _root_.zero_add] at b2 b3
    have hrun := softplusV_run l g x
    obtain ⟨adj, h1, h2⟩ := Tape.C108_contaminates _ b3 ⟨g.length + 2, softplus l x.value⟩ (by simp) g.length x.index
      (l.exp x.value) ⟨_, by simp; rfl, hxl, .inl ⟨rfl, rfl⟩⟩ (by rw [hinf]; nofun) x
      (Tape.input_append (Tape.input_append (Tape.input_append hx))) .refl
    refine ⟨_, _, adj, hrun, ?_, h1, h2⟩
    rw [hv]
    exact (C109_softplus_overflow l ε hl a ha).1
  · obtain ⟨hd, -⟩ := Verif.ML.C74_relations (F64.real a)
    obtain ⟨-, h1, hm, h2, -⟩ := Verif.ML.C74_sigmoid (F64.real a)
    refine ⟨_, hd, ?_, h1⟩
    rw [← h2]
    have : (0 : ℚ) ≤ a.val := by linarith
    exact hm.monotone (by unfold F64.real; exact_mod_cast this)

/-- C109: on `Variable`, `relu` has the same value as on `f64` for numbers below `2^1023` in size. -/
theorem C109_relu_variable (g : Tape.Graph) (x : Tape.Var) (a : F64) (hv : x.value = fin a) (ha : |a.val| < 2 ^ 1023) :
    ∃ g' z, reluV g x = some (g', z) ∧ z.value = relu (fin a) := by
  obtain ⟨h, h1, h2⟩ := half_fin
  obtain ⟨w, w1, w2⟩ := two_fin
  obtain ⟨i, i1, i2⟩ := one_fin
  have hrec : Tape.recip (ofQ 2) = fin h := by
    unfold Tape.recip
    rw [w1, i1]
    change (if w.val = 0 then _ else ofQ (i.val / w.val)) = _
    rw [if_neg (by rw [w2]; norm_num), i2, w2, h1]
  refine ⟨_, _, rfl, ?_⟩
  change (x.value.add (abs x.value)).mul (Tape.recip (ofQ 2)) = _
  rw [hv, hrec]
  unfold relu
  obtain ⟨c, c1, c2⟩ : ∃ c : F64, abs (fin a) = fin c ∧ c.val = |a.val| := by
    change ∃ c : F64, ofQ |a.val| = fin c ∧ _
    rcases abs_choice a.val with e | e
    · exact ⟨a, by rw [e, ofQ_val], e.symm⟩
    · obtain ⟨m, m1, m2⟩ := X64.neg_fin a
      exact ⟨m, by rw [e]; exact m1, by rw [m2, e]⟩
  rw [c1]
  by_cases hp : 0 < a.val
  · rw [if_pos ((zero_lt_fin a).2 hp)]
    rw [abs_of_pos hp] at c2 ha
    have hr : Rep (a.val + c.val) := by rw [c2, ← two_mul]; exact rep_double a.rep
    have hlt : a.val + c.val < 2 ^ 1024 := by
      rw [c2, pow_succ]
      generalize (2 : ℚ) ^ 1023 = T at *
      linarith
    obtain ⟨s, s1, s2⟩ := ofQ_fin (q := a.val + c.val) (by rw [rnd_rep hr, abs_of_pos (by rw [c2]; linarith)]; exact hlt)
    change (ofQ (a.val + c.val)).mul (fin h) = _
    rw [s1]
    exact ofQ_of_eq a (by rw [s2, rnd_rep hr, c2, h2]; ring)
  · rw [if_neg (by rw [zero_lt_fin]; exact hp)]
    rw [abs_of_nonpos (not_lt.1 hp)] at c2
    change (ofQ (a.val + c.val)).mul (fin h) = _
    rw [c2, add_neg_cancel, ← zero_eq]
    change ofQ (0 * h.val) = _
    rw [zero_mul, zero_eq]

/-- C109 (defect): on `Variable`, `relu` of numbers from `2^1023` on is infinite, and `relu` of minus infinity is NaN. -/
theorem C109_relu_overflow (g : Tape.Graph) (x : Tape.Var) :
    (∀ a : F64, x.value = fin a → 2 ^ 1023 ≤ a.val → ∃ g' z, reluV g x = some (g', z) ∧ z.value = inf false) ∧
    (x.value = inf true → ∃ g' z, reluV g x = some (g', z) ∧ z.value = nan) := by
  constructor
  · intro a hv ha
    obtain ⟨h, h1, h2⟩ := half_fin
    obtain ⟨w, w1, w2⟩ := two_fin
    obtain ⟨i, i1, i2⟩ := one_fin
    have hrec : Tape.recip (ofQ 2) = fin h := by
      unfold Tape.recip
      rw [w1, i1]
      change (if w.val = 0 then _ else ofQ (i.val / w.val)) = _
      rw [if_neg (by rw [w2]; norm_num), i2, w2, h1]
    have hp : 0 < a.val := lt_of_lt_of_le (by positivity) ha
    refine ⟨_, _, rfl, ?_⟩
    change (x.value.add (abs x.value)).mul (Tape.recip (ofQ 2)) = _
    rw [hv, hrec]
    have c1 : abs (fin a) = fin a := by
      change ofQ |a.val| = _
      rw [abs_of_pos hp, ofQ_val]
    rw [c1]
    change (ofQ (a.val + a.val)).mul (fin h) = _
    have hr : Rep (a.val + a.val) := by rw [← two_mul]; exact rep_double a.rep
    have hbig : ¬ |rnd (a.val + a.val)| < 2 ^ 1024 := by
      rw [rnd_rep hr, abs_of_pos (add_pos hp hp), not_lt, pow_succ]
      generalize (2 : ℚ) ^ 1023 = T at *
      linarith
    rw [ofQ_inf hbig, decide_eq_false (not_lt.2 (add_pos hp hp).le)]
    simp [X64.mul, h2]
  · intro hv
    refine ⟨_, _, rfl, ?_⟩
    change (x.value.add (abs x.value)).mul (Tape.recip (ofQ 2)) = _
    rw [hv]
    rfl

theorem lit_op {p q : ℚ} {a b c : F64} (ha : a.val = p) (hb : b.val = q) :
    (c.val = p * q → (fin a).mul (fin b) = fin c) ∧ (c.val = p + q → (fin a).add (fin b) = fin c) :=
  ⟨fun h => ofQ_of_eq c (by rw [ha, hb, h]), fun h => ofQ_of_eq c (by rw [ha, hb, h])⟩

/-- C109: the derivative of `relu` with respect to its argument, a variable of its own graph, is exactly 1 for positive numbers and 0 for
negative ones (and 1 at zero). -/
theorem C109_relu_gradient (a : F64) :
    ∃ g x g' z adj, Tape.var [] (fin a) = some (g, x) ∧ reluV g x = some (g', z) ∧ Tape.accumulate g' z = some adj ∧
      Tape.wrt adj x = some (if a.val < 0 then zero else ofQ 1) := by
  obtain ⟨h, h1, h2⟩ := half_fin
  obtain ⟨w, w1, w2⟩ := two_fin
  obtain ⟨i, i1, i2⟩ := one_fin
  obtain ⟨m, m1, m2⟩ := minus_one
  obtain ⟨n, n1, n2⟩ := X64.neg_fin h
  have hrec : Tape.recip (ofQ 2) = fin h := by
    unfold Tape.recip
    rw [w1, i1]
    change (if w.val = 0 then _ else ofQ (i.val / w.val)) = _
    rw [if_neg (by rw [w2]; norm_num), i2, w2, h1]
  have hz : F64.zero.val = 0 := rfl
  have o1 : (fin h).mul (fin i) = fin h := (lit_op h2 i2).1 (by rw [h2]; norm_num)
  have o2 : (fin i).mul (fin h) = fin h := (lit_op i2 h2).1 (by rw [h2]; norm_num)
  have o3 : (fin F64.zero).mul (fin i) = fin F64.zero := (lit_op hz i2).1 (by rw [hz]; norm_num)
  have o4 : (fin F64.zero).mul (fin h) = fin F64.zero := (lit_op hz h2).1 (by rw [hz]; norm_num)
  have o5 : (fin F64.zero).mul (fin F64.zero) = fin F64.zero := (lit_op hz hz).1 (by rw [hz]; norm_num)
  have o6 : (fin m).mul (fin h) = fin n := (lit_op m2 h2).1 (by rw [n2, h2]; norm_num)
  have o7 : (fin F64.zero).add (fin h) = fin h := (lit_op hz h2).2 (by rw [h2]; norm_num)
  have o8 : (fin h).add (fin F64.zero) = fin h := (lit_op h2 hz).2 (by rw [h2]; norm_num)
  have o9 : (fin h).add (fin h) = fin i := (lit_op h2 h2).2 (by rw [i2]; norm_num)
  have o10 : (fin h).add (fin n) = fin F64.zero := (lit_op h2 (n2.trans (by rw [h2]))).2 (by rw [hz]; norm_num)
  have o11 : (fin i).add (fin F64.zero) = fin i := (lit_op i2 hz).2 (by rw [i2]; norm_num)
  have o12 : (fin F64.zero).add (fin F64.zero) = fin F64.zero := (lit_op hz hz).2 (by rw [hz]; norm_num)
  refine ⟨_, _, _, _, _, rfl, rfl, rfl, ?_⟩
  by_cases ha : a.val < 0
  · simp [Tape.wrt, Tape.sweep, Tape.addAt, signum, hrec, ha, i1, m1, zero, o1, o2, o3, o4, o5, o6, o7, o8, o9, o10, o11, o12]
  · simp [Tape.wrt, Tape.sweep, Tape.addAt, signum, hrec, ha, i1, m1, zero, o1, o2, o3, o4, o5, o6, o7, o8, o9, o10, o11, o12]

example := C109_relu_gradient F64.one

end Verif.Float.Activation
