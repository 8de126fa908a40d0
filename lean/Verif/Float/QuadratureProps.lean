import Verif.Float.Quadrature
import Verif.Float.SumProps
import Verif.Math.QuadratureProps

/-!
# Tanh-sinh quadrature in double precision (C92)
-/

namespace Verif.Float

open Verif.Math.Quadrature (weights abscissae rule dec)

/-- The distance of a rounded node from the exact one, on an interval within `[-B, B]`. -/
noncomputable def nodeError (B : ℝ) : ℝ := 2 ^ (-49 : ℤ) * B + 2 ^ (-1072 : ℤ)

theorem dec_decimal (p : ℤ × ℕ) : dec p = ((decimal p : ℚ) : ℝ) := by
  unfold dec decimal
  push_cast
  rfl

/-- The underflow error of one operation. -/
noncomputable def eta : ℝ := 2 ^ (-1075 : ℤ)

theorem eta_pos : 0 < eta := by unfold eta; positivity

theorem eta_small : eta ≤ 1 / 2 ^ 200 := by
  unfold eta
  rw [show (1 : ℝ) / 2 ^ 200 = 2 ^ (-200 : ℤ) by norm_num]
  exact zpow_le_zpow_right₀ (by norm_num) (by norm_num)

theorem rnd_real (q : ℚ) : |((rnd q : ℚ) : ℝ) - q| ≤ 1 / 2 ^ 53 * |(q : ℝ)| + eta := by
  have h := rnd_error' q
  rw [abs_sub_comm] at h
  have : (((|rnd q - q| : ℚ)) : ℝ) ≤ ((u * |q| + 2 ^ (-1075 : ℤ) : ℚ) : ℝ) := by exact_mod_cast h
  unfold u at this
  push_cast at this
  unfold eta
  refine this.trans (le_of_eq ?_)
  norm_num

theorem finite_of_le (q : ℚ) (h : |(q : ℝ)| ≤ 2 ^ 250) : ∃ r, toF64 q = some r ∧ r.val = rnd q := by
  have h' : |q| ≤ 2 ^ 250 := by exact_mod_cast h
  have hr : Rep ((2 : ℚ) ^ (250 : ℤ)) := ⟨1, 250, by norm_num, by norm_num, by norm_num⟩
  refine toF64_isSome (lt_of_le_of_lt (rnd_abs_le hr (h'.trans (le_of_eq ?_))) ?_)
  · exact (zpow_natCast (2 : ℚ) 250).symm
  · rw [show (2 : ℚ) ^ 1024 = 2 ^ (1024 : ℤ) from (zpow_natCast (2 : ℚ) 1024).symm, zpow_lt_iff]
    norm_num

/-- One operation on reals: finite, with its error. -/
theorem op_real (q : ℚ) (h : |(q : ℝ)| ≤ 2 ^ 250) :
    ∃ r, toF64 q = some r ∧ |(r.val : ℝ) - q| ≤ 1 / 2 ^ 53 * |(q : ℝ)| + eta := by
  obtain ⟨r, h1, h2⟩ := finite_of_le q h
  exact ⟨r, h1, by rw [h2]; exact rnd_real q⟩

theorem half_exact : ∃ r, toF64 0.5 = some r ∧ r.val = 1 / 2 := ⟨(toF64 0.5).getD F64.zero, by decide +kernel, by decide +kernel⟩

/-- Half of a rounded number. -/
theorem half_real (x : ℚ) (h : |(x : ℝ)| ≤ 2 ^ 200) :
    ∃ s r h, toF64 x = some s ∧ toF64 0.5 = some h ∧ h.mul s = some r ∧ |(r.val : ℝ) - x / 2| ≤ 3 / 2 ^ 53 * |(x : ℝ) / 2| + 2 * eta := by
  have hη := eta_pos
  have hη2 := eta_small
  obtain ⟨s, h1, h2⟩ := op_real x (by norm_num at h ⊢; linarith)
  obtain ⟨k, k1, k2⟩ := half_exact
  have hs : |(s.val : ℝ)| ≤ |(x : ℝ)| + (1 / 2 ^ 53 * |(x : ℝ)| + eta) := by
    have := abs_sub_abs_le_abs_sub (s.val : ℝ) x
    linarith
  have hc : ((k.val * s.val : ℚ) : ℝ) = (s.val : ℝ) / 2 := by rw [k2]; push_cast; ring
  have ha : |(s.val : ℝ) / 2| = |(s.val : ℝ)| / 2 := by rw [abs_div]; norm_num
  obtain ⟨r, r1, r2⟩ := op_real (k.val * s.val) (by
    rw [hc, ha]
    norm_num at hs h hη2 ⊢
    linarith)
  refine ⟨s, r, k, h1, k1, r1, ?_⟩
  rw [hc, ha] at r2
  have h3 := abs_sub_le (r.val : ℝ) ((s.val : ℝ) / 2) (x / 2)
  have h4 : |(s.val : ℝ) / 2 - x / 2| = |(s.val : ℝ) - x| / 2 := by rw [← sub_div, abs_div]; norm_num
  have h5 : |(x : ℝ) / 2| = |(x : ℝ)| / 2 := by rw [abs_div]; norm_num
  rw [h4] at h3
  rw [h5]
  have := abs_nonneg (x : ℝ)
  norm_num at h2 hs r2 ⊢
  linarith

/-- The nodes: finite, and close to the exact ones. -/
theorem node_real (c d t : F64) (c0 d0 t0 B : ℝ) (hB : B ≤ 2 ^ 100) (hc0 : |c0| ≤ B) (hd0 : |d0| ≤ B) (ht0 : |t0| ≤ 1)
    (hc : |(c.val : ℝ) - c0| ≤ 3 / 2 ^ 53 * B + 2 * eta) (hd : |(d.val : ℝ) - d0| ≤ 3 / 2 ^ 53 * B + 2 * eta)
    (ht : |(t.val : ℝ) - t0| ≤ 1 / 2 ^ 53 + eta) :
    ∃ p x, c.mul t = some p ∧ p.add d = some x ∧ |(x.val : ℝ) - (c0 * t0 + d0)| ≤ nodeError B := by
  have hη := eta_pos
  have hη2 := eta_small
  have B0 : 0 ≤ B := (abs_nonneg _).trans hc0
  have hC : |(c.val : ℝ)| ≤ B + (3 / 2 ^ 53 * B + 2 * eta) := by
    have := abs_sub_abs_le_abs_sub (c.val : ℝ) c0; linarith
  have hD : |(d.val : ℝ)| ≤ B + (3 / 2 ^ 53 * B + 2 * eta) := by
    have := abs_sub_abs_le_abs_sub (d.val : ℝ) d0; linarith
  have hT : |(t.val : ℝ)| ≤ 1 + (1 / 2 ^ 53 + eta) := by
    have := abs_sub_abs_le_abs_sub (t.val : ℝ) t0; linarith
  have Bη : B * eta ≤ 1 / 2 ^ 75 * B := by norm_num at hη2 ⊢; nlinarith
  have ηη : eta * eta ≤ eta := by norm_num at hη2; nlinarith
  have hCT : |(c.val : ℝ)| * |(t.val : ℝ)| ≤ (1 + 5 / 2 ^ 53) * B + 3 * eta := by
    refine (mul_le_mul hC hT (abs_nonneg _) (by positivity)).trans ?_
    norm_num at Bη ⊢
    nlinarith
  obtain ⟨p, p1, p2⟩ := op_real (c.val * t.val) (by
    push_cast
    rw [abs_mul]
    norm_num at hCT hη2 hB ⊢
    linarith)
  push_cast at p2
  rw [abs_mul] at p2
  have hP : |(p.val : ℝ)| ≤ (1 + 7 / 2 ^ 53) * B + 5 * eta := by
    have := abs_sub_abs_le_abs_sub (p.val : ℝ) (c.val * t.val)
    rw [abs_mul] at this
    norm_num at p2 hCT ⊢
    linarith
  have hPD := abs_add_le (p.val : ℝ) (d.val : ℝ)
  obtain ⟨x, x1, x2⟩ := op_real (p.val + d.val) (by
    push_cast
    norm_num at hP hD hη2 hB ⊢
    linarith)
  push_cast at x2
  refine ⟨p, x, p1, x1, ?_⟩
  have s1 : |(c.val : ℝ) * t.val - c0 * t0| ≤ (3 / 2 ^ 53 * B + 2 * eta) * (1 + (1 / 2 ^ 53 + eta)) + B * (1 / 2 ^ 53 + eta) := by
    rw [show (c.val : ℝ) * t.val - c0 * t0 = ((c.val : ℝ) - c0) * t.val + c0 * (t.val - t0) by ring]
    refine (abs_add_le _ _).trans ?_
    rw [abs_mul, abs_mul]
    exact add_le_add (mul_le_mul hc hT (abs_nonneg _) (by positivity)) (mul_le_mul hc0 ht (abs_nonneg _) B0)
  have s2 : |(x.val : ℝ) - (c0 * t0 + d0)| ≤ |(x.val : ℝ) - (p.val + d.val)| + |(p.val : ℝ) - c.val * t.val| +
      |(c.val : ℝ) * t.val - c0 * t0| + |(d.val : ℝ) - d0| := by
    rw [show (x.val : ℝ) - (c0 * t0 + d0) = ((x.val : ℝ) - (p.val + d.val)) + ((p.val : ℝ) - c.val * t.val) +
      ((c.val : ℝ) * t.val - c0 * t0) + ((d.val : ℝ) - d0) by ring]
    refine (abs_add_le _ _).trans (add_le_add_left ((abs_add_le _ _).trans (add_le_add_left (abs_add_le _ _) _)) _)
  have e8 : (2 : ℝ) ^ (-1072 : ℤ) = 8 * eta := by
    unfold eta
    rw [show (-1072 : ℤ) = 3 + (-1075) by norm_num, zpow_add₀ (by norm_num)]
    norm_num
  unfold nodeError
  rw [e8]
  norm_num at s1 s2 x2 p2 hP hD hCT Bη hd ⊢
  nlinarith

/-- One weighted value. -/
theorem term_real (w y : F64) (w0 y0 V e : ℝ) (h0 : 0 ≤ w0) (h1 : w0 ≤ 4) (hV : V ≤ 2 ^ 100) (hw : |(w.val : ℝ) - w0| ≤ 1 / 2 ^ 53 * w0 + eta)
    (hy : |(y.val : ℝ)| ≤ V) (he : |(y.val : ℝ) - y0| ≤ e) :
    ∃ q, w.mul y = some q ∧ |(q.val : ℝ) - w0 * y0| ≤ w0 * (e + 3 / 2 ^ 53 * V) + eta * (1 + 2 * V) ∧
      |(q.val : ℝ)| ≤ w0 * ((1 + 3 / 2 ^ 53) * V) + eta * (1 + 2 * V) := by
  have hη := eta_pos
  have hη2 := eta_small
  have V0 : 0 ≤ V := (abs_nonneg _).trans hy
  have hW : |(w.val : ℝ)| ≤ (1 + 1 / 2 ^ 53) * w0 + eta := by
    have := abs_sub_abs_le_abs_sub (w.val : ℝ) w0
    rw [abs_of_nonneg h0] at this
    linarith
  have hWY : |(w.val : ℝ)| * |(y.val : ℝ)| ≤ ((1 + 1 / 2 ^ 53) * w0 + eta) * V :=
    mul_le_mul hW hy (abs_nonneg _) (by positivity)
  have wV : 0 ≤ w0 * V := mul_nonneg h0 V0
  have wV4 : w0 * V ≤ 4 * V := mul_le_mul_of_nonneg_right h1 V0
  have ηV : 0 ≤ eta * V := mul_nonneg hη.le V0
  have ηV1 : eta * V ≤ V := by norm_num at hη2; nlinarith
  obtain ⟨q, q1, q2⟩ := op_real (w.val * y.val) (by
    push_cast
    rw [abs_mul]
    norm_num at hWY hV ⊢
    nlinarith)
  push_cast at q2
  rw [abs_mul] at q2
  have s1 : |(w.val : ℝ) * y.val - w0 * y0| ≤ (1 / 2 ^ 53 * w0 + eta) * V + w0 * e := by
    rw [show (w.val : ℝ) * y.val - w0 * y0 = ((w.val : ℝ) - w0) * y.val + w0 * (y.val - y0) by ring]
    refine (abs_add_le _ _).trans ?_
    rw [abs_mul, abs_mul, abs_of_nonneg h0]
    exact add_le_add (mul_le_mul hw hy (abs_nonneg _) (by positivity)) (mul_le_mul_of_nonneg_left he h0)
  refine ⟨q, q1, ?_, ?_⟩
  · have := abs_sub_le (q.val : ℝ) (w.val * y.val) (w0 * y0)
    norm_num at q2 s1 hWY ⊢
    nlinarith
  · have := abs_sub_abs_le_abs_sub (q.val : ℝ) (w.val * y.val)
    rw [abs_mul] at this
    norm_num at q2 hWY ⊢
    nlinarith

theorem foldlM_terms {α : Type} (xs : List α) (g : α → Option F64) (q : α → F64) (acc : F64) (h : ∀ x ∈ xs, g x = some (q x)) :
    xs.foldlM (fun s x => do F64.add s (← g x)) acc = (xs.map q).foldlM F64.add acc := by
  induction xs generalizing acc with
  | nil => rfl
  | cons x xs ih =>
    rw [List.foldlM_cons, List.map_cons, List.foldlM_cons, h x List.mem_cons_self]
    show (acc.add (q x) >>= fun s => _) = _
    congr 1
    funext s
    exact ih s fun y hy => h y (List.mem_cons_of_mem _ hy)

theorem tanhsinh_rule (f : F64 → Option F64) : tanhsinh f =
    rule.foldlM (fun s p => do
      let q ← (do (← toF64 (decimal p.1)).mul (← f (← toF64 (decimal p.2))))
      s.add q) F64.zero := by
  unfold tanhsinh
  rw [← Verif.Math.Quadrature.table_rows, List.foldlM_map]
  simp only [bind_assoc]

theorem weights_le_one : ∀ p ∈ rule, p.1.1 ≤ (10 : ℤ) ^ p.1.2 := by decide +kernel

theorem weight_le {p} (hp : p ∈ rule) : dec p.1 ≤ 1 := by
  have h : ((p.1.1 : ℤ) : ℝ) ≤ 10 ^ p.1.2 := by exact_mod_cast weights_le_one p hp
  unfold dec
  rw [div_le_one (by positivity)]
  exact h

/-- The literals are finite, and close to the decimals. -/
theorem literal_weight {p} (hp : p ∈ rule) : ∃ w, toF64 (decimal p.1) = some w ∧ |(w.val : ℝ) - dec p.1| ≤ 1 / 2 ^ 53 * dec p.1 + eta := by
  have h0 := Verif.Math.Quadrature.dec_weight_nonneg hp
  have h1 := weight_le hp
  rw [dec_decimal] at h0 h1 ⊢
  obtain ⟨w, hw, e⟩ := op_real (decimal p.1) (by rw [abs_of_nonneg h0]; norm_num; linarith)
  rw [abs_of_nonneg h0] at e
  exact ⟨w, hw, e⟩

theorem literal_node {p} (hp : p ∈ rule) : |dec p.2| ≤ 1 ∧ ∃ t, toF64 (decimal p.2) = some t ∧ |(t.val : ℝ) - dec p.2| ≤ 1 / 2 ^ 53 + eta := by
  have h0 : |dec p.2| ≤ 1 := abs_le.2 (Verif.Math.Quadrature.dec_node hp)
  refine ⟨h0, ?_⟩
  rw [dec_decimal] at h0 ⊢
  obtain ⟨t, ht, e⟩ := op_real (decimal p.2) (by norm_num; linarith)
  exact ⟨t, ht, by norm_num at e ⊢; linarith⟩

/-- Summing the weighted values. -/
theorem sum_real (q : (ℤ × ℕ) × (ℤ × ℕ) → F64) (y0 : (ℤ × ℕ) × (ℤ × ℕ) → ℝ) (V e : ℝ) (hV0 : 0 ≤ V) (hV : V ≤ 2 ^ 100)
    (h1 : ∀ p ∈ rule, |((q p).val : ℝ) - dec p.1 * y0 p| ≤ dec p.1 * (e + 3 / 2 ^ 53 * V) + eta * (1 + 2 * V))
    (h2 : ∀ p ∈ rule, |((q p).val : ℝ)| ≤ dec p.1 * ((1 + 3 / 2 ^ 53) * V) + eta * (1 + 2 * V)) (he : 0 ≤ e) :
    ∃ s, sum (rule.map q) = some s ∧ |(s.val : ℝ) - (rule.map fun p => dec p.1 * y0 p).sum| ≤ 2.001 * e + 415 / 2 ^ 53 * V + 102 * eta ∧
      |(s.val : ℝ)| ≤ 3 * V + 102 * eta := by
  have key : ∀ l : List ((ℤ × ℕ) × (ℤ × ℕ)), (∀ p ∈ l, p ∈ rule) →
      |((exactSum (l.map q) : ℚ) : ℝ) - (l.map fun p => dec p.1 * y0 p).sum| ≤
        (l.map fun p => dec p.1).sum * (e + 3 / 2 ^ 53 * V) + l.length * (eta * (1 + 2 * V)) ∧
      ((absSum (l.map q) : ℚ) : ℝ) ≤ (l.map fun p => dec p.1).sum * ((1 + 3 / 2 ^ 53) * V) + l.length * (eta * (1 + 2 * V)) := by
    intro l
    induction l with
    | nil => intro _; simp [exactSum, absSum]
    | cons p l ih =>
      intro hl
      obtain ⟨i1, i2⟩ := ih fun x hx => hl x (List.mem_cons_of_mem _ hx)
      have a1 := h1 p (hl p List.mem_cons_self)
      have a2 := h2 p (hl p List.mem_cons_self)
      simp only [List.map_cons, List.sum_cons, exactSum_cons, absSum_cons, List.length_cons]
      push_cast
      constructor
      · rw [show ((q p).val : ℝ) + (exactSum (l.map q) : ℚ) - (dec p.1 * y0 p + (l.map fun p => dec p.1 * y0 p).sum) =
          (((q p).val : ℝ) - dec p.1 * y0 p) + ((exactSum (l.map q) : ℚ) - (l.map fun p => dec p.1 * y0 p).sum) by ring]
        refine (abs_add_le _ _).trans ?_
        linarith
      · linarith
  obtain ⟨k1, k2⟩ := key rule fun _ h => h
  have hlen : rule.length = 100 := by decide +kernel
  have hW := abs_le.1 Verif.Math.Quadrature.weight_sum
  rw [hlen] at k1 k2
  have hη := eta_pos
  have hη2 := eta_small
  generalize hWd : (rule.map fun p => dec p.1).sum = W at *
  have We : W * e ≤ 2.0001 * e := mul_le_mul_of_nonneg_right (by norm_num at hW ⊢; linarith) he
  have WV : W * V ≤ 2.0001 * V := mul_le_mul_of_nonneg_right (by norm_num at hW ⊢; linarith) hV0
  have ηV : eta * V ≤ 1 / 2 ^ 200 * V := mul_le_mul_of_nonneg_right hη2 hV0
  have hA : ((absSum (rule.map q) : ℚ) : ℝ) ≤ 2.001 * V + 100 * eta := by
    norm_num at k2 WV ηV ⊢
    linarith
  have hfin : absSum (rule.map q) < 2 ^ 1023 := by
    have h3 : ((absSum (rule.map q) : ℚ) : ℝ) ≤ 2 ^ 200 := by norm_num at hA hV hη2 ⊢; linarith
    have h4 : absSum (rule.map q) ≤ 2 ^ 200 := by exact_mod_cast h3
    exact lt_of_le_of_lt h4 (pow_lt_pow_right₀ (by norm_num) (by norm_num))
  have hlen' : (rule.map q).length = 100 := by rw [List.length_map, hlen]
  obtain ⟨s, hs⟩ := (C86_sum (rule.map q) (by rw [hlen']; norm_num)).2 hfin
  have hE := sum_error (rule.map q) (by rw [hlen']; norm_num) s hs
  rw [hlen'] at hE
  have hE' : |(s.val : ℝ) - (exactSum (rule.map q) : ℚ)| ≤ 99 * 2 ^ (-52 : ℤ) * (absSum (rule.map q) : ℚ) := by
    have h6 : ((|s.val - exactSum (rule.map q)| : ℚ) : ℝ) ≤ (((100 - 1 : ℕ) * 2 ^ (-52 : ℤ) * absSum (rule.map q) : ℚ) : ℝ) := by
      exact_mod_cast hE
    push_cast at h6
    norm_num at h6 ⊢
    exact h6
  have hX : |((exactSum (rule.map q) : ℚ) : ℝ)| ≤ (absSum (rule.map q) : ℚ) := by exact_mod_cast abs_exactSum (rule.map q)
  refine ⟨s, hs, ?_, ?_⟩
  · have h5 := abs_sub_le (s.val : ℝ) ((exactSum (rule.map q) : ℚ) : ℝ) (rule.map fun p => dec p.1 * y0 p).sum
    norm_num at hE' k1 We WV ηV hA ⊢
    linarith
  · have h5 := abs_sub_abs_le_abs_sub (s.val : ℝ) ((exactSum (rule.map q) : ℚ) : ℝ)
    norm_num at hE' hX hA ⊢
    linarith

/-- C92: the quadrature of `F` between `a` and `b` computed from `f`, an `f64` program within `ε` of `F`. When `F` is at most `M`
in size and has Lipschitz constant `L` on the interval (widened by the error of the nodes), the result is finite and differs from the
same quadrature in exact arithmetic (C55) by at most the length of the interval times `1.01 (ε + L nodeError) + 2^-45 (M + ε)`, plus
an underflow term. -/
theorem C92_error (F : ℝ → ℝ) (f : F64 → Option F64) (a b : F64) (B L M ε : ℝ) (hab : a.val ≤ b.val) (L0 : 0 ≤ L) (hB : B ≤ 2 ^ 100)
    (ha : |(a.val : ℝ)| ≤ B) (hb : |(b.val : ℝ)| ≤ B) (hM : M + ε ≤ 2 ^ 100)
    (hf : ∀ x : F64, a.val - nodeError B ≤ (x.val : ℝ) → (x.val : ℝ) ≤ b.val + nodeError B →
      ∃ y, f x = some y ∧ |(y.val : ℝ) - F x.val| ≤ ε)
    (hF : ∀ x : ℝ, a.val - nodeError B ≤ x → x ≤ b.val + nodeError B → |F x| ≤ M)
    (hL : ∀ x y : ℝ, a.val - nodeError B ≤ x → x ≤ b.val + nodeError B → (a.val : ℝ) ≤ y → y ≤ b.val → |F x - F y| ≤ L * |x - y|) :
    ∃ r, integrate f a b = some r ∧
      |(r.val : ℝ) - Verif.Math.Quadrature.integrate (fun x => some (F x)) a.val b.val| ≤
        (b.val - a.val) * (1.01 * (ε + L * nodeError B) + 2 ^ (-45 : ℤ) * (M + ε)) + 2 ^ (-1060 : ℤ) * (1 + B + M + ε) := by
  have hη := eta_pos
  have hη2 := eta_small
  have B0 : 0 ≤ B := (abs_nonneg _).trans ha
  have hab' : (a.val : ℝ) ≤ b.val := by exact_mod_cast hab
  have δ0 : 0 ≤ nodeError B := by unfold nodeError; positivity
  have ε0 : 0 ≤ ε := by
    obtain ⟨y, _, h⟩ := hf a (by linarith) (by linarith)
    exact (abs_nonneg _).trans h
  have M0 : 0 ≤ M := (abs_nonneg _).trans (hF a.val (by linarith) (by linarith))
  have ha' := abs_le.1 ha
  have hb' := abs_le.1 hb
  have hsub : |((b.val - a.val : ℚ) : ℝ)| ≤ 2 * B := by push_cast; rw [abs_le]; constructor <;> linarith
  have hadd : |((a.val + b.val : ℚ) : ℝ)| ≤ 2 * B := by push_cast; rw [abs_le]; constructor <;> linarith
  obtain ⟨cs, c, h, c1, c2, c3, c4⟩ := half_real (b.val - a.val) (by norm_num at hB ⊢; push_cast at hsub; linarith)
  obtain ⟨ds, d, h', d1, d2, d3, d4⟩ := half_real (a.val + b.val) (by norm_num at hB ⊢; push_cast at hadd; linarith)
  rw [c2] at d2
  cases d2
  push_cast at c4 d4
  set c0 : ℝ := (b.val - a.val) / 2 with hc0
  set d0 : ℝ := (a.val + b.val) / 2 with hd0
  have c00 : 0 ≤ c0 := by rw [hc0]; linarith
  have c0B : |c0| ≤ B := by rw [abs_of_nonneg c00, hc0]; linarith
  have d0B : |d0| ≤ B := by rw [hd0, abs_le]; constructor <;> linarith
  have c5 : |(c.val : ℝ) - c0| ≤ 3 / 2 ^ 53 * B + 2 * eta := c4.trans (by gcongr)
  have d5 : |(d.val : ℝ) - d0| ≤ 3 / 2 ^ 53 * B + 2 * eta := d4.trans (by gcongr)
  have e0 : 0 ≤ ε + L * nodeError B := add_nonneg ε0 (mul_nonneg L0 δ0)
  -- the terms
  have terms : ∀ p ∈ rule, ∃ q, (do (← toF64 (decimal p.1)).mul (← transformed f c d (← toF64 (decimal p.2)))) = some q ∧
      |(q.val : ℝ) - dec p.1 * F (0.5 * (b.val - a.val) * dec p.2 + 0.5 * (a.val + b.val))| ≤
        dec p.1 * (ε + L * nodeError B + 3 / 2 ^ 53 * (M + ε)) + eta * (1 + 2 * (M + ε)) ∧
      |(q.val : ℝ)| ≤ dec p.1 * ((1 + 3 / 2 ^ 53) * (M + ε)) + eta * (1 + 2 * (M + ε)) := by
    intro p hp
    obtain ⟨w, w1, w2⟩ := literal_weight hp
    obtain ⟨t0, t, t1, t2⟩ := literal_node hp
    obtain ⟨pr, x, x1, x2, x3⟩ := node_real c d t c0 d0 (dec p.2) B hB c0B d0B t0 c5 d5 t2
    have hmem := Verif.Math.Quadrature.node_mem (a.val : ℝ) b.val hp
    rw [Set.uIcc_of_le hab', show 0.5 * ((b.val : ℝ) - a.val) * dec p.2 + 0.5 * (a.val + b.val) = c0 * dec p.2 + d0 by
      rw [hc0, hd0]; ring] at hmem
    rw [show 0.5 * ((b.val : ℝ) - a.val) * dec p.2 + 0.5 * (a.val + b.val) = c0 * dec p.2 + d0 by rw [hc0, hd0]; ring]
    have x4 := abs_le.1 x3
    have hx1 : a.val - nodeError B ≤ (x.val : ℝ) := by linarith [hmem.1]
    have hx2 : (x.val : ℝ) ≤ b.val + nodeError B := by linarith [hmem.2]
    obtain ⟨y, y1, y2⟩ := hf x hx1 hx2
    have y3 : |(y.val : ℝ)| ≤ M + ε := by
      have := abs_sub_abs_le_abs_sub (y.val : ℝ) (F x.val)
      linarith [hF x.val hx1 hx2]
    have y4 : |(y.val : ℝ) - F (c0 * dec p.2 + d0)| ≤ ε + L * nodeError B := by
      refine (abs_sub_le _ (F x.val) _).trans (add_le_add y2 ?_)
      exact (hL _ _ hx1 hx2 hmem.1 hmem.2).trans (mul_le_mul_of_nonneg_left x3 L0)
    obtain ⟨q, q1, q2, q3⟩ := term_real w y (dec p.1) (F (c0 * dec p.2 + d0)) (M + ε) (ε + L * nodeError B)
      (Verif.Math.Quadrature.dec_weight_nonneg hp) (by linarith [weight_le hp]) hM w2 y3 y4
    refine ⟨q, ?_, q2, q3⟩
    simp only [transformed, w1, t1, Option.bind_eq_bind, Option.bind_some, x1, x2, y1, Option.getD_some, Option.pure_def, q1]
  haveI : Nonempty F64 := ⟨F64.zero⟩
  choose! q hq1 hq2 hq3 using terms
  obtain ⟨s, s1, s2, s3⟩ := sum_real q (fun p => F (0.5 * (b.val - a.val) * dec p.2 + 0.5 * (a.val + b.val))) (M + ε)
    (ε + L * nodeError B) (by linarith) hM hq2 hq3 e0
  have hT : tanhsinh (transformed f c d) = some s := by
    rw [tanhsinh_rule, ← s1]
    exact foldlM_terms rule _ q F64.zero hq1
  have hc6 : |(c.val : ℝ)| ≤ (1 + 3 / 2 ^ 53) * c0 + 2 * eta := by
    have := abs_sub_abs_le_abs_sub (c.val : ℝ) c0
    rw [abs_of_nonneg c00] at this c4
    linarith
  rw [abs_of_nonneg c00] at c4 c0B
  set V := M + ε with hV
  have V0 : 0 ≤ V := by rw [hV]; linarith
  set e := ε + L * nodeError B with he
  have c0V : 0 ≤ c0 * V := mul_nonneg c00 V0
  have ηV : eta * V ≤ 1 / 2 ^ 200 * V := mul_le_mul_of_nonneg_right hη2 V0
  have ηc : eta * c0 ≤ 1 / 2 ^ 200 * c0 := mul_le_mul_of_nonneg_right hη2 c00
  have ηη : eta * eta ≤ 1 / 2 ^ 200 * eta := mul_le_mul_of_nonneg_right hη2 hη.le
  have hcs : |(c.val : ℝ)| * |(s.val : ℝ)| ≤ ((1 + 3 / 2 ^ 53) * c0 + 2 * eta) * (3 * V + 102 * eta) :=
    mul_le_mul hc6 s3 (abs_nonneg _) (by positivity)
  have cB : c0 * V ≤ 2 ^ 100 * 2 ^ 100 := mul_le_mul (c0B.trans hB) hM V0 (by positivity)
  obtain ⟨r, r1, r2⟩ := op_real (c.val * s.val) (by
    push_cast
    rw [abs_mul]
    norm_num at hcs cB hη2 ηV ηc ηη hB hM ⊢
    nlinarith)
  push_cast at r2
  rw [abs_mul] at r2
  refine ⟨r, ?_, ?_⟩
  · unfold integrate
    have c1' : b.sub a = some cs := c1
    have d1' : a.add b = some ds := d1
    simp only [c2, c1', d1', c3, d3, Option.bind_eq_bind, Option.bind_some]
    simp only [hT, Option.bind_some]
    exact r1
  · rw [Verif.Math.Quadrature.integrate_eq]
    simp only [Option.getD_some]
    set S0 := (rule.map fun p => dec p.1 * F (0.5 * (b.val - a.val) * dec p.2 + 0.5 * (a.val + b.val))).sum with hS0
    rw [show 0.5 * ((b.val : ℝ) - a.val) * S0 = c0 * S0 by rw [hc0]; ring]
    have t1 : |(c.val : ℝ) * s.val - c0 * S0| ≤ (3 / 2 ^ 53 * c0 + 2 * eta) * (3 * V + 102 * eta) +
        c0 * (2.001 * e + 415 / 2 ^ 53 * V + 102 * eta) := by
      rw [show (c.val : ℝ) * s.val - c0 * S0 = ((c.val : ℝ) - c0) * s.val + c0 * (s.val - S0) by ring]
      refine (abs_add_le _ _).trans ?_
      rw [abs_mul, abs_mul, abs_of_nonneg c00]
      exact add_le_add (mul_le_mul c4 s3 (abs_nonneg _) (by positivity)) (mul_le_mul_of_nonneg_left s2 c00)
    have t2 := abs_sub_le (r.val : ℝ) (c.val * s.val) (c0 * S0)
    have e15 : (2 : ℝ) ^ (-1060 : ℤ) = 2 ^ 15 * eta := by
      unfold eta
      rw [show (-1060 : ℤ) = 15 + (-1075) by norm_num, zpow_add₀ (by norm_num)]
      norm_num
    rw [e15, show (b.val : ℝ) - a.val = 2 * c0 by rw [hc0]; ring, show 1 + B + M + ε = 1 + B + V by rw [hV]; ring]
    have c0e : 0 ≤ c0 * e := mul_nonneg c00 e0
    have ηB : eta * c0 ≤ eta * B := mul_le_mul_of_nonneg_left c0B hη.le
    have ηc0 : 0 ≤ eta * c0 := mul_nonneg hη.le c00
    have ηV0 : 0 ≤ eta * V := mul_nonneg hη.le V0
    norm_num at t1 t2 r2 hcs ηη hη2 ⊢
    nlinarith

/-- C92: hence, for an integrand that is within `η` of a polynomial of degree at most 40 on the interval, the distance of the result from
the integral itself. -/
theorem C92_accuracy (F : ℝ → ℝ) (f : F64 → Option F64) (a b : F64) (B L M ε : ℝ) (hab : a.val ≤ b.val) (L0 : 0 ≤ L) (hB : B ≤ 2 ^ 100)
    (ha : |(a.val : ℝ)| ≤ B) (hb : |(b.val : ℝ)| ≤ B) (hM : M + ε ≤ 2 ^ 100)
    (hf : ∀ x : F64, a.val - nodeError B ≤ (x.val : ℝ) → (x.val : ℝ) ≤ b.val + nodeError B →
      ∃ y, f x = some y ∧ |(y.val : ℝ) - F x.val| ≤ ε)
    (hF : ∀ x : ℝ, a.val - nodeError B ≤ x → x ≤ b.val + nodeError B → |F x| ≤ M)
    (hL : ∀ x y : ℝ, a.val - nodeError B ≤ x → x ≤ b.val + nodeError B → (a.val : ℝ) ≤ y → y ≤ b.val → |F x - F y| ≤ L * |x - y|)
    (q : ℕ → ℝ) (n : ℕ) (hn : n ≤ 40) (η : ℝ)
    (hI : IntervalIntegrable F MeasureTheory.volume a.val b.val)
    (hq : ∀ x ∈ Set.Icc (a.val : ℝ) b.val, |F x - Verif.Math.Quadrature.poly q n a.val b.val x| ≤ η) :
    ∃ r, integrate f a b = some r ∧ |(r.val : ℝ) - ∫ x in (a.val : ℝ)..b.val, F x| ≤
      (b.val - a.val) * (1.01 * (ε + L * nodeError B) + 2 ^ (-45 : ℤ) * (M + ε)) + 2 ^ (-1060 : ℤ) * (1 + B + M + ε) +
      (2 / 10 ^ 10 * (∑ k ∈ Finset.range (n + 1), |q k| * (((b.val : ℝ) - a.val) / 2) ^ (k + 1)) +
        η * (b.val - a.val) * (2 + 2.5 / 10 ^ 16)) := by
  obtain ⟨r, h1, h2⟩ := C92_error F f a b B L M ε hab L0 hB ha hb hM hf hF hL
  have h3 := Verif.Math.Quadrature.C55_accuracy F q n a.val b.val η (by exact_mod_cast hab) hn hI hq
  exact ⟨r, h1, (abs_sub_le _ _ _).trans (add_le_add h2 h3)⟩

theorem lit_zero_one : (lit 0).val = 0 ∧ (lit 1).val = 1 := by decide +kernel

/-- The integral of `x` over `[0, 1]`: within `2^-44` of the quadrature in exact arithmetic. -/
example : ∃ r, integrate some (lit 0) (lit 1) = some r ∧
    |(r.val : ℝ) - Verif.Math.Quadrature.integrate (fun x => some x) 0 1| ≤ 2 ^ (-44 : ℤ) := by
  obtain ⟨l0, l1⟩ := lit_zero_one
  have hδ : nodeError 1 ≤ 2 ^ (-48 : ℤ) := by
    unfold nodeError
    have : (2 : ℝ) ^ (-1072 : ℤ) ≤ 2 ^ (-49 : ℤ) := zpow_le_zpow_right₀ (by norm_num) (by norm_num)
    norm_num at this ⊢
    linarith
  have hδ0 : 0 ≤ nodeError 1 := by unfold nodeError; positivity
  obtain ⟨r, h1, h2⟩ := C92_error (fun x => x) some (lit 0) (lit 1) 1 1 (1 + 2 ^ (-48 : ℤ)) 0 (by rw [l0, l1]; norm_num) (by norm_num)
    (by norm_num) (by rw [l0]; norm_num) (by rw [l1]; norm_num) (by norm_num) (fun x _ _ => ⟨x, rfl, by simp⟩)
    (fun x h3 h4 => by
      rw [l0] at h3; rw [l1] at h4
      push_cast at h3 h4
      rw [abs_le]
      constructor <;> linarith)
    (fun x y _ _ _ _ => by simp)
  refine ⟨r, h1, ?_⟩
  rw [l0, l1] at h2
  push_cast at h2
  refine h2.trans ?_
  have : (2 : ℝ) ^ (-1060 : ℤ) ≤ 2 ^ (-60 : ℤ) := zpow_le_zpow_right₀ (by norm_num) (by norm_num)
  generalize (2 : ℝ) ^ (-1060 : ℤ) = z at *
  norm_num at this hδ ⊢
  linarith

theorem foldlM_mono {α : Type} (xs : List α) (g h : α → Option F64)
    (hgh : ∀ x ∈ xs, ∀ a b, g x = some a → h x = some b → a.val ≤ b.val) (s t r r' : F64) (hst : s.val ≤ t.val)
    (h1 : xs.foldlM (fun s x => do F64.add s (← g x)) s = some r) (h2 : xs.foldlM (fun s x => do F64.add s (← h x)) t = some r') :
    r.val ≤ r'.val := by
  induction xs generalizing s t with
  | nil => cases h1; cases h2; exact hst
  | cons x xs ih =>
    rw [List.foldlM_cons] at h1 h2
    obtain ⟨s', a1, a2⟩ := Option.bind_eq_some_iff.1 h1
    obtain ⟨t', b1, b2⟩ := Option.bind_eq_some_iff.1 h2
    obtain ⟨a, a3, a4⟩ := Option.bind_eq_some_iff.1 a1
    obtain ⟨b, b3, b4⟩ := Option.bind_eq_some_iff.1 b1
    refine ih (fun y hy => hgh y (List.mem_cons_of_mem _ hy)) s' t' ?_ a2 b2
    rw [add_some a4, add_some b4]
    exact rnd_mono (add_le_add hst (hgh x List.mem_cons_self a b a3 b3))

theorem integrate_some {f : F64 → Option F64} {a b r : F64} (h : integrate f a b = some r) :
    ∃ k cs ds c d s : F64, toF64 0.5 = some k ∧ b.sub a = some cs ∧ k.mul cs = some c ∧ a.add b = some ds ∧ k.mul ds = some d ∧
      rule.foldlM (fun s p => do
        let q ← (do (← toF64 (decimal p.1)).mul (← transformed f c d (← toF64 (decimal p.2))))
        s.add q) F64.zero = some s ∧ c.mul s = some r := by
  unfold integrate at h
  obtain ⟨k, k1, h⟩ := Option.bind_eq_some_iff.1 h
  obtain ⟨cs, c1, h⟩ := Option.bind_eq_some_iff.1 h
  obtain ⟨c, c2, h⟩ := Option.bind_eq_some_iff.1 h
  obtain ⟨k', k2, h⟩ := Option.bind_eq_some_iff.1 h
  obtain ⟨ds, d1, h⟩ := Option.bind_eq_some_iff.1 h
  obtain ⟨d, d2, h⟩ := Option.bind_eq_some_iff.1 h
  obtain ⟨s, s1, h7⟩ := Option.bind_eq_some_iff.1 h
  rw [k1] at k2
  cases k2
  exact ⟨k, cs, ds, c, d, s, k1, c1, c2, d1, d2, by rw [← tanhsinh_rule]; exact s1, h7⟩

theorem literal_nonneg {p} (hp : p ∈ rule) {w : F64} (h : toF64 (decimal p.1) = some w) : 0 ≤ w.val := by
  rw [toF64_some h]
  have := Verif.Math.Quadrature.dec_weight_nonneg hp
  rw [dec_decimal] at this
  exact rnd_nonneg (by exact_mod_cast this)

theorem term_mono {f g : F64 → Option F64} (h : ∀ x, ((f x).getD F64.zero).val ≤ ((g x).getD F64.zero).val) {p} (hp : p ∈ rule)
    (c d q q' : F64) (h1 : (do (← toF64 (decimal p.1)).mul (← transformed f c d (← toF64 (decimal p.2)))) = some q)
    (h2 : (do (← toF64 (decimal p.1)).mul (← transformed g c d (← toF64 (decimal p.2)))) = some q') : q.val ≤ q'.val := by
  obtain ⟨w, w1, h1⟩ := Option.bind_eq_some_iff.1 h1
  obtain ⟨t, t1, h1⟩ := Option.bind_eq_some_iff.1 h1
  obtain ⟨y, y1, h1⟩ := Option.bind_eq_some_iff.1 h1
  obtain ⟨w', w2, h2⟩ := Option.bind_eq_some_iff.1 h2
  obtain ⟨t', t2, h2⟩ := Option.bind_eq_some_iff.1 h2
  obtain ⟨y', y2, h2⟩ := Option.bind_eq_some_iff.1 h2
  rw [w1] at w2; cases w2
  rw [t1] at t2; cases t2
  unfold transformed at y1 y2
  obtain ⟨m, m1, y1⟩ := Option.bind_eq_some_iff.1 y1
  obtain ⟨x, x1, y1⟩ := Option.bind_eq_some_iff.1 y1
  obtain ⟨m', m2, y2⟩ := Option.bind_eq_some_iff.1 y2
  obtain ⟨x', x2, y2⟩ := Option.bind_eq_some_iff.1 y2
  rw [m1] at m2; cases m2
  rw [x1] at x2; cases x2
  cases y1
  cases y2
  rw [mul_some h1, mul_some h2]
  exact rnd_mono (mul_le_mul_of_nonneg_left (h x) (literal_nonneg hp w1))

/-- C92: monotone, also with all the roundings: a larger integrand never has a smaller computed integral. Values that are not finite
count as zero. -/
theorem C92_monotone (f g : F64 → Option F64) (a b r r' : F64) (hab : a.val ≤ b.val)
    (h : ∀ x, ((f x).getD F64.zero).val ≤ ((g x).getD F64.zero).val) (h1 : integrate f a b = some r) (h2 : integrate g a b = some r') :
    r.val ≤ r'.val := by
  obtain ⟨k, cs, ds, c, d, s, a1, a2, a3, a4, a5, a6, a7⟩ := integrate_some h1
  obtain ⟨k', cs', ds', c', d', s', b1, b2, b3, b4, b5, b6, b7⟩ := integrate_some h2
  rw [a1] at b1; cases b1
  rw [a2] at b2; cases b2
  rw [a3] at b3; cases b3
  rw [a4] at b4; cases b4
  rw [a5] at b5; cases b5
  have hs : s.val ≤ s'.val := foldlM_mono rule _ _ (fun p hp q q' => term_mono h hp c d q q') F64.zero F64.zero s s' le_rfl a6 b6
  have hk : k.val = 1 / 2 := by
    obtain ⟨k0, e1, e2⟩ := half_exact
    rw [a1] at e1
    cases e1
    exact e2
  have hc : 0 ≤ c.val := by
    rw [mul_some a3, hk, show cs.val = rnd (b.val - a.val) from toF64_some a2]
    exact rnd_nonneg (mul_nonneg (by norm_num) (rnd_nonneg (by linarith)))
  rw [mul_some a7, mul_some b7]
  exact rnd_mono (mul_le_mul_of_nonneg_left hs hc)

example (r r' : F64) (h1 : integrate some (lit 0) (lit 1) = some r) (h2 : integrate (fun x => some (x.max (lit 0.1))) (lit 0) (lit 1) = some r') :
    r.val ≤ r'.val :=
  C92_monotone _ _ _ _ r r' (by rw [lit_zero_one.1, lit_zero_one.2]; norm_num) (fun x => by
    show x.val ≤ (x.max (lit 0.1)).val
    unfold F64.max
    split
    · assumption
    · exact le_rfl) h1 h2

theorem foldlM_zero {α : Type} (xs : List α) (g : α → Option F64) (hg : ∀ x ∈ xs, ∀ a, g x = some a → a.val = 0) (s r : F64)
    (hs : s.val = 0) (h : xs.foldlM (fun s x => do F64.add s (← g x)) s = some r) : r.val = 0 := by
  induction xs generalizing s with
  | nil => cases h; exact hs
  | cons x xs ih =>
    rw [List.foldlM_cons] at h
    obtain ⟨s', a1, a2⟩ := Option.bind_eq_some_iff.1 h
    obtain ⟨a, a3, a4⟩ := Option.bind_eq_some_iff.1 a1
    refine ih (fun y hy => hg y (List.mem_cons_of_mem _ hy)) s' ?_ a2
    rw [add_some a4, hs, hg x List.mem_cons_self a a3, _root_.add_zero, rnd_zero]

theorem foldlM_nonneg {α : Type} (xs : List α) (g : α → Option F64) (hg : ∀ x ∈ xs, ∀ a, g x = some a → 0 ≤ a.val) (s r : F64)
    (hs : 0 ≤ s.val) (h : xs.foldlM (fun s x => do F64.add s (← g x)) s = some r) : 0 ≤ r.val := by
  induction xs generalizing s with
  | nil => cases h; exact hs
  | cons x xs ih =>
    rw [List.foldlM_cons] at h
    obtain ⟨s', a1, a2⟩ := Option.bind_eq_some_iff.1 h
    obtain ⟨a, a3, a4⟩ := Option.bind_eq_some_iff.1 a1
    refine ih (fun y hy => hg y (List.mem_cons_of_mem _ hy)) s' ?_ a2
    rw [add_some a4]
    exact rnd_nonneg (add_nonneg hs (hg x List.mem_cons_self a a3))

theorem term_some {f : F64 → Option F64} {p : (ℤ × ℕ) × (ℤ × ℕ)} {c d q : F64}
    (h1 : (do (← toF64 (decimal p.1)).mul (← transformed f c d (← toF64 (decimal p.2)))) = some q) :
    ∃ w x, toF64 (decimal p.1) = some w ∧ q.val = rnd (w.val * ((f x).getD F64.zero).val) := by
  obtain ⟨w, w1, h1⟩ := Option.bind_eq_some_iff.1 h1
  obtain ⟨t, t1, h1⟩ := Option.bind_eq_some_iff.1 h1
  obtain ⟨y, y1, h1⟩ := Option.bind_eq_some_iff.1 h1
  unfold transformed at y1
  obtain ⟨m, m1, y1⟩ := Option.bind_eq_some_iff.1 y1
  obtain ⟨x, x1, y1⟩ := Option.bind_eq_some_iff.1 y1
  cases y1
  exact ⟨w, x, w1, mul_some h1⟩

/-- C92: an integrand that is nowhere negative has a computed integral that is not negative; one that is nowhere finite has the integral
zero, and so has every integrand over an empty interval (when the result is a number). -/
theorem C92_sign (f : F64 → Option F64) (a b r : F64) (h1 : integrate f a b = some r) :
    (a.val ≤ b.val → (∀ x, 0 ≤ ((f x).getD F64.zero).val) → 0 ≤ r.val) ∧ ((∀ x, f x = none) → r.val = 0) ∧ (a = b → r.val = 0) := by
  obtain ⟨k, cs, ds, c, d, s, a1, a2, a3, a4, a5, a6, a7⟩ := integrate_some h1
  have hk : k.val = 1 / 2 := by
    obtain ⟨k0, e1, e2⟩ := half_exact
    rw [a1] at e1
    cases e1
    exact e2
  have ec : c.val = rnd (1 / 2 * rnd (b.val - a.val)) := by
    rw [mul_some a3, hk, show cs.val = rnd (b.val - a.val) from toF64_some a2]
  refine ⟨fun hab h => ?_, fun h => ?_, fun h => ?_⟩
  · have hs : 0 ≤ s.val := foldlM_nonneg rule _ (fun p hp q hq => by
      obtain ⟨w, x, w1, e⟩ := term_some hq
      rw [e]
      exact rnd_nonneg (mul_nonneg (literal_nonneg hp w1) (h x))) F64.zero s le_rfl a6
    rw [mul_some a7]
    refine rnd_nonneg (mul_nonneg ?_ hs)
    rw [ec]
    exact rnd_nonneg (mul_nonneg (by norm_num) (rnd_nonneg (by linarith)))
  · have hs : s.val = 0 := foldlM_zero rule _ (fun p hp q hq => by
      obtain ⟨w, x, w1, e⟩ := term_some hq
      rw [e, h x, Option.getD_none, show F64.zero.val = 0 from rfl, mul_zero, rnd_zero]) F64.zero s rfl a6
    rw [mul_some a7, hs, mul_zero, rnd_zero]
  · rw [mul_some a7, ec, h, sub_self, rnd_zero, mul_zero, rnd_zero, zero_mul, rnd_zero]

/-- C92 (defect): the integrand is evaluated outside the interval: there are two integrands that agree on `[0.2, 1]` but whose computed
integrals over `[0.2, 1]` differ. -/
theorem C92_outside : ∃ f g : F64 → Option F64, (∀ x, (lit 0.2).val ≤ x.val → x.val ≤ (lit 1).val → f x = g x) ∧
    ∃ r r', integrate f (lit 0.2) (lit 1) = some r ∧ integrate g (lit 0.2) (lit 1) = some r' ∧ r.val < r'.val := by
  refine ⟨fun _ => some (lit 1), fun x => if x.val < (lit 0.2).val then some (lit (2 ^ 60)) else some (lit 1), ?_, ?_⟩
  · intro x h1 _
    exact (if_neg (not_lt.2 h1)).symm
  · have key : (match integrate (fun _ => some (lit 1)) (lit 0.2) (lit 1),
        integrate (fun x => if x.val < (lit 0.2).val then some (lit (2 ^ 60)) else some (lit 1)) (lit 0.2) (lit 1) with
      | some r, some r' => decide (r.val < r'.val)
      | _, _ => false) = true := by decide +kernel
    split at key
    · next r r' h1 h2 => exact ⟨r, r', h1, h2, of_decide_eq_true key⟩
    · cases key

end Verif.Float
