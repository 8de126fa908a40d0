import Verif.Float.FdRun
import Verif.Float.FdSpec

/-! Helper lemmas: the two coefficients computed for ordinary inputs. -/

namespace Verif.Float.Fd

open X64

/-- The unit in which relative errors are counted. -/
def eps : ℚ := 2 ^ (-20 : ℤ)

theorem eps_eq : eps = 1 / 1048576 := by norm_num [eps]

/-- `a` is `b` up to `k` units. -/
structure Near (k : ℚ) (a b : ℚ) : Prop where
  pos : 0 < b
  lo : b * (1 - k * eps) ≤ a
  hi : a ≤ b * (1 + k * eps)

theorem Near.refl {a : ℚ} (h : 0 < a) : Near 0 a a := ⟨h, by linarith, by linarith⟩

theorem Near.mono {j k a b : ℚ} (h : Near j a b) (hjk : j ≤ k) : Near k a b := by
  obtain ⟨h1, h2, h3⟩ := h
  have := mul_le_mul_of_nonneg_left (mul_le_mul_of_nonneg_right hjk (by norm_num [eps_eq] : 0 ≤ eps)) h1.le
  exact ⟨h1, by linarith, by linarith⟩

theorem Near.mul {j k a b c d : ℚ} (h : Near j a b) (g : Near k c d) (hj : 0 ≤ j) (hk : 0 ≤ k) (hj' : j ≤ 100) (hk' : k ≤ 100) :
    Near (j + k + 1) (a * c) (b * d) := by
  obtain ⟨h1, h2, h3⟩ := h
  obtain ⟨g1, g2, g3⟩ := g
  rw [eps_eq] at *
  have hjk : j * k ≤ 10000 := by nlinarith
  have hjk0 : 0 ≤ j * k := by positivity
  have p1 : 0 ≤ b * (1 - j * (1 / 1048576)) := mul_nonneg h1.le (by linarith)
  have p2 : 0 ≤ d * (1 - k * (1 / 1048576)) := mul_nonneg g1.le (by linarith)
  have hbd := mul_pos h1 g1
  refine ⟨hbd, ?_, ?_⟩ <;> rw [eps_eq]
  · refine le_trans ?_ (mul_le_mul h2 g2 p2 (p1.trans h2))
    rw [show b * (1 - j * (1 / 1048576)) * (d * (1 - k * (1 / 1048576))) =
      b * d * ((1 - j * (1 / 1048576)) * (1 - k * (1 / 1048576))) by ring]
    exact mul_le_mul_of_nonneg_left (by linarith) hbd.le
  · refine le_trans (mul_le_mul h3 g3 (p2.trans g2) (mul_nonneg h1.le (by linarith))) ?_
    rw [show b * (1 + j * (1 / 1048576)) * (d * (1 + k * (1 / 1048576))) =
      b * d * ((1 + j * (1 / 1048576)) * (1 + k * (1 / 1048576))) by ring]
    exact mul_le_mul_of_nonneg_left (by linarith) hbd.le

theorem Near.inv {k c d : ℚ} (g : Near k c d) (hk : 0 ≤ k) (hk' : k ≤ 100) : Near (k + 1) (1 / c) (1 / d) := by
  obtain ⟨g1, g2, g3⟩ := g
  rw [eps_eq] at *
  have hc : 0 < c := lt_of_lt_of_le (mul_pos g1 (by linarith)) g2
  have hkk : k * (k + 1) ≤ 10100 := by nlinarith
  have hkk0 : 0 ≤ k * (k + 1) := by positivity
  refine ⟨by positivity, ?_, ?_⟩ <;> rw [eps_eq]
  · rw [le_div_iff₀ hc]
    refine (mul_le_mul_of_nonneg_left g3 (mul_nonneg (by positivity) (by linarith))).trans ?_
    rw [show 1 / d * (1 - (k + 1) * (1 / 1048576)) * (d * (1 + k * (1 / 1048576))) =
      (1 - (k + 1) * (1 / 1048576)) * (1 + k * (1 / 1048576)) by field_simp]
    linarith
  · rw [div_le_iff₀ hc]
    refine le_trans ?_ (mul_le_mul_of_nonneg_left g2 (mul_nonneg (by positivity) (by linarith)))
    rw [show 1 / d * (1 + (k + 1) * (1 / 1048576)) * (d * (1 - k * (1 / 1048576))) =
      (1 + (k + 1) * (1 / 1048576)) * (1 - k * (1 / 1048576)) by field_simp]
    linarith

theorem Near.div {j k a b c d : ℚ} (h : Near j a b) (g : Near k c d) (hj : 0 ≤ j) (hk : 0 ≤ k) (hj' : j ≤ 100) (hk' : k ≤ 99) :
    Near (j + k + 2) (a / c) (b / d) := by
  have := h.mul (g.inv hk (by linarith)) hj (by linarith) hj' (by linarith)
  rw [mul_one_div, mul_one_div] at this
  exact this.mono (by linarith)

theorem Near.trans {j k a b c : ℚ} (h : Near j a b) (g : Near k b c) (hj : 0 ≤ j) (hk : 0 ≤ k) (hj' : j ≤ 100) (hk' : k ≤ 100) :
    Near (j + k + 1) a c := by
  have h' : Near j (a / b) 1 := by
    obtain ⟨h1, h2, h3⟩ := h
    exact ⟨one_pos, by rw [one_mul, le_div_iff₀ h1]; linarith, by rw [one_mul, div_le_iff₀ h1]; linarith⟩
  have := h'.mul g hj hk hj' hk'
  rwa [div_mul_cancel₀ _ h.pos.ne', one_mul] at this

/-- Within the range of `f64`, with room to spare. -/
def Mid (b : ℚ) : Prop := 2 ^ (-150 : ℤ) ≤ b ∧ b ≤ 2 ^ 150

theorem Near.range {k a b : ℚ} (h : Near k a b) (hk : 0 ≤ k) (hk' : k ≤ 100) (hb : Mid b) : 2 ^ (-200 : ℤ) ≤ a ∧ a ≤ 2 ^ 200 := by
  obtain ⟨h1, h2, h3⟩ := h
  obtain ⟨b1, b2⟩ := hb
  rw [eps_eq] at *
  have l : b * (1 / 2) ≤ a := le_trans (mul_le_mul_of_nonneg_left (by linarith) h1.le) h2
  have u : a ≤ b * 2 := h3.trans (mul_le_mul_of_nonneg_left (by linarith) h1.le)
  constructor
  · refine le_trans ?_ l
    refine le_trans ?_ (mul_le_mul_of_nonneg_right b1 (by norm_num))
    norm_num
  · refine u.trans ((mul_le_mul_of_nonneg_right b2 (by norm_num)).trans (by norm_num))

/-- Rounding costs at most a unit. -/
theorem Near.round {k q b : ℚ} (h : Near k q b) (hk : 0 ≤ k) (hk' : k ≤ 100) (hb : Mid b) :
    ∃ a, ofQ q = fin a ∧ Near (k + 1) a.val b := by
  obtain ⟨r1, r2⟩ := h.range hk hk' hb
  have q0 : 0 < q := lt_of_lt_of_le (by positivity) r1
  obtain ⟨a, a1, a2⟩ := fin_of_le (q := q) (b := 2 ^ 200) (by rwa [abs_of_pos q0]) le_rfl
  have e := rnd_rel (q := q) (by rwa [abs_of_pos q0])
  rw [← a2, abs_of_pos q0, abs_le] at e
  have hu : (2:ℚ) ^ (-53 : ℤ) ≤ 1 / 2 * eps := by norm_num [eps_eq]
  obtain ⟨h1, h2, h3⟩ := h
  have hq : q ≤ 2 * b := h3.trans (by rw [mul_comm 2]; exact mul_le_mul_of_nonneg_left (by rw [eps_eq]; linarith) h1.le)
  have hqe : 2 ^ (-53 : ℤ) * q ≤ b * eps := by
    exact (mul_le_mul hu hq q0.le (by norm_num [eps_eq])).trans_eq (by ring)
  exact ⟨a, a1, h1, by linarith [e.1], by linarith [e.2]⟩

theorem ofNat_val {n : ℕ} (h1 : 1 ≤ n) (h2 : n ≤ 2 ^ 53) : ∃ a, X64.ofNat n = fin a ∧ a.val = n := by
  have hr : Rep (n : ℚ) := by
    have := rep_of_le n 0 (by rw [abs_of_nonneg (by positivity)]; exact_mod_cast h2) (by norm_num)
    simpa using this
  obtain ⟨a, a1, a2⟩ := fin_of_le (q := n) (b := 2 ^ 53) (by
    rw [abs_of_nonneg (by positivity)]; exact_mod_cast h2) (by norm_num)
  exact ⟨a, a1, by rw [a2, rnd_rep hr]⟩

/-- Between two powers of two. -/
def In (i j : ℤ) (b : ℚ) : Prop := 2 ^ i ≤ b ∧ b ≤ 2 ^ j

theorem In.pos {i j : ℤ} {b : ℚ} (h : In i j b) : 0 < b := lt_of_lt_of_le (by positivity) h.1

theorem In.mul {i j k l : ℤ} {a b : ℚ} (h : In i j a) (g : In k l b) : In (i + k) (j + l) (a * b) := by
  have two : (2:ℚ) ≠ 0 := by norm_num
  refine ⟨?_, ?_⟩ <;> rw [zpow_add₀ two]
  · exact mul_le_mul h.1 g.1 (by positivity) h.pos.le
  · exact mul_le_mul h.2 g.2 g.pos.le (by positivity)

theorem In.div {i j k l : ℤ} {a b : ℚ} (h : In i j a) (g : In k l b) : In (i - l) (j - k) (a / b) := by
  have two : (2:ℚ) ≠ 0 := by norm_num
  refine ⟨?_, ?_⟩ <;> rw [zpow_sub₀ two]
  · exact div_le_div₀ h.pos.le h.1 g.pos g.2
  · exact div_le_div₀ (by positivity) h.2 (by positivity) g.1

theorem In.mid {i j : ℤ} {b : ℚ} (h : In i j b) (hi : -150 ≤ i) (hj : j ≤ 150) : Mid b :=
  ⟨(zpow_le_zpow_right₀ (by norm_num) hi).trans h.1, h.2.trans (zpow_le_zpow_right₀ (by norm_num) hj)⟩

theorem in_const {i j : ℤ} {b : ℚ} (h1 : (2:ℚ) ^ i ≤ b) (h2 : b ≤ 2 ^ j) : In i j b := ⟨h1, h2⟩

/-- The width of the grid. -/
theorem spread {L w : F64} {b : ℚ} (hL : |L.val| ≤ 2 ^ 10) (hw : Near 4 w.val b) (hb : In (-14) 20 b) :
    ∃ D, ((fin L).add (fin w)).sub ((fin L).sub (fin w)) = fin D ∧ Near 7 D.val (2 * b) := by
  obtain ⟨w1, w2, w3⟩ := hw
  obtain ⟨b1, b2⟩ := hb
  rw [eps_eq] at w2 w3
  have hw0 : 0 < w.val := lt_of_lt_of_le (mul_pos w1 (by norm_num)) w2
  have hw1 : w.val ≤ 2 ^ 21 := by norm_num at b2 ⊢; linarith
  obtain ⟨L1, L2⟩ := abs_le.1 hL
  have i1 : |L.val + w.val| ≤ 2 ^ 10 + w.val := by rw [abs_le]; constructor <;> linarith
  have i2 : |L.val - w.val| ≤ 2 ^ 10 + w.val := by rw [abs_le]; constructor <;> linarith
  obtain ⟨p, p1, p2⟩ := fin_of_le (q := L.val + w.val) (b := 2 ^ 22) (i1.trans (by norm_num at hw1 ⊢; linarith)) (by norm_num)
  obtain ⟨n, n1, n2⟩ := fin_of_le (q := L.val - w.val) (b := 2 ^ 22) (i2.trans (by norm_num at hw1 ⊢; linarith)) (by norm_num)
  have p3 : |L.val + w.val - rnd (L.val + w.val)| ≤ 2 ^ (-53 : ℤ) * (2 ^ 10 + w.val) :=
    (rnd_add L.rep w.rep).trans (mul_le_mul_of_nonneg_left i1 (by norm_num [u]))
  have n3 : |L.val - w.val - rnd (L.val - w.val)| ≤ 2 ^ (-53 : ℤ) * (2 ^ 10 + w.val) :=
    (rnd_sub L.rep w.rep).trans (mul_le_mul_of_nonneg_left i2 (by norm_num [u]))
  rw [← p2, abs_le] at p3
  rw [← n2, abs_le] at n3
  have near : Near 5 (p.val - n.val) (2 * b) := by
    refine ⟨by linarith, ?_, ?_⟩ <;> rw [eps_eq]
    · norm_num at p3 n3 b1 ⊢
      linarith [p3.1, p3.2, n3.1, n3.2]
    · norm_num at p3 n3 b1 ⊢
      linarith [p3.1, p3.2, n3.1, n3.2]
  obtain ⟨D, D1, D2⟩ := near.round (by norm_num) (by norm_num)
    (((in_const (i := 1) (j := 1) (b := 2) (by norm_num) (by norm_num)).mul ⟨b1, b2⟩).mid (by norm_num) (by norm_num))
  refine ⟨D, ?_, D2.mono (by norm_num)⟩
  rw [sub_fin]
  show (ofQ (L.val + w.val)).sub (ofQ (L.val - w.val)) = _
  rw [p1, n1, sub_fin, D1]

/-- At most `b` up to `k` units, in absolute value. -/
def Upto (k a b : ℚ) : Prop := |a| ≤ b * (1 + k * eps)

theorem Upto.round {k q b : ℚ} (h : Upto k q b) (hk : 0 ≤ k) (hk' : k ≤ 100) (hb : Mid b) :
    ∃ a, ofQ q = fin a ∧ Upto (k + 1) a.val b := by
  obtain ⟨b1, b2⟩ := hb
  have hb0 : 0 < b := lt_of_lt_of_le (by positivity) b1
  have h' : |q| ≤ 2 * b := le_trans h (by rw [mul_comm 2]; exact mul_le_mul_of_nonneg_left (by rw [eps_eq]; linarith) hb0.le)
  obtain ⟨a, a1, a2⟩ := fin_of_le (q := q) h' ((mul_le_mul_of_nonneg_left b2 (by norm_num)).trans (by norm_num))
  refine ⟨a, a1, ?_⟩
  have e : |q - rnd q| ≤ 2 ^ (-53 : ℤ) * |q| + 2 ^ (-1075 : ℤ) := rnd_error' q
  have t : |a.val| ≤ |q| + |q - rnd q| := by
    rw [a2, show rnd q = q - (q - rnd q) by ring]
    refine (abs_sub _ _).trans ?_
    rw [show q - (q - (q - rnd q)) = q - rnd q by ring]
  have e1 : 2 ^ (-53 : ℤ) * |q| ≤ b * (1 / 2 * eps) :=
    (mul_le_mul_of_nonneg_left h' (by norm_num)).trans (by
      rw [mul_comm, mul_comm 2, mul_assoc]
      exact mul_le_mul_of_nonneg_left (by norm_num [eps_eq]) hb0.le)
  have e2 : (2:ℚ) ^ (-1075 : ℤ) ≤ b * (1 / 2 * eps) := by
    have : (2:ℚ) ^ (-1075 : ℤ) ≤ 2 ^ (-150 : ℤ) * (1 / 2 * eps) :=
      (zpow_le_zpow_right₀ (by norm_num) (by norm_num : (-1075 : ℤ) ≤ -200)).trans (by norm_num [eps_eq])
    exact this.trans (mul_le_mul_of_nonneg_right b1 (by norm_num [eps_eq]))
  unfold Upto at h ⊢
  refine t.trans ((_root_.add_le_add h (e.trans (_root_.add_le_add e1 e2))).trans_eq (by ring))

theorem Upto.mul {j k a b c d : ℚ} (h : Near j a b) (g : Upto k c d) (hj : 0 ≤ j) (hk : 0 ≤ k) (hj' : j ≤ 100) (hk' : k ≤ 100)
    (hd : 0 ≤ d) : Upto (j + k + 1) (a * c) (b * d) := by
  obtain ⟨h1, h2, h3⟩ := h
  unfold Upto at *
  rw [eps_eq] at *
  have ha : 0 ≤ a := le_trans (mul_nonneg h1.le (by linarith)) h2
  have hjk : j * k ≤ 10000 := by nlinarith
  rw [abs_mul, abs_of_nonneg ha]
  refine (mul_le_mul h3 g (abs_nonneg _) (ha.trans h3)).trans ?_
  rw [show b * (1 + j * (1 / 1048576)) * (d * (1 + k * (1 / 1048576))) =
    b * d * ((1 + j * (1 / 1048576)) * (1 + k * (1 / 1048576))) by ring]
  exact mul_le_mul_of_nonneg_left (by linarith) (mul_nonneg h1.le hd)

theorem c_five : ∃ a, c 5 = fin a ∧ a.val = 5 := by
  have hr : Rep 5 := by simpa using rep_of_le 5 0 (by norm_num) (by norm_num)
  obtain ⟨a, a1, a2⟩ := fin_of_le (q := 5) (b := 5) (by norm_num) (by norm_num)
  exact ⟨a, a1, by rw [a2, rnd_rep hr]⟩

namespace Pricer

theorem estimates {m : Libm} {o : Pricer} {r σ T L Q N M : F64} (er : o.riskFreeRate = .fin r) (eσ : o.volatility = .fin σ)
    (eT : o.T = .fin T) (eL : m.ln o.initialPrice = .fin L) (eQ : m.sqrt o.T = .fin Q) (iσ : In (-10) 4 σ.val)
    (iT : In (-10) 10 T.val) (hL : |L.val| ≤ 2 ^ 10) (iQ : In (-6) 6 Q.val) (hr : |r.val| ≤ 2 ^ 10)
    (n1 : X64.ofNat o.priceSteps = fin N) (m1 : X64.ofNat o.timeSteps = fin M) (iN : In 2 20 N.val) (iM : In 0 43 M.val) :
    ∃ X Y : F64, o.cx m = fin X ∧ o.cy m = fin Y ∧
      Near 40 X.val (1 / 2 * (T.val / M.val) * (σ.val * σ.val) /
        (2 * (5 * σ.val * Q.val) / N.val * (2 * (5 * σ.val * Q.val) / N.val))) ∧
      Upto 40 Y.val (1 / (2 * (2 * (5 * σ.val * Q.val) / N.val)) * (T.val / M.val * (|r.val| + σ.val ^ 2 / 2))) := by
  rw [eT] at eQ
  obtain ⟨one, o1, o2⟩ := c_one
  obtain ⟨two, t1, t2⟩ := c_two
  obtain ⟨half, f1, f2⟩ := c_half
  obtain ⟨five, v1, v2⟩ := c_five
  have ihalf : In (-1) (-1) (1 / 2) := ⟨by norm_num, by norm_num⟩
  have i2 : In 1 1 2 := ⟨by norm_num, by norm_num⟩
  have i5 : In 2 3 5 := ⟨by norm_num, by norm_num⟩
  -- the time step
  obtain ⟨dt, dt1, dt2⟩ := ((Near.refl iT.pos).div (Near.refl iM.pos) le_rfl le_rfl (by norm_num) (by norm_num)).round
    (by norm_num) (by norm_num) ((iT.div iM).mid (by norm_num) (by norm_num))
  have edt : o.dt = fin dt := by
    unfold Pricer.dt
    rw [eT, m1]
    show (if M.val = 0 then _ else ofQ (T.val / M.val)) = _
    rw [if_neg iM.pos.ne', dt1]
  -- the squared volatility
  obtain ⟨σσ, s1, s2⟩ := ((Near.refl iσ.pos).mul (Near.refl iσ.pos) le_rfl le_rfl (by norm_num) (by norm_num)).round
    (by norm_num) (by norm_num) ((iσ.mul iσ).mid (by norm_num) (by norm_num))
  have eσσ : o.volatility.mul o.volatility = fin σσ := by rw [eσ]; exact s1
  -- the numerator
  obtain ⟨hd, hd1, hd2⟩ := ((Near.refl ihalf.pos).mul dt2 le_rfl (by norm_num) (by norm_num) (by norm_num)).round
    (by norm_num) (by norm_num) ((ihalf.mul (iT.div iM)).mid (by norm_num) (by norm_num))
  obtain ⟨nu, nu1, nu2⟩ := (hd2.mul s2 (by norm_num) (by norm_num) (by norm_num) (by norm_num)).round
    (by norm_num) (by norm_num) (((ihalf.mul (iT.div iM)).mul (iσ.mul iσ)).mid (by norm_num) (by norm_num))
  have enu : ((c (1 / 2)).mul o.dt).mul (o.volatility.mul o.volatility) = fin nu := by
    rw [edt, eσσ, f1]
    show (ofQ (half.val * dt.val)).mul _ = _
    rw [f2, hd1]
    exact nu1
  -- the width
  obtain ⟨w5, w51, w52⟩ := ((Near.refl i5.pos).mul (Near.refl iσ.pos) le_rfl le_rfl (by norm_num) (by norm_num)).round
    (by norm_num) (by norm_num) ((i5.mul iσ).mid (by norm_num) (by norm_num))
  obtain ⟨w, w1, w2⟩ := (w52.mul (Near.refl iQ.pos) (by norm_num) le_rfl (by norm_num) (by norm_num)).round
    (by norm_num) (by norm_num) (((i5.mul iσ).mul iQ).mid (by norm_num) (by norm_num))
  have ew : o.width m = fin w := by
    unfold Pricer.width
    rw [eσ, v1, eT, eQ]
    show (ofQ (five.val * σ.val)).mul _ = _
    rw [v2, w51]
    exact w1
  obtain ⟨D, D1, D2⟩ := spread hL (w2.mono (by norm_num)) ⟨(((i5.mul iσ).mul iQ)).1, (((i5.mul iσ).mul iQ)).2.trans (by norm_num)⟩
  have iB := i2.mul ((i5.mul iσ).mul iQ)
  -- the price step
  obtain ⟨dx, dx1, dx2⟩ := (D2.div (Near.refl iN.pos) (by norm_num) le_rfl (by norm_num) (by norm_num)).round
    (by norm_num) (by norm_num) ((iB.div iN).mid (by norm_num) (by norm_num))
  have edx : o.dx m = fin dx := by
    unfold Pricer.dx Pricer.xMax Pricer.xMin
    rw [eL, ew, D1, n1]
    show (if N.val = 0 then _ else ofQ (D.val / N.val)) = _
    rw [if_neg iN.pos.ne', dx1]
  have idx := iB.div iN
  obtain ⟨dd, dd1, dd2⟩ := (dx2.mul dx2 (by norm_num) (by norm_num) (by norm_num) (by norm_num)).round
    (by norm_num) (by norm_num) ((idx.mul idx).mid (by norm_num) (by norm_num))
  have hdd : 0 < dd.val := by
    have := dd2.lo
    rw [eps_eq] at this
    exact lt_of_lt_of_le (mul_pos dd2.pos (by norm_num)) this
  -- the first coefficient
  have iX := ((ihalf.mul (iT.div iM)).mul (iσ.mul iσ)).div (idx.mul idx)
  obtain ⟨X, X1, X2⟩ := (nu2.div dd2 (by norm_num) (by norm_num) (by norm_num) (by norm_num)).round
    (by norm_num) (by norm_num) (iX.mid (by norm_num) (by norm_num))
  have eX : o.cx m = fin X := by
    unfold Pricer.cx
    rw [enu, edx]
    show (fin nu).div (ofQ (dx.val * dx.val)) = _
    rw [dd1]
    show (if dd.val = 0 then _ else ofQ (nu.val / dd.val)) = _
    rw [if_neg hdd.ne', X1]
  -- the second coefficient
  obtain ⟨q1, q11, q12⟩ := ((Near.refl ihalf.pos).mul s2 le_rfl (by norm_num) (by norm_num) (by norm_num)).round
    (by norm_num) (by norm_num) ((ihalf.mul (iσ.mul iσ)).mid (by norm_num) (by norm_num))
  have iG : In (-21) 11 (|r.val| + σ.val ^ 2 / 2) := by
    have i := ihalf.mul (iσ.mul iσ)
    have a := i.1
    have b := i.2
    norm_num at a b hr ⊢
    exact ⟨by nlinarith [abs_nonneg r.val], by nlinarith⟩
  obtain ⟨q2, q21, q22⟩ := (show Upto 4 (r.val - q1.val) (|r.val| + σ.val ^ 2 / 2) by
    have g := q12.hi
    have g' := q12.lo
    have a := abs_le.1 (le_refl |r.val|)
    have z := abs_nonneg r.val
    unfold Upto
    rw [eps_eq] at g g' ⊢
    have sq := mul_pos iσ.pos iσ.pos
    rw [abs_le]
    constructor <;> nlinarith).round (by norm_num) (by norm_num) (iG.mid (by norm_num) (by norm_num))
  obtain ⟨ny, ny1, ny2⟩ := (Upto.mul dt2 q22 (by norm_num) (by norm_num) (by norm_num) (by norm_num) iG.pos.le).round
    (by norm_num) (by norm_num) (((iT.div iM).mul iG).mid (by norm_num) (by norm_num))
  obtain ⟨dy, dy1, dy2⟩ := ((Near.refl i2.pos).mul dx2 le_rfl (by norm_num) (by norm_num) (by norm_num)).round
    (by norm_num) (by norm_num) ((i2.mul idx).mid (by norm_num) (by norm_num))
  have hdy : 0 < dy.val := by
    have := dy2.lo
    rw [eps_eq] at this
    exact lt_of_lt_of_le (mul_pos dy2.pos (by norm_num)) this
  have iY := ((in_const (i := 0) (j := 0) (b := 1) (by norm_num) (by norm_num)).div (i2.mul idx)).mul ((iT.div iM).mul iG)
  obtain ⟨Y, Y1, Y2⟩ := (Upto.mul (dy2.inv (by norm_num) (by norm_num)) ny2 (by norm_num) (by norm_num) (by norm_num) (by norm_num)
    ((iT.div iM).mul iG).pos.le).round (by norm_num) (by norm_num) (iY.mid (by norm_num) (by norm_num))
  have eY : o.cy m = fin Y := by
    unfold Pricer.cy
    rw [edt, eσσ, edx, f1, t1, er]
    show ((fin dt).mul ((fin r).sub (ofQ (half.val * σσ.val)))).div (ofQ (two.val * dx.val)) = _
    rw [f2, t2, q11, dy1, sub_fin, q21]
    show (ofQ (dt.val * q2.val)).div (fin dy) = _
    rw [ny1]
    show (if dy.val = 0 then _ else ofQ (ny.val / dy.val)) = _
    rw [if_neg hdy.ne', ← Y1, one_div_mul_eq_div]
  refine ⟨X, Y, eX, eY, X2.mono (by norm_num), ?_⟩
  unfold Upto at Y2 ⊢
  exact Y2.trans (mul_le_mul_of_nonneg_left (by rw [eps_eq]; norm_num) iY.pos.le)

/-- The estimates in terms of the numbers of steps. -/
theorem ratio {X Y σ T Q N M G : ℚ} (pσ : 0 < σ) (pT : 0 < T) (pM : 1 ≤ M) (pN : 0 < N) (pG : 0 < G) (Q0 : 0 < Q)
    (nQ : Near 1 (Q * Q) T) (qN2 : N ≤ 2 ^ 20) (qM2 : M ≤ 5 * N ^ 2) (hdrift : 450 * T * G ^ 2 ≤ σ ^ 2 * N ^ 2)
    (X2 : Near 40 X (1 / 2 * (T / M) * (σ * σ) / (2 * (5 * σ * Q) / N * (2 * (5 * σ * Q) / N))))
    (Y2 : Upto 40 Y (1 / (2 * (2 * (5 * σ * Q) / N)) * (T / M * G))) :
    2 ^ (-10 : ℤ) ≤ X ∧ X ≤ 2 ^ 40 ∧ 2 * |Y| ≤ X ∧ N ^ 2 / (201 * M) ≤ X ∧ X ≤ N ^ 2 / (199 * M) := by
  have pM0 : 0 < M := by linarith
  have bX : 1 / 2 * (T / M) * (σ * σ) / (2 * (5 * σ * Q) / N * (2 * (5 * σ * Q) / N)) =
      N ^ 2 * T / (200 * M * (Q * Q)) := by
    field_simp
    ring
  have bY : 1 / (2 * (2 * (5 * σ * Q) / N)) * (T / M * G) = T * G * N / (20 * σ * Q * M) := by
    field_simp
    ring
  have nlo := nQ.lo
  have nhi := nQ.hi
  have xlo := X2.lo
  have xhi := X2.hi
  rw [bX] at xlo xhi
  unfold Upto at Y2
  rw [bY] at Y2
  rw [eps_eq] at nlo nhi xlo xhi Y2
  have pQQ : 0 < Q * Q := mul_pos Q0 Q0
  have hTlo : 1 / 200 * (N ^ 2 / M) * (1 - 2 / 1048576) ≤ N ^ 2 * T / (200 * M * (Q * Q)) := by
    rw [le_div_iff₀ (by positivity)]
    have : 1 / 200 * (N ^ 2 / M) * (1 - 2 / 1048576) * (200 * M * (Q * Q)) =
      N ^ 2 * ((1 - 2 / 1048576) * (Q * Q)) := by field_simp
    rw [this]
    exact mul_le_mul_of_nonneg_left (by linarith) (by positivity)
  have hThi : N ^ 2 * T / (200 * M * (Q * Q)) ≤ 1 / 200 * (N ^ 2 / M) * (1 + 2 / 1048576) := by
    rw [div_le_iff₀ (by positivity)]
    have : 1 / 200 * (N ^ 2 / M) * (1 + 2 / 1048576) * (200 * M * (Q * Q)) = N ^ 2 * ((1 + 2 / 1048576) * (Q * Q)) := by field_simp
    rw [this]
    exact mul_le_mul_of_nonneg_left (by linarith) (by positivity)
  have hNM : 1 / 5 ≤ N ^ 2 / M := by
    rw [le_div_iff₀ pM0]
    linarith
  have hNM2 : N ^ 2 / M ≤ 2 ^ 40 := by
    rw [div_le_iff₀ pM0]
    have : N ^ 2 ≤ (2 ^ 20) ^ 2 := pow_le_pow_left₀ (by linarith) qN2 2
    norm_num at this ⊢
    nlinarith
  have lower : N ^ 2 / (201 * M) ≤ X := by
    rw [show N ^ 2 / (201 * M) = 1 / 201 * (N ^ 2 / M) by field_simp]
    norm_num at xlo
    nlinarith
  have upper : X ≤ N ^ 2 / (199 * M) := by
    rw [show N ^ 2 / (199 * M) = 1 / 199 * (N ^ 2 / M) by field_simp]
    norm_num at xhi
    nlinarith
  refine ⟨?_, ?_, ?_, lower, upper⟩
  · refine le_trans ?_ lower
    rw [show N ^ 2 / (201 * M) = 1 / 201 * (N ^ 2 / M) by field_simp]
    norm_num
    linarith
  · norm_num at xhi hNM2 ⊢
    nlinarith
  · have key : 21 * Q * G ≤ σ * N := by
      refine le_of_sq_le_sq ?_ (by positivity)
      have : (21 * Q * G) ^ 2 = 441 * (Q * Q) * G ^ 2 := by ring
      rw [this, mul_pow]
      refine le_trans ?_ hdrift
      exact mul_le_mul_of_nonneg_right (by linarith) (by positivity)
    have e : N ^ 2 * T / (200 * M * (Q * Q)) = T * N / (200 * M * Q * σ) * (σ * N / Q) := by field_simp
    have e' : T * G * N / (20 * σ * Q * M) = T * N / (200 * M * Q * σ) * (10 * G) := by field_simp; ring
    rw [e] at xlo
    rw [e'] at Y2
    have hK : 0 < T * N / (200 * M * Q * σ) := by positivity
    have key' : 21 * G ≤ σ * N / Q := by rw [le_div_iff₀ Q0]; linarith
    generalize T * N / (200 * M * Q * σ) = K at *
    generalize σ * N / Q = Z at *
    have g1 := mul_le_mul_of_nonneg_left key' hK.le
    have g2 := mul_pos hK pG
    norm_num at xlo Y2
    linarith

theorem coefficients {m : Libm} {o : Pricer} (h : Ordinary m o) :
    ∃ X Y : F64, o.cx m = fin X ∧ o.cy m = fin Y ∧ 2 ^ (-10 : ℤ) ≤ X.val ∧ X.val ≤ 2 ^ 40 ∧ 2 * |Y.val| ≤ X.val ∧
      (o.priceSteps : ℚ) ^ 2 / (201 * o.timeSteps) ≤ X.val ∧ X.val ≤ (o.priceSteps : ℚ) ^ 2 / (199 * o.timeSteps) := by
  obtain ⟨⟨r, σ, T, L, Q, er, eσ, eT, eL, eQ, σ1, σ2, T1, T2, hL, Q0, hQ, hr, hdrift⟩, N1, N2, M1, M2⟩ := h
  have hN2 : o.priceSteps ^ 2 ≤ 2 ^ 40 := (Nat.pow_le_pow_left N2 2).trans (by norm_num)
  obtain ⟨N, n1, n2⟩ := ofNat_val (n := o.priceSteps) (by omega) (by norm_num at N2 ⊢; omega)
  obtain ⟨M, m1, m2⟩ := ofNat_val (n := o.timeSteps) (by omega) (by norm_num at hN2 ⊢; omega)
  have qN1 : (4:ℚ) ≤ N.val := by rw [n2]; exact_mod_cast N1
  have qN2 : N.val ≤ 2 ^ 20 := by rw [n2]; exact_mod_cast N2
  have qM1 : (1:ℚ) ≤ M.val := by rw [m2]; exact_mod_cast M1
  have qM2 : M.val ≤ 5 * N.val ^ 2 := by rw [m2, n2]; exact_mod_cast M2
  rw [← n2] at hdrift
  rw [← n2, ← m2]
  have iσ : In (-10) 4 σ.val := ⟨σ1, by simpa using σ2⟩
  have iT : In (-10) 10 T.val := ⟨T1, by simpa using T2⟩
  have iN : In 2 20 N.val := ⟨by norm_num; linarith, by norm_num at qN2 ⊢; linarith⟩
  have iM : In 0 43 M.val := ⟨by norm_num; linarith, by
    have : N.val ^ 2 ≤ (2 ^ 20) ^ 2 := pow_le_pow_left₀ (by linarith) qN2 2
    norm_num at this ⊢; linarith⟩
  have hQ1 := (abs_le.1 hQ).1
  have hQ2 := (abs_le.1 hQ).2
  have nQ : Near 1 (Q.val * Q.val) T.val := by
    refine ⟨iT.pos, ?_, ?_⟩ <;> unfold eps <;> nlinarith
  have iQ : In (-6) 6 Q.val := by
    constructor
    · by_contra hcon
      push Not at hcon
      norm_num at hcon hQ1 T1
      nlinarith
    · by_contra hcon
      push Not at hcon
      norm_num at hcon hQ2 T2
      nlinarith
  obtain ⟨X, Y, eX, eY, X2, Y2⟩ := estimates er eσ eT eL eQ iσ iT hL iQ hr n1 m1 iN iM
  have pG : 0 < |r.val| + σ.val ^ 2 / 2 := by
    have := abs_nonneg r.val
    have := pow_pos iσ.pos 2
    linarith
  exact ⟨X, Y, eX, eY, ratio iσ.pos iT.pos qM1 iN.pos pG Q0 nQ qN2 qM2 hdrift X2 Y2⟩

end Pricer

end Verif.Float.Fd
