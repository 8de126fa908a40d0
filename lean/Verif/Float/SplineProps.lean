import Verif.Float.SplineTerms

/-!
# C111: values of splines in double precision
-/

namespace Verif.Float.Spline

open X64 Nan Finset
open Verif.Math.BSpline (Spline N N_nonneg N_support N_zero N_sum knot_mono C39_value)

/-- **C111**: whatever a spline of the right lengths holds, infinities and NaN included, `interpolate` returns. -/
theorem C111_total (s : Spline X64) (p : X64) (h : s.knots.length = s.ctrl.length + s.degree + 1) : ∃ r, interpolate s p = some r := by
  unfold interpolate
  rw [List.getElem?_eq_getElem (show s.degree < s.knots.length by omega),
    List.getElem?_eq_getElem (show s.knots.length - s.degree - 1 < s.knots.length by omega)]
  obtain ⟨r, hr⟩ := sumFrom_total s.knots p s.degree 0 s.ctrl zero (by omega)
  simp only [Option.bind_eq_bind, Option.bind_some, hr]
  split_ifs with h1 h2
  · omega
  · exact ⟨_, rfl⟩
  · exact ⟨_, rfl⟩
  · exact ⟨_, rfl⟩

/-- **C111**: on finite knots and control points the points that are refused are exactly those the exact spline refuses. -/
theorem C111_errors {D : Data} (hD : D.Valid) (p : F64) :
    interpolate D.spline (fin p) = some (.error ()) ↔ D.exact.interpolate p.val = some (.error ()) := by
  rw [interpolate_eq hD, C39_value D.exact hD.reachable]
  change _ ↔ some (if D.exact.knot D.degree ≤ p.val ∧ p.val ≤ D.exact.knot (D.ctrl.map F64.val).length then _ else _) = _
  rw [List.length_map]
  obtain ⟨r, hr⟩ := sumFrom_total (D.knots.map fin) (fin p) D.degree 0 (D.ctrl.map fin) zero (by
    rw [List.length_map, List.length_map, hD.len]; omega)
  rw [hr]
  split_ifs <;> simp

/-- **C111**: the value of a spline of degree `d`, computed in double precision, is within `(5 d + 1) 2^-52 M` of the exact one, where `M` bounds the control
points that matter at the point; the rest is about underflow. The knots have to be moderate. -/
theorem C111_spline_error {D : Data} (hD : D.Valid) (hm : D.Moderate) (hd : D.degree ≤ 50) {p : F64} {M v : ℚ} (hM0 : 0 ≤ M) (hM : M ≤ 2 ^ 900)
    (hc : ∀ i c, D.Active p.val i c → |c.val| ≤ M) (hv : D.exact.interpolate p.val = some (.ok v)) :
    ∃ r, interpolate D.spline (fin p) = some (.ok (fin r)) ∧
      |r.val - v| ≤ (5 * D.degree + 1) * 2 ^ (-52 : ℤ) * M + (1 + M) * 2 ^ (-900 : ℤ) := by
  have ht := hD.mono
  have hl := hD.len
  rw [C39_value D.exact hD.reachable] at hv
  change some (if D.exact.knot D.degree ≤ p.val ∧ p.val ≤ D.exact.knot (D.ctrl.map F64.val).length then
    Except.ok (∑ i ∈ range (D.ctrl.map F64.val).length, N D.exact.knot p.val D.degree i * (D.ctrl.map F64.val).getD i 0) else _) = _ at hv
  rw [List.length_map] at hv
  split_ifs at hv with hr
  · rw [Option.some.injEq, Except.ok.injEq] at hv
    rw [interpolate_eq hD, if_pos hr]
    have hp : |p.val| ≤ 2 ^ 500 := by
      obtain ⟨a, ha, -, a2⟩ := knot_at D (show D.degree < D.knots.length by omega)
      obtain ⟨b, hb, -, b2⟩ := knot_at D (show D.ctrl.length < D.knots.length by omega)
      rw [a2, b2] at hr
      exact abs_le.2 ⟨(abs_le.1 (hm.1 a ha)).1.trans hr.1, hr.2.trans (abs_le.1 (hm.1 b hb)).2⟩
    obtain ⟨ts, h1, h2, h3, h4⟩ := terms_near hD hm hd hp hM D.ctrl 0 (by omega) (by
      intro k c hk hN
      rw [Nat.zero_add] at hN
      obtain ⟨s1, s2⟩ := N_support ht p.val D.degree k hN
      exact hc k c ⟨hk, s1, s2⟩)
    simp only [Nat.zero_add] at h2 h3 h4
    rw [hv] at h3
    have hS := N_sum_le ht p.val D.degree D.ctrl.length hr.1
    have hS0 : 0 ≤ ∑ k ∈ range D.ctrl.length, N D.exact.knot p.val D.degree k := Finset.sum_nonneg fun i _ => N_nonneg ht _ _ _
    have hlen : ts.length ≤ D.degree + 1 := h2 ▸ few ht p.val D.degree D.ctrl.length
    have hE := rel_le D.degree hd
    have hE0 := rel_nonneg D.degree
    have hA := absolute_le D.degree hd
    have hA0 := absolute_nonneg D.degree
    have hu := u_pos
    have hus := u_small
    have he := eta_pos
    have hd' : (D.degree : ℚ) ≤ 50 := by exact_mod_cast hd
    have hd0 : (0 : ℚ) ≤ D.degree := Nat.cast_nonneg _
    have hn : (ts.length : ℚ) ≤ D.degree + 1 := by exact_mod_cast hlen
    have hn0 : (0 : ℚ) ≤ ts.length := Nat.cast_nonneg _
    have hn1 : ((ts.length - 1 : ℕ) : ℚ) ≤ D.degree := by exact_mod_cast (by omega : ts.length - 1 ≤ D.degree)
    have hn10 : (0 : ℚ) ≤ (ts.length - 1 : ℕ) := Nat.cast_nonneg _
    have hε : (2 : ℚ) ^ (-52 : ℤ) = 2 * u := by unfold u; norm_num
    have heta : eta ≤ 2 ^ (-923 : ℤ) := by unfold eta; exact zpow_le_zpow_right₀ (by norm_num) (by norm_num)
    have hδ : (2 : ℚ) ^ (-900 : ℤ) = 2 ^ 23 * 2 ^ (-923 : ℤ) := by
      rw [← zpow_natCast, ← zpow_add₀ (by norm_num)]; norm_num
    have hδ0 : (0 : ℚ) < 2 ^ (-923 : ℤ) := by positivity
    have hδ1 : (2 : ℚ) ^ (-923 : ℤ) ≤ 1 := zpow_le_one_of_nonpos₀ (by norm_num) (by norm_num)
    have hU : (ts.length : ℚ) * (2 * absolute D.degree * M + eta) ≤ 153 * (2 ^ (-923 : ℤ) * (1 + M)) := by
      have k1 : absolute D.degree * M ≤ 2 ^ (-923 : ℤ) * M := mul_le_mul_of_nonneg_right hA hM0
      have k2 : 0 ≤ absolute D.degree * M := mul_nonneg hA0 hM0
      have k3 : (ts.length : ℚ) * (2 * absolute D.degree * M + eta) ≤ 51 * (2 * absolute D.degree * M + eta) :=
        mul_le_mul_of_nonneg_right (by linarith) (by linarith)
      have k4 := mul_nonneg hδ0.le hM0
      linarith
    have hU0 : 0 ≤ (ts.length : ℚ) * (2 * absolute D.degree * M + eta) :=
      mul_nonneg hn0 (by linarith [mul_nonneg hA0 hM0])
    have hMS : M * ∑ k ∈ range D.ctrl.length, N D.exact.knot p.val D.degree k ≤ M := mul_le_of_le_one_right hM0 hS
    have hMS0 := mul_nonneg hM0 hS0
    have hE' : (1 + u) * (1 + rel D.degree) ≤ 1 + ((8 * D.degree + 1) * u + u / 2) := by
      have k1 : u * rel D.degree ≤ u * (1 / 2) := by
        refine mul_le_mul_of_nonneg_left (hE.trans ?_) hu.le
        have : (D.degree : ℚ) * u ≤ 50 * u := mul_le_mul_of_nonneg_right hd' hu.le
        linarith
      linarith
    have hE1 : 1 ≤ (1 + u) * (1 + rel D.degree) := by nlinarith
    generalize M * ∑ k ∈ range D.ctrl.length, N D.exact.knot p.val D.degree k = W at *
    generalize (1 + u) * (1 + rel D.degree) = G at *
    generalize (ts.length : ℚ) * (2 * absolute D.degree * M + eta) = U at *
    have hdu : (D.degree : ℚ) * u ≤ 50 * u := mul_le_mul_of_nonneg_right hd' hu.le
    have hdu0 : 0 ≤ (D.degree : ℚ) * u := mul_nonneg hd0 hu.le
    have hG2 : G ≤ 2 := by linarith
    have hGW : G * W ≤ G * M := mul_le_mul_of_nonneg_left hMS (by linarith)
    have hGW' : (G - 1) * W ≤ (G - 1) * M := mul_le_mul_of_nonneg_left hMS (by linarith)
    obtain ⟨s, hs⟩ := sum_from_total ts F64.zero (by
      rw [F0, abs_zero, _root_.zero_add]
      have k1 : (1 + u) ^ ts.length ≤ 2 := by
        refine (pow_bound ts.length (by omega)).trans ?_
        rw [hε]
        have : (ts.length : ℚ) * (2 * u) ≤ 51 * (2 * u) := mul_le_mul_of_nonneg_right (by linarith) (by linarith)
        linarith
      have k2 : absSum ts ≤ 2 ^ 9 * 2 ^ 900 := by
        have k3 : G * M ≤ 2 * M := mul_le_mul_of_nonneg_right hG2 hM0
        have k4 : (2 : ℚ) ^ (-923 : ℤ) * (1 + M) ≤ 1 * (1 + M) := mul_le_mul_of_nonneg_right hδ1 (by linarith)
        have k5 : (1 : ℚ) ≤ 2 ^ 900 := one_le_pow₀ (by norm_num)
        have k6 : absSum ts ≤ 2 * M + 153 * (1 + M) := by linarith
        generalize (2 : ℚ) ^ 900 = T at *
        linarith
      have k0 : 0 ≤ absSum ts := absSum_nonneg ts
      have k7 : (2 : ℚ) * (2 ^ 9 * 2 ^ 900) < 2 ^ 1024 := by
        rw [← pow_add, ← pow_succ']
        exact pow_lt_pow_right₀ (by norm_num) (by norm_num)
      generalize (2 : ℚ) ^ 900 = T at *
      refine lt_of_le_of_lt (mul_le_mul k1 k2 k0 (by norm_num)) k7)
    refine ⟨s, by rw [h1 zero]; rw [show zero = fin F64.zero from rfl, sum_of hs]; rfl, ?_⟩
    have e1 := sum_error ts (by omega) s hs
    rw [hε] at e1
    have e2 : ((ts.length - 1 : ℕ) : ℚ) * (2 * u) * absSum ts ≤ D.degree * (2 * u) * (G * M + U) :=
      mul_le_mul (mul_le_mul_of_nonneg_right hn1 (by linarith)) (by linarith) (absSum_nonneg ts) (mul_nonneg hd0 (by linarith))
    have e3 : |s.val - v| ≤ |s.val - exactSum ts| + |exactSum ts - v| := abs_sub_le _ _ _
    have e4 : (G - 1) * M ≤ ((8 * D.degree + 1) * u + u / 2) * M := mul_le_mul_of_nonneg_right (by linarith) hM0
    have e5 : (D.degree : ℚ) * (2 * u) * (G * M) ≤ (2 * (D.degree * u) + u / 2) * M := by
      have : (D.degree : ℚ) * u * (G - 1) ≤ u / 4 := by
        have k1 : G - 1 ≤ 1 / 200 := by linarith
        have k2 : (D.degree : ℚ) * u * (G - 1) ≤ (50 * u) * (1 / 200) := mul_le_mul hdu k1 (by linarith) (by linarith)
        linarith
      have k := mul_le_mul_of_nonneg_right this hM0
      linarith
    have e6 : (D.degree : ℚ) * (2 * u) * U ≤ 1 * U := mul_le_mul_of_nonneg_right (by linarith) hU0
    rw [hδ, hε]
    have hδM := mul_nonneg hδ0.le hM0
    generalize (2 : ℚ) ^ (-923 : ℤ) = δ at *
    nlinarith
  · simp at hv

end Verif.Float.Spline
