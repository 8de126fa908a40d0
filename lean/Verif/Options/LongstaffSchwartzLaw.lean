import Verif.Options.LongstaffSchwartzProps
import Verif.Stochastics.SimulationProbProps

/-!
# C75: scaling and the distribution of the simulated paths
-/

namespace Verif.Options

open Real Polynomial MeasureTheory ProbabilityTheory

theorem lsPayoff_scale {l : ℝ} (hl : 0 < l) (flag : TypeFlag) (k s : ℝ) :
    Spec.lsPayoff flag (l * k) (l * s) = l * Spec.lsPayoff flag k s := by
  unfold Spec.lsPayoff
  cases flag <;> simp only [← mul_sub] <;> rw [mul_max_of_nonneg _ _ hl.le, mul_zero]

theorem bestFit_scale {n : ℕ} {s : Finset (Fin n)} {S y : Fin n → ℝ} {l : ℝ} (hl : 0 < l) {p : ℝ[X]}
    (h : ∀ q, Spec.BestFit s S y q ↔ q = p) :
    ∀ q, Spec.BestFit s (fun i => l * S i) (fun i => l * y i) q ↔ q = C l * p.comp (C l⁻¹ * X) := by
  have h1 := bestFit_comp (s := s) (x := S) (S := fun i => l * S i) (y := y) (u := C l⁻¹ * X) (w := C l * X)
    (by compute_degree) (by compute_degree)
    (by rw [mul_comp, C_comp, X_comp, ← mul_assoc, ← C_mul, inv_mul_cancel₀ hl.ne', C_1, one_mul])
    (by rw [mul_comp, C_comp, X_comp, ← mul_assoc, ← C_mul, mul_inv_cancel₀ hl.ne', C_1, one_mul])
    (fun i _ => by simp [hl.ne']) h
  have hdeg : ∀ (c : ℝ) (q : ℝ[X]), q.degree < 5 → (C c * q).degree < 5 := by
    intro c q hq
    rw [degree_five] at hq ⊢
    exact (natDegree_C_mul_le c q).trans hq
  have hsq : ∀ q : ℝ[X], ∑ i ∈ s, (q.eval (l * S i) - l * y i) ^ 2
      = l ^ 2 * ∑ i ∈ s, ((C l⁻¹ * q).eval (l * S i) - y i) ^ 2 := by
    intro q
    rw [Finset.mul_sum]
    refine Finset.sum_congr rfl fun i _ => ?_
    simp only [eval_mul, eval_C]
    field_simp
  have hcc : ∀ q : ℝ[X], C l⁻¹ * (C l * q) = q := fun q => by
    rw [← mul_assoc, ← C_mul, inv_mul_cancel₀ hl.ne', C_1, one_mul]
  have hcc' : ∀ q : ℝ[X], C l * (C l⁻¹ * q) = q := fun q => by
    rw [← mul_assoc, ← C_mul, mul_inv_cancel₀ hl.ne', C_1, one_mul]
  have hl2 : (0:ℝ) < l ^ 2 := by positivity
  have key : ∀ q, Spec.BestFit s (fun i => l * S i) (fun i => l * y i) q ↔
      Spec.BestFit s (fun i => l * S i) y (C l⁻¹ * q) := by
    intro q
    constructor
    · rintro ⟨hq, hm⟩
      refine ⟨hdeg _ _ hq, fun r hr => ?_⟩
      have := hm (C l * r) (hdeg _ _ hr)
      simp only [hsq, hcc] at this
      exact le_of_mul_le_mul_left this hl2
    · rintro ⟨hq, hm⟩
      refine ⟨by rw [← hcc' q]; exact hdeg _ _ hq, fun r hr => ?_⟩
      simp only [hsq]
      exact mul_le_mul_of_nonneg_left (hm _ (hdeg _ _ hr)) hl2.le
  intro q
  rw [key, h1]
  constructor
  · intro e; rw [← e, hcc']
  · rintro rfl; rw [hcc]

theorem lsStep_scale {n : ℕ} {flag : TypeFlag} {k d l : ℝ} (hl : 0 < l) {S later now : Fin n → ℝ}
    (h : Spec.LsStep flag k d S later now) :
    Spec.LsStep flag (l * k) d (fun i => l * S i) (fun i => l * later i) (fun i => l * now i) := by
  classical
  have hitm : Spec.inTheMoney flag (l * k) (fun i => l * S i) = Spec.inTheMoney flag k S := by
    unfold Spec.inTheMoney
    ext i
    simp [lsPayoff_scale hl, hl]
  have hcard : ((Spec.inTheMoney flag k S).image fun i => l * S i).card
      = ((Spec.inTheMoney flag k S).image S).card := by
    rw [show ((Spec.inTheMoney flag k S).image fun i => l * S i)
      = ((Spec.inTheMoney flag k S).image S).image fun v => l * v by rw [Finset.image_image]; rfl]
    exact Finset.card_image_of_injective _ (mul_right_injective₀ hl.ne')
  unfold Spec.LsStep at h ⊢
  rw [hitm, hcard]
  rcases h with ⟨h1, h2⟩ | ⟨h1, p, hp, h2⟩
  · exact Or.inl ⟨h1, fun i => by show l * now i = d * (l * later i); rw [h2]; ring⟩
  · refine Or.inr ⟨h1, C l * p.comp (C l⁻¹ * X), ?_, fun i => ?_⟩
    · have := bestFit_scale hl hp
      intro q
      rw [← this q]
      simp only [mul_left_comm d l]
    · have e : (C l * p.comp (C l⁻¹ * X)).eval (l * S i) = l * p.eval (S i) := by
        simp [eval_comp, hl.ne']
      simp only [e, lsPayoff_scale hl, hl, mul_pos_iff_of_pos_left, mul_lt_mul_iff_right₀, h2]
      split_ifs
      · rfl
      · ring

theorem lsStep_unique {n : ℕ} {flag : TypeFlag} {k d : ℝ} {S later now now' : Fin n → ℝ}
    (h : Spec.LsStep flag k d S later now) (h' : Spec.LsStep flag k d S later now') : now = now' := by
  funext i
  rcases h with ⟨h1, h2⟩ | ⟨h1, p, hp, h2⟩ <;> rcases h' with ⟨h1', h2'⟩ | ⟨h1', p', hp', h2'⟩
  · rw [h2, h2']
  · omega
  · omega
  · have : p = p' := (hp' p).1 ((hp p).2 rfl)
    rw [h2, h2', this]

namespace LsPricer

/-- Multiplying the price and the strike by a positive number multiplies the option price by it. -/
theorem C75_homogeneous (env : LsEnv) (o : LsPricer) {l : ℝ} (hl : 0 < l) :
    ({ o with initialPrice := l * o.initialPrice, strikePrice := l * o.strikePrice } : LsPricer).generatePrice env
      = l * o.generatePrice env := by
  set o' : LsPricer := { o with initialPrice := l * o.initialPrice, strikePrice := l * o.strikePrice } with ho'
  have hpr : ∀ c : Fin o.n → ℝ, o'.prices c = fun i => l * o.prices c i := by
    intro c; funext i; simp only [prices, ho']; ring
  have hpay : ∀ s, o'.payoff (l * s) = l * o.payoff s := fun s => by
    rw [payoff_spec, payoff_spec]; exact lsPayoff_scale hl _ _ _
  have hst : ∀ S v : Fin o.n → ℝ, o'.exerciseStep (fun i => l * S i) (fun i => l * v i)
      = fun i => l * o.exerciseStep S v i := fun S v =>
    lsStep_unique (o'.exerciseStep_spec _ _) (lsStep_scale hl (o.exerciseStep_spec S v))
  have hb : ∀ (t : ℕ) (c v : Fin o.n → ℝ), o'.backward env t c (fun i => l * v i)
      = fun i => l * o.backward env t c v i := by
    intro t
    induction t with
    | zero => intro c v; rfl
    | succ t ih =>
      intro c v
      have e : o'.stepBack env c (t + 1) = o.stepBack env c (t + 1) := rfl
      show o'.backward env t (o'.stepBack env c (t + 1))
        (o'.exerciseStep (o'.prices (o'.stepBack env c (t + 1))) fun i => l * v i) = _
      rw [e, hpr, hst, ih]
      rfl
  have e0 : o'.endPoints env = o.endPoints env := rfl
  have e1 : (fun i => o'.payoff (o'.prices (o.endPoints env) i))
      = fun i => l * o.payoff (o.prices (o.endPoints env) i) := by
    funext i; rw [hpr, hpay]
  show (∑ i, o'.backward env (o.timeSteps - 1) (o'.endPoints env)
    (fun i => o'.payoff (o'.prices (o'.endPoints env) i)) i) / (o.n : ℝ) = _
  rw [e0, e1, hb, ← Finset.mul_sum, mul_div_assoc]
  rfl

end LsPricer

/-- The weight of normal `u` in the path `k` steps before its end. -/
noncomputable def lsWeight (vol T : ℝ) (N : ℕ) : ℕ → ℕ → ℝ
  | 0, u => if u = 0 then vol * √T else 0
  | k + 1, u => ((N - (k + 1) : ℕ) : ℝ) / (((N - (k + 1) : ℕ) : ℝ) + 1) * lsWeight vol T N k u
      + if u = N - (k + 1) then vol * √(((N - (k + 1) : ℕ) : ℝ) / (((N - (k + 1) : ℕ) : ℝ) + 1) * (T / N)) else 0

theorem lsWeight_support (vol T : ℝ) (N k u : ℕ) (hk : k < N) (h0 : u ≠ 0) (hu : u < N - k) :
    lsWeight vol T N k u = 0 := by
  induction k with
  | zero => simp [lsWeight, h0]
  | succ k ih => rw [lsWeight, ih (by omega) (by omega), if_neg (by omega)]; simp

theorem lsWeight_sq (vol T : ℝ) (hT : 0 ≤ T) (N k : ℕ) (hk : k < N) :
    ∑ u ∈ Finset.range N, lsWeight vol T N k u ^ 2 = vol ^ 2 * (((N - k : ℕ) : ℝ) * (T / N)) := by
  have hN : (0:ℝ) < N := by exact_mod_cast (by omega : 0 < N)
  induction k with
  | zero =>
    simp only [lsWeight, ite_pow, zero_pow two_ne_zero, ne_eq]
    rw [Finset.sum_ite_eq' , if_pos (Finset.mem_range.2 (by omega)), mul_pow, sq_sqrt hT, Nat.sub_zero]
    field_simp
  | succ k ih =>
    obtain ⟨t, ht⟩ : ∃ t, t = N - (k + 1) := ⟨_, rfl⟩
    have h1 : N - k = t + 1 := by omega
    have hz : lsWeight vol T N k t = 0 := lsWeight_support vol T N k t (by omega) (by omega) (by omega)
    have e : ∀ u, lsWeight vol T N (k + 1) u ^ 2 = ((t:ℝ) / (t + 1)) ^ 2 * lsWeight vol T N k u ^ 2
        + if u = t then vol ^ 2 * ((t:ℝ) / (t + 1) * (T / N)) else 0 := by
      intro u
      rw [lsWeight, ← ht]
      by_cases hu : u = t
      · subst hu
        simp only [if_true, hz]
        rw [mul_zero, zero_add, mul_pow, sq_sqrt (by positivity)]
        ring
      · simp only [hu, if_false]; ring
    rw [Finset.sum_congr rfl fun u _ => e u, Finset.sum_add_distrib, ← Finset.mul_sum, ih (by omega),
      Finset.sum_ite_eq', if_pos (Finset.mem_range.2 (by omega)), h1, ← ht]
    push_cast
    have : (0:ℝ) < t + 1 := by positivity
    field_simp

theorem lsWeight_inner (vol T : ℝ) (hT : 0 ≤ T) (N j m : ℕ) (hk : j + m < N) :
    ∑ u ∈ Finset.range N, lsWeight vol T N j u * lsWeight vol T N (j + m) u
      = vol ^ 2 * (((N - (j + m) : ℕ) : ℝ) * (T / N)) := by
  have hN : (0:ℝ) < N := by exact_mod_cast (by omega : 0 < N)
  induction m with
  | zero => rw [add_zero, ← lsWeight_sq vol T hT N j (by omega)]; exact Finset.sum_congr rfl fun u _ => (sq _).symm
  | succ m ih =>
    obtain ⟨t, ht⟩ : ∃ t, t = N - (j + m + 1) := ⟨_, rfl⟩
    have h1 : N - (j + m) = t + 1 := by omega
    have hz : lsWeight vol T N j t = 0 := lsWeight_support vol T N j t (by omega) (by omega) (by omega)
    have e : ∀ u, lsWeight vol T N j u * lsWeight vol T N (j + m + 1) u
        = (t:ℝ) / (t + 1) * (lsWeight vol T N j u * lsWeight vol T N (j + m) u) := by
      intro u
      rw [lsWeight.eq_2, ← ht]
      by_cases hu : u = t
      · subst hu; simp [hz]
      · simp only [hu, if_false]; ring
    rw [← add_assoc, Finset.sum_congr rfl fun u _ => e u, ← Finset.mul_sum, ih (by omega), h1, ← ht]
    push_cast
    have : (0:ℝ) < t + 1 := by positivity
    field_simp

theorem lsPath_eq {rate vol T : ℝ} {N : ℕ} {z X : ℕ → ℝ} (h : Spec.LsPath rate vol T N z X) (k : ℕ) (hk : k < N) :
    X (N - k) = (rate - vol ^ 2 / 2) * (((N - k : ℕ) : ℝ) * (T / N))
      + ∑ u ∈ Finset.range N, lsWeight vol T N k u * z u := by
  have hN : (0:ℝ) < N := by exact_mod_cast (by omega : 0 < N)
  induction k with
  | zero =>
    simp only [lsWeight, ite_mul, zero_mul]
    rw [Finset.sum_ite_eq', if_pos (Finset.mem_range.2 (by omega)), Nat.sub_zero, h.last]
    field_simp
  | succ k ih =>
    obtain ⟨t, ht⟩ : ∃ t, t = N - (k + 1) := ⟨_, rfl⟩
    have h1 : N - k = t + 1 := by omega
    have ih := ih (by omega)
    rw [h1] at ih
    have e : ∀ u, lsWeight vol T N (k + 1) u * z u = (t:ℝ) / (t + 1) * (lsWeight vol T N k u * z u)
        + if u = t then vol * √((t:ℝ) / (t + 1) * (T / N)) * z t else 0 := by
      intro u
      rw [lsWeight, ← ht]
      by_cases hu : u = t
      · subst hu; simp only [if_true]; ring
      · simp only [hu, if_false]; ring
    rw [← ht, Finset.sum_congr rfl fun u _ => e u, Finset.sum_add_distrib, ← Finset.mul_sum, Finset.sum_ite_eq',
      if_pos (Finset.mem_range.2 (by omega)), h.bridge t (by omega) (by omega), ih]
    push_cast
    have : (0:ℝ) < (t:ℝ) + 1 := by positivity
    field_simp
    ring

variable {Ω : Type} [MeasurableSpace Ω]

/-- An affine combination of independent standard normals is normal. -/
theorem law_affine {ρ : Measure Ω} [IsProbabilityMeasure ρ] {Z : ℕ → Ω → ℝ} (h : Stochastics.StdNormals ρ Z) (c : ℝ)
    (a : ℕ → ℝ) (n : ℕ) :
    ρ.map (fun ω => c + ∑ k ∈ Finset.range n, a k * Z k ω)
      = gaussianReal c (∑ k ∈ Finset.range n, a k ^ 2).toNNReal := by
  induction n with
  | zero => simp [Measure.map_const]
  | succ n ih =>
    have hind : IndepFun (fun ω => c + ∑ k ∈ Finset.range n, a k * Z k ω) (fun ω => a n * Z n ω) ρ := by
      have h1 := h.indep.indepFun_finset (Finset.range n) {n} (by simp) h.measurable
      have h2 := h1.comp (φ := fun v : (Finset.range n → ℝ) => c + ∑ k : Finset.range n, a k * v k)
        (ψ := fun v : (({n} : Finset ℕ) → ℝ) => a n * v ⟨n, by simp⟩) (by fun_prop) (by fun_prop)
      have e : (fun ω => c + ∑ k ∈ Finset.range n, a k * Z k ω)
          = (fun v : (Finset.range n → ℝ) => c + ∑ k : Finset.range n, a k * v k) ∘ fun ω i => Z i ω := by
        funext ω
        simp only [Function.comp]
        rw [Finset.sum_coe_sort (Finset.range n) fun k => a k * Z k ω]
      rw [e]
      exact h2
    have hn : ρ.map (fun ω => a n * Z n ω) = gaussianReal 0 ((a n) ^ 2).toNNReal := by
      have := gaussianReal_map_const_mul (μ := 0) (v := 1) (a n)
      rw [← h.law n, Measure.map_map (measurable_const_mul _) (h.measurable n)] at this
      rw [show (fun ω => a n * Z n ω) = (fun x => a n * x) ∘ Z n from rfl, this, mul_zero, mul_one]
      congr 1
      exact (Real.toNNReal_of_nonneg (sq_nonneg _)).symm
    have hm1 : Measurable fun ω => c + ∑ k ∈ Finset.range n, a k * Z k ω :=
      (Finset.measurable_fun_sum _ fun k _ => (h.measurable k).const_mul _).const_add _
    have hm2 : Measurable fun ω => a n * Z n ω := (h.measurable n).const_mul _
    have := hind.map_add_eq_map_conv_map₀' hm1.aemeasurable hm2.aemeasurable (by rw [ih]; infer_instance)
      (by rw [hn]; infer_instance)
    rw [ih, hn, gaussianReal_conv_gaussianReal, add_zero] at this
    rw [Finset.sum_range_succ, Real.toNNReal_add (Finset.sum_nonneg fun k _ => sq_nonneg _) (sq_nonneg _), ← this]
    congr 1
    funext ω
    simp [Finset.sum_range_succ, add_assoc]

/-- When the normals are independent, the simulated log-returns have the law of a Brownian motion with drift at the
steps: the point at step `t` is normal with mean `(rate - vol² / 2) t dt` and variance `vol² t dt`, and the move from
step `s` to step `t` is normal with mean `(rate - vol² / 2) (t - s) dt` and variance `vol² (t - s) dt`. -/
theorem C75_path_law (ρ : Measure Ω) [IsProbabilityMeasure ρ] (Z : ℕ → Ω → ℝ) (hZ : Stochastics.StdNormals ρ Z)
    (rate vol T : ℝ) (hT : 0 ≤ T) (N : ℕ) (X : ℕ → Ω → ℝ)
    (hX : ∀ ω, Spec.LsPath rate vol T N (fun u => Z u ω) fun t => X t ω) (t : ℕ) (h1 : 1 ≤ t) (h2 : t ≤ N) :
    ρ.map (X t) = gaussianReal ((rate - vol ^ 2 / 2) * (t * (T / N))) (vol ^ 2 * (t * (T / N))).toNNReal ∧
    ∀ s, 1 ≤ s → s < t → ρ.map (fun ω => X t ω - X s ω) =
      gaussianReal ((rate - vol ^ 2 / 2) * ((t - s) * (T / N))) (vol ^ 2 * ((t - s) * (T / N))).toNNReal := by
  obtain ⟨k, rfl, hk⟩ : ∃ k, t = N - k ∧ k < N := ⟨N - t, by omega, by omega⟩
  have ex : ∀ k, k < N → X (N - k) = fun ω => (rate - vol ^ 2 / 2) * (((N - k : ℕ) : ℝ) * (T / N))
      + ∑ u ∈ Finset.range N, lsWeight vol T N k u * Z u ω := fun k hk => funext fun ω => lsPath_eq (hX ω) k hk
  refine ⟨?_, fun s hs1 hs2 => ?_⟩
  · rw [ex k hk, law_affine hZ, lsWeight_sq vol T hT N k hk]
  · obtain ⟨m, rfl, hm⟩ : ∃ m, s = N - (k + m) ∧ k + m < N := ⟨N - s - k, by omega, by omega⟩
    have e : (fun ω => X (N - k) ω - X (N - (k + m)) ω) = fun ω =>
        (rate - vol ^ 2 / 2) * ((((N - k : ℕ) : ℝ) - ((N - (k + m) : ℕ) : ℝ)) * (T / N))
          + ∑ u ∈ Finset.range N, (lsWeight vol T N k u - lsWeight vol T N (k + m) u) * Z u ω := by
      funext ω
      rw [ex k hk, ex (k + m) hm]
      simp only [sub_mul, Finset.sum_sub_distrib]
      ring
    rw [e, law_affine hZ]
    congr 2
    have e2 : ∀ u, (lsWeight vol T N k u - lsWeight vol T N (k + m) u) ^ 2 = lsWeight vol T N k u ^ 2
        - 2 * (lsWeight vol T N k u * lsWeight vol T N (k + m) u) + lsWeight vol T N (k + m) u ^ 2 := fun u => by ring
    rw [Finset.sum_congr rfl fun u _ => e2 u, Finset.sum_add_distrib, Finset.sum_sub_distrib, ← Finset.mul_sum,
      lsWeight_sq vol T hT N k hk, lsWeight_sq vol T hT N (k + m) hm, lsWeight_inner vol T hT N k m hm]
    ring

/-- Two steps driven by independent standard normals. -/
example : ∃ (ρ : Measure (ℕ → ℝ)) (X : ℕ → (ℕ → ℝ) → ℝ), IsProbabilityMeasure ρ ∧
    ρ.map (X 1) = gaussianReal ((1 / 20 - (1 / 5) ^ 2 / 2) * (1 * (1 / 2))) ((1 / 5) ^ 2 * (1 * (1 / 2)) : ℝ).toNNReal := by
  obtain ⟨ρ, hρ, hZ⟩ := Stochastics.exists_stdNormals
  set Y : (ℕ → ℝ) → ℝ := fun ω => (1 / 20 - (1 / 5) ^ 2 / 2) * 1 + 1 / 5 * √1 * ω 0
  set X : ℕ → (ℕ → ℝ) → ℝ := fun t ω => if t = 1 then
    (1 : ℕ) / ((1 : ℕ) + 1) * Y ω + 1 / 5 * √((1 : ℕ) / ((1 : ℕ) + 1) * (1 / (2 : ℕ))) * ω 1 else Y ω with hX
  have := (C75_path_law ρ _ hZ (1 / 20) (1 / 5) 1 zero_le_one 2 X (fun ω => ⟨by simp [Y, hX], fun t h1 h2 => by
    obtain rfl : t = 1 := by omega
    simp [hX]⟩) 1 le_rfl (by norm_num)).1
  rw [Nat.cast_one, Nat.cast_ofNat] at this
  exact ⟨ρ, X, hρ, this⟩

namespace LsPricer

/-- With one step and standard normal draws the expected price is the Black-Scholes European price grown at the
risk-free rate to expiry: nothing is discounted. -/
theorem C75_single_step_bias (ρ : Measure Ω) [IsProbabilityMeasure ρ] (env : Ω → LsEnv) (o : LsPricer)
    (ho : o.Constructed) (hN : o.timeSteps = 1) (hm : ∀ i, Measurable fun ω => draws (env ω) o i 0)
    (hZ : ∀ i, ρ.map (fun ω => draws (env ω) o i 0) = gaussianReal 0 1) :
    ∫ ω, o.generatePrice (env ω) ∂ρ = exp (o.riskFreeRate * o.T) *
      (match o.typeFlag with
        | .call => Bsm.callPrice o.initialPrice o.strikePrice o.T o.riskFreeRate o.riskFreeRate o.volatility
        | .put => Bsm.putPrice o.initialPrice o.strikePrice o.T o.riskFreeRate o.riskFreeRate o.volatility) := by
  obtain ⟨hT, hS, hK, -, hv, -, hn⟩ := ho.pos
  have hn' : (o.n : ℝ) ≠ 0 := by exact_mod_cast hn.ne'
  set g : ℝ → ℝ := fun z => Spec.lsPayoff o.typeFlag o.strikePrice
    (spotAt o.initialPrice o.T o.riskFreeRate o.volatility z) with hg
  have hprice : ∀ ω, o.generatePrice (env ω) = (∑ i, g (draws (env ω) o i 0)) / o.n := by
    intro ω
    obtain ⟨X, V, hX, hV, -, hp⟩ := C75_backward_induction (env ω) o ho
    rw [hp]
    congr 1
    refine Finset.sum_congr rfl fun i _ => ?_
    have h1 := hV i
    have h2 := (hX i).last
    simp only [hN] at h1 h2
    rw [h1, h2]
    rfl
  have hgm : Measurable g := by
    simp only [hg, Spec.lsPayoff, spotAt]
    cases o.typeFlag <;> fun_prop
  have hgi : Integrable g (gaussianReal 0 1) := by
    have hi : Integrable (spotAt o.initialPrice o.T o.riskFreeRate o.volatility) (gaussianReal 0 1) :=
      Bsm.lognormal_integrable _ _ _
    simp only [hg, Spec.lsPayoff]
    cases o.typeFlag
    · exact (hi.sub (integrable_const o.strikePrice)).sup (integrable_const 0)
    · exact ((integrable_const o.strikePrice).sub hi).sup (integrable_const 0)
  have hint : ∀ i, Integrable (fun ω => g (draws (env ω) o i 0)) ρ := by
    intro i
    have : Integrable g (ρ.map fun ω => draws (env ω) o i 0) := by rw [hZ i]; exact hgi
    exact (integrable_map_measure hgm.aestronglyMeasurable (hm i).aemeasurable).1 this
  have hval : ∀ i, ∫ ω, g (draws (env ω) o i 0) ∂ρ = ∫ z, g z ∂gaussianReal 0 1 := by
    intro i
    rw [← hZ i, integral_map (hm i).aemeasurable hgm.aestronglyMeasurable]
  simp only [hprice]
  rw [integral_div, integral_finsetSum _ fun i _ => hint i, Finset.sum_congr rfl fun i _ => hval i, Finset.sum_const,
    Finset.card_univ, Fintype.card_fin, nsmul_eq_mul, mul_div_cancel_left₀ _ hn']
  obtain ⟨hc, hpu⟩ := Bsm.C47_expectation (r := o.riskFreeRate) (b := o.riskFreeRate) hS hK hT hv
  have hexp : exp (o.riskFreeRate * o.T) * exp (-o.riskFreeRate * o.T) = 1 := by rw [← exp_add]; simp
  simp only [hg, Spec.lsPayoff]
  cases o.typeFlag
  · simp only [hc]; rw [← mul_assoc, hexp, one_mul]
  · simp only [hpu]; rw [← mul_assoc, hexp, one_mul]

/-- Three simulations of one step, all driven by the same normal: the put comes out `e` times too dear. -/
example : ∫ ω, LsPricer.generatePrice ⟨fun _ _ => ω, fun _ => 0⟩ ⟨1, 2, 1, 1, 1, 1, .put, 3, none⟩ ∂gaussianReal 0 1
    = exp (1 * 1) * Bsm.putPrice 1 2 1 1 1 1 :=
  C75_single_step_bias (gaussianReal 0 1) (fun ω => ⟨fun _ _ => ω, fun _ => 0⟩) ⟨1, 2, 1, 1, 1, 1, .put, 3, none⟩
    (by unfold Constructed LsPricer.new; norm_num) rfl (fun _ => measurable_id) (fun _ => Measure.map_id)

end LsPricer

end Verif.Options
