import Verif.Options.LongstaffSchwartzLemmas
import Verif.Options.BsmProps

/-!
# C75: the Longstaff-Schwartz pricer
-/

namespace Verif.Options

open Real

namespace LsPricer

/-- The pricer is what `new` returns for its own fields. -/
def Constructed (o : LsPricer) : Prop :=
  LsPricer.new o.initialPrice o.strikePrice o.riskFreeRate o.volatility o.T o.timeSteps o.typeFlag o.n o.seed = some o

/-- The normals of the simulation: a pricer with a seed uses one generator per step, seeded with the seed plus the
step. -/
def draws (env : LsEnv) (o : LsPricer) (i : Fin o.n) (t : ℕ) : ℝ :=
  env.normals (match o.seed with
    | some s => (s + t) % 2 ^ 64
    | none => env.entropy t) i

/-- A pricer is made exactly when expiry is ahead, the price, strike, rate and volatility are positive and there is at
least one step and one simulation; it then holds the arguments. -/
theorem C75_new (S K r v T : ℝ) (N : ℕ) (flag : TypeFlag) (n : ℕ) (seed : Option ℕ) :
    (LsPricer.new S K r v T N flag n seed ≠ none ↔
      0 < T ∧ 0 < S ∧ 0 < K ∧ 0 < r ∧ 0 < v ∧ 0 < N ∧ 0 < n) ∧
    ∀ o, LsPricer.new S K r v T N flag n seed = some o →
      o.Constructed ∧ o.initialPrice = S ∧ o.strikePrice = K ∧ o.riskFreeRate = r ∧ o.volatility = v ∧ o.T = T ∧
        o.timeSteps = N ∧ o.typeFlag = flag ∧ o.n = n ∧ o.seed = seed := by
  unfold LsPricer.new Constructed
  constructor
  · split_ifs with h <;> simp [h]
  · intro o ho
    have ho' := ho
    split_ifs at ho with h
    simp only [Option.some.injEq] at ho
    subst ho
    exact ⟨ho', rfl, rfl, rfl, rfl, rfl, rfl, rfl, rfl, rfl⟩

theorem Constructed.pos {o : LsPricer} (h : o.Constructed) :
    0 < o.T ∧ 0 < o.initialPrice ∧ 0 < o.strikePrice ∧ 0 < o.riskFreeRate ∧ 0 < o.volatility ∧ 0 < o.timeSteps ∧
      0 < o.n := by
  unfold Constructed LsPricer.new at h
  split_ifs at h with hc
  exact hc

variable (env : LsEnv) (o : LsPricer)

/-- The chain after `k` steps back. -/
noncomputable def chainDown : ℕ → Fin o.n → ℝ
  | 0 => o.endPoints env
  | k + 1 => o.stepBack env (chainDown k) (o.timeSteps - (k + 1))

/-- The values after `k` steps back. -/
noncomputable def valDown : ℕ → Fin o.n → ℝ
  | 0 => fun i => o.payoff (o.prices (o.endPoints env) i)
  | k + 1 => o.exerciseStep (o.prices (o.chainDown env (k + 1))) (valDown k)

theorem backward_eq (t : ℕ) (k : ℕ) (h : k + t + 1 = o.timeSteps) :
    o.backward env t (o.chainDown env k) (o.valDown env k) = o.valDown env (k + t) := by
  induction t generalizing k with
  | zero => rfl
  | succ t ih =>
    have e : o.timeSteps - (k + 1) = t + 1 := by omega
    have e1 : o.stepBack env (o.chainDown env k) (t + 1) = o.chainDown env (k + 1) := by rw [chainDown, e]
    rw [backward, e1]
    have := ih (k + 1) (by omega)
    rw [valDown] at this
    rw [this]
    congr 1
    omega

/-- The price is the mean of the values left by the backward sweep along the simulated paths. -/
theorem C75_backward_induction (ho : o.Constructed) :
    ∃ X V : ℕ → Fin o.n → ℝ,
      (∀ i, Spec.LsPath o.riskFreeRate o.volatility o.T o.timeSteps (draws env o i) fun t => X t i) ∧
      (∀ i, V o.timeSteps i =
        Spec.lsPayoff o.typeFlag o.strikePrice (o.initialPrice * exp (X o.timeSteps i))) ∧
      (∀ t, 1 ≤ t → t < o.timeSteps → Spec.LsStep o.typeFlag o.strikePrice
        (exp (-o.riskFreeRate * (o.T / o.timeSteps))) (fun i => o.initialPrice * exp (X t i)) (V (t + 1)) (V t)) ∧
      o.generatePrice env = (∑ i, V 1 i) / o.n := by
  obtain ⟨hT, -, -, -, -, hN, -⟩ := ho.pos
  refine ⟨fun t => o.chainDown env (o.timeSteps - t), fun t => o.valDown env (o.timeSteps - t), ?_, ?_, ?_, ?_⟩
  · intro i
    have hseed : ∀ t, draws env o i t = env.normals (o.seedAt env t) i := fun t => by
      unfold draws seedAt; cases o.seed <;> rfl
    refine ⟨?_, ?_⟩
    · simp only [Nat.sub_self, chainDown, endPoints, hseed]
      ring
    · intro t h1 h2
      have e : o.timeSteps - t = (o.timeSteps - (t + 1)) + 1 := by omega
      have e2 : o.timeSteps - (o.timeSteps - (t + 1) + 1) = t := by omega
      have hdt : (0:ℝ) < o.T / o.timeSteps := div_pos hT (by exact_mod_cast hN)
      have ht : (0:ℝ) < t := by exact_mod_cast h1
      simp only []
      rw [e, chainDown, e2, hseed]
      simp only [stepBack, deltaT]
      have f1 : (t:ℝ) * (o.T / o.timeSteps) * (o.T / o.timeSteps) / (t * (o.T / o.timeSteps) + o.T / o.timeSteps)
          = (t:ℝ) / (t + 1) * (o.T / o.timeSteps) := by
        field_simp
      have f2 : ∀ c : ℝ, c * (t * (o.T / o.timeSteps)) / (t * (o.T / o.timeSteps) + o.T / o.timeSteps)
          = (t:ℝ) / (t + 1) * c := by
        intro c; field_simp
      rw [f1, f2]
  · intro i
    simp only [Nat.sub_self, valDown, chainDown, payoff_spec, prices]
  · intro t h1 h2
    have e : o.timeSteps - t = (o.timeSteps - (t + 1)) + 1 := by omega
    have := o.exerciseStep_spec (o.prices (o.chainDown env (o.timeSteps - (t + 1) + 1)))
      (o.valDown env (o.timeSteps - (t + 1)))
    simp only []
    rw [e, valDown]
    exact this
  · unfold generatePrice
    have := o.backward_eq env (o.timeSteps - 1) 0 (by omega)
    simp only [chainDown, valDown, zero_add] at this
    simp only []
    rw [this]

theorem lsPayoff_nonneg (flag : TypeFlag) (k s : ℝ) : 0 ≤ Spec.lsPayoff flag k s := le_max_right _ _

theorem step_cases {n : ℕ} {flag : TypeFlag} {k d : ℝ} {S later now : Fin n → ℝ}
    (h : Spec.LsStep flag k d S later now) (i : Fin n) :
    now i = Spec.lsPayoff flag k (S i) ∨ now i = d * later i := by
  rcases h with ⟨-, h⟩ | ⟨-, p, -, h⟩
  · exact Or.inr (h i)
  · rw [h i]; split_ifs <;> simp

/-- Every path is exercised once, at some step from the first to the last, and never at time zero. Its payoff is
discounted to the first step, not to the valuation date: each term is too large by the discount of one step. -/
theorem C75_stopping (ho : o.Constructed) :
    ∃ (X : ℕ → Fin o.n → ℝ) (stop : Fin o.n → ℕ),
      (∀ i, Spec.LsPath o.riskFreeRate o.volatility o.T o.timeSteps (draws env o i) fun t => X t i) ∧
      (∀ i, 1 ≤ stop i ∧ stop i ≤ o.timeSteps) ∧
      o.generatePrice env = exp (o.riskFreeRate * (o.T / o.timeSteps)) *
        ((∑ i, exp (-o.riskFreeRate * (stop i * (o.T / o.timeSteps))) *
          Spec.lsPayoff o.typeFlag o.strikePrice (o.initialPrice * exp (X (stop i) i))) / o.n) := by
  obtain ⟨X, V, hX, hV, hs, hp⟩ := C75_backward_induction env o ho
  have hN := ho.pos.2.2.2.2.2.1
  have key : ∀ k t, t + k = o.timeSteps → 1 ≤ t → ∀ i, ∃ τ, t ≤ τ ∧ τ ≤ o.timeSteps ∧
      V t i = exp (-o.riskFreeRate * (((τ : ℝ) - t) * (o.T / o.timeSteps))) *
        Spec.lsPayoff o.typeFlag o.strikePrice (o.initialPrice * exp (X τ i)) := by
    intro k
    induction k with
    | zero =>
      intro t ht _ i
      obtain rfl : t = o.timeSteps := by omega
      exact ⟨o.timeSteps, le_rfl, le_rfl, by rw [hV]; simp⟩
    | succ k ih =>
      intro t ht h1 i
      rcases step_cases (hs t h1 (by omega)) i with h | h
      · exact ⟨t, le_rfl, by omega, by rw [h]; simp⟩
      · obtain ⟨τ, a, b, c⟩ := ih (t + 1) (by omega) (by omega) i
        refine ⟨τ, by omega, b, ?_⟩
        rw [h, c, ← mul_assoc, ← exp_add]
        congr 2
        push_cast
        ring
  choose stop h1 h2 h3 using key (o.timeSteps - 1) 1 (by omega) le_rfl
  refine ⟨X, stop, hX, fun i => ⟨h1 i, h2 i⟩, ?_⟩
  rw [hp, mul_div_assoc', Finset.mul_sum]
  congr 1
  refine Finset.sum_congr rfl fun i _ => ?_
  rw [h3 i]
  conv_rhs => rw [← mul_assoc, ← exp_add]
  congr 2
  push_cast
  ring

/-- The price is not negative, and a put is worth less than its strike. -/
theorem C75_bounds (ho : o.Constructed) :
    0 ≤ o.generatePrice env ∧ (o.typeFlag = .put → o.generatePrice env < o.strikePrice) := by
  obtain ⟨hT, hS, hK, hr, -, hN, hn⟩ := ho.pos
  have hn' : (0:ℝ) < o.n := by exact_mod_cast hn
  have hN' : (0:ℝ) < o.timeSteps := by exact_mod_cast hN
  obtain ⟨X, stop, -, hst, hp⟩ := C75_stopping env o ho
  have e : o.generatePrice env = (∑ i, exp (-o.riskFreeRate * (((stop i : ℝ) - 1) * (o.T / o.timeSteps))) *
      Spec.lsPayoff o.typeFlag o.strikePrice (o.initialPrice * exp (X (stop i) i))) / o.n := by
    rw [hp, mul_div_assoc', Finset.mul_sum]
    congr 1
    refine Finset.sum_congr rfl fun i _ => ?_
    conv_lhs => rw [← mul_assoc, ← exp_add]
    congr 2
    ring
  refine ⟨?_, fun hf => ?_⟩
  · rw [e]
    exact div_nonneg (Finset.sum_nonneg fun i _ => mul_nonneg (exp_pos _).le (lsPayoff_nonneg _ _ _)) hn'.le
  · rw [e, div_lt_iff₀ hn']
    have hlt : ∀ i ∈ (Finset.univ : Finset (Fin o.n)),
        exp (-o.riskFreeRate * (((stop i : ℝ) - 1) * (o.T / o.timeSteps))) *
          Spec.lsPayoff o.typeFlag o.strikePrice (o.initialPrice * exp (X (stop i) i)) < o.strikePrice := by
      intro i _
      have h1 : (1:ℝ) ≤ stop i := by exact_mod_cast (hst i).1
      have hd : exp (-o.riskFreeRate * (((stop i : ℝ) - 1) * (o.T / o.timeSteps))) ≤ 1 := by
        rw [exp_le_one_iff]
        have : 0 ≤ ((stop i : ℝ) - 1) * (o.T / o.timeSteps) := mul_nonneg (by linarith) (by positivity)
        nlinarith
      have hpay : Spec.lsPayoff o.typeFlag o.strikePrice (o.initialPrice * exp (X (stop i) i)) < o.strikePrice := by
        rw [hf]
        unfold Spec.lsPayoff
        have : 0 < o.initialPrice * exp (X (stop i) i) := by positivity
        exact max_lt (by simpa using this) hK
      calc _ ≤ 1 * Spec.lsPayoff o.typeFlag o.strikePrice (o.initialPrice * exp (X (stop i) i)) :=
            mul_le_mul_of_nonneg_right hd (lsPayoff_nonneg _ _ _)
        _ < _ := by rwa [one_mul]
    have := Finset.sum_lt_sum_of_nonempty (s := (Finset.univ : Finset (Fin o.n))) ⟨⟨0, hn⟩, Finset.mem_univ _⟩ hlt
    simpa [mul_comm] using this

/-- With a seed the price depends on the seed alone, not on the entropy of the machine. -/
theorem C75_reproducible (env' : LsEnv) (hn : env.normals = env'.normals) (hs : o.seed ≠ none) :
    o.generatePrice env = o.generatePrice env' := by
  have e : ∀ t, o.seedAt env t = o.seedAt env' t := by
    intro t
    unfold seedAt
    cases h : o.seed with
    | none => exact absurd h hs
    | some s => rfl
  have e1 : o.endPoints env = o.endPoints env' := by unfold endPoints; simp only [e, hn]
  have e2 : o.stepBack env = o.stepBack env' := by funext c t i; simp only [stepBack, e, hn]
  have e3 : ∀ t c v, o.backward env t c v = o.backward env' t c v := by
    intro t
    induction t with
    | zero => intro c v; rfl
    | succ t ih => intro c v; simp only [backward, e2, ih]
  simp only [generatePrice, e1, e3]

/-- With a seed below `2 ^ 64` and at most `2 ^ 64` steps, no two steps share a generator. -/
theorem C75_generators_distinct {s : ℕ} (hs : o.seed = some s) {t t' : ℕ} (ht : t < 2 ^ 64) (ht' : t' < 2 ^ 64)
    (h : o.seedAt env t = o.seedAt env t') : t = t' := by
  simp only [seedAt, hs] at h
  omega

/-- The streams of a seed are those of the next seed one step later: seeds that differ by one share their normals. -/
theorem C75_neighbouring_seeds (o' : LsPricer) {s : ℕ} (hs : o.seed = some s) (hs' : o'.seed = some (s + 1))
    (t : ℕ) (i : Fin o.n) (i' : Fin o'.n) (hi : (i : ℕ) = i') :
    draws env o i (t + 1) = draws env o' i' t := by
  simp only [draws, hs, hs', hi, show s + (t + 1) = s + 1 + t by omega]

/-- Exercise today is never considered: a put in the money that drifts up without noise is priced below what exercising
it at once would pay. -/
theorem C75_below_intrinsic (ho : o.Constructed) (hf : o.typeFlag = .put) (hN : o.timeSteps = 1)
    (hs : o.initialPrice < o.strikePrice) (hr : o.volatility ^ 2 / 2 < o.riskFreeRate)
    (hz : ∀ i, draws env o i 0 = 0) : o.generatePrice env < o.strikePrice - o.initialPrice := by
  obtain ⟨hT, hS, -, -, -, -, hn⟩ := ho.pos
  have hn' : (0:ℝ) < o.n := by exact_mod_cast hn
  obtain ⟨X, V, hX, hV, -, hp⟩ := C75_backward_induction env o ho
  rw [hp, div_lt_iff₀ hn']
  have hlt : ∀ i ∈ (Finset.univ : Finset (Fin o.n)), V 1 i < o.strikePrice - o.initialPrice := by
    intro i _
    have h1 := hV i
    have h2 := (hX i).last
    simp only [hN, hz, mul_zero, add_zero] at h1 h2
    rw [h1, h2, hf]
    have : 1 < exp ((o.riskFreeRate - o.volatility ^ 2 / 2) * o.T) :=
      one_lt_exp_iff.2 (mul_pos (by linarith) hT)
    exact max_lt (by simp only; nlinarith) (by linarith)
  have := Finset.sum_lt_sum_of_nonempty (s := (Finset.univ : Finset (Fin o.n))) ⟨⟨0, hn⟩, Finset.mem_univ _⟩ hlt
  rw [Finset.sum_const, Finset.card_univ, Fintype.card_fin, nsmul_eq_mul, mul_comm] at this
  exact this

/-- A put with two steps and five simulations. -/
noncomputable def sample : LsPricer := ⟨1, 1, 1, 1, 1, 2, .put, 5, some 7⟩

theorem sample_constructed : sample.Constructed := by
  unfold Constructed LsPricer.new sample
  norm_num

/-- Normals for which the five paths of `sample` are at distinct prices below the strike at the first step. -/
noncomputable def sampleEnv : LsEnv := ⟨fun s i => if s = 8 then -1 - (i : ℝ) else 0, fun _ => 0⟩

/-- Example: the regression of C75_backward_induction is reached; `sample` has five distinct prices in the money. -/
example (X : ℕ → Fin 5 → ℝ) (hX : ∀ i, Spec.LsPath 1 1 1 2 (draws sampleEnv sample i) fun t => X t i) :
    5 ≤ ((Spec.inTheMoney .put 1 fun i => 1 * exp (X 1 i)).image fun i => 1 * exp (X 1 i)).card := by
  classical
  have h1 : ∀ i : Fin 5, X 1 i = -1 / 4 - (i : ℝ) / 2 := by
    intro i
    have a := (hX i).last
    have b := (hX i).bridge 1 le_rfl (by norm_num)
    have d0 : draws sampleEnv sample i 0 = 0 := by simp [draws, sample, sampleEnv]
    have d1 : draws sampleEnv sample i 1 = -1 - (i : ℝ) := by simp [draws, sample, sampleEnv]
    rw [d0] at a
    rw [d1] at b
    norm_num at a b
    rw [a] at b
    rw [b]
    ring
  have hall : (Spec.inTheMoney .put 1 fun i => 1 * exp (X 1 i)) = Finset.univ := by
    unfold Spec.inTheMoney
    rw [Finset.filter_true_of_mem]
    intro i _
    unfold Spec.lsPayoff
    have : exp (X 1 i) < 1 := by
      rw [exp_lt_one_iff, h1]
      have : (0:ℝ) ≤ (i : ℝ) := by positivity
      linarith
    exact lt_max_of_lt_left (by simp only; linarith)
  rw [hall, Finset.card_image_of_injective]
  · simp
  · intro i j hij
    simp only [one_mul, exp_eq_exp, h1] at hij
    apply Fin.ext
    have : (i : ℝ) = j := by linarith
    exact_mod_cast this

/-- Example: C75_below_intrinsic is about pricers and draws that exist. -/
example : ∃ (env : LsEnv) (o : LsPricer), o.Constructed ∧ o.typeFlag = .put ∧ o.timeSteps = 1 ∧
    o.initialPrice < o.strikePrice ∧ o.volatility ^ 2 / 2 < o.riskFreeRate ∧ ∀ i, draws env o i 0 = 0 := by
  refine ⟨⟨fun _ _ => 0, fun _ => 0⟩, ⟨1, 2, 1, 1, 1, 1, .put, 3, none⟩, ?_, rfl, rfl, ?_, ?_, fun i => rfl⟩
  · unfold Constructed LsPricer.new
    norm_num
  · norm_num
  · norm_num

/-- The sample pricer is one that `new` returns, so the recursion, the stopping rule and the bounds hold of it. -/
example := C75_backward_induction sampleEnv sample sample_constructed

example := C75_stopping sampleEnv sample sample_constructed

example : 0 ≤ sample.generatePrice sampleEnv ∧ sample.generatePrice sampleEnv < 1 :=
  ⟨(C75_bounds sampleEnv sample sample_constructed).1, (C75_bounds sampleEnv sample sample_constructed).2 rfl⟩

/-- Two runs of a seeded pricer that draw different entropy agree. -/
example (Z : ℕ → ℕ → ℝ) : LsPricer.generatePrice ⟨Z, fun _ => 0⟩ ⟨1, 2, 1, 1, 1, 4, .put, 3, some 7⟩ =
    LsPricer.generatePrice ⟨Z, fun t => t + 1⟩ ⟨1, 2, 1, 1, 1, 4, .put, 3, some 7⟩ :=
  C75_reproducible _ _ ⟨Z, fun t => t + 1⟩ rfl (by simp)

example (env : LsEnv) : LsPricer.seedAt env ⟨1, 2, 1, 1, 1, 4, .put, 3, some 7⟩ 0 ≠
    LsPricer.seedAt env ⟨1, 2, 1, 1, 1, 4, .put, 3, some 7⟩ 3 := fun h =>
  absurd (C75_generators_distinct env ⟨1, 2, 1, 1, 1, 4, .put, 3, some 7⟩ (s := 7) rfl (by norm_num) (by norm_num) h) (by norm_num)

/-- The seeds 7 and 8 share their normals, one step apart. -/
example (env : LsEnv) : draws env ⟨1, 2, 1, 1, 1, 4, .put, 3, some 7⟩ (1 : Fin 3) 1 =
    draws env ⟨1, 2, 1, 1, 1, 4, .put, 3, some 8⟩ (1 : Fin 3) 0 :=
  C75_neighbouring_seeds env ⟨1, 2, 1, 1, 1, 4, .put, 3, some 7⟩ ⟨1, 2, 1, 1, 1, 4, .put, 3, some 8⟩ (s := 7) rfl rfl 0 (1 : Fin 3) (1 : Fin 3) rfl

end LsPricer

end Verif.Options
