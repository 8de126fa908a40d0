import Verif.Float.MonteCarloLemmas
import Verif.Float.AsianProps

/-!
# C101: Monte-Carlo prices in double precision
-/

namespace Verif.Float.Mc

open Verif.Float.Sim
open Verif.Float.Mean (gain max_lipschitz)
open Verif.Options (TypeFlag BarrierType BinaryType)
open Verif.Float.Fft (ur mu top rnd_real toF64_total ur_pos mu_pos ur_le mu_le)

theorem four_mu : (2 : ℝ) ^ (-1073 : ℤ) = 4 * mu := by
  unfold mu
  rw [show (-1073 : ℤ) = 2 + -1075 by norm_num, zpow_add₀ (by norm_num)]; norm_num

theorem avg_nonneg {α : Type} {f : α → ℝ} {l : List α} (h : ∀ x ∈ l, 0 ≤ f x) : 0 ≤ avg f l :=
  div_nonneg (List.sum_nonneg (by simpa using h)) (by positivity)

theorem tolerance_range {exp : F64 → Option F64} {δ : ℝ} {rate t0 tn : F64} {n : ℕ} (h : Ordinary exp δ rate t0 tn n) :
    12 * ur ≤ tolerance δ n rate t0 tn ∧ tolerance δ n rate t0 tn ≤ 1 / 30 := by
  have hδ := delta_nonneg h.exp
  have hu := ur_pos
  have h1 : (1 : ℝ) ≤ n := by exact_mod_cast h.paths.1
  have h2 : (n : ℝ) ≤ 2 ^ 40 := by exact_mod_cast h.paths.2
  have h3 := h.error
  have h4 := h.exponent
  have h5 := abs_nonneg (F64.real rate * (F64.real tn - F64.real t0))
  unfold tolerance
  rw [show (2 : ℝ) ^ (-51 : ℤ) = 4 * ur by unfold ur; norm_num]
  constructor
  · nlinarith
  · have h6 : 4 * ur * (n + 2 * |F64.real rate * (F64.real tn - F64.real t0)| + 2) ≤ 4 * ur * (2 ^ 40 + 2 * 300 + 2) := by gcongr
    have h7 : 4 * ur * (2 ^ 40 + 2 * 300 + 2) ≤ 1 / 100 := by unfold ur; norm_num
    linarith

/-- Discounting and averaging payoffs that are close to what they should be, in whatever way the paths come about. -/
theorem price_close {α : Type} {exp : F64 → Option F64} {δ : ℝ} {rate t0 tn : F64} (zs : List α) (sim : α → Option (List F64))
    (payoff : List F64 → Option F64) (P E : α → ℝ) (ho : Ordinary exp δ rate t0 tn zs.length)
    (h : ∀ z ∈ zs, ∃ path p, sim z = some path ∧ payoff path = some p ∧ |F64.real p - P z| ≤ E z)
    (hsize : (zs.map fun z => |P z|).sum + (zs.map E).sum ≤ 2 ^ 500) :
    ∃ paths v, zs.mapM sim = some paths ∧ price exp payoff rate t0 tn paths = some v ∧
      |F64.real v - factor rate t0 tn * avg P zs| ≤
        factor rate t0 tn * (avg E zs + tolerance δ zs.length rate t0 tn * (avg (fun z => |P z|) zs + avg E zs)) + 2 ^ (-1073 : ℤ) := by
  obtain ⟨paths, ps, h1, h2, h3, h4, h5⟩ := mapM_error zs sim payoff P E h
  obtain ⟨v, hv, hve⟩ := estimate_error (exp := exp) (δ := δ) (rate := rate) (t0 := t0) (tn := tn) ps (by rw [h3]; exact ho) (h5.trans hsize)
  refine ⟨paths, v, h1, ?_, ?_⟩
  · unfold price; simp only [Option.bind_eq_bind, h2, Option.bind_some, hv]
  · rw [h3] at hve
    have hD : 0 < factor rate t0 tn := Real.exp_pos _
    have ht := (tolerance_range ho).1
    have hu := ur_pos
    have hN : (0 : ℝ) < zs.length := by exact_mod_cast ho.paths.1
    have e1 : |avg F64.real ps - avg P zs| ≤ avg E zs := by
      unfold avg
      rw [h3, ← sub_div, abs_div, abs_of_pos hN]
      exact div_le_div_of_nonneg_right h4 hN.le
    have e2 : avg (fun p => |F64.real p|) ps ≤ avg (fun z => |P z|) zs + avg E zs := by
      unfold avg
      rw [h3, ← add_div]
      exact div_le_div_of_nonneg_right h5 hN.le
    have e3 := abs_sub_le (F64.real v) (factor rate t0 tn * avg F64.real ps) (factor rate t0 tn * avg P zs)
    rw [← mul_sub, abs_mul, abs_of_pos hD] at e3
    have e4 := mul_le_mul_of_nonneg_left e1 hD.le
    have e5 := mul_le_mul_of_nonneg_left (mul_le_mul_of_nonneg_left e2 hD.le) (by linarith : 0 ≤ tolerance δ zs.length rate t0 tn)
    rw [four_mu]
    have hm := mu_pos
    nlinarith

/-- C101: when each payoff comes out within `E` of the exact payoff `P` of its path, the price is finite and within
`D (mean E + tolerance (mean |P| + mean E)) + 2^-1073` of the discounted mean of the exact payoffs. -/
theorem C101_price_error {exp : F64 → Option F64} {δ : ℝ} {rate t0 tn : F64} (paths : List (List F64))
    (payoff : List F64 → Option F64) (P E : List F64 → ℝ) (ho : Ordinary exp δ rate t0 tn paths.length)
    (h : ∀ path ∈ paths, ∃ p, payoff path = some p ∧ |F64.real p - P path| ≤ E path)
    (hsize : (paths.map fun z => |P z|).sum + (paths.map E).sum ≤ 2 ^ 500) :
    ∃ v, price exp payoff rate t0 tn paths = some v ∧
      |F64.real v - factor rate t0 tn * avg P paths| ≤
        factor rate t0 tn * (avg E paths + tolerance δ paths.length rate t0 tn * (avg (fun z => |P z|) paths + avg E paths)) +
          2 ^ (-1073 : ℤ) := by
  obtain ⟨ps, v, h1, h2, h3⟩ := price_close paths some payoff P E ho (fun z hz => by
    obtain ⟨p, g1, g2⟩ := h z hz
    exact ⟨z, p, rfl, g1, g2⟩) hsize
  have : paths.mapM some = some paths := by
    have := List.mapM_pure (m := Option) (l := paths) (f := id)
    simpa using this
  rw [this] at h1
  cases h1
  exact ⟨v, h2, h3⟩

/-! ### European options -/

theorem vanilla_close (strike s : F64) (flag : TypeFlag) (h : |F64.real s - F64.real strike| ≤ 2 ^ 1000) :
    ∃ p, vanilla strike flag s = some p ∧ |F64.real p - gain flag (F64.real s) (F64.real strike)| ≤
      ur * gain flag (F64.real s) (F64.real strike) := by
  have htop : (2 : ℝ) ^ 1000 ≤ top := by unfold top; exact pow_le_pow_right₀ (by norm_num) (by norm_num)
  have key : ∀ a b : F64, |F64.real a - F64.real b| ≤ top → ∃ p, (do return (← a.sub b).max F64.zero) = some p ∧
      |F64.real p - max (F64.real a - F64.real b) 0| ≤ ur * max (F64.real a - F64.real b) 0 := by
    intro a b hab
    obtain ⟨d, hd, -⟩ := subR hab
    have e : (do return (← a.sub b).max F64.zero) = some (d.max F64.zero) := by
      simp only [Option.bind_eq_bind, hd, Option.bind_some, Option.pure_def]
    refine ⟨_, e, ?_⟩
    obtain ⟨-, -, h3, -⟩ := payoff_facts a b _ e
    have := (Rat.cast_le (K := ℝ)).2 h3
    push_cast at this
    have eu : ((u : ℚ) : ℝ) = ur := by unfold u ur; push_cast; rfl
    rw [eu] at this
    exact this
  cases flag with
  | call => exact key s strike (h.trans htop)
  | put => exact key strike s (by rw [abs_sub_comm]; exact h.trans htop)

theorem gain_nonneg (flag : TypeFlag) (a b : ℝ) : 0 ≤ gain flag a b := by cases flag <;> exact le_max_right _ _

theorem gain_le (flag : TypeFlag) (a b : ℝ) : gain flag a b ≤ |a - b| := by
  cases flag
  · exact max_le (le_abs_self _) (abs_nonneg _)
  · exact max_le (by rw [abs_sub_comm]; exact le_abs_self _) (abs_nonneg _)

theorem avg_mul {α : Type} (c : ℝ) (f : α → ℝ) (l : List α) : avg (fun x => c * f x) l = c * avg f l := by
  unfold avg
  rw [List.sum_map_mul_left]
  ring

theorem avg_le {α : Type} {f g : α → ℝ} {l : List α} (h : ∀ x ∈ l, f x ≤ g x) : avg f l ≤ avg g l :=
  div_le_div_of_nonneg_right (List.sum_le_sum h) (by positivity)

/-- Payoffs that are exact up to one rounding. -/
theorem rounded_payoffs {exp : F64 → Option F64} {δ : ℝ} {rate t0 tn : F64} (paths : List (List F64))
    (payoff : List F64 → Option F64) (P : List F64 → ℝ) (ho : Ordinary exp δ rate t0 tn paths.length)
    (h : ∀ path ∈ paths, ∃ p, payoff path = some p ∧ |F64.real p - P path| ≤ ur * P path)
    (hP : ∀ path, 0 ≤ P path) (hsize : (paths.map P).sum ≤ 2 ^ 499) :
    ∃ v, price exp payoff rate t0 tn paths = some v ∧
      |F64.real v - factor rate t0 tn * avg P paths| ≤
        2 * tolerance δ paths.length rate t0 tn * (factor rate t0 tn * avg P paths) + 2 ^ (-1073 : ℤ) := by
  have hu := ur_pos
  have hu1 := ur_le
  have e : (fun z => |P z|) = P := funext fun z => abs_of_nonneg (hP z)
  have hS : 0 ≤ (paths.map P).sum := List.sum_nonneg (by simp; exact fun x _ => hP x)
  obtain ⟨v, h1, h2⟩ := C101_price_error paths payoff P (fun z => ur * P z) ho h (by
    rw [e, List.sum_map_mul_left, show (2 : ℝ) ^ 500 = 2 ^ 499 + 2 ^ 499 from (pow_succ (2 : ℝ) 499).trans (mul_two _)]
    refine _root_.add_le_add hsize (le_trans ?_ hsize)
    nlinarith)
  refine ⟨v, h1, h2.trans ?_⟩
  rw [e, avg_mul]
  obtain ⟨t1, t2⟩ := tolerance_range ho
  set τ := tolerance δ paths.length rate t0 tn
  set A := avg P paths
  set D := factor rate t0 tn
  have hA : 0 ≤ A := avg_nonneg fun z _ => hP z
  have hD : 0 < D := Real.exp_pos _
  have hDA : 0 ≤ D * A := by positivity
  have : ur + τ * (1 + ur) ≤ 2 * τ := by nlinarith
  have := mul_le_mul_of_nonneg_right this hDA
  generalize (2 : ℝ) ^ (-1073 : ℤ) = m
  linarith

/-- C101: the price of a European option is within a relative error of twice the tolerance, `4 δ + 2^-50 (n + 2|r|T + 2)`, of the discounted mean
of the exact payoffs on the same paths. -/
theorem C101_european {exp : F64 → Option F64} {δ : ℝ} {rate t0 tn : F64} (paths : List (List F64)) (strike : F64) (flag : TypeFlag)
    (ho : Ordinary exp δ rate t0 tn paths.length) (h : ∀ path ∈ paths, |F64.real (lastPoint path) - F64.real strike| ≤ 2 ^ 400) :
    ∃ v, price exp (european strike flag) rate t0 tn paths = some v ∧
      |F64.real v - factor rate t0 tn * avg (fun path => gain flag (F64.real (lastPoint path)) (F64.real strike)) paths| ≤
        2 * tolerance δ paths.length rate t0 tn *
          (factor rate t0 tn * avg (fun path => gain flag (F64.real (lastPoint path)) (F64.real strike)) paths) + 2 ^ (-1073 : ℤ) := by
  refine rounded_payoffs paths (european strike flag) (fun path => gain flag (F64.real (lastPoint path)) (F64.real strike)) ho
    (fun path hp => ?_) (fun path => gain_nonneg _ _ _) ?_
  · exact vanilla_close strike (lastPoint path) flag ((h path hp).trans (pow_le_pow_right₀ (by norm_num) (by norm_num)))
  · refine (List.sum_le_card_nsmul _ (2 ^ 400) ?_).trans ?_
    · intro x hx
      simp only [List.mem_map] at hx
      obtain ⟨path, hp, rfl⟩ := hx
      exact (gain_le _ _ _).trans (h path hp)
    · rw [List.length_map, nsmul_eq_mul]
      have : (paths.length : ℝ) ≤ 2 ^ 40 := by exact_mod_cast ho.paths.2
      calc (paths.length : ℝ) * 2 ^ 400 ≤ 2 ^ 40 * 2 ^ 400 := by gcongr
        _ = 2 ^ 440 := by rw [← pow_add]
        _ ≤ 2 ^ 499 := pow_le_pow_right₀ (by norm_num) (by norm_num)

theorem avg_sub {α : Type} (f g : α → ℝ) (l : List α) : avg f l - avg g l = avg (fun x => f x - g x) l := by
  have : (l.map fun x => f x - g x).sum = (l.map f).sum - (l.map g).sum := by
    induction l with
    | nil => simp
    | cons x l ih => simp only [List.map_cons, List.sum_cons, ih]; ring
  unfold avg
  rw [this, sub_div]

theorem avg_add {α : Type} (f g : α → ℝ) (l : List α) : avg f l + avg g l = avg (fun x => f x + g x) l := by
  unfold avg
  rw [List.sum_map_add, add_div]

/-- C101: put-call parity. On the same paths, the call costs the put plus the discounted mean of the last values less the strike, up to twice the
tolerance relative to the discounted mean of `|S - K|`. -/
theorem C101_parity {exp : F64 → Option F64} {δ : ℝ} {rate t0 tn : F64} (paths : List (List F64)) (strike : F64)
    (ho : Ordinary exp δ rate t0 tn paths.length) (h : ∀ path ∈ paths, |F64.real (lastPoint path) - F64.real strike| ≤ 2 ^ 400) :
    ∃ c p, price exp (european strike .call) rate t0 tn paths = some c ∧ price exp (european strike .put) rate t0 tn paths = some p ∧
      |F64.real c - F64.real p - factor rate t0 tn * (avg (fun path => F64.real (lastPoint path)) paths - F64.real strike)| ≤
        2 * tolerance δ paths.length rate t0 tn *
          (factor rate t0 tn * avg (fun path => |F64.real (lastPoint path) - F64.real strike|) paths) + 2 ^ (-1072 : ℤ) := by
  obtain ⟨c, c1, c2⟩ := C101_european paths strike .call ho h
  obtain ⟨p, p1, p2⟩ := C101_european paths strike .put ho h
  refine ⟨c, p, c1, p1, ?_⟩
  have hN : (paths.length : ℝ) ≠ 0 := by exact_mod_cast ho.paths.1.ne'
  have e1 : avg (fun path => gain .call (F64.real (lastPoint path)) (F64.real strike)) paths -
      avg (fun path => gain .put (F64.real (lastPoint path)) (F64.real strike)) paths =
      avg (fun path => F64.real (lastPoint path)) paths - F64.real strike := by
    have e : avg (fun _ : List F64 => F64.real strike) paths = F64.real strike := by
      unfold avg
      rw [List.map_const', List.sum_replicate, nsmul_eq_mul]
      field_simp
    rw [avg_sub]
    conv_rhs => rw [← e]
    rw [avg_sub]
    congr 1
    funext path
    simp only [gain]
    rcases le_total (F64.real (lastPoint path)) (F64.real strike) with h | h
    · rw [max_eq_right (by linarith), max_eq_left (by linarith)]; ring
    · rw [max_eq_left (by linarith), max_eq_right (by linarith)]; ring
  have e2 : avg (fun path => gain .call (F64.real (lastPoint path)) (F64.real strike)) paths +
      avg (fun path => gain .put (F64.real (lastPoint path)) (F64.real strike)) paths =
      avg (fun path => |F64.real (lastPoint path) - F64.real strike|) paths := by
    rw [avg_add]
    congr 1
    funext path
    simp only [gain]
    rcases le_total (F64.real (lastPoint path)) (F64.real strike) with h | h
    · rw [max_eq_right (by linarith), max_eq_left (by linarith), abs_of_nonpos (by linarith)]; ring
    · rw [max_eq_left (by linarith), max_eq_right (by linarith), abs_of_nonneg (by linarith)]; ring
  rw [← e1, ← e2, show (2 : ℝ) ^ (-1072 : ℤ) = 2 ^ (-1073 : ℤ) + 2 ^ (-1073 : ℤ) by
    rw [show (-1072 : ℤ) = -1073 + 1 by norm_num, zpow_add_one₀ (by norm_num), mul_two]]
  generalize (2 : ℝ) ^ (-1073 : ℤ) = m at *
  rw [abs_le] at *
  constructor <;> linarith [c2.1, c2.2, p2.1, p2.2]

/-! ### Barrier options -/

/-- Whether the option is alive at the end of the path. -/
def Alive (kind : BarrierType) (level : F64) (path : List F64) : Prop :=
  match kind with
  | .upAndOut => ∀ x ∈ path, x.val < level.val
  | .downAndOut => ∀ x ∈ path, level.val < x.val
  | .upAndIn => ∃ x ∈ path, level.val ≤ x.val
  | .downAndIn => ∃ x ∈ path, x.val ≤ level.val

open scoped Classical in
/-- What a barrier option pays in exact arithmetic. -/
noncomputable def barrierGain (kind : BarrierType) (level strike : F64) (flag : TypeFlag) (path : List F64) : ℝ :=
  if Alive kind level path then gain flag (F64.real (lastPoint path)) (F64.real strike) else 0

theorem barrier_eq (kind : BarrierType) (level strike : F64) (flag : TypeFlag) (path : List F64) (hne : path ≠ []) (p : F64)
    (h : european strike flag path = some p) :
    (Alive kind level path → barrier kind level strike flag path = some p) ∧
    (¬ Alive kind level path → barrier kind level strike flag path = some F64.zero) := by
  obtain ⟨t, ht⟩ : ∃ t, path.getLast? = some t := by
    rw [← Option.isSome_iff_exists, List.getLast?_isSome]; exact hne
  have hl : lastPoint path = t := by unfold lastPoint; rw [ht]; rfl
  unfold european at h
  rw [hl] at h
  have ha : (path.any fun x => decide (level.val ≤ x.val)) = true ↔ ∃ x ∈ path, level.val ≤ x.val := by simp
  have hb : (path.any fun x => decide (x.val ≤ level.val)) = true ↔ ∃ x ∈ path, x.val ≤ level.val := by simp
  unfold barrier
  simp only [Option.bind_eq_bind, ht, h, Option.bind_some, Option.pure_def]
  cases kind <;> simp only [Alive, Option.some.injEq] <;> constructor <;> intro g
  · rw [if_neg (by rw [ha]; push Not; exact g)]
  · rw [if_pos (by rw [ha]; push Not at g; exact g)]
  · rw [if_neg (by rw [hb]; push Not; exact g)]
  · rw [if_pos (by rw [hb]; push Not at g; exact g)]
  · rw [if_pos (by rw [ha]; exact g)]
  · rw [if_neg (by rw [ha]; exact g)]
  · rw [if_pos (by rw [hb]; exact g)]
  · rw [if_neg (by rw [hb]; exact g)]

theorem barrierGain_range (kind : BarrierType) (level strike : F64) (flag : TypeFlag) (path : List F64) :
    0 ≤ barrierGain kind level strike flag path ∧
      barrierGain kind level strike flag path ≤ gain flag (F64.real (lastPoint path)) (F64.real strike) := by
  unfold barrierGain
  have := gain_nonneg flag (F64.real (lastPoint path)) (F64.real strike)
  split_ifs <;> constructor <;> linarith

/-- C101: the price of a barrier option has the relative error of a European one. Whether the barrier is touched is decided without error. -/
theorem C101_barrier {exp : F64 → Option F64} {δ : ℝ} {rate t0 tn : F64} (paths : List (List F64)) (kind : BarrierType) (level strike : F64)
    (flag : TypeFlag) (ho : Ordinary exp δ rate t0 tn paths.length)
    (h : ∀ path ∈ paths, path ≠ [] ∧ |F64.real (lastPoint path) - F64.real strike| ≤ 2 ^ 400) :
    ∃ v, price exp (barrier kind level strike flag) rate t0 tn paths = some v ∧
      |F64.real v - factor rate t0 tn * avg (barrierGain kind level strike flag) paths| ≤
        2 * tolerance δ paths.length rate t0 tn * (factor rate t0 tn * avg (barrierGain kind level strike flag) paths) +
          2 ^ (-1073 : ℤ) := by
  refine rounded_payoffs paths _ (barrierGain kind level strike flag) ho (fun path hp => ?_)
    (fun path => (barrierGain_range ..).1) ?_
  · obtain ⟨p, h1, h2⟩ := vanilla_close strike (lastPoint path) flag ((h path hp).2.trans (pow_le_pow_right₀ (by norm_num) (by norm_num)))
    obtain ⟨g1, g2⟩ := barrier_eq kind level strike flag path (h path hp).1 p h1
    unfold barrierGain
    by_cases ha : Alive kind level path
    · exact ⟨p, g1 ha, by rw [if_pos ha]; exact h2⟩
    · exact ⟨F64.zero, g2 ha, by rw [if_neg ha]; simp [F64.real, F64.zero]⟩
  · refine (List.sum_le_card_nsmul _ (2 ^ 400) ?_).trans ?_
    · intro x hx
      simp only [List.mem_map] at hx
      obtain ⟨path, hp, rfl⟩ := hx
      exact ((barrierGain_range ..).2.trans (gain_le _ _ _)).trans (h path hp).2
    · rw [List.length_map, nsmul_eq_mul]
      have : (paths.length : ℝ) ≤ 2 ^ 40 := by exact_mod_cast ho.paths.2
      calc (paths.length : ℝ) * 2 ^ 400 ≤ 2 ^ 40 * 2 ^ 400 := by gcongr
        _ = 2 ^ 440 := by rw [← pow_add]
        _ ≤ 2 ^ 499 := pow_le_pow_right₀ (by norm_num) (by norm_num)

/-- C101: a knock-out and the knock-in with the same barrier together cost the European option, up to four times the tolerance. -/
theorem C101_in_out {exp : F64 → Option F64} {δ : ℝ} {rate t0 tn : F64} (paths : List (List F64)) (ki ko : BarrierType)
    (hk : (ki = .upAndIn ∧ ko = .upAndOut) ∨ (ki = .downAndIn ∧ ko = .downAndOut)) (level strike : F64)
    (flag : TypeFlag) (ho : Ordinary exp δ rate t0 tn paths.length)
    (h : ∀ path ∈ paths, path ≠ [] ∧ |F64.real (lastPoint path) - F64.real strike| ≤ 2 ^ 400) :
    ∃ vi vo v, price exp (barrier ki level strike flag) rate t0 tn paths = some vi ∧
      price exp (barrier ko level strike flag) rate t0 tn paths = some vo ∧ price exp (european strike flag) rate t0 tn paths = some v ∧
      |F64.real vi + F64.real vo - F64.real v| ≤
        4 * tolerance δ paths.length rate t0 tn *
          (factor rate t0 tn * avg (fun path => gain flag (F64.real (lastPoint path)) (F64.real strike)) paths) + 3 * 2 ^ (-1073 : ℤ) := by
  obtain ⟨vi, i1, i2⟩ := C101_barrier paths ki level strike flag ho h
  obtain ⟨vo, o1, o2⟩ := C101_barrier paths ko level strike flag ho h
  obtain ⟨v, v1, v2⟩ := C101_european paths strike flag ho fun path hp => (h path hp).2
  refine ⟨vi, vo, v, i1, o1, v1, ?_⟩
  have e : avg (barrierGain ki level strike flag) paths + avg (barrierGain ko level strike flag) paths =
      avg (fun path => gain flag (F64.real (lastPoint path)) (F64.real strike)) paths := by
    rw [avg_add]
    congr 1
    funext path
    have : Alive ki level path ↔ ¬ Alive ko level path := by
      rcases hk with ⟨rfl, rfl⟩ | ⟨rfl, rfl⟩ <;> simp [Alive]
    unfold barrierGain
    by_cases ha : Alive ko level path <;> simp [this, ha]
  rw [← e] at v2 ⊢
  generalize (2 : ℝ) ^ (-1073 : ℤ) = m at *
  rw [abs_le] at *
  constructor <;> linarith [i2.1, i2.2, o2.1, o2.2, v2.1, v2.2]

/-! ### Inequalities that hold exactly -/

theorem sum_le {ps qs : List F64} (h : List.Forall₂ (fun p q => p.val ≤ q.val) ps qs) {a b s t : F64} (hab : a.val ≤ b.val)
    (hs : ps.foldlM F64.add a = some s) (ht : qs.foldlM F64.add b = some t) : s.val ≤ t.val := by
  induction h generalizing a b with
  | nil =>
    simp only [List.foldlM_nil, Option.pure_def, Option.some.injEq] at hs ht
    rw [← hs, ← ht]; exact hab
  | cons hpq _ ih =>
    rw [List.foldlM_cons] at hs ht
    obtain ⟨a', h1, h2⟩ := Option.bind_eq_some_iff.1 hs
    obtain ⟨b', g1, g2⟩ := Option.bind_eq_some_iff.1 ht
    refine ih ?_ h2 g2
    rw [add_some h1, add_some g1]
    exact rnd_mono (by linarith)

theorem mapM_forall {α : Type} {f g : α → Option F64} {l : List α} {ps qs : List F64} (hp : l.mapM f = some ps) (hq : l.mapM g = some qs)
    (h : ∀ x ∈ l, ∀ a b, f x = some a → g x = some b → a.val ≤ b.val) : List.Forall₂ (fun p q => p.val ≤ q.val) ps qs := by
  induction l generalizing ps qs with
  | nil => simp only [List.mapM_nil, Option.pure_def, Option.some.injEq] at hp hq; subst hp hq; exact .nil
  | cons x l ih =>
    simp only [List.mapM_cons, Option.bind_eq_bind, Option.bind_eq_some_iff, Option.pure_def, Option.some.injEq] at hp hq
    obtain ⟨a, ha, as, has, rfl⟩ := hp
    obtain ⟨b, hb, bs, hbs, rfl⟩ := hq
    exact .cons (h x (by simp) a b ha hb) (ih has hbs fun y hy => h y (by simp [hy]))

/-- C101: a payoff that is never larger has a price that is not larger, exactly. -/
theorem C101_monotone (exp : F64 → Option F64) (hexp : ∀ x y, exp x = some y → 0 ≤ y.val) (rate t0 tn : F64) (paths : List (List F64))
    (f g : List F64 → Option F64) (h : ∀ path ∈ paths, ∀ a b, f path = some a → g path = some b → a.val ≤ b.val) (v w : F64)
    (hv : price exp f rate t0 tn paths = some v) (hw : price exp g rate t0 tn paths = some w) : v.val ≤ w.val := by
  unfold price estimate at hv hw
  simp only [Option.bind_eq_bind, Option.bind_eq_some_iff] at hv hw
  obtain ⟨ps, hps, n, hn, df, hdf, s, hs, q, hq, hv⟩ := hv
  obtain ⟨qs, hqs, n', hn', df', hdf', t, ht, r, hr, hw⟩ := hw
  have hf := mapM_forall hps hqs h
  rw [hf.length_eq] at hn
  cases hn.symm.trans hn'
  cases hdf.symm.trans hdf'
  have hst := sum_le hf le_rfl hs ht
  have hd0 : 0 ≤ df.val := by
    unfold discount at hdf
    simp only [Option.bind_eq_bind, Option.bind_eq_some_iff] at hdf
    obtain ⟨d, -, x, -, hx⟩ := hdf
    exact hexp x df hx
  obtain ⟨hn0, hv⟩ := div_some hv
  obtain ⟨-, hw⟩ := div_some hw
  have hqr : q.val ≤ r.val := by
    rw [mul_some hq, mul_some hr]
    exact rnd_mono (mul_le_mul_of_nonneg_left hst hd0)
  have hnn : 0 ≤ n.val := by
    unfold ofNat at hn
    rw [toF64_some hn]
    exact rnd_nonneg (by positivity)
  rw [hv, hw]
  exact rnd_mono (div_le_div_of_nonneg_right hqr hnn)

theorem vanilla_nonneg {strike s p : F64} {flag : TypeFlag} (h : vanilla strike flag s = some p) : 0 ≤ p.val := by
  cases flag
  · exact (payoff_facts _ _ _ h).1
  · exact (payoff_facts _ _ _ h).1

theorem lastPoint_of {path : List F64} {t : F64} (h : path.getLast? = some t) : lastPoint path = t := by unfold lastPoint; rw [h]; rfl

theorem barrier_le (kind : BarrierType) (level strike : F64) (flag : TypeFlag) (path : List F64) (a b : F64)
    (ha : barrier kind level strike flag path = some a) (hb : european strike flag path = some b) : 0 ≤ a.val ∧ a.val ≤ b.val := by
  have hne : path ≠ [] := by rintro rfl; simp [barrier] at ha
  have h0 := vanilla_nonneg hb
  obtain ⟨h1, h2⟩ := barrier_eq kind level strike flag path hne b hb
  by_cases hl : Alive kind level path
  · rw [h1 hl] at ha; cases ha; exact ⟨h0, le_rfl⟩
  · rw [h2 hl] at ha; cases ha; exact ⟨le_rfl, h0⟩

/-- C101: on the same paths, a barrier option never costs more than the European option, a call with a higher strike never costs more and a put
with a higher strike never costs less, exactly. -/
theorem C101_order (exp : F64 → Option F64) (hexp : ∀ x y, exp x = some y → 0 ≤ y.val) (rate t0 tn : F64) (paths : List (List F64))
    (strike : F64) :
    (∀ kind level flag v w, price exp (barrier kind level strike flag) rate t0 tn paths = some v →
      price exp (european strike flag) rate t0 tn paths = some w → v.val ≤ w.val) ∧
    (∀ higher v w, strike.val ≤ higher.val → price exp (european strike .call) rate t0 tn paths = some v →
      price exp (european higher .call) rate t0 tn paths = some w → w.val ≤ v.val) ∧
    (∀ higher v w, strike.val ≤ higher.val → price exp (european strike .put) rate t0 tn paths = some v →
      price exp (european higher .put) rate t0 tn paths = some w → v.val ≤ w.val) := by
  refine ⟨fun kind level flag v w hv hw => ?_, fun higher v w hh hv hw => ?_, fun higher v w hh hv hw => ?_⟩
  · exact C101_monotone exp hexp rate t0 tn paths _ _ (fun path _ a b ha hb => (barrier_le kind level strike flag path a b ha hb).2) v w hv hw
  · refine C101_monotone exp hexp rate t0 tn paths _ _ (fun path _ a b ha hb => ?_) w v hw hv
    rw [payoff_some _ _ a ha, payoff_some _ _ b hb]
    exact max_le_max (rnd_mono (by linarith)) le_rfl
  · refine C101_monotone exp hexp rate t0 tn paths _ _ (fun path _ a b ha hb => ?_) v w hv hw
    rw [payoff_some _ _ a ha, payoff_some _ _ b hb]
    exact max_le_max (rnd_mono (by linarith)) le_rfl

/-- C101: prices of European and barrier options are not negative, exactly; without a path there is no price. -/
theorem C101_sign (exp : F64 → Option F64) (hexp : ∀ x y, exp x = some y → 0 ≤ y.val) (rate t0 tn : F64) (paths : List (List F64))
    (strike : F64) (flag : TypeFlag) (v : F64) :
    (price exp (european strike flag) rate t0 tn paths = some v → 0 ≤ v.val ∧ paths ≠ []) ∧
    ∀ kind level, price exp (barrier kind level strike flag) rate t0 tn paths = some v → 0 ≤ v.val ∧ paths ≠ [] := by
  have key : ∀ f : List F64 → Option F64, (∀ path a, f path = some a → 0 ≤ a.val) → price exp f rate t0 tn paths = some v →
      0 ≤ v.val ∧ paths ≠ [] := by
    intro f hf hv
    unfold price estimate at hv
    simp only [Option.bind_eq_bind, Option.bind_eq_some_iff] at hv
    obtain ⟨ps, hps, n, hn, df, hdf, s, hs, q, hq, hv⟩ := hv
    have hd0 : 0 ≤ df.val := by
      unfold discount at hdf
      simp only [Option.bind_eq_bind, Option.bind_eq_some_iff] at hdf
      obtain ⟨d, -, x, -, hx⟩ := hdf
      exact hexp x df hx
    have hall : ∀ x ∈ ps, 0 ≤ x.val := by
      clear hn hs
      induction paths generalizing ps with
      | nil => simp only [List.mapM_nil, Option.pure_def, Option.some.injEq] at hps; subst hps; simp
      | cons x l ih =>
        simp only [List.mapM_cons, Option.bind_eq_bind, Option.bind_eq_some_iff, Option.pure_def, Option.some.injEq] at hps
        obtain ⟨a, ha, as, has, rfl⟩ := hps
        intro y hy
        rcases List.mem_cons.1 hy with rfl | hy
        · exact hf x _ ha
        · exact ih as has y hy
    have hs0 := sum_nonneg ps F64.zero le_rfl hall s hs
    obtain ⟨hn0, hv⟩ := div_some hv
    have hnn : 0 ≤ n.val := by
      unfold ofNat at hn
      rw [toF64_some hn]
      exact rnd_nonneg (by positivity)
    refine ⟨?_, ?_⟩
    · rw [hv]
      refine rnd_nonneg (div_nonneg ?_ hnn)
      rw [mul_some hq]
      exact rnd_nonneg (mul_nonneg hd0 hs0)
    · rintro rfl
      simp only [List.mapM_nil, Option.pure_def, Option.some.injEq] at hps
      subst hps
      apply hn0
      unfold ofNat at hn
      rw [toF64_some hn]
      simpa using rnd_rep rep_zero
  refine ⟨key _ fun path a ha => vanilla_nonneg ha, fun kind level => key _ fun path a ha => ?_⟩
  unfold barrier at ha
  simp only [Option.bind_eq_bind, Option.bind_eq_some_iff, Option.pure_def] at ha
  obtain ⟨t, ht, p, hp, ha⟩ := ha
  have h0 := vanilla_nonneg hp
  cases kind <;> simp only [Option.some.injEq] at ha <;> split_ifs at ha <;> rw [← ha] <;> first | exact h0 | exact le_rfl

end Verif.Float.Mc
