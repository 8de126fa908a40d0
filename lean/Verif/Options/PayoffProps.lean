import Verif.Options.Payoffs
import Mathlib.Analysis.Convex.Function
import Mathlib.Analysis.MeanInequalities
import Mathlib.Algebra.Order.BigOperators.Group.List
import Mathlib.Data.List.GetD
import Mathlib.Tactic.Linarith
import Mathlib.Tactic.Ring
import Mathlib.Tactic.NormNum
import Mathlib.Tactic.Positivity
import Mathlib.Tactic.FieldSimp

/-!
# C45 (payoffs), C46 (barrier parity), C56 (path-dependent payoffs)
-/

namespace Verif.Options

open Classical

theorem exists_last {s : List ℝ} (h : s ≠ []) : ∃ S, s.getLast? = some S :=
  ⟨s.getLast h, List.getLast?_eq_some_getLast h⟩

/-! ## Vanilla and binary -/

/-- C45: for every price and strike, a call minus a put is the forward `S - K`; both are nonnegative and at most one of
them pays. A call pays nothing exactly when `S ≤ K`. -/
theorem C45_vanilla_parity (K S : ℝ) :
    vanillaPayoff K .call S - vanillaPayoff K .put S = S - K ∧ 0 ≤ vanillaPayoff K .call S ∧
    0 ≤ vanillaPayoff K .put S ∧ (vanillaPayoff K .call S = 0 ↔ S ≤ K) ∧ (vanillaPayoff K .put S = 0 ↔ K ≤ S) := by
  unfold vanillaPayoff
  simp only [max_eq_right_iff, sub_nonpos, le_max_right, and_true]
  rcases le_total S K with h | h
  · rw [max_eq_right (by linarith), max_eq_left (by linarith)]; ring
  · rw [max_eq_left (by linarith), max_eq_right (by linarith)]; ring

/-- C45: the call rises and the put falls with the price, neither by more than the price moves; both are convex in the
price, and convex and (call falling, put rising) monotone in the strike. -/
theorem C45_vanilla_shape (K : ℝ) :
    Monotone (vanillaPayoff K .call) ∧ Antitone (vanillaPayoff K .put) ∧
    (∀ f S T, |vanillaPayoff K f S - vanillaPayoff K f T| ≤ |S - T|) ∧
    (∀ f, ConvexOn ℝ Set.univ (vanillaPayoff K f)) ∧
    (∀ f S, ConvexOn ℝ Set.univ (fun k => vanillaPayoff k f S)) ∧
    (∀ S, Antitone (fun k => vanillaPayoff k .call S)) ∧ ∀ S, Monotone (fun k => vanillaPayoff k .put S) := by
  have lin : ∀ c d : ℝ, ConvexOn ℝ Set.univ (fun x => max (c * x + d) 0) := by
    intro c d
    refine ⟨convex_univ, fun x _ y _ a b ha hb hab => ?_⟩
    simp only [smul_eq_mul]
    apply max_le
    · have h1 := mul_le_mul_of_nonneg_left (le_max_left (c * x + d) 0) ha
      have h2 := mul_le_mul_of_nonneg_left (le_max_left (c * y + d) 0) hb
      have : d = a * d + b * d := by rw [← add_mul, hab, one_mul]
      nlinarith
    · have h1 := mul_nonneg ha (le_max_right (c * x + d) 0)
      have h2 := mul_nonneg hb (le_max_right (c * y + d) 0)
      linarith
  have lin' : ∀ (g : ℝ → ℝ) (c d : ℝ), (∀ x, g x = max (c * x + d) 0) → ConvexOn ℝ Set.univ g := by
    intro g c d h; rw [show g = _ from funext h]; exact lin c d
  refine ⟨fun S T h => max_le_max (by linarith) le_rfl, fun S T h => max_le_max (by linarith) le_rfl, ?_, ?_, ?_,
    fun S k l h => max_le_max (by linarith) le_rfl, fun S k l h => max_le_max (by linarith) le_rfl⟩
  · intro f S T
    cases f
    · refine (abs_max_sub_max_le_abs _ _ _).trans (le_of_eq ?_); congr 1; ring
    · refine (abs_max_sub_max_le_abs _ _ _).trans (le_of_eq ?_); rw [abs_sub_comm]; congr 1; ring
  · intro f
    cases f
    · exact lin' _ 1 (-K) (fun x => by simp only [vanillaPayoff]; congr 1; ring)
    · exact lin' _ (-1) K (fun x => by simp only [vanillaPayoff]; congr 1; ring)
  · intro f S
    cases f
    · exact lin' _ (-1) S (fun x => by simp only [vanillaPayoff]; congr 1; ring)
    · exact lin' _ 1 (-S) (fun x => by simp only [vanillaPayoff]; congr 1; ring)

example : vanillaPayoff 100 .call 120 = 20 := by norm_num [vanillaPayoff]

/-- C45: at every price the asset-or-nothing call less the cash-or-nothing call is the vanilla call, and the
cash-or-nothing put less the asset-or-nothing put is the vanilla put. Away from the strike the two asset binaries add
up to the asset and the two cash binaries to the strike; at the strike all four pay nothing. -/
theorem C45_binary (K S : ℝ) :
    binaryPayoff K .assetOrNothing .call S - binaryPayoff K .cashOrNothing .call S = vanillaPayoff K .call S ∧
    binaryPayoff K .cashOrNothing .put S - binaryPayoff K .assetOrNothing .put S = vanillaPayoff K .put S ∧
    (S ≠ K → binaryPayoff K .assetOrNothing .call S + binaryPayoff K .assetOrNothing .put S = S ∧
      binaryPayoff K .cashOrNothing .call S + binaryPayoff K .cashOrNothing .put S = K) ∧
    (S = K → ∀ kind flag, binaryPayoff K kind flag S = 0) := by
  unfold binaryPayoff vanillaPayoff
  rcases lt_trichotomy S K with h | h | h
  · have h' := h.not_gt
    simp only [gt_iff_lt, h, h', if_true, if_false, max_eq_right (by linarith : S - K ≤ 0),
      max_eq_left (by linarith : 0 ≤ K - S)]
    refine ⟨by simp, by simp, fun _ => ⟨by simp, by simp⟩, fun e => absurd e h.ne⟩
  · subst h
    simp only [gt_iff_lt, lt_irrefl, if_false, sub_self, max_self, ne_eq, not_true_eq_false, false_imp_iff, true_and]
    rintro - (_ | _) (_ | _) <;> rfl
  · have h' := h.not_gt
    simp only [gt_iff_lt, h, h', if_true, if_false, max_eq_right (by linarith : K - S ≤ 0),
      max_eq_left (by linarith : 0 ≤ S - K)]
    refine ⟨by simp, by simp, fun _ => ⟨by simp, by simp⟩, fun e => absurd e h.ne'⟩

example : binaryPayoff 100 .assetOrNothing .call 120 = 120 ∧ binaryPayoff 100 .cashOrNothing .call 120 = 100 := by
  norm_num [binaryPayoff]

/-! ## Power, log and supershare -/

/-- C45: power options on a positive price. With power one they are the vanilla option; power call less power put is
`S^p - K`; the powered option is the vanilla payoff raised to the power; the capped option is the smaller of the power
option and the cap, so it never exceeds the cap (and is negative when the cap is). -/
theorem C45_power (K p cap S : ℝ) (f : TypeFlag) :
    powerPayoff K 1 f S = vanillaPayoff K f S ∧ poweredPayoff K 1 f S = vanillaPayoff K f S ∧
    powerPayoff K p .call S - powerPayoff K p .put S = S ^ p - K ∧ 0 ≤ powerPayoff K p f S ∧
    poweredPayoff K p f S = vanillaPayoff K f S ^ p ∧ 0 ≤ poweredPayoff K p f S ∧
    cappedPowerPayoff K p cap f S = min (powerPayoff K p f S) cap ∧ cappedPowerPayoff K p cap f S ≤ cap ∧
    (powerPayoff K p f S ≤ cap → cappedPowerPayoff K p cap f S = powerPayoff K p f S) ∧
    (cap < 0 → cappedPowerPayoff K p cap f S = cap) ∧
    powerContractPayoff K 1 S = S / K ∧ (0 < S → 0 < K → powerContractPayoff K p S = S ^ p / K ^ p) := by
  have hnn : 0 ≤ powerPayoff K p f S := by cases f <;> exact le_max_right _ _
  have hv : poweredPayoff K p f S = vanillaPayoff K f S ^ p := by cases f <;> rfl
  have hc : cappedPowerPayoff K p cap f S = min (powerPayoff K p f S) cap := by cases f <;> rfl
  refine ⟨by cases f <;> simp [powerPayoff, vanillaPayoff], by cases f <;> simp [poweredPayoff, vanillaPayoff], ?_, hnn,
    hv, ?_, hc, by rw [hc]; exact min_le_right _ _, fun h => by rw [hc, min_eq_left h], fun h => ?_,
    by simp [powerContractPayoff], fun hS hK => by rw [powerContractPayoff, Real.div_rpow hS.le hK.le]⟩
  · have := (C45_vanilla_parity K (S ^ p)).1
    simpa [powerPayoff, vanillaPayoff] using this
  · rw [hv]; apply Real.rpow_nonneg; cases f <;> exact le_max_right _ _
  · rw [hc, min_eq_right (by linarith)]

example : cappedPowerPayoff 100 2 50 .call 20 = 50 := by norm_num [cappedPowerPayoff]

/-- C45: log contracts. At a positive price and strike the moneyness contract is the underlying contract less `ln K`,
the log option is its positive part, and it pays exactly above the strike; at a nonpositive ratio the contracts are not
finite and the option pays nothing. -/
theorem C45_log (K S : ℝ) :
    (0 < S → 0 < K → logUnderlyingPayoff K S = some (Real.log S) ∧
      logMoneynessPayoff K S = some (Real.log S - Real.log K) ∧
      logOptionPayoff K S = max (Real.log S - Real.log K) 0 ∧ (0 < logOptionPayoff K S ↔ K < S)) ∧
    (S / K ≤ 0 → logMoneynessPayoff K S = none ∧ logOptionPayoff K S = 0) ∧ 0 ≤ logOptionPayoff K S := by
  refine ⟨fun hS hK => ?_, fun h => ⟨if_pos h, if_pos h⟩, ?_⟩
  · have hq : ¬ S / K ≤ 0 := not_le.2 (div_pos hS hK)
    have hl : Real.log (S / K) = Real.log S - Real.log K := Real.log_div hS.ne' hK.ne'
    refine ⟨if_neg (not_le.2 hS), by rw [logMoneynessPayoff, if_neg hq, hl], by rw [logOptionPayoff, if_neg hq, hl], ?_⟩
    rw [logOptionPayoff, if_neg hq, hl, lt_max_iff]
    simp only [lt_irrefl, or_false, sub_pos]
    exact Real.log_lt_log_iff hK hS
  · unfold logOptionPayoff
    split_ifs
    · exact le_rfl
    · exact le_max_right _ _

example : logOptionPayoff 100 50 = 0 := by
  have h := ((C45_log 100 50).1 (by norm_num) (by norm_num)).2.2.1
  rw [h, max_eq_right]
  have := Real.log_le_log (by norm_num : (0 : ℝ) < 50) (by norm_num : (50 : ℝ) ≤ 100)
  linarith

/-- C45: a supershare with positive lower strike pays `S / K1`, between `1` and `K2 / K1`, exactly on the closed range of
its strikes. Two adjacent supershares therefore both pay at their common strike. -/
theorem C45_supershare (K1 K2 K3 S : ℝ) (h1 : 0 < K1) :
    (K1 ≤ S ∧ S ≤ K2 → supersharePayoff K1 K2 S = S / K1 ∧ 1 ≤ supersharePayoff K1 K2 S ∧
      supersharePayoff K1 K2 S ≤ K2 / K1) ∧
    (S < K1 ∨ K2 < S → supersharePayoff K1 K2 S = 0) ∧
    (K1 < K2 → K2 < K3 → supersharePayoff K1 K2 K2 + supersharePayoff K2 K3 K2 = K2 / K1 + 1) := by
  refine ⟨fun h => ?_, fun h => ?_, fun h2 h3 => ?_⟩
  · rw [supersharePayoff, if_pos h]
    exact ⟨rfl, by rw [le_div_iff₀ h1]; linarith [h.1], div_le_div_of_nonneg_right h.2 h1.le⟩
  · rw [supersharePayoff, if_neg]
    rintro ⟨a, b⟩
    rcases h with h | h <;> linarith
  · rw [supersharePayoff, supersharePayoff, if_pos ⟨h2.le, le_rfl⟩, if_pos ⟨le_rfl, h3.le⟩,
      div_self (by linarith : K2 ≠ 0)]

example : supersharePayoff 90 110 100 = 100 / 90 := by norm_num [supersharePayoff]

/-- C45: the expiry of an exercise flag: the expiry date, the end date, or the last *listed* exercise date; a Bermudan
flag without dates panics. -/
theorem C45_expiry (e a b : ℤ) (ds : List ℤ) :
    (ExerciseFlag.european e).expiry = some e ∧ (ExerciseFlag.american a b).expiry = some b ∧
    (ExerciseFlag.bermudan ds).expiry = ds.getLast? := by
  refine ⟨rfl, rfl, ?_⟩
  cases ds with
  | nil => rfl
  | cons d ds => simp [ExerciseFlag.expiry, List.getLast?_eq_getElem?]

/-- The last listed date need not be the latest one. -/
example : (ExerciseFlag.bermudan [5, 3]).expiry = some 3 := rfl

/-! ## Barriers -/

/-- The path touches a barrier from the side the option watches: some price at or above it for an up barrier, at or
below it for a down barrier. -/
def Touched (t : BarrierType) (b : ℝ) (s : List ℝ) : Prop :=
  match t with
  | .upAndOut | .upAndIn => ∃ x ∈ s, b ≤ x
  | .downAndOut | .downAndIn => ∃ x ∈ s, x ≤ b

/-- The knock-in (`true`) and knock-out (`false`) option. -/
def KnocksIn : BarrierType → Prop
  | .upAndIn | .downAndIn => True
  | .upAndOut | .downAndOut => False

/-- C46: a barrier option panics exactly on an empty path; otherwise it pays the vanilla payoff at the last price if it
is a knock-in whose barrier was touched or a knock-out whose barrier was not, and nothing otherwise. -/
theorem C46_payoff (o : BarrierOption) (s : List ℝ) :
    (barrierPayoff o s = none ↔ s = []) ∧
    ∀ S, s.getLast? = some S → barrierPayoff o s = some
      (if (KnocksIn o.barrierType ↔ Touched o.barrierType o.barrier s) then vanillaPayoff o.strike o.typeFlag S else 0) := by
  have key : ∀ S, s.getLast? = some S → barrierPayoff o s = some
      (if (KnocksIn o.barrierType ↔ Touched o.barrierType o.barrier s) then vanillaPayoff o.strike o.typeFlag S else 0) := by
    intro S hS
    obtain ⟨tf, bt, b, K, rb⟩ := o
    unfold barrierPayoff
    rw [hS]
    simp only [Option.bind_eq_bind, Option.bind_some]
    have ha : (s.any fun x => decide (x ≥ b)) = true ↔ ∃ x ∈ s, b ≤ x := by simp
    have hb : (s.any fun x => decide (x ≤ b)) = true ↔ ∃ x ∈ s, x ≤ b := by simp
    cases tf <;> cases bt <;> simp only [Touched, KnocksIn, vanillaPayoff, ha, hb, true_iff, false_iff, ite_not]
  refine ⟨⟨fun h => ?_, fun h => by subst h; rfl⟩, key⟩
  by_contra hne
  obtain ⟨S, hS⟩ := exists_last hne
  rw [key S hS] at h
  simp at h

/-- C46: in-out parity. For every nonempty path, barrier and strike, the knock-in and the knock-out option together pay
exactly the vanilla payoff at the last price, on either side of the barrier and for calls and puts, and at most one of
them pays. -/
theorem C46_parity (f : TypeFlag) (b K : ℝ) (r r' : Option ℝ) (s : List ℝ) (S : ℝ) (hs : s.getLast? = some S)
    (tin tout : BarrierType) (ht : (tin = .upAndIn ∧ tout = .upAndOut) ∨ (tin = .downAndIn ∧ tout = .downAndOut)) :
    ∃ x y, barrierPayoff ⟨f, tin, b, K, r⟩ s = some x ∧ barrierPayoff ⟨f, tout, b, K, r'⟩ s = some y ∧
      x + y = vanillaPayoff K f S ∧ (x = 0 ∨ y = 0) ∧ 0 ≤ x ∧ 0 ≤ y := by
  refine ⟨_, _, (C46_payoff _ s).2 S hs, (C46_payoff _ s).2 S hs, ?_⟩
  have hv : 0 ≤ vanillaPayoff K f S := by cases f <;> exact le_max_right _ _
  rcases ht with ⟨rfl, rfl⟩ | ⟨rfl, rfl⟩ <;> simp only [Touched, KnocksIn, true_iff, false_iff, ite_not] <;>
    split_ifs <;> simp [hv]

example : ∃ x y, barrierPayoff ⟨.call, .upAndIn, 110, 100, none⟩ [100, 115, 105] = some x ∧
    barrierPayoff ⟨.call, .upAndOut, 110, 100, none⟩ [100, 115, 105] = some y ∧ x + y = vanillaPayoff 100 .call 105 := by
  obtain ⟨x, y, h1, h2, h3, _⟩ := C46_parity .call 110 100 none none [100, 115, 105] 105 rfl .upAndIn .upAndOut
    (Or.inl ⟨rfl, rfl⟩)
  exact ⟨x, y, h1, h2, h3⟩

/-- C46: observing more points of a path can only knock in, never out of, a knock-in option: when the last price is the
same, a longer path's touched set contains the shorter's. -/
theorem C46_refine (f : TypeFlag) (b K : ℝ) (r : Option ℝ) (s t : List ℝ) (hst : s ⊆ t) (hlast : s.getLast? = t.getLast?)
    (hne : s ≠ []) (tin tout : BarrierType)
    (ht : (tin = .upAndIn ∧ tout = .upAndOut) ∨ (tin = .downAndIn ∧ tout = .downAndOut)) :
    ∃ x x' y y', barrierPayoff ⟨f, tin, b, K, r⟩ s = some x ∧ barrierPayoff ⟨f, tin, b, K, r⟩ t = some x' ∧
      barrierPayoff ⟨f, tout, b, K, r⟩ s = some y ∧ barrierPayoff ⟨f, tout, b, K, r⟩ t = some y' ∧ x ≤ x' ∧ y' ≤ y := by
  obtain ⟨S, hS⟩ := exists_last hne
  have hT : t.getLast? = some S := by rw [← hlast, hS]
  refine ⟨_, _, _, _, (C46_payoff _ s).2 S hS, (C46_payoff _ t).2 S hT, (C46_payoff _ s).2 S hS,
    (C46_payoff _ t).2 S hT, ?_⟩
  have hv : 0 ≤ vanillaPayoff K f S := by cases f <;> exact le_max_right _ _
  have up : (∃ x ∈ s, b ≤ x) → ∃ x ∈ t, b ≤ x := fun ⟨x, h, h'⟩ => ⟨x, hst h, h'⟩
  have dn : (∃ x ∈ s, x ≤ b) → ∃ x ∈ t, x ≤ b := fun ⟨x, h, h'⟩ => ⟨x, hst h, h'⟩
  rcases ht with ⟨rfl, rfl⟩ | ⟨rfl, rfl⟩ <;> simp only [Touched, KnocksIn, true_iff, false_iff, ite_not]
  · by_cases h : ∃ x ∈ s, b ≤ x
    · simp [h, up h]
    · by_cases h' : ∃ x ∈ t, b ≤ x <;> simp [h, h', hv]
  · by_cases h : ∃ x ∈ s, x ≤ b
    · simp [h, dn h]
    · by_cases h' : ∃ x ∈ t, x ≤ b <;> simp [h, h', hv]

/-- An instance: a second observation between the first and the last. -/
example := C46_refine .call 110 100 none [90, 105] [90, 115, 105] (by simp) rfl (by simp) .upAndIn .upAndOut (.inl ⟨rfl, rfl⟩)

/-- C46 (negation of the documented rebate): the rebate never affects the payoff, so a knocked-out option with a rebate
pays nothing. -/
theorem C46_rebate_ignored (f : TypeFlag) (t : BarrierType) (b K : ℝ) (r r' : Option ℝ) (s : List ℝ) :
    barrierPayoff ⟨f, t, b, K, r⟩ s = barrierPayoff ⟨f, t, b, K, r'⟩ s ∧
    (t = .upAndOut → (∃ x ∈ s, b ≤ x) → barrierPayoff ⟨f, t, b, K, r⟩ s = some 0) := by
  refine ⟨rfl, ?_⟩
  rintro rfl ⟨x, hx, hb⟩
  have hne : s ≠ [] := List.ne_nil_of_mem hx
  obtain ⟨S, hS⟩ := exists_last hne
  rw [(C46_payoff _ s).2 S hS]
  simp only [Touched, KnocksIn, false_iff, ite_not]
  rw [if_pos ⟨x, hx, hb⟩]

/-! ## Lookbacks -/

theorem maxBy_spec (s : List ℝ) (hs : s ≠ []) : ∃ M, maxBy s = some M ∧ IsGreatest {x | x ∈ s} M := by
  cases s with
  | nil => exact absurd rfl hs
  | cons x l =>
    have : ∀ (l : List ℝ) (a : ℝ), IsGreatest {x | x ∈ a :: l} (l.foldl (fun m y => if m ≤ y then y else m) a) := by
      intro l
      induction l with
      | nil => intro a; exact ⟨by simp, fun y hy => le_of_eq (by simpa using hy)⟩
      | cons b l ih =>
        intro a
        obtain ⟨h1, h2⟩ := ih (if a ≤ b then b else a)
        rw [List.foldl_cons]
        refine ⟨?_, fun y hy => ?_⟩
        · simp only [Set.mem_ofPred_eq, List.mem_cons] at h1 ⊢
          rcases h1 with h1 | h1
          · rw [h1]; split_ifs <;> simp
          · exact Or.inr (Or.inr h1)
        · simp only [Set.mem_ofPred_eq, List.mem_cons] at hy
          have h3 : (if a ≤ b then b else a) ≤ _ := h2 (by simp : (if a ≤ b then b else a) ∈ {x | x ∈ (if a ≤ b then b else a) :: l})
          rcases hy with rfl | rfl | hy
          · refine le_trans ?_ h3; split_ifs with h
            · exact h
            · exact le_rfl
          · refine le_trans ?_ h3; split_ifs with h
            · exact le_rfl
            · exact (not_le.1 h).le
          · exact h2 (by simp [hy])
    exact ⟨_, rfl, this l x⟩

theorem minBy_spec (s : List ℝ) (hs : s ≠ []) : ∃ m, minBy s = some m ∧ IsLeast {x | x ∈ s} m := by
  cases s with
  | nil => exact absurd rfl hs
  | cons x l =>
    have : ∀ (l : List ℝ) (a : ℝ), IsLeast {x | x ∈ a :: l} (l.foldl (fun m y => if y < m then y else m) a) := by
      intro l
      induction l with
      | nil => intro a; exact ⟨by simp, fun y hy => le_of_eq (by simpa [eq_comm] using hy)⟩
      | cons b l ih =>
        intro a
        obtain ⟨h1, h2⟩ := ih (if b < a then b else a)
        rw [List.foldl_cons]
        refine ⟨?_, fun y hy => ?_⟩
        · simp only [Set.mem_ofPred_eq, List.mem_cons] at h1 ⊢
          rcases h1 with h1 | h1
          · rw [h1]; split_ifs <;> simp
          · exact Or.inr (Or.inr h1)
        · simp only [Set.mem_ofPred_eq, List.mem_cons] at hy
          have h3 : _ ≤ (if b < a then b else a) := h2 (by simp : (if b < a then b else a) ∈ {x | x ∈ (if b < a then b else a) :: l})
          rcases hy with rfl | rfl | hy
          · refine le_trans h3 ?_; split_ifs with h
            · exact h.le
            · exact le_rfl
          · refine le_trans h3 ?_; split_ifs with h
            · exact le_rfl
            · exact not_lt.1 h
          · exact h2 (by simp [hy])
    exact ⟨_, rfl, this l x⟩

/-- C56: a lookback panics exactly on an empty path, or for a fixed strike that was not given. -/
theorem C56_lookback_panics (o : LookbackOption) (s : List ℝ) :
    lookbackPayoff o s = none ↔ s = [] ∨ (o.strikeFlag = some .fixed ∧ o.strike = none) := by
  obtain ⟨f, sf, k⟩ := o
  by_cases hs : s = []
  · subst hs; simp [lookbackPayoff]
  · obtain ⟨S, hS⟩ := exists_last hs
    unfold lookbackPayoff
    rw [hS]
    rcases sf with _ | (_ | _) <;> cases f <;> cases k <;> simp [hs]

/-- C56: what a lookback pays. On a nonempty path with last price `S`, highest price `M` and lowest price `m`: the fixed
strike options are the vanilla call on `M` and the vanilla put on `m`; the floating strike call pays `S - m` and the put
`M - S` (also when no strike flag is set). -/
theorem C56_lookback (s : List ℝ) (S M m : ℝ) (hS : s.getLast? = some S) (hM : IsGreatest {x | x ∈ s} M)
    (hm : IsLeast {x | x ∈ s} m) (K : ℝ) (k : Option ℝ) (sf : Option StrikeFlag) (hsf : sf ≠ some .fixed) :
    lookbackPayoff ⟨.call, some .fixed, some K⟩ s = some (vanillaPayoff K .call M) ∧
    lookbackPayoff ⟨.put, some .fixed, some K⟩ s = some (vanillaPayoff K .put m) ∧
    lookbackPayoff ⟨.call, sf, k⟩ s = some (S - m) ∧ lookbackPayoff ⟨.put, sf, k⟩ s = some (M - S) := by
  have hne : s ≠ [] := by rintro rfl; simp at hS
  obtain ⟨M', h1, h2⟩ := maxBy_spec s hne
  obtain ⟨m', h3, h4⟩ := minBy_spec s hne
  have hMM : M' = M := h2.unique hM
  have hmm : m' = m := h4.unique hm
  subst hMM hmm
  have hSm : S ∈ s := List.mem_of_getLast? hS
  have a1 : S ≤ M' := hM.2 hSm
  have a2 : m' ≤ S := hm.2 hSm
  have b1 : max (S - m') 0 = S - m' := max_eq_left (by linarith)
  have b2 : max (M' - S) 0 = M' - S := max_eq_left (by linarith)
  unfold lookbackPayoff
  rw [hS]
  simp only [Option.bind_eq_bind, Option.bind_some, h1, h3, Option.getD_some, b1, b2]
  rcases sf with _ | (_ | _)
  · exact ⟨rfl, rfl, rfl, rfl⟩
  · exact absurd rfl hsf
  · exact ⟨rfl, rfl, rfl, rfl⟩

/-- C56: a lookback dominates the vanilla on the same path: fixed strike over the vanilla at the last price, floating
strike over zero; the floating call and put together pay the range of the path; and every further observation can only
raise a fixed strike payoff. -/
theorem C56_lookback_dominates (s t : List ℝ) (S : ℝ) (hS : s.getLast? = some S) (K : ℝ) :
    (∀ f, ∃ x, lookbackPayoff ⟨f, some .fixed, some K⟩ s = some x ∧ vanillaPayoff K f S ≤ x) ∧
    (∃ x y M m, lookbackPayoff ⟨.call, some .floating, none⟩ s = some x ∧
      lookbackPayoff ⟨.put, some .floating, none⟩ s = some y ∧ 0 ≤ x ∧ 0 ≤ y ∧
      IsGreatest {x | x ∈ s} M ∧ IsLeast {x | x ∈ s} m ∧ x + y = M - m) ∧
    (s ⊆ t → ∀ f, ∃ x y, lookbackPayoff ⟨f, some .fixed, some K⟩ s = some x ∧
      lookbackPayoff ⟨f, some .fixed, some K⟩ t = some y ∧ x ≤ y) := by
  have hne : s ≠ [] := by rintro rfl; simp at hS
  obtain ⟨M, -, hM⟩ := maxBy_spec s hne
  obtain ⟨m, -, hm⟩ := minBy_spec s hne
  have hSm : S ∈ s := List.mem_of_getLast? hS
  have a1 : S ≤ M := hM.2 hSm
  have a2 : m ≤ S := hm.2 hSm
  obtain ⟨h1, h2, h3, h4⟩ := C56_lookback s S M m hS hM hm K none (some .floating) (by simp)
  refine ⟨fun f => ?_, ⟨_, _, M, m, h3, h4, by linarith, by linarith, hM, hm, by ring⟩, fun hst f => ?_⟩
  · cases f
    · exact ⟨_, h1, (C45_vanilla_shape K).1 a1⟩
    · exact ⟨_, h2, (C45_vanilla_shape K).2.1 a2⟩
  · have hne' : t ≠ [] := by rintro rfl; exact absurd (hst hSm) (by simp)
    obtain ⟨T, hT⟩ := exists_last hne'
    obtain ⟨M', -, hM'⟩ := maxBy_spec t hne'
    obtain ⟨m', -, hm'⟩ := minBy_spec t hne'
    obtain ⟨h5, h6, _⟩ := C56_lookback t T M' m' hT hM' hm' K none (some .floating) (by simp)
    cases f
    · exact ⟨_, _, h1, h5, (C45_vanilla_shape K).1 (hM'.2 (hst hM.1))⟩
    · exact ⟨_, _, h2, h6, (C45_vanilla_shape K).2.1 (hm'.2 (hst hm.1))⟩

example : lookbackPayoff ⟨.call, some .floating, none⟩ [100, 90, 120, 110] = some 20 := by
  have := (C56_lookback [100, 90, 120, 110] 110 120 90 rfl ⟨by simp, fun y hy => by
    simp at hy; rcases hy with rfl | rfl | rfl | rfl <;> norm_num⟩ ⟨by simp, fun y hy => by
    simp at hy; rcases hy with rfl | rfl | rfl | rfl <;> norm_num⟩ 0 none (some .floating) (by simp)).2.2.1
  rw [this]; norm_num

/-! ## Asians -/

/-- The arithmetic mean of a path. -/
noncomputable def amean (s : List ℝ) : ℝ := s.sum / s.length

/-- The geometric mean of a path. -/
noncomputable def gmean (s : List ℝ) : ℝ := s.prod ^ (1 / (s.length : ℝ))

/-- C56: an Asian option panics exactly on an empty path, for continuous averaging, or without a strike flag. -/
theorem C56_asian_panics (o : AsianOption) (s : List ℝ) :
    asianPayoff o s = none ↔ s = [] ∨ o.averagingMethod = .arithmeticContinuous ∨
      o.averagingMethod = .geometricContinuous ∨ o.strikeFlag = none := by
  obtain ⟨f, sf, av, k⟩ := o
  by_cases hs : s = []
  · subst hs; simp [asianPayoff]
  · have hl : s.length ≠ 0 := by simpa using hs
    unfold asianPayoff
    rw [if_neg hl, List.getElem?_eq_getElem (by omega)]
    cases av <;> rcases sf with _ | (_ | _) <;> cases f <;> simp [hs, asianAverage]

/-- C56: what an Asian option pays on a nonempty path with last price `S`: the vanilla payoff on the average against
the fixed strike (zero if none was given), or of the last price against the average. -/
theorem C56_asian (s : List ℝ) (S : ℝ) (hS : s.getLast? = some S) (k : Option ℝ) (f : TypeFlag) (av : AveragingMethod)
    (A : ℝ) (hA : (av = .arithmeticDiscrete ∧ A = amean s) ∨ (av = .geometricDiscrete ∧ A = gmean s)) :
    asianPayoff ⟨f, some .fixed, av, k⟩ s = some (vanillaPayoff (k.getD 0) f A) ∧
    asianPayoff ⟨f, some .floating, av, k⟩ s = some (vanillaPayoff A f S) := by
  have hne : s ≠ [] := by rintro rfl; simp at hS
  have hl : s.length ≠ 0 := by simpa using hne
  rw [List.getLast?_eq_getElem?] at hS
  unfold asianPayoff
  rw [if_neg hl, hS]
  rcases hA with ⟨rfl, rfl⟩ | ⟨rfl, rfl⟩ <;> cases f <;> exact ⟨rfl, rfl⟩

theorem sum_between (s : List ℝ) (m M : ℝ) (h : ∀ x ∈ s, m ≤ x ∧ x ≤ M) : m * s.length ≤ s.sum ∧ s.sum ≤ M * s.length := by
  induction s with
  | nil => simp
  | cons x s ih =>
    obtain ⟨h1, h2⟩ := ih (fun y hy => h y (by simp [hy]))
    obtain ⟨h3, h4⟩ := h x (by simp)
    simp only [List.sum_cons, List.length_cons]
    push_cast
    constructor <;> linarith

theorem prod_between (s : List ℝ) (m M : ℝ) (hm : 0 < m) (h : ∀ x ∈ s, m ≤ x ∧ x ≤ M) :
    m ^ s.length ≤ s.prod ∧ s.prod ≤ M ^ s.length ∧ 0 < s.prod := by
  induction s with
  | nil => simp
  | cons x s ih =>
    obtain ⟨h1, h2, h5⟩ := ih (fun y hy => h y (by simp [hy]))
    obtain ⟨h3, h4⟩ := h x (by simp)
    have hx : 0 < x := by linarith
    simp only [List.prod_cons, List.length_cons, pow_succ]
    refine ⟨?_, ?_, by positivity⟩
    · rw [mul_comm]; exact mul_le_mul h3 h1 (by positivity) hx.le
    · rw [mul_comm]; exact mul_le_mul h2 h4 hx.le (pow_nonneg (by linarith) _)

/-- C56: both averages lie between the lowest and the highest price of the path, and on positive prices the geometric
average is at most the arithmetic one; so a geometric fixed-strike call never pays more than the arithmetic one, and a
geometric put never less. -/
theorem C56_averages (s : List ℝ) (hne : s ≠ []) (m M : ℝ) (hm : 0 < m) (h : ∀ x ∈ s, m ≤ x ∧ x ≤ M) :
    (m ≤ amean s ∧ amean s ≤ M) ∧ (m ≤ gmean s ∧ gmean s ≤ M) ∧ gmean s ≤ amean s ∧
    ∀ k, ∃ x y x' y', asianPayoff ⟨.call, some .fixed, .geometricDiscrete, k⟩ s = some x ∧
      asianPayoff ⟨.call, some .fixed, .arithmeticDiscrete, k⟩ s = some y ∧ x ≤ y ∧
      asianPayoff ⟨.put, some .fixed, .geometricDiscrete, k⟩ s = some x' ∧
      asianPayoff ⟨.put, some .fixed, .arithmeticDiscrete, k⟩ s = some y' ∧ y' ≤ x' := by
  have hl : (0 : ℝ) < s.length := by exact_mod_cast List.length_pos_iff.2 hne
  have hl' : s.length ≠ 0 := by simpa using hne
  obtain ⟨a1, a2⟩ := sum_between s m M h
  obtain ⟨p1, p2, p3⟩ := prod_between s m M hm h
  have hM : 0 < M := by
    obtain ⟨x, hx⟩ := List.exists_mem_of_ne_nil s hne
    have := h x hx; linarith
  have root : ∀ c : ℝ, 0 < c → (c ^ s.length) ^ (1 / (s.length : ℝ)) = c := by
    intro c hc
    rw [one_div, Real.pow_rpow_inv_natCast hc.le hl']
  have hg1 : m ≤ gmean s := by
    rw [← root m hm]; exact Real.rpow_le_rpow (by positivity) p1 (by positivity)
  have hg2 : gmean s ≤ M := by
    rw [← root M hM]; exact Real.rpow_le_rpow p3.le p2 (by positivity)
  have hga : gmean s ≤ amean s := by
    have := Real.geom_mean_le_arith_mean_weighted (Finset.univ : Finset (Fin s.length)) (fun _ => (1 : ℝ) / s.length)
      (fun i => s[i.1]) (fun _ _ => by positivity) (by simp [hl.ne']) (fun i _ => by
        have := (h _ (List.getElem_mem (l := s) i.2)).1; linarith)
    rw [Real.finsetProd_rpow _ _ (fun i _ => by have := (h _ (List.getElem_mem (l := s) i.2)).1; linarith), ← Finset.mul_sum,
      Fin.prod_univ_getElem, Fin.sum_univ_getElem] at this
    rw [gmean, amean]
    refine this.trans (le_of_eq ?_)
    ring
  refine ⟨⟨by rw [amean, le_div_iff₀ hl]; exact a1, by rw [amean, div_le_iff₀ hl]; exact a2⟩, ⟨hg1, hg2⟩, hga, fun k => ?_⟩
  obtain ⟨S, hS⟩ := exists_last hne
  refine ⟨_, _, _, _, (C56_asian s S hS k .call _ _ (Or.inr ⟨rfl, rfl⟩)).1, (C56_asian s S hS k .call _ _ (Or.inl ⟨rfl, rfl⟩)).1,
    (C45_vanilla_shape _).1 hga, (C56_asian s S hS k .put _ _ (Or.inr ⟨rfl, rfl⟩)).1,
    (C56_asian s S hS k .put _ _ (Or.inl ⟨rfl, rfl⟩)).1, (C45_vanilla_shape _).2.1 hga⟩

example := C56_averages [90, 115, 105] (by simp) 90 115 (by norm_num) (by norm_num)

/-- C56: Asian parity: call less put is the average less the strike, or the last price less the average. -/
theorem C56_asian_parity (s : List ℝ) (S : ℝ) (hS : s.getLast? = some S) (k : Option ℝ) (av : AveragingMethod)
    (A : ℝ) (hA : (av = .arithmeticDiscrete ∧ A = amean s) ∨ (av = .geometricDiscrete ∧ A = gmean s)) :
    ∃ c p c' p', asianPayoff ⟨.call, some .fixed, av, k⟩ s = some c ∧ asianPayoff ⟨.put, some .fixed, av, k⟩ s = some p ∧
      c - p = A - k.getD 0 ∧ asianPayoff ⟨.call, some .floating, av, k⟩ s = some c' ∧
      asianPayoff ⟨.put, some .floating, av, k⟩ s = some p' ∧ c' - p' = S - A :=
  ⟨_, _, _, _, (C56_asian s S hS k .call av A hA).1, (C56_asian s S hS k .put av A hA).1, (C45_vanilla_parity _ _).1,
    (C56_asian s S hS k .call av A hA).2, (C56_asian s S hS k .put av A hA).2, (C45_vanilla_parity _ _).1⟩

example : asianPayoff ⟨.call, some .fixed, .arithmeticDiscrete, some 100⟩ [100, 110, 120] = some 10 := by
  rw [(C56_asian [100, 110, 120] 120 rfl (some 100) .call _ _ (Or.inl ⟨rfl, rfl⟩)).1]
  norm_num [amean, vanillaPayoff]

end Verif.Options
