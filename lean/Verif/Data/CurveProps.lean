import Verif.Data.Curve
import Verif.Math.InterpProps

/-!
# C34: curves
-/

namespace Verif.Data

open Verif Verif.Time Verif.Math

variable {bs : List Date → Date → Option ℕ}

/-! ## Reachable curves are well formed -/

theorem wf_foldl_insert (l : List (Date × ℝ)) (s : SMap Date ℝ) (hs : SMap.WF s) :
    SMap.WF (l.foldl (fun s e => s.insert e.1 e.2) s) := by
  induction l generalizing s with
  | nil => exact hs
  | cons e l ih => exact ih _ (SMap.wf_insert hs _ _)

theorem get?_foldl_insert (l : List (Date × ℝ)) (s : SMap Date ℝ) (d : Date) :
    (l.foldl (fun s e => s.insert e.1 e.2) s).get? d =
      match l.reverse.find? (fun e => e.1 = d) with
      | some e => some e.2
      | none => s.get? d := by
  induction l generalizing s with
  | nil => rfl
  | cons e l ih =>
    rw [List.foldl_cons, ih, List.reverse_cons, List.find?_append]
    cases h : l.reverse.find? (fun e => e.1 = d) with
    | some x => simp
    | none =>
      simp only [Option.none_or, List.find?_cons, List.find?_nil]
      rw [SMap.get?_insert]
      by_cases hd : d = e.1
      · simp [hd]
      · have : ¬ e.1 = d := fun h => hd h.symm
        simp [hd, this]

theorem Curve.Reachable.wf {c : Curve} (h : c.Reachable bs) : SMap.WF c.nodes := by
  induction h with
  | new h =>
    unfold Curve.new at h
    split at h <;> simp only [reduceCtorEq, Built.ok.injEq] at h
    subst h
    exact wf_foldl_insert _ _ SMap.wf_nil
  | fromNodes hw h =>
    unfold Curve.fromNodes at h
    split at h <;> simp only [reduceCtorEq, Built.ok.injEq] at h
    subst h
    exact hw
  | setRate _ d r ih => exact SMap.wf_insert ih d r
  | shift _ s ih =>
    unfold SMap.WF at *
    simp only [Curve.shift]
    rw [List.pairwise_map]
    exact ih
  | insert _ hi ih =>
    unfold Curve.getRateAndInsert at hi
    split at hi
    · simp only [Option.some.injEq, Prod.mk.injEq] at hi; rw [← hi.1]; exact ih
    · split at hi
      · simp at hi
      · simp only [Option.some.injEq, Prod.mk.injEq] at hi; rw [← hi.1]; exact ih
      · simp only [Option.some.injEq, Prod.mk.injEq] at hi; rw [← hi.1]; exact SMap.wf_insert ih _ _

/-! ## Construction -/

/-- C34: a new curve holds, for each date given, the last rate given for it, and nothing else; construction fails exactly
when the vectors differ in length, and panics for the two unimplemented methods whatever the data. -/
theorem C34_new (dates : List Date) (rates : List ℝ) (m : Method) :
    (m = .cubicSpline ∨ m = .lagrange → Curve.new dates rates m = .panic) ∧
    (m = .linear ∨ m = .exponential → dates.length ≠ rates.length → Curve.new dates rates m = .err) ∧
    (m = .linear ∨ m = .exponential → dates.length = rates.length → ∃ c, Curve.new dates rates m = .ok c ∧
      ∀ d, c.getRate bs d = match (dates.zip rates).reverse.find? (fun e => e.1 = d) with
        | some e => some (some e.2)
        | none => c.interpolate bs d) := by
  refine ⟨?_, ?_, ?_⟩
  · rintro (rfl | rfl) <;> rfl
  · rintro (rfl | rfl) h <;> simp [Curve.new, buildInterp, (C38_new dates rates).1.1 h]
  · intro hm h
    obtain ⟨I, hI⟩ := (C38_new dates rates).2.1.1 h
    have hb : buildInterp dates rates m = .ok I := by
      rcases hm with rfl | rfl <;> simp [buildInterp, hI]
    refine ⟨⟨(dates.zip rates).foldl (fun s e => s.insert e.1 e.2) [], m, I⟩, by simp [Curve.new, hb], ?_⟩
    intro d
    unfold Curve.getRate
    rw [get?_foldl_insert]
    cases (dates.zip rates).reverse.find? (fun e => e.1 = d) with
    | some e => rfl
    | none => rfl

/-! ## Reading and writing nodes -/

/-- C34: after `set_rates` (or the same `set_rate` calls one by one) the rate at a date is the last one set for it; at
every other date `get_rate` answers as before, whether from a node or by interpolation. -/
theorem C34_set_rates (c : Curve) (l : List (Date × ℝ)) (d : Date) :
    (c.setRates l).getRate bs d = match l.reverse.find? (fun e => e.1 = d) with
      | some e => some (some e.2)
      | none => c.getRate bs d := by
  have h : c.setRates l = { c with nodes := l.foldl (fun s e => s.insert e.1 e.2) c.nodes } := by
    unfold Curve.setRates
    induction l generalizing c with
    | nil => rfl
    | cons e l ih => rw [List.foldl_cons, ih]; rfl
  rw [h]
  unfold Curve.getRate
  simp only
  rw [get?_foldl_insert]
  cases l.reverse.find? (fun e => e.1 = d) with
  | some e => rfl
  | none => rfl

/-- C34: `dates` is strictly increasing, has one rate and one length count per date, and `get_rate` returns, at the i-th
date, the i-th rate. -/
theorem C34_dates (c : Curve) (hc : c.Reachable bs) :
    c.dates.Pairwise (· < ·) ∧ c.dates.length = c.len ∧ c.rates.length = c.len ∧
    (c.isEmpty = true ↔ c.dates = []) ∧
    ∀ (i : ℕ) d r, c.dates[i]? = some d → c.rates[i]? = some r → c.getRate bs d = some (some r) := by
  refine ⟨?_, by simp [Curve.dates, Curve.len], by simp [Curve.rates, Curve.len], ?_, ?_⟩
  · unfold Curve.dates
    rw [List.pairwise_map]
    exact hc.wf
  · simp [Curve.isEmpty, Curve.dates]
  · intro i d r hd hr
    simp only [Curve.dates, Curve.rates, List.getElem?_map, Option.map_eq_some_iff] at hd hr
    obtain ⟨e, he, rfl⟩ := hd
    obtain ⟨e', he', rfl⟩ := hr
    rw [he] at he'
    simp only [Option.some.injEq] at he'
    subst he'
    unfold Curve.getRate
    rw [SMap.get?_of_mem hc.wf (List.mem_of_getElem? he)]

/-- An instance: two nodes given in the wrong order, then a rate set between them and a shift. -/
example (c : Curve) (h : Curve.new [⟨2024, 7, 5, by decide⟩, ⟨2024, 7, 1, by decide⟩] [3, 1] .linear = .ok c) :=
  C34_dates (bs := bs) _ (.shift (.setRate (.new h) ⟨2024, 7, 2, by decide⟩ 2) 0.5)

theorem head_min {l : List Date} (h : l.Pairwise (· < ·)) {a : Date} (ha : l.head? = some a) :
    a ∈ l ∧ ∀ x ∈ l, a ≤ x := by
  cases l with
  | nil => simp at ha
  | cons y t =>
    simp only [List.head?_cons, Option.some.injEq] at ha
    subst ha
    refine ⟨by simp, fun x hx => ?_⟩
    rcases List.mem_cons.1 hx with rfl | hx
    · exact le_rfl
    · exact ((List.pairwise_cons.1 h).1 x hx).le

theorem last_max {l : List Date} (h : l.Pairwise (· < ·)) {a : Date} (ha : l.getLast? = some a) :
    a ∈ l ∧ ∀ x ∈ l, x ≤ a := by
  have h' : l.reverse.Pairwise (· > ·) := List.pairwise_reverse.2 h
  rw [← List.head?_reverse] at ha
  rw [← List.mem_reverse]
  cases hr : l.reverse with
  | nil => simp [hr] at ha
  | cons y t =>
    rw [hr] at ha h'
    simp only [List.head?_cons, Option.some.injEq] at ha
    subst ha
    refine ⟨by simp, fun x hx => ?_⟩
    rw [← List.mem_reverse, hr] at hx
    rcases List.mem_cons.1 hx with rfl | hx
    · exact le_rfl
    · exact ((List.pairwise_cons.1 h').1 x hx).le

/-- C34: `first_date` and `last_date` are the least and the greatest node date, `first_rate` and `last_rate` their rates;
all four are `None` exactly for an empty curve. -/
theorem C34_first_last (c : Curve) (hc : c.Reachable bs) :
    (c.dates = [] → c.firstDate = none ∧ c.lastDate = none ∧ c.firstRate = none ∧ c.lastRate = none) ∧
    (c.dates ≠ [] → ∃ a b ra rb, c.firstDate = some a ∧ c.lastDate = some b ∧ c.firstRate = some ra ∧
      c.lastRate = some rb ∧ a ∈ c.dates ∧ b ∈ c.dates ∧ (∀ x ∈ c.dates, a ≤ x ∧ x ≤ b) ∧
      c.getRate bs a = some (some ra) ∧ c.getRate bs b = some (some rb)) := by
  constructor
  · intro h
    simp only [Curve.dates, List.map_eq_nil_iff] at h
    simp [Curve.firstDate, Curve.lastDate, Curve.firstRate, Curve.lastRate, h]
  · intro h
    have hn : c.nodes ≠ [] := by simpa [Curve.dates] using h
    have hp := (C34_dates c hc).1
    have e1 : c.nodes.head? = some (c.nodes.head hn) := List.head?_eq_some_head hn
    have e2 : c.nodes.getLast? = some (c.nodes.getLast hn) := List.getLast?_eq_some_getLast hn
    have f1 : c.firstDate = some (c.nodes.head hn).1 := by simp only [Curve.firstDate, List.head?_map, e1, Option.map_some]
    have f2 : c.lastDate = some (c.nodes.getLast hn).1 := by
      simp only [Curve.lastDate, List.getLast?_map, e2, Option.map_some]
    have f3 : c.firstRate = some (c.nodes.head hn).2 := by simp only [Curve.firstRate, List.head?_map, e1, Option.map_some]
    have f4 : c.lastRate = some (c.nodes.getLast hn).2 := by
      simp only [Curve.lastRate, List.getLast?_map, e2, Option.map_some]
    obtain ⟨m1, m2⟩ := head_min hp f1
    obtain ⟨m3, m4⟩ := last_max hp f2
    refine ⟨_, _, _, _, f1, f2, f3, f4, m1, m3, fun x hx => ⟨m2 x hx, m4 x hx⟩, ?_, ?_⟩
    · have := SMap.get?_of_mem (k := (c.nodes.head hn).1) (v := (c.nodes.head hn).2) hc.wf (List.head_mem hn)
      simp only [Curve.getRate, this]
    · have := SMap.get?_of_mem (k := (c.nodes.getLast hn).1) (v := (c.nodes.getLast hn).2) hc.wf (List.getLast_mem hn)
      simp only [Curve.getRate, this]

example (c : Curve) (h : Curve.new [⟨2024, 7, 5, by decide⟩, ⟨2024, 7, 1, by decide⟩] [3, 1] .linear = .ok c) :=
  C34_first_last (bs := bs) c (.new h)

/-- C34: `get_brackets` panics exactly on an empty curve. Otherwise, for a date at or before the first node both brackets
are the first node, at or after the last node both are the last node, and strictly inside they are the greatest node before
the date and the least node at or after it. -/
theorem C34_brackets (c : Curve) (hc : c.Reachable bs) (d : Date) :
    (c.getBrackets d = none ↔ c.dates = []) ∧
    ∀ l r, c.getBrackets d = some (l, r) → l ∈ c.dates ∧ r ∈ c.dates ∧
      ((l = r ∧ (∀ x ∈ c.dates, l ≤ x) ∧ d ≤ l) ∨ (l = r ∧ (∀ x ∈ c.dates, x ≤ l) ∧ l ≤ d) ∨
       (l < d ∧ d ≤ r ∧ ∀ x ∈ c.dates, x ≤ l ∨ r ≤ x)) := by
  by_cases h : c.dates = []
  · obtain ⟨h1, h2, _⟩ := (C34_first_last c hc).1 h
    refine ⟨by simp [Curve.getBrackets, h1, h], ?_⟩
    intro l r hlr
    simp [Curve.getBrackets, h1] at hlr
  · obtain ⟨a, b, ra, rb, f1, f2, _, _, ha, hb, hab, _, _⟩ := (C34_first_last c hc).2 h
    have hp := (C34_dates c hc).1
    simp only [Curve.getBrackets, f1, f2]
    split_ifs with h1 h2
    · simp only [h, Option.some.injEq, Prod.mk.injEq, and_imp, true_and]
      rintro l r rfl rfl
      exact ⟨ha, ha, Or.inl ⟨rfl, fun x hx => (hab x hx).1, h1⟩⟩
    · simp only [h, Option.some.injEq, Prod.mk.injEq, and_imp, true_and]
      rintro l r rfl rfl
      exact ⟨hb, hb, Or.inr (Or.inl ⟨rfl, fun x hx => (hab x hx).2, h2⟩)⟩
    · rw [not_le] at h1 h2
      have n1 : c.dates.filter (fun x => x < d) ≠ [] :=
        List.ne_nil_of_mem (List.mem_filter.2 ⟨ha, by simpa using h1⟩)
      have n2 : c.dates.filter (fun x => d ≤ x) ≠ [] :=
        List.ne_nil_of_mem (List.mem_filter.2 ⟨hb, by simpa using h2.le⟩)
      have e1 := List.getLast?_eq_some_getLast n1
      have e2 := List.head?_eq_some_head n2
      obtain ⟨p1, p2⟩ := last_max (hp.filter _) e1
      obtain ⟨q1, q2⟩ := head_min (hp.filter _) e2
      simp only [e1, e2, reduceCtorEq, h, Option.some.injEq, Prod.mk.injEq, and_imp, true_and]
      intro l r hl hr
      rw [hl] at p1 p2
      rw [hr] at q1 q2
      simp only [List.mem_filter, decide_eq_true_eq] at p1 q1 p2 q2
      refine ⟨p1.1, q1.1, Or.inr (Or.inr ⟨p1.2, q1.2, fun x hx => ?_⟩)⟩
      rcases lt_or_ge x d with hx' | hx'
      · exact Or.inl (p2 x ⟨hx, hx'⟩)
      · exact Or.inr (q2 x ⟨hx, hx'⟩)

example (c : Curve) (h : Curve.new [⟨2024, 7, 5, by decide⟩, ⟨2024, 7, 1, by decide⟩] [3, 1] .linear = .ok c) :=
  C34_brackets (bs := bs) c (.new h) ⟨2024, 7, 3, by decide⟩

/-! ## Shift and insertion -/

theorem get?_map_add (m : SMap Date ℝ) (s : ℝ) (d : Date) :
    SMap.get? (m.map fun e => (e.1, e.2 + s)) d = (m.get? d).map (· + s) := by
  induction m with
  | nil => rfl
  | cons e m ih =>
    simp only [List.map_cons, SMap.get?]
    split_ifs
    · rfl
    · exact ih

/-- C34: `shift` adds the shift to the rate of every node and to no other date: an interpolated rate stays as it was
(defect: the shifted curve is not the curve shifted). -/
theorem C34_shift (c : Curve) (s : ℝ) (d : Date) :
    (c.shift s).dates = c.dates ∧ (c.shift s).rates = c.rates.map (· + s) ∧
    (∀ r, c.nodes.get? d = some r → (c.shift s).getRate bs d = some (some (r + s))) ∧
    (c.nodes.get? d = none → (c.shift s).getRate bs d = c.getRate bs d) := by
  refine ⟨by simp [Curve.dates, Curve.shift, Function.comp_def], by simp [Curve.rates, Curve.shift, Function.comp_def],
    ?_, ?_⟩
  · intro r hr
    simp [Curve.getRate, Curve.shift, get?_map_add, hr]
  · intro hr
    simp only [Curve.getRate, Curve.shift, get?_map_add, hr, Option.map_none]
    rfl

/-- C34: `get_rate_and_insert` answers as `get_rate` does, and afterwards every date, including this one, answers as it
did before; a returned rate becomes a node. -/
theorem C34_get_and_insert (c : Curve) (d : Date) :
    (c.getRateAndInsert bs d).map (·.2) = c.getRate bs d ∧
    ∀ c' r, c.getRateAndInsert bs d = some (c', r) →
      (∀ x, c'.getRate bs x = c.getRate bs x) ∧ c'.nodes.get? d = r := by
  cases hn : c.nodes.get? d with
  | some r =>
    constructor
    · simp [Curve.getRateAndInsert, Curve.getRate, hn]
    · intro c' r' h
      simp only [Curve.getRateAndInsert, hn, Option.some.injEq, Prod.mk.injEq] at h
      obtain ⟨rfl, rfl⟩ := h
      exact ⟨fun _ => rfl, hn⟩
  | none =>
    cases hi : c.interpolate bs d with
    | none =>
      constructor
      · simp [Curve.getRateAndInsert, Curve.getRate, hn, hi]
      · intro c' r' h
        simp [Curve.getRateAndInsert, hn, hi] at h
    | some o =>
      cases o with
      | none =>
        constructor
        · simp [Curve.getRateAndInsert, Curve.getRate, hn, hi]
        · intro c' r' h
          simp only [Curve.getRateAndInsert, hn, hi, Option.some.injEq, Prod.mk.injEq] at h
          obtain ⟨rfl, rfl⟩ := h
          exact ⟨fun _ => rfl, hn⟩
      | some v =>
        constructor
        · simp [Curve.getRateAndInsert, Curve.getRate, hn, hi]
        · intro c' r' h
          simp only [Curve.getRateAndInsert, hn, hi, Option.some.injEq, Prod.mk.injEq] at h
          obtain ⟨rfl, rfl⟩ := h
          refine ⟨fun x => ?_, ?_⟩
          · unfold Curve.getRate
            simp only
            rw [SMap.get?_insert]
            by_cases hx : x = d
            · subst hx; simp [hn, hi]
            · simp only [hx, if_false]
              rfl
          · simp only; rw [SMap.get?_insert]; simp

theorem getRateAndInsert_other (c c' : Curve) (d : Date) (r : Option ℝ) (h : c.getRateAndInsert bs d = some (c', r))
    (x : Date) (hx : x ≠ d) : c'.nodes.get? x = c.nodes.get? x := by
  unfold Curve.getRateAndInsert at h
  split at h
  · simp only [Option.some.injEq, Prod.mk.injEq] at h
    rw [← h.1]
  · split at h
    · cases h
    · simp only [Option.some.injEq, Prod.mk.injEq] at h
      rw [← h.1]
    · simp only [Option.some.injEq, Prod.mk.injEq] at h
      rw [← h.1]
      simp only
      rw [SMap.get?_insert, if_neg hx]

/-- C34: the two functions for lists of dates. `get_rates` answers date by date (and panics exactly if one of the dates
does); `get_rates_and_insert` gives the same answers, whatever the order and repetitions of the dates, leaves every answer
of the curve as it was, and adds as nodes those of the dates that have an answer, and nothing else. -/
theorem C34_batch (c : Curve) (ds : List Date) :
    (c.getRates bs ds = none ↔ ∃ d ∈ ds, c.getRate bs d = none) ∧
    (∀ rs, c.getRates bs ds = some rs ↔
      rs.length = ds.length ∧ ∀ (i : ℕ) d r, ds[i]? = some d → rs[i]? = some r → c.getRate bs d = some r) ∧
    (c.getRatesAndInsert bs ds).map (·.2) = c.getRates bs ds ∧
    ∀ c' rs, c.getRatesAndInsert bs ds = some (c', rs) → (∀ x, c'.getRate bs x = c.getRate bs x) ∧
      (∀ x ∈ ds, ∃ r, c.getRate bs x = some r ∧ c'.nodes.get? x = r) ∧
      (∀ x ∉ ds, c'.nodes.get? x = c.nodes.get? x) := by
  refine ⟨?_, ?_, ?_⟩
  · induction ds with
    | nil => simp [Curve.getRates]
    | cons d ds ih =>
      simp only [Curve.getRates, List.mem_cons, exists_eq_or_imp, ← ih]
      cases c.getRate bs d <;> simp
  · induction ds with
    | nil =>
      intro rs
      cases rs <;> simp [Curve.getRates]
    | cons d ds ih =>
      intro rs
      simp only [Curve.getRates]
      constructor
      · intro h
        simp only [Option.bind_eq_some_iff, Option.map_eq_some_iff] at h
        obtain ⟨r, hr, rs', hrs, rfl⟩ := h
        obtain ⟨h1, h2⟩ := (ih rs').1 hrs
        refine ⟨by simp [h1], ?_⟩
        rintro (_ | i) d' r' hd hr'
        · simp at hd hr'; subst hd hr'; exact hr
        · exact h2 i d' r' (by simpa using hd) (by simpa using hr')
      · rintro ⟨h1, h2⟩
        cases rs with
        | nil => simp at h1
        | cons r rs =>
          rw [h2 0 d r rfl rfl, (ih rs).2 ⟨by simpa using h1, fun i d' r' a b => h2 (i + 1) d' r' (by simpa using a) (by simpa using b)⟩]
          rfl
  · induction ds generalizing c with
    | nil =>
      refine ⟨rfl, ?_⟩
      intro c' rs h
      simp only [Curve.getRatesAndInsert, Option.some.injEq, Prod.mk.injEq] at h
      obtain ⟨rfl, rfl⟩ := h
      simp
    | cons d ds ih =>
      obtain ⟨g1, g2⟩ := C34_get_and_insert (bs := bs) c d
      have go := getRateAndInsert_other (bs := bs) c
      simp only [Curve.getRatesAndInsert, Curve.getRates]
      cases hp : c.getRateAndInsert bs d with
      | none =>
        rw [hp] at g1
        rw [← g1]
        simp
      | some p =>
        obtain ⟨c₁, r⟩ := p
        rw [hp] at g1
        rw [← g1]
        obtain ⟨h1, h2⟩ := g2 c₁ r hp
        obtain ⟨i1, i2⟩ := ih c₁
        have hR : ∀ ds, c₁.getRates bs ds = c.getRates bs ds := by
          intro ds
          induction ds with
          | nil => rfl
          | cons e es ihe => simp only [Curve.getRates, h1, ihe]
        rw [hR] at i1
        refine ⟨?_, ?_⟩
        · rw [← i1]
          cases hq : c₁.getRatesAndInsert bs ds <;> simp [hq]
        · intro c' rs h
          simp only [Option.bind_some, Option.map_eq_some_iff, Prod.mk.injEq] at h
          obtain ⟨⟨c₂, rs'⟩, hq, rfl, rfl⟩ := h
          obtain ⟨j1, j2, j3⟩ := i2 c₂ rs' hq
          have hd : c.getRate bs d = some r := g1.symm
          refine ⟨fun x => (j1 x).trans (h1 x), ?_, ?_⟩
          · intro x hx
            by_cases hxs : x ∈ ds
            · obtain ⟨r', a, b⟩ := j2 x hxs
              exact ⟨r', by rw [← h1]; exact a, b⟩
            · rcases List.mem_cons.1 hx with rfl | hx
              · exact ⟨r, hd, by rw [j3 x hxs]; exact h2⟩
              · exact absurd hx hxs
          · intro x hx
            rw [List.mem_cons, not_or] at hx
            rw [j3 x hx.2, go c₁ d r hp x hx.1]

/-! ## Interpolated rates -/

theorem neighbours_index {I : Interp Date ℝ} (hI : I.Inv) (hd : I.xs.Nodup) {d dl dr : Date} {rl rr : ℝ}
    (hl : (dl, rl) ∈ I.points) (hr : (dr, rr) ∈ I.points) (h1 : dl < d) (h2 : d < dr)
    (hb : ∀ x ∈ I.xs, x ≤ dl ∨ dr ≤ x) :
    ∃ i, I.xs[i]? = some dl ∧ I.xs[i + 1]? = some dr ∧ I.ys[i]? = some rl ∧ I.ys[i + 1]? = some rr := by
  have ml := (List.of_mem_zip hl).1
  have mr := (List.of_mem_zip hr).1
  have hp : d ∉ I.xs := fun h => by
    rcases hb d h with h | h
    · exact absurd h1 (not_lt.2 h)
    · exact absurd h2 (not_lt.2 h)
  obtain ⟨i, xl, xr, yl, yr, e1, e2, e3, e4, e5, e6⟩ := exists_segment hI ml mr h1.le h2.le hp
  obtain ⟨hi1, hx1⟩ := List.getElem?_eq_some_iff.1 e1
  obtain ⟨hi2, hx2⟩ := List.getElem?_eq_some_iff.1 e2
  have xl_le : xl ≤ dl := by
    rcases hb xl (List.mem_of_getElem? e1) with h | h
    · exact h
    · exact absurd (lt_trans e5 h2) (not_lt.2 h)
  have xr_ge : dr ≤ xr := by
    rcases hb xr (List.mem_of_getElem? e2) with h | h
    · exact absurd (lt_trans h1 e6) (not_lt.2 h)
    · exact h
  have dl_le : dl ≤ xl := by
    obtain ⟨j, hj, rfl⟩ := List.getElem_of_mem ml
    rcases Nat.lt_trichotomy j i with h | h | h
    · rw [← hx1]; exact List.pairwise_iff_getElem.1 hI.sorted _ _ hj hi1 h
    · subst h; rw [← hx1]
    · exfalso
      have : xr ≤ I.xs[j] := by
        rcases Nat.lt_or_ge (i + 1) j with h' | h'
        · rw [← hx2]; exact List.pairwise_iff_getElem.1 hI.sorted _ _ hi2 hj h'
        · have : j = i + 1 := by omega
          subst this; rw [← hx2]
      exact absurd (lt_trans h1 e6) (not_lt.2 this)
  have dr_ge : xr ≤ dr := by
    obtain ⟨j, hj, rfl⟩ := List.getElem_of_mem mr
    rcases Nat.lt_trichotomy j (i + 1) with h | h | h
    · exfalso
      have : I.xs[j] ≤ xl := by
        rcases Nat.lt_or_ge j i with h' | h'
        · rw [← hx1]; exact List.pairwise_iff_getElem.1 hI.sorted _ _ hj hi1 h'
        · have : j = i := by omega
          subst this; rw [← hx1]
      exact absurd (lt_trans e5 h2) (not_lt.2 this)
    · subst h; rw [← hx2]
    · rw [← hx2]; exact List.pairwise_iff_getElem.1 hI.sorted _ _ hi2 hj h
  have el : xl = dl := le_antisymm xl_le dl_le
  have er : xr = dr := le_antisymm dr_ge xr_ge
  subst el er
  have m : I.points.map Prod.fst = I.xs := List.map_fst_zip hI.len.le
  have p1 : (xl, yl) ∈ I.points := by
    apply List.mem_of_getElem? (i := i); rw [Interp.points, List.getElem?_zip_eq_some]; exact ⟨e1, e3⟩
  have p2 : (xr, yr) ∈ I.points := by
    apply List.mem_of_getElem? (i := i + 1); rw [Interp.points, List.getElem?_zip_eq_some]; exact ⟨e2, e4⟩
  have q1 : (xl, yl) = (xl, rl) := List.inj_on_of_nodup_map (m ▸ hd) p1 hl rfl
  have q2 : (xr, yr) = (xr, rr) := List.inj_on_of_nodup_map (m ▸ hd) p2 hr rfl
  simp only [Prod.mk.injEq, true_and] at q1 q2
  exact ⟨i, e1, e2, q1 ▸ e3, q2 ▸ e4⟩

theorem curve_between (hbs : BinarySearch bs) (dates : List Date) (rates : List ℝ) (c : Curve) (m : Method)
    (seg : Date → Date → Date → ℝ → ℝ → ℝ) (hm : m = .linear ∧ seg = linearSeg ratioDate ∨
      m = .exponential ∧ seg = expSeg ratioDate)
    (hc : Curve.new dates rates m = .ok c) (hd : dates.Nodup) (d : Date) :
    (∀ dl dr rl rr, (dl, rl) ∈ dates.zip rates → (dr, rr) ∈ dates.zip rates → dl < d → d < dr →
      (∀ x ∈ dates, x ≤ dl ∨ dr ≤ x) → c.getRate bs d = some (some (seg d dl dr rl rr))) ∧
    (dates ≠ [] → ((∀ x ∈ dates, d < x) ∨ (∀ x ∈ dates, x < d)) → c.getRate bs d = some none) := by
  have hm' : m = .linear ∨ m = .exponential := hm.imp And.left And.left
  have hlen : dates.length = rates.length := by
    by_contra h
    rw [(C34_new (bs := bs) dates rates m).2.1 hm' h] at hc
    cases hc
  obtain ⟨c', hc', hget⟩ := (C34_new (bs := bs) dates rates m).2.2 hm' hlen
  rw [hc] at hc'
  simp only [Built.ok.injEq] at hc'
  subst hc'
  obtain ⟨I, hI⟩ := (C38_new dates rates).2.1.1 hlen
  obtain ⟨hperm, hxs, _⟩ := (C38_new dates rates).2.2 I hI
  obtain ⟨_, inv, _⟩ := Interp.new_ok hI
  have hcI : c.interpolator = I ∧ c.method = m := by
    rcases hm' with rfl | rfl <;>
    · simp only [Curve.new, buildInterp, hI, Built.ok.injEq] at hc
      rw [← hc]; exact ⟨rfl, rfl⟩
  have hseg : c.interpolate bs d = (I.interpolateWith bs seg d).map fun r => match r with
      | .ok v => some v
      | .error _ => none := by
    rcases hm with ⟨rfl, rfl⟩ | ⟨rfl, rfl⟩ <;> simp only [Curve.interpolate, hcI.1, hcI.2] <;> rfl
  have hnone : (∀ e ∈ dates.zip rates, e.1 ≠ d) → c.getRate bs d = c.interpolate bs d := by
    intro h
    rw [hget]
    have : (dates.zip rates).reverse.find? (fun e => e.1 = d) = none := by
      rw [List.find?_eq_none]
      intro e he
      simpa using h e (List.mem_reverse.1 he)
    rw [this]
  obtain ⟨s1, s2, s3, s4⟩ := interpolateWith_spec hbs seg inv d
  constructor
  · intro dl dr rl rr hl hr h1 h2 hb
    rw [hnone]
    · obtain ⟨i, e1, e2, e3, e4⟩ := neighbours_index inv (hxs.nodup_iff.2 hd) (hperm.mem_iff.2 hl) (hperm.mem_iff.2 hr)
        h1 h2 (fun x hx => hb x (hxs.mem_iff.1 hx))
      have := s4 i dl dr rl rr e1 e2 e3 e4 h1 h2
      rw [hseg, this]
      rfl
    · intro e he heq
      rcases hb e.1 (List.of_mem_zip he).1 with h | h
      · exact absurd h1 (not_lt.2 (heq ▸ h))
      · exact absurd h2 (not_lt.2 (heq ▸ h))
  · intro hne h
    rw [hnone]
    · have hne' : I.xs ≠ [] := fun h => hne (by simpa [h] using hxs)
      have := s2 hne' (h.imp (fun h x hx => h x (hxs.mem_iff.1 hx)) (fun h x hx => h x (hxs.mem_iff.1 hx)))
      rw [hseg, this]
      rfl
    · intro e he heq
      rcases h with h | h
      · exact absurd (h e.1 (List.of_mem_zip he).1) (by rw [heq]; exact lt_irrefl _)
      · exact absurd (h e.1 (List.of_mem_zip he).1) (by rw [heq]; exact lt_irrefl _)

/-- C34: a new linear curve with distinct dates returns, strictly between two neighbouring dates, the rate on the straight
line (in days) through their rates; before the first and after the last date it returns `None`. -/
theorem C34_linear (hbs : BinarySearch bs) (dates : List Date) (rates : List ℝ) (c : Curve)
    (hc : Curve.new dates rates .linear = .ok c) (hd : dates.Nodup) (d : Date) :
    (∀ dl dr rl rr, (dl, rl) ∈ dates.zip rates → (dr, rr) ∈ dates.zip rates → dl < d → d < dr →
      (∀ x ∈ dates, x ≤ dl ∨ dr ≤ x) →
      ∃ v, c.getRate bs d = some (some v) ∧
        (v - rl) * (dr.dayNum - dl.dayNum : ℤ) = (rr - rl) * (d.dayNum - dl.dayNum : ℤ)) ∧
    (dates ≠ [] → ((∀ x ∈ dates, d < x) ∨ (∀ x ∈ dates, x < d)) → c.getRate bs d = some none) := by
  obtain ⟨h1, h2⟩ := curve_between hbs dates rates c .linear _ (Or.inl ⟨rfl, rfl⟩) hc hd d
  refine ⟨fun dl dr rl rr hl hr hld hdr hb => ⟨_, h1 dl dr rl rr hl hr hld hdr hb, ?_⟩, h2⟩
  have hne : ((dr.dayNum - dl.dayNum : ℤ) : ℝ) ≠ 0 := by
    have := Date.lt_iff.1 (lt_trans hld hdr)
    exact_mod_cast (by omega : dr.dayNum - dl.dayNum ≠ 0)
  simp only [linearSeg, ratioDate]
  field_simp
  ring

/-- C34: a new exponential curve with distinct dates and positive rates returns, strictly between two neighbouring dates, a
positive rate whose logarithm is on the straight line (in days) through the logarithms of their rates; before the first and
after the last date it returns `None`. -/
theorem C34_exponential (hbs : BinarySearch bs) (dates : List Date) (rates : List ℝ) (c : Curve)
    (hc : Curve.new dates rates .exponential = .ok c) (hd : dates.Nodup) (hpos : ∀ r ∈ rates, 0 < r) (d : Date) :
    (∀ dl dr rl rr, (dl, rl) ∈ dates.zip rates → (dr, rr) ∈ dates.zip rates → dl < d → d < dr →
      (∀ x ∈ dates, x ≤ dl ∨ dr ≤ x) →
      ∃ v, c.getRate bs d = some (some v) ∧ 0 < v ∧
        (Real.log v - Real.log rl) * (dr.dayNum - dl.dayNum : ℤ) =
          (Real.log rr - Real.log rl) * (d.dayNum - dl.dayNum : ℤ)) ∧
    (dates ≠ [] → ((∀ x ∈ dates, d < x) ∨ (∀ x ∈ dates, x < d)) → c.getRate bs d = some none) := by
  obtain ⟨h1, h2⟩ := curve_between hbs dates rates c .exponential _ (Or.inr ⟨rfl, rfl⟩) hc hd d
  refine ⟨fun dl dr rl rr hl hr hld hdr hb => ⟨_, h1 dl dr rl rr hl hr hld hdr hb, ?_, ?_⟩, h2⟩
  · have h3 := hpos _ (List.of_mem_zip hl).2
    have h4 := hpos _ (List.of_mem_zip hr).2
    unfold expSeg; positivity
  have h3 := hpos _ (List.of_mem_zip hl).2
  have h4 := hpos _ (List.of_mem_zip hr).2
  have hne : ((dr.dayNum - dl.dayNum : ℤ) : ℝ) ≠ 0 := by
    have := Date.lt_iff.1 (lt_trans hld hdr)
    exact_mod_cast (by omega : dr.dayNum - dl.dayNum ≠ 0)
  simp only [expSeg, ratioDate]
  rw [Real.log_mul (by positivity) (by positivity), Real.log_rpow h4, Real.log_rpow h3]
  field_simp
  push_cast
  ring

example : ∃ a b d : Date, a < d ∧ d < b ∧ ∃ c, Curve.new [b, a] [3, 1] .exponential = .ok c ∧ [b, a].Nodup ∧
    ∀ r ∈ [(3 : ℝ), 1], 0 < r := by
  refine ⟨⟨2024, 7, 1, by decide⟩, ⟨2024, 7, 5, by decide⟩, ⟨2024, 7, 2, by decide⟩, by decide, by decide, ?_⟩
  obtain ⟨c, hc, _⟩ := (C34_new (bs := fun xs p => xs.findIdx? (fun x => decide (x = p)))
    [⟨2024, 7, 5, by decide⟩, ⟨2024, 7, 1, by decide⟩] [3, 1] .exponential).2.2 (Or.inr rfl) rfl
  exact ⟨c, hc, by decide, by norm_num⟩

/-- C34 (defect): a curve created without nodes panics in `get_rate` at every date that is not a node, also after rates
have been set: the interpolator never learns of them. -/
theorem C34_empty_panics (hbs : BinarySearch bs) (l : List (Date × ℝ)) (d : Date) (hd : ∀ e ∈ l, e.1 ≠ d) :
    ∃ c, Curve.new [] [] .linear = .ok c ∧ (c.setRates l).getRate bs d = none := by
  refine ⟨⟨[], .linear, ⟨[], [], false⟩⟩, by simp [Curve.new, buildInterp, Interp.new], ?_⟩
  rw [C34_set_rates]
  have : l.reverse.find? (fun e => e.1 = d) = none := by
    rw [List.find?_eq_none]
    intro e he
    simpa using hd e (List.mem_reverse.1 he)
  rw [this]
  have := (interpolateWith_spec hbs (linearSeg ratioDate) (I := (⟨[], [], false⟩ : Interp Date ℝ))
    ⟨List.Pairwise.nil, rfl⟩ d).1 rfl
  simp [Curve.getRate, SMap.get?, Curve.interpolate, this]

example (hbs : BinarySearch bs) := C34_empty_panics hbs [(⟨2024, 7, 1, by decide⟩, 1), (⟨2024, 7, 5, by decide⟩, 3)]
  ⟨2024, 7, 2, by decide⟩ (by decide)

/-- C34 (defect): `set_rate` does not change interpolated rates: between two nodes whose rates were both raised by
`set_rate`, `get_rate` still interpolates the old rates. Stated for any set of overwritten nodes. -/
theorem C34_set_rate_not_interpolated (c : Curve) (l : List (Date × ℝ)) (d : Date) (hn : c.nodes.get? d = none)
    (hd : ∀ e ∈ l, e.1 ≠ d) : (c.setRates l).getRate bs d = c.interpolate bs d := by
  rw [C34_set_rates]
  have : l.reverse.find? (fun e => e.1 = d) = none := by
    rw [List.find?_eq_none]
    intro e he
    simpa using hd e (List.mem_reverse.1 he)
  rw [this]
  simp [Curve.getRate, hn]

example : ∃ a b d : Date, a < d ∧ d < b ∧ ∃ c, Curve.new [b, a] [3, 1] .linear = .ok c ∧ [b, a].Nodup := by
  refine ⟨⟨2024, 7, 1, by decide⟩, ⟨2024, 7, 5, by decide⟩, ⟨2024, 7, 2, by decide⟩, by decide, by decide, ?_⟩
  obtain ⟨c, hc, _⟩ := (C34_new (bs := fun xs p => xs.findIdx? (fun x => decide (x = p)))
    [⟨2024, 7, 5, by decide⟩, ⟨2024, 7, 1, by decide⟩] [3, 1] .linear).2.2 (Or.inl rfl) rfl
  exact ⟨c, hc, by decide⟩

end Verif.Data
