import Verif.Float.TapeProps

/-!
# C108: cases

Concrete graphs that meet the hypotheses, and one that shows the damage in full.
-/

namespace Verif.Float.Tape

open X64 Nan
open Verif.Autodiff (Arity)

/-- Two inputs. -/
def two : Graph := [⟨zero, zero, 0, 0⟩, ⟨zero, zero, 1, 1⟩]

theorem two_built : Built two :=
  .push (.push .empty (arity := .nullary) (parents := []) (partials := []) (by simp) rfl)
    (arity := .nullary) (parents := []) (partials := []) (by simp) rfl

theorem two_input {j : ℕ} (hj : j < 2) : IsInput two j := by
  refine ⟨hj, ?_⟩
  rintro i p ⟨v, hv, hi, h⟩
  have : j = 0 ∨ j = 1 := by omega
  rcases this with rfl | rfl <;> simp only [two, List.getElem?_cons_zero, List.getElem?_cons_succ, Option.some.injEq] at hv <;>
    subst hv <;> simp at h <;> omega

/-- The second input has fed a square root at zero. -/
def rooted : Graph := two ++ [⟨.inf false, zero, 1, 2⟩]

theorem rooted_built : Built rooted := built_unary two_built (i := 1) (by simp [two]) _

example := C108_total rooted rooted_built ⟨0, zero⟩ (by simp [rooted, two])

/-- The derivative of the second input with respect to itself. -/
example := C108_contaminates rooted rooted_built ⟨1, zero⟩ (by simp [rooted, two]) 2 1 (.inf false)
  ⟨_, rfl, by norm_num, .inl ⟨rfl, rfl⟩⟩ (by simp [Finite]) ⟨1, zero⟩ (input_append (two_input (by norm_num))) .refl

/-- The derivative of the square root itself, which is infinite. -/
example := C108_never_infinite rooted rooted_built ⟨2, zero⟩ (by simp [rooted, two]) ⟨1, zero⟩
  (input_append (two_input (by norm_num)))

theorem two_feeds {j k : ℕ} (h : Feeds two j k) : k = j := by
  cases h with
  | refl => rfl
  | step _ hr =>
    exfalso
    have hk : k < 2 := by
      obtain ⟨v, hv, -⟩ := hr
      simpa [two] using (List.getElem?_eq_some_iff.1 hv).1
    exact (two_input hk).2 _ _ hr

theorem rooted_feeds {k : ℕ} (h : Feeds rooted 0 k) : k = 0 := by
  induction h with
  | refl => rfl
  | @step i k p hf hr ih =>
    subst ih
    obtain ⟨v, hv, hi, hor⟩ := hr
    have hk : k < 3 := by simpa [rooted, two] using (List.getElem?_eq_some_iff.1 hv).1
    have : k = 1 ∨ k = 2 := by omega
    rcases this with rfl | rfl <;> simp [rooted, two] at hv <;> subst hv <;> simp at hor

/-- The root of the second input does not touch the derivative with respect to the first. -/
example := C108_later two [⟨.inf false, zero, 1, 2⟩] two_built rooted_built ⟨0, zero⟩ ⟨0, zero⟩ (by simp [two]) (by simp [two])
  (fun k hk hf => by have := rooted_feeds hf; simp [two] at hk; omega)

/-- The same with a harmless function of the second input in its place. -/
example := C108_confined rooted (two ++ [⟨ofQ 1, zero, 1, 2⟩]) rooted_built (built_unary two_built (i := 1) (by simp [two]) _)
  (by simp [rooted, two]) ⟨0, zero⟩ ⟨2, zero⟩ (by simp [rooted, two]) (by simp [rooted, two]) (by
    rintro k (hk | hk)
    · rw [rooted_feeds hk]; rfl
    · have : k < 2 := by
        by_contra hn
        cases hk with
        | refl => simp at hn
        | @step i _ p hf hr =>
          obtain ⟨v, hv, hi, hor⟩ := hr
          have hk3 : k < 3 := by simpa [two] using (List.getElem?_eq_some_iff.1 hv).1
          have hk2 : k = 2 := by omega
          subst hk2
          simp [two] at hv
          subst hv
          simp at hor
          rcases hor with h | h
          · have := two_feeds (feeds_append (ext := [⟨ofQ 1, zero, 1, 2⟩]) (by simp [two]; omega) hf)
            simp at this
            omega
          · omega
      unfold rooted
      rw [List.getElem?_append_left (by simpa [two] using this), List.getElem?_append_left (by simpa [two] using this)])

/-- The derivative of an input with respect to itself is `1` before, and NaN after a square root of it has been computed. -/
theorem C108_unused_case (l : Lib) (hl : l.sqrt zero = zero) :
    ∃ g x adj g' w adj', var [] zero = some (g, x) ∧ accumulate g x = some adj ∧ wrt adj x = some (ofQ 1) ∧
      sqrtV l g x = some (g', w) ∧ accumulate g' x = some adj' ∧ wrt adj' x = some .nan := by
  have hb : Built [⟨zero, zero, 0, 0⟩] :=
    .push .empty (arity := .nullary) (parents := []) (partials := []) (by simp) rfl
  have hin : IsInput [⟨zero, zero, 0, 0⟩] 0 := by
    refine ⟨by simp, ?_⟩
    rintro i p ⟨v, hv, hi, h⟩
    omega
  obtain ⟨g', w, adj', h1, h2, h3⟩ := C108_unused l hl [⟨zero, zero, 0, 0⟩] hb ⟨0, zero⟩ ⟨0, zero⟩ (by simp) hin rfl zero
    (fun g => sqrtV l g ⟨0, zero⟩) (by simp)
  refine ⟨[⟨zero, zero, 0, 0⟩], ⟨0, zero⟩, [ofQ 1], g', w, adj', rfl, ?_, rfl, h1, h2, h3⟩
  have e : (ofQ 1).add (zero.mul (ofQ 1)) = ofQ 1 := by
    rw [ofQ_one', zero_mul_finite (x := .fin F64.one) trivial]
    change ofQ (F64.one.val + 0) = _
    rw [_root_.add_zero, show F64.one.val = 1 from rfl, ofQ_one']
  unfold accumulate
  simp [sweep, addAt, e]

example := C108_unused_case ⟨id, id, id⟩ rfl

example := C108_operations ⟨id, id, id⟩ two two_built ⟨0, zero⟩ ⟨1, zero⟩ zero (by simp [two]) (by simp [two])
  (fun g => mulVV g ⟨0, zero⟩ ⟨1, zero⟩) (by simp)

/-- A finite accumulation. -/
theorem single_run : AD.accumulate [⟨F64.zero, F64.zero, 0, 0⟩] ⟨0, F64.one⟩ = some [F64.one] := by
  have h1 : F64.zero.mul F64.one = some F64.zero := by
    change toF64 (0 * 1) = _
    rw [zero_mul]; exact toF64_val F64.zero
  have h2 : F64.one.add F64.zero = some F64.one := by
    change toF64 (1 + 0) = _
    rw [_root_.add_zero]; exact toF64_val F64.one
  simp [AD.accumulate, AD.sweep, AD.addAt, h1, h2]

example := C108_same _ _ _ single_run

end Verif.Float.Tape
