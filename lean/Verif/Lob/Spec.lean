import Verif.Lob.Model

/-!
# Specification of a price-time-priority order book

The whole book is one list of live orders in arrival order.  A market order is matched one resting order at a time
against the best-priced, earliest-arrived order of the other side.
-/

namespace Verif.Lob.Spec
open Verif.Lob

/-- Price `p` is strictly better than price `q` for an incoming market order: cheaper for a buyer, dearer for a
seller. -/
def betterPrice (is_buy : Bool) (p q : Nat) : Prop := if is_buy then p < q else q < p

instance (s : Bool) (p q : Nat) : Decidable (betterPrice s p q) := by unfold betterPrice; infer_instance

/-- Orders the incoming order can trade with. -/
def opposite (is_buy : Bool) (L : List Order) : List Order := L.filter (fun o => o.is_buy = !is_buy)

/-- The earliest-arrived opposite order such that no opposite order has a strictly better price. -/
def best (is_buy : Bool) (L : List Order) : Option Order :=
  (opposite is_buy L).find? (fun o => (opposite is_buy L).all (fun o' => ¬ betterPrice is_buy o'.limit o.limit))

/-- Delete the order with this id. -/
def delete (L : List Order) (id : Nat) : List Order := L.filter (fun o => o.order_id ≠ id)

/-- Take `n` shares off the order with this id. -/
def reduce (L : List Order) (id n : Nat) : List Order :=
  L.map (fun o => if o.order_id = id then { o with shares := o.shares - n } else o)

theorem best_mem {s : Bool} {L : List Order} {o : Order} (h : best s L = some o) : o ∈ L :=
  (List.mem_filter.1 (List.mem_of_find?_eq_some h)).1

theorem length_delete_lt {L : List Order} {o : Order} (h : o ∈ L) : (delete L o.order_id).length < L.length := by
  unfold delete
  rcases Nat.lt_or_ge (List.filter (fun x => decide (x.order_id ≠ o.order_id)) L).length L.length with h1 | h1
  · exact h1
  · have h2 := List.length_filter_le (fun x => decide (x.order_id ≠ o.order_id)) L
    have h3 : (List.filter (fun x => decide (x.order_id ≠ o.order_id)) L).length = L.length := by omega
    rw [List.length_filter_eq_length_iff] at h3
    have := h3 o h
    simp at this

/-- Match a market order for `n` shares: (filled completely?, individual fills as (price, shares), remaining book). -/
def fill (is_buy : Bool) (n : Nat) (L : List Order) : Bool × List (Nat × Nat) × List Order :=
  if n = 0 then (true, [], L)
  else
    match _h : best is_buy L with
    | none => (false, [], L)
    | some o =>
      if n < o.shares then (true, [(o.limit, n)], reduce L o.order_id n)
      else
        let r := fill is_buy (n - o.shares) (delete L o.order_id)
        (r.1, (o.limit, o.shares) :: r.2.1, r.2.2)
termination_by L.length
decreasing_by exact length_delete_lt (best_mem ‹_›)

/-- Report fills per price: merge neighbouring fills at the same price. -/
def merge : List (Nat × Nat) → List (Nat × Nat)
  | [] => []
  | (p, n) :: fs =>
    match merge fs with
    | [] => [(p, n)]
    | (q, k) :: gs => if p = q then (p, n + k) :: gs else (p, n) :: (q, k) :: gs

/-- One call on the specification. -/
def step (L : List Order) : Op → List Order × Out
  | .add id s n p ts =>
    if L.any (fun o => o.order_id = id) then (L, .existingId) else (L ++ [⟨id, s, n, p, ts⟩], .added)
  | .cancel id =>
    if L.any (fun o => o.order_id = id) then (delete L id, .cancelled) else (L, .nonExistingId)
  | .market n s =>
    let r := fill s n L
    (r.2.2, .filled r.1 (merge r.2.1))

/-- A history of calls. -/
def run (L : List Order) : List Op → List Order × List Out
  | [] => (L, [])
  | op :: ops =>
    let r := step L op
    let r' := run r.1 ops
    (r'.1, r.2 :: r'.2)

end Verif.Lob.Spec
