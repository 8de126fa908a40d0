import Verif.Common.SortedMap
import Mathlib.Data.Nat.Basic

/-!
# Model of the limit order book

Source: `crates/RustQuant_trading/src/limit_order_book.rs` and `limit_order_book/{limit,order}.rs`.

* `u64` values are naturals; additions and subtractions on `u64` are checked (`addU64`, `subU64`) and give `none`
  when the Rust arithmetic would overflow (a panic in a debug build).
* `none` is a panic (or a loop that does not end, see `marketLoop`).
* `HashMap<u64, Order>` is the lookup function; `BTreeMap<u64, Limit>` is a sorted association list.
-/

namespace Verif.Lob

/-- One past the largest `u64`. The type of the arguments at limit_order_book.rs 97-104. -/
def u64Bound : Nat := 2 ^ 64

/-- `a + b` on `u64`. Used at limit.rs 59 and 63. -/
def addU64 (a b : Nat) : Option Nat := if a + b < u64Bound then some (a + b) else none

/-- `a - b` on `u64`. Used at limit.rs 56-59 and limit_order_book.rs 194. -/
def subU64 (a b : Nat) : Option Nat := if b ≤ a then some (a - b) else none

/-- `limit_order_book/order.rs:15-21`, `Order`; the constructor (28-36) only stores its arguments. -/
structure Order where
  order_id : Nat
  is_buy : Bool
  shares : Nat
  limit : Nat
  timestamp : Nat
deriving DecidableEq, Repr

/-- `HashMap<u64, Order>` as its lookup function (`limit_order_book.rs:29`). -/
abbrev OrderMap := Nat → Option Order

/-- `HashMap::insert`.
Called at limit_order_book.rs 110; the update in place at limit.rs 57-58 is also written with it. -/
def OrderMap.insert (m : OrderMap) (id : Nat) (o : Order) : OrderMap := fun j => if j = id then some o else m j

/-- `HashMap::remove` (the new map). Called at limit_order_book.rs 140 and limit.rs 61. -/
def OrderMap.remove (m : OrderMap) (id : Nat) : OrderMap := fun j => if j = id then none else m j

/-- `limit.rs:17-20`, `Limit`: a price level and the queue of order ids, front first. -/
structure Limit where
  limit_price : Nat
  orders : List Nat
deriving DecidableEq, Repr

/-- `limit.rs:26-31`, `Limit::new`. -/
def Limit.new (limit_price : Nat) : Limit := ⟨limit_price, []⟩

/-- `limit.rs:33-35`, `Limit::add`: `push_back`. -/
def Limit.add (l : Limit) (order_id : Nat) : Limit := { l with orders := l.orders ++ [order_id] }

/-- `limit.rs:37-47`, `Limit::cancel`: `expect` panics when the id is not queued; otherwise remove its first
occurrence and report whether the queue is now empty. -/
def Limit.cancel (l : Limit) (order_id : Nat) : Option (Limit × Bool) :=
  if order_id ∈ l.orders then
    let l' := { l with orders := l.orders.erase order_id }
    some (l', l'.orders.isEmpty)
  else none

/-- `limit.rs:52-65`, the `while` loop of `Limit::execute`, as recursion on the queue.  In the partial-fill branch
(56-59) the Rust loop goes round again with `executed_shares = shares` and the queue unchanged, so its condition
is false and it stops: the model returns there. -/
def execLoop (shares : Nat) : Nat → List Nat → OrderMap → Option (Nat × List Nat × OrderMap)
  | executed, [], m => some (executed, [], m)
  | executed, id :: q, m =>
    if executed < shares then
      match m id with
      | none => none
      | some o => do
        let rest ← subU64 shares executed
        if o.shares > rest then
          let left ← subU64 o.shares rest
          let executed' ← addU64 executed rest
          some (executed', id :: q, m.insert id { o with shares := left })
        else
          let executed' ← addU64 executed o.shares
          execLoop shares executed' q (m.remove id)
    else some (executed, id :: q, m)

/-- `limit.rs:49-68`, `Limit::execute`: (executed, is_empty) with the new level and order map. -/
def Limit.execute (l : Limit) (shares : Nat) (m : OrderMap) : Option ((Nat × Bool) × Limit × OrderMap) := do
  let (executed, q, m') ← execLoop shares 0 l.orders m
  some ((executed, q.isEmpty), { l with orders := q }, m')

/-- `limit_order_book.rs:26-30`, `Book`. -/
structure Book where
  buy_limits : SMap Nat Limit
  sell_limits : SMap Nat Limit
  order_map : OrderMap

/-- `limit_order_book.rs:79-85`, `Book::new`. -/
def Book.new : Book := ⟨[], [], fun _ => none⟩

/-- The tree selected by `if is_buy { buy_limits } else { sell_limits }` (112-116, 142-146).
Of limit_order_book.rs; 175-179 selects the other one. -/
def Book.tree (b : Book) (is_buy : Bool) : SMap Nat Limit := if is_buy then b.buy_limits else b.sell_limits

/-- Write back the tree selected by `is_buy`.
The selection is a `&mut` at limit_order_book.rs 112-116, 142-146 and 175-179. -/
def Book.setTree (b : Book) (is_buy : Bool) (t : SMap Nat Limit) : Book :=
  if is_buy then { b with buy_limits := t } else { b with sell_limits := t }

/-- `limit_order_book.rs:97-127`, `Book::add_order`.  `false` is `Err(ExistingIdError)`, `true` is `Ok(())`. -/
def Book.addOrder (b : Book) (order_id : Nat) (is_buy : Bool) (shares limit_value timestamp : Nat) :
    Book × Bool :=
  if (b.order_map order_id).isSome then (b, false)
  else
    let b1 := { b with order_map := b.order_map.insert order_id ⟨order_id, is_buy, shares, limit_value, timestamp⟩ }
    let t := b1.tree is_buy
    let t' := match t.get? limit_value with
      | some l => t.insert limit_value (l.add order_id)
      | none => t.insert limit_value ((Limit.new limit_value).add order_id)
    (b1.setTree is_buy t', true)

/-- `limit_order_book.rs:139-161`, `Book::cancel_order`.  Outer `none`: panic.  `false` is
`Err(NonExistingIdError)`, `true` is `Ok(())`. -/
def Book.cancelOrder (b : Book) (order_id : Nat) : Option (Book × Bool) :=
  match b.order_map order_id with
  | none => some (b, false)
  | some o => do
    let b1 := { b with order_map := b.order_map.remove order_id }
    let t := b1.tree o.is_buy
    let l ← t.get? o.limit
    let (l', is_empty) ← l.cancel o.order_id
    let t1 := t.insert o.limit l'
    let t2 := if is_empty then t1.remove o.limit else t1
    some (b1.setTree o.is_buy t2, true)

/-- `limit_order_book.rs:182-186`: `values_mut().next()` for a buy, `values_mut().last()` for a sell. -/
def bestLevel (is_buy : Bool) (t : SMap Nat Limit) : Option (Nat × Limit) :=
  if is_buy then t.head? else t.getLast?

/-- Writing through the `&mut Limit` obtained from `values_mut()` at the best level. See limit_order_book.rs 192. -/
def setBest (is_buy : Bool) (t : SMap Nat Limit) (e : Nat × Limit) : SMap Nat Limit :=
  if is_buy then e :: t.tail else t.dropLast ++ [e]

/-- `limit_order_book.rs:198-202`: `pop_first` for a buy, `pop_last` for a sell. -/
def popBest (is_buy : Bool) (t : SMap Nat Limit) : SMap Nat Limit := if is_buy then t.tail else t.dropLast

/-- `limit_order_book.rs:181-204`, the `while shares_left > 0` loop, with fuel: `none` on a panic and when the fuel
runs out.  `market` gives it more fuel than there are levels, and the theorems show that it always answers. -/
def marketLoop (is_buy : Bool) : Nat → Nat → SMap Nat Limit → OrderMap → List (Nat × Nat) →
    Option (Bool × List (Nat × Nat) × SMap Nat Limit × OrderMap)
  | 0, _, _, _, _ => none
  | fuel + 1, shares_left, t, m, result =>
    if shares_left > 0 then
      match bestLevel is_buy t with
      | none => some (false, result, t, m)
      | some (k, l) => do
        let ((executed, is_empty), l', m') ← l.execute shares_left m
        let shares_left' ← subU64 shares_left executed
        let result' := result ++ [(l.limit_price, executed)]
        let t' := if is_empty then popBest is_buy t else setBest is_buy t (k, l')
        marketLoop is_buy fuel shares_left' t' m' result'
    else some (true, result, t, m)

/-- `limit_order_book.rs:171-207`, `Book::execute_market_order`. -/
def Book.market (b : Book) (shares : Nat) (is_buy : Bool) : Option (Book × Bool × List (Nat × Nat)) := do
  let t := b.tree (!is_buy)
  let (ok, result, t', m') ← marketLoop is_buy (t.length + 2) shares t b.order_map []
  some (({ b with order_map := m' }).setTree (!is_buy) t', ok, result)

/-- The three public operations. Their signatures are at limit_order_book.rs 97-104, 139 and 171. -/
inductive Op where
  | add (order_id : Nat) (is_buy : Bool) (shares limit_value timestamp : Nat)
  | cancel (order_id : Nat)
  | market (shares : Nat) (is_buy : Bool)
deriving DecidableEq, Repr

/-- What a call returns to its caller. The result types at limit_order_book.rs 104, 139 and 171. -/
inductive Out where
  | added | existingId
  | cancelled | nonExistingId
  | filled (complete : Bool) (fills : List (Nat × Nat))
deriving DecidableEq, Repr

/-- One call. Of one of the methods at limit_order_book.rs 97-207. -/
def step (b : Book) : Op → Option (Book × Out)
  | .add id s n p ts =>
    let r := b.addOrder id s n p ts
    some (r.1, if r.2 then .added else .existingId)
  | .cancel id => do
    let r ← b.cancelOrder id
    some (r.1, if r.2 then .cancelled else .nonExistingId)
  | .market n s => do
    let r ← b.market n s
    some (r.1, .filled r.2.1 r.2.2)

/-- A history of calls, with the answers in order.
The client of limit_order_book.rs 97-207; not itself part of the code. -/
def run (b : Book) : List Op → Option (Book × List Out)
  | [] => some (b, [])
  | op :: ops => do
    let (b1, o) ← step b op
    let (b2, os) ← run b1 ops
    some (b2, o :: os)

end Verif.Lob
