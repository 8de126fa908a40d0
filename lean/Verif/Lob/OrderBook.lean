import Mathlib.Data.Nat.Basic

/-!
# C10: `OrderBook` and the small trading enums

Source: `crates/RustQuant_trading/src/{order_book,order_side,order,order_type,order_lifespan}.rs`.
-/

namespace Verif.OrderBook

/-- `order_side.rs:17-22`. -/
inductive OrderSide where
  | BID | ASK
deriving DecidableEq, Repr

/-- `order_side.rs:24-33`, `Not`. -/
def OrderSide.not : OrderSide → OrderSide
  | .BID => .ASK
  | .ASK => .BID

/-- `order_side.rs:35-42`, `Display`. -/
def OrderSide.display : OrderSide → String
  | .BID => "BID (buy)"
  | .ASK => "ASK (sell)"

/-- `order_type.rs:17-87`. -/
inductive OrderType where
  | Market | Limit | Stop | StopLimit | TrailingStop | TrailingStopLimit
deriving DecidableEq, Repr

/-- `order_type.rs:89-100`, `Display`. -/
def OrderType.display : OrderType → String
  | .Market => "MARKET"
  | .Limit => "LIMIT"
  | .Stop => "STOP"
  | .StopLimit => "STOP_LIMIT"
  | .TrailingStop => "TRAILING_STOP"
  | .TrailingStopLimit => "TRAILING_STOP_LIMIT"

/-- `order_lifespan.rs:16-48`. -/
inductive OrderTimeInForce where
  | GoodTillCancelled | ImmediateOrCancel | FillOrKill | AllOrNone
deriving DecidableEq, Repr

/-- `order_lifespan.rs:50-59`, `Display`. -/
def OrderTimeInForce.display : OrderTimeInForce → String
  | .GoodTillCancelled => "GTC"
  | .ImmediateOrCancel => "IOC"
  | .FillOrKill => "FOK"
  | .AllOrNone => "AON"

/-- `order.rs:21-51`, `Order`.  Prices and the timestamp are opaque values of type `α` and `τ`: no operation of
`OrderBook` looks at them. -/
structure Order (α τ : Type) where
  id : Nat
  symbol_id : Nat
  order_type : OrderType
  order_side : OrderSide
  price : α
  stop_price : α
  quantity : Nat
  executed_quantity : Nat
  leaves_quantity : Nat
  time_in_force : OrderTimeInForce
  timestamp : τ

/-- `order_book.rs:21-27`, `OrderBook`; a `VecDeque` is a list, front first. -/
structure Book (α τ : Type) where
  bids : List (Order α τ)
  asks : List (Order α τ)

variable {α τ : Type}

/-- `order_book.rs:38-43`, `new`. -/
def Book.new : Book α τ := ⟨[], []⟩

/-- `order_book.rs:46-51`, `insert_order`. -/
def Book.insertOrder (b : Book α τ) (o : Order α τ) : Book α τ :=
  match o.order_side with
  | .BID => { b with bids := b.bids ++ [o] }
  | .ASK => { b with asks := b.asks ++ [o] }

/-- `order_book.rs:55-57`, `is_empty`. -/
def Book.isEmpty (b : Book α τ) : Bool := b.bids.isEmpty && b.asks.isEmpty

/-- `order_book.rs:61-63`, `len`. -/
def Book.len (b : Book α τ) : Nat := b.bids.length + b.asks.length

/-- A history of inserts. -/
def insertAll (b : Book α τ) (os : List (Order α τ)) : Book α τ := os.foldl Book.insertOrder b

theorem insertAll_gen (os : List (Order α τ)) (b : Book α τ) :
    (insertAll b os).bids = b.bids ++ os.filter (fun o => o.order_side = .BID) ∧
    (insertAll b os).asks = b.asks ++ os.filter (fun o => o.order_side = .ASK) := by
  induction os generalizing b with
  | nil => simp [insertAll]
  | cons o os ih =>
    have h := ih (b.insertOrder o)
    simp only [insertAll, List.foldl_cons] at h ⊢
    rw [h.1, h.2]
    unfold Book.insertOrder
    cases ho : o.order_side <;> simp [ho]

/-- C10: after any inserts the two halves are the inserted orders of each side, in insertion order. -/
theorem C10_arrival_order (os : List (Order α τ)) :
    (insertAll Book.new os).bids = os.filter (fun o => o.order_side = .BID) ∧
    (insertAll Book.new os).asks = os.filter (fun o => o.order_side = .ASK) := by
  simpa [Book.new] using insertAll_gen os Book.new

/-- C10: `len` counts the inserts and `is_empty` says whether there were none. -/
theorem C10_len (os : List (Order α τ)) :
    (insertAll Book.new os).len = os.length ∧ ((insertAll Book.new os).isEmpty = true ↔ os = []) := by
  obtain ⟨h1, h2⟩ := C10_arrival_order os
  have hlen : (insertAll Book.new os).len = os.length := by
    unfold Book.len
    rw [h1, h2]
    clear h1 h2
    induction os with
    | nil => rfl
    | cons o os ih => cases ho : o.order_side <;> simp [ho] <;> omega
  refine ⟨hlen, ?_⟩
  have : (insertAll Book.new os).isEmpty = true ↔ (insertAll Book.new os).len = 0 := by
    unfold Book.isEmpty Book.len
    simp [Nat.add_eq_zero_iff]
  rw [this, hlen, List.length_eq_zero_iff]

/-- C10: `!` flips the side, and twice is the identity. -/
theorem C10_not (s : OrderSide) : s.not ≠ s ∧ s.not.not = s := by cases s <;> decide

/-- C10: the printed names tell the variants apart. -/
theorem C10_display_injective :
    (∀ a b : OrderSide, a.display = b.display → a = b) ∧
    (∀ a b : OrderType, a.display = b.display → a = b) ∧
    (∀ a b : OrderTimeInForce, a.display = b.display → a = b) := by
  refine ⟨?_, ?_, ?_⟩ <;> intro a b <;> cases a <;> cases b <;> decide

/-- A bid and an ask with given ids. -/
def demoOrder (i : Nat) (s : OrderSide) : Order Nat Nat := ⟨i, 1, .Limit, s, 10, 0, 5, 0, 5, .FillOrKill, i⟩

example : ((insertAll Book.new [demoOrder 1 .BID, demoOrder 2 .ASK, demoOrder 3 .BID]).bids.map (·.id)) = [1, 3] ∧
    (insertAll Book.new [demoOrder 1 .BID, demoOrder 2 .ASK, demoOrder 3 .BID]).len = 3 := by decide

end Verif.OrderBook
