import Verif.Model.Executor
import Verif.Spec.Strategy
/-! # Vocabulary of the executor properties -/
namespace Uni
namespace Spec
open U256 Uni

/-- The value in token0 of two amounts at the square root price `P` (scaled by `2^96`): the second amount divided by
the price `P² / 2^192`, rounded down, plus the first; in 256-bit arithmetic. -/
def usdValue (c : U256 × U256) (P : U256) : Nat :=
  (c.1.toNat + c.2.toNat * 2 ^ 192 / (P.toNat * P.toNat % 2 ^ 256)) % 2 ^ 256

/-- The pool operation of a transaction: mints, burns and flashes as recorded; a swap is repeated as an exact-input swap
of the amount that went into the pool (the positive one), without price limit. -/
def opOf (t : Transaction) (p : Pool) : Option PoolOp :=
  match t.type with
  | "Mint" => some (.mint t.tickLower t.tickUpper t.amount)
  | "Burn" => some (.burn t.tickLower t.tickUpper t.amount)
  | "Flash" => some (.flash t.amount0 t.amount1)
  | "Swap" =>
    if 0 < t.amount0.toInt then some (.exactInput t.amount0 p.token0 zero)
    else if 0 < t.amount1.toInt then some (.exactInput t.amount1 p.token1 zero)
    else none
  | _ => none

/-- The transaction leads from the pool `p` to the pool `p'`. -/
def Applies (fuel : Nat) (t : Transaction) (p p' : Pool) : Prop :=
  match opOf t p with
  | some op => op.exec fuel p = .ok p'
  | none => p' = p

/-- The plain replay of transactions on a pool. -/
inductive Replay (fuel : Nat) : List Transaction → Pool → Pool → Prop
  | nil {p : Pool} : Replay fuel [] p p
  | cons {t : Transaction} {ts : List Transaction} {p p1 p' : Pool} (h : Applies fuel t p p1) (hr : Replay fuel ts p1 p') :
      Replay fuel (t :: ts) p p'

/-- What can happen in a run. -/
inductive Event where
  /-- the strategy starts, the value of what it starts with is recorded -/
  | init
  /-- the strategy records the price -/
  | price
  /-- the value of the strategy is recorded -/
  | value
  /-- the strategy rebalances -/
  | rebalance
  /-- a transaction reaches the pool -/
  | apply (t : Transaction)

/-- The transaction of an event. -/
def Event.tx? : Event → Option Transaction
  | .apply t => some t
  | _ => none

/-- The event leads from `s` to `s'`; the values `vs` are recorded. -/
def Event.Does (fuel : Nat) (s : Strat) (vs : List U256) (s' : Strat) : Event → Prop
  | .init => ∃ c v, s.init fuel = .ok (c, s') ∧ vs = [v] ∧ v.toNat = usdValue c s'.pool.price
  | .price => s.makeSnapshot = .ok s' ∧ vs = []
  | .value => ∃ c v, s.getAmounts = .ok c ∧ s' = s ∧ vs = [v] ∧ v.toNat = usdValue c s.pool.price
  | .rebalance => ∃ c, s.rebalance fuel = .ok (c, s') ∧ vs = []
  | .apply t => ∃ p', Applies fuel t s.pool p' ∧ s' = { s with pool := p' } ∧ vs = []

/-- A sequence of events leads from `s` to `s'`; the values `vs` are recorded. -/
inductive Trace (fuel : Nat) : List Event → Strat → List U256 → Strat → Prop
  | nil {s : Strat} : Trace fuel [] s [] s
  | cons {e : Event} {es : List Event} {s s1 s' : Strat} {vs ws : List U256} (h : e.Does fuel s vs s1)
      (ht : Trace fuel es s1 ws s') : Trace fuel (e :: es) s (vs ++ ws) s'

/-- What a run does at one transaction. -/
structure Row where
  tx : Transaction
  init : Bool
  price : Bool
  value : Bool
  rebalance : Bool

/-- The time of a row. -/
def Row.time (r : Row) : Int := r.tx.timestamp

/-- The events of a row: start, price snapshot, value snapshot, rebalance, and the transaction last. -/
def Row.events (r : Row) : List Event :=
  (if r.init then [.init] else []) ++ (if r.price then [.price] else []) ++ (if r.value then [.value] else []) ++
  (if r.rebalance then [.rebalance] else []) ++ [.apply r.tx]

/-- The strategy started at the time `σ`. -/
def StartedAt (rows : List Row) (σ : Int) : Prop := ∃ r ∈ rows, r.init = true ∧ r.time = σ

/-- The transactions a run looks at: those before the first one later than the end time. -/
def upTo (endTime : Int) (ts : List Transaction) : List Transaction := ts.takeWhile (fun t => decide (t.timestamp ≤ endTime))

/-- When the strategy starts: at the first transaction at or after the start time, and only there. -/
def StartsAt (start : Int) (rows : List Row) : Prop :=
  ∀ pre r post, rows = pre ++ r :: post → (r.init = true ↔ start ≤ r.time ∧ ∀ q ∈ pre, q.time < start)

/-- An action that is repeated after the start: the `k`-th time it is due `k` intervals after the start; it happens at a
transaction exactly when the next one is due there (at most once per transaction). -/
def Every (interval : Int) (act : Row → Bool) (rows : List Row) : Prop :=
  ∀ pre r post, rows = pre ++ r :: post →
    (act r = true ↔ ∃ σ, StartedAt (pre ++ [r]) σ ∧ σ + (pre.countP act + 1) * interval ≤ r.time)

/-- An action that is repeated from time zero on: the `k`-th time it happens at a transaction after `(k - 1)` intervals. -/
def EveryFromZero (interval : Int) (act : Row → Bool) (rows : List Row) : Prop :=
  ∀ pre r post, rows = pre ++ r :: post → (act r = true ↔ pre.countP act * interval < r.time)

/-- The times stay in the range of 64-bit integers. -/
structure Clock (e : Execution) : Prop where
  times : ∀ t ∈ e.transactions, -(2 ^ 63) ≤ t.timestamp ∧ t.timestamp < 2 ^ 63 - 1
  update : 0 ≤ e.updateInterval ∧ ∀ t ∈ e.transactions, t.timestamp + e.updateInterval < 2 ^ 63
  snapshot : 0 ≤ e.snapShotInterval ∧ ∀ t ∈ e.transactions, t.timestamp + e.snapShotInterval < 2 ^ 63
  price : 0 ≤ e.pricesSnapshotsInterval ∧ ∀ t ∈ e.transactions, t.timestamp + e.pricesSnapshotsInterval < 2 ^ 63

/-- The rows follow the schedule of the execution. -/
structure Scheduled (e : Execution) (rows : List Row) : Prop where
  txs : rows.map Row.tx = upTo e.endTime e.transactions
  start : StartsAt e.startTime rows
  value : Every e.snapShotInterval Row.value rows
  rebalance : Every e.updateInterval Row.rebalance rows
  price : EveryFromZero e.pricesSnapshotsInterval Row.price rows

/-- The ledger of the transactions among the events. -/
def othersLedger (m : List Entry) : List Event → List Entry
  | [] => m
  | .apply t :: es => othersLedger
      (match t.type with
        | "Mint" => ⟨t.tickLower, t.tickUpper, t.amount.toNat⟩ :: m
        | "Burn" => if t.amount.toNat = 0 then m else ⟨t.tickLower, t.tickUpper, -t.amount.toNat⟩ :: m
        | _ => m) es
  | _ :: es => othersLedger m es

/-- What a run of the strategy layer presupposes of an event in the state `s`, with `m` the liquidity of the others (see
`Runs`): the liquidity fits in 128 bits, the swapping strategy may swap, others only burn what they have minted. -/
def Event.Within (fuel : Nat) (m : List Entry) (s : Strat) : Event → Prop
  | .init => ∀ c s', s.init fuel = .ok (c, s') → Fits m s' ∧ MaySwap s c (book m s)
  | .rebalance => ∀ c s', s.rebalance fuel = .ok (c, s') → Fits m s' ∧ ∀ x, c = some x → MaySwap s x m
  | .apply t => ∀ op, opOf t s.pool = some op → op.ByOthers m s
  | .price => True
  | .value => True

/-- The presuppositions hold at every event of the sequence. -/
def AllWithin (fuel : Nat) (m : List Entry) (s : Strat) (es : List Event) : Prop :=
  ∀ pre ev post s1 ws, es = pre ++ ev :: post → Trace fuel pre s ws s1 → ev.Within fuel (othersLedger m pre) s1

/-- Holding the amounts `c` while the transactions of the rows are replayed: the values recorded at the start and at the
value snapshots. -/
inductive Hold (fuel : Nat) (c : U256 × U256) : List Row → Pool → List Nat → Pool → Prop
  | nil {p : Pool} : Hold fuel c [] p [] p
  | cons {r : Row} {rows : List Row} {p p1 p' : Pool} {vs : List Nat} (h : Applies fuel r.tx p p1) (hr : Hold fuel c rows p1 vs p') :
      Hold fuel c (r :: rows) p (List.replicate ((if r.init then 1 else 0) + if r.value then 1 else 0) (usdValue c p.price) ++ vs) p'

/-- Times do not decrease and steps are at most `g`. -/
def Dense (g : Int) (rows : List Row) : Prop :=
  ∀ pre a b post, rows = pre ++ a :: b :: post → a.time ≤ b.time ∧ b.time ≤ a.time + g

end Spec
end Uni
