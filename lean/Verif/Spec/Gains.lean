import Verif.Spec.Executor
import Verif.Spec.Cash
/-! # Who pays for the gains of a strategy -/
namespace Uni
namespace Spec
open U256 Uni

/-- The positions of the strategy are in the ranges `rs`. -/
def Uses (rs : List (Int × Int)) (s : Strat) : Prop := ∀ q ∈ s.positions, (q.lower, q.upper) ∈ rs

/-- The swapping strategy only: the downward tick search is not broken at the current tick. -/
def SwapsSafely (s : Strat) : Prop := ∀ w, s.kind = .swapHalf w → ¬ SearchBroken s.pool.spacing s.pool.tick

/-- `Accounts rs x m s n`: a run as in `Runs`, of a strategy that started with the balances `x` and only uses the ranges
`rs`, whose swaps start where the downward tick search works.  `m` is the ledger of the others, `n` the tokens (token0,
token1) they have paid into the pool minus the tokens they have got out of it. -/
inductive Accounts (rs : List (Int × Int)) (x : U256 × U256) : List Entry → Strat → Int × Int → Prop
  | start {a b : String} {fee : Int} {price : U256} {p0 : Pool} {kind : Kind} {s : Strat}
      (hf : fee = 500 ∨ fee = 3000 ∨ fee = 10000) (hn : Pool.new a b fee price = .ok p0)
      (hs : Strat.new kind x.1 x.2 p0 = .ok s) : Accounts rs x [] s (0, 0)
  | trade {m : List Entry} {s : Strat} {n : Int × Int} {p' : Pool} (fuel : Nat) (op : PoolOp) (hr : Accounts rs x m s n)
      (ho : op.ByOthers m s) (hsafe : op.Safe s.pool) (hx : op.exec fuel s.pool = .ok p') :
      Accounts rs x (op.ledger m) { s with pool := p' } (n.1 + (op.cash fuel s.pool).1, n.2 + (op.cash fuel s.pool).2)
  | snapshot {m : List Entry} {s s' : Strat} {n : Int × Int} (hr : Accounts rs x m s n) (hx : s.makeSnapshot = .ok s') :
      Accounts rs x m s' n
  | init {m : List Entry} {s s' : Strat} {n : Int × Int} {c : U256 × U256} (fuel : Nat) (hr : Accounts rs x m s n)
      (hx : s.init fuel = .ok (c, s')) (hf : Fits m s') (hw : MaySwap s c (book m s)) (hsafe : SwapsSafely s) (hu : Uses rs s') :
      Accounts rs x m s' n
  | rebalance {m : List Entry} {s s' : Strat} {n : Int × Int} {c : Option (U256 × U256)} (fuel : Nat) (hr : Accounts rs x m s n)
      (hx : s.rebalance fuel = .ok (c, s')) (hf : Fits m s') (hw : ∀ y, c = some y → MaySwap s y m) (hsafe : SwapsSafely s)
      (hu : Uses rs s') : Accounts rs x m s' n
  | burnAll {m : List Entry} {s s' : Strat} {n : Int × Int} {c : U256 × U256} (hr : Accounts rs x m s n)
      (hx : s.burnAll = .ok (c, s')) (he : s'.positions = []) : Accounts rs x m s' n

/-! ### Runs of the executor -/

/-- What an event moves into the pool (token0, token1), apart from what the strategy pays and gets: the tokens of the
transaction. -/
def Event.paid (fuel : Nat) (p : Pool) : Event → Int × Int
  | .apply t => match opOf t p with
    | some op => op.cash fuel p
    | none => (0, 0)
  | _ => (0, 0)

/-- A sequence of events leads from `s` to `s'`; the transactions among them pay `n` into the pool in total. -/
inductive Payments (fuel : Nat) : List Event → Strat → Int × Int → Strat → Prop
  | nil {s : Strat} : Payments fuel [] s (0, 0) s
  | cons {e : Event} {es : List Event} {s s1 s' : Strat} {vs : List U256} {n : Int × Int} (h : e.Does fuel s vs s1)
      (ht : Payments fuel es s1 n s') :
      Payments fuel (e :: es) s ((e.paid fuel s.pool).1 + n.1, (e.paid fuel s.pool).2 + n.2) s'

/-- In the state `s` the event uses the ranges `rs` only, and swaps start where the downward tick search works. -/
def Event.Safely (fuel : Nat) (rs : List (Int × Int)) (s : Strat) : Event → Prop
  | .init => SwapsSafely s ∧ ∀ c s', s.init fuel = .ok (c, s') → Uses rs s'
  | .rebalance => SwapsSafely s ∧ ∀ c s', s.rebalance fuel = .ok (c, s') → Uses rs s'
  | .apply t => ∀ op, opOf t s.pool = some op → op.Safe s.pool
  | .price => True
  | .value => True

/-- This holds at every event of the sequence. -/
def AllSafely (fuel : Nat) (rs : List (Int × Int)) (s : Strat) (es : List Event) : Prop :=
  ∀ pre ev post s1 ws, es = pre ++ ev :: post → Trace fuel pre s ws s1 → ev.Safely fuel rs s1

end Spec
end Uni
