import Verif.Spec.Solvency
import Verif.Spec.Growth
import Verif.Spec.Arith
/-! # The cash of the pool and the claims on it, fees included -/
namespace Uni
namespace Spec
open U256 _root_.Uni.Pool

/-- The position record of the range `r`; all zero if there is none. -/
def recordOf (p : Pool) (r : Int × Int) : Info :=
  match p.positions (posKey r.1 r.2) with
  | some i => i
  | none => ⟨zero, zero, zero, zero, zero⟩

/-- The fee growths inside the range `r` now. -/
def growthNow (p : Pool) (r : Int × Int) : U256 × U256 :=
  match p.ticks.getFeeGrowthInside r.1 r.2 p.tick p.growth0 p.growth1 with
  | .ok a => a
  | .error _ => (zero, zero)

/-- What the owner of the range `r` may claim in token0 besides the principal: the amount owed, and the fees that the next
use of the record will credit. -/
def claim0 (p : Pool) (r : Int × Int) : Nat :=
  (recordOf p r).owed0.toNat +
    (recordOf p r).liquidity.toNat * (sub (growthNow p r).1 (recordOf p r).inside0).toNat / 2 ^ 128

/-- The same for token1. -/
def claim1 (p : Pool) (r : Int × Int) : Nat :=
  (recordOf p r).owed1.toNat +
    (recordOf p r).liquidity.toNat * (sub (growthNow p r).2 (recordOf p r).inside1).toNat / 2 ^ 128

/-- Tokens (token0, token1) that an operation on `p` moves into the pool; negative: out of the pool.  As `flow`, but burned
liquidity is paid when it is collected, collecting pays what it reports, and a flash loan pays the fee
`⌈amount * fee / 10^6⌉`. -/
def PoolOp.cash (fuel : Nat) (p : Pool) : PoolOp → Int × Int
  | .burnStrategy _ _ _ => (0, 0)
  | .collectStrategy l u => match p.collectStrategy l u with
    | .ok r => (-r.1.toNat, -r.2.1.toNat)
    | .error _ => (0, 0)
  | .flash a b => (ceilDiv (a.toNat * p.fee.toNat) 1000000, ceilDiv (b.toNat * p.fee.toNat) 1000000)
  | op => op.flow fuel p

/-- The owners of position records use the ranges `rs` only, burn no more than is recorded for them, and plain burns leave
them the liquidity that is recorded for them. -/
def PoolOp.Fair (rs : List (Int × Int)) (p : Pool) (h : List Entry) : PoolOp → Prop
  | .mintStrategy l u _ => (l, u) ∈ rs
  | .burnStrategy l u a => (l, u) ∈ rs ∧ a.toNat ≤ (recordOf p (l, u)).liquidity.toNat
  | .collectStrategy l u => (l, u) ∈ rs
  | .burn l u a => (l, u) ∈ rs → ((recordOf p (l, u)).liquidity.toNat : Int) + a.toNat ≤ outstanding h l u
  | _ => True

/-- The ranges are listed once and no two of them share a position record (see C31). -/
def OwnRecords (rs : List (Int × Int)) : Prop :=
  rs.Nodup ∧ ∀ r ∈ rs, ∀ r' ∈ rs, posKey r.1 r.2 = posKey r'.1 r'.2 → r = r'

/-- `Cash rs p₀ h p b0 b1`: a sequence of admissible, safe and fair operations leads from `p₀` to `p`; `h` is the ledger of
the liquidity changes, `b0` and `b1` are the tokens paid in minus the tokens paid out. -/
inductive Cash (rs : List (Int × Int)) (p0 : Pool) : List Entry → Pool → Int → Int → Prop
  | start : Cash rs p0 [] p0 0 0
  | step {h : List Entry} {p p' : Pool} {b0 b1 : Int} (fuel : Nat) (op : PoolOp) (hr : Cash rs p0 h p b0 b1)
      (ha : op.Admissible p h) (hsafe : op.Safe p) (hfair : op.Fair rs p h) (hx : op.exec fuel p = .ok p') :
      Cash rs p0 (op.ledger h) p' (b0 + (op.cash fuel p).1) (b1 + (op.cash fuel p).2)

end Spec
end Uni
