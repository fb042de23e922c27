import Verif.Model.Executor
import Verif.Model.Conversion
import Verif.Model.Decimal
/-! # Storing and loading transactions (`lib/transaction`, the loader of `main.go`)

The JSON syntax (`encoding/json`) is not modelled: `MarshalJSON` produces, and the loader consumes, a value of the struct
`TransactionInput`; a field left out by `omitempty` is the zero value of its type when it is read back.  The decimal texts
of `math/big` are modelled character by character. -/
namespace Uni
open U256

/-- `/repo/lib/transaction/transaction.go:9-21` `TransactionInput`. -/
structure TransactionInput where
  type : String
  id : String
  timestamp : Int
  amount0 : String
  amount1 : String
  amount : String
  sqrtPrice : String
  tick : Int
  tickLower : Int
  tickUpper : Int
  useX96 : String
  deriving DecidableEq, Repr

/-- `strconv.FormatBool`. -/
def formatBool (b : Bool) : String := if b then "true" else "false"

/-- The value `strconv.ParseBool` returns (`false` also when it returns an error). -/
def parseBool (s : String) : Bool :=
  s = "1" || s = "t" || s = "T" || s = "TRUE" || s = "true" || s = "True"

/-- `/repo/lib/transaction/transaction.go:37-72` `MarshalJSON` up to `json.Marshal`. -/
def Transaction.marshal (t : Transaction) : Go TransactionInput :=
  if t.type = "Swap" then
    .ok { type := t.type, amount0 := Dec.bigString (sToBig t.amount0), amount1 := Dec.bigString (sToBig t.amount1),
          id := t.id, sqrtPrice := Dec.bigString (sToBig t.sqrtPrice), tick := t.tick, timestamp := t.timestamp,
          useX96 := formatBool t.useX96, amount := "", tickLower := 0, tickUpper := 0 }
  else if t.type = "Mint" ∨ t.type = "Burn" then
    .ok { type := t.type, amount := Dec.bigString (sToBig t.amount), amount1 := Dec.bigString (sToBig t.amount1),
          amount0 := Dec.bigString (sToBig t.amount0), tickLower := t.tickLower, tickUpper := t.tickUpper, id := t.id,
          timestamp := t.timestamp, sqrtPrice := "", tick := 0, useX96 := "" }
  else if t.type = "Flash" then
    .ok { type := t.type, amount0 := Dec.bigString (sToBig t.amount0), amount1 := Dec.bigString (sToBig t.amount1),
          id := t.id, timestamp := t.timestamp, amount := "", sqrtPrice := "", tick := 0, tickLower := 0,
          tickUpper := 0, useX96 := "" }
  else goPanic

/-- `/repo/main.go:317-322` `stringToUint256`.  The empty text leaves the number at 0.  For any other text that is not a
number the value is undefined according to the documentation of `math/big`; here it is given by `junk`. -/
def stringToUint256 (junk : String → Int) (amount : String) : U256 :=
  match Dec.setString amount with
  | some b => (fromBig b).1
  | none => if amount = "" then (fromBig 0).1 else (fromBig (junk amount)).1

/-- `/repo/main.go:298-311` the conversion of one transaction of the file. -/
def TransactionInput.load (junk : String → Int) (t : TransactionInput) : Transaction :=
  { type := t.type, amount := stringToUint256 junk t.amount, amount0 := stringToUint256 junk t.amount0,
    amount1 := stringToUint256 junk t.amount1, id := t.id, sqrtPrice := stringToUint256 junk t.sqrtPrice,
    tick := t.tick, tickLower := t.tickLower, tickUpper := t.tickUpper, timestamp := t.timestamp,
    useX96 := parseBool t.useX96 }

/-- `/repo/main.go:296-314` the loop of `getTransactions`. -/
def getTransactions (junk : String → Int) : List TransactionInput → List Transaction
  | [] => []
  | t :: ts => t.load junk :: getTransactions junk ts

/-- Encoding a list of transactions: the first that cannot be encoded panics. -/
def marshalAll : List Transaction → Go (List TransactionInput)
  | [] => .ok []
  | t :: ts => do
    let x ← t.marshal
    let xs ← marshalAll ts
    return x :: xs

end Uni
