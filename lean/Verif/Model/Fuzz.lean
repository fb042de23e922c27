import Verif.Model.InPlace
import Verif.Model.Conversion
import Mathlib.Data.Nat.Sqrt
/-! # The fuzz harness of the 256-bit library (`uint256/fuzz.go`)

The harness calls the methods on memory (`Model/InPlace.lean`) and compares with `math/big`.  Local variables of type `Int`
whose address is taken are cells of the heap; `math/big` integers are `Int`, and the functions on them get only their
operands (the receiver `new(big.Int)` is overwritten). -/
namespace Uni
namespace Fuzz
open U256 InPlace

/-- `/repo/uint256/fuzz.go:36-46` `crash`: the message is not modelled. -/
def crash : HM Unit := lift (.error .panic)

/-- A method with one operand and its returned pointer, which is the receiver: `/repo/uint256/uint256.go:1214-1245` `Sqrt`. -/
def method1 (m : Nat → Nat → HM Unit) (z x : Nat) : HM Nat := do
  m z x
  return z

/-- A method with two operands and its returned pointer: `Add`, `Sub`, `Mul`, `Div`, `Mod`
(`/repo/uint256/uint256.go:176-183`, 290-297, 349-371, 539-557, 561-588). -/
def method2 (m : Nat → Nat → Nat → HM Unit) (z x y : Nat) : HM Nat := do
  m z x y
  return z

/-- `/repo/uint256/fuzz.go:268-270` `intMulMod`, 276-278 `intAddMod`: the method and its returned pointer. -/
def method3 (m : Nat → Nat → Nat → Nat → HM Unit) (z x y w : Nat) : HM Nat := do
  m z x y w
  return z

/-- `/repo/uint256/fuzz.go:48-80` `checkUnaryOp`. -/
def checkUnaryOp (op : Nat → Nat → HM Nat) (bigOp : Int → Int) (xv : U256) : HM Unit := do
  let x ← new xv
  let origX ← load x
  let result ← new zero
  let ret ← op result x
  whenM (decide (ret ≠ result)) crash
  whenM (decide ((← load x) ≠ origX)) crash
  let expected := (fromBig (bigOp (toBig (← load x)))).1
  whenM (decide ((← load result) ≠ expected)) crash
  let garbage ← new zero
  let one ← new (ofWord 1)
  sub garbage garbage one
  let ret ← op garbage x
  whenM (decide (ret ≠ garbage)) crash
  whenM (decide ((← load garbage) ≠ expected)) crash
  let ret ← op x x
  whenM (decide (ret ≠ x)) crash
  whenM (decide ((← load x) ≠ expected)) crash

/-- `/repo/uint256/fuzz.go:82-136` `checkDualArgOp`. -/
def checkDualArgOp (op : Nat → Nat → Nat → HM Nat) (bigOp : Int → Int → Int) (xv yv : U256) : HM Unit := do
  let x ← new xv
  let y ← new yv
  let origX ← new (← load x)
  let origY ← new (← load y)
  let result ← new zero
  let ret ← op result x y
  whenM (decide (ret ≠ result)) crash
  whenM (decide ((← load x) ≠ (← load origX))) crash
  whenM (decide ((← load y) ≠ (← load origY))) crash
  let expected := (fromBig (bigOp (toBig (← load x)) (toBig (← load y)))).1
  whenM (decide ((← load result) ≠ expected)) crash
  let garbage ← new zero
  xor garbage x y
  let ret ← op garbage x y
  whenM (decide (ret ≠ garbage)) crash
  whenM (decide ((← load garbage) ≠ expected)) crash
  whenM (decide ((← load x) ≠ (← load origX))) crash
  whenM (decide ((← load y) ≠ (← load origY))) crash
  let ret ← op x x y
  whenM (decide (ret ≠ x)) crash
  whenM (decide ((← load x) ≠ expected)) crash
  let ret ← op y origX y
  whenM (decide (ret ≠ y)) crash
  whenM (decide ((← load y) ≠ expected)) crash

/-- `/repo/uint256/fuzz.go:138-203` `checkThreeArgOp` (the cases of a `switch` all crash). -/
def checkThreeArgOp (op : Nat → Nat → Nat → Nat → HM Nat) (bigOp : Int → Int → Int → Int) (xv yv zv : U256) : HM Unit := do
  let x ← new xv
  let y ← new yv
  let z ← new zv
  let origX ← new (← load x)
  let origY ← new (← load y)
  let origZ ← new (← load z)
  let result ← new zero
  let ret ← op result x y z
  whenM (decide (ret ≠ result)) crash
  whenM (decide ((← load x) ≠ (← load origX))) crash
  whenM (decide ((← load y) ≠ (← load origY))) crash
  whenM (decide ((← load z) ≠ (← load origZ))) crash
  let expected := (fromBig (bigOp (toBig (← load x)) (toBig (← load y)) (toBig (← load z)))).1
  whenM (decide ((← load result) ≠ expected)) crash
  let garbage ← new zero
  xor garbage x y
  let ret ← op garbage x y z
  whenM (decide (ret ≠ garbage)) crash
  whenM (decide ((← load garbage) ≠ expected)) crash
  whenM (decide ((← load x) ≠ (← load origX))) crash
  whenM (decide ((← load y) ≠ (← load origY))) crash
  whenM (decide ((← load z) ≠ (← load origZ))) crash
  let ret ← op x x y z
  whenM (decide (ret ≠ x)) crash
  whenM (decide ((← load x) ≠ expected)) crash
  let ret ← op y origX y z
  whenM (decide (ret ≠ y)) crash
  whenM (decide ((← load y) ≠ expected)) crash
  let ret ← op z origX origY z
  whenM (decide (ret ≠ z)) crash
  whenM (decide ((← load z) ≠ expected)) crash

/-- `math/big`'s `Sqrt` of a number that is not negative. -/
def bigSqrt (x : Int) : Int := (Nat.sqrt x.toNat : Nat)

/-- `/repo/uint256/fuzz.go:224-229` `fuzzUnaryOp`. -/
def fuzzUnaryOp (data : List Byte) : HM Int := do
  let x ← new zero
  store x (← lift (do setBytes (← sl data 0 32)))
  checkUnaryOp (method1 sqrt) bigSqrt (← load x)
  return 1

/-- `/repo/uint256/fuzz.go:243-245` `lsh`. -/
def lshOp (z x y : Nat) : HM Nat := do
  let n ← rd y 0
  lsh z x n.toNat
  return z

/-- `/repo/uint256/fuzz.go:246-252` `bigLsh`. -/
def bigLsh (x y : Int) : Int :=
  let n := y.natAbs % 2 ^ 64
  let n := if n > 256 then 256 else n
  x * 2 ^ n

/-- `/repo/uint256/fuzz.go:231-262` `fuzzBinaryOp`; `big.Int.Div` and `Mod` are Euclidean. -/
def fuzzBinaryOp (data : List Byte) : HM Int := do
  let x ← new zero
  let y ← new zero
  store x (← lift (do setBytes (← sl data 0 32)))
  store y (← lift (do setBytes (← sl data 32 data.length)))
  whenM (!(← load y).isZero) (do
    checkDualArgOp (method2 div) (fun a b => Int.ediv a b) (← load x) (← load y)
    checkDualArgOp (method2 mod) (fun a b => Int.emod a b) (← load x) (← load y))
  checkDualArgOp (method2 mul) (fun a b => a * b) (← load x) (← load y)
  checkDualArgOp lshOp bigLsh (← load x) (← load y)
  checkDualArgOp (method2 add) (fun a b => a + b) (← load x) (← load y)
  checkDualArgOp (method2 sub) (fun a b => a - b) (← load x) (← load y)
  return 1

/-- `/repo/uint256/fuzz.go:264-266` `bigMulMod`. -/
def bigMulMod (a b m : Int) : Int := Int.emod (a * b) m

/-- `/repo/uint256/fuzz.go:272-274` `bigAddMod`. -/
def bigAddMod (a b m : Int) : Int := Int.emod (a + b) m

/-- `/repo/uint256/fuzz.go:280-296` `fuzzTernaryOp`; `fuel` bounds the loop in `MulMod`. -/
def fuzzTernaryOp (fuel : Nat) (data : List Byte) : HM Int := do
  let x ← new zero
  let y ← new zero
  let z ← new zero
  store x (← lift (do setBytes (← sl data 0 32)))
  store y (← lift (do setBytes (← sl data 32 64)))
  store z (← lift (do setBytes (← sl data 64 data.length)))
  if (← load z).isZero then return 0
  else do
    checkThreeArgOp (method3 (mulMod fuel)) bigMulMod (← load x) (← load y) (← load z)
    checkThreeArgOp (method3 addMod) bigAddMod (← load x) (← load y) (← load z)
    return 1

/-- `/repo/uint256/fuzz.go:205-222` `Fuzz` (the `switch` is never reached). -/
def fuzz (data : List Byte) : HM Int :=
  if data.length < 32 then return 0 else fuzzUnaryOp data

end Fuzz
end Uni
