import Verif.Model.Mem
import Verif.Model.Mod
/-! # The methods of `Int` on memory

`Model/U256.lean` treats the operands of a method as values.  In Go a method gets pointers, any of which may be the same,
and writes its result word by word into the number of its receiver `z`.  Here the methods are programs on a heap, with
one read or write of a word for each one in the Go code.

Simplifications: a Go statement that assigns several words at once (`z[3], z[2] = x[2], x[1]`) reads all its operands and
then stores the number; a method that computes in local variables and stores the result with its last statement
(`Mul`, `Div`, `Mod`, `MulMod`) reads its operands once, computes as in `Model/U256.lean`, and stores the number. -/
namespace Uni
open U256

/-- The word `z[i]`. -/
def U256.word (x : U256) (i : Fin 4) : Word :=
  match i with
  | 0 => x.w0
  | 1 => x.w1
  | 2 => x.w2
  | 3 => x.w3

/-- The number after `z[i] = w`. -/
def U256.setWord (x : U256) (i : Fin 4) (w : Word) : U256 :=
  match i with
  | 0 => { x with w0 := w }
  | 1 => { x with w1 := w }
  | 2 => { x with w2 := w }
  | 3 => { x with w3 := w }

/-- Programs on a heap.  A program is a sequence of accesses to single words of numbers and of allocations; what it does next
may depend on what it has read.  It ends with a value or with a panic. -/
inductive HM (α : Type) where
  | ret (a : α)
  | fail (e : Err)
  | rd (x : Nat) (i : Fin 4) (k : Word → HM α)
  | wr (z : Nat) (i : Fin 4) (w : Word) (k : HM α)
  | new (v : U256) (k : Nat → HM α)

/-- One program after the other. -/
def HM.bind {α β : Type} (m : HM α) (f : α → HM β) : HM β :=
  match m with
  | .ret a => f a
  | .fail e => .fail e
  | .rd x i k => .rd x i (fun w => (k w).bind f)
  | .wr z i w k => .wr z i w (k.bind f)
  | .new v k => .new v (fun r => (k r).bind f)

instance : Monad HM where
  pure := .ret
  bind := HM.bind

/-- The program run alone, from beginning to end: the value it returns and the new heap, or the panic. -/
def HM.run {α : Type} (m : HM α) (h : Heap) : Go (α × Heap) :=
  match m with
  | .ret a => .ok (a, h)
  | .fail e => .error e
  | .rd x i k => (k ((h.cell x).word i)).run h
  | .wr z i w k => k.run (h.write z ((h.cell z).setWord i w))
  | .new v k => (k (h.alloc v).1).run (h.alloc v).2

/-- `m h` is the result of `m` run alone on the heap `h`. -/
instance {α : Type} : CoeFun (HM α) (fun _ => Heap → Go (α × Heap)) := ⟨HM.run⟩

namespace InPlace

/-- The expression `x[i]`. -/
def rd (x : Nat) (i : Fin 4) : HM Word := .rd x i .ret

/-- The assignment `z[i] = w`. -/
def wr (z : Nat) (i : Fin 4) (w : Word) : HM Unit := .wr z i w (.ret ())

/-- The expression `*x`: four reads. -/
def load (x : Nat) : HM U256 := do
  let a ← rd x 0
  let b ← rd x 1
  let c ← rd x 2
  let d ← rd x 3
  return ⟨a, b, c, d⟩

/-- The assignment `*z = v`, or an assignment to all four words: four writes. -/
def store (z : Nat) (v : U256) : HM Unit := do
  wr z 0 v.w0
  wr z 1 v.w1
  wr z 2 v.w2
  wr z 3 v.w3

/-- A new number with the value `v`. -/
def new (v : U256) : HM Nat := .new v .ret

/-- A computation on values. -/
def lift {α : Type} (g : Go α) : HM α :=
  match g with
  | .error e => .fail e
  | .ok a => .ret a

/-- A one-armed `if` statement. -/
def whenM (b : Bool) (m : HM Unit) : HM Unit := if b then m else pure ()

/-- `/repo/uint256/uint256.go:176-183` `Add`. -/
def add (z x y : Nat) : HM Unit := do
  let r0 := add64 (← rd x 0) (← rd y 0) 0
  wr z 0 r0.1
  let r1 := add64 (← rd x 1) (← rd y 1) r0.2
  wr z 1 r1.1
  let r2 := add64 (← rd x 2) (← rd y 2) r1.2
  wr z 2 r2.1
  let r3 := add64 (← rd x 3) (← rd y 3) r2.2
  wr z 3 r3.1

/-- `/repo/uint256/uint256.go:186-193` `AddOverflow`. -/
def addOverflow (z x y : Nat) : HM Bool := do
  let r0 := add64 (← rd x 0) (← rd y 0) 0
  wr z 0 r0.1
  let r1 := add64 (← rd x 1) (← rd y 1) r0.2
  wr z 1 r1.1
  let r2 := add64 (← rd x 2) (← rd y 2) r1.2
  wr z 2 r2.1
  let r3 := add64 (← rd x 3) (← rd y 3) r2.2
  wr z 3 r3.1
  return r3.2 != 0

/-- `/repo/uint256/uint256.go:247-255` `AddUint64`. -/
def addUint64 (z x : Nat) (y : Word) : HM Unit := do
  let r0 := add64 (← rd x 0) y 0
  wr z 0 r0.1
  let r1 := add64 (← rd x 1) 0 r0.2
  wr z 1 r1.1
  let r2 := add64 (← rd x 2) 0 r1.2
  wr z 2 r2.1
  let r3 := add64 (← rd x 3) 0 r2.2
  wr z 3 r3.1

/-- `/repo/uint256/uint256.go:270-277` `SubUint64`. -/
def subUint64 (z x : Nat) (y : Word) : HM Unit := do
  let r0 := sub64 (← rd x 0) y 0
  wr z 0 r0.1
  let r1 := sub64 (← rd x 1) 0 r0.2
  wr z 1 r1.1
  let r2 := sub64 (← rd x 2) 0 r1.2
  wr z 2 r2.1
  let r3 := sub64 (← rd x 3) 0 r2.2
  wr z 3 r3.1

/-- `/repo/uint256/uint256.go:280-287` `SubOverflow`. -/
def subOverflow (z x y : Nat) : HM Bool := do
  let r0 := sub64 (← rd x 0) (← rd y 0) 0
  wr z 0 r0.1
  let r1 := sub64 (← rd x 1) (← rd y 1) r0.2
  wr z 1 r1.1
  let r2 := sub64 (← rd x 2) (← rd y 2) r1.2
  wr z 2 r2.1
  let r3 := sub64 (← rd x 3) (← rd y 3) r2.2
  wr z 3 r3.1
  return r3.2 != 0

/-- `/repo/uint256/uint256.go:290-297` `Sub`. -/
def sub (z x y : Nat) : HM Unit := do
  let r0 := sub64 (← rd x 0) (← rd y 0) 0
  wr z 0 r0.1
  let r1 := sub64 (← rd x 1) (← rd y 1) r0.2
  wr z 1 r1.1
  let r2 := sub64 (← rd x 2) (← rd y 2) r1.2
  wr z 2 r2.1
  let r3 := sub64 (← rd x 3) (← rd y 3) r2.2
  wr z 3 r3.1

/-- `/repo/uint256/uint256.go:690-692` `Neg`. -/
def neg (z x : Nat) : HM Unit := do
  let t ← new zero
  sub z t x

/-- `/repo/uint256/uint256.go:1095-1098` `Set`. -/
def set (z x : Nat) : HM Unit := do
  let v ← load x
  store z v

/-- `/repo/uint256/uint256.go:898-901` `Clear`. -/
def clear (z : Nat) : HM Unit := store z zero

/-- `/repo/uint256/uint256.go:910-913` `SetOne`. -/
def setOne (z : Nat) : HM Unit := store z one

/-- `/repo/uint256/uint256.go:904-907` `SetAllOne`. -/
def setAllOne (z : Nat) : HM Unit := store z allOne

/-- `/repo/uint256/uint256.go:846-849` `SetUint64`. -/
def setUint64 (z : Nat) (x : Word) : HM Unit := store z (ofWord x)

/-- `/repo/uint256/uint256.go:682-687` `Abs`. -/
def abs (z x : Nat) : HM Unit := do
  let w ← rd x 3
  if w < 0x8000000000000000#64 then set z x
  else do
    let t ← new zero
    sub z t x

/-- `/repo/uint256/uint256.go:349-371` `Mul`. -/
def mul (z x y : Nat) : HM Unit := do
  let a ← load x
  let b ← load y
  store z (U256.mul a b)

/-- `/repo/uint256/uint256.go:374-378` `MulOverflow`. -/
def mulOverflow (z x y : Nat) : HM Bool := do
  let a ← load x
  let b ← load y
  store z (U256.mulOverflow a b).1
  return (U256.mulOverflow a b).2

/-- `/repo/uint256/uint256.go:380-399` `squared`. -/
def squared (z : Nat) : HM Unit := do
  let a ← load z
  store z (U256.squared a)

/-- `/repo/uint256/uint256.go:539-557` `Div`. -/
def div (z x y : Nat) : HM Unit := do
  let a ← load x
  let b ← load y
  if b.isZero || b.gt a then clear z
  else if a.eq b then setOne z
  else if a.isUint64 then setUint64 z (BitVec.ofNat 64 (a.w0.toNat / b.w0.toNat))
  else do
    let r ← lift (udivrem [0, 0, 0, 0] a.limbs b)
    store z (ofWords r.1)

/-- `/repo/uint256/uint256.go:561-588` `Mod`. -/
def mod (z x y : Nat) : HM Unit := do
  let a ← load x
  let b ← load y
  if a.isZero || b.isZero then clear z
  else if a.cmp b = -1 then set z x
  else if a.cmp b = 0 then clear z
  else if a.isUint64 then setUint64 z (BitVec.ofNat 64 (a.w0.toNat % b.w0.toNat))
  else do
    let r ← lift (udivrem [0, 0, 0, 0] a.limbs b)
    store z r.2

/-- `/repo/uint256/uint256.go:598-605` (in `SMod`) and 703-717 (in `SDiv`): `x = new(Int).Neg(x)` if the flag says so. -/
def negIf (b : Bool) (x : Nat) : HM Nat :=
  if b then do
    let t ← new zero
    neg t x
    return t
  else return x

/-- `/repo/uint256/uint256.go:593-610` `SMod`. -/
def smod (z x y : Nat) : HM Unit := do
  let ys := (← load y).sign
  let xs := (← load x).sign
  let x' ← negIf (decide (xs = -1)) x
  let y' ← negIf (decide (ys = -1)) y
  mod z x' y'
  if xs = -1 then neg z z else return ()

/-- `/repo/uint256/uint256.go:697-718` `SDiv`. -/
def sdiv (z n d : Nat) : HM Unit := do
  let ns := (← load n).sign
  let ds := (← load d).sign
  if 0 < ns then
    if 0 < ds then div z n d
    else do
      let t ← negIf true d
      div z n t
      neg z z
  else if ds < 0 then do
    let s ← negIf true n
    let t ← negIf true d
    div z s t
  else do
    let s ← negIf true n
    div z s d
    neg z z

/-- `/repo/uint256/uint256.go:208-216` (twice in `AddMod`): `s = *x; if s - m overflows then s = *x`, for a local `s`. -/
def reduceOnce (s x m : Nat) : HM Unit := do
  set s x
  let o ← subOverflow s s m
  if o then set s x else return ()

/-- `if z == m { m = m.Clone() }` of `/repo/uint256/uint256.go:197-244` `AddMod`. -/
def cloneIf (z m : Nat) : HM Nat := do
  let c ← load m
  if z = m then new c else pure m

/-- `/repo/uint256/uint256.go:197-244` `AddMod`. -/
def addMod (z x y m : Nat) : HM Unit := do
  let a ← load x
  let b ← load y
  let c ← load m
  if c.w3 ≠ 0 ∧ a.w3 ≤ c.w3 ∧ b.w3 ≤ c.w3 then do
    let s ← new zero
    let t ← new zero
    reduceOnce s x m
    reduceOnce t y m
    let o ← addOverflow s s t
    whenM o (sub s s m)
    set t s
    let o ← subOverflow s s m
    whenM o (set s t)
    set z s
  else if c.isZero then clear z
  else do
    let m' ← cloneIf z m
    let o ← addOverflow z x y
    if o then do
      let w ← load z
      let d ← load m'
      let r ← lift (udivrem [0, 0, 0, 0, 0] [w.w0, w.w1, w.w2, w.w3, 1] d)
      store z r.2
    else mod z z m'

/-- `/repo/uint256/uint256.go:616-642` `MulModWithReciprocal`. -/
def mulModWithReciprocal (fuel : Nat) (z x y m : Nat) (mu : Words5) : HM Unit := do
  let a ← load x
  let b ← load y
  let c ← load m
  let v ← lift (U256.mulModWithReciprocal fuel a b c mu)
  store z v

/-- `/repo/uint256/uint256.go:647-673` `MulMod`. -/
def mulMod (fuel : Nat) (z x y m : Nat) : HM Unit := do
  let a ← load x
  let b ← load y
  let c ← load m
  let v ← lift (U256.mulMod fuel a b c)
  store z v

/-- `/repo/uint256/uint256.go:792-795` `Not`. -/
def not (z x : Nat) : HM Unit := do
  let a ← load x
  store z ⟨~~~a.w0, ~~~a.w1, ~~~a.w2, ~~~a.w3⟩

/-- `/repo/uint256/uint256.go:1101-1107` `Or`. -/
def or (z x y : Nat) : HM Unit := do
  wr z 0 ((← rd x 0) ||| (← rd y 0))
  wr z 1 ((← rd x 1) ||| (← rd y 1))
  wr z 2 ((← rd x 2) ||| (← rd y 2))
  wr z 3 ((← rd x 3) ||| (← rd y 3))

/-- `/repo/uint256/uint256.go:1110-1116` `And`. -/
def and (z x y : Nat) : HM Unit := do
  wr z 0 ((← rd x 0) &&& (← rd y 0))
  wr z 1 ((← rd x 1) &&& (← rd y 1))
  wr z 2 ((← rd x 2) &&& (← rd y 2))
  wr z 3 ((← rd x 3) &&& (← rd y 3))

/-- `/repo/uint256/uint256.go:1119-1125` `Xor`. -/
def xor (z x y : Nat) : HM Unit := do
  wr z 0 ((← rd x 0) ^^^ (← rd y 0))
  wr z 1 ((← rd x 1) ^^^ (← rd y 1))
  wr z 2 ((← rd x 2) ^^^ (← rd y 2))
  wr z 3 ((← rd x 3) ^^^ (← rd y 3))

/-- `/repo/uint256/uint256.go:754-757` `lsh64`, and likewise `lsh128`, `lsh192` (758-765), `rsh64`, `rsh128`, `rsh192` (766-777),
`srsh64`, `srsh128`, `srsh192` (778-789): one statement that assigns all words. -/
def assign (f : U256 → U256) (z x : Nat) : HM Unit := do
  let a ← load x
  store z (f a)

/-- `/repo/uint256/uint256.go:968-971` the end of `Lsh`, from the label `sh192`. -/
def lshEnd192 (z n : Nat) (a : Word) : HM Unit := do
  wr z 3 (((← rd z 3) <<< n) ||| a)

/-- `/repo/uint256/uint256.go:964-971` from the label `sh128`. -/
def lshEnd128 (z n : Nat) (b : Word) : HM Unit := do
  let a := (← rd z 2) >>> (64 - n)
  wr z 2 (((← rd z 2) <<< n) ||| b)
  lshEnd192 z n a

/-- `/repo/uint256/uint256.go:960-971` from the label `sh64`. -/
def lshEnd64 (z n : Nat) (a : Word) : HM Unit := do
  let b := (← rd z 1) >>> (64 - n)
  wr z 1 (((← rd z 1) <<< n) ||| a)
  lshEnd128 z n b

/-- `/repo/uint256/uint256.go:916-972` `Lsh`. -/
def lsh (z x n : Nat) : HM Unit :=
  if n % 64 = 0 then
    if n = 0 then set z x
    else if n = 64 then assign lsh64 z x
    else if n = 128 then assign lsh128 z x
    else if n = 192 then assign lsh192 z x
    else clear z
  else if 192 < n then
    if 256 < n then clear z
    else do
      assign lsh192 z x
      lshEnd192 z (n - 192) 0
  else if 128 < n then do
    assign lsh128 z x
    lshEnd128 z (n - 128) 0
  else if 64 < n then do
    assign lsh64 z x
    lshEnd64 z (n - 64) 0
  else do
    set z x
    let a := (← rd z 0) >>> (64 - n)
    wr z 0 ((← rd z 0) <<< n)
    lshEnd64 z n a

/-- `/repo/uint256/uint256.go:1027-1030` the end of `Rsh`, from the label `sh192`. -/
def rshEnd192 (z n : Nat) (a : Word) : HM Unit := do
  wr z 0 (((← rd z 0) >>> n) ||| a)

/-- `/repo/uint256/uint256.go:1023-1030` from the label `sh128`. -/
def rshEnd128 (z n : Nat) (b : Word) : HM Unit := do
  let a := (← rd z 1) <<< (64 - n)
  wr z 1 (((← rd z 1) >>> n) ||| b)
  rshEnd192 z n a

/-- `/repo/uint256/uint256.go:1019-1030` from the label `sh64`. -/
def rshEnd64 (z n : Nat) (a : Word) : HM Unit := do
  let b := (← rd z 2) <<< (64 - n)
  wr z 2 (((← rd z 2) >>> n) ||| a)
  rshEnd128 z n b

/-- `/repo/uint256/uint256.go:975-1031` `Rsh`. -/
def rsh (z x n : Nat) : HM Unit :=
  if n % 64 = 0 then
    if n = 0 then set z x
    else if n = 64 then assign rsh64 z x
    else if n = 128 then assign rsh128 z x
    else if n = 192 then assign rsh192 z x
    else clear z
  else if 192 < n then
    if 256 < n then clear z
    else do
      assign rsh192 z x
      rshEnd192 z (n - 192) 0
  else if 128 < n then do
    assign rsh128 z x
    rshEnd128 z (n - 128) 0
  else if 64 < n then do
    assign rsh64 z x
    rshEnd64 z (n - 64) 0
  else do
    set z x
    let a := (← rd z 3) <<< (64 - n)
    wr z 3 ((← rd z 3) >>> n)
    rshEnd64 z n a

/-- `/repo/uint256/uint256.go:1088-1091` the end of `SRsh`, from the label `sh192`. -/
def srshEnd192 (z n : Nat) (a : Word) : HM Unit := do
  wr z 0 (((← rd z 0) >>> n) ||| a)

/-- `/repo/uint256/uint256.go:1085-1091` from the label `sh128`. -/
def srshEnd128 (z n : Nat) (a : Word) : HM Unit := do
  let w ← rd z 1
  wr z 1 ((w >>> n) ||| a)
  srshEnd192 z n (w <<< (64 - n))

/-- `/repo/uint256/uint256.go:1082-1091` from the label `sh64`. -/
def srshEnd64 (z n : Nat) (a : Word) : HM Unit := do
  let w ← rd z 2
  wr z 2 ((w >>> n) ||| a)
  srshEnd128 z n (w <<< (64 - n))

/-- `/repo/uint256/uint256.go:1036-1092` `SRsh`. -/
def srsh (z x n : Nat) : HM Unit := do
  let v ← load x
  if !v.isBitSet 255 then rsh z x n
  else if n % 64 = 0 then
    if n = 0 then set z x
    else if n = 64 then assign srsh64 z x
    else if n = 128 then assign srsh128 z x
    else if n = 192 then assign srsh192 z x
    else setAllOne z
  else if 192 < n then
    if 256 < n then setAllOne z
    else do
      assign srsh192 z x
      srshEnd192 z (n - 192) (BitVec.allOnes 64 <<< (64 - n % 64))
  else if 128 < n then do
    assign srsh128 z x
    srshEnd128 z (n - 128) (BitVec.allOnes 64 <<< (64 - n % 64))
  else if 64 < n then do
    assign srsh64 z x
    srshEnd64 z (n - 64) (BitVec.allOnes 64 <<< (64 - n % 64))
  else do
    set z x
    let w ← rd z 3
    wr z 3 ((w >>> n) ||| (BitVec.allOnes 64 <<< (64 - n % 64)))
    srshEnd64 z n (w <<< (64 - n))

/-- `/repo/uint256/uint256.go:1131-1144` `Byte`. -/
def byte (z n : Nat) : HM Unit := do
  let nu := (← load n).uint64WithOverflow
  if !nu.2 ∧ nu.1.toNat < 32 then do
    let number ← rd z (Fin.ofNat 4 (3 - nu.1.toNat / 8))
    let offset := ((← rd n 0) &&& 7) <<< 3
    wr z 0 ((number &&& (0xff00000000000000#64 >>> offset.toNat)) >>> (56 - offset.toNat))
    wr z 3 0
    wr z 2 0
    wr z 1 0
  else clear z

/-- One of the four loops of `/repo/uint256/uint256.go:1147-1189` `Exp` on the local numbers `res` and `multiplier`. -/
def expLoop (res multiplier : Nat) : Nat → Word → HM Unit
  | 0, _ => pure ()
  | k + 1, word => do
    whenM (word &&& 1 == 1) (mul res res multiplier)
    squared multiplier
    expLoop res multiplier k (word >>> 1)

/-- `/repo/uint256/uint256.go:1147-1189` `Exp`. -/
def exp (z base exponent : Nat) : HM Unit := do
  let res ← new one
  let multiplier ← new (← load base)
  let n := (← load exponent).bitLen
  expLoop res multiplier (min n 64) (← rd exponent 0)
  expLoop res multiplier (min n 128 - 64) (← rd exponent 1)
  expLoop res multiplier (min n 192 - 128) (← rd exponent 2)
  expLoop res multiplier (min n 256 - 192) (← rd exponent 3)
  set z res

/-- `/repo/uint256/uint256.go:1196-1211` `ExtendSign`. -/
def extendSign (z x byteNum : Nat) : HM Unit := do
  let k ← load byteNum
  if k.gtUint64 31 then set z x
  else do
    let bit := k.w0.toNat * 8 + 7
    let mask ← new one
    lsh mask mask bit
    subUint64 mask mask 1
    let v ← load x
    if v.isBitSet bit then do
      not mask mask
      or z x mask
    else and z x mask

/-- The inlined shift of `/repo/uint256/uint256.go:1228-1236`. -/
def rsh1 (z : Nat) : HM Unit := do
  let a := (← rd z 3) <<< 63
  wr z 3 ((← rd z 3) >>> 1)
  let b := (← rd z 2) <<< 63
  wr z 2 (((← rd z 2) >>> 1) ||| a)
  let a := (← rd z 1) <<< 63
  wr z 1 (((← rd z 1) >>> 1) ||| b)
  wr z 0 (((← rd z 0) >>> 1) ||| a)

/-- The loop of `/repo/uint256/uint256.go:1225-1244` with fuel; the pointers `z1` and `z2` are exchanged. -/
def sqrtLoop (z x : Nat) : Nat → Nat → Nat → HM Unit
  | 0, _, _ => lift (.error .fuel)
  | fuel + 1, z1, z2 => do
    div z2 x z1
    add z2 z2 z1
    rsh1 z2
    let a ← load z2
    let b ← load z1
    if 0 ≤ cmp a b then set z z1 else sqrtLoop z x fuel z2 z1

/-- `/repo/uint256/uint256.go:1214-1245` `Sqrt`, with the fuel that is proved enough. -/
def sqrt (z x : Nat) : HM Unit := do
  let v ← load x
  if v.ltUint64 2 then set z x
  else do
    let z1 ← new one
    let z2 ← new zero
    lsh z1 z1 ((v.bitLen + 1) / 2)
    sqrtLoop z x 300 z1 z2

end InPlace
end Uni
